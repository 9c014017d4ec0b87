import Verif.Props.Training
import Verif.Props.Torus
import Verif.Lemmas.Weights
import Verif.Props.Batch

/-! # C110 on the torus: training on rolled images -/

namespace GConv.Torus

open Tensor Spec Batch Reading Conv Net

variable {t : List ℤ} {S : List ℕ} {x x' : Tensor ℝ} {G : Type} {d : ℕ}

/-! ## one pass and the running statistics it leaves -/

theorem folded_both {φ : List ℕ → List ℕ} {R : F.Running → F.Running → Prop} {norm : Tensor ℝ → Except PyErr (Tensor ℝ × F.Running)} {N C n Z : ℕ} {s : List ℕ}
    (hn : ∀ ψ x x', BoxBijection (n * Z :: s) (n * Z :: s) ψ → Reordered ψ N C (n * Z :: s) (n * Z :: s) x x' →
      Outcomes2 (fun a b => Reordered ψ N C (n * Z :: s) (n * Z :: s) a.1 b.1 ∧ R a.2 b.2) (norm x) (norm x')) (H : Tensor G)
    (hφ : BoxBijection (n :: Z :: s) (n :: Z :: s) φ) (h : Reordered φ N C (n :: Z :: s) (n :: Z :: s) x x') :
    Outcomes2 (fun a b => (Reordered φ N C (n :: Z :: s) (n :: Z :: s) a.1.1 b.1.1 ∧ a.1.2 = b.1.2) ∧ R a.2 b.2)
      (Normalization.folded norm x H) (Normalization.folded norm x' H) := by
  obtain ⟨hx, hx', hv⟩ := h
  have hp : (n :: Z :: s).prod = (n * Z :: s).prod := by simp [Nat.mul_assoc]
  have b1 := reshape_bij hp
  have b2 := reshape_bij hp.symm
  obtain ⟨y, y1, y2, y3⟩ := view_tail hx hp
  obtain ⟨y', z1, z2, z3⟩ := view_tail hx' hp
  have hψ := comp_bij (comp_bij b1 hφ) b2
  have inv2 : ∀ j, InB (n :: Z :: s) j → unravel (n :: Z :: s) (ravel (n * Z :: s) (unravel (n * Z :: s) (ravel (n :: Z :: s) j))) = j := by
    intro j hj
    rw [ravel_unravel (by rw [← hp]; exact ravel_lt hj), unravel_ravel hj]
  have hy := hn _ y y' hψ ⟨y2, z2, fun b c j hb hc hj => by
    rw [z3 b c j hb hc hj, hv b c _ hb hc (b1.1 j hj), y3 b c _ hb hc (hψ.1 j hj)]
    congr 3
    exact (inv2 _ (hφ.1 _ (b1.1 j hj))).symm⟩
  unfold Normalization.folded
  rw [hx, hx']
  dsimp only
  rw [y1, z1, ok_bind, ok_bind]
  generalize norm y = v at hy
  generalize norm y' = v' at hy
  cases hy with
  | error e => exact .error e
  | @ok a b h =>
    rw [ok_bind, ok_bind]
    obtain ⟨⟨ha, hb', hab⟩, hR⟩ := h
    obtain ⟨u, u1, u2, u3⟩ := view_tail ha hp.symm
    obtain ⟨u', v1, v2, v3⟩ := view_tail hb' hp.symm
    rw [u1, v1]
    refine .ok ⟨⟨⟨u2, v2, fun b c i hb hc hi => ?_⟩, rfl⟩, hR⟩
    show u'.get (b :: c :: i) = u.get (b :: c :: φ i)
    rw [v3 b c i hb hc hi, hab b c _ hb hc (b2.1 i hi), u3 b c _ hb hc (hφ.1 i hi)]
    dsimp only
    rw [inv2 i hi]

theorem norm_both {R : F.Running → F.Running → Prop} {f : Tensor ℝ → Except PyErr (Tensor ℝ × F.Running)}
    (hf : ∀ N C T ψ x x', T.length = S.length → BoxBijection T T ψ → Reordered ψ N C T T x x' →
      Outcomes2 (fun a b => Reordered ψ N C T T a.1 b.1 ∧ R a.2 b.2) (f x) (f x')) (H : Tensor G) (h : Rolled t 3 S x x') :
    Outcomes2 (fun a b => RolledLayer t 3 S a.1 b.1 ∧ R a.2 b.2) (Normalization.folded f x H) (Normalization.folded f x' H) := by
  obtain ⟨N, C, n, hx, hx'⟩ := shape_of h
  rcases S with _ | ⟨Z, s⟩
  · unfold Normalization.folded
    rw [hx, hx']
    exact .error _
  · have := folded_both (R := R) (fun ψ x x' hψ h => hf N C (n * Z :: s) ψ x x' (by simp) hψ h) H (head_bij t n (Z :: s)) (reordered hx h)
    generalize Normalization.folded f x H = v at this
    generalize Normalization.folded f x' H = v' at this
    cases this with
    | error e => exact .error e
    | ok h => exact .ok ⟨⟨rolled h.1.1, h.1.2⟩, h.2⟩

theorem upto_congr {C : ℕ} {r r' : F.Running} (hn : r.count = r'.count) (h : ∀ c < C, r.mean c = r'.mean c ∧ r.var c = r'.var c) :
    r.upto C = r'.upto C := upto_eq ⟨hn, h⟩

theorem batch_both {N C : ℕ} {T : List ℕ} (nd : ℕ) (a : F.NormArgs) (tr : Bool) (r : F.Running) {ψ : List ℕ → List ℕ} (hψ : BoxBijection T T ψ)
    (h : Reordered ψ N C T T x x') :
    Outcomes2 (fun p q => Reordered ψ N C T T p.1 q.1 ∧ p.2.upto a.features = q.2.upto a.features)
      (F.batchNorm nd a tr r x) (F.batchNorm nd a tr r x') := by
  have h0 := batchNorm nd a tr r hψ h
  obtain ⟨hx, hx', hv⟩ := h
  have hb := Normalization.cons_bij N hψ
  have hch : ∀ c < C, ∀ i, InB (N :: T) i → F.channel x c (i.headD 0 :: ψ i.tail) = F.channel x' c i := by
    intro c hc i hi
    obtain ⟨b, q, rfl, hb', hq⟩ := InB_cons_left hi
    exact (hv b c q hb' hc hq).symm
  have hm : ∀ c < C, F.boxMean (N :: T) (F.channel x c) = F.boxMean (N :: T) (F.channel x' c) := fun c hc =>
    (meanOver_bij hb (hch c hc)).symm
  have hvar : ∀ c < C, F.boxVarUnbiased (N :: T) (F.channel x c) = F.boxVarUnbiased (N :: T) (F.channel x' c) := fun c hc =>
    (varUnbiased_bij hb (hch c hc)).symm
  generalize hp : F.batchNorm nd a tr r x = p at h0 ⊢
  generalize hq : F.batchNorm nd a tr r x' = q at h0 ⊢
  cases h0 with
  | error e => exact .error e
  | @ok p q h0 =>
    refine .ok ⟨h0, ?_⟩
    unfold F.batchNorm at hp hq
    rw [hx] at hp
    rw [hx'] at hq
    dsimp only at hp hq
    split at hp
    · cases hp
    rename_i g1
    rw [if_neg g1] at hq
    split at hp
    · rename_i g2
      rw [if_pos g2] at hq
      split at hp
      · cases hp
      rename_i g3
      rw [if_neg g3] at hq
      split at hp
      · cases hp
      rename_i g4
      rw [if_neg g4] at hq
      cases hp
      cases hq
      dsimp only
      by_cases g5 : tr = true ∧ a.track = true
      · have hC : C = a.features := by
          by_contra hC
          exact g4 ⟨Or.inr g5.2, hC⟩
        rw [if_pos g5, if_pos g5]
        refine upto_congr rfl fun c hc => ⟨?_, ?_⟩
        · show (1 - _) * _ + _ * F.boxMean (N :: T) (F.channel x c) = (1 - _) * _ + _ * F.boxMean (N :: T) (F.channel x' c)
          rw [hm c (by rw [hC]; exact hc)]
        · show (1 - _) * _ + _ * F.boxVarUnbiased (N :: T) (F.channel x c) = (1 - _) * _ + _ * F.boxVarUnbiased (N :: T) (F.channel x' c)
          rw [hvar c (by rw [hC]; exact hc)]
      · rw [if_neg g5, if_neg g5]
    · rename_i g2
      rw [if_neg g2] at hq
      split at hp
      · cases hp
      rename_i g3
      rw [if_neg g3] at hq
      cases hp
      cases hq
      rfl

theorem inst_both {N C : ℕ} {T : List ℕ} (nd : ℕ) (hT : T.length = nd) (a : F.NormArgs) (tr : Bool) (r : F.Running) {ψ : List ℕ → List ℕ}
    (hψ : BoxBijection T T ψ) (h : Reordered ψ N C T T x x') :
    Outcomes2 (fun p q => Reordered ψ N C T T p.1 q.1 ∧ p.2.upto a.features = q.2.upto a.features)
      (F.instanceNorm nd a tr r x) (F.instanceNorm nd a tr r x') := by
  have h0 := instNorm nd hT a tr r hψ h
  obtain ⟨hx, hx', hv⟩ := h
  have hch : ∀ b < N, ∀ c < C, ∀ i, InB T i → F.instChannel x b c (ψ i) = F.instChannel x' b c i := fun b hb c hc i hi =>
    (hv b c i hb hc hi).symm
  have hm : ∀ b < N, ∀ c < C, F.boxMean T (F.instChannel x b c) = F.boxMean T (F.instChannel x' b c) := fun b hb c hc =>
    (meanOver_bij hψ (hch b hb c hc)).symm
  have hvar : ∀ b < N, ∀ c < C, F.boxVarUnbiased T (F.instChannel x b c) = F.boxVarUnbiased T (F.instChannel x' b c) := fun b hb c hc =>
    (varUnbiased_bij hψ (hch b hb c hc)).symm
  have hone : ∀ f g : ℕ → ℝ, (∀ b < N, f b = g b) → F.boxMean [N] (fun i => f (i.headD 0)) = F.boxMean [N] (fun i => g (i.headD 0)) :=
    fun f g hfg => GConv.Batch.boxMean_congr fun i hi => by
      obtain ⟨b, q, rfl, hb, -⟩ := InB_cons_left hi
      exact hfg b hb
  generalize hp : F.instanceNorm nd a tr r x = p at h0 ⊢
  generalize hq : F.instanceNorm nd a tr r x' = q at h0 ⊢
  cases h0 with
  | error e => exact .error e
  | @ok p q h0 =>
    refine .ok ⟨h0, ?_⟩
    unfold F.instanceNorm at hp hq
    rw [hx, List.length_cons, List.length_cons, if_neg (by omega)] at hp
    rw [hx', List.length_cons, List.length_cons, if_neg (by omega)] at hq
    unfold F.instanceNormBatched at hp hq
    rw [hx] at hp
    rw [hx'] at hq
    dsimp only at hp hq
    split at hp
    · cases hp
    rename_i g1
    rw [if_neg g1] at hq
    split at hp
    · cases hp
    rename_i g1
    rw [if_neg g1] at hq
    split at hp
    · rename_i g2
      rw [if_pos g2] at hq
      split at hp
      · cases hp
      rename_i g3
      rw [if_neg g3] at hq
      split at hp
      · cases hp
      rename_i g4
      rw [if_neg g4] at hq
      cases hp
      cases hq
      dsimp only
      by_cases g5 : tr = true ∧ a.track = true
      · have hC : C = a.features := by
          by_contra hC
          exact g4 ⟨g5.2, hC⟩
        rw [if_pos g5, if_pos g5]
        refine upto_congr rfl fun c hc => ⟨?_, ?_⟩
        · show (1 - _) * _ + _ * F.boxMean [N] (fun i => F.boxMean T (F.instChannel x (i.headD 0) c)) =
            (1 - _) * _ + _ * F.boxMean [N] (fun i => F.boxMean T (F.instChannel x' (i.headD 0) c))
          rw [hone _ _ fun b hb => hm b hb c (by rw [hC]; exact hc)]
        · show (1 - _) * _ + _ * F.boxMean [N] (fun i => F.boxVarUnbiased T (F.instChannel x (i.headD 0) c)) =
            (1 - _) * _ + _ * F.boxMean [N] (fun i => F.boxVarUnbiased T (F.instChannel x' (i.headD 0) c))
          rw [hone _ _ fun b hb => hvar b hb c (by rw [hC]; exact hc)]
      · rw [if_neg g5, if_neg g5]
    · rename_i g2
      rw [if_neg g2] at hq
      split at hp
      · cases hp
      rename_i g3
      rw [if_neg g3] at hq
      cases hp
      cases hq
      rfl

theorem pass_block (hS : S.length = d) (b : Block G d) (hb : Periodic b) (H : Tensor G) (h : Rolled t 3 S x x') :
    Outcomes2 (fun p q => RolledLayer t 3 S p.1 q.1 ∧ p.2 = q.2) (b.pass x H) (b.pass x' H) := by
  have hother : ∀ c : Block G d, Outcomes2 (RolledLayer t 3 S) (c.call x H) (c.call x' H) →
      Outcomes2 (fun p q : (Tensor ℝ × Tensor G) × Block G d => RolledLayer t 3 S p.1 q.1 ∧ p.2 = q.2)
        (do let y ← c.call x H; return (y, c)) (do let y ← c.call x' H; return (y, c)) :=
    fun c hc => Outcomes2.bind hc fun p q h => .ok ⟨h, rfl⟩
  cases b with
  | batch a u s =>
    exact Outcomes2.bind (norm_both (R := fun r r' => r.upto a.features = r'.upto a.features)
      (fun _ _ _ _ _ _ _ hψ h => batch_both d a u s hψ h) H h) fun p q hpq => .ok ⟨hpq.1, congrArg (Block.batch a u) hpq.2⟩
  | inst a u s =>
    exact Outcomes2.bind (norm_both (R := fun r r' => r.upto a.features = r'.upto a.features)
      (fun _ _ _ _ _ _ hT hψ h => inst_both d (by rw [hT, hS]) a u s hψ h) H h) fun p q hpq => .ok ⟨hpq.1, congrArg (Block.inst a u) hpq.2⟩
  | act a => exact hother _ (block hS _ hb H h)
  | groupSE M move w bias => exact hother _ (block hS _ hb H h)
  | separableSE M move wH w bias => exact hb.elim
  | groupE M move w bias => exact hother _ (block hS _ hb H h)
  | separableE M move wH w bias => exact hb.elim

theorem pass_chain (hS : S.length = d) (bs : List (Block G d)) (hb : ∀ b ∈ bs, Periodic b) (H : Tensor G)
    (h : Rolled t 3 S x x') :
    Outcomes2 (fun p q => RolledLayer t 3 S p.1 q.1 ∧ p.2 = q.2) (pass bs (x, H)) (pass bs (x', H)) := by
  induction bs generalizing x x' H with
  | nil => exact .ok ⟨⟨h, rfl⟩, rfl⟩
  | cons b bs ih =>
    unfold pass
    refine Outcomes2.bind (pass_block hS b (hb b (by simp)) H h) fun p q h => ?_
    obtain ⟨⟨p, P⟩, c⟩ := p
    obtain ⟨⟨q, Q⟩, c'⟩ := q
    obtain ⟨⟨h, e⟩, e'⟩ := h
    cases e
    cases e'
    exact Outcomes2.bind (ih (fun b hb' => hb b (by simp [hb'])) _ h) fun p q h => .ok ⟨h.1, congrArg (List.cons c) h.2⟩

/-! ## the loop -/

theorem periodic_like {b b' : Block G d} (h : b.Like b') (hb : Periodic b) : Periodic b' := by
  cases h with
  | act a => exact hb
  | batch a w v tr r r' => trivial
  | inst a w v tr r r' => trivial
  | groupSE M m m' w w' v v' hw hv => exact ⟨hb.1, bias_like hv hb.2⟩
  | separableSE => exact hb.elim
  | groupE M m m' w w' v v' hw hv => exact ⟨hb.1, bias_like hv hb.2⟩
  | separableE => exact hb.elim

theorem periodic_layers {l l' : List (Block G d)} (h : List.Forall₂ Block.Like l l') (hb : ∀ b ∈ l, Periodic b) : ∀ b ∈ l', Periodic b := by
  induction h with
  | nil => exact fun b hb => by cases hb
  | cons h1 _ ih =>
    intro b hb'
    rcases List.mem_cons.1 hb' with rfl | hb'
    · exact periodic_like h1 (hb _ (by simp))
    · exact ih (fun c hc => hb c (by simp [hc])) b hb'

/-- The two batches hold the same images, rolled around the torus in the second; the same group elements are drawn. -/
structure RolledBatch (d : ℕ) (b b' : Batch G) : Prop where
  images : ∃ (t : List ℤ) (S : List ℕ), S.length = d ∧ Rolled t 2 S b.images b'.images
  first : b'.first = b.first
  rest : b'.rest = b.rest

variable {M : Module G d} {s : Weights G d} {b b' : Batch G}

theorem forward_rolled (hM : CircularSame d M.layer) (hbias : BiasShape s.bias M.layer.outC d) (hs : ∀ l ∈ s.layers, Periodic l)
    (h : RolledBatch d b b') :
    ∃ t S, Outcomes2 (fun p q => RolledLayer t 3 S p.1 q.1 ∧ p.2 = q.2) (forward M s b) (forward M s b') := by
  obtain ⟨⟨t, S, hS, h⟩, e1, e2⟩ := h
  refine ⟨t, S, ?_⟩
  unfold forward Weights.ready
  rw [e1, e2]
  refine Outcomes2.bind (C94_lifting hM M.kernel hbias hS s.weight _ h) fun p q h => ?_
  obtain ⟨p, P⟩ := p
  obtain ⟨q, Q⟩ := q
  obtain ⟨h, e⟩ := h
  cases e
  exact pass_chain hS _ (periodic_layers (like_drawnBy _ _) hs) P h

theorem features_rolled (hM : CircularSame d M.layer) (hbias : BiasShape s.bias M.layer.outC d) (hs : ∀ l ∈ s.layers, Periodic l)
    (h : RolledBatch d b b') (N C : ℕ) : features M N C s b = features M N C s b' := by
  obtain ⟨t, S, hf⟩ := forward_rolled hM hbias hs h
  have : Outcomes2 (fun f g : Fin N → Fin C → ℝ => f = g) (features M N C s b) (features M N C s b') := by
    unfold features
    refine Outcomes2.bind hf fun p q h => ?_
    have hg := C94_avg_global h.1.1
    refine Outcomes2.bind (R := SameEntries) ?_ fun z z' hz => ?_
    · unfold avgPooled
      generalize Pooling.avgGlobal p.1.1 = v at hg
      generalize Pooling.avgGlobal q.1.1 = v' at hg
      cases hg with
      | error e => exact .error e
      | ok h => exact .ok h
    · have hw := Weights.view hz [N, C]
      generalize hu : z.view [N, C] = u at hw ⊢
      generalize z'.view [N, C] = u' at hw ⊢
      cases hw with
      | error e => exact .error e
      | @ok u u' h =>
        refine .ok ?_
        funext i c
        have hs : u.shape = [N, C] := by
          unfold Tensor.view at hu
          split at hu
          · cases hu; rfl
          · cases hu
        exact (h.2 _ (by rw [hs]; exact InB_cons.2 ⟨i.2, InB_cons.2 ⟨c.2, InB_nil_nil⟩⟩)).symm
  generalize features M N C s b = v at this
  generalize features M N C s b' = v' at this
  cases this with
  | error e => rfl
  | ok h => rw [h]

end GConv.Torus

namespace GConv.Net

open Tensor Spec Conv Torus Batch

variable {G : Type} {d : ℕ}

/-- Two trainings of a network whose convolutions use `padding='same'` and `padding_mode='circular'`, from the same
parameters with the same optimizer, one on images, the other on these images rolled around the torus (by different
offsets for every batch): the same outcome: the same parameters and running statistics, or the same exception.  No
assumption on the kernel objects, the group elements or the sizes. -/
theorem C110_torus {M : Module G d} (hM : CircularSame d M.layer) {N C : ℕ} {Memory : Type} (opt : Optimizer G d N C Memory)
    (s₀ : Weights G d) (hbias : BiasShape s₀.bias M.layer.outC d) (hs : ∀ l ∈ s₀.layers, Periodic l)
    {bs bs' : List (Batch G)} (h : List.Forall₂ (RolledBatch d) bs bs') (start : ℕ) (memory : Memory) :
    train M opt start bs memory s₀ = train M opt start bs' memory s₀ := by
  suffices H : ∀ (s : Weights G d), s₀.Like s → ∀ start memory, train M opt start bs memory s = train M opt start bs' memory s from
    H s₀ (Weights.Like.refl s₀) start memory
  induction h with
  | nil => intro s _ start memory; rfl
  | @cons b b' bs bs' hb _ ih =>
    intro s hl start memory
    have hp : ∀ s : Weights G d, s₀.Like s → BiasShape s.bias M.layer.outC d ∧ ∀ l ∈ s.layers, Periodic l := fun s hl =>
      ⟨bias_like hl.2.1 hbias, periodic_layers hl.2.2 hs⟩
    obtain ⟨p1, p2⟩ := hp s hl
    obtain ⟨t, S, hf⟩ := forward_rolled hM p1 p2 hb
    unfold train
    generalize e1 : forward M s b = v at hf ⊢
    generalize e2 : forward M s b' = v' at hf ⊢
    cases hf with
    | error e => rfl
    | @ok p q h =>
      rw [ok_bind, ok_bind]
      dsimp only
      have hl₁ : s₀.Like (s.after p.2) := hl.trans (after_like (y := p.1) (ls := p.2) e1)
      rw [← h.2]
      have hfe : (fun s' : {s' : Weights G d // (s.after p.2).Like s'} => features M N C s'.1 b) = fun s' => features M N C s'.1 b' := by
        funext s'
        obtain ⟨q1, q2⟩ := hp s'.1 (hl₁.trans s'.2)
        exact features_rolled hM q1 q2 hb N C
      rw [hfe]
      exact ih _ (hl₁.trans (opt start memory (s.after p.2) fun s' => features M N C s'.1 b').2.2) _ _

/-- the symmetry that does nothing. -/
def stay : LatticeSym 2 := ⟨1, ![false, false]⟩

theorem stay_matrix : SO2.angleToMatrix (0 : ℝ) = stay.matrix := by
  ext i j
  fin_cases i <;> fin_cases j <;> simp [SO2.angleToMatrix, LatticeSym.matrix, stay]

/-- A lifting convolution, ReLU, batch normalisation in training mode, a group convolution and global average pooling (4
rotations, `padding='same'`, `padding_mode='circular'`), trained on any sequence of batches of three 8 x 9 images, and on
the same images rolled, every batch by other offsets: both succeed, with the same parameters and running statistics. -/
example (weight weight₂ : Tensor ℝ) (hw : weight.shape = [6, 2, 5, 5]) (hw₂ : weight₂.shape = [4, 6, 3, 5, 5]) (r : F.Running)
    (images : List (Tensor ℝ × Tensor ℝ))
    (hx : ∀ q ∈ images, q.1.shape = [3, 4, 8, 9] ∧ ∃ t, Rolled t 2 [8, 9] q.1 q.2)
    (M M₂ : Module ℝ 2) (hM : liftingSE2 (KernelSE2.exArgs 4) rotOpts = .ok M) (hM₂ : fullSE2 (exArgs₂ 4) rotOpts = .ok M₂)
    {Memory : Type} (opt : Optimizer ℝ 2 3 6 Memory) (memory : Memory) :
    ∃ final, train M opt 0 (images.map fun q => ⟨q.1, id, fun _ => id⟩) memory
        ⟨weight, none, [.act .relu, .batch exNorm true r, .groupSE M₂ id weight₂ none]⟩ = .ok final ∧
      train M opt 0 (images.map fun q => ⟨q.2, id, fun _ => id⟩) memory
        ⟨weight, none, [.act .relu, .batch exNorm true r, .groupSE M₂ id weight₂ none]⟩ = .ok final := by
  obtain ⟨h1, h2, -, -⟩ := rot_geometry 4
  obtain ⟨π, hπ⟩ := C75_uniform_closed 4 (by norm_num) 0
  have e1 : (2 * Real.pi * (0 : ℕ) / (4 : ℕ) : ℝ) = 0 := by push_cast; ring
  rw [e1] at hπ
  have hgrid : M.kernel.gridH = Tensor.ofList (SO2.uniformGrid 4) := by
    obtain ⟨K, hK, -, hMK, -⟩ := build_ok hM
    rw [hMK]
    unfold KernelSE2.lifting checkGroups at hK
    split at hK
    · cases hK
    · cases hK; rfl
  have o1 : outDims (List.replicate 2 (sameAxis 5 1)) [8, 9] = [8, 9] := by simp [outDims, Axis.out, Axis.span, sameAxis]
  obtain ⟨g1, -, g2, -⟩ := C59_same_geometry 2 6 6 5 1 (.int 4) 2 "circular" .circular (Or.inr (Or.inr (Or.inr ⟨rfl, rfl⟩)))
    (by norm_num) (by norm_num) [8, 9] rfl (by simp [F.padAllowed])
  have hsym : SymmetricGeometry 2 (List.replicate 2 (sameAxis 5 1)) [8, 9] := ⟨sameAxis 5 1, rfl, by simp [sameAxis], fun s _ => one_dvd _⟩
  have hstay : LatticeSym.Matches LatticeSym.ax2 stay [8, 9] [8, 9] := ⟨rfl, rfl, fun c => by fin_cases c <;> rfl⟩
  have hchain : Chain 3 (ConvSE2 0 stay) [.act .relu, .batch exNorm true r, .groupSE M₂ id weight₂ none]
      [.act .relu, .batch exNorm true r, .groupSE M₂ id weight₂ none]
      ⟨6, 4, [8, 9], [8, 9]⟩ ⟨6, 4, outDims (List.replicate 2 (sameAxis 5 1)) [8, 9], outDims (List.replicate 2 (sameAxis 5 1)) [8, 9]⟩ := by
    refine .act _ trivial (.batch _ _ _ rfl (by norm_num) (.conv ?_ (.nil _)))
    exact ConvSE2.group (exArgs₂ 4) rotOpts (by norm_num [exArgs₂, KernelSE2.exArgs]) defaultModes 1 (exReady₂ 4 (by norm_num)) hM₂
      (g1 rfl) g2 hsym weight₂ (by
        rw [hw₂]
        show [4, 6, 3, 5, 5] = [(SO2.uniformGrid 4).length, 6, 6 / 2, 5, 5]
        rw [SO2.C03_length]) none (fun b hb => by cases hb) id id (fun h => by cases h)
  obtain ⟨final, e, -⟩ := C110_SE2 (KernelSE2.exArgs 4) rotOpts (by norm_num [KernelSE2.exArgs]) defaultModes hM h1
    (by norm_num [KernelSE2.exArgs]) opt
    ⟨weight, none, [.act .relu, .batch exNorm true r, .groupSE M₂ id weight₂ none]⟩
    (by show weight.shape = _; rw [hw]; simp [KernelSE2.exArgs]) (fun b hb => by cases hb)
    (bs := images.map fun q => ⟨q.1, id, fun _ => id⟩) (bs' := images.map fun q => ⟨q.1, id, fun _ => id⟩)
    (List.forall₂_map_left_iff.2 (List.forall₂_map_right_iff.2 (List.forall₂_same.2 fun q hq =>
      ⟨0, stay, [8, 9], [8, 9], 4, π, _, stay_matrix, hstay, g2, hsym, by rw [hgrid]; exact hπ, ⟨(hx q hq).1, (hx q hq).1, fun p u _ hu => by
        obtain ⟨a, _, rfl, -, hu⟩ := InB_cons_left hu
        obtain ⟨b, _, rfl, -, hu⟩ := InB_cons_left hu
        cases InB_nil_left hu
        rfl⟩, by rw [o1]; exact hchain, rfl, by simp [outDims, Axis.out, Axis.span, sameAxis]⟩))) 0 memory
  refine ⟨final, e, ?_⟩
  rw [← e]
  have hc := (C94_modules rotOpts rfl rfl (fun _ _ => none) [] []).1
  refine (C110_torus (hc _ M (Or.inl hM)) opt _ (fun b hb => by cases hb) (fun l hl => ?_)
    (List.forall₂_map_left_iff.2 (List.forall₂_map_right_iff.2 (List.forall₂_same.2 fun q hq => ?_))) 0 memory).symm
  · simp only [List.mem_cons, List.not_mem_nil, or_false] at hl
    rcases hl with rfl | rfl | rfl
    · trivial
    · trivial
    · exact ⟨hc _ M₂ (Or.inr hM₂), fun b hb => by cases hb⟩
  · obtain ⟨t, ht⟩ := (hx q hq).2
    exact ⟨⟨t, [8, 9], rfl, ht⟩, rfl, rfl⟩

end GConv.Net

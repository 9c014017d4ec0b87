import Verif.Spec.Reading
import Verif.Lemmas.Batch
import Verif.Lemmas.ConvOk
import Verif.Props.Normalization

/-! # Layers applied to a feature map that is another one read elsewhere -/

namespace GConv.Reading

open Tensor Spec Batch

variable {φ : List ℕ → List ℕ} {k : ℕ} {S S' : List ℕ} {x x' : Tensor ℝ} {G : Type} {d : ℕ}

/-- the positions read exist, and if there are none then in neither of the two. -/
structure Maps (φ : List ℕ → List ℕ) (S S' : List ℕ) : Prop where
  mem : ∀ q, InB S' q → InB S (φ q)
  len : S.length = S'.length
  pos : S = S' ∨ (0 < S.prod ∧ 0 < S'.prod)

theorem view (hφ : Maps φ S S') (h : Reads φ k S S' x x') (p : List ℕ) :
    Outcomes2 (Reads φ p.length S S') (x.view (p ++ S)) (x'.view (p ++ S')) := by
  obtain ⟨A, hA, hx, hx', hv⟩ := h
  have hcond : A.prod * S.prod = p.prod * S.prod ↔ A.prod * S'.prod = p.prod * S'.prod := by
    rcases hφ.pos with rfl | ⟨h1, h2⟩
    · rfl
    · rw [Nat.mul_right_cancel_iff h1, Nat.mul_right_cancel_iff h2]
  unfold Tensor.view
  rw [hx, hx', List.prod_append, List.prod_append, List.prod_append, List.prod_append]
  by_cases e : A.prod * S.prod = p.prod * S.prod
  · rw [if_pos e, if_pos (hcond.1 e)]
    refine .ok ⟨p, rfl, rfl, rfl, fun i q hi hq => ?_⟩
    dsimp only
    have hq' := hφ.mem q hq
    have hS : 0 < S.prod := by have := ravel_lt hq'; omega
    have hAp : A.prod = p.prod := Nat.eq_of_mul_eq_mul_right hS e
    rw [← hx, ← hx', view_suffix hx' hAp hi hq, view_suffix hx hAp hi hq']
    exact hv _ _ (unravel_InB (by rw [hAp]; exact ravel_lt hi)) hq
  · rw [if_neg e, if_neg (fun h => e (hcond.2 h))]
    exact .error _

theorem prefix_eq {N C n : ℕ} {p : List ℕ} (hp : p.length = 3) (hx : x.shape = N :: C :: n :: S) (h : x.shape = p ++ S) :
    p = [N, C, n] := by
  rw [hx] at h
  exact (List.append_inj (s₁ := [N, C, n]) (t₁ := S) h (by rw [hp]; rfl)).1.symm

theorem addBias {N C n nd : ℕ} {bias : Option (Tensor ℝ)} (hφ : Maps φ S S') (hS : S.length = nd) (hb : BiasShape bias C nd)
    (h : Reads φ 3 S S' x x') (hx : x.shape = N :: C :: n :: S) :
    Outcomes2 (Reads φ 3 S S') (Conv.Layer.addBias x bias) (Conv.Layer.addBias x' bias) := by
  obtain ⟨p, hp, hxs, hx', hv⟩ := h
  cases prefix_eq hp hx hxs
  obtain ⟨y, e1, e2, e3⟩ := Conv.addBias_spec hS hx hb
  obtain ⟨y', f1, f2, f3⟩ := Conv.addBias_spec (O := S') (by rw [← hφ.len, hS]) hx' hb
  rw [e1, f1]
  refine .ok ⟨[N, C, n], rfl, e2, f2, fun i q hi hq => ?_⟩
  have e := hv i q hi hq
  obtain ⟨b, _, rfl, hb', hi⟩ := InB_cons_left hi
  obtain ⟨co, _, rfl, hco, hi⟩ := InB_cons_left hi
  obtain ⟨h, _, rfl, hh, hi⟩ := InB_cons_left hi
  cases InB_nil_left hi
  show y'.get (b :: co :: h :: q) = y.get (b :: co :: h :: φ q)
  rw [f3 b co h q hb' hco hh hq, e3 b co h (φ q) hb' hco hh (hφ.mem q hq)]
  exact congrArg (· + _) e

/-- results of layers: the feature map is read elsewhere, the grids are the same. -/
def ReadsLayer (φ : List ℕ → List ℕ) (k : ℕ) (S S' : List ℕ) (x x' : Tensor ℝ × Tensor G) : Prop :=
  Reads φ k S S' x.1 x'.1 ∧ x.2 = x'.2

/-- the end of all layers: the view to group positions and the bias. -/
theorem finish {N C n nd M : ℕ} {bias : Option (Tensor ℝ)} (hφ : Maps φ S S') (hS : S.length = nd) (hb : BiasShape bias C nd) (H : Tensor G)
    (h : Reads φ 2 S S' x x') (hx : x.shape = N :: M :: S) :
    Outcomes2 (ReadsLayer φ 3 S S')
      (do let v ← x.view (N :: C :: n :: x.shape.drop 2); let v ← Conv.Layer.addBias v bias; return (v, H))
      (do let v ← x'.view (N :: C :: n :: x'.shape.drop 2); let v ← Conv.Layer.addBias v bias; return (v, H)) := by
  have hx' : x'.shape.drop 2 = S' := by
    obtain ⟨p, hp, -, hx', -⟩ := h
    rw [hx', ← hp, List.drop_left]
  have hd : x.shape.drop 2 = S := by rw [hx]; rfl
  rw [hx', hd]
  have hv := view hφ h [N, C, n]
  rw [List.cons_append, List.cons_append, List.cons_append, List.nil_append, List.cons_append, List.cons_append,
    List.cons_append, List.nil_append] at hv
  generalize e1 : x.view (N :: C :: n :: S) = v1 at hv
  generalize e2 : x'.view (N :: C :: n :: S') = v2 at hv
  cases hv with
  | error e => exact .error e
  | @ok a b h =>
    have ha : a.shape = N :: C :: n :: S := by
      unfold Tensor.view at e1; split at e1 <;> cases e1; rfl
    rw [ok_bind, ok_bind]
    exact Outcomes2.bind (addBias hφ hS hb h ha) fun _ _ h => .ok ⟨h, rfl⟩

/-- activations. -/
theorem act (a : Activations.Act) (H : Tensor G) (h : Reads φ k S S' x x') :
    Outcomes2 (ReadsLayer φ k S S') (a.forward x H) (a.forward x' H) := by
  unfold Activations.Act.forward
  refine Outcomes2.same _ fun f => .ok ⟨?_, rfl⟩
  obtain ⟨p, hp, hx, hx', hv⟩ := h
  exact ⟨p, hp, hx, hx', fun i q hi hq => congrArg f (hv i q hi hq)⟩

/-! ## normalisation -/

/-- two feature maps `(N, C, *T)` and `(N, C, *T')`; the second is the first read at `φ`. -/
def Reordered (φ : List ℕ → List ℕ) (N C : ℕ) (T T' : List ℕ) (x x' : Tensor ℝ) : Prop :=
  x.shape = N :: C :: T ∧ x'.shape = N :: C :: T' ∧
    ∀ b c i, b < N → c < C → InB T' i → x'.get (b :: c :: i) = x.get (b :: c :: φ i)

theorem reshape_bij {T T' : List ℕ} (h : T.prod = T'.prod) : BoxBijection T' T fun j => unravel T (ravel T' j) := by
  refine ⟨fun i hi => unravel_InB (by rw [h]; exact ravel_lt hi), fun i j hi hj e => ?_, fun j hj => ?_⟩
  · have := congrArg (ravel T) e
    dsimp only at this
    rw [ravel_unravel (by rw [h]; exact ravel_lt hi), ravel_unravel (by rw [h]; exact ravel_lt hj)] at this
    have := congrArg (unravel T') this
    rwa [unravel_ravel hi, unravel_ravel hj] at this
  · refine ⟨unravel T' (ravel T j), unravel_InB (by rw [← h]; exact ravel_lt hj), ?_⟩
    dsimp only
    rw [ravel_unravel (by rw [← h]; exact ravel_lt hj), unravel_ravel hj]

theorem comp_bij {s t u : List ℕ} {f g : List ℕ → List ℕ} (hf : BoxBijection s t f) (hg : BoxBijection t u g) :
    BoxBijection s u fun i => g (f i) := by
  refine ⟨fun i hi => hg.1 _ (hf.1 _ hi), fun i j hi hj e => hf.2.1 i j hi hj (hg.2.1 _ _ (hf.1 _ hi) (hf.1 _ hj) e), fun j hj => ?_⟩
  obtain ⟨i, hi, rfl⟩ := hg.2.2 j hj
  obtain ⟨l, hl, rfl⟩ := hf.2.2 i hi
  exact ⟨l, hl, rfl⟩

/-- a view that changes the axes after the first two. -/
theorem view_tail {N C : ℕ} {T T' : List ℕ} (hx : x.shape = N :: C :: T) (h : T.prod = T'.prod) :
    ∃ y, x.view (N :: C :: T') = .ok y ∧ y.shape = N :: C :: T' ∧
      ∀ b c j, b < N → c < C → InB T' j → y.get (b :: c :: j) = x.get (b :: c :: unravel T (ravel T' j)) := by
  refine ⟨_, view_ok (by rw [hx]; simp [h]), rfl, fun b c j hb hc hj => ?_⟩
  dsimp only
  rw [hx, unravel_cons (by simp [h]) (InB_cons.2 ⟨hc, hj⟩), unravel_cons h hj]

/-- normalisation layers that commute with reorderings of the positions. -/
theorem folded {norm : Tensor ℝ → Except PyErr (Tensor ℝ × F.Running)} {N C n Z : ℕ} {s : List ℕ}
    (hn : ∀ ψ x x', BoxBijection (n * Z :: s) (n * Z :: s) ψ → Reordered ψ N C (n * Z :: s) (n * Z :: s) x x' →
      Outcomes2 (fun a b => Reordered ψ N C (n * Z :: s) (n * Z :: s) a.1 b.1) (norm x) (norm x')) (H : Tensor G)
    (hφ : BoxBijection (n :: Z :: s) (n :: Z :: s) φ) (h : Reordered φ N C (n :: Z :: s) (n :: Z :: s) x x') :
    Outcomes2 (fun a b => Reordered φ N C (n :: Z :: s) (n :: Z :: s) a.1 b.1 ∧ a.2 = b.2)
      ((Normalization.folded norm x H).map Prod.fst) ((Normalization.folded norm x' H).map Prod.fst) := by
  obtain ⟨hx, hx', hv⟩ := h
  have hp : (n :: Z :: s).prod = (n * Z :: s).prod := by simp [Nat.mul_assoc]
  have b1 := reshape_bij hp
  have b2 := reshape_bij hp.symm
  obtain ⟨y, y1, y2, y3⟩ := view_tail hx hp
  obtain ⟨y', z1, z2, z3⟩ := view_tail hx' hp
  have hψ := comp_bij (comp_bij b1 hφ) b2
  have inv1 : ∀ j, InB (n * Z :: s) j → unravel (n * Z :: s) (ravel (n :: Z :: s) (unravel (n :: Z :: s) (ravel (n * Z :: s) j))) = j := by
    intro j hj
    rw [ravel_unravel (by rw [hp]; exact ravel_lt hj), unravel_ravel hj]
  have inv2 : ∀ j, InB (n :: Z :: s) j → unravel (n :: Z :: s) (ravel (n * Z :: s) (unravel (n * Z :: s) (ravel (n :: Z :: s) j))) = j := by
    intro j hj
    rw [ravel_unravel (by rw [← hp]; exact ravel_lt hj), unravel_ravel hj]
  have hy := hn _ y y' hψ ⟨y2, z2, fun b c j hb hc hj => by
    rw [z3 b c j hb hc hj, hv b c _ hb hc (b1.1 j hj), y3 b c _ hb hc (hψ.1 j hj)]
    congr 3
    exact (inv2 _ (hφ.1 _ (b1.1 j hj))).symm⟩
  unfold Normalization.folded
  rw [hx, hx']
  dsimp only
  rw [y1, z1, ok_bind, ok_bind]
  generalize norm y = v at hy
  generalize norm y' = v' at hy
  cases hy with
  | error e => exact .error e
  | @ok a b h =>
    rw [ok_bind, ok_bind]
    obtain ⟨ha, hb', hab⟩ := h
    obtain ⟨u, u1, u2, u3⟩ := view_tail ha hp.symm
    obtain ⟨u', v1, v2, v3⟩ := view_tail hb' hp.symm
    rw [u1, v1]
    refine .ok ⟨⟨u2, v2, fun b c i hb hc hi => ?_⟩, rfl⟩
    show u'.get (b :: c :: i) = u.get (b :: c :: φ i)
    rw [v3 b c i hb hc hi, hab b c _ hb hc (b2.1 i hi), u3 b c _ hb hc (hφ.1 i hi)]
    dsimp only
    rw [inv2 i hi]

theorem batchNorm {N C : ℕ} {T : List ℕ} (nd : ℕ) (a : F.NormArgs) (t : Bool) (r : F.Running) {ψ : List ℕ → List ℕ} (hψ : BoxBijection T T ψ)
    (h : Reordered ψ N C T T x x') :
    Outcomes2 (fun a b => Reordered ψ N C T T a.1 b.1) (F.batchNorm nd a t r x) (F.batchNorm nd a t r x') := by
  obtain ⟨hx, hx', hv⟩ := h
  unfold F.batchNorm
  rw [hx, hx']
  dsimp only
  have hb := Normalization.cons_bij N hψ
  have hch : ∀ c < C, ∀ i, InB (N :: T) i → F.channel x c (i.headD 0 :: ψ i.tail) = F.channel x' c i := by
    intro c hc i hi
    obtain ⟨b, q, rfl, hb', hq⟩ := InB_cons_left hi
    exact (hv b c q hb' hc hq).symm
  have hm : ∀ c < C, F.boxMean (N :: T) (F.channel x' c) = F.boxMean (N :: T) (F.channel x c) := fun c hc =>
    meanOver_bij hb (hch c hc)
  have hvar : ∀ c < C, F.boxVar (N :: T) (F.channel x' c) = F.boxVar (N :: T) (F.channel x c) := fun c hc => by
    have := varOver_bij hb (hch c hc)
    exact this
  split
  · exact .error _
  split
  · split
    · exact .error _
    split
    · exact .error _
    refine .ok ⟨rfl, rfl, fun b c i hb' hc hi => ?_⟩
    show F.standardise a.eps (F.boxMean (N :: T) (F.channel x' c)) (F.boxVar (N :: T) (F.channel x' c)) (a.scale c)
      (a.shift c) (x'.get (b :: c :: i)) = F.standardise a.eps (F.boxMean (N :: T) (F.channel x c))
      (F.boxVar (N :: T) (F.channel x c)) (a.scale c) (a.shift c) (x.get (b :: c :: ψ i))
    rw [hm c hc, hvar c hc, hv b c i hb' hc hi]
  · split
    · exact .error _
    refine .ok ⟨rfl, rfl, fun b c i hb' hc hi => ?_⟩
    dsimp only
    rw [hv b c i hb' hc hi]
    rfl

theorem instNorm {N C : ℕ} {T : List ℕ} (nd : ℕ) (hT : T.length = nd) (a : F.NormArgs) (t : Bool) (r : F.Running) {ψ : List ℕ → List ℕ}
    (hψ : BoxBijection T T ψ) (h : Reordered ψ N C T T x x') :
    Outcomes2 (fun a b => Reordered ψ N C T T a.1 b.1) (F.instanceNorm nd a t r x) (F.instanceNorm nd a t r x') := by
  obtain ⟨hx, hx', hv⟩ := h
  unfold F.instanceNorm
  rw [hx, hx', List.length_cons, List.length_cons, if_neg (by omega), if_neg (by omega)]
  unfold F.instanceNormBatched
  rw [hx, hx']
  dsimp only
  have hch : ∀ b < N, ∀ c < C, ∀ i, InB T i → F.instChannel x b c (ψ i) = F.instChannel x' b c i := fun b hb c hc i hi =>
    (hv b c i hb hc hi).symm
  have hm : ∀ b < N, ∀ c < C, F.boxMean T (F.instChannel x' b c) = F.boxMean T (F.instChannel x b c) := fun b hb c hc =>
    meanOver_bij hψ (hch b hb c hc)
  have hvar : ∀ b < N, ∀ c < C, F.boxVar T (F.instChannel x' b c) = F.boxVar T (F.instChannel x b c) := fun b hb c hc =>
    varOver_bij hψ (hch b hb c hc)
  split
  · exact .error _
  split
  · exact .error _
  split
  · split
    · exact .error _
    split
    · exact .error _
    refine .ok ⟨rfl, rfl, fun b c i hb' hc hi => ?_⟩
    show F.standardise a.eps (F.boxMean T (F.instChannel x' b c)) (F.boxVar T (F.instChannel x' b c)) (a.scale c)
      (a.shift c) (x'.get (b :: c :: i)) = F.standardise a.eps (F.boxMean T (F.instChannel x b c))
      (F.boxVar T (F.instChannel x b c)) (a.scale c) (a.shift c) (x.get (b :: c :: ψ i))
    rw [hm b hb' c hc, hvar b hb' c hc, hv b c i hb' hc hi]
  · split
    · exact .error _
    refine .ok ⟨rfl, rfl, fun b c i hb' hc hi => ?_⟩
    dsimp only
    rw [hv b c i hb' hc hi]
    rfl

end GConv.Reading

import Verif.Props.Stability
import Verif.Props.Batch
import Verif.Props.Separable
import Verif.Lemmas.NN

/-! # C103: stability of layer normalisation, pooling and whole networks -/
namespace GConv.Stability

open Tensor Spec Conv

variable {G : Type} {d : ℕ} {ε M : ℝ} {x y : Tensor ℝ}

/-! ## layer normalisation -/

/-- `GLayerNorm`. -/
theorem C103_layer_norm (shape : List ℕ) {eps W : ℝ} (he : 0 < eps) (hε : 0 ≤ ε) (weight bias : List ℕ → ℝ)
    (hW : ∀ i, InB shape i → |weight i| ≤ W) (H : Tensor G) (h : Within ε x y) :
    Outcomes2 (WithinLayer (W * (2 * (1 + √(shape.prod : ℝ)) / √eps) * ε))
      (Normalization.layer shape eps weight bias x H) (Normalization.layer shape eps weight bias y H) := by
  unfold Normalization.layer F.layerNorm
  rw [← h.1]
  dsimp only
  split
  · rename_i hs
    refine .ok ⟨⟨rfl, fun i hi => ?_⟩, rfl⟩
    dsimp only at hi ⊢
    set l := x.shape.length - shape.length with hl
    have ht : InB (x.shape.take l) (i.take l) := List.forall₂_take l hi
    have hd : InB shape (i.drop l) := by
      have := List.forall₂_drop l hi
      rwa [hs] at this
    have e : i.take l ++ i.drop l = i := List.take_append_drop _ _
    have e' : x.shape.take l ++ shape = x.shape := by
      conv_lhs => rw [← hs]
      exact List.take_append_drop _ _
    have := standardise_diff (s := shape) (f := fun q => x.get (i.take l ++ q)) (g := fun q => y.get (i.take l ++ q)) he hε
      (fun q hq => h.2 _ (by rw [← e']; exact ht.append hq)) hd (weight (i.drop l)) (bias (i.drop l))
    simp only [e] at this
    refine this.trans ?_
    exact mul_le_mul_of_nonneg_right (mul_le_mul_of_nonneg_right (hW _ hd) (by positivity)) hε
  · exact .error _

/-! ## pooling -/

theorem along_InB {s idx : List ℕ} {a i : ℕ} (ha : a < s.length) (hi : i < s.getD a 0) (h : InB (s.eraseIdx a) idx) :
    InB s (idx.take a ++ [i] ++ idx.drop a) := by
  rw [List.eraseIdx_eq_take_drop_succ] at h
  have h1 : InB (s.take a) (idx.take a) := by
    have := List.forall₂_take a h
    rwa [List.take_append_of_le_length (by rw [List.length_take]; omega), List.take_take, min_self] at this
  have h2 : InB (s.drop (a + 1)) (idx.drop a) := by
    have := List.forall₂_drop a h
    rwa [List.drop_append_of_le_length (by rw [List.length_take]; omega), List.drop_take, Nat.sub_self, List.take_zero,
      List.nil_append] at this
  have h3 : InB [s.getD a 0] [i] := InB_cons.2 ⟨hi, InB_nil_nil⟩
  have := (h1.append h3).append h2
  have e : s.take a ++ [s.getD a 0] ++ s.drop (a + 1) = s := by
    have : s.getD a 0 = s[a] := by rw [List.getD_eq_getElem?_getD, List.getElem?_eq_getElem ha]; rfl
    rw [List.append_assoc, List.singleton_append, this, List.getElem_cons_drop, List.take_append_drop]
  rwa [e] at this

theorem meanDim (a : ℕ) (hε : 0 ≤ ε) (h : Within ε x y) : Outcomes2 (Within ε) (x.meanDim a) (y.meanDim a) := by
  unfold Tensor.meanDim
  rw [← h.1]
  split
  · rename_i ha
    refine .ok ⟨rfl, fun i hi => ?_⟩
    dsimp only at hi ⊢
    unfold Tensor.along
    rw [← h.1]
    have := sum_diff (List.range (x.shape.getD a 0)) (fun j => x.get (i.take a ++ [j] ++ i.drop a))
      (fun j => y.get (i.take a ++ [j] ++ i.drop a)) ε fun j hj => h.2 _ (along_InB ha (List.mem_range.1 hj) hi)
    rw [List.length_range] at this
    rw [← sub_div, abs_div, Nat.abs_cast]
    rcases Nat.eq_zero_or_pos (x.shape.getD a 0) with h0 | h0
    · rw [h0]; simpa using hε
    · rw [div_le_iff₀ (by exact_mod_cast h0)]
      linarith
  · exact .error _

theorem maxDim (a : ℕ) (h : Within ε x y) : Outcomes2 (fun p q => Within ε p.1 q.1) (x.maxDim a) (y.maxDim a) := by
  unfold Tensor.maxDim
  rw [← h.1]
  split
  · rename_i h0
    have ha : a < x.shape.length := by
      by_contra hc
      rw [List.getD_eq_getElem?_getD, List.getElem?_eq_none (by omega)] at h0
      change 0 < 0 at h0
      omega
    refine .ok ⟨rfl, fun i hi => ?_⟩
    dsimp only at hi ⊢
    unfold Tensor.along
    rw [← h.1]
    obtain ⟨a1, a2, a3⟩ := max_range (x.shape.getD a 0) (fun j => x.get (i.take a ++ [j] ++ i.drop a)) h0
    obtain ⟨b1, b2, b3⟩ := max_range (x.shape.getD a 0) (fun j => y.get (i.take a ++ [j] ++ i.drop a)) h0
    rw [a2, b2]
    set p := argmax ((List.range (x.shape.getD a 0)).map fun j => x.get (i.take a ++ [j] ++ i.drop a))
    set q := argmax ((List.range (x.shape.getD a 0)).map fun j => y.get (i.take a ++ [j] ++ i.drop a))
    have hp := abs_le.1 (h.2 _ (along_InB ha a1 hi))
    have hq := abs_le.1 (h.2 _ (along_InB ha b1 hi))
    have := a3 q b1
    have := b3 p a1
    rw [abs_le]
    constructor <;> linarith [hp.1, hp.2, hq.1, hq.2]
  · exact .error _

theorem flattenFrom (a : ℕ) (h : Within ε x y) : Outcomes2 (Within ε) (x.flattenFrom a) (y.flattenFrom a) := by
  unfold Tensor.flattenFrom
  rw [← h.1]
  split
  · exact view h _
  · exact .error _

theorem keepLast (h : Within ε x y) : Within ε x.keepLast y.keepLast := by
  refine ⟨by simp only [Tensor.keepLast, h.1], fun i hi => ?_⟩
  obtain ⟨q, u, rfl, hq, hu⟩ := InB_append_left hi
  obtain ⟨j, v, rfl, -, hv⟩ := InB_cons_left hu
  cases InB_nil_left hv
  unfold Tensor.keepLast
  dsimp only
  rw [List.dropLast_concat]
  exact h.2 q hq

/-- the numbers returned by pooling modules. -/
def WithinResult (ε : ℝ) (p q : Pooling.Result) : Prop := Within ε (Net.values p) (Net.values q)

/-- Average pooling over the group and over the group and the positions. -/
theorem C103_avg_pool (hε : 0 ≤ ε) (h : Within ε x y) :
    Outcomes2 (WithinResult ε) (Pooling.avgGroup x) (Pooling.avgGroup y) ∧
      Outcomes2 (WithinResult ε) (Pooling.avgGlobal x) (Pooling.avgGlobal y) :=
  ⟨Batch.Outcomes2.bind (meanDim 2 hε h) fun _ _ h => .ok h,
    Batch.Outcomes2.bind (flattenFrom 2 h) fun _ _ h => Batch.Outcomes2.bind (meanDim 2 hε h) fun _ _ h => .ok (keepLast h)⟩

/-- Maximum pooling: the maxima (the positions of the maxima can jump). -/
theorem C103_max_pool (h : Within ε x y) :
    Outcomes2 (WithinResult ε) (Pooling.maxGroup x) (Pooling.maxGroup y) ∧
      Outcomes2 (WithinResult ε) (Pooling.maxGlobal x) (Pooling.maxGlobal y) :=
  ⟨Batch.Outcomes2.bind (maxDim 2 h) fun _ _ h => .ok h,
    Batch.Outcomes2.bind (flattenFrom 2 h) fun _ _ h => Batch.Outcomes2.bind (maxDim 2 h) fun _ _ h => .ok (keepLast h)⟩

/-! ## networks -/

/-- `f` magnifies differences between inputs of shape `s` by at most a constant factor, and inputs of this shape are either
all accepted or all rejected. -/
def LipAt {B : Type} (R : ℝ → B → B → Prop) (f : Tensor ℝ → Except PyErr B) (s : List ℕ) : Prop :=
  ∃ κ, 0 ≤ κ ∧ ∀ ε, 0 ≤ ε → ∀ x y, x.shape = s → Within ε x y → Outcomes2 (R (κ * ε)) (f x) (f y)

/-- any two tensors of one shape are within some distance. -/
theorem exists_within (h : x.shape = y.shape) : ∃ ε, 0 ≤ ε ∧ Within ε x y := by
  refine ⟨∑ i ∈ (allIdx x.shape).toFinset, |x.get i - y.get i|, Finset.sum_nonneg fun _ _ => abs_nonneg _, h, fun i hi => ?_⟩
  exact Finset.single_le_sum (f := fun i => |x.get i - y.get i|) (fun _ _ => abs_nonneg _) (mem_box.2 hi)

theorem exists_bounded (x : Tensor ℝ) : ∃ M, 0 ≤ M ∧ Bounded M x := by
  refine ⟨∑ i ∈ (allIdx x.shape).toFinset, |x.get i|, Finset.sum_nonneg fun _ _ => abs_nonneg _, fun i hi => ?_⟩
  exact Finset.single_le_sum (f := fun i => |x.get i|) (fun _ _ => abs_nonneg _) (mem_box.2 hi)

theorem exists_scale (f : ℕ → ℝ) (n : ℕ) : ∃ W, 0 ≤ W ∧ ∀ c < n, |f c| ≤ W := by
  refine ⟨∑ c ∈ Finset.range n, |f c|, Finset.sum_nonneg fun _ _ => abs_nonneg _, fun c hc => ?_⟩
  exact Finset.single_le_sum (f := fun c => |f c|) (fun _ _ => abs_nonneg _) (Finset.mem_range.2 hc)

theorem LipAt.comp {B : Type} {R : ℝ → B → B → Prop} {f : Tensor ℝ → Except PyErr (Tensor ℝ × Tensor G)}
    {g : Tensor ℝ × Tensor G → Except PyErr B} {s : List ℕ} (hf : LipAt WithinLayer f s)
    (hg : ∀ H' s', LipAt R (fun x => g (x, H')) s') : LipAt R (fun x => f x >>= g) s := by
  obtain ⟨κ, hκ, hf⟩ := hf
  let z : Tensor ℝ := ⟨s, fun _ => 0⟩
  have ref : ∀ x : Tensor ℝ, x.shape = s → ∃ δ, Outcomes2 (WithinLayer δ) (f x) (f z) := fun x hx => by
    obtain ⟨ε, hε, hw⟩ := exists_within (x := x) (y := z) hx
    exact ⟨_, hf ε hε x z hx hw⟩
  cases hz : f z with
  | error e =>
    refine ⟨0, le_rfl, fun ε hε x y hx h => ?_⟩
    obtain ⟨δ, h1⟩ := ref x hx
    obtain ⟨δ', h2⟩ := ref y (h.1 ▸ hx)
    rw [hz] at h1 h2
    show Outcomes2 _ (f x >>= g) (f y >>= g)
    generalize f x = p at *
    generalize f y = q at *
    cases h1
    cases h2
    exact .error e
  | ok w =>
    obtain ⟨κ', hκ', hg⟩ := hg w.2 w.1.shape
    refine ⟨κ' * κ, mul_nonneg hκ' hκ, fun ε hε x y hx h => ?_⟩
    obtain ⟨δ, h1⟩ := ref x hx
    have h3 := hf ε hε x y hx h
    rw [hz] at h1
    show Outcomes2 _ (f x >>= g) (f y >>= g)
    generalize f x = p at *
    generalize f y = q at *
    cases h1 with
    | @ok p _ h1 =>
      cases h3 with
      | @ok _ q h3 =>
        rw [ok_bind, ok_bind]
        obtain ⟨p, P⟩ := p
        obtain ⟨q, Q⟩ := q
        have e1 : P = w.2 := h1.2
        have e2 : P = Q := h3.2
        subst e1 e2
        rw [mul_assoc]
        exact hg (κ * ε) (mul_nonneg hκ hε) p q h1.1.1 h3.1

theorem lift_lip (L : Layer) (K : GroupKernel G d) (weight : Tensor ℝ) (bias : Option (Tensor ℝ)) (H : Tensor G) (s : List ℕ) :
    LipAt WithinLayer (fun x => L.liftingForward K weight bias x H) s := by
  have : ∃ M, 0 ≤ M ∧ ∀ w, K.liftingForward weight H = .ok w → Bounded M w := by
    cases hk : K.liftingForward weight H with
    | error e => exact ⟨0, le_rfl, fun w h => by cases h⟩
    | ok w =>
      obtain ⟨M, h0, hM⟩ := exists_bounded w
      exact ⟨M, h0, fun w h => by cases h; exact hM⟩
  obtain ⟨M, h0, hM⟩ := this
  exact ⟨_, by positivity, fun ε hε x y _ h => C103_lifting L K bias hε h weight H hM⟩

theorem group_lip (L : Layer) (K : GroupKernel G d) (weight : Tensor ℝ) (bias : Option (Tensor ℝ)) (inH outH : Tensor G) (s : List ℕ) :
    LipAt WithinLayer (fun x => L.groupForward K weight bias x inH outH) s := by
  have : ∃ M, 0 ≤ M ∧ ∀ w, K.forward weight inH outH = .ok w → Bounded M w := by
    cases hk : K.forward weight inH outH with
    | error e => exact ⟨0, le_rfl, fun w h => by cases h⟩
    | ok w =>
      obtain ⟨M, h0, hM⟩ := exists_bounded w
      exact ⟨M, h0, fun w h => by cases h; exact hM⟩
  obtain ⟨M, h0, hM⟩ := this
  exact ⟨_, by positivity, fun ε hε x y _ h => C103_group L K bias hε h weight inH outH hM⟩

theorem separable_lip (L : Layer) (K : GroupKernel G d) (weightH weight : Tensor ℝ) (bias : Option (Tensor ℝ)) (inH outH : Tensor G)
    (s : List ℕ) : LipAt WithinLayer (fun x => L.separableForward K weightH weight bias x inH outH) s := by
  have : ∃ M M' P, 0 ≤ M ∧ 0 ≤ M' ∧ ∀ w, K.separableForward weightH weight inH outH = .ok w →
      Bounded M w.1 ∧ Bounded M' w.2 ∧ (w.1.shape.drop 4).prod = P := by
    cases hk : K.separableForward weightH weight inH outH with
    | error e => exact ⟨0, 0, 0, le_rfl, le_rfl, fun w h => by cases h⟩
    | ok w =>
      obtain ⟨M, h0, hM⟩ := exists_bounded w.1
      obtain ⟨M', h0', hM'⟩ := exists_bounded w.2
      exact ⟨M, M', _, h0, h0', fun w h => by cases h; exact ⟨hM, hM', rfl⟩⟩
  obtain ⟨M, M', P, h0, h0', hM⟩ := this
  refine ⟨(L.kernelSize.prod : ℝ) * M' * (((L.inC / L.groups * inH.shape.headD 0 * P : ℕ) : ℝ) * M), by positivity,
    fun ε hε x y _ h => ?_⟩
  rw [mul_assoc]
  exact C103_separable L K bias hε h weightH weight inH outH h0 hM

/-- normalisation layers divide by a positive number. -/
def Smooth : Net.Block G d → Prop
  | .batch a t r | .inst a t r => 0 < a.eps ∧ (t = false → a.track = true → ∀ c, 0 ≤ r.var c)
  | _ => True

theorem exists_eval (a : F.NormArgs) (r : F.Running) (he : 0 < a.eps) (hv : ∀ c, 0 ≤ r.var c) (n : ℕ) :
    ∃ W, 0 ≤ W ∧ ∀ c < n, 0 < r.var c + a.eps ∧ |a.scale c| ≤ W * √(r.var c + a.eps) := by
  obtain ⟨W, h0, hW⟩ := exists_scale (fun c => |a.scale c| / √(r.var c + a.eps)) n
  refine ⟨W, h0, fun c hc => ?_⟩
  have hp : 0 < r.var c + a.eps := by linarith [hv c]
  exact ⟨hp, (div_le_iff₀ (Real.sqrt_pos.2 hp)).1 ((le_abs_self _).trans (hW c hc))⟩

theorem short_error {norm : Tensor ℝ → Except PyErr (Tensor ℝ × F.Running)} {s : List ℕ} (H : Tensor G)
    (hs : ¬ ∃ N C n Z S, s = N :: C :: n :: Z :: S) (hx : x.shape = s) : Normalization.folded norm x H = .error .valueError := by
  unfold Normalization.folded
  rw [hx]
  rcases s with _ | ⟨N, _ | ⟨C, _ | ⟨n, _ | ⟨Z, S⟩⟩⟩⟩ <;> first | rfl | exact absurd ⟨_, _, _, _, _, rfl⟩ hs

theorem folded_lip {norm : Tensor ℝ → Except PyErr (Tensor ℝ × F.Running)} (H : Tensor G) (s : List ℕ)
    (hn : ∀ N C n Z S, s = N :: C :: n :: Z :: S → ∃ κ, 0 ≤ κ ∧ ∀ ε, 0 ≤ ε → ∀ x' y', x'.shape = N :: C :: n * Z :: S → Within ε x' y' →
      Outcomes2 (fun u v => Within (κ * ε) u.1 v.1) (norm x') (norm y')) :
    LipAt WithinLayer (fun x => (Normalization.folded norm x H).map Prod.fst) s := by
  by_cases hs : ∃ N C n Z S, s = N :: C :: n :: Z :: S
  · obtain ⟨N, C, n, Z, S, hs⟩ := hs
    obtain ⟨κ, hκ, hn⟩ := hn N C n Z S hs
    exact ⟨κ, hκ, fun ε hε x y hx h => folded (hx.trans hs) (hn ε hε) H h⟩
  · refine ⟨0, le_rfl, fun ε hε x y hx h => ?_⟩
    dsimp only
    rw [short_error H hs hx, short_error H hs (h.1 ▸ hx)]
    exact .error _

theorem drop2 {P : Tensor ℝ × F.Running → Prop} {R : Tensor ℝ × F.Running → Tensor ℝ × F.Running → Prop} {p q : Except PyErr (Tensor ℝ × F.Running)}
    (h : Outcomes2 (fun u v => P u ∧ R u v) p q) : Outcomes2 R p q := by
  cases h with
  | error e => exact .error e
  | ok h => exact .ok h.2

theorem stats_or {a : F.NormArgs} {t : Bool} (h : ¬ (t = true ∨ a.track = false)) : t = false ∧ a.track = true := by
  push Not at h
  exact ⟨by simpa using h.1, by simpa using h.2⟩

theorem block_lip (b : Net.Block G d) (hb : Smooth b) (H : Tensor G) (s : List ℕ) :
    LipAt WithinLayer (fun x => b.call x H) s := by
  cases b with
  | act a => exact ⟨_, actGain_nonneg a, fun ε _ x y _ h => C103_act a H h⟩
  | batch a t r =>
    obtain ⟨he, hv⟩ := hb
    refine folded_lip H s fun N C n Z S _ => ?_
    by_cases ht : t = true ∨ a.track = false
    · obtain ⟨W, hW0, hW⟩ := exists_scale a.scale C
      exact ⟨_, by positivity, fun ε hε x' y' hx' h => drop2 (hx' ▸ batchNorm_stats ht he hε (W := W) (by rw [hx']; exact hW) h)⟩
    · obtain ⟨rfl, ht'⟩ := stats_or ht
      obtain ⟨W, hW0, hW⟩ := exists_eval a r he (hv rfl ht') C
      exact ⟨_, hW0, fun ε hε x' y' hx' h => drop2 (batchNorm_eval ht' (W := W) (by rw [hx']; exact hW) h)⟩
  | inst a t r =>
    obtain ⟨he, hv⟩ := hb
    refine folded_lip H s fun N C n Z S _ => ?_
    by_cases ht : t = true ∨ a.track = false
    · obtain ⟨W, hW0, hW⟩ := exists_scale a.scale (N + C)
      refine ⟨W * (2 * (1 + √((C * (n * Z * S.prod) + n * Z * S.prod : ℕ) : ℝ)) / √a.eps), by positivity, fun ε hε x' y' hx' h => ?_⟩
      refine instance_of (fun u v hu h => ?_) hx' h
      have hc : ∀ c < u.shape.getD 1 0, |a.scale c| ≤ W := fun c hc => hW c (by
        rcases hu with hu | hu <;> rw [hu] at hc <;> simp at hc <;> omega)
      have := instBatched_stats (nd := d) (r := r) ht he hε hc h
      have hle : (u.shape.drop 2).prod ≤ C * (n * Z * S.prod) + n * Z * S.prod := by
        rcases hu with hu | hu <;> rw [hu] <;> simp
      generalize F.instanceNormBatched d a t r u = p at this
      generalize F.instanceNormBatched d a t r v = q at this
      cases this with
      | error e => exact .error e
      | ok h =>
        refine .ok ⟨h.1, h.2.1, fun i hi => (h.2.2 i hi).trans ?_⟩
        have : ((u.shape.drop 2).prod : ℝ) ≤ ((C * (n * Z * S.prod) + n * Z * S.prod : ℕ) : ℝ) := by exact_mod_cast hle
        gcongr
    · obtain ⟨rfl, ht'⟩ := stats_or ht
      obtain ⟨W, hW0, hW⟩ := exists_eval a r he (hv rfl ht') (N + C)
      refine ⟨W, hW0, fun ε hε x' y' hx' h => instance_of (fun u v hu h => ?_) hx' h⟩
      refine instBatched_eval ht' (fun c hc => hW c ?_) h
      rcases hu with hu | hu <;> rw [hu] at hc <;> simp at hc <;> omega
  | groupSE M move weight bias => exact group_lip ..
  | separableSE M move weightH weight bias => exact separable_lip ..
  | groupE M move weight bias => exact group_lip ..
  | separableE M move weightH weight bias => exact separable_lip ..

theorem run_lip (bs : List (Net.Block G d)) (hb : ∀ b ∈ bs, Smooth b) (H : Tensor G) (s : List ℕ) :
    LipAt WithinLayer (fun x => Net.run bs (x, H)) s := by
  induction bs generalizing H s with
  | nil => exact ⟨1, zero_le_one, fun ε _ x y _ h => .ok ⟨by rw [one_mul]; exact h, rfl⟩⟩
  | cons b bs ih =>
    exact LipAt.comp (g := Net.run bs) (block_lip b (hb b (List.mem_cons_self ..)) H s)
      fun H' s' => ih (fun b hb' => hb b (List.mem_cons_of_mem _ hb')) H' s'

/-- Networks: for every chain of layers, every grid and every input shape there is a constant `κ` such that inputs that
differ by at most `ε` lead to feature maps that differ by at most `κ ε` (on the same grid), or to the same error. -/
theorem C103_network (bs : List (Net.Block G d)) (hb : ∀ b ∈ bs, Smooth b) (H : Tensor G) (s : List ℕ) :
    ∃ κ, 0 ≤ κ ∧ ∀ ε, 0 ≤ ε → ∀ x y, x.shape = s → Within ε x y →
      Outcomes2 (WithinLayer (κ * ε)) (Net.run bs (x, H)) (Net.run bs (y, H)) :=
  run_lip bs hb H s

theorem avgPooled_lip (H : Tensor G) (s : List ℕ) : LipAt Within (fun x => Net.avgPooled (x, H)) s := by
  refine ⟨1, zero_le_one, fun ε hε x y _ h => ?_⟩
  rw [one_mul]
  have := (C103_avg_pool hε h).2
  show Outcomes2 _ ((Pooling.avgGlobal x).map Net.values) ((Pooling.avgGlobal y).map Net.values)
  generalize Pooling.avgGlobal x = p at *
  generalize Pooling.avgGlobal y = q at *
  cases this with
  | error e => exact .error e
  | ok h => exact .ok h

theorem maxPooled_lip (H : Tensor G) (s : List ℕ) : LipAt Within (fun x => Net.maxPooled (x, H)) s := by
  refine ⟨1, zero_le_one, fun ε hε x y _ h => ?_⟩
  rw [one_mul]
  have := (C103_max_pool h).2
  show Outcomes2 _ ((Pooling.maxGlobal x).map Net.values) ((Pooling.maxGlobal y).map Net.values)
  generalize Pooling.maxGlobal x = p at *
  generalize Pooling.maxGlobal y = q at *
  cases this with
  | error e => exact .error e
  | ok h => exact .ok h

/-- Classifiers: lifting layer, chain of layers, global pooling. -/
theorem C103_classifier (L : Module G d) (move : G → G) (weight : Tensor ℝ) (bias : Option (Tensor ℝ)) (H : Option (Tensor G))
    (bs : List (Net.Block G d)) (hb : ∀ b ∈ bs, Smooth b) (s : List ℕ) :
    ∃ κ, 0 ≤ κ ∧ ∀ ε, 0 ≤ ε → ∀ x y, x.shape = s → Within ε x y →
      Outcomes2 (Within (κ * ε)) (L.lift move weight bias x H >>= Net.run bs >>= Net.avgPooled)
        (L.lift move weight bias y H >>= Net.run bs >>= Net.avgPooled) ∧
      Outcomes2 (Within (κ * ε)) (L.lift move weight bias x H >>= Net.run bs >>= Net.maxPooled)
        (L.lift move weight bias y H >>= Net.run bs >>= Net.maxPooled) := by
  have h1 : LipAt WithinLayer (fun x => L.lift move weight bias x H >>= Net.run bs) s :=
    LipAt.comp (lift_lip L.layer L.kernel weight bias _ s) fun H' s' => run_lip bs hb H' s'
  obtain ⟨κ₁, a1, a2⟩ := LipAt.comp h1 avgPooled_lip
  obtain ⟨κ₂, b1, b2⟩ := LipAt.comp h1 maxPooled_lip
  refine ⟨max κ₁ κ₂, a1.trans (le_max_left _ _), fun ε hε x y hx h => ⟨?_, ?_⟩⟩
  · have := a2 ε hε x y hx h
    dsimp only at this
    generalize L.lift move weight bias x H >>= Net.run bs >>= Net.avgPooled = p at *
    generalize L.lift move weight bias y H >>= Net.run bs >>= Net.avgPooled = q at *
    cases this with
    | error e => exact .error e
    | ok h => exact .ok ⟨h.1, fun i hi => (h.2 i hi).trans (by gcongr; exact le_max_left _ _)⟩
  · have := b2 ε hε x y hx h
    dsimp only at this
    generalize L.lift move weight bias x H >>= Net.run bs >>= Net.maxPooled = p at *
    generalize L.lift move weight bias y H >>= Net.run bs >>= Net.maxPooled = q at *
    cases this with
    | error e => exact .error e
    | ok h => exact .ok ⟨h.1, fun i hi => (h.2 i hi).trans (by gcongr; exact le_max_right _ _)⟩

/-! ## `eps` is needed -/

/-- the image with the two values `v` and `-v`. -/
def pair (v : ℝ) : Tensor ℝ := ⟨[1, 1, 2, 1, 1], fun i => if i.getD 2 0 = 0 then v else -v⟩

theorem pair_norm (a : F.NormArgs) (ha : a.eps = 0) (haf : a.affine = false) (hf : a.features = 1) (r : F.Running) (H : Tensor G) {v : ℝ} (hv : v ≠ 0) :
    ∃ y, (Normalization.batch 2 a true r (pair v) H).map Prod.fst = .ok (y, H) ∧ y.shape = [1, 1, 2, 1, 1] ∧
      y.get [0, 0, 0, 0, 0] = v / |v| := by
  unfold Normalization.batch Normalization.folded
  obtain ⟨u, hu, hus, hu0, hu1⟩ : ∃ u, (pair v).view [1, 1, 2, 1] = .ok u ∧ u.shape = [1, 1, 2, 1] ∧
      u.get [0, 0, 0, 0] = v ∧ u.get [0, 0, 1, 0] = -v := ⟨_, view_ok rfl, rfl, rfl, rfl⟩
  dsimp only [pair] at hu ⊢
  rw [show 2 * 1 = 2 from rfl, hu, ok_bind]
  obtain ⟨w, hw, hws, hw0⟩ : ∃ w, F.batchNorm 2 a true r u = .ok w ∧ w.1.shape = [1, 1, 2, 1] ∧ w.1.get [0, 0, 0, 0] = v / |v| := by
    unfold F.batchNorm
    rw [hus]
    dsimp only
    rw [if_neg (by decide), if_pos (Or.inl rfl), if_neg (by decide), if_neg (by rw [hf]; simp)]
    refine ⟨_, rfl, rfl, ?_⟩
    have ht : ∀ f : List ℕ → ℝ, F.total [1, 2, 1] f = f [0, 0, 0] + f [0, 1, 0] := fun f => by
      simp [F.total, allIdx, List.range_succ]
    have hm : F.boxMean [1, 2, 1] (F.channel u 0) = 0 := by
      unfold F.boxMean
      rw [ht]
      simp [F.channel, hu0, hu1]
    have hvar : F.boxVar [1, 2, 1] (F.channel u 0) = v ^ 2 := by
      unfold F.boxVar
      rw [ht, hm]
      simp only [F.channel, List.headD_cons, List.tail_cons, hu0, hu1, List.prod_cons, List.prod_nil]
      push_cast
      ring
    show F.standardise a.eps (F.boxMean [1, 2, 1] (F.channel u 0)) (F.boxVar [1, 2, 1] (F.channel u 0)) (a.scale 0) (a.shift 0) (u.get [0, 0, 0, 0]) = _
    rw [hm, hvar, hu0]
    unfold F.standardise F.NormArgs.scale F.NormArgs.shift
    rw [haf, ha]
    simp [Real.sqrt_sq_eq_abs]
  rw [hw, ok_bind]
  obtain ⟨z, hz, hzs, hz0⟩ : ∃ z, w.1.view [1, 1, 2, 1, 1] = .ok z ∧ z.shape = [1, 1, 2, 1, 1] ∧ z.get [0, 0, 0, 0, 0] = v / |v| :=
    ⟨_, view_ok (by rw [hws]; rfl), rfl, by
      dsimp only
      rw [hws]
      exact hw0⟩
  rw [hz]
  exact ⟨z, rfl, hzs, hz0⟩

/-- With `eps = 0` a batch normalisation layer magnifies differences without bound: no constant works. -/
theorem C103_eps_needed (a : F.NormArgs) (ha : a.eps = 0) (haf : a.affine = false) (hf : a.features = 1) (r : F.Running) (H : Tensor G) (κ : ℝ) :
    ∃ ε > 0, ∃ x y, x.shape = [1, 1, 2, 1, 1] ∧ Within ε x y ∧
      ¬ Outcomes2 (WithinLayer (κ * ε)) ((Normalization.batch 2 a true r x H).map Prod.fst)
        ((Normalization.batch 2 a true r y H).map Prod.fst) := by
  set v : ℝ := 1 / (1 + |κ|) with hvd
  have hv : 0 < v := by positivity
  refine ⟨2 * v, by positivity, pair v, pair (-v), rfl, ⟨rfl, fun i _ => ?_⟩, fun h => ?_⟩
  · unfold pair
    dsimp only
    split
    · rw [abs_of_nonneg (by linarith)]; linarith
    · rw [abs_of_nonpos (by linarith)]; linarith
  · obtain ⟨y, hy, hys, hy0⟩ := pair_norm a ha haf hf r H hv.ne'
    obtain ⟨z, hz, hzs, hz0⟩ := pair_norm a ha haf hf r H (neg_ne_zero.2 hv.ne')
    rw [hy, hz] at h
    cases h with
    | ok h =>
      have := h.1.2 [0, 0, 0, 0, 0] (by rw [hys]; simp [InB])
      rw [hy0, hz0, abs_neg, abs_of_pos hv, div_self hv.ne', neg_div, div_self hv.ne'] at this
      have e : κ * (2 * v) < 2 := by
        have : |κ| * v < 1 := by
          rw [hvd, mul_one_div, div_lt_one (by positivity)]
          linarith
        nlinarith [le_abs_self κ]
      norm_num at this
      linarith

/-! ## a case that succeeds -/

/-- `GConvSE2` followed by `GReLU` on 9 x 8 images: all inputs are accepted, and the outputs for nearby inputs are near. -/
example (n : ℕ) (hn : 0 < n) (w inH : Tensor ℝ)
    (hw : w.shape = [(KernelSE2.grid (KernelSE2.exArgs n)).shape.headD 0, 6, 2, 5, 5]) (hin : inH.shape = [n]) :
    ∃ M κ, Conv.fullSE2 (KernelSE2.exArgs n) Conv.padOpts = .ok M ∧ ∀ ε, 0 ≤ ε → ∀ x y : Tensor ℝ, x.shape = [3, 4, n, 9, 8] → Within ε x y →
      ∃ u v, Net.run [.groupSE M id w none, .act .relu] (x, inH) = .ok (u, inH) ∧
        Net.run [.groupSE M id w none, .act .relu] (y, inH) = .ok (v, inH) ∧ u.shape = [3, 6, n, 7, 6] ∧ Within (κ * ε) u v := by
  obtain ⟨M, -, -, hM, -⟩ := Conv.C62_violated_padding n hn w ⟨_, 0⟩ ⟨_, 0⟩ ⟨[3, 4, n, 9, 8], 0⟩ inH hw rfl rfl rfl hin
  obtain ⟨κ, -, hκ⟩ := C103_network [.groupSE M id w none, .act .relu] (by
    intro b hb
    simp only [List.mem_cons, List.not_mem_nil, or_false] at hb
    rcases hb with rfl | rfl <;> trivial) inH [3, 4, n, 9, 8]
  refine ⟨M, κ, hM, fun ε hε x y hx h => ?_⟩
  obtain ⟨M', out, -, hM', o₁, -, hs, -⟩ := Conv.C62_violated_padding n hn w ⟨_, 0⟩ ⟨_, 0⟩ x inH hw rfl rfl hx hin
  rw [hM] at hM'
  cases hM'
  have := hκ ε hε x y hx h
  have e : Net.run [.groupSE M id w none, .act .relu] (x, inH) = .ok (out.map F.relu, inH) := by
    show (M.groupSE id w none x inH none >>= fun yH => (Activations.Act.forward .relu yH.1 yH.2 >>= fun zH => Net.run [] zH)) = _
    rw [o₁]
    rfl
  rw [e] at this
  generalize Net.run [.groupSE M id w none, .act .relu] (y, inH) = q at this
  cases this with
  | @ok _ q h =>
    obtain ⟨q, Q⟩ := q
    obtain ⟨h1, h2⟩ := h
    cases h2
    exact ⟨_, q, e, rfl, hs, h1⟩

end GConv.Stability

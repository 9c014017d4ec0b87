import Verif.Spec.Rounding
import Verif.Props.Rotation
import Verif.Props.Translation

/-! # C115: convolutions in floating point arithmetic -/

namespace GConv.Rounding

open Tensor Spec Conv GroupKernel

variable {u : ℝ}

/-! ## sums -/

theorem flSum_bound (hu : 0 ≤ u) {l : List ℝ} {v : ℝ} (h : FlSum u l v) :
    ∃ m, l.length = m + 1 ∧ |v - l.sum| ≤ ((1 + u) ^ m - 1) * (l.map fun x => |x|).sum := by
  induction h with
  | one a => exact ⟨0, rfl, by simp⟩
  | perm hp _ ih =>
    obtain ⟨m, h1, h2⟩ := ih
    exact ⟨m, by rw [← hp.length_eq]; exact h1, by rw [← hp.sum_eq, ← (hp.map _).sum_eq]; exact h2⟩
  | @add l r a b δ _ _ hδ ih1 ih2 =>
    obtain ⟨m, h1, h2⟩ := ih1
    obtain ⟨m', h1', h2'⟩ := ih2
    refine ⟨m + m' + 1, by rw [List.length_append]; omega, ?_⟩
    rw [List.sum_append, List.map_append, List.sum_append]
    set s := l.sum
    set t := r.sum
    have habs : ∀ l : List ℝ, |l.sum| ≤ (l.map fun x => |x|).sum := fun l => by
      induction l with
      | nil => simp
      | cons c l ih => rw [List.sum_cons, List.map_cons, List.sum_cons]; exact (abs_add_le _ _).trans (by linarith)
    have hs := habs l
    have ht := habs r
    set A := (l.map fun x => |x|).sum
    set B := (r.map fun x => |x|).sum
    have hA : 0 ≤ A := (abs_nonneg _).trans hs
    have hB : 0 ≤ B := (abs_nonneg _).trans ht
    have h1u : (1 : ℝ) ≤ 1 + u := by linarith
    have e1 : (1 + u) ^ m ≤ (1 + u) ^ (m + m') := pow_le_pow_right₀ h1u (by omega)
    have e2 : (1 + u) ^ m' ≤ (1 + u) ^ (m + m') := pow_le_pow_right₀ h1u (by omega)
    set p := (1 + u) ^ (m + m') with hp
    have hp1 : 1 ≤ p := one_le_pow₀ h1u
    have k1 : |a - s| ≤ (p - 1) * A := h2.trans (mul_le_mul_of_nonneg_right (by linarith) hA)
    have k2 : |b - t| ≤ (p - 1) * B := h2'.trans (mul_le_mul_of_nonneg_right (by linarith) hB)
    have e : (a + b) * (1 + δ) - (s + t) = ((a - s) + (b - t)) * (1 + δ) + (s + t) * δ := by ring
    have hδ1 : |1 + δ| ≤ 1 + u := (abs_add_le _ _).trans (by rw [abs_one]; linarith)
    have g1 : |(a - s) + (b - t)| ≤ (p - 1) * (A + B) := (abs_add_le _ _).trans (by linarith [k1, k2])
    have g2 : |s + t| ≤ A + B := (abs_add_le _ _).trans (by linarith)
    rw [e]
    calc |((a - s) + (b - t)) * (1 + δ) + (s + t) * δ|
        ≤ |(a - s) + (b - t)| * |1 + δ| + |s + t| * |δ| := by rw [← abs_mul, ← abs_mul]; exact abs_add_le _ _
      _ ≤ (p - 1) * (A + B) * (1 + u) + (A + B) * u :=
          add_le_add (mul_le_mul g1 hδ1 (abs_nonneg _) (mul_nonneg (by linarith) (by linarith)))
            (mul_le_mul g2 hδ (abs_nonneg _) (by linarith))
      _ = ((1 + u) ^ (m + m' + 1) - 1) * (A + B) := by rw [pow_succ, ← hp]; ring

/-- the exact sum of products. -/
def dot (l : List (ℝ × ℝ)) : ℝ := (l.map fun t => t.1 * t.2).sum

/-- the sum of the absolute values of the products. -/
def absDot (l : List (ℝ × ℝ)) : ℝ := (l.map fun t => |t.1 * t.2|).sum

theorem flDot_bound (hu : 0 ≤ u) {l : List (ℝ × ℝ)} {v : ℝ} (h : FlDot u l v) : |v - dot l| ≤ ((1 + u) ^ l.length - 1) * absDot l := by
  obtain ⟨p, hp, hs⟩ := h
  obtain ⟨m, h1, h2⟩ := flSum_bound hu hs
  have key : |p.sum - dot l| ≤ u * absDot l ∧ (p.map fun x => |x|).sum ≤ (1 + u) * absDot l := by
    clear h1 h2 hs
    induction hp with
    | nil => simp [dot, absDot]
    | @cons t c l p hc _ ih =>
      obtain ⟨δ, hδ, rfl⟩ := hc
      obtain ⟨i1, i2⟩ := ih
      unfold dot absDot at *
      simp only [List.sum_cons, List.map_cons]
      have hδ1 : |1 + δ| ≤ 1 + u := (abs_add_le _ _).trans (by rw [abs_one]; linarith)
      refine ⟨?_, ?_⟩
      · have e : t.1 * t.2 * (1 + δ) + p.sum - (t.1 * t.2 + (l.map fun t => t.1 * t.2).sum) =
            t.1 * t.2 * δ + (p.sum - (l.map fun t => t.1 * t.2).sum) := by ring
        rw [e]
        refine (abs_add_le _ _).trans ?_
        rw [abs_mul]
        have := mul_le_mul_of_nonneg_left hδ (abs_nonneg (t.1 * t.2))
        linarith
      · rw [abs_mul (t.1 * t.2)]
        have := mul_le_mul_of_nonneg_left hδ1 (abs_nonneg (t.1 * t.2))
        linarith
  have hl : l.length = m + 1 := by rw [hp.length_eq]; exact h1
  have h1u : (1 : ℝ) ≤ 1 + u := by linarith
  have hp1 : (1 : ℝ) ≤ (1 + u) ^ m := one_le_pow₀ h1u
  have k := mul_le_mul_of_nonneg_left key.2 (sub_nonneg.2 hp1)
  rw [hl, pow_succ]
  have e : v - dot l = (v - p.sum) + (p.sum - dot l) := by ring
  rw [e]
  refine (abs_add_le _ _).trans ?_
  nlinarith [key.1, h2, k]

theorem flCell_bound (hu : 0 ≤ u) {l : List (ℝ × ℝ)} {bias : Option (Tensor ℝ)} {nd co : ℕ} {v : ℝ} (h : FlCell u l bias nd co v) :
    |v - (dot l + biasAt bias nd co)| ≤ ((1 + u) ^ (l.length + 1) - 1) * (absDot l + |biasAt bias nd co|) := by
  have h1u : (1 : ℝ) ≤ 1 + u := by linarith
  have hp1 : (1 : ℝ) ≤ (1 + u) ^ l.length := one_le_pow₀ h1u
  have hA : 0 ≤ absDot l := List.sum_nonneg fun x hx => by
    obtain ⟨t, -, rfl⟩ := List.mem_map.1 hx
    exact abs_nonneg _
  have hd : |dot l| ≤ absDot l := by
    unfold dot absDot
    clear h hp1 hA
    induction l with
    | nil => simp
    | cons c l ih => rw [List.map_cons, List.map_cons, List.sum_cons, List.sum_cons]; exact (abs_add_le _ _).trans (by linarith)
  cases bias with
  | none =>
    have h := flDot_bound hu h
    have e : biasAt none nd co = 0 := rfl
    rw [e, add_zero, abs_zero, add_zero, pow_succ]
    refine h.trans (mul_le_mul_of_nonneg_right ?_ hA)
    nlinarith
  | some b =>
    obtain ⟨s, δ, hs, hδ, rfl⟩ := h
    have h := flDot_bound hu hs
    set β := biasAt (some b) nd co
    have hδ1 : |1 + δ| ≤ 1 + u := (abs_add_le _ _).trans (by rw [abs_one]; linarith)
    have e : (s + β) * (1 + δ) - (dot l + β) = (s - dot l) * (1 + δ) + (dot l + β) * δ := by ring
    rw [e]
    have g2 : |dot l + β| ≤ absDot l + |β| := (abs_add_le _ _).trans (by linarith)
    set q := (1 + u) ^ l.length with hq
    calc |(s - dot l) * (1 + δ) + (dot l + β) * δ| ≤ |s - dot l| * |1 + δ| + |dot l + β| * |δ| := by
          rw [← abs_mul, ← abs_mul]; exact abs_add_le _ _
      _ ≤ (q - 1) * absDot l * (1 + u) + (absDot l + |β|) * u :=
          add_le_add (mul_le_mul h hδ1 (abs_nonneg _) (mul_nonneg (by linarith) hA))
            (mul_le_mul g2 hδ (abs_nonneg _) (by positivity))
      _ ≤ ((1 + u) ^ (l.length + 1) - 1) * (absDot l + |β|) := by
          rw [pow_succ, ← hq]
          have := mul_nonneg (mul_nonneg (sub_nonneg.2 hp1) (by linarith : (0 : ℝ) ≤ 1 + u)) (abs_nonneg β)
          nlinarith

/-! ## the terms of a convolution -/

theorem dot_append (l r : List (ℝ × ℝ)) : dot (l ++ r) = dot l + dot r := by unfold dot; rw [List.map_append, List.sum_append]

theorem dot_flatMap (f : ℕ → List (ℝ × ℝ)) (n : ℕ) : dot ((List.range n).flatMap f) = ∑ i ∈ Finset.range n, dot (f i) := by
  induction n with
  | zero => rfl
  | succ n ih =>
    rw [List.range_succ, List.flatMap_append, dot_append, ih, Finset.sum_range_succ, List.flatMap_singleton]

theorem length_flatMap (f : ℕ → List (ℝ × ℝ)) (n c : ℕ) (h : ∀ i < n, (f i).length = c) : ((List.range n).flatMap f).length = n * c := by
  induction n with
  | zero => simp
  | succ n ih =>
    rw [List.range_succ, List.flatMap_append, List.length_append, ih fun i hi => h i (by omega), List.flatMap_singleton, h n (by omega)]
    ring

theorem dot_corr (mode : F.CPad) (ax : List Axis) (S : List ℕ) (f w : List ℕ → ℝ) (o : List ℕ) :
    dot (corrTerms mode ax S f w o) = corr mode ax S f w o := by
  unfold dot corrTerms corr sumBox
  rw [List.map_map]; rfl

theorem dot_lifting (a : Args) (mode : F.CPad) (ax : List Axis) (S : List ℕ) (x w : Tensor ℝ) (bias : Option (Tensor ℝ)) (b co h : ℕ) (o : List ℕ) :
    dot (liftingTerms a mode ax S x w b co h o) + biasAt bias ax.length co = Spec.liftingConv a mode ax S x w bias b co h o := by
  unfold liftingTerms Spec.liftingConv
  rw [dot_flatMap]
  exact congrArg (· + _) (Finset.sum_congr rfl fun ci _ => dot_corr _ _ _ _ _ _)

theorem dot_group (a : Args) (mode : F.CPad) (ax : List Axis) (S : List ℕ) (x w : Tensor ℝ) (bias : Option (Tensor ℝ)) (m b co h : ℕ) (o : List ℕ) :
    dot (groupTerms a mode ax S x w m b co h o) + biasAt bias ax.length co = Spec.groupConv a mode ax S x w bias m b co h o := by
  unfold groupTerms Spec.groupConv
  rw [dot_flatMap]
  exact congrArg (· + _) (Finset.sum_congr rfl fun ci _ => by rw [dot_flatMap]; exact Finset.sum_congr rfl fun i _ => dot_corr _ _ _ _ _ _)

theorem corrTerms_length (mode : F.CPad) (ax : List Axis) (S : List ℕ) (f w : List ℕ → ℝ) (o : List ℕ) :
    (corrTerms mode ax S f w o).length = (kernelDims ax).prod := by
  unfold corrTerms; rw [List.length_map, allIdx_length]

theorem liftingTerms_length (a : Args) (mode : F.CPad) (ax : List Axis) (S : List ℕ) (x w : Tensor ℝ) (b co h : ℕ) (o : List ℕ) :
    (liftingTerms a mode ax S x w b co h o).length = a.inC / a.groups.toNat * (kernelDims ax).prod :=
  length_flatMap _ _ _ fun _ _ => corrTerms_length _ _ _ _ _ _

theorem groupTerms_length (a : Args) (mode : F.CPad) (ax : List Axis) (S : List ℕ) (x w : Tensor ℝ) (m b co h : ℕ) (o : List ℕ) :
    (groupTerms a mode ax S x w m b co h o).length = a.inC / a.groups.toNat * m * (kernelDims ax).prod := by
  rw [Nat.mul_assoc]
  exact length_flatMap _ _ _ fun _ _ => length_flatMap _ _ _ fun _ _ => corrTerms_length _ _ _ _ _ _

/-- sums over the same cells of two filters that differ by at most `η`. -/
theorem corr_near {mode : F.CPad} {ax : List Axis} {S : List ℕ} (hg : GeomOk mode ax S) {f w w' : List ℕ → ℝ} {o : List ℕ}
    (ho : InB (outDims ax S) o) {B W η : ℝ} (hB : 0 ≤ B) (hf : ∀ q, InB S q → |f q| ≤ B)
    (hw : ∀ k, InB (kernelDims ax) k → |w' k - w k| ≤ η ∧ |w' k| ≤ W) :
    |corr mode ax S f w' o - corr mode ax S f w o| ≤ (kernelDims ax).prod * B * η ∧
    absDot (corrTerms mode ax S f w' o) ≤ (kernelDims ax).prod * B * W := by
  have hcell : ∀ k, InB (kernelDims ax) k → |extended mode S f (readPos ax o k)| ≤ B := fun k hk => by
    unfold extended
    split
    · rename_i q e
      exact hf _ (cellAt_InB hg ho hk e)
    · rw [abs_zero]; exact hB
  unfold corr sumBox corrTerms absDot
  rw [List.map_map, ← allIdx_length]
  have hmem : ∀ k ∈ allIdx (kernelDims ax), InB (kernelDims ax) k := fun k => mem_allIdx.1
  generalize allIdx (kernelDims ax) = L at hmem
  induction L with
  | nil => simp
  | cons k L ih =>
    obtain ⟨i1, i2⟩ := ih fun k hk => hmem k (by simp [hk])
    have hk := hmem k (by simp)
    obtain ⟨w1, w2⟩ := hw k hk
    have hc := hcell k hk
    simp only [List.map_cons, List.sum_cons, List.length_cons, Function.comp] at i1 i2 ⊢
    push_cast
    refine ⟨?_, ?_⟩
    · set c := extended mode S f (readPos ax o k)
      have e : ∀ s t : ℝ, c * w' k + s - (c * w k + t) = c * (w' k - w k) + (s - t) := fun s t => by ring
      rw [e]
      refine (abs_add_le _ _).trans ?_
      rw [abs_mul]
      have := mul_le_mul hc w1 (abs_nonneg _) hB
      linarith
    · rw [abs_mul]
      have := mul_le_mul hc w2 (abs_nonneg _) hB
      linarith

theorem absDot_append (l r : List (ℝ × ℝ)) : absDot (l ++ r) = absDot l + absDot r := by
  unfold absDot; rw [List.map_append, List.sum_append]

theorem absDot_flatMap (f : ℕ → List (ℝ × ℝ)) (n : ℕ) {c : ℝ} (h : ∀ i < n, absDot (f i) ≤ c) :
    absDot ((List.range n).flatMap f) ≤ n * c := by
  induction n with
  | zero => simp [absDot]
  | succ n ih =>
    rw [List.range_succ, List.flatMap_append, absDot_append, List.flatMap_singleton]
    have := ih fun i hi => h i (by omega)
    have := h n (by omega)
    push_cast
    linarith

theorem sum_near (f g : ℕ → ℝ) (n : ℕ) {c : ℝ} (h : ∀ i < n, |f i - g i| ≤ c) :
    |∑ i ∈ Finset.range n, f i - ∑ i ∈ Finset.range n, g i| ≤ n * c := by
  rw [← Finset.sum_sub_distrib]
  refine (Finset.abs_sum_le_sum_abs _ _).trans ?_
  refine (Finset.sum_le_sum fun i hi => h i (Finset.mem_range.1 hi)).trans ?_
  rw [Finset.sum_const, Finset.card_range, nsmul_eq_mul]

/-- one cell: terms `l'` with the stored filters, exact value `e` with the exact filters. -/
theorem cell_error (hu : 0 ≤ u) {l : List (ℝ × ℝ)} {n : ℕ} (hl : l.length = n) {bias : Option (Tensor ℝ)} {nd co : ℕ} {v e B W β η : ℝ}
    (h : FlCell u l bias nd co v) (h1 : absDot l ≤ n * B * W) (h2 : |dot l - (e - biasAt bias nd co)| ≤ n * B * η)
    (hβ : |biasAt bias nd co| ≤ β) : |v - e| ≤ roundingError u n B W β η := by
  have k := flCell_bound hu h
  rw [hl] at k
  have hp1 : (1 : ℝ) ≤ (1 + u) ^ (n + 1) := one_le_pow₀ (by linarith)
  have e1 : v - e = (v - (dot l + biasAt bias nd co)) + (dot l - (e - biasAt bias nd co)) := by ring
  rw [e1]
  unfold roundingError
  refine (abs_add_le _ _).trans (add_le_add (k.trans (mul_le_mul_of_nonneg_left (by linarith) (by linarith))) h2)

section layer
variable {a : Args} {mode : F.CPad} {ax : List Axis} {S : List ℕ} {L : Layer} {bias : Option (Tensor ℝ)} {B W β η : ℝ} {x w ws : Tensor ℝ}
  {N m n : ℕ}

theorem lifting_cell (hgeo : HasGeometry a mode ax) (hL : init a (kernelDims ax) = .ok L) (hg : GeomOk mode ax S) (hu : 0 ≤ u) (hB : 0 ≤ B)
    (hw : w.shape = a.outC :: n :: a.inC / a.groups.toNat :: kernelDims ax) (hx : x.shape = N :: a.inC :: S)
    (hxB : Bounded B x) (hws : StoredFilters W η w ws) (hβ : ∀ co < a.outC, |biasAt bias ax.length co| ≤ β) {fl : Tensor ℝ}
    (h : FlLifting u a mode ax S x ws bias N n fl) {b co i : ℕ} {o : List ℕ} (hb : b < N) (hco : co < a.outC) (hi : i < n)
    (ho : InB (outDims ax S) o) :
    |fl.get (b :: co :: i :: o) - Spec.liftingConv a mode ax S x w bias b co i o| ≤
      roundingError u (a.inC / a.groups.toNat * (kernelDims ax).prod) B W β η := by
  have near : ∀ ci < a.inC / a.groups.toNat, _ := fun ci hci =>
    corr_near (f := fun q => x.get (b :: (groupStart a.inC a.outC a.groups.toNat co + ci) :: q)) (w := fun k => w.get (co :: i :: ci :: k))
      (w' := fun k => ws.get (co :: i :: ci :: k)) (W := W) (η := η) hg ho hB
      (fun q hq => hxB _ (by
        rw [hx]
        exact InB_cons.2 ⟨hb, InB_cons.2 ⟨Conv.channel_lt hgeo hL hco hci, hq⟩⟩))
      (fun k hk => hws _ (by rw [hw]; exact InB_cons.2 ⟨hco, InB_cons.2 ⟨hi, InB_cons.2 ⟨hci, hk⟩⟩⟩))
  refine cell_error hu (liftingTerms_length a mode ax S x ws b co i o) (h b co i o hb hco hi ho) ?_ ?_ (hβ co hco)
  · refine (absDot_flatMap _ _ fun ci hci => (near ci hci).2).trans (le_of_eq ?_)
    push_cast; ring
  · have e : dot (liftingTerms a mode ax S x ws b co i o) = Spec.liftingConv a mode ax S x ws none b co i o := by
      rw [← dot_lifting]; exact (add_zero _).symm
    rw [e]
    unfold Spec.liftingConv
    rw [show biasAt none ax.length co = 0 from rfl, add_zero, add_sub_cancel_right]
    refine (sum_near _ _ _ fun ci hci => (near ci hci).1).trans (le_of_eq ?_)
    push_cast; ring

theorem group_cell (hgeo : HasGeometry a mode ax) (hL : init a (kernelDims ax) = .ok L) (hg : GeomOk mode ax S) (hu : 0 ≤ u) (hB : 0 ≤ B)
    (hw : w.shape = a.outC :: n :: a.inC / a.groups.toNat :: m :: kernelDims ax) (hx : x.shape = N :: a.inC :: m :: S)
    (hxB : Bounded B x) (hws : StoredFilters W η w ws) (hβ : ∀ co < a.outC, |biasAt bias ax.length co| ≤ β) {fl : Tensor ℝ}
    (h : FlGroup u a mode ax S x ws bias N m n fl) {b co i : ℕ} {o : List ℕ} (hb : b < N) (hco : co < a.outC) (hi : i < n)
    (ho : InB (outDims ax S) o) :
    |fl.get (b :: co :: i :: o) - Spec.groupConv a mode ax S x w bias m b co i o| ≤
      roundingError u (a.inC / a.groups.toNat * m * (kernelDims ax).prod) B W β η := by
  have near : ∀ ci < a.inC / a.groups.toNat, ∀ j < m, _ := fun ci hci j hj =>
    corr_near (f := fun q => x.get (b :: (groupStart a.inC a.outC a.groups.toNat co + ci) :: j :: q))
      (w := fun k => w.get (co :: i :: ci :: j :: k)) (w' := fun k => ws.get (co :: i :: ci :: j :: k)) (W := W) (η := η) hg ho hB
      (fun q hq => hxB _ (by
        rw [hx]
        exact InB_cons.2 ⟨hb, InB_cons.2 ⟨Conv.channel_lt hgeo hL hco hci, InB_cons.2 ⟨hj, hq⟩⟩⟩))
      (fun k hk => hws _ (by rw [hw]; exact InB_cons.2 ⟨hco, InB_cons.2 ⟨hi, InB_cons.2 ⟨hci, InB_cons.2 ⟨hj, hk⟩⟩⟩⟩))
  refine cell_error hu (groupTerms_length a mode ax S x ws m b co i o) (h b co i o hb hco hi ho) ?_ ?_ (hβ co hco)
  · refine (absDot_flatMap _ _ fun ci hci => absDot_flatMap _ _ fun j hj => (near ci hci j hj).2).trans (le_of_eq ?_)
    push_cast; ring
  · have e : dot (groupTerms a mode ax S x ws m b co i o) = Spec.groupConv a mode ax S x ws none m b co i o := by
      rw [← dot_group]; exact (add_zero _).symm
    rw [e]
    unfold Spec.groupConv
    rw [show biasAt none ax.length co = 0 from rfl, add_zero, add_sub_cancel_right]
    refine (sum_near _ _ _ fun ci hci => sum_near _ _ _ fun j hj => (near ci hci j hj).1).trans (le_of_eq ?_)
    push_cast; ring

/-- What `GLiftingConvNd` computes in floating point is within `roundingError` of the modelled output. -/
theorem C115_lifting {G : Type} {d : ℕ} (hgeo : HasGeometry a mode ax) (hL : init a (kernelDims ax) = .ok L) (hg : GeomOk mode ax S)
    (hu : 0 ≤ u) (hB : 0 ≤ B) (K : GroupKernel G d) (weight : Tensor ℝ) (H : Tensor G) (hH : H.shape = [n]) (hpos : 0 < a.inC)
    (hK : K.liftingForward weight H = .ok w) (hw : w.shape = a.outC :: n :: a.inC / a.groups.toNat :: kernelDims ax)
    (hx : x.shape = N :: a.inC :: S) (hb : BiasShape bias a.outC ax.length) :
    ∃ out, L.liftingForward K weight bias x H = .ok (out, H) ∧ ∀ fl, LiftingRun u B W β η a mode ax S x w bias N n fl →
      Within (roundingError u (a.inC / a.groups.toNat * (kernelDims ax).prod) B W β η) fl out := by
  obtain ⟨out, h1, h2, h3⟩ := C60_lifting hgeo hL hg K weight w bias N n x H hH hpos hK hw hx hb
  refine ⟨out, h1, fun fl ⟨hs, hxB, hβ, ws, hws, hfl⟩ => ⟨hs.trans h2.symm, fun p hp => ?_⟩⟩
  rw [hs] at hp
  obtain ⟨b, _, rfl, hb, hp⟩ := InB_cons_left hp
  obtain ⟨co, _, rfl, hco, hp⟩ := InB_cons_left hp
  obtain ⟨h, o, rfl, hh, ho⟩ := InB_cons_left hp
  rw [h3 b co h o hb hco hh ho]
  exact lifting_cell hgeo hL hg hu hB hw hx hxB hws hβ hfl hb hco hh ho

/-- What `GConvNd` computes in floating point is within `roundingError` of the modelled output. -/
theorem C115_group {G : Type} {d : ℕ} (hgeo : HasGeometry a mode ax) (hL : init a (kernelDims ax) = .ok L) (hg : GeomOk mode ax S)
    (hu : 0 ≤ u) (hB : 0 ≤ B) (K : GroupKernel G d) (weight : Tensor ℝ) (inH outH : Tensor G) (hin : inH.shape = [m])
    (hout : outH.shape = [n]) (hK : K.forward weight inH outH = .ok w)
    (hw : w.shape = a.outC :: n :: a.inC / a.groups.toNat :: m :: kernelDims ax) (hx : x.shape = N :: a.inC :: m :: S)
    (hb : BiasShape bias a.outC ax.length) :
    ∃ out, L.groupForward K weight bias x inH outH = .ok (out, outH) ∧ ∀ fl, GroupRun u B W β η a mode ax S x w bias N m n fl →
      Within (roundingError u (a.inC / a.groups.toNat * m * (kernelDims ax).prod) B W β η) fl out := by
  obtain ⟨out, h1, h2, h3⟩ := C61_group hgeo hL hg K weight w bias N m n x inH outH hin hout hK hw hx hb
  refine ⟨out, h1, fun fl ⟨hs, hxB, hβ, ws, hws, hfl⟩ => ⟨hs.trans h2.symm, fun p hp => ?_⟩⟩
  rw [hs] at hp
  obtain ⟨b, _, rfl, hb, hp⟩ := InB_cons_left hp
  obtain ⟨co, _, rfl, hco, hp⟩ := InB_cons_left hp
  obtain ⟨h, o, rfl, hh, ho⟩ := InB_cons_left hp
  rw [h3 b co h o hb hco hh ho]
  exact group_cell hgeo hL hg hu hB hw hx hxB hws hβ hfl hb hco hh ho

end layer

/-! ## equivariance in floating point -/

theorem moved_within {d : ℕ} {e : Equiv.Perm (Fin d)} {σ : LatticeSym d} {N C n : ℕ} {O' O : List ℕ} {ε : ℝ} {out out' fl fl' : Tensor ℝ}
    (hO : LatticeSym.Matches e σ O' O) (h : MovedTensor e σ [N, C, n] O' O out out') (h1 : Within ε fl out)
    (h2 : Within ε fl' out') : MovedWithin (2 * ε) e σ N C n O' O fl fl' := fun b co i o hb hco hi ho => by
  have e1 := h1.2 (b :: co :: i :: o) (by rw [h1.1, h.1]; exact InB_cons.2 ⟨hb, InB_cons.2 ⟨hco, InB_cons.2 ⟨hi, ho⟩⟩⟩)
  have e2 := h2.2 (b :: co :: i :: σ.move e O o) (by
    rw [h2.1, h.2.1]; exact InB_cons.2 ⟨hb, InB_cons.2 ⟨hco, InB_cons.2 ⟨hi, LatticeSym.move_InB hO ho⟩⟩⟩)
  have e3 := h.2.2 [b, co, i] o (by simp [hb, hco, hi]) ho
  simp only [List.cons_append, List.nil_append] at e3
  rw [e3] at e2
  have e4 : fl'.get (b :: co :: i :: σ.move e O o) - fl.get (b :: co :: i :: o) =
      (fl'.get (b :: co :: i :: σ.move e O o) - out.get (b :: co :: i :: o)) - (fl.get (b :: co :: i :: o) - out.get (b :: co :: i :: o)) := by ring
  rw [e4]
  exact (abs_sub _ _).trans (by linarith)

section moves
variable {G : Type} {d : ℕ} {a : Args} {mode : F.CPad} {ax : List Axis} {L : Layer} {e : Equiv.Perm (Fin d)} {σ : LatticeSym d} {S' S : List ℕ}

theorem lifting_moves (hgeo : HasGeometry a mode ax) (hL : init a (kernelDims ax) = .ok L)
    (hm : LatticeSym.Matches e σ S' S) (hg : GeomOk mode ax S) (hsym : SymmetricGeometry d ax S)
    {K : GroupKernel G d} {left : G → G} (hK : LiftingMoves K left e σ 1)
    (ho : K.outC = a.outC) (hi : K.inC / K.groups = a.inC / a.groups.toNat) (hk : K.kernelSize = kernelDims ax)
    (weight : Tensor ℝ) (hw : weight.shape = [K.outC, K.inC / K.groups] ++ K.kernelSize) (bias : Option (Tensor ℝ))
    (hb : BiasShape bias a.outC d) (N n : ℕ) (x x' : Tensor ℝ) (H : Tensor G) (hH : H.shape = [n]) (hpos : 0 < a.inC)
    (hx : MovedTensor e σ [N, a.inC] S' S x x') (hu : 0 ≤ u) {B : ℝ} (hB : 0 ≤ B) (W β η : ℝ) :
    ∃ w w' out out', K.liftingForward weight H = .ok w ∧ K.liftingForward weight (H.map left) = .ok w' ∧
      L.liftingForward K weight bias x H = .ok (out, H) ∧
      L.liftingForward K weight bias x' (H.map left) = .ok (out', H.map left) ∧
      ∀ fl fl', LiftingRun u B W β η a mode ax S' x w bias N n fl → LiftingRun u B W β η a mode ax S x' w' bias N n fl' →
        Within (roundingError u (a.inC / a.groups.toNat * (kernelDims ax).prod) B W β η) fl out ∧
        Within (roundingError u (a.inC / a.groups.toNat * (kernelDims ax).prod) B W β η) fl' out' ∧
        MovedWithin (2 * roundingError u (a.inC / a.groups.toNat * (kernelDims ax).prod) B W β η) e σ N a.outC n
          (outDims ax S') (outDims ax S) fl fl' := by
  obtain ⟨w, w', k1, k2, k3, k4, -⟩ := hK weight H n hw hH
  have hg' := geomOk_matches hm hsym hg
  have hd : ax.length = d := by obtain ⟨y, rfl, -⟩ := hsym; simp
  rw [ho, hi, hk] at k3
  have hmo : LatticeSym.Matches e σ (outDims ax S') (outDims ax S) := by
    obtain ⟨y, rfl, -⟩ := hsym; exact matches_out hm
  obtain ⟨out, out', x1, y1, z⟩ := lifting_equivariant hgeo hL hm hg hsym hK ho hi hk weight hw bias hb N n x x' H hH hpos hx
  obtain ⟨_, o1, o2⟩ := C115_lifting (B := B) (W := W) (β := β) (η := η) hgeo hL hg' hu hB K weight H hH hpos k1 k3 hx.1 (by rw [hd]; exact hb)
  obtain ⟨_, p1, p2⟩ := C115_lifting (B := B) (W := W) (β := β) (η := η) hgeo hL hg hu hB K weight (H.map left) (n := n) hH hpos k2
    (by rw [k4, k3]; rfl) hx.2.1 (by rw [hd]; exact hb)
  rw [x1] at o1
  cases o1
  rw [y1] at p1
  cases p1
  exact ⟨w, w', out, out', k1, k2, x1, y1, fun fl fl' h h' =>
    ⟨o2 fl h, p2 fl' h', moved_within hmo (movedOutput_one z) (o2 fl h) (p2 fl' h')⟩⟩

theorem group_moves (hgeo : HasGeometry a mode ax) (hL : init a (kernelDims ax) = .ok L)
    (hm : LatticeSym.Matches e σ S' S) (hg : GeomOk mode ax S) (hsym : SymmetricGeometry d ax S)
    {K : GroupKernel G d} {left : G → G} {Pair : G → G → Prop} (hK : GroupMoves K left e σ 1 Pair)
    (ho : K.outC = a.outC) (hi : K.inC / K.groups = a.inC / a.groups.toNat) (hk : K.kernelSize = kernelDims ax)
    (weight : Tensor ℝ) (hw : weight.shape = [K.groupKernelDim, K.outC, K.inC / K.groups] ++ K.kernelSize)
    (bias : Option (Tensor ℝ)) (hb : BiasShape bias a.outC d) (N mi n : ℕ) (x x' : Tensor ℝ) (inH outH : Tensor G)
    (hin : inH.shape = [mi]) (hout : outH.shape = [n]) (hp : ∀ o < n, ∀ i < mi, Pair (outH.get [o]) (inH.get [i]))
    (hx : MovedTensor e σ [N, a.inC, mi] S' S x x') (hu : 0 ≤ u) {B : ℝ} (hB : 0 ≤ B) (W β η : ℝ) :
    ∃ w w' out out', K.forward weight inH outH = .ok w ∧ K.forward weight (inH.map left) (outH.map left) = .ok w' ∧
      L.groupForward K weight bias x inH outH = .ok (out, outH) ∧
      L.groupForward K weight bias x' (inH.map left) (outH.map left) = .ok (out', outH.map left) ∧
      ∀ fl fl', GroupRun u B W β η a mode ax S' x w bias N mi n fl → GroupRun u B W β η a mode ax S x' w' bias N mi n fl' →
        Within (roundingError u (a.inC / a.groups.toNat * mi * (kernelDims ax).prod) B W β η) fl out ∧
        Within (roundingError u (a.inC / a.groups.toNat * mi * (kernelDims ax).prod) B W β η) fl' out' ∧
        MovedWithin (2 * roundingError u (a.inC / a.groups.toNat * mi * (kernelDims ax).prod) B W β η) e σ N a.outC n
          (outDims ax S') (outDims ax S) fl fl' := by
  obtain ⟨w, w', k1, k2, k3, k4, -⟩ := hK weight inH outH mi n hw hin hout hp
  have hg' := geomOk_matches hm hsym hg
  have hd : ax.length = d := by obtain ⟨y, rfl, -⟩ := hsym; simp
  rw [ho, hi, hk] at k3
  have hmo : LatticeSym.Matches e σ (outDims ax S') (outDims ax S) := by
    obtain ⟨y, rfl, -⟩ := hsym; exact matches_out hm
  obtain ⟨out, out', x1, y1, z⟩ := group_equivariant hgeo hL hm hg hsym hK ho hi hk weight hw bias hb N mi n x x' inH outH hin hout hp hx
  obtain ⟨_, o1, o2⟩ := C115_group (B := B) (W := W) (β := β) (η := η) hgeo hL hg' hu hB K weight inH outH hin hout k1 k3 hx.1
    (by rw [hd]; exact hb)
  obtain ⟨_, p1, p2⟩ := C115_group (B := B) (W := W) (β := β) (η := η) hgeo hL hg hu hB K weight (inH.map left) (outH.map left)
    (m := mi) (n := n) hin hout k2 (by rw [k4, k3]; rfl) hx.2.1 (by rw [hd]; exact hb)
  rw [x1] at o1
  cases o1
  rw [y1] at p1
  cases p1
  exact ⟨w, w', out, out', k1, k2, x1, y1, fun fl fl' h h' =>
    ⟨o2 fl h, p2 fl' h', moved_within hmo (movedOutput_one z) (o2 fl h) (p2 fl' h')⟩⟩

end moves

/-- `GLiftingConvSE2` in floating point: both outputs are within `roundingError` of the modelled ones, and moving the input by a
lattice symmetry moves the computed output up to twice that. `w`, `w'` are the exact filters of the two calls. -/
theorem C115_SE2 (k : KernelArgs ℝ ℕ) (c : ConvOpts) (hk : 2 ≤ k.kernelSize) {m p}
    (hm : SpatialModes k.spatialMode k.spatialPad m p)
    {M : Module ℝ 2} (hM : liftingSE2 k c = .ok M) {mode : F.CPad} {ax : List Axis}
    (hgeo : HasGeometry (argsSE2 k c) mode ax)
    {σ : LatticeSym 2} {S' S : List ℕ} (hσ : LatticeSym.Matches LatticeSym.ax2 σ S' S)
    (hS : GeomOk mode ax S) (hsym : SymmetricGeometry 2 ax S) (g : ℝ) (hg : SO2.angleToMatrix g = σ.matrix) (hpos : 0 < k.inC)
    (weight : Tensor ℝ) (hw : weight.shape = [k.outC, k.inC / k.groups, k.kernelSize, k.kernelSize])
    (bias : Option (Tensor ℝ)) (hb : BiasShape bias k.outC 2) (N n : ℕ) (x x' : Tensor ℝ)
    (H H' : Option (Tensor ℝ)) (move move' : ℝ → ℝ) (Hc : Tensor ℝ)
    (hHc : Hc = if c.permute then (H.getD M.kernel.gridH).map move else H.getD M.kernel.gridH)
    (hHc' : Hc.map (SO2.leftApplyAngle g) = if c.permute then (H'.getD M.kernel.gridH).map move' else H'.getD M.kernel.gridH) (hn : Hc.shape = [n])
    (hx : MovedTensor LatticeSym.ax2 σ [N, k.inC] S' S x x') {u B : ℝ} (hu : 0 ≤ u) (hB : 0 ≤ B) (W β η : ℝ) :
    ∃ w w' out out', M.kernel.liftingForward weight Hc = .ok w ∧
      M.kernel.liftingForward weight (Hc.map (SO2.leftApplyAngle g)) = .ok w' ∧
      M.lift move weight bias x H = .ok (out, Hc) ∧
      M.lift move' weight bias x' H' = .ok (out', Hc.map (SO2.leftApplyAngle g)) ∧
      ∀ fl fl', LiftingRun u B W β η (argsSE2 k c) mode ax S' x w bias N n fl →
        LiftingRun u B W β η (argsSE2 k c) mode ax S x' w' bias N n fl' →
        Within (roundingError u (k.inC / k.groups * k.kernelSize ^ 2) B W β η) fl out ∧
        Within (roundingError u (k.inC / k.groups * k.kernelSize ^ 2) B W β η) fl' out' ∧
        MovedWithin (2 * roundingError u (k.inC / k.groups * k.kernelSize ^ 2) B W β η) LatticeSym.ax2 σ N k.outC n
          (outDims ax S') (outDims ax S) fl fl' := by
  obtain ⟨K, hK, hL, hMK, hMp⟩ := build_ok hM
  have hg0 : 0 < k.groups := Int.natCast_pos.1 (groups_pos hgeo hL)
  have hks : kernelDims ax = [k.kernelSize, k.kernelSize] := hgeo.kernel.symm
  have hprod : (kernelDims ax).prod = k.kernelSize ^ 2 := by rw [hks]; simp [pow_succ]
  rw [liftingSE2_size hK, ← hks] at hL
  obtain ⟨K', h1, h2⟩ := (KernelSE2.C57_SE2 k hk hm g σ hg).1 hg0
  rw [hK] at h1
  cases h1
  obtain ⟨b1, b2, b3⟩ := liftingSE2_args hK
  obtain ⟨w, w', out, out', e1, e2, x1, y1, z⟩ := lifting_moves hgeo hL hσ hS hsym h2 b1 b2 (by rw [b3, hks]) weight
    (by rw [b1, b2, b3]; exact hw) bias hb N n x x' Hc hn hpos hx hu hB W β η
  rw [hprod] at z
  refine ⟨w, w', out, out', by rw [hMK]; exact e1, by rw [hMK]; exact e2, ?_, ?_, z⟩
  · rw [← x1, eq_permute hHc hn, ← hMp, ← hMK]; rfl
  · rw [← y1, eq_permute hHc' hn, ← hMp, ← hMK]; rfl

/-- `GConvSE2` in floating point. -/
theorem C115_SE2_group (k : KernelArgs ℝ ℕ) (c : ConvOpts) (hk : 2 ≤ k.kernelSize) {m p}
    (hm : SpatialModes k.spatialMode k.spatialPad m p)
    (wd : ℝ) (hr : KernelSE2.Ready k wd)
    {M : Module ℝ 2} (hM : fullSE2 k c = .ok M) {mode : F.CPad} {ax : List Axis}
    (hgeo : HasGeometry (argsSE2 k c) mode ax)
    {σ : LatticeSym 2} {S' S : List ℕ} (hσ : LatticeSym.Matches LatticeSym.ax2 σ S' S)
    (hS : GeomOk mode ax S) (hsym : SymmetricGeometry 2 ax S) (g : ℝ) (hg : SO2.angleToMatrix g = σ.matrix)
    (weight : Tensor ℝ) (hw : weight.shape = [(KernelSE2.grid k).shape.headD 0, k.outC, k.inC / k.groups, k.kernelSize, k.kernelSize])
    (bias : Option (Tensor ℝ)) (hb : BiasShape bias k.outC 2) (N mi n : ℕ) (x x' : Tensor ℝ)
    (inH : Tensor ℝ) (hin : inH.shape = [mi])
    (H H' : Option (Tensor ℝ)) (move move' : ℝ → ℝ) (Hc : Tensor ℝ)
    (hHc : Hc = if c.permute then (H.getD inH).map move else H.getD inH)
    (hHc' : Hc.map (SO2.leftApplyAngle g) = if c.permute then (H'.getD (inH.map (SO2.leftApplyAngle g))).map move' else H'.getD (inH.map (SO2.leftApplyAngle g)))
    (hn : Hc.shape = [n])
    (hx : MovedTensor LatticeSym.ax2 σ [N, k.inC, mi] S' S x x') {u B : ℝ} (hu : 0 ≤ u) (hB : 0 ≤ B) (W β η : ℝ) :
    ∃ w w' out out', M.kernel.forward weight inH Hc = .ok w ∧
      M.kernel.forward weight (inH.map (SO2.leftApplyAngle g)) (Hc.map (SO2.leftApplyAngle g)) = .ok w' ∧
      M.groupSE move weight bias x inH H = .ok (out, Hc) ∧
      M.groupSE move' weight bias x' (inH.map (SO2.leftApplyAngle g)) H' = .ok (out', Hc.map (SO2.leftApplyAngle g)) ∧
      ∀ fl fl', GroupRun u B W β η (argsSE2 k c) mode ax S' x w bias N mi n fl →
        GroupRun u B W β η (argsSE2 k c) mode ax S x' w' bias N mi n fl' →
        Within (roundingError u (k.inC / k.groups * mi * k.kernelSize ^ 2) B W β η) fl out ∧
        Within (roundingError u (k.inC / k.groups * mi * k.kernelSize ^ 2) B W β η) fl' out' ∧
        MovedWithin (2 * roundingError u (k.inC / k.groups * mi * k.kernelSize ^ 2) B W β η) LatticeSym.ax2 σ N k.outC n
          (outDims ax S') (outDims ax S) fl fl' := by
  obtain ⟨K, hK, hL, hMK, hMp⟩ := build_ok hM
  have hks : kernelDims ax = [k.kernelSize, k.kernelSize] := hgeo.kernel.symm
  have hprod : (kernelDims ax).prod = k.kernelSize ^ 2 := by rw [hks]; simp [pow_succ]
  obtain ⟨b1, b2, b3, b4⟩ := fullSE2_args k wd hr hK
  rw [b3, ← hks] at hL
  obtain ⟨K', h1, h2, -⟩ := (KernelSE2.C57_SE2 k hk hm g σ hg).2 wd hr
  rw [hK] at h1
  cases h1
  obtain ⟨w, w', out, out', e1, e2, x1, y1, z⟩ := group_moves hgeo hL hσ hS hsym h2 b1 b2 (by rw [b3, hks]) weight
    (by rw [b1, b2, b3, b4]; exact hw) bias hb N mi n x x' inH Hc hin hn (fun _ _ _ _ => trivial) hx hu hB W β η
  rw [hprod] at z
  refine ⟨w, w', out, out', by rw [hMK]; exact e1, by rw [hMK]; exact e2, ?_, ?_, z⟩
  · rw [← x1, eq_permute hHc hn, ← hMp, ← hMK]; rfl
  · rw [← y1, eq_permute hHc' hn, ← hMp, ← hMK]; rfl

/-- `GLiftingConvSE3` in floating point: both outputs are within `roundingError` of the modelled ones, and moving the input by a
lattice symmetry moves the computed output up to twice that. `w`, `w'` are the exact filters of the two calls. -/
theorem C115_SE3 (s : GridCache.Store (Tensor ℝ)) (opt : List SO3.Euler) (k : KernelArgs SO3.Mat3 ℕ) (c : ConvOpts) (hk : 2 ≤ k.kernelSize) {m p}
    (hm : SpatialModes k.spatialMode k.spatialPad m p)
    {M : Module SO3.Mat3 3} (hM : liftingSE3 s opt k c = .ok M) {mode : F.CPad} {ax : List Axis}
    (hgeo : HasGeometry (argsSE3 k c) mode ax)
    {σ : LatticeSym 3} {S' S : List ℕ} (hσ : LatticeSym.Matches LatticeSym.ax3 σ S' S)
    (hS : GeomOk mode ax S) (hsym : SymmetricGeometry 3 ax S) (hσr : IsRotation σ.matrix) (hpos : 0 < k.inC)
    (weight : Tensor ℝ) (hw : weight.shape = [k.outC, k.inC / k.groups, k.kernelSize, k.kernelSize, k.kernelSize])
    (bias : Option (Tensor ℝ)) (hb : BiasShape bias k.outC 3) (N n : ℕ) (x x' : Tensor ℝ)
    (H H' : Option (Tensor SO3.Mat3)) (move move' : SO3.Mat3 → SO3.Mat3) (Hc : Tensor SO3.Mat3)
    (hHc : Hc = if c.permute then (H.getD M.kernel.gridH).map move else H.getD M.kernel.gridH)
    (hHc' : Hc.map (SO3.leftApplyMatrix σ.matrix) = if c.permute then (H'.getD M.kernel.gridH).map move' else H'.getD M.kernel.gridH) (hn : Hc.shape = [n])
    (hx : MovedTensor LatticeSym.ax3 σ [N, k.inC] S' S x x') {u B : ℝ} (hu : 0 ≤ u) (hB : 0 ≤ B) (W β η : ℝ) :
    ∃ w w' out out', M.kernel.liftingForward weight Hc = .ok w ∧
      M.kernel.liftingForward weight (Hc.map (SO3.leftApplyMatrix σ.matrix)) = .ok w' ∧
      M.lift move weight bias x H = .ok (out, Hc) ∧
      M.lift move' weight bias x' H' = .ok (out', Hc.map (SO3.leftApplyMatrix σ.matrix)) ∧
      ∀ fl fl', LiftingRun u B W β η (argsSE3 k c) mode ax S' x w bias N n fl →
        LiftingRun u B W β η (argsSE3 k c) mode ax S x' w' bias N n fl' →
        Within (roundingError u (k.inC / k.groups * k.kernelSize ^ 3) B W β η) fl out ∧
        Within (roundingError u (k.inC / k.groups * k.kernelSize ^ 3) B W β η) fl' out' ∧
        MovedWithin (2 * roundingError u (k.inC / k.groups * k.kernelSize ^ 3) B W β η) LatticeSym.ax3 σ N k.outC n
          (outDims ax S') (outDims ax S) fl fl' := by
  obtain ⟨K, hK, hL, hMK, hMp⟩ := build_ok hM
  have hg0 : 0 < k.groups := Int.natCast_pos.1 (groups_pos hgeo hL)
  have hks : kernelDims ax = [k.kernelSize, k.kernelSize, k.kernelSize] := hgeo.kernel.symm
  have hprod : (kernelDims ax).prod = k.kernelSize ^ 3 := by rw [hks]; simp [pow_succ, Nat.mul_assoc]
  rw [(liftingSE3_size hK).1, ← hks] at hL
  obtain ⟨gr, hgr⟩ := (liftingSE3_size hK).2
  obtain ⟨K', h1, h2⟩ := (KernelSE3.C57_SE3 s opt k hk hm σ hσr).1 gr hg0 hgr
  rw [hK] at h1
  cases h1
  obtain ⟨b1, b2, b3⟩ := liftingSE3_args hK
  obtain ⟨w, w', out, out', e1, e2, x1, y1, z⟩ := lifting_moves hgeo hL hσ hS hsym h2 b1 b2 (by rw [b3, hks]) weight
    (by rw [b1, b2, b3]; exact hw) bias hb N n x x' Hc hn hpos hx hu hB W β η
  rw [hprod] at z
  refine ⟨w, w', out, out', by rw [hMK]; exact e1, by rw [hMK]; exact e2, ?_, ?_, z⟩
  · rw [← x1, eq_permute hHc hn, ← hMp, ← hMK]; rfl
  · rw [← y1, eq_permute hHc' hn, ← hMp, ← hMK]; rfl

/-- `GConvSE3` in floating point. -/
theorem C115_SE3_group (s : GridCache.Store (Tensor ℝ)) (opt : List SO3.Euler) (k : KernelArgs SO3.Mat3 ℕ) (c : ConvOpts) (hk : 2 ≤ k.kernelSize) {m p}
    (hm : SpatialModes k.spatialMode k.spatialPad m p)
    (gr : Tensor SO3.Mat3) (wd : ℝ) (hr : KernelSE3.Ready s opt k gr wd)
    {M : Module SO3.Mat3 3} (hM : fullSE3 s opt k c = .ok M) {mode : F.CPad} {ax : List Axis}
    (hgeo : HasGeometry (argsSE3 k c) mode ax)
    {σ : LatticeSym 3} {S' S : List ℕ} (hσ : LatticeSym.Matches LatticeSym.ax3 σ S' S)
    (hS : GeomOk mode ax S) (hsym : SymmetricGeometry 3 ax S) (hσr : IsRotation σ.matrix)
    (weight : Tensor ℝ) (hw : weight.shape = [gr.shape.headD 0, k.outC, k.inC / k.groups, k.kernelSize, k.kernelSize, k.kernelSize])
    (bias : Option (Tensor ℝ)) (hb : BiasShape bias k.outC 3) (N mi n : ℕ) (x x' : Tensor ℝ)
    (inH : Tensor SO3.Mat3) (hin : inH.shape = [mi])
    (H H' : Option (Tensor SO3.Mat3)) (move move' : SO3.Mat3 → SO3.Mat3) (Hc : Tensor SO3.Mat3)
    (hHc : Hc = if c.permute then (H.getD inH).map move else H.getD inH)
    (hHc' : Hc.map (SO3.leftApplyMatrix σ.matrix) = if c.permute then (H'.getD (inH.map (SO3.leftApplyMatrix σ.matrix))).map move' else H'.getD (inH.map (SO3.leftApplyMatrix σ.matrix)))
    (hn : Hc.shape = [n])
    (hx : MovedTensor LatticeSym.ax3 σ [N, k.inC, mi] S' S x x') {u B : ℝ} (hu : 0 ≤ u) (hB : 0 ≤ B) (W β η : ℝ) :
    ∃ w w' out out', M.kernel.forward weight inH Hc = .ok w ∧
      M.kernel.forward weight (inH.map (SO3.leftApplyMatrix σ.matrix)) (Hc.map (SO3.leftApplyMatrix σ.matrix)) = .ok w' ∧
      M.groupSE move weight bias x inH H = .ok (out, Hc) ∧
      M.groupSE move' weight bias x' (inH.map (SO3.leftApplyMatrix σ.matrix)) H' = .ok (out', Hc.map (SO3.leftApplyMatrix σ.matrix)) ∧
      ∀ fl fl', GroupRun u B W β η (argsSE3 k c) mode ax S' x w bias N mi n fl →
        GroupRun u B W β η (argsSE3 k c) mode ax S x' w' bias N mi n fl' →
        Within (roundingError u (k.inC / k.groups * mi * k.kernelSize ^ 3) B W β η) fl out ∧
        Within (roundingError u (k.inC / k.groups * mi * k.kernelSize ^ 3) B W β η) fl' out' ∧
        MovedWithin (2 * roundingError u (k.inC / k.groups * mi * k.kernelSize ^ 3) B W β η) LatticeSym.ax3 σ N k.outC n
          (outDims ax S') (outDims ax S) fl fl' := by
  obtain ⟨K, hK, hL, hMK, hMp⟩ := build_ok hM
  have hks : kernelDims ax = [k.kernelSize, k.kernelSize, k.kernelSize] := hgeo.kernel.symm
  have hprod : (kernelDims ax).prod = k.kernelSize ^ 3 := by rw [hks]; simp [pow_succ, Nat.mul_assoc]
  obtain ⟨b1, b2, b3, b4⟩ := fullSE3_args s opt k gr wd hr hK
  rw [b3, ← hks] at hL
  obtain ⟨K', h1, h2, -⟩ := (KernelSE3.C57_SE3 s opt k hk hm σ hσr).2 gr wd hr
  rw [hK] at h1
  cases h1
  obtain ⟨w, w', out, out', e1, e2, x1, y1, z⟩ := group_moves hgeo hL hσ hS hsym h2 b1 b2 (by rw [b3, hks]) weight
    (by rw [b1, b2, b3, b4]; exact hw) bias hb N mi n x x' inH Hc hin hn (fun _ _ _ _ => trivial) hx hu hB W β η
  rw [hprod] at z
  refine ⟨w, w', out, out', by rw [hMK]; exact e1, by rw [hMK]; exact e2, ?_, ?_, z⟩
  · rw [← x1, eq_permute hHc hn, ← hMp, ← hMK]; rfl
  · rw [← y1, eq_permute hHc' hn, ← hMp, ← hMK]; rfl

/-! ## the hypotheses can be met -/

theorem flSum_exact (hu : 0 ≤ u) {l : List ℝ} (h : l ≠ []) : FlSum u l l.sum := by
  induction l with
  | nil => exact absurd rfl h
  | cons a l ih =>
    by_cases hl : l = []
    · subst hl
      rw [List.sum_singleton]
      exact .one a
    · have := FlSum.add (δ := 0) (.one a) (ih hl) (by rw [abs_zero]; exact hu)
      rw [add_zero, mul_one] at this
      exact this

theorem flDot_exact (hu : 0 ≤ u) {l : List (ℝ × ℝ)} (h : l ≠ []) : FlDot u l (dot l) := by
  refine ⟨l.map fun t => t.1 * t.2, ?_, flSum_exact hu (by simpa using h)⟩
  clear h
  induction l with
  | nil => exact .nil
  | cons t l ih => exact .cons ⟨0, by rw [abs_zero]; exact hu, by ring⟩ ih

/-- Exact arithmetic is one of the possible evaluations: the modelled output of a lifting convolution is a `LiftingRun` with the
exact filters. -/
theorem C115_exact {G : Type} {d : ℕ} {a : Args} {mode : F.CPad} {ax : List Axis} {S : List ℕ} {L : Layer} {bias : Option (Tensor ℝ)}
    {B W β η : ℝ} {x w : Tensor ℝ} {N n : ℕ} (hgeo : HasGeometry a mode ax) (hL : init a (kernelDims ax) = .ok L) (hg : GeomOk mode ax S)
    (hu : 0 ≤ u) (hη : 0 ≤ η) (K : GroupKernel G d) (weight : Tensor ℝ) (H : Tensor G) (hH : H.shape = [n])
    (hpos : 0 < a.inC / a.groups.toNat) (hK : K.liftingForward weight H = .ok w)
    (hw : w.shape = a.outC :: n :: a.inC / a.groups.toNat :: kernelDims ax)
    (hx : x.shape = N :: a.inC :: S) (hb : BiasShape bias a.outC ax.length) (hxB : Bounded B x)
    (hβ : ∀ co < a.outC, |biasAt bias ax.length co| ≤ β) (hW : Bounded W w) :
    ∃ out, L.liftingForward K weight bias x H = .ok (out, H) ∧ LiftingRun u B W β η a mode ax S x w bias N n out := by
  obtain ⟨out, h1, h2, h3⟩ := C60_lifting hgeo hL hg K weight w bias N n x H hH
    (Nat.pos_of_ne_zero fun h => by rw [h, Nat.zero_div] at hpos; exact lt_irrefl _ hpos) hK hw hx hb
  refine ⟨out, h1, h2, hxB, hβ, w, fun p hp => ⟨by rw [sub_self, abs_zero]; exact hη, hW p hp⟩, fun b co h o hb hco hh ho => ?_⟩
  rw [h3 b co h o hb hco hh ho, ← dot_lifting]
  have hne : liftingTerms a mode ax S x w b co h o ≠ [] := fun e => by
    have := liftingTerms_length a mode ax S x w b co h o
    rw [e, List.length_nil] at this
    have hp : 0 < (kernelDims ax).prod := List.prod_pos fun v hv => kernelDims_pos hg v hv
    exact absurd this (Nat.mul_pos hpos hp).ne
  cases bias with
  | none => exact (congrArg (FlDot u _) (add_zero _)).mpr (flDot_exact hu hne)
  | some t => exact ⟨_, 0, flDot_exact hu hne, by rw [abs_zero]; exact hu, by ring⟩

/-- The same for `GConvNd`: the modelled output is one of the possible floating point outputs. -/
theorem C115_exact_group {G : Type} {d : ℕ} {a : Args} {mode : F.CPad} {ax : List Axis} {S : List ℕ} {L : Layer} {bias : Option (Tensor ℝ)}
    {B W β η : ℝ} {x w : Tensor ℝ} {N m n : ℕ} (hgeo : HasGeometry a mode ax) (hL : init a (kernelDims ax) = .ok L) (hg : GeomOk mode ax S)
    (hu : 0 ≤ u) (hη : 0 ≤ η) (K : GroupKernel G d) (weight : Tensor ℝ) (inH outH : Tensor G) (hin : inH.shape = [m])
    (hout : outH.shape = [n]) (hm : 0 < m)
    (hpos : 0 < a.inC / a.groups.toNat) (hK : K.forward weight inH outH = .ok w)
    (hw : w.shape = a.outC :: n :: a.inC / a.groups.toNat :: m :: kernelDims ax)
    (hx : x.shape = N :: a.inC :: m :: S) (hb : BiasShape bias a.outC ax.length) (hxB : Bounded B x)
    (hβ : ∀ co < a.outC, |biasAt bias ax.length co| ≤ β) (hW : Bounded W w) :
    ∃ out, L.groupForward K weight bias x inH outH = .ok (out, outH) ∧ GroupRun u B W β η a mode ax S x w bias N m n out := by
  obtain ⟨out, h1, h2, h3⟩ := C61_group hgeo hL hg K weight w bias N m n x inH outH hin hout hK hw hx hb
  refine ⟨out, h1, h2, hxB, hβ, w, fun p hp => ⟨by rw [sub_self, abs_zero]; exact hη, hW p hp⟩, fun b co h o hb hco hh ho => ?_⟩
  rw [h3 b co h o hb hco hh ho, ← dot_group]
  have hne : groupTerms a mode ax S x w m b co h o ≠ [] := fun e => by
    have := groupTerms_length a mode ax S x w m b co h o
    rw [e, List.length_nil] at this
    have hp : 0 < (kernelDims ax).prod := List.prod_pos fun v hv => kernelDims_pos hg v hv
    exact absurd this (Nat.mul_pos (Nat.mul_pos hpos hm) hp).ne
  cases bias with
  | none => exact (congrArg (FlDot u _) (add_zero _)).mpr (flDot_exact hu hne)
  | some t => exact ⟨_, 0, flDot_exact hu hne, by rw [abs_zero]; exact hu, by ring⟩

/-- float32: `1 + 2 ^ -30` is rounded to 1. -/
example : FlSum (2⁻¹ ^ 24) [1, 2⁻¹ ^ 30] 1 := by
  have h := FlSum.add (u := 2⁻¹ ^ 24) (δ := 1 / (1 + 2⁻¹ ^ 30) - 1) (.one 1) (.one (2⁻¹ ^ 30)) (by rw [abs_le]; norm_num)
  have e : ((1 : ℝ) + 2⁻¹ ^ 30) * (1 + (1 / (1 + 2⁻¹ ^ 30) - 1)) = 1 := by norm_num
  rw [e] at h
  exact h

/-- A lifting convolution on 8 x 9 images with entries in [-1, 1] in float32 (5 x 5 filters with entries in [-1, 1], 2 channels per
group): a quarter turn of the images turns the computed features up to 1/3000. -/
example (n : ℕ) (x x' : Tensor ℝ) (hx : MovedTensor LatticeSym.ax2 KernelSE2.quarter [3, 4] [8, 9] [9, 8] x x')
    (weight : Tensor ℝ) (hw : weight.shape = [6, 2, 5, 5]) (H : Tensor ℝ) (hH : H.shape = [7])
    (M : Module ℝ 2) (hM : liftingSE2 (KernelSE2.exArgs n) rotOpts = .ok M) :
    ∃ w w', M.kernel.liftingForward weight H = .ok w ∧
      M.kernel.liftingForward weight (H.map (SO2.leftApplyAngle (Real.pi / 2))) = .ok w' ∧
      ∀ fl fl', LiftingRun (2⁻¹ ^ 24) 1 1 0 (2⁻¹ ^ 24) (argsSE2 (KernelSE2.exArgs n) rotOpts) .circular
          (List.replicate 2 (sameAxis 5 1)) [8, 9] x w none 3 7 fl →
        LiftingRun (2⁻¹ ^ 24) 1 1 0 (2⁻¹ ^ 24) (argsSE2 (KernelSE2.exArgs n) rotOpts) .circular
          (List.replicate 2 (sameAxis 5 1)) [9, 8] x' w' none 3 7 fl' →
        MovedWithin (1 / 3000) LatticeSym.ax2 KernelSE2.quarter 3 6 7 (outDims (List.replicate 2 (sameAxis 5 1)) [8, 9])
          (outDims (List.replicate 2 (sameAxis 5 1)) [9, 8]) fl fl' := by
  obtain ⟨h1, h2, h3, h4⟩ := rot_geometry n
  obtain ⟨w, w', out, out', k1, k2, -, -, z⟩ := C115_SE2 (KernelSE2.exArgs n) rotOpts (by norm_num [KernelSE2.exArgs]) defaultModes hM h1 h4
    h2 h3 (Real.pi / 2) KernelSE2.quarter_matrix (by norm_num [KernelSE2.exArgs]) weight (by rw [hw]; simp [KernelSE2.exArgs]) none
    (fun b hb => by cases hb) 3 7 x x' (some H) (some (H.map (SO2.leftApplyAngle (Real.pi / 2)))) id id H rfl rfl hH hx (u := 2⁻¹ ^ 24) (B := 1) (by norm_num) zero_le_one 1 0 (2⁻¹ ^ 24)
  refine ⟨w, w', k1, k2, fun fl fl' r r' b co h o hb hco hh ho => ((z fl fl' r r').2.2 b co h o hb hco hh ho).trans ?_⟩
  unfold roundingError
  norm_num [KernelSE2.exArgs]

end GConv.Rounding

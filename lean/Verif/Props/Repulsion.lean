import Verif.Model.Repulsion
import Mathlib.Algebra.Order.Field.Power
import Mathlib.Tactic.Ring
import Mathlib.Tactic.Linarith
import Mathlib.Tactic.Positivity

/-! # C44, C45 -/

namespace GConv.Repulsion

variable {D : ℕ}

theorem getD_lt {α : Type*} {l : List α} {i : ℕ} {d : α} (h : i < l.length) : l.getD i d = l[i] := by
  simp [h]

/-! ## C45 -/

theorem C45_positive (d : ℝ) (k : ℕ) (hd : 0 < d) : 0 < columbEnergy d k := by
  unfold columbEnergy; positivity

theorem C45_decreasing (d e : ℝ) (k : ℕ) (hk : 1 ≤ k) (hd : 0 < d) (h : d < e) :
    columbEnergy e k < columbEnergy d k := by
  unfold columbEnergy
  rw [zpow_neg, zpow_neg, zpow_natCast, zpow_natCast]
  have : d ^ k < e ^ k := pow_lt_pow_left₀ h hd.le (by omega)
  exact inv_strictAnti₀ (by positivity) this

theorem C45_value (d : ℝ) (k : ℕ) : columbEnergy d k = 1 / d ^ k := by
  unfold columbEnergy
  rw [zpow_neg, zpow_natCast, one_div]

example : columbEnergy 2 2 < columbEnergy 1 2 :=
  C45_decreasing 1 2 2 (by norm_num) (by norm_num) (by norm_num)

/-! ## C44 -/

/-- Specification of the optimiser: after `e` epochs. Epoch `e` moves every row by
`-lr * (gradient + alpha * (steps - e)/steps * noise)`. -/
noncomputable def specIter (grad : Grid D → Grid D) (steps : ℕ) (lr alpha : ℝ) (noise : ℕ → Grid D)
    (g0 : Grid D) : ℕ → Grid D
  | 0 => g0
  | e + 1 =>
    let g := specIter grad steps lr alpha noise g0 e
    (List.range g.length).map fun i =>
      g.getD i 0 - lr • ((grad g).getD i 0 + (alpha * ((steps : ℝ) - e) / steps) • (noise e).getD i 0)

theorem sgdStep_spec (grad : Grid D → Grid D) (steps : ℕ) (lr alpha : ℝ) (noise : Grid D) (e : ℕ)
    (g : Grid D) (h1 : (grad g).length = g.length) (h2 : noise.length = g.length) :
    sgdStep grad steps lr alpha noise e g = (List.range g.length).map fun i =>
      g.getD i 0 - lr • ((grad g).getD i 0 + (alpha * ((steps : ℝ) - e) / steps) • noise.getD i 0) := by
  apply List.ext_getElem
  · simp [sgdStep, h1, h2]
  · intro i a b
    have hi : i < g.length := by simpa using b
    simp only [sgdStep, List.getElem_zipWith, List.getElem_map, List.getElem_range]
    rw [getD_lt hi, getD_lt (by omega),
      getD_lt (by omega)]
    have : noiseFactor steps e alpha = alpha * ((steps : ℝ) - e) / steps := by
      unfold noiseFactor; ring
    simp only [this]

theorem specIter_length (grad : Grid D → Grid D) (steps : ℕ) (lr alpha : ℝ) (noise : ℕ → Grid D)
    (g0 : Grid D) (e : ℕ) : (specIter grad steps lr alpha noise g0 e).length = g0.length := by
  induction e with
  | zero => rfl
  | succ e ih => simp [specIter, ih]

theorem loop_spec (grad : Grid D → Grid D) (steps : ℕ) (lr alpha : ℝ) (noise : ℕ → Grid D)
    (g0 : Grid D) (hgrad : ∀ g, (grad g).length = g.length) (hnoise : ∀ e, (noise e).length = g0.length)
    (heap : Heap D) (work : ℕ) (hw : work < heap.length) (h0 : heap.getD work [] = g0) (k : ℕ) :
    (List.range k).foldl
      (fun h epoch => h.set work (sgdStep grad steps lr alpha (noise epoch) epoch (h.getD work []))) heap
    = heap.set work (specIter grad steps lr alpha noise g0 k) := by
  induction k with
  | zero =>
    simp only [List.range_zero, List.foldl_nil, specIter]
    rw [← h0, getD_lt hw, List.set_getElem_self]
  | succ k ih =>
    rw [List.range_succ, List.foldl_append, ih]
    simp only [List.foldl_cons, List.foldl_nil]
    rw [List.set_set]
    congr 1
    have e1 : (heap.set work (specIter grad steps lr alpha noise g0 k)).getD work [] =
        specIter grad steps lr alpha noise g0 k := by
      rw [getD_lt (by simpa using hw)]; simp
    rw [e1, sgdStep_spec _ _ _ _ _ _ _ (hgrad _) (by rw [hnoise, specIter_length])]
    rfl

/-- `in_place=True`: the returned tensor is the caller's tensor; it holds the result of exactly `steps`
epochs; nothing else changes. -/
theorem C44_in_place (grad : Grid D → Grid D) (steps : ℕ) (lr alpha : ℝ) (noise : ℕ → Grid D)
    (heap : Heap D) (loc : ℕ) (hloc : loc < heap.length)
    (hgrad : ∀ g, (grad g).length = g.length) (hnoise : ∀ e, (noise e).length = (heap.getD loc []).length) :
    ∃ heap', repulse grad steps lr alpha noise true heap loc = (heap', loc) ∧
      heap'.getD loc [] = specIter grad steps lr alpha noise (heap.getD loc []) steps ∧
      (heap'.getD loc []).length = (heap.getD loc []).length ∧
      heap'.length = heap.length ∧ ∀ l, l ≠ loc → heap'.getD l [] = heap.getD l [] := by
  have h := loop_spec grad steps lr alpha noise _ hgrad hnoise heap loc hloc rfl steps
  refine ⟨heap.set loc (specIter grad steps lr alpha noise (heap.getD loc []) steps),
    ?_, ?_, ?_, ?_, ?_⟩
  · unfold repulse; simp only [if_true]; rw [h]
  · rw [getD_lt (by simpa using hloc)]; simp
  · rw [getD_lt (by simpa using hloc), List.getElem_set_self, specIter_length]
  · simp
  · intro l hl
    simp only [List.getD_eq_getElem?_getD]
    rw [List.getElem?_set_ne (Ne.symm hl)]

/-- `in_place=False`: the result is a new tensor holding the result of exactly `steps` epochs; every
existing tensor, the caller's included, keeps its values. -/
theorem C44_copy (grad : Grid D → Grid D) (steps : ℕ) (lr alpha : ℝ) (noise : ℕ → Grid D)
    (heap : Heap D) (loc : ℕ) (hloc : loc < heap.length)
    (hgrad : ∀ g, (grad g).length = g.length) (hnoise : ∀ e, (noise e).length = (heap.getD loc []).length) :
    ∃ heap' r, repulse grad steps lr alpha noise false heap loc = (heap', r) ∧ r ≠ loc ∧
      heap'.getD r [] = specIter grad steps lr alpha noise (heap.getD loc []) steps ∧
      (heap'.getD r []).length = (heap.getD loc []).length ∧
      ∀ l < heap.length, heap'.getD l [] = heap.getD l [] := by
  have hg : (heap ++ [heap.getD loc []]).getD heap.length [] = heap.getD loc [] := by
    rw [getD_lt (by simp)]; simp
  have h := loop_spec grad steps lr alpha noise _ hgrad hnoise (heap ++ [heap.getD loc []]) heap.length
    (by simp) hg steps
  refine ⟨(heap ++ [heap.getD loc []]).set heap.length
      (specIter grad steps lr alpha noise (heap.getD loc []) steps), heap.length, ?_, ?_, ?_, ?_, ?_⟩
  · unfold repulse; simp only [Bool.false_eq_true, if_false]; rw [h]
  · omega
  · rw [getD_lt (by simp), List.getElem_set_self]
  · rw [getD_lt (by simp), List.getElem_set_self, specIter_length]
  · intro l hl
    simp only [List.getD_eq_getElem?_getD]
    rw [List.getElem?_set_ne (by omega), List.getElem?_append_left hl]

/-- the amplitude of the noise: positive, at most `alpha`, strictly decreasing over the epochs. -/
theorem C44_noise (steps : ℕ) (alpha : ℝ) (ha : 0 < alpha) :
    (∀ e < steps, 0 < noiseFactor steps e alpha ∧ noiseFactor steps e alpha ≤ alpha) ∧
    (∀ e e', e < e' → e' < steps → noiseFactor steps e' alpha < noiseFactor steps e alpha) ∧
    (0 < steps → noiseFactor steps 0 alpha = alpha) := by
  have key : ∀ e, noiseFactor steps e alpha = alpha * (((steps : ℝ) - e) / steps) := by
    intro e; unfold noiseFactor; ring
  refine ⟨?_, ?_, ?_⟩
  · intro e he
    have hs : (0 : ℝ) < steps := by exact_mod_cast (by omega : 0 < steps)
    have he' : (e : ℝ) < steps := by exact_mod_cast he
    rw [key]
    constructor
    · have : 0 < (steps : ℝ) - e := by linarith
      positivity
    · have : ((steps : ℝ) - e) / steps ≤ 1 := by
        rw [div_le_one hs]
        have : (0 : ℝ) ≤ e := Nat.cast_nonneg e
        linarith
      nlinarith
  · intro e e' h h'
    have hs : (0 : ℝ) < steps := by exact_mod_cast (by omega : 0 < steps)
    have he' : (e : ℝ) < e' := by exact_mod_cast h
    rw [key, key]
    apply mul_lt_mul_of_pos_left _ ha
    exact div_lt_div_of_pos_right (by linarith) hs
  · intro h
    have hs : (0 : ℝ) < steps := by exact_mod_cast h
    rw [key]; simp [hs.ne']

/-- the hypotheses hold for a two-point grid on the line with gradient `g` and zero noise. -/
example : ∃ heap', repulse (D := 1) (fun g => g) 3 0.5 0.001 (fun _ => [0, 0]) true
    [[fun _ => 1, fun _ => 2]] 0 = (heap', 0) ∧ (heap'.getD 0 []).length = 2 := by
  obtain ⟨h, a, -, b, -⟩ := C44_in_place (D := 1) (fun g => g) 3 0.5 0.001 (fun _ => [0, 0])
    [[fun _ => 1, fun _ => 2]] 0 (by simp) (fun _ => rfl) (fun _ => rfl)
  exact ⟨h, a, b⟩

end GConv.Repulsion

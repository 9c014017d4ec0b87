import Verif.Torch.NN
import Verif.Spec.NN
import Verif.Lemmas.Conv
import Verif.Lemmas.SO3

/-! # Sums and maxima over boxes -/

namespace GConv

open Tensor Spec

/-- reading the flat positions one after the other visits every cell once. -/
theorem sum_unravel (s : List ℕ) (f : List ℕ → ℝ) :
    ((List.range s.prod).map fun j => f (unravel s j)).sum = sumBox s f := by
  rw [sum_map_range]
  show _ = sumIdx s f
  rw [sumIdx_eq]
  refine Finset.sum_nbij' (unravel s) (ravel s) ?_ ?_ ?_ ?_ ?_
  · intro j hj; exact List.mem_toFinset.2 (mem_allIdx.2 (unravel_InB (Finset.mem_range.1 hj)))
  · intro x hx; exact Finset.mem_range.2 (ravel_lt (mem_allIdx.1 (List.mem_toFinset.1 hx)))
  · intro j hj; exact ravel_unravel (Finset.mem_range.1 hj)
  · intro x hx; exact unravel_ravel (mem_allIdx.1 (List.mem_toFinset.1 hx))
  · intro j hj; rfl

theorem sumBox_bij {s t : List ℕ} {φ : List ℕ → List ℕ} (h : BoxBijection s t φ) {f g : List ℕ → ℝ}
    (hfg : ∀ i, InB s i → g (φ i) = f i) : sumBox s f = sumBox t g := by
  obtain ⟨h1, h2, h3⟩ := h
  show sumIdx s f = sumIdx t g
  rw [sumIdx_eq, sumIdx_eq]
  refine Finset.sum_bij (fun i _ => φ i) ?_ ?_ ?_ ?_
  · intro x hx; exact List.mem_toFinset.2 (mem_allIdx.2 (h1 x (mem_allIdx.1 (List.mem_toFinset.1 hx))))
  · intro x hx y hy e
    exact h2 x y (mem_allIdx.1 (List.mem_toFinset.1 hx)) (mem_allIdx.1 (List.mem_toFinset.1 hy)) e
  · intro y hy
    obtain ⟨x, hx, e⟩ := h3 y (mem_allIdx.1 (List.mem_toFinset.1 hy))
    exact ⟨x, List.mem_toFinset.2 (mem_allIdx.2 hx), e⟩
  · intro x hx; exact (hfg x (mem_allIdx.1 (List.mem_toFinset.1 hx))).symm

theorem sumBox_one (s : List ℕ) : sumBox s (fun _ => 1) = (s.prod : ℝ) := by
  unfold sumBox
  rw [List.map_const', List.sum_replicate, allIdx_length]
  simp

theorem prod_bij {s t : List ℕ} {φ : List ℕ → List ℕ} (h : BoxBijection s t φ) : s.prod = t.prod := by
  have := sumBox_bij h (f := fun _ => 1) (g := fun _ => 1) (fun _ _ => rfl)
  rw [sumBox_one, sumBox_one] at this
  exact_mod_cast this

theorem meanOver_bij {s t : List ℕ} {φ : List ℕ → List ℕ} (h : BoxBijection s t φ) {f g : List ℕ → ℝ}
    (hfg : ∀ i, InB s i → g (φ i) = f i) : meanOver s f = meanOver t g := by
  unfold meanOver
  rw [sumBox_bij h hfg, prod_bij h]

theorem varOver_bij {s t : List ℕ} {φ : List ℕ → List ℕ} (h : BoxBijection s t φ) {f g : List ℕ → ℝ}
    (hfg : ∀ i, InB s i → g (φ i) = f i) : varOver s f = varOver t g := by
  unfold varOver
  rw [meanOver_bij h hfg]
  exact meanOver_bij h fun i hi => by rw [hfg i hi]

theorem meanOver_congr {s : List ℕ} {f g : List ℕ → ℝ} (h : ∀ i, InB s i → f i = g i) : meanOver s f = meanOver s g := by
  unfold meanOver
  rw [sumBox_congr h]

theorem varOver_congr {s : List ℕ} {f g : List ℕ → ℝ} (h : ∀ i, InB s i → f i = g i) : varOver s f = varOver s g := by
  unfold varOver
  rw [meanOver_congr h]
  exact meanOver_congr fun i hi => by rw [h i hi]

theorem varUnbiased_bij {s t : List ℕ} {φ : List ℕ → List ℕ} (h : BoxBijection s t φ) {f g : List ℕ → ℝ}
    (hfg : ∀ i, InB s i → g (φ i) = f i) : varUnbiased s f = varUnbiased t g := by
  unfold varUnbiased
  rw [meanOver_bij h hfg, prod_bij h, sumBox_bij h]
  intro i hi
  rw [hfg i hi]

theorem varUnbiased_congr {s : List ℕ} {f g : List ℕ → ℝ} (h : ∀ i, InB s i → f i = g i) :
    varUnbiased s f = varUnbiased s g := by
  unfold varUnbiased
  rw [meanOver_congr h, sumBox_congr]
  intro i hi
  rw [h i hi]

/-- merging two neighbouring axes. -/
def merge2 (p : ℕ) (Z : ℕ) (i : List ℕ) : List ℕ := i.take p ++ (i.getD p 0 * Z + i.getD (p + 1) 0) :: i.drop (p + 2)

theorem merge_bij (pre : List ℕ) (A Z : ℕ) (s : List ℕ) :
    BoxBijection (pre ++ A :: Z :: s) (pre ++ A * Z :: s) (merge2 pre.length Z) := by
  have key : ∀ i, InB (pre ++ A :: Z :: s) i → ∃ a h z q, i = a ++ h :: z :: q ∧ InB pre a ∧ h < A ∧ z < Z ∧ InB s q ∧
      merge2 pre.length Z i = a ++ (h * Z + z) :: q := by
    intro i hi
    obtain ⟨a, t, rfl, ha, ht⟩ := InB_append_left hi
    obtain ⟨h, t, rfl, hh, ht⟩ := InB_cons_left ht
    obtain ⟨z, q, rfl, hz, hq⟩ := InB_cons_left ht
    refine ⟨a, h, z, q, rfl, ha, hh, hz, hq, ?_⟩
    unfold merge2
    have hl := ha.length
    rw [← hl]
    congr 1
    · simp
    · congr 1
      · simp
      · rw [List.drop_append]; simp
  have row : ∀ h z, h < A → z < Z → h * Z + z < A * Z := fun h z hh hz => by
    calc h * Z + z < h * Z + Z := by omega
      _ = (h + 1) * Z := by ring
      _ ≤ A * Z := Nat.mul_le_mul_right _ hh
  refine ⟨fun i hi => ?_, fun i j hi hj e => ?_, fun j hj => ?_⟩
  · obtain ⟨a, h, z, q, -, ha, hh, hz, hq, e⟩ := key i hi
    rw [e]
    exact ha.append (InB_cons.2 ⟨row h z hh hz, hq⟩)
  · obtain ⟨a, h, z, q, rfl, ha, hh, hz, hq, e1⟩ := key i hi
    obtain ⟨a', h', z', q', rfl, ha', hh', hz', hq', e2⟩ := key j hj
    rw [e1, e2] at e
    obtain ⟨rfl, e5⟩ := List.append_inj e (by rw [ha.length, ha'.length])
    have e3 := (List.cons.inj e5).1
    have e4 := (List.cons.inj e5).2
    have h1 : h = h' := by
      have := congrArg (· / Z) e3
      simp only [Nat.mul_comm _ Z] at this
      rwa [Nat.mul_add_div (by omega), Nat.mul_add_div (by omega), Nat.div_eq_of_lt hz, Nat.div_eq_of_lt hz'] at this
    subst h1
    have h2 : z = z' := by omega
    rw [h2, e4]
  · obtain ⟨a, t, rfl, ha, ht⟩ := InB_append_left hj
    obtain ⟨k, q, rfl, hk, hq⟩ := InB_cons_left ht
    have hZ : 0 < Z := by
      rcases Nat.eq_zero_or_pos Z with h | h
      · subst h; simp at hk
      · exact h
    have hin : InB (pre ++ A :: Z :: s) (a ++ (k / Z) :: (k % Z) :: q) :=
      ha.append (InB_cons.2 ⟨Nat.div_lt_of_lt_mul (by rwa [Nat.mul_comm]), InB_cons.2 ⟨Nat.mod_lt _ hZ, hq⟩⟩)
    refine ⟨_, hin, ?_⟩
    obtain ⟨a', h, z, q', e0, ha', -, -, -, e⟩ := key _ hin
    obtain ⟨rfl, e1⟩ := List.append_inj e0 (by rw [ha.length, ha'.length])
    cases e1
    rw [e, Nat.div_add_mod']

theorem isMaxOver_unique {s : List ℕ} {f : List ℕ → ℝ} {a b : ℝ} (ha : IsMaxOver s f a) (hb : IsMaxOver s f b) : a = b := by
  obtain ⟨⟨i, hi, rfl⟩, h1⟩ := ha
  obtain ⟨⟨j, hj, rfl⟩, h2⟩ := hb
  exact le_antisymm (h2 i hi) (h1 j hj)

theorem isMaxOver_bij {s t : List ℕ} {φ : List ℕ → List ℕ} (h : BoxBijection s t φ) {f g : List ℕ → ℝ}
    (hfg : ∀ i, InB s i → g (φ i) = f i) {m : ℝ} (hm : IsMaxOver s f m) : IsMaxOver t g m := by
  obtain ⟨h1, -, h3⟩ := h
  obtain ⟨⟨i, hi, rfl⟩, h4⟩ := hm
  refine ⟨⟨φ i, h1 i hi, hfg i hi⟩, fun j hj => ?_⟩
  obtain ⟨k, hk, rfl⟩ := h3 j hj
  rw [hfg k hk]
  exact h4 k hk

/-- the maximum of a table of values and where it is. -/
theorem max_range (n : ℕ) (f : ℕ → ℝ) (hn : 0 < n) :
    argmax ((List.range n).map f) < n ∧
      ((List.range n).map f).getD (argmax ((List.range n).map f)) 0 = f (argmax ((List.range n).map f)) ∧
      ∀ i < n, f i ≤ f (argmax ((List.range n).map f)) := by
  obtain ⟨h1, h2⟩ := SO3.argmax_spec ((List.range n).map f) (by simp; omega)
  rw [List.length_map, List.length_range] at h1
  have e : ((List.range n).map f).getD (argmax ((List.range n).map f)) 0 = f (argmax ((List.range n).map f)) := by
    rw [List.getD_eq_getElem?_getD, List.getElem?_map, List.getElem?_range h1]; rfl
  refine ⟨h1, e, fun i hi => ?_⟩
  rw [← e]
  exact h2 _ (List.mem_map.2 ⟨i, List.mem_range.2 hi, rfl⟩)

end GConv

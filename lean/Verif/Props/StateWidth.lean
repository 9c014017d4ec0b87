import Verif.Props.StateDict
import Mathlib.Analysis.SpecialFunctions.Trigonometric.Bounds
import Mathlib.Analysis.Complex.ExponentialBounds

/-! # C86: a restored SE(3) kernel of a size that is not shipped samples differently

Two constructions of `GSeparableKernelSE3(1, 1, 3, 25)`: the optimised grid of the first consists of the turns about
the third axis by `1/20, 2/20, .., 25/20`, that of the second of 25 copies of the identity. -/

namespace GConv

open Tensor SO3 Spec

namespace StateWidth

/-- turn about the third axis. -/
noncomputable def Z (t : ℝ) : Mat3 := !![Real.cos t, -Real.sin t, 0; Real.sin t, Real.cos t, 0; 0, 0, 1]

/-- its Euler angles. -/
noncomputable def turn (t : ℝ) : Euler := ![t, 0, 0]

theorem Z_rot (t : ℝ) : IsRotation (Z t) := by
  have h := Real.sin_sq_add_cos_sq t
  constructor
  · unfold Z; ext i j
    fin_cases i <;> fin_cases j <;> simp [Matrix.mul_apply, Fin.sum_univ_three] <;> nlinarith
  · unfold Z; rw [Matrix.det_fin_three]; simp; nlinarith

theorem small {t : ℝ} (h0 : 0 ≤ t) (h1 : t ≤ 5 / 4) : 1e-6 < Real.cos t ∧ (t = 0 ∨ 1 / 20 ≤ t → t = 0 ∨ 1e-6 < Real.sin t) := by
  constructor
  · have := Real.one_sub_sq_div_two_le_cos (x := t)
    nlinarith
  · rintro (h | h)
    · exact Or.inl h
    · right
      have hp := Real.pi_gt_three
      have hp4 := Real.pi_le_four
      have := Real.mul_le_sin h0 (by linarith)
      have h2 : (1 : ℝ) / 2 ≤ 2 / Real.pi := by rw [div_le_div_iff₀ (by norm_num) Real.pi_pos]; linarith
      nlinarith

theorem turn_matrix {t : ℝ} (h0 : 0 ≤ t) (h1 : t ≤ 5 / 4) (ht : t = 0 ∨ 1 / 20 ≤ t) :
    eulerToMatrix (turn t) defaultEpsETM = Z t := by
  obtain ⟨hc, hs⟩ := small h0 h1
  have hm : ∀ r : ℝ, (r = 0 ∨ 1e-6 < r ∨ r < -1e-6) → r * (if r > 1e-6 ∨ r < -1e-6 then 1 else 0) = r := by
    rintro r (h | h)
    · rw [h, zero_mul]
    · rw [if_pos h, mul_one]
  have hraw : eulerToMatrixRaw (turn t) = Z t := by
    unfold eulerToMatrixRaw turn Z
    ext i j
    fin_cases i <;> fin_cases j <;> simp
  have hs' : Real.sin t = 0 ∨ 1e-6 < Real.sin t := by
    rcases hs ht with h | h
    · left; rw [h, Real.sin_zero]
    · exact Or.inr h
  ext i j
  unfold eulerToMatrix defaultEpsETM
  rw [hraw]
  show Z t i j * (if Z t i j > 1e-6 ∨ Z t i j < -1e-6 then 1 else 0) = Z t i j
  apply hm
  unfold Z
  fin_cases i <;> fin_cases j <;> simp <;> first | exact Or.inr (Or.inl hc) | skip
  · rcases hs' with h | h
    · exact Or.inl h
    · right; right; exact h
  · rcases hs' with h | h
    · exact Or.inl h
    · right; left; exact h
  · norm_num

/-- distance of two turns: half the difference of the angles, cut off from below. -/
theorem dist_Z (s t : ℝ) (h : |s - t| ≤ Real.pi) (hd : |s - t| = 0 ∨ 1 / 20 ≤ |s - t|) :
    matDist (Z s) (Z t) = if |s - t| = 0 then Real.arccos (1 - defaultEps) else |s - t| / 2 := by
  obtain ⟨u1, r1⟩ := C16_unit_and_inverse (Z s) (Z_rot s)
  obtain ⟨u2, r2⟩ := C16_unit_and_inverse (Z t) (Z_rot t)
  have ht := trace_rel _ _ u1 u2
  rw [r1, r2] at ht
  have htr : ((Z s).transpose * Z t).trace = 1 + 2 * Real.cos (s - t) := by
    rw [Real.cos_sub, Matrix.trace_fin_three]
    unfold Z
    simp [Matrix.mul_apply, Fin.sum_univ_three]
    ring
  rw [htr] at ht
  have hhalf : Real.cos (s - t) = 2 * Real.cos (|s - t| / 2) ^ 2 - 1 := by
    rw [← Real.cos_abs (s - t), ← Real.cos_two_mul]; congr 1; ring
  have hc0 : 0 ≤ Real.cos (|s - t| / 2) :=
    Real.cos_nonneg_of_mem_Icc ⟨by linarith [abs_nonneg (s - t), Real.pi_pos], by linarith⟩
  have habs : |dot (matrixToQuat (Z s)) (matrixToQuat (Z t))| = Real.cos (|s - t| / 2) := by
    rw [← abs_of_nonneg hc0]
    apply (sq_eq_sq_iff_abs_eq_abs _ _).1
    rw [hhalf] at ht
    linarith
  unfold matDist
  rw [geodesic_eq_dot, habs]
  split_ifs with h0
  · rw [h0, zero_div, Real.cos_zero, clamp_of_ge (by unfold defaultEps; norm_num)]
  · have h1 : 1 / 20 ≤ |s - t| := hd.resolve_left h0
    have hpi := Real.pi_le_four
    have hub := Real.cos_le_one_sub_mul_cos_sq (x := |s - t| / 2) (by
      rw [abs_of_nonneg (by positivity)]; linarith)
    have h2 : (1 : ℝ) / 8 ≤ 2 / Real.pi ^ 2 := by
      rw [div_le_div_iff₀ (by norm_num) (by positivity)]; nlinarith [Real.pi_pos]
    rw [clamp_of_mem (by unfold defaultEps; linarith) (by
      unfold defaultEps
      have : (1 / 40 : ℝ) ^ 2 ≤ (|s - t| / 2) ^ 2 := by
        apply pow_le_pow_left₀ (by norm_num); linarith
      nlinarith [sq_nonneg (|s - t| / 2)])]
    exact Real.arccos_cos (by positivity) (by linarith [Real.pi_pos])

/-- the smallest distance. -/
noncomputable def δ : ℝ := Real.arccos (1 - defaultEps)

theorem δ_pos : 0 < δ := by
  unfold δ; rw [Real.arccos_pos]; unfold defaultEps; norm_num

theorem δ_sq : δ ^ 2 ≤ 8e-7 := by
  have h := Real.cos_le_one_sub_mul_cos_sq (x := δ) (by
    unfold δ; rw [abs_of_nonneg (Real.arccos_nonneg _)]; exact Real.arccos_le_pi _)
  have hc : Real.cos δ = 1 - defaultEps := Real.cos_arccos (by unfold defaultEps; norm_num) (by unfold defaultEps; norm_num)
  rw [hc] at h
  have hpi := Real.pi_le_four
  have h2 : (1 : ℝ) / 8 ≤ 2 / Real.pi ^ 2 := by
    rw [div_le_div_iff₀ (by norm_num) (by positivity)]; nlinarith [Real.pi_pos]
  unfold defaultEps at h
  nlinarith [sq_nonneg δ]

/-! ### two widths -/

theorem rbf_le_one (x w : ℝ) : 0 ≤ Interp.RBFgauss x w ∧ Interp.RBFgauss x w ≤ 1 :=
  ⟨(Interp.C38_range x w).1.le, (Interp.C38_range x w).2⟩

/-- one step of the fine grid under its own width. -/
theorem rbf_wide (w : ℝ) (hw : 0.02 ≤ w) : 1 / 4 ≤ Interp.RBFgauss (1 / 40) w := by
  rw [Interp.rbf_rw]
  have h1 : 0.69314718 / w ^ 2 * (1 / 40) ^ 2 ≤ 1.1 := by
    have : (0.02 : ℝ) ^ 2 ≤ w ^ 2 := pow_le_pow_left₀ (by norm_num) hw 2
    rw [div_mul_eq_mul_div, div_le_iff₀ (by nlinarith)]
    nlinarith
  have h2 : Real.exp (-1.1) ≤ Real.exp (-(0.69314718 / w ^ 2 * (1 / 40) ^ 2)) := Real.exp_le_exp.2 (by linarith)
  refine le_trans ?_ h2
  have h3 : Real.exp (1.1 : ℝ) ≤ 4 := by
    have h4 : Real.exp (1.1 : ℝ) = Real.exp 1 * Real.exp 0.1 := by rw [← Real.exp_add]; norm_num
    have h5 : Real.exp (0.1 : ℝ) ≤ 1 / (1 - 0.1) := Real.exp_bound_div_one_sub_of_interval (by norm_num) (by norm_num)
    have h6 := Real.exp_one_lt_d9
    rw [h4]
    have h7 := Real.exp_pos (0.1 : ℝ)
    have h8 := Real.exp_pos (1 : ℝ)
    nlinarith
  rw [Real.exp_neg, one_div]
  exact inv_anti₀ (Real.exp_pos _) h3

theorem rbf_self : 1 / 4 ≤ Interp.RBFgauss δ (0.8 * δ) := by
  have e : Interp.RBFgauss δ (0.8 * δ) = Interp.RBFgauss (1 / 40) (0.8 * (1 / 40)) := by
    rw [Interp.rbf_rw, Interp.rbf_rw]
    congr 2
    have := δ_pos
    field_simp
  rw [e]
  exact rbf_wide _ (by norm_num)

theorem rbf_far (x : ℝ) (hx : 1 / 40 ≤ x) : Interp.RBFgauss x (0.8 * δ) ≤ 1e-5 := by
  rw [Interp.rbf_rw, Real.exp_neg]
  have hd := δ_sq
  have hp := δ_pos
  have hy : 800 ≤ 0.69314718 / (0.8 * δ) ^ 2 * x ^ 2 := by
    have hx2 : (1 / 40 : ℝ) ^ 2 ≤ x ^ 2 := pow_le_pow_left₀ (by norm_num) hx 2
    rw [div_mul_eq_mul_div, le_div_iff₀ (by positivity)]
    nlinarith
  have hq := Real.quadratic_le_exp_of_nonneg (x := 0.69314718 / (0.8 * δ) ^ 2 * x ^ 2) (by linarith)
  have : (100000 : ℝ) ≤ Real.exp (0.69314718 / (0.8 * δ) ^ 2 * x ^ 2) := by nlinarith
  calc (Real.exp (0.69314718 / (0.8 * δ) ^ 2 * x ^ 2))⁻¹ ≤ (100000 : ℝ)⁻¹ := inv_anti₀ (by norm_num) this
    _ = 1e-5 := by norm_num

/-- a nearly diagonal system has small coefficients. -/
theorem coeff_bound (m : Matrix (Fin 25) (Fin 25) ℝ) (hd : ∀ i, 1 / 4 ≤ m i i)
    (ho : ∀ i j, i ≠ j → 0 ≤ m i j ∧ m i j ≤ 1e-5) (c s : Fin 25 → ℝ) (hs : ∀ i, 0 ≤ s i ∧ s i ≤ 25)
    (hc : m.mulVec c = s) : ∀ i, |c i| ≤ 120 := by
  obtain ⟨i, -, hi⟩ := Finset.exists_max_image Finset.univ (fun i => |c i|) ⟨0, Finset.mem_univ _⟩
  have hmax : ∀ j, |c j| ≤ |c i| := fun j => hi j (Finset.mem_univ _)
  have hrow : m i i * c i = s i - ∑ j ∈ Finset.univ.erase i, m i j * c j := by
    have := congrFun hc i
    rw [Matrix.mulVec, dotProduct, ← Finset.add_sum_erase _ _ (Finset.mem_univ i)] at this
    linarith
  have hoff : |∑ j ∈ Finset.univ.erase i, m i j * c j| ≤ 25 * (1e-5 * |c i|) := by
    refine (Finset.abs_sum_le_sum_abs _ _).trans ?_
    have : ∀ j ∈ Finset.univ.erase i, |m i j * c j| ≤ 1e-5 * |c i| := by
      intro j hj
      obtain ⟨h1, h2⟩ := ho i j (Finset.ne_of_mem_erase hj).symm
      rw [abs_mul, abs_of_nonneg h1]
      exact mul_le_mul h2 (hmax j) (abs_nonneg _) (by norm_num)
    refine (Finset.sum_le_card_nsmul _ _ _ this).trans ?_
    rw [Finset.card_erase_of_mem (Finset.mem_univ _), Finset.card_univ, Fintype.card_fin, nsmul_eq_mul]
    have := abs_nonneg (c i)
    norm_num
    nlinarith
  have hb : 1 / 4 * |c i| ≤ 25 + 25 * (1e-5 * |c i|) := by
    calc 1 / 4 * |c i| ≤ m i i * |c i| := mul_le_mul_of_nonneg_right (hd i) (abs_nonneg _)
      _ = |m i i * c i| := by rw [abs_mul, abs_of_nonneg (a := m i i) (by linarith [hd i])]
      _ = |s i - ∑ j ∈ Finset.univ.erase i, m i j * c j| := by rw [hrow]
      _ ≤ |s i| + |∑ j ∈ Finset.univ.erase i, m i j * c j| := abs_sub _ _
      _ ≤ _ := by
        have := (hs i).2
        rw [abs_of_nonneg (hs i).1]; linarith
  intro j
  have := hmax j
  norm_num at hb
  linarith

theorem nonsing (m : Matrix (Fin 25) (Fin 25) ℝ) (hd : ∀ i, 1 / 4 ≤ m i i)
    (ho : ∀ i j, i ≠ j → 0 ≤ m i j ∧ m i j ≤ 1e-5) : m.det ≠ 0 := by
  apply det_ne_zero_of_sum_row_lt_diag
  intro k
  have : ∀ j ∈ Finset.univ.erase k, ‖m k j‖ ≤ 1e-5 := by
    intro j hj
    obtain ⟨h1, h2⟩ := ho k j (Finset.ne_of_mem_erase hj).symm
    rw [Real.norm_of_nonneg h1]; exact h2
  refine (Finset.sum_le_card_nsmul _ _ _ this).trans_lt ?_
  rw [Finset.card_erase_of_mem (Finset.mem_univ _), Finset.card_univ, Fintype.card_fin, nsmul_eq_mul,
    Real.norm_of_nonneg (by linarith [hd k])]
  have := hd k
  norm_num
  linarith

/-! ### the two kernels -/

/-- the two optimised grids. -/
noncomputable def optA : List Euler := (List.range 25).map fun k => turn ((k + 1 : ℕ) / 20)
noncomputable def optB : List Euler := (List.range 25).map fun _ => turn 0

/-- `GSeparableKernelSE3(1, 1, 3, 25)`. -/
noncomputable def args : KernelArgs Mat3 ℕ := { inC := 1, outC := 1, kernelSize := 3, groupKernelSize := 25 }

theorem uniform25 (opt : List Euler) : (uniformGrid initialStore 25 "matrix" opt false).1 =
    .ok (matrixTensor (opt.map (eulerToMatrix · defaultEpsETM))) := by
  unfold uniformGrid
  rw [if_neg (by norm_num), store_matrix, (cached_none 25 (Or.inr (by norm_num))).2]
  dsimp only
  rw [lower_matrix]
  rfl

/-- the grid as a tensor of matrices. -/
noncomputable def gridT (f : ℕ → ℝ) : Tensor Mat3 := ⟨[25], fun idx => if idx.headD 0 < 25 then Z (f (idx.headD 0)) else 0⟩

theorem grid_eq (f : ℕ → ℝ) (hf : ∀ k < 25, 0 ≤ f k ∧ f k ≤ 5 / 4 ∧ (f k = 0 ∨ 1 / 20 ≤ f k)) :
    KernelSE3.grid initialStore ((List.range 25).map fun k => turn (f k)) args = .ok (gridT f) := by
  unfold KernelSE3.grid args
  dsimp only
  rw [uniform25, ok_bind]
  unfold KernelSE3.foldMat matrixTensor
  simp only [List.length_map, List.length_range]
  congr 1
  unfold gridT
  congr 1
  funext idx
  ext i j
  simp only [Matrix.of_apply, List.getD_cons_zero, List.getD_cons_succ]
  by_cases h : idx.headD 0 < 25
  · rw [if_pos h, ← turn_matrix (hf _ h).1 (hf _ h).2.1 (hf _ h).2.2]
    rw [List.getD_eq_getElem?_getD, List.getElem?_map, List.getElem?_map, List.getElem?_range h]
    simp
  · rw [if_neg h]
    rw [List.getD_eq_getElem?_getD, List.getElem?_map, List.getElem?_map, List.getElem?_eq_none (by simpa using h)]
    simp

/-- the angles of the saved grid. -/
noncomputable def ang (k : ℕ) : ℝ := (k + 1 : ℕ) / 20

theorem ang_ok : ∀ k < 25, 0 ≤ ang k ∧ ang k ≤ 5 / 4 ∧ (ang k = 0 ∨ 1 / 20 ≤ ang k) := by
  intro k hk
  have hk' : (k : ℝ) ≤ 24 := by exact_mod_cast (by omega : k ≤ 24)
  have h0 : (0 : ℝ) ≤ k := Nat.cast_nonneg k
  unfold ang
  push_cast
  exact ⟨by positivity, by linarith, Or.inr (by linarith)⟩

theorem ang_diff {i j : ℕ} (hi : i < 25) (hj : j < 25) (h : i ≠ j) : 1 / 20 ≤ |ang i - ang j| ∧ |ang i - ang j| ≤ 3 := by
  have hi' : (i : ℝ) ≤ 24 := by exact_mod_cast (by omega : i ≤ 24)
  have hj' : (j : ℝ) ≤ 24 := by exact_mod_cast (by omega : j ≤ 24)
  have hi0 : (0 : ℝ) ≤ i := Nat.cast_nonneg i
  have hj0 : (0 : ℝ) ≤ j := Nat.cast_nonneg j
  have e : ang i - ang j = ((i : ℝ) - j) / 20 := by unfold ang; push_cast; ring
  rw [e, abs_div, abs_of_pos (by norm_num : (0 : ℝ) < 20)]
  have h1 : 1 ≤ |(i : ℝ) - j| := by
    rcases Nat.lt_or_gt_of_ne h with h | h
    · have : (i : ℝ) + 1 ≤ j := by exact_mod_cast h
      rw [abs_of_neg (by linarith)]; linarith
    · have : (j : ℝ) + 1 ≤ i := by exact_mod_cast h
      rw [abs_of_pos (by linarith)]; linarith
  have h2 : |(i : ℝ) - j| ≤ 24 := abs_le.2 ⟨by linarith, by linarith⟩
  constructor <;> linarith

theorem dist_far {i j : ℕ} (hi : i < 25) (hj : j < 25) (h : i ≠ j) : 1 / 40 ≤ matDist (Z (ang i)) (Z (ang j)) := by
  obtain ⟨h1, h2⟩ := ang_diff hi hj h
  rw [dist_Z _ _ (by linarith [Real.pi_gt_three]) (Or.inr h1), if_neg (by intro h; rw [h] at h1; norm_num at h1)]
  linarith

theorem dist_same (t : ℝ) : matDist (Z t) (Z t) = δ := by
  rw [dist_Z _ _ (by simp; exact Real.pi_pos.le) (Or.inl (by simp)), if_pos (by simp)]
  rfl

theorem dist_query {j : ℕ} (hj : j < 25) : matDist (Z 0) (Z (ang j)) = ang j / 2 := by
  obtain ⟨h0, h1, h2⟩ := ang_ok j hj
  have h3 : 1 / 20 ≤ ang j := by
    unfold ang; push_cast; have := Nat.cast_nonneg (α := ℝ) j; linarith
  have e : |0 - ang j| = ang j := by rw [zero_sub, abs_neg, abs_of_nonneg h0]
  rw [dist_Z _ _ (by rw [e]; linarith [Real.pi_gt_three]) (by rw [e]; exact Or.inr h3), e, if_neg (by linarith)]

theorem Z_zero : Z 0 = 1 := by
  unfold Z
  ext i j
  fin_cases i <;> fin_cases j <;> simp

/-- the matrix of the interpolation problem. -/
noncomputable def mat (w : ℝ) : Matrix (Fin 25) (Fin 25) ℝ :=
  Matrix.of fun i j => Interp.RBFgauss (matDist (Z (ang i)) (Z (ang j))) w

theorem gridT_get (f : ℕ → ℝ) {k : ℕ} (h : k < 25) : (gridT f).get [k] = Z (f k) := if_pos h

theorem mat_eq (w : ℝ) : (Matrix.of fun i j : Fin 25 => Interp.RBFgauss
    (SO3.dist (((gridT ang).map matrixToQuat).get [i.val]) (((gridT ang).map matrixToQuat).get [j.val])) w) = mat w := by
  ext i j
  unfold mat
  simp only [Matrix.of_apply, Tensor.map, gridT_get ang i.2, gridT_get ang j.2]
  rfl

theorem solvable (w : ℝ) (h : (mat w).det ≠ 0) : Solvable SO3.dist "rbf" w ((gridT ang).map matrixToQuat) 25 :=
  ⟨rfl, Or.inr ⟨rfl, by rw [← mat_eq] at h; exact h⟩⟩

/-- the value of the sampler with width `w` at the identity. -/
theorem value_eq (w : ℝ) (f : ℕ → ℝ) (c : Fin 25 → ℝ) (hdet : (mat w).det ≠ 0)
    (hc : (mat w).mulVec c = fun k : Fin 25 => f k) :
    sampleOne (fun q sig g => SO3.gridSample q sig g "rbf" w) (gridT ang) 25 f (Z 0) =
      ∑ j : Fin 25, Interp.RBFgauss (ang j / 2) w * c j := by
  have hgs : ∀ q sig g, SO3.gridSample q sig g "rbf" w =
      Interp.interpolateRBF SO3.dist Interp.RBFgauss w (q.map matrixToQuat) (g.map matrixToQuat) sig := by
    intro q sig g; unfold SO3.gridSample gridSampleQuat; rw [if_neg (by decide), if_pos rfl]; rfl
  obtain ⟨out, ho, -, hv⟩ := Interp.C39_value SO3.dist Interp.RBFgauss w
    ((⟨[1], fun _ => Z 0⟩ : Tensor Mat3).map matrixToQuat) ((gridT ang).map matrixToQuat)
    ⟨[25, 1], fun idx => f (idx.getD 0 0)⟩ 1 25 1 rfl rfl rfl (fun j _ => c j) (by
      intro k _
      have := congrFun hc k
      rw [← mat_eq] at this
      exact this) (by rw [mat_eq]; exact hdet)
  unfold sampleOne
  dsimp only
  rw [hgs, ho]
  dsimp only
  rw [hv 0 (by norm_num) 0]
  refine Finset.sum_congr rfl fun j _ => ?_
  congr 2
  rw [← dist_query j.2]
  show geodesicDistance (matrixToQuat (Z 0)) (matrixToQuat ((gridT ang).get [j.val])) defaultEps = _
  rw [gridT_get ang j.2]
  rfl

/-- sampling fails when the interpolation problem is singular. -/
theorem sample_error (w : ℝ) (h : (mat w).det = 0) (q : Tensor Mat3) (sig : Tensor ℝ) :
    SO3.gridSample q sig (gridT ang) "rbf" w = .error .runtimeError := by
  unfold SO3.gridSample gridSampleQuat
  rw [if_neg (by decide), if_pos rfl]
  unfold Interp.interpolateRBF
  refine if_pos (Or.inr ?_)
  rw [← mat_eq] at h; exact h

theorem narrow_diag (i : Fin 25) : 1 / 4 ≤ mat (0.8 * δ) i i := by
  show 1 / 4 ≤ Interp.RBFgauss (matDist (Z (ang i)) (Z (ang i))) (0.8 * δ)
  rw [dist_same]; exact rbf_self

theorem narrow_off (i j : Fin 25) (h : i ≠ j) : 0 ≤ mat (0.8 * δ) i j ∧ mat (0.8 * δ) i j ≤ 1e-5 :=
  ⟨(rbf_le_one _ _).1, rbf_far _ (dist_far i.2 j.2 fun e => h (Fin.ext e))⟩

/-- the signal: all coefficients are one under the width `w`. -/
noncomputable def signal (w : ℝ) (k : ℕ) : ℝ := ∑ j : Fin 25, Interp.RBFgauss (matDist (Z (ang k)) (Z (ang j))) w

/-- the two widths give different values. -/
theorem values_differ (w : ℝ) (hw : 0.02 ≤ w) (hdet : (mat w).det ≠ 0) :
    sampleOne (fun q sig g => SO3.gridSample q sig g "rbf" (0.8 * δ)) (gridT ang) 25 (signal w) (Z 0) ≠
      sampleOne (fun q sig g => SO3.gridSample q sig g "rbf" w) (gridT ang) 25 (signal w) (Z 0) := by
  have hn := nonsing _ narrow_diag narrow_off
  set c := (mat (0.8 * δ))⁻¹.mulVec (fun k : Fin 25 => signal w k) with hc
  have hmul : (mat (0.8 * δ)).mulVec c = fun k : Fin 25 => signal w k := by
    rw [hc, Matrix.mulVec_mulVec, Matrix.mul_nonsing_inv _ (isUnit_iff_ne_zero.2 hn), Matrix.one_mulVec]
  have hsig : ∀ k : Fin 25, 0 ≤ signal w k ∧ signal w k ≤ 25 := by
    intro k
    unfold signal
    refine ⟨Finset.sum_nonneg fun j _ => (rbf_le_one _ _).1, ?_⟩
    refine (Finset.sum_le_card_nsmul _ _ 1 fun j _ => (rbf_le_one _ _).2).trans ?_
    simp
  have hb := coeff_bound _ narrow_diag narrow_off c _ hsig hmul
  rw [value_eq _ _ c hn hmul, value_eq w _ (fun _ => 1) hdet (by
    funext k
    simp only [Matrix.mulVec, dotProduct, mul_one]
    rfl)]
  have hang : ∀ j : Fin 25, 1 / 40 ≤ ang j / 2 := by
    intro j
    unfold ang; push_cast; have := Nat.cast_nonneg (α := ℝ) j.val; linarith
  have h1 : |∑ j : Fin 25, Interp.RBFgauss (ang j / 2) (0.8 * δ) * c j| ≤ 25 * (1e-5 * 120) := by
    refine (Finset.abs_sum_le_sum_abs _ _).trans ?_
    refine (Finset.sum_le_card_nsmul _ _ (1e-5 * 120) fun j _ => ?_).trans ?_
    · rw [abs_mul, abs_of_nonneg (rbf_le_one _ _).1]
      exact mul_le_mul (rbf_far _ (hang j)) (hb j) (abs_nonneg _) (by norm_num)
    · simp
  have h2 : 1 / 4 ≤ ∑ j : Fin 25, Interp.RBFgauss (ang j / 2) w * 1 := by
    have h3 := rbf_wide w hw
    have e : (1 / 40 : ℝ) = ang ((0 : Fin 25) : ℕ) / 2 := by unfold ang; norm_num
    rw [e] at h3
    refine h3.trans ?_
    rw [← mul_one (Interp.RBFgauss (ang ((0 : Fin 25) : ℕ) / 2) w)]
    exact Finset.single_le_sum (f := fun j : Fin 25 => Interp.RBFgauss (ang j / 2) w * 1)
      (fun j _ => mul_nonneg (rbf_le_one _ _).1 zero_le_one) (Finset.mem_univ (0 : Fin 25))
  intro h
  rw [h] at h1
  have := (abs_le.1 h1).2
  norm_num at this h2
  linarith

theorem elems_gridT (f : ℕ → ℝ) : elems (gridT f) = (List.range 25).map fun k => Z (f k) := by
  unfold elems
  refine List.map_congr_left fun k hk => gridT_get f (List.mem_range.1 hk)

theorem gridT_rot (f : ℕ → ℝ) : ∀ i < (gridT f).shape.headD 0, IsRotation ((gridT f).get [i]) := by
  intro i hi
  rw [gridT_get f hi]; exact Z_rot _

/-- the mean of numbers that are at least `c`. -/
theorem le_mean (d : List ℝ) (c : ℝ) (h0 : 0 < d.length) (h : ∀ x ∈ d, c ≤ x) : c ≤ d.sum / d.length := by
  rw [le_div_iff₀ (by exact_mod_cast h0)]
  have := List.card_nsmul_le_sum d c h
  rw [nsmul_eq_mul] at this
  linarith

/-- the default width of the saved kernel. -/
theorem width_A (w : ℝ) (h : IsMeanNearest matDist (elems (gridT ang)) w) : 0.02 ≤ w := by
  obtain ⟨d, hl, rfl, hd⟩ := h
  rw [elems_gridT] at hl hd
  rw [List.length_map, List.length_range] at hl
  have := le_mean d (1 / 40) (by omega) (by
    intro x hx
    obtain ⟨i, hi, rfl⟩ := List.getElem_of_mem hx
    obtain ⟨y, hy, ⟨j, hj, hne, e⟩, -⟩ := hd i (by simp; omega)
    rw [List.getElem?_eq_getElem hi] at hy
    cases hy
    rw [e]
    simp only [List.length_map, List.length_range] at hj
    simp only [List.getElem_map, List.getElem_range]
    exact dist_far (by omega) hj (Ne.symm hne))
  linarith

/-- the default width of the other kernel. -/
theorem width_B (w : ℝ) (h : IsMeanNearest matDist (elems (gridT fun _ => 0)) w) : w = 0.8 * δ := by
  obtain ⟨d, hl, rfl, hd⟩ := h
  rw [elems_gridT] at hl hd
  rw [List.length_map, List.length_range] at hl
  have hall : ∀ x ∈ d, x = δ := by
    intro x hx
    obtain ⟨i, hi, rfl⟩ := List.getElem_of_mem hx
    obtain ⟨y, hy, ⟨j, hj, hne, e⟩, -⟩ := hd i (by simp; omega)
    rw [List.getElem?_eq_getElem hi] at hy
    cases hy
    rw [e]
    simp only [List.getElem_map]
    exact dist_same _
  have : d.sum = d.length • δ := List.sum_eq_card_nsmul d δ hall
  rw [this, nsmul_eq_mul, mul_comm (d.length : ℝ), mul_div_assoc, div_self (by rw [hl]; norm_num), mul_one]

/-- the kernel built with the default width. -/
theorem full_default (opt : List Euler) (gr : Tensor Mat3) (hgr : KernelSE3.grid initialStore opt args = .ok gr)
    (h2 : 2 ≤ gr.shape.headD 0) (hrot : ∀ i < gr.shape.headD 0, IsRotation (gr.get [i])) :
    ∃ w, KernelSE3.full initialStore opt args = .ok (KernelSE3.base args gr (KernelSE3.sampler "rbf" w)) ∧
      IsMeanNearest matDist (elems gr) w := by
  obtain ⟨K, w, e, -, -, h⟩ := C55_SE3_partial initialStore opt args gr hgr (by norm_num [args]) rfl h2 hrot
  obtain ⟨g, hg, h'⟩ := bind_ok' e
  rw [hgr] at hg
  cases hg
  obtain ⟨w1, hw1, h'⟩ := bind_ok' h'
  obtain ⟨h', -⟩ := checkGroups_ok h'
  obtain ⟨d, e', hl, hd⟩ := SO3.C26_matrix (elems gr)
    (by intro x hx; unfold elems at hx; obtain ⟨i, hi, rfl⟩ := List.mem_map.1 hx; exact hrot i (List.mem_range.1 hi))
    (by rw [elems_length]; exact h2)
  unfold defaultWidth at hw1
  rw [if_pos (show args.rotWidth = 0 from rfl), KernelSE3.nearest_eq (KernelSE3.headD_pos (gr := gr) (by omega)).1, e'] at hw1
  cases hw1
  exact ⟨_, e.trans (congrArg _ h'), d, hl, rfl, hd⟩

end StateWidth

open StateWidth in
/-- False of the code: the state of a separable SE(3) kernel with default width and a size that is not shipped, loaded
into a kernel constructed with the same arguments, does not restore it. -/
theorem C86_SE3_violated : ∃ (a : KernelArgs Mat3 ℕ) (opt opt' : List Euler) (K K' R : GroupKernel Mat3 3)
    (weightH weight : Tensor ℝ) (inH outH : Tensor Mat3),
    opt.length = a.groupKernelSize ∧ opt'.length = a.groupKernelSize ∧
    KernelSE3.full initialStore opt a = .ok K ∧ KernelSE3.full initialStore opt' a = .ok K' ∧
    K'.loadState K.state = .ok R ∧
    R.separableForward weightH weight inH outH ≠ K.separableForward weightH weight inH outH := by
  obtain ⟨w, e1, hw⟩ := full_default optA (gridT ang) (grid_eq ang ang_ok) (by norm_num [gridT]) (gridT_rot _)
  obtain ⟨w', e2, hw'⟩ := full_default optB (gridT fun _ => 0)
    (grid_eq (fun _ => 0) fun _ _ => ⟨le_rfl, by norm_num, Or.inl rfl⟩) (by norm_num [gridT]) (gridT_rot _)
  have hwA := width_A w hw
  have hwB := width_B w' hw'
  subst hwB
  refine ⟨args, optA, optB, _, _,
    KernelSE3.base args (gridT ang) (KernelSE3.sampler "rbf" (0.8 * δ)),
    ⟨[25, 1, 1], fun idx => signal w (idx.headD 0)⟩, ⟨[1, 1, 3, 3, 3], fun _ => 0⟩, ⟨[1], fun _ => 1⟩, ⟨[1], fun _ => 1⟩,
    by simp [optA, args], by simp [optB, args], e1, e2, if_pos ⟨rfl, rfl, rfl⟩, ?_⟩
  have sep : ∀ v, (mat v).det ≠ 0 → ∃ wH wt,
      (KernelSE3.base args (gridT ang) (KernelSE3.sampler "rbf" v)).separableForward
        ⟨[25, 1, 1], fun idx => signal w (idx.headD 0)⟩ ⟨[1, 1, 3, 3, 3], fun _ => 0⟩ ⟨[1], fun _ => 1⟩ ⟨[1], fun _ => 1⟩ =
        .ok (wH, wt) ∧ wH.get [0, 0, 0, 0, 0, 0, 0] =
          sampleOne (fun q sig g => SO3.gridSample q sig g "rbf" v) (gridT ang) 25 (signal w) (Z 0) := by
    intro v hv
    obtain ⟨r, r2⟩ := SO3.rowwise "rbf" v (gridT ang) 25 (solvable v hv)
    have r1 : RowwiseSampler (KernelSE3.sampler "rbf" v) (gridT ang) 25 (fun _ => True) _ := fun q sig m S hq hsig hg => by
      rw [KernelSE3.sampler_eq (by simp [gridT])]
      exact r q sig m S hq hsig hg
    obtain ⟨wH, wt, h1, -, -, h2, -⟩ := GroupKernel.C52_separable_partial
      (KernelSE3.lawful args (gridT ang) (KernelSE3.sampler "rbf" v))
      (KernelSE3.pointwise args (gridT ang) _ defaultModes (by norm_num [args])) r1 r2 (show 0 < 25 by norm_num)
      ⟨[25, 1, 1], fun idx => signal w (idx.headD 0)⟩ ⟨[1, 1, 3, 3, 3], fun _ => 0⟩ ⟨[1], fun _ => 1⟩ ⟨[1], fun _ => 1⟩ 1
      (by simp [KernelSE3.base, args, gridT, GroupKernel.groupKernelDim]) (by simp [KernelSE3.base, args]) rfl rfl
      (fun _ _ _ _ => trivial)
    refine ⟨wH, wt, h1, ?_⟩
    have := h2 0 0 0 0 (by norm_num [KernelSE3.base, args]) (by norm_num) (by norm_num [KernelSE3.base, args]) (by norm_num)
    refine this.trans ?_
    congr 1
    show (1 : Mat3).transpose * 1 = Z 0
    rw [Z_zero]; simp
  obtain ⟨wH, wt, h1, h2⟩ := sep (0.8 * δ) (nonsing _ narrow_diag narrow_off)
  rw [h1]
  intro hK
  by_cases hdet : (mat w).det = 0
  · obtain ⟨x, hx, -⟩ := bind_ok' hK.symm
    obtain ⟨q, hq, hx⟩ := bind_ok' hx
    obtain ⟨sg, hsg, hx⟩ := bind_ok' hx
    obtain ⟨y, hy, -⟩ := bind_ok' hx
    have := (KernelSE3.sampler_eq (gr := gridT ang) (by simp [gridT]) "rbf" w q sg).trans (sample_error w hdet q sg)
    exact absurd (this.symm.trans hy) (by simp)
  · obtain ⟨wH', wt', h1', h2'⟩ := sep w hdet
    rw [h1'] at hK
    cases hK
    exact values_differ w hwA hdet (h2.symm.trans h2')

end GConv

import Verif.Lemmas.Euler
import Verif.Props.SO3
import Mathlib.Analysis.Real.Pi.Bounds
import Mathlib.Analysis.SpecialFunctions.Trigonometric.Bounds

/-! # Euler angles: C18 - C21 -/

namespace GConv.SO3

open Real Spec

/-! ## C18 -/

/-- extrinsic ZYZ: rotate about z by `α`, then about y by `β`, then about z by `γ`. -/
noncomputable def zyz (a b c : ℝ) : Mat3 := matrixZ c * matrixY b * matrixZ a

theorem C18_raw (a b c : ℝ) : eulerToMatrixRaw ![a, b, c] = zyz a b c := by
  ext i j
  fin_cases i <;> fin_cases j <;>
    simp [eulerToMatrixRaw, zyz, matrixZ, matrixY, Matrix.mul_apply, Fin.sum_univ_three] <;> ring

theorem eulerRaw_eq (g : Euler) : eulerToMatrixRaw g = zyz (g 0) (g 1) (g 2) := by
  rw [← C18_raw]; rfl

theorem C18_masked (g : Euler) (eps : ℝ) (i j : Fin 3) :
    eulerToMatrix g eps i j =
      if |zyz (g 0) (g 1) (g 2) i j| ≤ eps then 0 else zyz (g 0) (g 1) (g 2) i j := by
  unfold eulerToMatrix
  simp only [Matrix.of_apply, eulerRaw_eq]
  by_cases h : |zyz (g 0) (g 1) (g 2) i j| ≤ eps
  · rw [if_pos h, if_neg, mul_zero]
    rw [abs_le] at h
    push Not; exact ⟨h.2, h.1⟩
  · rw [if_neg h, if_pos, mul_one]
    rw [not_le, lt_abs] at h
    rcases h with h | h
    · exact Or.inl h
    · right; linarith

theorem C18_error (g : Euler) (eps : ℝ) (heps : 0 ≤ eps) (i j : Fin 3) :
    |eulerToMatrix g eps i j - zyz (g 0) (g 1) (g 2) i j| ≤ eps := by
  rw [C18_masked]
  split_ifs with h
  · simpa using h
  · simpa using heps

theorem C18_exact (g : Euler) : eulerToMatrix g 0 = zyz (g 0) (g 1) (g 2) := by
  ext i j
  rw [C18_masked]
  split_ifs with h
  · have := abs_nonneg (zyz (g 0) (g 1) (g 2) i j)
    exact (abs_eq_zero.1 (le_antisymm h this)).symm
  · rfl

theorem zyz_rotation (a b c : ℝ) : IsRotation (zyz a b c) :=
  (C27_closed _ _ (C27_closed _ _ (C14_z 0 c).1 (C14_y 0 b).1).1 (C14_z 0 a).1).1

theorem C18_quat (g : Euler) :
    IsUnitQuat (eulerToQuat g 0) ∧ quatToMatrix (eulerToQuat g 0) = zyz (g 0) (g 1) (g 2) := by
  unfold eulerToQuat
  rw [C18_exact]
  exact C16_unit_and_inverse _ (zyz_rotation _ _ _)

/-! ## C19 -/

/-- the three angles `matrix_to_euler` returns, as an (exact) matrix. -/
noncomputable def rebuilt (R : Mat3) (eps : ℝ) : Mat3 :=
  zyz (matrixToEuler R eps 0) (matrixToEuler R eps 1) (matrixToEuler R eps 2)

theorem rebuilt_eq (R : Mat3) (eps : ℝ) : rebuilt R eps = eulerToMatrixRaw (mteStep5 R eps) := by
  unfold rebuilt
  rw [← eulerRaw_eq, matrixToEuler_eq, eulerRaw_wrap]

theorem step5_safe (R : Mat3) (eps : ℝ) (h1 : eps ≤ mteBeta R) (h2 : eps ≤ π - mteBeta R) :
    mteStep5 R eps = ![atan2 (R 2 1) (-R 2 0), mteBeta R, atan2 (R 1 2) (R 0 2)] := by
  have s1 : mteSafe1 R eps := by
    unfold mteSafe1; rw [abs_of_nonneg (mteBeta_range R).1]; exact h1
  have s2 : mteSafe2 R eps := by
    unfold mteSafe2; rw [abs_sub_comm, abs_of_nonneg (by linarith [(mteBeta_range R).2])]; exact h2
  unfold mteStep5
  simp only [s1, s2, matrixTrans_entries]
  simp

theorem step5_unsafe1 (R : Mat3) (eps : ℝ) (h1 : mteBeta R < eps) (h2 : eps ≤ π - mteBeta R) :
    mteStep5 R eps = ![atan2 (R 1 0 - R 0 1) (R 0 0 + R 1 1), mteBeta R, 0] := by
  have s1 : ¬ mteSafe1 R eps := by
    unfold mteSafe1; rw [abs_of_nonneg (mteBeta_range R).1]; exact not_le.2 h1
  have s2 : mteSafe2 R eps := by
    unfold mteSafe2; rw [abs_sub_comm, abs_of_nonneg (by linarith [(mteBeta_range R).2])]; exact h2
  unfold mteStep5
  simp only [s1, s2, matrixTrans_entries]
  simp
  congr 1 <;> ring

theorem step5_unsafe2 (R : Mat3) (eps : ℝ) (h1 : eps ≤ mteBeta R) (h2 : π - mteBeta R < eps) :
    mteStep5 R eps = ![-atan2 (-(R 0 1 + R 1 0)) (R 1 1 - R 0 0), mteBeta R, 0] := by
  have s1 : mteSafe1 R eps := by
    unfold mteSafe1; rw [abs_of_nonneg (mteBeta_range R).1]; exact h1
  have s2 : ¬ mteSafe2 R eps := by
    unfold mteSafe2; rw [abs_sub_comm, abs_of_nonneg (by linarith [(mteBeta_range R).2])]
    exact not_le.2 h2
  unfold mteStep5
  simp only [s1, s2, matrixTrans_entries]
  simp
  congr 1; ring

/-- Outside the `eps`-neighbourhood of gimbal lock the round trip is exact.
(`arccos (R 2 2)` is the tilt `β` of the rotation.) -/
theorem C19_safe (R : Mat3) (h : IsRotation R) (eps : ℝ) (he : 0 < eps)
    (h1 : eps ≤ arccos (R 2 2)) (h2 : eps ≤ π - arccos (R 2 2)) : rebuilt R eps = R := by
  obtain ⟨hb, -⟩ := mteBeta_rotation h
  rw [← hb] at h1 h2
  rw [rebuilt_eq, step5_safe R eps h1 h2]
  exact euler_exact h (Real.sin_pos_of_pos_of_lt_pi (by linarith) (by linarith))

/-- At exact gimbal lock the round trip is exact. -/
theorem C19_gimbal (R : Mat3) (h : IsRotation R) (eps : ℝ) (he : 0 < eps) (he1 : eps < 1)
    (hg : arccos (R 2 2) = 0 ∨ arccos (R 2 2) = π) : rebuilt R eps = R := by
  obtain ⟨hb, hc, -, -⟩ := mteBeta_rotation h
  have E := rotEntries h
  have hpi := Real.pi_gt_three
  rw [← hb] at hg
  rw [rebuilt_eq]
  rcases hg with hg | hg
  · rw [step5_unsafe1 R eps (by linarith) (by linarith), hg]
    rw [hg, Real.cos_zero] at hc
    have c22 := E.c22; have r22 := E.r22
    rw [← hc] at c22 r22
    have h02 : R 0 2 = 0 := by nlinarith [sq_nonneg (R 0 2), sq_nonneg (R 1 2)]
    have h12 : R 1 2 = 0 := by nlinarith [sq_nonneg (R 0 2), sq_nonneg (R 1 2)]
    have h20 : R 2 0 = 0 := by nlinarith [sq_nonneg (R 2 0), sq_nonneg (R 2 1)]
    have h21 : R 2 1 = 0 := by nlinarith [sq_nonneg (R 2 0), sq_nonneg (R 2 1)]
    have k00 := E.k00; have k01 := E.k01
    rw [h12, ← hc] at k00 k01
    have c00 := E.c00
    rw [h20] at c00
    have e1 : R 0 0 = R 1 1 := by linarith
    have e2 : R 0 1 = -R 1 0 := by linarith
    obtain ⟨a1, a2⟩ := atan2_spec (R 0 0 + R 1 1) (R 1 0 - R 0 1) 2 (by norm_num)
      (by rw [e2, ← e1]; linear_combination 4 * c00)
    ext i j
    fin_cases i <;> fin_cases j <;>
      simp [eulerToMatrixRaw, h02, h12, h20, h21, ← hc] <;> linarith
  · rw [step5_unsafe2 R eps (by linarith) (by linarith), hg]
    rw [hg, Real.cos_pi] at hc
    have c22 := E.c22; have r22 := E.r22
    rw [← hc] at c22 r22
    have h02 : R 0 2 = 0 := by nlinarith [sq_nonneg (R 0 2), sq_nonneg (R 1 2)]
    have h12 : R 1 2 = 0 := by nlinarith [sq_nonneg (R 0 2), sq_nonneg (R 1 2)]
    have h20 : R 2 0 = 0 := by nlinarith [sq_nonneg (R 2 0), sq_nonneg (R 2 1)]
    have h21 : R 2 1 = 0 := by nlinarith [sq_nonneg (R 2 0), sq_nonneg (R 2 1)]
    have k00 := E.k00; have k01 := E.k01
    rw [h12, ← hc] at k00 k01
    have c00 := E.c00
    rw [h20] at c00
    have e1 : R 0 0 = -R 1 1 := by linarith
    have e2 : R 0 1 = R 1 0 := by linarith
    obtain ⟨a1, a2⟩ := atan2_spec (R 1 1 - R 0 0) (-(R 0 1 + R 1 0)) 2 (by norm_num)
      (by rw [e2]; rw [e1] at c00 ⊢; linear_combination 4 * c00)
    ext i j
    fin_cases i <;> fin_cases j <;>
      simp [eulerToMatrixRaw, h02, h12, h20, h21, ← hc, -neg_add_rev] <;> linarith

/-- entrywise error when `γ` is merged into `α` for a small tilt. -/
theorem near_zero_bound (a b c a' : ℝ) (hb0 : 0 < b) (hb1 : b < 1)
    (hca : cos a' = cos (a + c)) (hsa : sin a' = sin (a + c)) (i j : Fin 3) :
    |eulerToMatrixRaw ![a', b, 0] i j - eulerToMatrixRaw ![a, b, c] i j| ≤ 2 * b := by
  have hs1 : sin b ≤ b := (Real.sin_lt hb0).le
  have hs0 : 0 ≤ sin b := Real.sin_nonneg_of_nonneg_of_le_pi hb0.le (by linarith [Real.pi_gt_three])
  have hc1 := Real.one_sub_sq_div_two_le_cos (x := b)
  have hc2 := Real.cos_le_one b
  have hk0 : 0 ≤ 1 - cos b := by linarith
  have hk1 : 1 - cos b ≤ b := by nlinarith
  have mul_le : ∀ x y : ℝ, |x| ≤ 1 → |y| ≤ 1 → |x * y| ≤ 1 := by
    intro x y hx hy; rw [abs_mul]
    nlinarith [abs_nonneg x, abs_nonneg y]
  have B1 : ∀ x : ℝ, |x| ≤ 1 → |(1 - cos b) * x| ≤ 2 * b := by
    intro x hx
    rw [abs_mul, abs_of_nonneg hk0]
    nlinarith [abs_nonneg x]
  have B2 : ∀ x y : ℝ, |x| ≤ 1 → |y| ≤ 1 → |sin b * (x - y)| ≤ 2 * b := by
    intro x y hx hy
    rw [abs_mul, abs_of_nonneg hs0]
    have : |x - y| ≤ 2 := (abs_sub x y).trans (by linarith)
    nlinarith [abs_nonneg (x - y)]
  have ca := Real.abs_cos_le_one a
  have cc := Real.abs_cos_le_one c
  have sa := Real.abs_sin_le_one a
  have sc := Real.abs_sin_le_one c
  have cac := Real.abs_cos_le_one (a + c)
  have sac := Real.abs_sin_le_one (a + c)
  have one1 : |(1 : ℝ)| ≤ 1 := by simp
  have zero1 : |(0 : ℝ)| ≤ 1 := by simp
  fin_cases i <;> fin_cases j <;> simp [eulerToMatrixRaw, hca, hsa]
  · have := B1 _ (mul_le _ _ sa sc)
    convert this using 2; rw [Real.cos_add]; ring
  · have := B1 _ (mul_le _ _ ca sc)
    convert this using 2; rw [Real.sin_add]; ring
  · have := B2 _ _ one1 cc
    convert this using 2; ring
  · have := B1 _ (mul_le _ _ ca sc)
    convert this using 2; rw [Real.sin_add]; ring
  · have := B1 _ (mul_le _ _ sa sc)
    rw [← abs_neg]
    convert this using 2; rw [Real.cos_add]; ring
  · have := B2 _ _ zero1 sc
    rw [← abs_neg]
    convert this using 2; ring_nf
    simp [abs_mul, mul_comm]
  · have := B2 _ _ ca cac
    convert this using 2; ring
  · have := B2 _ _ sac sa
    convert this using 2; ring
  · exact hb0.le

/-- entrywise error when `γ` is merged into `α` for a tilt close to a half turn. -/
theorem near_pi_bound (a b c a' : ℝ) (hb0 : 0 < π - b) (hb1 : π - b < 1)
    (hca : cos a' = cos (a - c)) (hsa : sin a' = sin (a - c)) (i j : Fin 3) :
    |eulerToMatrixRaw ![a', b, 0] i j - eulerToMatrixRaw ![a, b, c] i j| ≤ 2 * (π - b) := by
  obtain ⟨d, hd⟩ : ∃ d, d = π - b := ⟨_, rfl⟩
  have hbd : b = π - d := by linarith
  rw [← hd] at hb0 hb1 ⊢
  have hs1 : sin d ≤ d := (Real.sin_lt hb0).le
  have hs0 : 0 ≤ sin d := Real.sin_nonneg_of_nonneg_of_le_pi hb0.le (by linarith [Real.pi_gt_three])
  have hc1 := Real.one_sub_sq_div_two_le_cos (x := d)
  have hc2 := Real.cos_le_one d
  have hk0 : 0 ≤ 1 - cos d := by linarith
  have hk1 : 1 - cos d ≤ d := by nlinarith
  have mul_le : ∀ x y : ℝ, |x| ≤ 1 → |y| ≤ 1 → |x * y| ≤ 1 := by
    intro x y hx hy; rw [abs_mul]
    nlinarith [abs_nonneg x, abs_nonneg y]
  have B1 : ∀ x : ℝ, |x| ≤ 1 → |(1 - cos d) * x| ≤ 2 * d := by
    intro x hx
    rw [abs_mul, abs_of_nonneg hk0]
    nlinarith [abs_nonneg x]
  have B2 : ∀ x y : ℝ, |x| ≤ 1 → |y| ≤ 1 → |sin d * (x - y)| ≤ 2 * d := by
    intro x y hx hy
    rw [abs_mul, abs_of_nonneg hs0]
    have : |x - y| ≤ 2 := (abs_sub x y).trans (by linarith)
    nlinarith [abs_nonneg (x - y)]
  have ca := Real.abs_cos_le_one a
  have cc := Real.abs_cos_le_one c
  have sa := Real.abs_sin_le_one a
  have sc := Real.abs_sin_le_one c
  have cac := Real.abs_cos_le_one (a - c)
  have sac := Real.abs_sin_le_one (a - c)
  have one1 : |(1 : ℝ)| ≤ 1 := by simp
  have zero1 : |(0 : ℝ)| ≤ 1 := by simp
  have hcb : cos b = -cos d := by rw [hbd, Real.cos_pi_sub]
  have hsb : sin b = sin d := by rw [hbd, Real.sin_pi_sub]
  fin_cases i <;> fin_cases j <;> simp [eulerToMatrixRaw, hca, hsa, hcb, hsb]
  · have := B1 _ (mul_le _ _ sa sc)
    convert this using 2; rw [Real.cos_sub]; ring
  · have := B1 _ (mul_le _ _ ca sc)
    convert this using 2; rw [Real.sin_sub]; ring
  · have := B2 _ _ one1 cc
    convert this using 2; ring
  · have := B1 _ (mul_le _ _ ca sc)
    rw [← abs_neg]
    convert this using 2; rw [Real.sin_sub]; ring
  · have := B1 _ (mul_le _ _ sa sc)
    convert this using 2; rw [Real.cos_sub]; ring
  · have := B2 _ _ zero1 sc
    rw [← abs_neg]
    convert this using 2; ring_nf
    simp [abs_mul, mul_comm]
  · have := B2 _ _ ca cac
    convert this using 2; ring
  · have := B2 _ _ sac sa
    convert this using 2; ring
  · exact hb0.le

/-- Close to, but not at, gimbal lock with tilt near `0`: off by at most `2·eps` per entry. -/
theorem C19_near_zero (R : Mat3) (h : IsRotation R) (eps : ℝ) (he1 : eps < 1)
    (h0 : 0 < arccos (R 2 2)) (h1 : arccos (R 2 2) < eps) (i j : Fin 3) :
    |rebuilt R eps i j - R i j| ≤ 2 * eps := by
  obtain ⟨hb, hc, -, -⟩ := mteBeta_rotation h
  have hpi := Real.pi_gt_three
  rw [← hb] at h0 h1
  have hex := euler_exact h (Real.sin_pos_of_pos_of_lt_pi h0 (by linarith))
  obtain ⟨a, ha⟩ : ∃ a, a = atan2 (R 2 1) (-R 2 0) := ⟨_, rfl⟩
  obtain ⟨c, hcc⟩ : ∃ c, c = atan2 (R 1 2) (R 0 2) := ⟨_, rfl⟩
  obtain ⟨b, hbb⟩ : ∃ b, b = mteBeta R := ⟨_, rfl⟩
  rw [rebuilt_eq, step5_unsafe1 R eps h1 (by linarith)]
  rw [← ha, ← hcc, ← hbb] at hex
  rw [← hbb] at h0 h1 ⊢
  have e1 : R 1 0 - R 0 1 = (1 + cos b) * sin (a + c) := by
    rw [← hex, Real.sin_add]; simp [eulerToMatrixRaw]; ring
  have e2 : R 0 0 + R 1 1 = (1 + cos b) * cos (a + c) := by
    rw [← hex, Real.cos_add]; simp [eulerToMatrixRaw]; ring
  have hpos : 0 < 1 + cos b := by
    have := Real.cos_pos_of_mem_Ioo (x := b) ⟨by linarith, by linarith⟩
    linarith
  obtain ⟨p1, p2⟩ := atan2_polar (a + c) (1 + cos b) hpos
  rw [e1, e2]
  have := near_zero_bound a b c _ h0 (by linarith) p1 p2 i j
  rw [hex] at this
  linarith

/-- Close to, but not at, gimbal lock with tilt near `π`: off by at most `2·eps` per entry. -/
theorem C19_near_pi (R : Mat3) (h : IsRotation R) (eps : ℝ) (he1 : eps < 1)
    (h0 : 0 < π - arccos (R 2 2)) (h1 : π - arccos (R 2 2) < eps) (i j : Fin 3) :
    |rebuilt R eps i j - R i j| ≤ 2 * eps := by
  obtain ⟨hb, hc, -, -⟩ := mteBeta_rotation h
  have hpi := Real.pi_gt_three
  rw [← hb] at h0 h1
  have hex := euler_exact h (Real.sin_pos_of_pos_of_lt_pi (by linarith) (by linarith))
  obtain ⟨a, ha⟩ : ∃ a, a = atan2 (R 2 1) (-R 2 0) := ⟨_, rfl⟩
  obtain ⟨c, hcc⟩ : ∃ c, c = atan2 (R 1 2) (R 0 2) := ⟨_, rfl⟩
  obtain ⟨b, hbb⟩ : ∃ b, b = mteBeta R := ⟨_, rfl⟩
  rw [rebuilt_eq, step5_unsafe2 R eps (by linarith) h1]
  rw [← ha, ← hcc, ← hbb] at hex
  rw [← hbb] at h0 h1 ⊢
  have e1 : -(R 0 1 + R 1 0) = (1 - cos b) * sin (c - a) := by
    rw [← hex, Real.sin_sub]; simp [eulerToMatrixRaw]; ring
  have e2 : R 1 1 - R 0 0 = (1 - cos b) * cos (c - a) := by
    rw [← hex, Real.cos_sub]; simp [eulerToMatrixRaw]; ring
  have hpos : 0 < 1 - cos b := by
    have := Real.cos_neg_of_pi_div_two_lt_of_lt (x := b) (by linarith) (by linarith)
    linarith
  obtain ⟨p1, p2⟩ := atan2_polar (c - a) (1 - cos b) hpos
  rw [e1, e2]
  have := near_pi_bound a b c
    (-atan2 ((1 - cos b) * sin (c - a)) ((1 - cos b) * cos (c - a))) h0 (by linarith)
    (by rw [Real.cos_neg, p1, ← Real.cos_neg]; ring_nf)
    (by rw [Real.sin_neg, p2, ← Real.sin_neg]; ring_nf) i j
  rw [hex] at this
  linarith

/-- Summary: for every rotation the rebuilt matrix is within `2·eps`, with the function's default
`eps = 1e-5` in particular. -/
theorem C19_all (R : Mat3) (h : IsRotation R) (eps : ℝ) (he : 0 < eps) (he1 : eps < 1)
    (i j : Fin 3) : |rebuilt R eps i j - R i j| ≤ 2 * eps := by
  have h0 := Real.arccos_nonneg (R 2 2)
  have hp := Real.arccos_le_pi (R 2 2)
  by_cases a0 : arccos (R 2 2) = 0
  · rw [C19_gimbal R h eps he he1 (Or.inl a0)]; simp; linarith
  by_cases ap : arccos (R 2 2) = π
  · rw [C19_gimbal R h eps he he1 (Or.inr ap)]; simp; linarith
  have h0' : 0 < arccos (R 2 2) := lt_of_le_of_ne h0 (Ne.symm a0)
  have hp' : 0 < π - arccos (R 2 2) := by
    have := lt_of_le_of_ne hp ap; linarith
  by_cases b0 : arccos (R 2 2) < eps
  · exact C19_near_zero R h eps he1 h0' b0 i j
  by_cases bp : π - arccos (R 2 2) < eps
  · exact C19_near_pi R h eps he1 hp' bp i j
  rw [C19_safe R h eps he (not_lt.1 b0) (not_lt.1 bp)]; simp; linarith

/-- Non-trivial instance of the hypotheses of `C19_safe`: the quarter turn about y. -/
example : rebuilt (matrixY (π / 2)) defaultEpsMTE = matrixY (π / 2) := by
  have hpi := Real.pi_gt_three
  have e : (matrixY (π / 2)) 2 2 = 0 := by simp [matrixY]
  apply C19_safe _ (C14_y 0 _).1 _ (by unfold defaultEpsMTE; norm_num) <;>
    rw [e, Real.arccos_zero] <;> unfold defaultEpsMTE <;> linarith

/-! ## C20 -/

/-- Every returned angle lies in `[-π, π)`, for every 3x3 matrix. -/
theorem C20_range (R : Mat3) (eps : ℝ) (i : Fin 3) :
    -π ≤ matrixToEuler R eps i ∧ matrixToEuler R eps i < π := by
  have hpi := Real.pi_pos
  rw [matrixToEuler_eq]
  have hat := fun x y => atan2_range x y
  have hb := mteBeta_range R
  have key : -π ≤ mteStep5 R eps i ∧ mteStep5 R eps i ≤ π := by
    fin_cases i
    · simp only [mteStep5]
      dsimp
      split_ifs
      · exact ⟨(hat _ _).1.le, (hat _ _).2⟩
      · constructor <;> linarith
      · exact ⟨(hat _ _).1.le, (hat _ _).2⟩
      · have := hat (matrixTrans R 0 0 - matrixTrans R 1 1) (matrixTrans R 1 0 + matrixTrans R 0 1)
        constructor <;> linarith
    · simp only [mteStep5]
      dsimp
      constructor <;> linarith
    · simp only [mteStep5]
      dsimp
      split_ifs
      · exact ⟨(hat _ _).1.le, (hat _ _).2⟩
      · constructor <;> linarith
  exact wrapPi_range key.1 key.2

/-- the second angle is the tilt, in `[0, π)`, except that a tilt of exactly `π` is reported
as `-π`. -/
theorem C20_tilt (R : Mat3) (h : IsRotation R) (eps : ℝ) :
    (arccos (R 2 2) < π → matrixToEuler R eps 1 = arccos (R 2 2)) ∧
      (arccos (R 2 2) = π → matrixToEuler R eps 1 = -π) := by
  have hpi := Real.pi_pos
  have hn := Real.arccos_nonneg (R 2 2)
  rw [matrixToEuler_eq]
  have e : mteStep5 R eps 1 = arccos (R 2 2) := by
    rw [← (mteBeta_rotation h).1]; simp [mteStep5]
  simp only [e, wrapPi, if_neg (not_lt.2 (by linarith : -π ≤ arccos (R 2 2)))]
  constructor
  · intro h1; rw [if_neg (not_le.2 h1)]
  · intro h1; rw [if_pos h1.ge, h1]; ring

/-- The third angle is `0` whenever the rotation counts as gimbal locked. -/
theorem C20_gimbal (R : Mat3) (h : IsRotation R) (eps : ℝ)
    (hg : arccos (R 2 2) < eps ∨ π - arccos (R 2 2) < eps) : matrixToEuler R eps 2 = 0 := by
  obtain ⟨hb, -⟩ := mteBeta_rotation h
  rw [← hb] at hg
  have hr := mteBeta_range R
  have hpi := Real.pi_pos
  rw [matrixToEuler_eq]
  have : ¬ (mteSafe1 R eps ∧ mteSafe2 R eps) := by
    rintro ⟨s1, s2⟩
    unfold mteSafe1 at s1
    unfold mteSafe2 at s2
    rw [abs_of_nonneg hr.1] at s1
    rw [abs_sub_comm, abs_of_nonneg (by linarith)] at s2
    rcases hg with hg | hg <;> linarith
  have e : mteStep5 R eps 2 = 0 := by
    simp only [mteStep5]; dsimp; rw [if_neg this]
  simp only [e, wrapPi]
  have h1 : ¬ ((0 : ℝ) < -π) := by linarith
  rw [if_neg h1, if_neg (by linarith)]

/-- The step 7 adjustment never applies. -/
theorem C20_no_adjust (R : Mat3) (eps : ℝ) : ¬ mteAdjust R eps := mteAdjust_false R eps

/-! ## C21 -/

/-- a rotation is gimbal locked (to `eps`) when its tilt is within `eps` of `0` or `π`. -/
def GimbalLocked (R : Mat3) (eps : ℝ) : Prop :=
  arccos (R 2 2) < eps ∨ π - arccos (R 2 2) < eps

theorem safe_iff {R : Mat3} (h : IsRotation R) (eps : ℝ) :
    (mteSafe1 R eps ∧ mteSafe2 R eps) ↔ ¬ GimbalLocked R eps := by
  obtain ⟨hb, -⟩ := mteBeta_rotation h
  have hr := mteBeta_range R
  unfold GimbalLocked mteSafe1 mteSafe2
  rw [← hb, abs_of_nonneg hr.1, abs_sub_comm, abs_of_nonneg (by linarith), not_or, not_lt, not_lt]

/-- What the code does: it warns exactly when EVERY rotation of the batch is gimbal locked
(missing for the full property: a warning when SOME rotation is). -/
theorem C21_partial (batch : List Mat3) (h : ∀ R ∈ batch, IsRotation R) (eps : ℝ) (noWarn : Bool) :
    mteWarns batch eps noWarn = true ↔
      noWarn = false ∧ ∀ R ∈ batch, GimbalLocked R eps := by
  classical
  unfold mteWarns
  rw [Bool.and_eq_true, Bool.not_eq_true', Bool.not_eq_true', List.any_eq_false]
  refine and_congr_right fun _ => ?_
  refine forall_congr' fun R => ?_
  refine forall_congr' fun hR => ?_
  rw [decide_eq_true_iff, safe_iff (h R hR), not_not]

/-- The full property fails: the identity is gimbal locked, but there is no warning for the batch
`[I, R_y(π/2)]`. -/
theorem C21_violated :
    ∃ batch : List Mat3, (∀ R ∈ batch, IsRotation R) ∧
      (∃ R ∈ batch, GimbalLocked R defaultEpsMTE) ∧
      mteWarns batch defaultEpsMTE false = false := by
  have hpi := Real.pi_gt_three
  have hrot : ∀ R ∈ [(1 : Mat3), matrixY (π / 2)], IsRotation R := by
    intro R hR
    simp only [List.mem_cons, List.not_mem_nil, or_false] at hR
    rcases hR with rfl | rfl
    · exact ⟨by simp, by simp⟩
    · exact (C14_y 0 _).1
  refine ⟨[1, matrixY (π / 2)], hrot, ⟨1, by simp, ?_⟩, ?_⟩
  · left
    simp [defaultEpsMTE]; norm_num
  · rw [Bool.eq_false_iff]
    intro hw
    have := ((C21_partial _ hrot _ _).1 hw).2 (matrixY (π / 2)) (by simp)
    have e : (matrixY (π / 2)) 2 2 = 0 := by simp [matrixY]
    unfold GimbalLocked defaultEpsMTE at this
    rw [e, Real.arccos_zero] at this
    rcases this with h | h <;> linarith

end GConv.SO3

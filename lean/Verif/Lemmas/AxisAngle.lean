import Verif.Lemmas.SO3
import Mathlib.Analysis.SpecialFunctions.Trigonometric.Inverse

namespace GConv.SO3

open Real Spec

theorem dot3 (u : Fin 3 → ℝ) : dot u u = u 0 ^ 2 + u 1 ^ 2 + u 2 ^ 2 := by
  simp [dot, Fin.sum_univ_three]; ring

/-- unit quaternion of an axis and an angle gives the Rodrigues matrix. -/
theorem quatToMatrix_axis (u : Fin 3 → ℝ) (hu : dot u u = 1) (s : ℝ) :
    quatToMatrix ![cos s, sin s * u 0, sin s * u 1, sin s * u 2] = rodrigues u (2 * s) := by
  rw [dot3] at hu
  have h := Real.cos_sq_add_sin_sq s
  have h1 : cos (2 * s) = 2 * cos s ^ 2 - 1 := Real.cos_two_mul s
  have h2 : sin (2 * s) = 2 * sin s * cos s := Real.sin_two_mul s
  have h3 : cos s ^ 2 = 1 - sin s ^ 2 := by linarith
  ext i j
  fin_cases i <;> fin_cases j <;> simp [quatToMatrix, rodrigues, h1, h2]
  · linear_combination (2 * u 0 ^ 2 - 1) * h - sin s ^ 2 * hu
  · linear_combination (2 * u 0 * u 1) * h
  · linear_combination (2 * u 0 * u 2) * h
  · linear_combination (2 * u 0 * u 1) * h
  · linear_combination (2 * u 1 ^ 2 - 1) * h - sin s ^ 2 * hu
  · linear_combination (2 * u 1 * u 2) * h
  · linear_combination (2 * u 0 * u 2) * h
  · linear_combination (2 * u 1 * u 2) * h
  · linear_combination (2 * u 2 ^ 2 - 1) * h - sin s ^ 2 * hu

theorem rodrigues_rotation (u : Fin 3 → ℝ) (hu : dot u u = 1) (t : ℝ) :
    IsRotation (rodrigues u t) := by
  have e : t = 2 * (t / 2) := by ring
  rw [e, ← quatToMatrix_axis u hu]
  apply quatToMatrix_rotation
  rw [dot3] at hu
  unfold IsUnitQuat
  rw [dot4]
  simp
  have h := Real.cos_sq_add_sin_sq (t / 2)
  linear_combination h + sin (t / 2) ^ 2 * hu

/-- Every unit quaternion is, up to sign, `cos s + sin s u` with a unit axis, `0 ≤ s ≤ π/2`. -/
theorem unitQuat_polar (p : Quat) (hp : IsUnitQuat p) (h0 : 0 ≤ p 0) :
    ∃ (u : Fin 3 → ℝ) (s : ℝ), dot u u = 1 ∧ 0 ≤ s ∧ s ≤ π / 2 ∧
      p = ![cos s, sin s * u 0, sin s * u 1, sin s * u 2] := by
  unfold IsUnitQuat at hp
  rw [dot4] at hp
  have h1 : p 0 ≤ 1 := by nlinarith [sq_nonneg (p 1), sq_nonneg (p 2), sq_nonneg (p 3)]
  have hc : cos (arccos (p 0)) = p 0 := Real.cos_arccos (by linarith) h1
  have hs2 := Real.sin_sq_add_cos_sq (arccos (p 0))
  rw [hc] at hs2
  by_cases hs : sin (arccos (p 0)) = 0
  · refine ⟨![1, 0, 0], arccos (p 0), by simp [dot, Fin.sum_univ_three], Real.arccos_nonneg _,
      Real.arccos_le_pi_div_two.2 h0, ?_⟩
    rw [hs] at hs2
    have a1 : p 1 = 0 := by nlinarith [sq_nonneg (p 1), sq_nonneg (p 2), sq_nonneg (p 3)]
    have a2 : p 2 = 0 := by nlinarith [sq_nonneg (p 1), sq_nonneg (p 2), sq_nonneg (p 3)]
    have a3 : p 3 = 0 := by nlinarith [sq_nonneg (p 1), sq_nonneg (p 2), sq_nonneg (p 3)]
    ext i
    fin_cases i <;> simp [hc, a1, a2, a3, hs]
  · refine ⟨![p 1 / sin (arccos (p 0)), p 2 / sin (arccos (p 0)), p 3 / sin (arccos (p 0))],
      arccos (p 0), ?_, Real.arccos_nonneg _, Real.arccos_le_pi_div_two.2 h0, ?_⟩
    · rw [dot3]; simp only [Matrix.cons_val_zero, Matrix.cons_val_one, Matrix.cons_val]
      field_simp
      linarith
    · ext i
      fin_cases i <;> simp only [hc] <;> simp <;> field_simp

/-- Every rotation is a rotation by an angle in `[0, π]` about a unit axis (Euler). -/
theorem exists_axis_angle {R : Mat3} (h : IsRotation R) :
    ∃ (u : Fin 3 → ℝ) (t : ℝ), dot u u = 1 ∧ 0 ≤ t ∧ t ≤ π ∧ R = rodrigues u t := by
  obtain ⟨p, hp, rfl⟩ := exists_quat h
  rcases le_total 0 (p 0) with h0 | h0
  · obtain ⟨u, s, hu, h1, h2, e⟩ := unitQuat_polar p hp h0
    exact ⟨u, 2 * s, hu, by linarith, by linarith, by rw [← quatToMatrix_axis u hu, ← e]⟩
  · have hn : IsUnitQuat ((-1 : ℝ) • p) := by
      apply isUnitQuat_smul; unfold IsUnitQuat at hp; rw [hp]; norm_num
    obtain ⟨u, s, hu, h1, h2, e⟩ := unitQuat_polar ((-1 : ℝ) • p) hn (by simp; exact h0)
    refine ⟨u, 2 * s, hu, by linarith, by linarith, ?_⟩
    rw [← quatToMatrix_axis u hu, ← e, quat_matrix_smul]; simp

theorem rodrigues_trace (u : Fin 3 → ℝ) (hu : dot u u = 1) (t : ℝ) :
    ((rodrigues u t 0 0 + rodrigues u t 1 1 + rodrigues u t 2 2) - 1) / 2 = cos t := by
  rw [dot3] at hu
  simp [rodrigues]
  linear_combination (1 - cos t) / 2 * hu

end GConv.SO3

import Verif.Lemmas.SO3

namespace GConv.SO3

open Real Spec

theorem atan2_spec (x y s : ℝ) (hs : 0 ≤ s) (h : x * x + y * y = s * s) :
    s * cos (atan2 y x) = x ∧ s * sin (atan2 y x) = y := by
  have hn : ‖(⟨x, y⟩ : ℂ)‖ = s := by
    have h1 : ‖(⟨x, y⟩ : ℂ)‖ * ‖(⟨x, y⟩ : ℂ)‖ = s * s := by
      rw [Complex.norm_mul_self_eq_normSq, Complex.normSq_apply]; exact h
    have h2 := norm_nonneg (⟨x, y⟩ : ℂ)
    nlinarith
  constructor
  · have := Complex.norm_mul_cos_arg ⟨x, y⟩
    rwa [hn] at this
  · have := Complex.norm_mul_sin_arg ⟨x, y⟩
    rwa [hn] at this

/-- polar form: `atan2 (s·sin t) (s·cos t)` is `t` up to full turns. -/
theorem atan2_polar (t s : ℝ) (hs : 0 < s) :
    cos (atan2 (s * sin t) (s * cos t)) = cos t ∧ sin (atan2 (s * sin t) (s * cos t)) = sin t := by
  have h := atan2_spec (s * cos t) (s * sin t) s hs.le
    (by have := Real.cos_sq_add_sin_sq t; linear_combination s ^ 2 * this)
  exact ⟨mul_left_cancel₀ hs.ne' h.1, mul_left_cancel₀ hs.ne' h.2⟩

theorem atan2_range (x y : ℝ) : -π < atan2 y x ∧ atan2 y x ≤ π :=
  ⟨Complex.neg_pi_lt_arg _, Complex.arg_le_pi _⟩

theorem cos_wrapPi (x : ℝ) : cos (wrapPi x) = cos x := by
  unfold wrapPi
  simp only
  split_ifs <;> simp [Real.cos_sub_two_pi, Real.cos_add_two_pi]

theorem sin_wrapPi (x : ℝ) : sin (wrapPi x) = sin x := by
  unfold wrapPi
  simp only
  split_ifs <;> simp [Real.sin_sub_two_pi, Real.sin_add_two_pi]

theorem wrapPi_range {x : ℝ} (h1 : -π ≤ x) (h2 : x ≤ π) : -π ≤ wrapPi x ∧ wrapPi x < π := by
  unfold wrapPi
  have := Real.pi_pos
  simp only [if_neg (not_lt.2 h1)]
  split_ifs with h
  · have : x = π := le_antisymm h2 h
    subst this
    constructor <;> linarith
  · exact ⟨h1, by linarith [not_le.1 h]⟩

theorem eulerRaw_wrap (g : Euler) : eulerToMatrixRaw (fun i => wrapPi (g i)) = eulerToMatrixRaw g := by
  unfold eulerToMatrixRaw
  simp only [cos_wrapPi, sin_wrapPi]

theorem matrixTrans_entries (r : Mat3) : matrixTrans r =
    !![r 1 1, -r 1 0, r 1 2; -r 0 1, r 0 0, -r 0 2; r 2 1, -r 2 0, r 2 2] := by
  ext i j
  fin_cases i <;> fin_cases j <;>
    simp [matrixTrans, Matrix.mul_apply, Matrix.vecMul, dotProduct, Fin.sum_univ_three]

theorem mteBeta_range (r : Mat3) : 0 ≤ mteBeta r ∧ mteBeta r ≤ π :=
  ⟨Real.arccos_nonneg _, Real.arccos_le_pi _⟩

theorem mteBeta_rotation {R : Mat3} (h : IsRotation R) :
    mteBeta R = arccos (R 2 2) ∧ cos (mteBeta R) = R 2 2 ∧ -1 ≤ R 2 2 ∧ R 2 2 ≤ 1 := by
  have e := (rotEntries h).r22
  have h1 : -1 ≤ R 2 2 := by nlinarith [sq_nonneg (R 2 0), sq_nonneg (R 2 1)]
  have h2 : R 2 2 ≤ 1 := by nlinarith [sq_nonneg (R 2 0), sq_nonneg (R 2 1)]
  have hb : mteBeta R = arccos (R 2 2) := by
    unfold mteBeta
    rw [matrixTrans_entries]
    simp [clamp_of_mem h1 h2]
  exact ⟨hb, by rw [hb, Real.cos_arccos h1 h2], h1, h2⟩

theorem mteAdjust_false (r : Mat3) (eps : ℝ) : ¬ mteAdjust r eps := by
  rintro ⟨h | h, -⟩
  · have := (mteBeta_range r).1
    simp [mteStep5] at h; linarith
  · have := (mteBeta_range r).2
    simp [mteStep5] at h; linarith

theorem matrixToEuler_eq (r : Mat3) (eps : ℝ) :
    matrixToEuler r eps = fun i => wrapPi (mteStep5 r eps i) := by
  unfold matrixToEuler
  simp only [if_neg (mteAdjust_false r eps)]

theorem euler_entries {s c r00 r01 r02 r10 r11 r12 r20 r21 ca sa cg sg : ℝ} (hs : 0 < s)
    (hsc : s ^ 2 + c ^ 2 = 1)
    (k00 : r00 = r11 * c - r12 * r21) (k01 : r01 = r12 * r20 - r10 * c)
    (k10 : r10 = r21 * r02 - c * r01) (k11 : r11 = c * r00 - r20 * r02)
    (ha1 : s * ca = -r20) (ha2 : s * sa = r21) (hg1 : s * cg = r02) (hg2 : s * sg = r12) :
    ca * c * cg - sa * sg = r00 ∧ -ca * sg - cg * c * sa = r01 ∧
    cg * sa + c * ca * sg = r10 ∧ cg * ca - c * sa * sg = r11 := by
  have hne : s ^ 2 ≠ 0 := by positivity
  refine ⟨?_, ?_, ?_, ?_⟩ <;> apply mul_left_cancel₀ hne
  · have : s ^ 2 * (ca * c * cg - sa * sg) = c * (s * ca) * (s * cg) - (s * sa) * (s * sg) := by ring
    rw [this, ha1, ha2, hg1, hg2]
    linear_combination (-c) * k11 - k00 - r00 * hsc
  · have : s ^ 2 * (-ca * sg - cg * c * sa) = -(s * ca) * (s * sg) - (s * cg) * c * (s * sa) := by ring
    rw [this, ha1, ha2, hg1, hg2]
    linear_combination (-1) * k01 + c * k10 - r01 * hsc
  · have : s ^ 2 * (cg * sa + c * ca * sg) = (s * cg) * (s * sa) + c * (s * ca) * (s * sg) := by ring
    rw [this, ha1, ha2, hg1, hg2]
    linear_combination (-1) * k10 + c * k01 - r10 * hsc
  · have : s ^ 2 * (cg * ca - c * sa * sg) = (s * cg) * (s * ca) - c * (s * sa) * (s * sg) := by ring
    rw [this, ha1, ha2, hg1, hg2]
    linear_combination -k11 - c * k00 - r11 * hsc

/-- The exact Euler angles of a rotation with `sin β > 0`. -/
theorem euler_exact {R : Mat3} (h : IsRotation R) (hs : 0 < sin (mteBeta R)) :
    eulerToMatrixRaw ![atan2 (R 2 1) (-R 2 0), mteBeta R, atan2 (R 1 2) (R 0 2)] = R := by
  have E := rotEntries h
  obtain ⟨-, hc, -, -⟩ := mteBeta_rotation h
  have hsc := Real.sin_sq_add_cos_sq (mteBeta R)
  rw [hc] at hsc
  have hr := E.r22
  have hcc := E.c22
  obtain ⟨ha1, ha2⟩ := atan2_spec (-R 2 0) (R 2 1) (sin (mteBeta R)) hs.le
    (by linear_combination hr - hsc)
  obtain ⟨hg1, hg2⟩ := atan2_spec (R 0 2) (R 1 2) (sin (mteBeta R)) hs.le
    (by linear_combination hcc - hsc)
  obtain ⟨e00, e01, e10, e11⟩ := euler_entries hs hsc E.k00 E.k01 E.k10 E.k11 ha1 ha2 hg1 hg2
  ext i j
  fin_cases i <;> fin_cases j <;> simp [eulerToMatrixRaw, hc]
  · exact e00
  · linarith
  · linarith
  · exact e10
  · exact e11
  · linarith
  · linarith
  · exact ha2

end GConv.SO3

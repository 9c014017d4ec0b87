import Verif.Lemmas.SO3

/-! # Properties of SO(3): C14 - C17, C22, C27 and the SO(3) part of C04 -/

namespace GConv.SO3

open Real Spec Tensor

/-! ## C14 -/

theorem C14_x (s t : ℝ) :
    IsRotation (matrixX t) ∧ (matrixX t).mulVec ![1, 0, 0] = ![1, 0, 0] ∧
    matrixX (s + t) = matrixX s * matrixX t ∧ matrixX (-t) = matrixInverse (matrixX t) := by
  refine ⟨⟨?_, ?_⟩, ?_, ?_, ?_⟩
  · ext i j
    fin_cases i <;> fin_cases j <;> simp [matrixX, Matrix.mul_apply, Fin.sum_univ_three] <;>
      nlinarith [Real.cos_sq_add_sin_sq t]
  · simp [matrixX, Matrix.det_fin_three]; nlinarith [Real.cos_sq_add_sin_sq t]
  · ext i; fin_cases i <;> simp [matrixX, Matrix.mulVec, dotProduct, Fin.sum_univ_three]
  · ext i j
    fin_cases i <;> fin_cases j <;>
      simp [matrixX, Matrix.mul_apply, Fin.sum_univ_three, Real.cos_add, Real.sin_add] <;> ring
  · ext i j; fin_cases i <;> fin_cases j <;> simp [matrixX, matrixInverse]

theorem C14_y (s t : ℝ) :
    IsRotation (matrixY t) ∧ (matrixY t).mulVec ![0, 1, 0] = ![0, 1, 0] ∧
    matrixY (s + t) = matrixY s * matrixY t ∧ matrixY (-t) = matrixInverse (matrixY t) := by
  refine ⟨⟨?_, ?_⟩, ?_, ?_, ?_⟩
  · ext i j
    fin_cases i <;> fin_cases j <;> simp [matrixY, Matrix.mul_apply, Fin.sum_univ_three] <;>
      nlinarith [Real.cos_sq_add_sin_sq t]
  · simp [matrixY, Matrix.det_fin_three]; nlinarith [Real.cos_sq_add_sin_sq t]
  · ext i; fin_cases i <;> simp [matrixY, Matrix.mulVec, dotProduct, Fin.sum_univ_three]
  · ext i j
    fin_cases i <;> fin_cases j <;>
      simp [matrixY, Matrix.mul_apply, Fin.sum_univ_three, Real.cos_add, Real.sin_add] <;> ring
  · ext i j; fin_cases i <;> fin_cases j <;> simp [matrixY, matrixInverse]

theorem C14_z (s t : ℝ) :
    IsRotation (matrixZ t) ∧ (matrixZ t).mulVec ![0, 0, 1] = ![0, 0, 1] ∧
    matrixZ (s + t) = matrixZ s * matrixZ t ∧ matrixZ (-t) = matrixInverse (matrixZ t) := by
  refine ⟨⟨?_, ?_⟩, ?_, ?_, ?_⟩
  · ext i j
    fin_cases i <;> fin_cases j <;> simp [matrixZ, Matrix.mul_apply, Fin.sum_univ_three] <;>
      nlinarith [Real.cos_sq_add_sin_sq t]
  · simp [matrixZ, Matrix.det_fin_three]; nlinarith [Real.cos_sq_add_sin_sq t]
  · ext i; fin_cases i <;> simp [matrixZ, Matrix.mulVec, dotProduct, Fin.sum_univ_three]
  · ext i j
    fin_cases i <;> fin_cases j <;>
      simp [matrixZ, Matrix.mul_apply, Fin.sum_univ_three, Real.cos_add, Real.sin_add] <;> ring
  · ext i j; fin_cases i <;> fin_cases j <;> simp [matrixZ, matrixInverse]

/-- The sense of rotation: the three matrices are the Rodrigues rotations about the coordinate axes. -/
theorem C14_axis_angle (t : ℝ) :
    matrixX t = rodrigues ![1, 0, 0] t ∧ matrixY t = rodrigues ![0, 1, 0] t ∧
    matrixZ t = rodrigues ![0, 0, 1] t := by
  refine ⟨?_, ?_, ?_⟩ <;> ext i j <;> fin_cases i <;> fin_cases j <;>
    simp [matrixX, matrixY, matrixZ, rodrigues]

/-! ## C15 -/

theorem C15_rotation (q : Quat) (h : IsUnitQuat q) : IsRotation (quatToMatrix q) :=
  quatToMatrix_rotation q h

/-- Hamilton products (of any quaternions) go to matrix products. -/
theorem C15_product (p q : Quat) : quatToMatrix (hmul p q) = quatToMatrix p * quatToMatrix q := by
  ext i j
  fin_cases i <;> fin_cases j <;>
    simp [quatToMatrix, hmul_eq, Matrix.mul_apply, Fin.sum_univ_three] <;> ring

/-- The matrix acts on vectors by quaternion conjugation `v ↦ q v q*`. -/
theorem C15_conjugation (q : Quat) (v : Fin 3 → ℝ) :
    hmul (hmul q ![0, v 0, v 1, v 2]) ![q 0, -q 1, -q 2, -q 3] =
      ![0, (quatToMatrix q).mulVec v 0, (quatToMatrix q).mulVec v 1, (quatToMatrix q).mulVec v 2] := by
  ext i
  fin_cases i <;>
    simp [hmul_eq, quatToMatrix, Matrix.mulVec, dotProduct, Fin.sum_univ_three] <;> ring

theorem C15_inverse (q : Quat) (h : IsUnitQuat q) :
    quatToMatrix (quatInverse q) = matrixInverse (quatToMatrix q) ∧
    IsUnitQuat (quatInverse q) ∧ hmul q (quatInverse q) = ![1, 0, 0, 0] ∧
    hmul (quatInverse q) q = ![1, 0, 0, 0] := by
  have h' := h
  unfold IsUnitQuat at h'
  rw [dot4] at h'
  refine ⟨?_, ?_, ?_, ?_⟩
  · ext i j
    fin_cases i <;> fin_cases j <;> simp [quatToMatrix, quatInverse, matrixInverse] <;> ring
  · unfold IsUnitQuat; rw [dot4]; simp [quatInverse]; linarith
  · ext i; fin_cases i <;> simp [hmul_eq, quatInverse] <;> linarith
  · ext i; fin_cases i <;> simp [hmul_eq, quatInverse] <;> linarith

theorem C15_double_cover (p q : Quat) (hp : IsUnitQuat p) (hq : IsUnitQuat q) :
    quatToMatrix p = quatToMatrix q ↔ (p = q ∨ p = -q) := by
  constructor
  · exact quat_eq_or_neg hp hq
  · rintro (rfl | rfl)
    · rfl
    · have := quat_matrix_smul (-1) q
      simpa using this

example : IsUnitQuat ![1 / 2, 1 / 2, 1 / 2, 1 / 2] := by
  unfold IsUnitQuat; rw [dot4]; simp; norm_num

/-! ## C16, C17 -/

theorem C17_round_trip (q : Quat) (h : IsUnitQuat q) :
    matrixToQuat (quatToMatrix q) = q ∨ matrixToQuat (quatToMatrix q) = -q :=
  matrixToQuat_quat q h

theorem C16_unit_and_inverse (R : Mat3) (h : IsRotation R) :
    IsUnitQuat (matrixToQuat R) ∧ quatToMatrix (matrixToQuat R) = R := by
  obtain ⟨p, hp, rfl⟩ := exists_quat h
  rcases matrixToQuat_quat p hp with e | e
  · rw [e]; exact ⟨hp, rfl⟩
  · have hn : IsUnitQuat (-p) := by
      have : (-1 : ℝ) • p = -p := by simp
      rw [← this]; apply isUnitQuat_smul; unfold IsUnitQuat at hp; rw [hp]; norm_num
    rw [e]
    exact ⟨hn, (C15_double_cover _ _ hn hp).2 (Or.inr rfl)⟩

/-- every rotation arises from a unit quaternion (surjectivity). -/
theorem C16_surjective (R : Mat3) (h : IsRotation R) : ∃ q, IsUnitQuat q ∧ quatToMatrix q = R :=
  exists_quat h

example : IsRotation (matrixX π) := (C14_x 0 π).1

/-! ## C04 (SO(3) part) -/

theorem C04_so3 (draws : List Quat) (h : ∀ q ∈ draws, q ≠ 0) :
    (randomQuat draws).length = draws.length ∧ (randomMatrix draws).length = draws.length ∧
    (∀ q ∈ randomQuat draws, IsUnitQuat q) ∧ (∀ R ∈ randomMatrix draws, IsRotation R) := by
  have hq : ∀ q ∈ randomQuat draws, IsUnitQuat q := by
    intro q hq
    obtain ⟨p, hp, rfl⟩ := List.mem_map.1 hq
    exact dot_normalised (h p hp)
  refine ⟨by simp [randomQuat], by simp [randomMatrix, randomQuat], hq, ?_⟩
  intro R hR
  obtain ⟨q, hq', rfl⟩ := List.mem_map.1 hR
  exact quatToMatrix_rotation q (hq q hq')

/-! ## C22 -/

/-- What the code does: on every input (and whatever the uninitialised tensor holds) it raises
TypeError. -/
theorem C22_partial (q0 q1 q2 : Quat) : leftApplyQuat q0 q1 q2 = .error .typeError := rfl

/-- C22 is false of the code: no input makes it return the Hamilton product. -/
theorem C22_violated : ¬ ∃ q0 q1 q2, leftApplyQuat q0 q1 q2 = .ok (hmul q1 q2) := by
  rintro ⟨q0, q1, q2, h⟩
  cases h

/-! ## C27 -/

theorem C27_R3 (N X Y Z : ℕ) (R : Tensor Mat3) (grid : Tensor (Fin 3 → ℝ))
    (hR : R.shape = [N]) (hg : grid.shape = [X, Y, Z]) :
    (leftApplyToR3 R grid).shape = [N, X, Y, Z] ∧
    ∀ n x y z, (leftApplyToR3 R grid).get [n, x, y, z] = (R.get [n]).mulVec (grid.get [x, y, z]) := by
  simp [leftApplyToR3, pairwise, hR, hg]

theorem C27_isometry (R : Mat3) (h : IsRotation R) (v w : Fin 3 → ℝ) :
    dot (R.mulVec v) (R.mulVec w) = dot v w := by
  have e : ∀ a b : Fin 3 → ℝ, dot a b = a ⬝ᵥ b := fun a b => rfl
  rw [e, e, Matrix.dotProduct_mulVec, Matrix.vecMul_mulVec, h.1, Matrix.vecMul_one]

theorem C27_compatible (R1 R2 : Mat3) (v : Fin 3 → ℝ) :
    (leftApplyMatrix R1 R2).mulVec v = R1.mulVec (R2.mulVec v) := by
  simp [leftApplyMatrix, Matrix.mulVec_mulVec]

theorem C27_table (N M : ℕ) (R1 R2 : Tensor Mat3) (h1 : R1.shape = [N]) (h2 : R2.shape = [M]) :
    (leftApplyToMatrix R1 R2).shape = [N, M] ∧
    ∀ i j, (leftApplyToMatrix R1 R2).get [i, j] = leftApplyMatrix (R1.get [i]) (R2.get [j]) := by
  simp [leftApplyToMatrix, pairwise, leftApplyMatrix, h1, h2]

theorem C27_inverse (R : Mat3) (h : IsRotation R) :
    leftApplyMatrix (matrixInverse R) R = 1 ∧ leftApplyMatrix R (matrixInverse R) = 1 :=
  ⟨h.1, mul_eq_one_comm.1 h.1⟩

theorem C27_closed (R1 R2 : Mat3) (h1 : IsRotation R1) (h2 : IsRotation R2) :
    IsRotation (leftApplyMatrix R1 R2) ∧ IsRotation (matrixInverse R1) := by
  refine ⟨⟨?_, ?_⟩, ?_, ?_⟩
  · unfold leftApplyMatrix
    rw [Matrix.transpose_mul, Matrix.mul_assoc, ← Matrix.mul_assoc R1.transpose, h1.1, Matrix.one_mul,
      h2.1]
  · unfold leftApplyMatrix; rw [Matrix.det_mul, h1.2, h2.2, mul_one]
  · unfold matrixInverse; rw [Matrix.transpose_transpose]; exact mul_eq_one_comm.1 h1.1
  · unfold matrixInverse; rw [Matrix.det_transpose, h1.2]

end GConv.SO3

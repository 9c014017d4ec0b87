import Verif.Model.SO3
import Verif.Spec.SO3
import Verif.Lemmas.Scalar

namespace GConv.SO3

open Real Spec

/-! ## argmax -/

theorem argmaxAux_spec (l pre : List ℝ) (i best : ℕ) (v : ℝ) (hi : i = pre.length)
    (hb : best < pre.length) (hv : pre.getD best 0 = v) (hmax : ∀ x ∈ pre, x ≤ v) :
    argmaxAux l i best v < (pre ++ l).length ∧
    ∀ x ∈ pre ++ l, x ≤ (pre ++ l).getD (argmaxAux l i best v) 0 := by
  induction l generalizing pre i best v with
  | nil =>
    simp only [argmaxAux, List.append_nil]
    exact ⟨hb, by rw [hv]; exact hmax⟩
  | cons y l ih =>
    unfold argmaxAux
    have e : pre ++ y :: l = (pre ++ [y]) ++ l := by simp
    rw [e]
    split
    · rename_i hlt
      apply ih (pre ++ [y]) (i + 1) i y (by simp [hi]) (by simp [hi])
      · simp [hi]
      · intro x hx
        rcases List.mem_append.1 hx with h | h
        · exact (hmax x h).trans hlt.le
        · simp at h; exact h.le
    · rename_i hlt
      apply ih (pre ++ [y]) (i + 1) best v (by simp [hi]) (by simp; omega)
      · rw [← hv]; simp [List.getElem?_append_left hb]
      · intro x hx
        rcases List.mem_append.1 hx with h | h
        · exact hmax x h
        · simp at h; rw [h]; exact not_lt.1 hlt

theorem argmax_spec (l : List ℝ) (h : l ≠ []) :
    argmax l < l.length ∧ ∀ x ∈ l, x ≤ l.getD (argmax l) 0 := by
  cases l with
  | nil => exact absurd rfl h
  | cons x l =>
    have := argmaxAux_spec l [x] 1 0 x rfl (by simp) rfl (by simp)
    exact this

theorem argmax4 (a b c d : ℝ) :
    (argmax [a, b, c, d] = 0 ∧ b ≤ a ∧ c ≤ a ∧ d ≤ a) ∨
    (argmax [a, b, c, d] = 1 ∧ a ≤ b ∧ c ≤ b ∧ d ≤ b) ∨
    (argmax [a, b, c, d] = 2 ∧ a ≤ c ∧ b ≤ c ∧ d ≤ c) ∨
    (argmax [a, b, c, d] = 3 ∧ a ≤ d ∧ b ≤ d ∧ c ≤ d) := by
  obtain ⟨h1, h2⟩ := argmax_spec [a, b, c, d] (by simp)
  have ha := h2 a (by simp)
  have hb := h2 b (by simp)
  have hc := h2 c (by simp)
  have hd := h2 d (by simp)
  simp only [List.length_cons, List.length_nil] at h1
  have h4 : argmax [a, b, c, d] = 0 ∨ argmax [a, b, c, d] = 1 ∨ argmax [a, b, c, d] = 2 ∨
    argmax [a, b, c, d] = 3 := by omega
  rcases h4 with h | h | h | h <;> rw [h] at ha hb hc hd <;> simp at ha hb hc hd <;> simp [h, *]

/-! ## rotation matrices, entrywise -/

/-- The relations satisfied by the entries of a rotation matrix. -/
structure RotEntries (R : Mat3) : Prop where
  c00 : R 0 0 * R 0 0 + R 1 0 * R 1 0 + R 2 0 * R 2 0 = 1
  c11 : R 0 1 * R 0 1 + R 1 1 * R 1 1 + R 2 1 * R 2 1 = 1
  c22 : R 0 2 * R 0 2 + R 1 2 * R 1 2 + R 2 2 * R 2 2 = 1
  c01 : R 0 0 * R 0 1 + R 1 0 * R 1 1 + R 2 0 * R 2 1 = 0
  c02 : R 0 0 * R 0 2 + R 1 0 * R 1 2 + R 2 0 * R 2 2 = 0
  c12 : R 0 1 * R 0 2 + R 1 1 * R 1 2 + R 2 1 * R 2 2 = 0
  r00 : R 0 0 * R 0 0 + R 0 1 * R 0 1 + R 0 2 * R 0 2 = 1
  r11 : R 1 0 * R 1 0 + R 1 1 * R 1 1 + R 1 2 * R 1 2 = 1
  r22 : R 2 0 * R 2 0 + R 2 1 * R 2 1 + R 2 2 * R 2 2 = 1
  r01 : R 0 0 * R 1 0 + R 0 1 * R 1 1 + R 0 2 * R 1 2 = 0
  r02 : R 0 0 * R 2 0 + R 0 1 * R 2 1 + R 0 2 * R 2 2 = 0
  r12 : R 1 0 * R 2 0 + R 1 1 * R 2 1 + R 1 2 * R 2 2 = 0
  k00 : R 0 0 = R 1 1 * R 2 2 - R 1 2 * R 2 1
  k01 : R 0 1 = R 1 2 * R 2 0 - R 1 0 * R 2 2
  k02 : R 0 2 = R 1 0 * R 2 1 - R 1 1 * R 2 0
  k10 : R 1 0 = R 2 1 * R 0 2 - R 2 2 * R 0 1
  k11 : R 1 1 = R 2 2 * R 0 0 - R 2 0 * R 0 2
  k12 : R 1 2 = R 2 0 * R 0 1 - R 2 1 * R 0 0
  k20 : R 2 0 = R 0 1 * R 1 2 - R 0 2 * R 1 1
  k21 : R 2 1 = R 0 2 * R 1 0 - R 0 0 * R 1 2
  k22 : R 2 2 = R 0 0 * R 1 1 - R 0 1 * R 1 0

theorem rotEntries {R : Mat3} (h : IsRotation R) : RotEntries R := by
  obtain ⟨h1, hd⟩ := h
  have h2 : R * R.transpose = 1 := mul_eq_one_comm.1 h1
  have e := fun i j => congrFun (congrFun h1 i) j
  have f := fun i j => congrFun (congrFun h2 i) j
  simp only [Matrix.mul_apply, Matrix.transpose_apply, Fin.sum_univ_three] at e f
  rw [Matrix.det_fin_three] at hd
  have c00 := e 0 0; have c11 := e 1 1; have c22 := e 2 2
  have c01 := e 0 1; have c02 := e 0 2; have c12 := e 1 2
  have r00 := f 0 0; have r11 := f 1 1; have r22 := f 2 2
  have r01 := f 0 1; have r02 := f 0 2; have r12 := f 1 2
  simp at c00 c11 c22 c01 c02 c12 r00 r11 r22 r01 r02 r12
  refine ⟨c00, c11, c22, c01, c02, c12, r00, r11, r22, r01, r02, r12,
    ?_, ?_, ?_, ?_, ?_, ?_, ?_, ?_, ?_⟩
  · linear_combination (-(R 0 0)) * hd + (R 1 1 * R 2 2 - R 1 2 * R 2 1) * c00 + (R 1 2 * R 2 0 - R 1 0 * R 2 2) * c01 + (R 1 0 * R 2 1 - R 1 1 * R 2 0) * c02
  · linear_combination (-(R 0 1)) * hd + (R 1 1 * R 2 2 - R 1 2 * R 2 1) * c01 + (R 1 2 * R 2 0 - R 1 0 * R 2 2) * c11 + (R 1 0 * R 2 1 - R 1 1 * R 2 0) * c12
  · linear_combination (-(R 0 2)) * hd + (R 1 1 * R 2 2 - R 1 2 * R 2 1) * c02 + (R 1 2 * R 2 0 - R 1 0 * R 2 2) * c12 + (R 1 0 * R 2 1 - R 1 1 * R 2 0) * c22
  · linear_combination (-(R 1 0)) * hd + (R 2 1 * R 0 2 - R 2 2 * R 0 1) * c00 + (R 2 2 * R 0 0 - R 2 0 * R 0 2) * c01 + (R 2 0 * R 0 1 - R 2 1 * R 0 0) * c02
  · linear_combination (-(R 1 1)) * hd + (R 2 1 * R 0 2 - R 2 2 * R 0 1) * c01 + (R 2 2 * R 0 0 - R 2 0 * R 0 2) * c11 + (R 2 0 * R 0 1 - R 2 1 * R 0 0) * c12
  · linear_combination (-(R 1 2)) * hd + (R 2 1 * R 0 2 - R 2 2 * R 0 1) * c02 + (R 2 2 * R 0 0 - R 2 0 * R 0 2) * c12 + (R 2 0 * R 0 1 - R 2 1 * R 0 0) * c22
  · linear_combination (-(R 2 0)) * hd + (R 0 1 * R 1 2 - R 0 2 * R 1 1) * c00 + (R 0 2 * R 1 0 - R 0 0 * R 1 2) * c01 + (R 0 0 * R 1 1 - R 0 1 * R 1 0) * c02
  · linear_combination (-(R 2 1)) * hd + (R 0 1 * R 1 2 - R 0 2 * R 1 1) * c01 + (R 0 2 * R 1 0 - R 0 0 * R 1 2) * c11 + (R 0 0 * R 1 1 - R 0 1 * R 1 0) * c12
  · linear_combination (-(R 2 2)) * hd + (R 0 1 * R 1 2 - R 0 2 * R 1 1) * c02 + (R 0 2 * R 1 0 - R 0 0 * R 1 2) * c12 + (R 0 0 * R 1 1 - R 0 1 * R 1 0) * c22

/-! ## quaternions to matrices -/

theorem quat_matrix_smul (c : ℝ) (q : Quat) : quatToMatrix (c • q) = (c * c) • quatToMatrix q := by
  ext i j
  fin_cases i <;> fin_cases j <;> simp [quatToMatrix] <;> ring

theorem hmul_eq (p q : Quat) : hmul p q =
    ![p 0 * q 0 - p 1 * q 1 - p 2 * q 2 - p 3 * q 3,
      p 0 * q 1 + p 1 * q 0 + p 2 * q 3 - p 3 * q 2,
      p 0 * q 2 - p 1 * q 3 + p 2 * q 0 + p 3 * q 1,
      p 0 * q 3 + p 1 * q 2 - p 2 * q 1 + p 3 * q 0] := by
  have h0 : ∀ x : Quat, (toH x).re = x 0 := fun _ => rfl
  have h1 : ∀ x : Quat, (toH x).imI = x 1 := fun _ => rfl
  have h2 : ∀ x : Quat, (toH x).imJ = x 2 := fun _ => rfl
  have h3 : ∀ x : Quat, (toH x).imK = x 3 := fun _ => rfl
  unfold hmul ofH
  rw [Quaternion.re_mul, Quaternion.imI_mul, Quaternion.imJ_mul, Quaternion.imK_mul]
  simp only [h0, h1, h2, h3]

theorem dot4 (q : Quat) : dot q q = q 0 ^ 2 + q 1 ^ 2 + q 2 ^ 2 + q 3 ^ 2 := by
  simp [dot, Fin.sum_univ_four]; ring

theorem quatToMatrix_rotation (q : Quat) (h : IsUnitQuat q) : IsRotation (quatToMatrix q) := by
  unfold IsUnitQuat at h
  rw [dot4] at h
  constructor
  · ext i j
    fin_cases i <;> fin_cases j <;>
      simp [quatToMatrix, Matrix.mul_apply, Fin.sum_univ_three]
    · linear_combination (q 0 ^ 2 + q 1 ^ 2 + q 2 ^ 2 + q 3 ^ 2 + 1) * h
    · ring
    · ring
    · ring
    · linear_combination (q 0 ^ 2 + q 1 ^ 2 + q 2 ^ 2 + q 3 ^ 2 + 1) * h
    · ring
    · ring
    · ring
    · linear_combination (q 0 ^ 2 + q 1 ^ 2 + q 2 ^ 2 + q 3 ^ 2 + 1) * h
  · rw [Matrix.det_fin_three]
    simp [quatToMatrix]
    linear_combination ((q 0 ^ 2 + q 1 ^ 2 + q 2 ^ 2 + q 3 ^ 2)^2 + (q 0 ^ 2 + q 1 ^ 2 + q 2 ^ 2 + q 3 ^ 2) + 1) * h

theorem quat_products_eq {p q : Quat} (hp : IsUnitQuat p) (hq : IsUnitQuat q)
    (h : quatToMatrix p = quatToMatrix q) (i j : Fin 4) : p i * p j = q i * q j := by
  unfold IsUnitQuat at hp hq
  rw [dot4] at hp hq
  have e := fun i j => congrFun (congrFun h i) j
  have e00 := e 0 0; have e01 := e 0 1; have e02 := e 0 2
  have e10 := e 1 0; have e11 := e 1 1; have e12 := e 1 2
  have e20 := e 2 0; have e21 := e 2 1; have e22 := e 2 2
  simp [quatToMatrix] at e00 e01 e02 e10 e11 e12 e20 e21 e22
  fin_cases i <;> fin_cases j <;> simp <;> linarith

theorem quat_eq_or_neg {p q : Quat} (hp : IsUnitQuat p) (hq : IsUnitQuat q)
    (h : quatToMatrix p = quatToMatrix q) : p = q ∨ p = -q := by
  have hpr := quat_products_eq hp hq h
  have hne : ∃ i, q i ≠ 0 := by
    by_contra hcon
    push Not at hcon
    unfold IsUnitQuat at hq
    rw [dot4, hcon, hcon, hcon, hcon] at hq
    norm_num at hq
  obtain ⟨i, hi⟩ := hne
  rcases mul_self_eq_mul_self_iff.1 (hpr i i) with h1 | h1
  · left
    ext j
    have := hpr i j
    rw [h1] at this
    exact mul_left_cancel₀ hi this
  · right
    ext j
    have := hpr i j
    rw [h1] at this
    have h2 : q i * (-p j) = q i * q j := by linarith
    have := mul_left_cancel₀ hi h2
    simp; linarith

/-! ## every rotation is the matrix of a unit quaternion -/

theorem isUnitQuat_smul {c : ℝ} {q : Quat} (h : c * c * dot q q = 1) : IsUnitQuat (c • q) := by
  unfold IsUnitQuat
  rw [← h, dot4, dot4]; simp; ring

theorem exists_quat_of_scaled {R : Mat3} {q : Quat} {N : ℝ} (hN : 0 < N)
    (hn : dot q q = 4 * N) (hm : quatToMatrix q = (4 * N) • R) :
    ∃ p, IsUnitQuat p ∧ quatToMatrix p = R := by
  have h4 : (0 : ℝ) < 4 * N := by positivity
  have hs : (√(4 * N))⁻¹ * (√(4 * N))⁻¹ = (4 * N)⁻¹ := by
    rw [← mul_inv, Real.mul_self_sqrt h4.le]
  refine ⟨(√(4 * N))⁻¹ • q, isUnitQuat_smul ?_, ?_⟩
  · rw [hs, hn, inv_mul_cancel₀ h4.ne']
  · rw [quat_matrix_smul, hs, hm, smul_smul, inv_mul_cancel₀ h4.ne', one_smul]

theorem exists_quat {R : Mat3} (h : IsRotation R) : ∃ p, IsUnitQuat p ∧ quatToMatrix p = R := by
  obtain ⟨c00, c11, c22, c01, c02, c12, r00, r11, r22, r01, r02, r12, k00, k01, k02, k10, k11, k12,
    k20, k21, k22⟩ := rotEntries h
  have hsum : (1 + (R 0 0 + R 1 1 + R 2 2)) + (1 + R 0 0 - R 1 1 - R 2 2)
      + (1 - R 0 0 + R 1 1 - R 2 2) + (1 - R 0 0 - R 1 1 + R 2 2) = 4 := by ring
  have hpos : 0 < 1 + (R 0 0 + R 1 1 + R 2 2) ∨ 0 < 1 + R 0 0 - R 1 1 - R 2 2 ∨
      0 < 1 - R 0 0 + R 1 1 - R 2 2 ∨ 0 < 1 - R 0 0 - R 1 1 + R 2 2 := by
    by_contra hcon
    push Not at hcon
    obtain ⟨a, b, c, d⟩ := hcon
    linarith
  rcases hpos with hN | hN | hN | hN
  · refine exists_quat_of_scaled (q := ![1 + (R 0 0 + R 1 1 + R 2 2), R 2 1 - R 1 2, R 0 2 - R 2 0,
      R 1 0 - R 0 1]) hN ?_ ?_
    · rw [dot4]; simp; linarith
    · ext i j
      fin_cases i <;> fin_cases j <;> simp [quatToMatrix] <;> linarith
  · refine exists_quat_of_scaled (q := ![R 2 1 - R 1 2, 1 + R 0 0 - R 1 1 - R 2 2, R 1 0 + R 0 1,
      R 2 0 + R 0 2]) hN ?_ ?_
    · rw [dot4]; simp; linarith
    · ext i j
      fin_cases i <;> fin_cases j <;> simp [quatToMatrix] <;> linarith
  · refine exists_quat_of_scaled (q := ![R 0 2 - R 2 0, R 1 0 + R 0 1, 1 - R 0 0 + R 1 1 - R 2 2,
      R 2 1 + R 1 2]) hN ?_ ?_
    · rw [dot4]; simp; linarith
    · ext i j
      fin_cases i <;> fin_cases j <;> simp [quatToMatrix] <;> linarith
  · refine exists_quat_of_scaled (q := ![R 1 0 - R 0 1, R 2 0 + R 0 2, R 2 1 + R 1 2,
      1 - R 0 0 - R 1 1 + R 2 2]) hN ?_ ?_
    · rw [dot4]; simp; linarith
    · ext i j
      fin_cases i <;> fin_cases j <;> simp [quatToMatrix] <;> linarith

/-! ## matrix_to_quat on the matrix of a unit quaternion -/

theorem vnorm_smul {n : ℕ} (c : ℝ) (q : Fin n → ℝ) : vnorm (c • q) = |c| * vnorm q := by
  unfold vnorm
  have : ∑ i, (c • q) i ^ 2 = c ^ 2 * ∑ i, q i ^ 2 := by
    rw [Finset.mul_sum]; apply Finset.sum_congr rfl; intro i _; simp; ring
  rw [this, Real.sqrt_mul (sq_nonneg c), Real.sqrt_sq_eq_abs]

theorem vnorm_sq {n : ℕ} (q : Fin n → ℝ) : vnorm q * vnorm q = dot q q := by
  unfold vnorm
  rw [Real.mul_self_sqrt (Finset.sum_nonneg fun i _ => sq_nonneg _)]
  unfold dot; apply Finset.sum_congr rfl; intro i _; ring

theorem vnorm_nonneg {n : ℕ} (q : Fin n → ℝ) : 0 ≤ vnorm q := Real.sqrt_nonneg _

theorem vnorm_unit {n : ℕ} {q : Fin n → ℝ} (h : dot q q = 1) : vnorm q = 1 := by
  have h1 := vnorm_sq q
  rw [h] at h1
  nlinarith [vnorm_nonneg q]

theorem dot_normalised {n : ℕ} {q : Fin n → ℝ} (h : q ≠ 0) :
    dot (fun i => q i / vnorm q) (fun i => q i / vnorm q) = 1 := by
  have hpos : 0 < dot q q := by
    unfold dot
    obtain ⟨i, hi⟩ := Function.ne_iff.1 h
    exact Finset.sum_pos' (fun i _ => mul_self_nonneg _) ⟨i, Finset.mem_univ _, mul_self_pos.2 hi⟩
  have h1 := vnorm_sq q
  have hv : vnorm q ≠ 0 := by
    intro h0; rw [h0] at h1; linarith
  have : dot (fun i => q i / vnorm q) (fun i => q i / vnorm q) = dot q q / (vnorm q * vnorm q) := by
    unfold dot; rw [div_eq_mul_inv, Finset.sum_mul]; apply Finset.sum_congr rfl; intro i _; field_simp
  rw [this, h1, div_self hpos.ne']

theorem raw0 (r : Mat3) (h : argmax [r 0 0, r 1 1, r 2 2, r 0 0 + r 1 1 + r 2 2] = 0) :
    matrixToQuatRaw r = ![r 2 1 - r 1 2, 1 - (r 0 0 + r 1 1 + r 2 2) + 2 * r 0 0,
      r 1 0 + r 0 1, r 2 0 + r 0 2] := by
  unfold matrixToQuatRaw
  simp only [h]
  ext j; fin_cases j <;> rfl

theorem raw1 (r : Mat3) (h : argmax [r 0 0, r 1 1, r 2 2, r 0 0 + r 1 1 + r 2 2] = 1) :
    matrixToQuatRaw r = ![r 0 2 - r 2 0, r 0 1 + r 1 0,
      1 - (r 0 0 + r 1 1 + r 2 2) + 2 * r 1 1, r 2 1 + r 1 2] := by
  unfold matrixToQuatRaw
  simp only [h]
  ext j; fin_cases j <;> rfl

theorem raw2 (r : Mat3) (h : argmax [r 0 0, r 1 1, r 2 2, r 0 0 + r 1 1 + r 2 2] = 2) :
    matrixToQuatRaw r = ![r 1 0 - r 0 1, r 0 2 + r 2 0, r 1 2 + r 2 1,
      1 - (r 0 0 + r 1 1 + r 2 2) + 2 * r 2 2] := by
  unfold matrixToQuatRaw
  simp only [h]
  ext j; fin_cases j <;> rfl

theorem raw3 (r : Mat3) (h : argmax [r 0 0, r 1 1, r 2 2, r 0 0 + r 1 1 + r 2 2] = 3) :
    matrixToQuatRaw r = ![1 + (r 0 0 + r 1 1 + r 2 2), r 2 1 - r 1 2, r 0 2 - r 2 0,
      r 1 0 - r 0 1] := by
  unfold matrixToQuatRaw
  simp only [h]
  ext j; fin_cases j <;> rfl

theorem matrixToQuatRaw_quat (p : Quat) (hp : IsUnitQuat p) :
    ∃ c : ℝ, c ≠ 0 ∧ matrixToQuatRaw (quatToMatrix p) = c • p := by
  unfold IsUnitQuat at hp
  rw [dot4] at hp
  have h4 := argmax4 (quatToMatrix p 0 0) (quatToMatrix p 1 1) (quatToMatrix p 2 2)
    (quatToMatrix p 0 0 + quatToMatrix p 1 1 + quatToMatrix p 2 2)
  rcases h4 with ⟨hi, h1, h2, h3⟩ | ⟨hi, h1, h2, h3⟩ | ⟨hi, h1, h2, h3⟩ | ⟨hi, h1, h2, h3⟩
  · refine ⟨4 * p 1, ?_, ?_⟩
    · intro h0
      have h0 : p 1 = 0 := by linarith
      simp [quatToMatrix, h0] at h1 h2 h3
      rw [h0] at hp
      nlinarith
    · rw [raw0 _ hi]
      ext j
      fin_cases j <;> simp [quatToMatrix] <;> linarith
  · refine ⟨4 * p 2, ?_, ?_⟩
    · intro h0
      have h0 : p 2 = 0 := by linarith
      simp [quatToMatrix, h0] at h1 h2 h3
      rw [h0] at hp
      nlinarith
    · rw [raw1 _ hi]
      ext j
      fin_cases j <;> simp [quatToMatrix] <;> linarith
  · refine ⟨4 * p 3, ?_, ?_⟩
    · intro h0
      have h0 : p 3 = 0 := by linarith
      simp [quatToMatrix, h0] at h1 h2 h3
      rw [h0] at hp
      nlinarith
    · rw [raw2 _ hi]
      ext j
      fin_cases j <;> simp [quatToMatrix] <;> linarith
  · refine ⟨4 * p 0, ?_, ?_⟩
    · intro h0
      have h0 : p 0 = 0 := by linarith
      simp [quatToMatrix, h0] at h1 h2 h3
      rw [h0] at hp
      nlinarith
    · rw [raw3 _ hi]
      ext j
      fin_cases j <;> simp [quatToMatrix] <;> linarith

theorem matrixToQuat_quat (p : Quat) (hp : IsUnitQuat p) :
    matrixToQuat (quatToMatrix p) = p ∨ matrixToQuat (quatToMatrix p) = -p := by
  obtain ⟨c, hc, hr⟩ := matrixToQuatRaw_quat p hp
  unfold matrixToQuat
  simp only [hr]
  rw [vnorm_smul, vnorm_unit hp, mul_one]
  rcases lt_or_gt_of_ne hc with h | h
  · right; ext i; simp [abs_of_neg h]; field_simp
  · left; ext i; simp [abs_of_pos h]; field_simp

end GConv.SO3

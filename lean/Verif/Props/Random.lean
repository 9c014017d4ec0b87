import Verif.Lemmas.Random
import Verif.Props.O2
import Verif.Props.O3
import Verif.Props.S2
import Verif.Model.Modules

/-! # C78: random grids are uniformly distributed -/

namespace GConv

open MeasureTheory ProbabilityTheory GConv.Spec GConv.Random Real

/-! ## SO(2) -/
namespace SO2

theorem leftApplyAngle_fract (g u : ℝ) :
    leftApplyAngle g (2 * π * u) = 2 * π * Int.fract (u + g / (2 * π)) := by
  have hp : (2 * π) ≠ 0 := two_pi_pos'.ne'
  unfold leftApplyAngle pyMod
  have : (g + 2 * π * u) / (2 * π) = u + g / (2 * π) := by field_simp; ring
  rw [this, Int.fract]
  field_simp
  ring

theorem randomGrid_row {n : ℕ} (u : Fin n → ℝ) (i : Fin n) :
    (randomGrid (List.ofFn u)).getD i 0 = 2 * π * u i := by
  simp [randomGrid, List.getD_eq_getElem?_getD]

/-- `so2.random_grid(n)`: independent rows, uniform on the circle group. -/
theorem C78_so2 (n : ℕ) :
    UniformRows (n := n) (Measure.pi fun _ : Fin n => uniform01) (fun u i => (randomGrid (List.ofFn u)).getD i 0)
      (fun _ => True) leftApplyAngle := by
  refine uniformRows_of uniform01 (fun u => 2 * π * u) (by fun_prop) _ _ ?_ _ ?_
  · intro g _
    exact ⟨_, uniform_shift (g / (2 * π)), Filter.Eventually.of_forall fun u => leftApplyAngle_fract g u⟩
  · intro i
    refine Filter.Eventually.of_forall ?_
    rintro d ω rfl
    exact randomGrid_row ω i

/-- every arc is hit with probability proportional to its length. -/
theorem C78_so2_arc (a b : ℝ) (ha : 0 ≤ a) (hb : b ≤ 2 * π) :
    uniform01 {u | a ≤ (randomGrid [u]).headD 0 ∧ (randomGrid [u]).headD 0 < b} = ENNReal.ofReal ((b - a) / (2 * π)) := by
  have hp := two_pi_pos'
  have e : {u | a ≤ (randomGrid [u]).headD 0 ∧ (randomGrid [u]).headD 0 < b} = Set.Ico (a / (2 * π)) (b / (2 * π)) := by
    ext u
    show (a ≤ 2 * π * u ∧ 2 * π * u < b) ↔ _
    rw [Set.mem_Ico, div_le_iff₀ hp, lt_div_iff₀ hp, mul_comm u]
  have hsub : Set.Ico (a / (2 * π)) (b / (2 * π)) ∩ Set.Ico 0 1 = Set.Ico (a / (2 * π)) (b / (2 * π)) := by
    apply Set.inter_eq_left.2
    rintro u ⟨h1, h2⟩
    exact ⟨le_trans (by positivity) h1, lt_of_lt_of_le h2 (by rw [div_le_one hp]; exact hb)⟩
  rw [e, uniform01, Measure.restrict_apply measurableSet_Ico, hsub, Real.volume_Ico, sub_div]

end SO2

/-! ## O(2) -/
namespace O2

/-- the coefficient of one row. -/
noncomputable def sign (v : ℝ) : ℝ := 2 * (if v > 0.5 then (1 : ℝ) else 0) - 1

theorem sign_measurable : Measurable sign := by
  unfold sign
  refine Measurable.sub_const (Measurable.const_mul (Measurable.ite ?_ measurable_const measurable_const) _) _
  exact measurableSet_Ioi

/-- `v ↦ 1 - v` flips the sign, except at one half. -/
theorem sign_reflect : ∀ᵐ v ∂uniform01, sign (1 - v) = -sign v := by
  have h : ∀ᵐ v ∂uniform01, v ≠ 0.5 := by
    unfold uniform01
    refine ae_restrict_of_ae ?_
    simp [ae_iff]
  filter_upwards [h] with v hv
  unfold sign
  rcases lt_or_gt_of_ne hv with h1 | h1
  · rw [if_pos (show (1 : ℝ) - v > 0.5 by norm_num at h1 ⊢; linarith),
      if_neg (show ¬ v > 0.5 by exact not_lt.2 h1.le)]
    norm_num
  · rw [if_neg (show ¬ (1 : ℝ) - v > 0.5 by norm_num at h1 ⊢; linarith), if_pos h1]
    norm_num

/-- multiplication by `±1` is a measure preserving map of the draw. -/
theorem exists_flip (c : ℝ) (hc : c = 1 ∨ c = -1) :
    ∃ T : ℝ → ℝ, MeasurePreserving T uniform01 uniform01 ∧ ∀ᵐ v ∂uniform01, c * sign v = sign (T v) := by
  rcases hc with rfl | rfl
  · exact ⟨id, MeasurePreserving.id _, Filter.Eventually.of_forall fun v => by simp⟩
  · refine ⟨_, uniform_reflect, ?_⟩
    filter_upwards [sign_reflect] with v hv
    rw [hv]; ring

theorem randomGrid_row {n : ℕ} (u v : Fin n → ℝ) (i : Fin n) :
    (randomGrid (List.ofFn u) (List.ofFn v)).getD i (0, 0) = (sign (v i), 2 * π * u i) := by
  simp [randomGrid, SO2.randomGrid, List.getD_eq_getElem?_getD, sign]

/-- `o2.random_grid(n)`: independent rows, uniform on the group (each coset with probability one half). -/
theorem C78_o2 (n : ℕ) :
    UniformRows (n := n) (Measure.pi fun _ : Fin n => uniform01.prod uniform01)
      (fun w i => (randomGrid (List.ofFn fun k => (w k).1) (List.ofFn fun k => (w k).2)).getD i (0, 0))
      Valid leftApplyAngle := by
  refine uniformRows_of (uniform01.prod uniform01) (fun w => (sign w.2, 2 * π * w.1)) ?_ _ _ ?_ _ ?_
  · exact (sign_measurable.comp measurable_snd).prodMk (by fun_prop)
  · intro g hg
    obtain ⟨T, hT, hTa⟩ := exists_flip g.1 hg
    refine ⟨_, (uniform_shift (g.2 / (2 * π))).prod hT, ?_⟩
    have h2 : ∀ᵐ w ∂(uniform01.prod uniform01), g.1 * sign w.2 = sign (T w.2) :=
      Measure.quasiMeasurePreserving_snd.ae hTa
    filter_upwards [h2] with w hw
    refine Prod.ext ?_ ?_
    · exact hw
    · exact SO2.leftApplyAngle_fract g.2 w.1
  · intro i
    refine Filter.Eventually.of_forall ?_
    rintro d ω rfl
    exact randomGrid_row _ _ i

end O2

/-! ## SO(3) -/
namespace SO3

/-- the matrix of left multiplication by a quaternion. -/
def leftMatrix (p : Quat) : Matrix (Fin 4) (Fin 4) ℝ :=
  !![p 0, -p 1, -p 2, -p 3; p 1, p 0, -p 3, p 2; p 2, p 3, p 0, -p 1; p 3, -p 2, p 1, p 0]

theorem leftMatrix_mulVec (p q : Quat) : (leftMatrix p).mulVec q = hmul p q := by
  rw [hmul_eq]
  ext i
  fin_cases i <;> simp [leftMatrix, Matrix.mulVec, dotProduct, Fin.sum_univ_four] <;> ring

theorem leftMatrix_orthogonal (p : Quat) (h : IsUnitQuat p) : (leftMatrix p).transpose * leftMatrix p = 1 := by
  unfold IsUnitQuat at h
  rw [dot4] at h
  ext i j
  fin_cases i <;> fin_cases j <;> simp [leftMatrix, Matrix.mul_apply, Fin.sum_univ_four] <;> linarith

theorem normal_hmul (p : Quat) (h : IsUnitQuat p) :
    MeasurePreserving (fun q => hmul p q) (normal 4) (normal 4) := by
  have := normal_orthogonal (leftMatrix p) (leftMatrix_orthogonal p h)
  simpa only [leftMatrix_mulVec] using this

/-- one normalised row. -/
noncomputable def unit {k : ℕ} (q : Fin k → ℝ) : Fin k → ℝ := fun i => q i / vnorm q

theorem unit_measurable (k : ℕ) : Measurable (unit (k := k)) := by
  refine measurable_pi_iff.2 fun i => ?_
  unfold unit vnorm
  fun_prop

theorem vnorm_hmul (p q : Quat) (h : IsUnitQuat p) : vnorm (hmul p q) = vnorm q := by
  unfold vnorm
  congr 1
  unfold IsUnitQuat at h
  rw [dot4] at h
  rw [hmul_eq]
  simp only [Fin.sum_univ_four, Matrix.cons_val_zero, Matrix.cons_val_one, Matrix.cons_val]
  linear_combination (q 0 ^ 2 + q 1 ^ 2 + q 2 ^ 2 + q 3 ^ 2) * h

theorem hmul_unit (p q : Quat) (h : IsUnitQuat p) : hmul p (unit q) = unit (hmul p q) := by
  have e : unit q = (vnorm q)⁻¹ • q := by ext i; simp [unit, div_eq_inv_mul]
  have e' : unit (hmul p q) = (vnorm q)⁻¹ • hmul p q := by
    ext i; simp [unit, div_eq_inv_mul, vnorm_hmul p q h]
  rw [e, e', hmul_eq, hmul_eq]
  ext i
  fin_cases i <;> simp <;> ring

theorem randomQuat_row {n : ℕ} (w : Fin n → Quat) (i : Fin n) :
    (randomQuat (List.ofFn w)).getD i 0 = unit (w i) := by
  simp [randomQuat, List.getD_eq_getElem?_getD]
  rfl

theorem randomMatrix_row {n : ℕ} (w : Fin n → Quat) (i : Fin n) :
    (randomMatrix (List.ofFn w)).getD i 0 = quatToMatrix (unit (w i)) := by
  simp [randomMatrix, randomQuat, List.getD_eq_getElem?_getD]
  rfl

/-- `so3.random_quat(n)`: independent rows, uniform on the group of unit quaternions. -/
theorem C78_quat (n : ℕ) :
    UniformRows (n := n) (Measure.pi fun _ : Fin n => normal 4) (fun w i => (randomQuat (List.ofFn w)).getD i 0)
      IsUnitQuat hmul := by
  refine uniformRows_of (normal 4) unit (unit_measurable 4) _ _ ?_ _ ?_
  · intro p hp
    exact ⟨_, normal_hmul p hp, Filter.Eventually.of_forall fun q => hmul_unit p q hp⟩
  · intro i
    refine Filter.Eventually.of_forall ?_
    rintro d ω rfl
    exact randomQuat_row ω i

theorem quatToMatrix_measurable : Measurable fun q : Quat => quatToMatrix q := by
  refine measurable_pi_iff.2 fun i => measurable_pi_iff.2 fun j => ?_
  fin_cases i <;> fin_cases j <;> simp [quatToMatrix] <;> fun_prop

/-- every rotation acts on the matrix of a row like a measure preserving map of the draw. -/
theorem exists_move (g : Mat3) (hg : IsRotation g) :
    ∃ T : Quat → Quat, MeasurePreserving T (normal 4) (normal 4) ∧
      ∀ q, leftApplyMatrix g (quatToMatrix (unit q)) = quatToMatrix (unit (T q)) := by
  obtain ⟨p, hp, rfl⟩ := C16_surjective g hg
  refine ⟨_, normal_hmul p hp, fun q => ?_⟩
  rw [← hmul_unit p q hp, C15_product]
  rfl

/-- `so3.random_matrix(n)`: independent rows, uniform on the rotation group. -/
theorem C78_matrix (n : ℕ) :
    UniformRows (n := n) (Measure.pi fun _ : Fin n => normal 4)
      (fun w i => (randomMatrix (List.ofFn w)).getD i 0) IsRotation leftApplyMatrix := by
  refine uniformRows_of (normal 4) (fun q => quatToMatrix (unit q))
    (quatToMatrix_measurable.comp (unit_measurable 4)) _ _ ?_ _ ?_
  · intro g hg
    obtain ⟨T, hT, h⟩ := exists_move g hg
    exact ⟨T, hT, Filter.Eventually.of_forall h⟩
  · intro i
    refine Filter.Eventually.of_forall ?_
    rintro d ω rfl
    exact randomMatrix_row ω i

/-- a draw is zero with probability zero, so that the rows are unit quaternions and rotations almost surely. -/
theorem C78_nonzero (k : ℕ) : normal (k + 1) {q | q = 0} = 0 := by
  have h : {q : Fin (k + 1) → ℝ | q = 0} ⊆ (fun q => q 0) ⁻¹' {(0 : ℝ)} := by
    rintro q rfl; simp
  refine measure_mono_null h ?_
  have : MeasurePreserving (fun q : Fin (k + 1) → ℝ => q 0) (normal (k + 1)) (gaussianReal 0 1) :=
    measurePreserving_eval (fun _ : Fin (k + 1) => gaussianReal 0 1) 0
  rw [this.measure_preimage (measurableSet_singleton _).nullMeasurableSet]
  have := noAtoms_gaussianReal (μ := 0) (v := 1) one_ne_zero
  simp

end SO3

/-! ## O(3) -/
namespace O3

open SO3

theorem randomGrid_row {n : ℕ} (w : Fin n → Quat) (v : Fin n → ℝ) (i : Fin n) :
    (randomGrid (List.ofFn w) (List.ofFn v)).getD i 0 = mk (O2.sign (v i)) (quatToMatrix (unit (w i))) := by
  simp [randomGrid, randomMatrix, randomQuat, List.getD_eq_getElem?_getD, O2.sign, mul_comm]
  rfl

/-- `o3.random_grid(n)`: independent rows, uniform on the group (each coset with probability one half). -/
theorem C78_o3 (n : ℕ) :
    UniformRows (n := n) (Measure.pi fun _ : Fin n => (normal 4).prod uniform01)
      (fun w i => (randomGrid (List.ofFn fun k => (w k).1) (List.ofFn fun k => (w k).2)).getD i 0)
      Valid leftApplyO3 := by
  refine uniformRows_of ((normal 4).prod uniform01) (fun w => mk (O2.sign w.2) (quatToMatrix (unit w.1))) ?_ _ _ ?_ _ ?_
  · refine measurable_pi_iff.2 fun k => ?_
    have h1 : Measurable fun w : Quat × ℝ => quatToMatrix (unit w.1) :=
      quatToMatrix_measurable.comp ((unit_measurable 4).comp measurable_fst)
    have h2 : Measurable fun w : Quat × ℝ => O2.sign w.2 := O2.sign_measurable.comp measurable_snd
    unfold mk
    by_cases hk : k.val = 0
    · simp only [hk, if_true]; exact h2
    · simp only [hk, if_false]
      exact measurable_pi_iff.1 (measurable_pi_iff.1 h1 _) _
  · intro g hg
    obtain ⟨T, hT, hTa⟩ := exists_move (rot g) hg.2
    obtain ⟨T', hT', hTa'⟩ := O2.exists_flip (coef g) hg.1
    refine ⟨_, hT.prod hT', ?_⟩
    have h2 : ∀ᵐ w ∂((normal 4).prod uniform01), coef g * O2.sign w.2 = O2.sign (T' w.2) :=
      Measure.quasiMeasurePreserving_snd.ae hTa'
    filter_upwards [h2] with w hw
    apply elt_ext
    · rw [(C33_product _ _).1, coef_mk]; exact hw
    · rw [(C33_product _ _).2, rot_mk]; exact (hTa w.1).trans (rot_mk _ _).symm
  · intro i
    refine Filter.Eventually.of_forall ?_
    rintro d ω rfl
    exact randomGrid_row _ _ i

end O3

/-! ## S2 -/
namespace S2

open SO3

/-- `s2.random_s2(n)`: independent points, uniform on the sphere. -/
theorem C78_s2 (n : ℕ) :
    UniformRows (n := n) (Measure.pi fun _ : Fin n => normal 3)
      (fun w i => sphericalToEuclid ((randomS2 (List.ofFn w)).getD i 0))
      (IsRotation (n := 3)) (fun R x => R.mulVec x) := by
  refine uniformRows_of (normal 3) unit (unit_measurable 3) _ _ ?_ _ ?_
  · intro R hR
    refine ⟨_, normal_orthogonal R hR.1, Filter.Eventually.of_forall fun x => ?_⟩
    have hn : vnorm (R.mulVec x) = vnorm x := by
      unfold vnorm
      congr 1
      have : dotProduct (R.mulVec x) (R.mulVec x) = dotProduct x x := by
        rw [Matrix.dotProduct_mulVec, Matrix.vecMul_mulVec, hR.1]; simp
      simpa [dotProduct, sq] using this
    have e : unit x = (vnorm x)⁻¹ • x := by ext i; simp [unit, div_eq_inv_mul]
    have e' : unit (R.mulVec x) = (vnorm x)⁻¹ • R.mulVec x := by ext i; simp [unit, div_eq_inv_mul, hn]
    show R.mulVec (unit x) = unit (R.mulVec x)
    rw [e, e', Matrix.mulVec_smul]
  · intro i
    have h0 : ∀ᵐ x ∂(normal 3), x ≠ 0 := by
      rw [ae_iff]
      simpa using SO3.C78_nonzero 2
    filter_upwards [h0] with x hx ω hω
    have : (randomS2 (List.ofFn ω)).getD i 0 = euclidToSpherical (unit (ω i)) := by
      simp [randomS2, List.getD_eq_getElem?_getD]
      rfl
    rw [this, hω]
    exact C36_euclid_round_trip _ (dot_normalised hx)

end S2

/-! ## Permuted output grids -/
namespace Conv

open SO3

theorem moveSE2_eq (u h : ℝ) : moveSE2 u h = SO2.leftApplyAngle (2 * π * u) h := rfl

/-- the output grid of SE(2) modules with `permute_output_grid=True`. -/
theorem C78_permute_SE2 : UniformMove uniform01 moveSE2 (fun _ => True) SO2.leftApplyAngle := by
  refine uniformMove_of _ _ _ _ ?_ ?_ ?_
  · intro h _
    have : (fun u => moveSE2 u h) = fun u => 2 * π * Int.fract (u + h / (2 * π)) := by
      funext u
      rw [moveSE2_eq, SO2.leftApplyAngle, add_comm]
      exact SO2.leftApplyAngle_fract h u
    rw [this]
    exact ((uniform_shift (h / (2 * π))).measurable).const_mul _
  · intro g _
    refine ⟨_, uniform_shift (g / (2 * π)), Filter.Eventually.of_forall fun u h _ => ?_⟩
    rw [moveSE2_eq, moveSE2_eq, ← SO2.leftApplyAngle_fract, SO2.C02_assoc]
  · intro g _
    refine ⟨_, uniform_shift (g / (2 * π)), Filter.Eventually.of_forall fun u h _ => ?_⟩
    rw [moveSE2_eq, moveSE2_eq, ← SO2.leftApplyAngle_fract, ← SO2.C02_assoc]
    congr 1
    unfold SO2.leftApplyAngle
    rw [add_comm]

/-- right multiplication by a quaternion. -/
def rightMatrix (p : Quat) : Matrix (Fin 4) (Fin 4) ℝ :=
  !![p 0, -p 1, -p 2, -p 3; p 1, p 0, p 3, -p 2; p 2, -p 3, p 0, p 1; p 3, p 2, -p 1, p 0]

theorem rightMatrix_mulVec (p q : Quat) : (rightMatrix p).mulVec q = hmul q p := by
  rw [hmul_eq]
  ext i
  fin_cases i <;> simp [rightMatrix, Matrix.mulVec, dotProduct, Fin.sum_univ_four] <;> ring

theorem rightMatrix_orthogonal (p : Quat) (h : IsUnitQuat p) : (rightMatrix p).transpose * rightMatrix p = 1 := by
  unfold IsUnitQuat at h
  rw [dot4] at h
  ext i j
  fin_cases i <;> fin_cases j <;> simp [rightMatrix, Matrix.mul_apply, Fin.sum_univ_four] <;> linarith

theorem unit_hmul (p q : Quat) (h : IsUnitQuat p) : hmul (unit q) p = unit (hmul q p) := by
  have hn : vnorm (hmul q p) = vnorm q := by
    unfold vnorm
    congr 1
    unfold IsUnitQuat at h
    rw [dot4] at h
    rw [hmul_eq]
    simp only [Fin.sum_univ_four, Matrix.cons_val_zero, Matrix.cons_val_one, Matrix.cons_val]
    linear_combination (q 0 ^ 2 + q 1 ^ 2 + q 2 ^ 2 + q 3 ^ 2) * h
  have e : unit q = (vnorm q)⁻¹ • q := by ext i; simp [unit, div_eq_inv_mul]
  have e' : unit (hmul q p) = (vnorm q)⁻¹ • hmul q p := by
    ext i; simp [unit, div_eq_inv_mul, hn]
  rw [e, e', hmul_eq, hmul_eq]
  ext i
  fin_cases i <;> simp <;> ring

theorem exists_move_right (g : Mat3) (hg : IsRotation g) :
    ∃ T : Quat → Quat, MeasurePreserving T (normal 4) (normal 4) ∧
      ∀ q, quatToMatrix (unit q) * g = quatToMatrix (unit (T q)) := by
  obtain ⟨p, hp, rfl⟩ := C16_surjective g hg
  have := normal_orthogonal (rightMatrix p) (rightMatrix_orthogonal p hp)
  simp only [rightMatrix_mulVec] at this
  refine ⟨_, this, fun q => ?_⟩
  rw [← unit_hmul p q hp, C15_product]

theorem moveSE3_eq (q : Quat) (h : Mat3) : moveSE3 q h = quatToMatrix (unit q) * h := rfl

/-- entries of products of a random and a fixed matrix are measurable. -/
theorem mul_measurable {Ω : Type} [MeasurableSpace Ω] {f : Ω → Mat3} (hf : Measurable f) (h : Mat3) :
    Measurable fun ω => f ω * h := by
  refine measurable_pi_iff.2 fun i => measurable_pi_iff.2 fun j => ?_
  have e : ∀ i k, Measurable fun ω => f ω i k := fun i k => measurable_pi_iff.1 (measurable_pi_iff.1 hf i) k
  simp only [Matrix.mul_apply, Fin.sum_univ_three]
  exact (((e i 0).mul_const _).add ((e i 1).mul_const _)).add ((e i 2).mul_const _)

/-- the output grid of SE(3) modules with `permute_output_grid=True`. -/
theorem C78_permute_SE3 : UniformMove (normal 4) moveSE3 IsRotation leftApplyMatrix := by
  refine uniformMove_of _ _ _ _ ?_ ?_ ?_
  · intro h _
    exact mul_measurable (quatToMatrix_measurable.comp (unit_measurable 4)) h
  · intro g hg
    obtain ⟨T, hT, e⟩ := exists_move g hg
    refine ⟨T, hT, Filter.Eventually.of_forall fun q h _ => ?_⟩
    rw [moveSE3_eq, moveSE3_eq, ← e]
    exact (Matrix.mul_assoc _ _ _).symm
  · intro g hg
    obtain ⟨T, hT, e⟩ := exists_move_right g hg
    refine ⟨T, hT, Filter.Eventually.of_forall fun q h _ => ?_⟩
    rw [moveSE3_eq, moveSE3_eq, ← e]
    exact (Matrix.mul_assoc _ _ _).symm

theorem moveE2_eq (u v : ℝ) (h : O2.Elt) : moveE2 u v h = O2.leftApplyAngle (O2.sign v, 2 * π * u) h := rfl

/-- the output grid of E(2) modules with `permute_output_grid=True`. -/
theorem C78_permute_E2 :
    UniformMove (uniform01.prod uniform01) (fun w => moveE2 w.1 w.2) O2.Valid O2.leftApplyAngle := by
  have hcomm : ∀ a b, O2.leftApplyAngle a b = O2.leftApplyAngle b a := by
    intro a b
    unfold O2.leftApplyAngle
    rw [mul_comm, add_comm]
  have hmove : ∀ g, O2.Valid g → ∃ T : ℝ × ℝ → ℝ × ℝ, MeasurePreserving T (uniform01.prod uniform01) (uniform01.prod uniform01) ∧
      ∀ᵐ w ∂(uniform01.prod uniform01), O2.leftApplyAngle g (O2.sign w.2, 2 * π * w.1) =
        (O2.sign (T w).2, 2 * π * (T w).1) := by
    intro g hg
    obtain ⟨T, hT, hTa⟩ := O2.exists_flip g.1 hg
    refine ⟨_, (uniform_shift (g.2 / (2 * π))).prod hT, ?_⟩
    have h2 : ∀ᵐ w ∂(uniform01.prod uniform01), g.1 * O2.sign w.2 = O2.sign (T w.2) :=
      Measure.quasiMeasurePreserving_snd.ae hTa
    filter_upwards [h2] with w hw
    exact Prod.ext hw (SO2.leftApplyAngle_fract g.2 w.1)
  refine uniformMove_of _ _ _ _ ?_ ?_ ?_
  · intro h _
    have : (fun w : ℝ × ℝ => moveE2 w.1 w.2 h) =
        fun w => (O2.sign w.2 * h.1, 2 * π * Int.fract (w.1 + h.2 / (2 * π))) := by
      funext w
      rw [moveE2_eq, hcomm]
      exact Prod.ext (mul_comm _ _) (SO2.leftApplyAngle_fract h.2 w.1)
    rw [this]
    exact ((O2.sign_measurable.comp measurable_snd).mul_const _).prodMk
      (((uniform_shift (h.2 / (2 * π))).measurable.comp measurable_fst).const_mul _)
  · intro g hg
    obtain ⟨T, hT, e⟩ := hmove g hg
    refine ⟨T, hT, ?_⟩
    filter_upwards [e] with w hw h _
    rw [moveE2_eq, moveE2_eq, ← hw, O2.C08_assoc]
  · intro g hg
    obtain ⟨T, hT, e⟩ := hmove g hg
    refine ⟨T, hT, ?_⟩
    filter_upwards [e] with w hw h _
    rw [moveE2_eq, moveE2_eq, ← hw, ← O2.C08_assoc, hcomm g]

theorem moveE3_eq (q : Quat) (v : ℝ) (h : O3.Elt) :
    moveE3 q v h = O3.leftApplyO3 (O3.mk (O2.sign v) (quatToMatrix (unit q))) h := by
  have := O3.randomGrid_row (n := 1) (fun _ => q) (fun _ => v) 0
  have e : (O3.randomGrid [q] [v]).headD (fun _ => 0) = O3.mk (O2.sign v) (quatToMatrix (unit q)) := this
  unfold moveE3
  rw [e]

/-- the output grid of E(3) modules with `permute_output_grid=True`. -/
theorem C78_permute_E3 :
    UniformMove ((normal 4).prod uniform01) (fun w => moveE3 w.1 w.2) O3.Valid O3.leftApplyO3 := by
  refine uniformMove_of _ _ _ _ ?_ ?_ ?_
  · intro h _
    have h1 : Measurable fun w : Quat × ℝ => quatToMatrix (unit w.1) * O3.rot h :=
      mul_measurable (quatToMatrix_measurable.comp ((unit_measurable 4).comp measurable_fst)) _
    have h2 : Measurable fun w : Quat × ℝ => O2.sign w.2 * O3.coef h :=
      (O2.sign_measurable.comp measurable_snd).mul_const _
    have : (fun w : Quat × ℝ => moveE3 w.1 w.2 h) =
        fun w => O3.mk (O2.sign w.2 * O3.coef h) (quatToMatrix (unit w.1) * O3.rot h) := by
      funext w
      rw [moveE3_eq]
      apply O3.elt_ext
      · rw [(O3.C33_product _ _).1]; rfl
      · rw [(O3.C33_product _ _).2, O3.rot_mk, O3.rot_mk]
    rw [this]
    refine measurable_pi_iff.2 fun k => ?_
    unfold O3.mk
    by_cases hk : k.val = 0
    · simp only [hk, if_true]; exact h2
    · simp only [hk, if_false]
      exact measurable_pi_iff.1 (measurable_pi_iff.1 h1 _) _
  · intro g hg
    obtain ⟨T, hT, hTa⟩ := exists_move (O3.rot g) hg.2
    obtain ⟨T', hT', hTa'⟩ := O2.exists_flip (O3.coef g) hg.1
    refine ⟨_, hT.prod hT', ?_⟩
    have h2 : ∀ᵐ w ∂((normal 4).prod uniform01), O3.coef g * O2.sign w.2 = O2.sign (T' w.2) :=
      Measure.quasiMeasurePreserving_snd.ae hTa'
    filter_upwards [h2] with w hw h _
    rw [moveE3_eq, moveE3_eq, ← O3.C33_assoc]
    congr 1
    apply O3.elt_ext
    · rw [(O3.C33_product _ _).1, O3.coef_mk]; exact hw
    · rw [(O3.C33_product _ _).2, O3.rot_mk]; exact (hTa w.1).trans (O3.rot_mk _ _).symm
  · intro g hg
    obtain ⟨T, hT, hTa⟩ := exists_move_right (O3.rot g) hg.2
    obtain ⟨T', hT', hTa'⟩ := O2.exists_flip (O3.coef g) hg.1
    refine ⟨_, hT.prod hT', ?_⟩
    have h2 : ∀ᵐ w ∂((normal 4).prod uniform01), O3.coef g * O2.sign w.2 = O2.sign (T' w.2) :=
      Measure.quasiMeasurePreserving_snd.ae hTa'
    filter_upwards [h2] with w hw h _
    rw [moveE3_eq, moveE3_eq, ← O3.C33_assoc]
    congr 1
    apply O3.elt_ext
    · rw [(O3.C33_product _ _).1, O3.coef_mk, mul_comm]; exact hw
    · rw [(O3.C33_product _ _).2, O3.rot_mk]; exact (hTa w.1).trans (O3.rot_mk _ _).symm

end Conv

/-! ## Non-vacuity -/

/-- the quarter turn of the circle moves a grid of two random angles without changing its distribution: the chance
that both lie in the first quadrant is the chance that both lie in the second. -/
example : (Measure.pi fun _ : Fin 2 => uniform01)
      {u | ∀ i : Fin 2, π / 2 ≤ SO2.leftApplyAngle (π / 2) ((SO2.randomGrid (List.ofFn u)).getD i 0)} =
    (Measure.pi fun _ : Fin 2 => uniform01) {u | ∀ i : Fin 2, π / 2 ≤ (SO2.randomGrid (List.ofFn u)).getD i 0} := by
  have := SO2.C78_so2 2 (fun _ => π / 2) (fun _ => trivial) {x | ∀ i, π / 2 ≤ x i} ?_
  · exact this
  · have : {x : Fin 2 → ℝ | ∀ i, π / 2 ≤ x i} = ⋂ i, {x | π / 2 ≤ x i} := by ext; simp
    rw [this]
    exact MeasurableSet.iInter fun i => measurableSet_le measurable_const (measurable_pi_apply i)

example : IsRotation (SO3.matrixX (π / 7)) := (SO3.C14_x 0 (π / 7)).1

example : O2.Valid (-1, π / 5) := Or.inr rfl

end GConv

import Verif.Model.S2
import Verif.Spec.Metric
import Verif.Props.SO2
import Verif.Props.SO3Log
import Mathlib.Geometry.Euclidean.Angle.Unoriented.TriangleInequality

/-! # C83: the S2 distance; triangle inequalities

`δ = arccos (1 - eps)` is the smallest value all three distances can take (the clamp of the code). -/

namespace GConv

open Real

/-- the clamp acts on angles: angles are cut off at `δ` and `π - δ`. -/
theorem arccos_clamp_cos (t eps : ℝ) (h0 : 0 ≤ t) (h1 : t ≤ π) (he0 : 0 ≤ eps) (he1 : eps ≤ 1) :
    arccos (clamp (cos t) (-1 + eps) (1 - eps)) = min (max t (arccos (1 - eps))) (π - arccos (1 - eps)) := by
  have hneg : arccos (-1 + eps) = π - arccos (1 - eps) := by
    rw [show -1 + eps = -(1 - eps) by ring, Real.arccos_neg]
  have hd : arccos (1 - eps) ≤ π - arccos (1 - eps) := by
    rw [← hneg]; exact Real.antitone_arccos (by linarith)
  have anti : ∀ x y : ℝ, arccos (min x y) = max (arccos x) (arccos y) := fun x y =>
    Real.antitone_arccos.map_min
  have anti' : ∀ x y : ℝ, arccos (max x y) = min (arccos x) (arccos y) := fun x y =>
    Real.antitone_arccos.map_max
  unfold clamp
  rw [anti, anti', Real.arccos_cos h0 h1, hneg]
  rcases le_total t (π - arccos (1 - eps)) with h | h <;> rcases le_total t (arccos (1 - eps)) with h' | h' <;>
    simp [h, h', hd, min_eq_left, min_eq_right, max_eq_left, max_eq_right] <;> linarith

/-- cutting off preserves the triangle inequality. -/
theorem cut_triangle {a b c d m : ℝ} (hd : 0 ≤ d) (hdm : d ≤ m) (h : a ≤ b + c) :
    min (max a d) m ≤ min (max b d) m + min (max c d) m := by
  have hb : d ≤ min (max b d) m := le_min (le_max_right _ _) hdm
  have hc : d ≤ min (max c d) m := le_min (le_max_right _ _) hdm
  rcases le_total m (max b d) with h1 | h1
  · rw [min_eq_right h1]; exact (min_le_right _ _).trans (by linarith)
  · rcases le_total m (max c d) with h2 | h2
    · rw [min_eq_right h2]; exact (min_le_right _ _).trans (by linarith)
    · rw [min_eq_left h1, min_eq_left h2]
      refine (min_le_left _ _).trans (max_le ?_ ?_)
      · have := le_max_left b d; have := le_max_left c d; linarith
      · have := le_max_right b d; have := le_max_right c d; linarith

theorem delta_le {eps : ℝ} (he0 : 0 ≤ eps) (he1 : eps ≤ 1) : arccos (1 - eps) ≤ π - arccos (1 - eps) := by
  rw [← Real.arccos_neg]; exact Real.antitone_arccos (by linarith)

/-! ## unit vectors -/

theorem angleBetween_nonneg {n : ℕ} (x y : Fin n → ℝ) : 0 ≤ angleBetween x y := InnerProductGeometry.angle_nonneg _ _

theorem angleBetween_le {n : ℕ} (x y : Fin n → ℝ) : angleBetween x y ≤ π := InnerProductGeometry.angle_le_pi _ _

theorem cos_angleBetween {n : ℕ} {x y : Fin n → ℝ} (hx : ∑ i, x i * x i = 1) (hy : ∑ i, y i * y i = 1) :
    cos (angleBetween x y) = ∑ i, x i * y i := by
  have nx : ∀ v : Fin n → ℝ, ∑ i, v i * v i = 1 → ‖(WithLp.toLp 2 v : EuclideanSpace ℝ (Fin n))‖ = 1 := by
    intro v hv
    rw [EuclideanSpace.norm_eq, Real.sqrt_eq_one]
    rw [← hv]
    exact Finset.sum_congr rfl fun i _ => by simp [sq]
  unfold angleBetween
  rw [InnerProductGeometry.cos_angle, nx x hx, nx y hy, PiLp.inner_apply]
  simp [mul_comm]

theorem angleBetween_triangle {n : ℕ} (x y z : Fin n → ℝ) :
    angleBetween x z ≤ angleBetween x y + angleBetween y z :=
  InnerProductGeometry.angle_le_angle_add_angle _ _ _

end GConv

namespace GConv.S2

open Real SO3 GConv.Spec

/-- exact value for unit vectors: the angle between them, cut off at `δ` and `π - δ`. -/
theorem C83_s2_value (x y : Fin 3 → ℝ) (hx : dot x x = 1) (hy : dot y y = 1) (eps : ℝ) (he0 : 0 ≤ eps) (he1 : eps ≤ 1) :
    geodesicDistanceS2 x y eps = min (max (angleBetween x y) (arccos (1 - eps))) (π - arccos (1 - eps)) := by
  unfold geodesicDistanceS2
  rw [← cos_angleBetween hx hy, arccos_clamp_cos _ _ (angleBetween_nonneg _ _)
    (angleBetween_le _ _) he0 he1]

theorem C83_s2_symm (x y : Fin 3 → ℝ) (eps : ℝ) : geodesicDistanceS2 x y eps = geodesicDistanceS2 y x eps := by
  unfold geodesicDistanceS2
  simp only [mul_comm]

/-- rotations and reflections of both points change nothing. -/
theorem C83_s2_invariant (M : Mat3) (hM : M.transpose * M = 1) (x y : Fin 3 → ℝ) (eps : ℝ) :
    geodesicDistanceS2 (M.mulVec x) (M.mulVec y) eps = geodesicDistanceS2 x y eps := by
  have : (M.mulVec x) ⬝ᵥ (M.mulVec y) = x ⬝ᵥ y := by
    rw [Matrix.dotProduct_mulVec, Matrix.vecMul_mulVec, ← Matrix.dotProduct_mulVec, hM, Matrix.one_mulVec]
  unfold geodesicDistanceS2
  unfold dotProduct at this
  rw [this]

/-- a point to itself and to its antipode. -/
theorem C83_s2_self (x : Fin 3 → ℝ) (hx : dot x x = 1) (eps : ℝ) (he0 : 0 ≤ eps) (he1 : eps ≤ 1) :
    geodesicDistanceS2 x x eps = arccos (1 - eps) ∧ geodesicDistanceS2 x (-x) eps = π - arccos (1 - eps) := by
  refine ⟨?_, ?_⟩
  · unfold geodesicDistanceS2 clamp
    rw [show ∑ i, x i * x i = 1 from hx, max_eq_left (by linarith), min_eq_right (by linarith)]
  · have : ∑ i, x i * (-x) i = -1 := by
      have : ∑ i, x i * (-x) i = -∑ i, x i * x i := by simp
      rw [this]; exact congrArg Neg.neg hx
    unfold geodesicDistanceS2 clamp
    rw [this, max_eq_right (by linarith), min_eq_left (by linarith), ← Real.arccos_neg]
    congr 1; ring

/-- no two points are closer than a point to itself. -/
theorem C83_s2_range (x y : Fin 3 → ℝ) (eps : ℝ) (he1 : eps ≤ 1) :
    arccos (1 - eps) ≤ geodesicDistanceS2 x y eps ∧ geodesicDistanceS2 x y eps ≤ arccos (-1 + eps) :=
  ⟨Real.antitone_arccos (min_le_right _ _),
    Real.antitone_arccos (le_min (le_max_right _ _) (by linarith))⟩

theorem C83_s2_triangle (x y z : Fin 3 → ℝ) (hx : dot x x = 1) (hy : dot y y = 1) (hz : dot z z = 1)
    (eps : ℝ) (he0 : 0 ≤ eps) (he1 : eps ≤ 1) :
    geodesicDistanceS2 x z eps ≤ geodesicDistanceS2 x y eps + geodesicDistanceS2 y z eps := by
  rw [C83_s2_value x z hx hz eps he0 he1, C83_s2_value x y hx hy eps he0 he1, C83_s2_value y z hy hz eps he0 he1]
  exact cut_triangle (Real.arccos_nonneg _) (delta_le he0 he1) (angleBetween_triangle x y z)

example : geodesicDistanceS2 ![1, 0, 0] ![0, 1, 0] 1e-7 = π / 2 := by
  have : ∑ i : Fin 3, ![(1 : ℝ), 0, 0] i * ![(0 : ℝ), 1, 0] i = 0 := by simp [Fin.sum_univ_three]
  unfold geodesicDistanceS2 clamp
  rw [this]; norm_num

end GConv.S2

namespace GConv.SO2

open Real

theorem C83_so2_triangle (a b c eps : ℝ) (he0 : 0 ≤ eps) (he1 : eps ≤ 1) :
    geodesicDistance a c eps ≤ geodesicDistance a b eps + geodesicDistance b c eps := by
  have unit : ∀ t : ℝ, ∑ i, angleToEuclid t i * angleToEuclid t i = 1 := by
    intro t
    have := Real.sin_sq_add_cos_sq t
    simp [angleToEuclid, Fin.sum_univ_two]; nlinarith
  have val : ∀ s t : ℝ, geodesicDistance s t eps =
      min (max (angleBetween (angleToEuclid s) (angleToEuclid t)) (arccos (1 - eps))) (π - arccos (1 - eps)) := by
    intro s t
    unfold geodesicDistance geodesicDistanceEuclid
    rw [← cos_angleBetween (unit s) (unit t), arccos_clamp_cos _ _ (angleBetween_nonneg _ _)
      (angleBetween_le _ _) he0 he1]
  rw [val, val, val]
  exact cut_triangle (Real.arccos_nonneg _) (delta_le he0 he1) (angleBetween_triangle _ _ _)

end GConv.SO2

namespace GConv.SO3

open Real GConv.Spec

/-- the smaller of the angles between `±p` and `q`. -/
noncomputable def lineAngle (p q : Quat) : ℝ := min (angleBetween p q) (π - angleBetween p q)

theorem lineAngle_nonneg (p q : Quat) : 0 ≤ lineAngle p q :=
  le_min (InnerProductGeometry.angle_nonneg _ _) (sub_nonneg.2 (InnerProductGeometry.angle_le_pi _ _))

theorem lineAngle_le (p q : Quat) : lineAngle p q ≤ π / 2 := by
  unfold lineAngle
  rcases le_total (angleBetween p q) (π / 2) with h | h
  · exact (min_le_left _ _).trans h
  · exact (min_le_right _ _).trans (by linarith)

theorem cos_lineAngle {p q : Quat} (hp : IsUnitQuat p) (hq : IsUnitQuat q) :
    cos (lineAngle p q) = |∑ i, p i * q i| := by
  have hc : ∀ r : Quat, IsUnitQuat r → ∑ i, r i * r i = 1 := by
    intro r hr
    exact hr
  have h := cos_angleBetween (hc p hp) (hc q hq)
  unfold lineAngle
  rcases le_total (angleBetween p q) (π / 2) with h1 | h1
  · rw [min_eq_left (by linarith), h, abs_of_nonneg]
    rw [← h]; exact Real.cos_nonneg_of_neg_pi_div_two_le_of_le
      (by linarith [Real.pi_pos, angleBetween_nonneg p q]) h1
  · rw [min_eq_right (by linarith), Real.cos_pi_sub, h, abs_of_nonpos]
    rw [← h]; exact Real.cos_nonpos_of_pi_div_two_le_of_le h1
      (by linarith [Real.pi_pos, angleBetween_le p q])

theorem angleBetween_neg_left (p q : Quat) : angleBetween (-p) q = π - angleBetween p q := by
  unfold angleBetween
  rw [show (WithLp.toLp 2 (-p) : EuclideanSpace ℝ (Fin 4)) = -(WithLp.toLp 2 p) from rfl,
    InnerProductGeometry.angle_neg_left]

theorem angleBetween_neg_right (p q : Quat) : angleBetween p (-q) = π - angleBetween p q := by
  unfold angleBetween
  rw [show (WithLp.toLp 2 (-q) : EuclideanSpace ℝ (Fin 4)) = -(WithLp.toLp 2 q) from rfl,
    InnerProductGeometry.angle_neg_right]

theorem lineAngle_triangle (p q r : Quat) : lineAngle p r ≤ lineAngle p q + lineAngle q r := by
  have h1 := angleBetween_triangle p q r
  have h2 := angleBetween_triangle (-p) q r
  have h3 := angleBetween_triangle p q (-r)
  have h4 := angleBetween_triangle (-p) q (-r)
  simp only [angleBetween_neg_left, angleBetween_neg_right] at h2 h3 h4
  have a1 : lineAngle p r ≤ angleBetween p r := min_le_left _ _
  have a2 : lineAngle p r ≤ π - angleBetween p r := min_le_right _ _
  have b : lineAngle p q = angleBetween p q ∨ lineAngle p q = π - angleBetween p q := min_choice _ _
  have c : lineAngle q r = angleBetween q r ∨ lineAngle q r = π - angleBetween q r := min_choice _ _
  rcases b with b | b <;> rcases c with c | c <;> rw [b, c] <;> linarith

theorem C83_so3_triangle (p q r : Quat) (hp : IsUnitQuat p) (hq : IsUnitQuat q) (hr : IsUnitQuat r)
    (eps : ℝ) (he0 : 0 ≤ eps) (he1 : eps ≤ 1) :
    geodesicDistance p r eps ≤ geodesicDistance p q eps + geodesicDistance q r eps := by
  have val : ∀ s t : Quat, IsUnitQuat s → IsUnitQuat t → geodesicDistance s t eps =
      min (max (lineAngle s t) (arccos (1 - eps))) (π - arccos (1 - eps)) := by
    intro s t hs ht
    unfold geodesicDistance
    rw [← cos_lineAngle hs ht, arccos_clamp_cos _ _ (lineAngle_nonneg _ _)
      ((lineAngle_le _ _).trans (by linarith [Real.pi_pos])) he0 he1]
  rw [val p r hp hr, val p q hp hq, val q r hq hr]
  exact cut_triangle (Real.arccos_nonneg _) (delta_le he0 he1) (lineAngle_triangle _ _ _)

end GConv.SO3

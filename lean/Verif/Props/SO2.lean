import Verif.Model.SO2
import Verif.Lemmas.Scalar
import Mathlib.LinearAlgebra.Matrix.Notation

/-! # Properties of SO(2): C01, C02, C03, C05, C06, C07 and the SO(2) part of C04 -/

namespace GConv.SO2

open Real Spec Tensor

/-! ## C01 -/

theorem C01_angle_to_matrix_rotation (a : ℝ) : IsRotation (angleToMatrix a) := by
  constructor
  · ext i j
    fin_cases i <;> fin_cases j <;>
      simp [angleToMatrix, Matrix.mul_apply, Fin.sum_univ_two] <;>
      nlinarith [Real.cos_sq_add_sin_sq a]
  · simp [angleToMatrix, Matrix.det_fin_two]; nlinarith [Real.cos_sq_add_sin_sq a]

theorem C01_product (a b : ℝ) :
    angleToMatrix (leftApplyAngle a b) = angleToMatrix a * angleToMatrix b := by
  ext i j
  fin_cases i <;> fin_cases j <;>
    simp [angleToMatrix, leftApplyAngle, Matrix.mul_apply, Fin.sum_univ_two, cos_pyMod, sin_pyMod,
      Real.cos_add, Real.sin_add] <;> ring

theorem C01_inverse (a : ℝ) :
    angleToMatrix (inverseAngle a) = inverseMatrix (angleToMatrix a) ∧
    angleToMatrix (inverseAngle a) * angleToMatrix a = 1 ∧
    angleToMatrix a * angleToMatrix (inverseAngle a) = 1 := by
  have h1 : angleToMatrix (inverseAngle a) = inverseMatrix (angleToMatrix a) := by
    ext i j
    fin_cases i <;> fin_cases j <;> simp [angleToMatrix, inverseAngle, inverseMatrix]
  have h2 : angleToMatrix (inverseAngle a) * angleToMatrix a = 1 := by
    rw [h1]; exact (C01_angle_to_matrix_rotation a).1
  exact ⟨h1, h2, mul_eq_one_comm.1 h2⟩

theorem C01_faithful (a b : ℝ) : angleToMatrix a = angleToMatrix b ↔ EqMod (2 * π) a b := by
  constructor
  · intro h
    have h0 := congrFun (congrFun h 0) 0
    have h1 := congrFun (congrFun h 1) 0
    simp [angleToMatrix] at h0 h1
    exact eqMod_of_cos_sin h0 h1
  · intro h
    unfold angleToMatrix
    rw [cos_of_eqMod h, sin_of_eqMod h]

example : EqMod (2 * π) (5 * π / 2) (π / 2) := ⟨1, by push_cast; ring⟩

/-! ## C02 -/

theorem C02_range (a b : ℝ) : 0 ≤ leftApplyAngle a b ∧ leftApplyAngle a b < 2 * π :=
  ⟨pyMod_nonneg two_pi_pos', pyMod_lt two_pi_pos'⟩

/-- the result is the sum of the angles up to full turns. -/
theorem C02_value (a b : ℝ) : EqMod (2 * π) (leftApplyAngle a b) (a + b) := pyMod_eqMod _ _

theorem C02_assoc (a b c : ℝ) :
    leftApplyAngle (leftApplyAngle a b) c = leftApplyAngle a (leftApplyAngle b c) := by
  refine (pyMod_eq_iff two_pi_pos').2 ?_
  have h1 : EqMod (2 * π) (leftApplyAngle a b + c) (a + b + c) :=
    (pyMod_eqMod _ _).add (EqMod.refl _ _)
  have h2 : EqMod (2 * π) (a + leftApplyAngle b c) (a + (b + c)) :=
    (EqMod.refl _ _).add (pyMod_eqMod _ _)
  rw [← add_assoc] at h2
  exact h1.trans h2.symm

theorem C02_comm (a b : ℝ) : leftApplyAngle a b = leftApplyAngle b a := by
  unfold leftApplyAngle; rw [add_comm]

theorem C02_neutral (a : ℝ) (h0 : 0 ≤ a) (h1 : a < 2 * π) :
    leftApplyAngle a 0 = a ∧ leftApplyAngle 0 a = a := by
  constructor <;> simp [leftApplyAngle, pyMod_of_range h0 h1]

/-- `h0`, `h1` of `C02_neutral` hold for every output of the API product. -/
example (a b : ℝ) : leftApplyAngle (leftApplyAngle a b) 0 = leftApplyAngle a b :=
  (C02_neutral _ (C02_range a b).1 (C02_range a b).2).1

theorem C02_inverse (a : ℝ) :
    leftApplyAngle a (inverseAngle a) = 0 ∧ leftApplyAngle (inverseAngle a) a = 0 := by
  constructor <;> simp [leftApplyAngle, inverseAngle, pyMod_of_range le_rfl two_pi_pos']

theorem C02_table (N M : ℕ) (R1 R2 : Tensor ℝ) (h1 : R1.shape = [N]) (h2 : R2.shape = [M]) :
    (leftApplyToAngle R1 R2).shape = [N, M] ∧
    ∀ i j, (leftApplyToAngle R1 R2).get [i, j] = leftApplyAngle (R1.get [i]) (R2.get [j]) := by
  simp [leftApplyToAngle, pairwise, leftApplyAngle, h1, h2]

/-! ## C03 -/

theorem C03_length (n : ℕ) : (uniformGrid n).length = n := by
  simp [uniformGrid, linspace]

theorem C03_value (n k : ℕ) (hk : k < n) : (uniformGrid n)[k]? = some (2 * π * k / n) := by
  have hn : (n : ℝ) ≠ 0 := by exact_mod_cast (by omega : n ≠ 0)
  have : ¬ (n + 1 ≤ 1) := by omega
  have hd : uniformGrid n = (List.range n).map (linspaceAt 0 (2 * π) (n + 1)) := by
    simp [uniformGrid, linspace, List.range_succ]
  rw [hd]
  have h0 : n ≠ 0 := by omega
  simp [hk, linspaceAt, h0]
  ring

theorem uniformGrid_eq (n : ℕ) :
    uniformGrid n = (List.range n).map (fun k : ℕ => 2 * π * k / n) := by
  apply List.ext_getElem?
  intro k
  by_cases hk : k < n
  · rw [C03_value n k hk]; simp [hk]
  · rw [List.getElem?_eq_none, List.getElem?_eq_none] <;> simp [C03_length] <;> omega

theorem C03_strictly_increasing (n : ℕ) : (uniformGrid n).Pairwise (· < ·) := by
  rw [uniformGrid_eq, List.pairwise_map]
  refine List.Pairwise.imp_of_mem ?_ (List.pairwise_lt_range (n := n))
  intro a b ha hb hab
  have hn : (0 : ℝ) < n := by
    have := List.mem_range.1 ha
    exact_mod_cast (by omega : 0 < n)
  have : (a : ℝ) < b := by exact_mod_cast hab
  have := two_pi_pos'
  gcongr

theorem C03_range (n : ℕ) (a : ℝ) (ha : a ∈ uniformGrid n) : 0 ≤ a ∧ a < 2 * π := by
  rw [uniformGrid_eq] at ha
  obtain ⟨k, hk, rfl⟩ := List.mem_map.1 ha
  have hkn := List.mem_range.1 hk
  have hn : (0 : ℝ) < n := by exact_mod_cast (by omega : 0 < n)
  have hk' : (k : ℝ) < n := by exact_mod_cast hkn
  have := two_pi_pos'
  refine ⟨by positivity, ?_⟩
  rw [div_lt_iff₀ hn]
  exact mul_lt_mul_of_pos_left hk' this

theorem C03_zero_first (n : ℕ) (hn : 0 < n) : (uniformGrid n).head? = some 0 := by
  rw [List.head?_eq_getElem?, C03_value n 0 hn]; simp

theorem mem_uniformGrid_of_eqMod {n : ℕ} (hn : 0 < n) (z : ℤ) :
    pyMod (2 * π * z / n) (2 * π) ∈ uniformGrid n := by
  have hn' : (n : ℝ) ≠ 0 := by positivity
  rw [uniformGrid_eq, List.mem_map]
  have hz : (n : ℤ) ≠ 0 := by omega
  refine ⟨(z % n).toNat, ?_, ?_⟩
  · have h1 := Int.emod_nonneg z hz
    have h2 := Int.emod_lt_of_pos z (by omega : (0 : ℤ) < n)
    simp; omega
  · have h1 := Int.emod_nonneg z hz
    have h2 := Int.emod_lt_of_pos z (by omega : (0 : ℤ) < n)
    have hc : (((z % n).toNat : ℕ) : ℝ) = ((z % n : ℤ) : ℝ) := by
      have : (((z % n).toNat : ℕ) : ℤ) = z % n := Int.toNat_of_nonneg h1
      exact_mod_cast this
    rw [hc]
    have hpos : (0 : ℝ) < n := by positivity
    have e1 : (0 : ℝ) ≤ ((z % n : ℤ) : ℝ) := by exact_mod_cast h1
    have e2 : ((z % n : ℤ) : ℝ) < n := by exact_mod_cast h2
    have hp := two_pi_pos'
    symm
    refine EqMod.eq_of_range hp ((pyMod_eqMod _ _).trans ?_) (pyMod_nonneg hp) (pyMod_lt hp)
      (by positivity) ?_
    · refine ⟨z / n, ?_⟩
      have : (z : ℝ) = n * ((z / n : ℤ) : ℝ) + ((z % n : ℤ) : ℝ) := by
        exact_mod_cast (Int.mul_ediv_add_emod z n).symm
      rw [this]; field_simp; ring
    · rw [div_lt_iff₀ hpos]
      exact mul_lt_mul_of_pos_left e2 hp

theorem C03_closed (n : ℕ) (a b : ℝ) (ha : a ∈ uniformGrid n) (hb : b ∈ uniformGrid n) :
    leftApplyAngle a b ∈ uniformGrid n ∧
    leftApplyAngle (inverseAngle a) 0 ∈ uniformGrid n := by
  rw [uniformGrid_eq] at ha hb
  obtain ⟨k, hk, rfl⟩ := List.mem_map.1 ha
  obtain ⟨l, hl, rfl⟩ := List.mem_map.1 hb
  have hn : 0 < n := by have := List.mem_range.1 hk; omega
  constructor
  · have := mem_uniformGrid_of_eqMod hn (k + l)
    convert this using 1
    unfold leftApplyAngle; congr 1; push_cast; ring
  · have := mem_uniformGrid_of_eqMod hn (-k)
    convert this using 1
    unfold leftApplyAngle inverseAngle; congr 1; push_cast; ring

example : (2 * π * (3 : ℕ) / (7 : ℕ)) ∈ uniformGrid 7 := by
  rw [uniformGrid_eq]; exact List.mem_map.2 ⟨3, by simp, rfl⟩

/-! ## C04 (SO(2) part): `torch.rand` draws lie in `[0,1)` -/

theorem C04_so2 (u : List ℝ) (hu : ∀ x ∈ u, 0 ≤ x ∧ x < 1) :
    (randomGrid u).length = u.length ∧ ∀ a ∈ randomGrid u, 0 ≤ a ∧ a < 2 * π := by
  refine ⟨by simp [randomGrid], ?_⟩
  intro a ha
  obtain ⟨x, hx, rfl⟩ := List.mem_map.1 ha
  obtain ⟨h0, h1⟩ := hu x hx
  have := two_pi_pos'
  exact ⟨by positivity, by nlinarith⟩

/-! ## C05 -/

theorem C05_value (N W H : ℕ) (R : Tensor ℝ) (grid : Tensor (Fin 2 → ℝ))
    (hR : R.shape = [N]) (hg : grid.shape = [W, H]) :
    (leftApplyAngleToR2 R grid).shape = [N, W, H] ∧
    ∀ n w h, (leftApplyAngleToR2 R grid).get [n, w, h] =
      ![cos (R.get [n]) * grid.get [w, h] 0 - sin (R.get [n]) * grid.get [w, h] 1,
        sin (R.get [n]) * grid.get [w, h] 0 + cos (R.get [n]) * grid.get [w, h] 1] := by
  constructor
  · simp [leftApplyAngleToR2, leftApplyMatrixToR2, pairwise, Tensor.map, hR, hg]
  · intro n w h
    ext i
    fin_cases i <;>
      simp [leftApplyAngleToR2, leftApplyMatrixToR2, pairwise, Tensor.map, angleToMatrix,
        Matrix.mulVec, dotProduct, Fin.sum_univ_two] <;> ring

/-- A one-element batch of angles and a single vector as tensors (used to state laws of the action). -/
noncomputable def act1 (a : ℝ) (v : Fin 2 → ℝ) : Fin 2 → ℝ :=
  (leftApplyAngleToR2 ⟨[1], fun _ => a⟩ ⟨[1, 1], fun _ => v⟩).get [0, 0, 0]

theorem act1_eq (a : ℝ) (v : Fin 2 → ℝ) : act1 a v = (angleToMatrix a).mulVec v := rfl

/-- every entry of the batched call is the single action. -/
theorem C05_pointwise (R : Tensor ℝ) (grid : Tensor (Fin 2 → ℝ)) (n w h : ℕ) :
    (leftApplyAngleToR2 R grid).get [n, w, h] = act1 (R.get [n]) (grid.get [w, h]) := rfl

theorem C05_isometry (a : ℝ) (v w : Fin 2 → ℝ) : dot (act1 a v) (act1 a w) = dot v w := by
  simp [act1_eq, dot, Fin.sum_univ_two, angleToMatrix, Matrix.mulVec, dotProduct]
  linear_combination (v 0 * w 0 + v 1 * w 1) * Real.cos_sq_add_sin_sq a

theorem C05_identity (v : Fin 2 → ℝ) : act1 0 v = v := by
  ext i; fin_cases i <;> simp [act1_eq, angleToMatrix, Matrix.mulVec, dotProduct, Fin.sum_univ_two]

theorem C05_compose (a b : ℝ) (v : Fin 2 → ℝ) :
    act1 (leftApplyAngle a b) v = act1 a (act1 b v) := by
  simp [act1_eq, C01_product, Matrix.mulVec_mulVec]

/-- `angle_to_euclid` is the image of the first basis vector: a point of the unit circle, on which the group acts by
adding angles; equal points are equal angles modulo `2π`. -/
theorem C05_euclid (a b : ℝ) : angleToEuclid a = act1 a ![1, 0] ∧ dot (angleToEuclid a) (angleToEuclid a) = 1 ∧
    act1 a (angleToEuclid b) = angleToEuclid (leftApplyAngle a b) ∧
    (angleToEuclid a = angleToEuclid b ↔ ∃ k : ℤ, a = b + k * (2 * π)) := by
  have h1 : ∀ a, angleToEuclid a = act1 a ![1, 0] := fun a => by
    ext i; fin_cases i <;> simp [act1_eq, angleToEuclid, angleToMatrix, Matrix.mulVec, dotProduct, Fin.sum_univ_two]
  refine ⟨h1 a, ?_, ?_, ?_⟩
  · simp [dot, angleToEuclid, Fin.sum_univ_two, ← sq]
  · rw [h1, h1, C05_compose]
  · constructor
    · intro h
      have hc : cos a = cos b := by simpa [angleToEuclid] using congrFun h 0
      have hs : sin a = sin b := by simpa [angleToEuclid] using congrFun h 1
      have := Real.Angle.cos_sin_inj hc hs
      obtain ⟨k, hk⟩ := Real.Angle.angle_eq_iff_two_pi_dvd_sub.1 this
      exact ⟨k, by linarith⟩
    · rintro ⟨k, rfl⟩
      simp [angleToEuclid]

/-! ## C06 -/

theorem geodesic_eq (a b eps : ℝ) :
    geodesicDistance a b eps = arccos (clamp (cos (a - b)) (-1 + eps) (1 - eps)) := by
  simp [geodesicDistance, geodesicDistanceEuclid, angleToEuclid, Fin.sum_univ_two, Real.cos_sub]

theorem C06_symm (a b eps : ℝ) : geodesicDistance a b eps = geodesicDistance b a eps := by
  rw [geodesic_eq, geodesic_eq, ← Real.cos_neg, neg_sub]

theorem C06_invariant (g a b eps : ℝ) :
    geodesicDistance (leftApplyAngle g a) (leftApplyAngle g b) eps = geodesicDistance a b eps := by
  rw [geodesic_eq, geodesic_eq]
  have : EqMod (2 * π) (leftApplyAngle g a - leftApplyAngle g b) (a - b) := by
    have := (C02_value g a).add (C02_value g b).neg
    rw [sub_eq_add_neg]
    refine this.trans ?_
    rw [show g + a + -(g + b) = a - b by ring]; exact EqMod.refl _ _
  rw [cos_of_eqMod this]

theorem C06_well_defined (a a' b b' eps : ℝ) (ha : angleToMatrix a = angleToMatrix a')
    (hb : angleToMatrix b = angleToMatrix b') :
    geodesicDistance a b eps = geodesicDistance a' b' eps := by
  rw [geodesic_eq, geodesic_eq]
  have := ((C01_faithful a a').1 ha).add ((C01_faithful b b').1 hb).neg
  rw [← sub_eq_add_neg, ← sub_eq_add_neg] at this
  rw [cos_of_eqMod this]

theorem C06_range (a b eps : ℝ) (h1 : eps ≤ 1) :
    arccos (1 - eps) ≤ geodesicDistance a b eps ∧
    geodesicDistance a b eps ≤ arccos (-1 + eps) := by
  rw [geodesic_eq]
  exact ⟨Real.antitone_arccos clamp_le, Real.antitone_arccos (le_clamp (by linarith))⟩

theorem C06_arc_length (a b eps : ℝ) (h0 : 0 ≤ eps) (h2 : eps ≤ 2)
    (hl : arccos (1 - eps) ≤ |a - b|) (hu : |a - b| ≤ arccos (-1 + eps)) :
    geodesicDistance a b eps = |a - b| := by
  rw [geodesic_eq, ← Real.cos_abs]
  have hpi : |a - b| ≤ π := hu.trans (Real.arccos_le_pi _)
  rw [clamp_of_mem, Real.arccos_cos (abs_nonneg _) hpi]
  · have := Real.cos_le_cos_of_nonneg_of_le_pi (abs_nonneg _) (Real.arccos_le_pi _) hu
    rwa [Real.cos_arccos (by linarith) (by linarith)] at this
  · have := Real.cos_le_cos_of_nonneg_of_le_pi (Real.arccos_nonneg _) hpi hl
    rwa [Real.cos_arccos (by linarith) (by linarith)] at this

/-- without clamping (`eps = 0`) the distance is the arc length for all angles at most `π` apart. -/
theorem C06_exact (a b : ℝ) (h : |a - b| ≤ π) : geodesicDistance a b 0 = |a - b| :=
  C06_arc_length a b 0 le_rfl (by norm_num) (by simp) (by simpa using h)

/-- non-vacuity of `C06_arc_length` with the default `eps`. -/
example : geodesicDistance (π / 2) 0 defaultEps = π / 2 := by
  have hp := Real.pi_pos
  have h : |π / 2 - 0| = π / 2 := by rw [sub_zero, abs_of_pos (by positivity)]
  rw [C06_arc_length, h]
  · norm_num [defaultEps]
  · norm_num [defaultEps]
  · rw [h, ← Real.arccos_zero]; exact Real.antitone_arccos (by norm_num [defaultEps])
  · rw [h, ← Real.arccos_zero]; exact Real.antitone_arccos (by norm_num [defaultEps])

/-! ## C07 -/

theorem foldl_min_le_init (l : List ℝ) (x : ℝ) : l.foldl min x ≤ x := by
  induction l generalizing x with
  | nil => simp
  | cons y l ih => exact (ih _).trans (min_le_left _ _)

theorem foldl_min_le_mem (l : List ℝ) (x y : ℝ) (h : y ∈ l) : l.foldl min x ≤ y := by
  induction l generalizing x with
  | nil => simp at h
  | cons z l ih =>
    rcases List.mem_cons.1 h with rfl | h
    · rw [List.foldl_cons]; exact (foldl_min_le_init _ _).trans (min_le_right _ _)
    · exact ih _ h

theorem le_foldl_min (l : List ℝ) (x m : ℝ) (hx : m ≤ x) (h : ∀ y ∈ l, m ≤ y) :
    m ≤ l.foldl min x := by
  induction l generalizing x with
  | nil => simpa
  | cons z l ih =>
    exact ih _ (le_min hx (h z (by simp))) (fun y hy => h y (by simp [hy]))

/-- What the code computes: for EVERY grid the result is the constant `acos(1 - 1e-12)`, whatever the
angles are, because each row's minimum is the clamped distance of the element to itself. -/
theorem C07_partial (grid : List ℝ) (h : grid ≠ []) :
    nearestNeighbourDistance grid = .ok (grid.map fun _ => arccos (1 - defaultEps)) := by
  unfold nearestNeighbourDistance
  rw [if_neg h]
  congr 1
  apply List.map_congr_left
  intro a ha
  have hself : geodesicDistance a a defaultEps = arccos (1 - defaultEps) := by
    rw [geodesic_eq, sub_self, Real.cos_zero, clamp_of_ge (by norm_num [defaultEps])]
  have hle : ∀ b, arccos (1 - defaultEps) ≤ geodesicDistance a b defaultEps :=
    fun b => (C06_range a b _ (by norm_num [defaultEps])).1
  apply le_antisymm
  · rw [← hself]
    exact foldl_min_le_mem _ _ _ (List.mem_map.2 ⟨a, ha, rfl⟩)
  · refine le_foldl_min _ _ _ (hle _) ?_
    intro y hy
    obtain ⟨b, _, rfl⟩ := List.mem_map.1 hy
    exact hle b

/-- The documented meaning: minimum over the *other* elements. -/
def IsNearestOtherDistance (grid : List ℝ) (i : ℕ) (d : ℝ) : Prop :=
  (∃ j, j < grid.length ∧ j ≠ i ∧
    d = geodesicDistance (grid.getD i 0) (grid.getD j 0) defaultEps) ∧
  ∀ j, j < grid.length → j ≠ i →
    d ≤ geodesicDistance (grid.getD i 0) (grid.getD j 0) defaultEps

/-- C07 is false of the code: for the grid `[0, π/2]` the returned value is not the distance to the
nearest other element. -/
theorem C07_violated :
    ∃ ds, nearestNeighbourDistance [0, π / 2] = .ok ds ∧
      ¬ IsNearestOtherDistance [0, π / 2] 0 (ds.getD 0 0) := by
  refine ⟨_, C07_partial _ (by simp), ?_⟩
  rintro ⟨⟨j, hj, hj0, hd⟩, -⟩
  have : j = 1 := by simp at hj; omega
  subst this
  simp only [List.map_cons, List.getD_cons_zero, List.getD_cons_succ] at hd
  rw [geodesic_eq, show (0 : ℝ) - π / 2 = -(π / 2) by ring, Real.cos_neg, Real.cos_pi_div_two,
    clamp_of_mem (by norm_num [defaultEps]) (by norm_num [defaultEps])] at hd
  have := Real.arccos_injOn (by constructor <;> norm_num [defaultEps])
    (by constructor <;> norm_num) hd
  norm_num [defaultEps] at this

end GConv.SO2

import Verif.Lemmas.AxisAngle
import Verif.Props.SO3
import Verif.Props.SO2
import Mathlib.Analysis.Real.Pi.Bounds

/-! # Logarithms, distances and cyclic groups in SO(3): C23 - C26, C29 -/

namespace GConv.SO3

open Real Spec

/-! ## C23 -/

/-- The Rodrigues exponential of a rotation vector. -/
noncomputable def expVec (v : Fin 3 → ℝ) : Mat3 := rodrigues (fun i => v i / vnorm v) (vnorm v)

/-- the value of `so3_log` on a rotation by `t` about `u`, for every `t` in `[0, π]`: the skew part
`sin t · u` times `θ / sin θ`, where `θ` is `t` clamped to `[acos(1-eps), acos(eps-1)]`. -/
theorem so3Log_rodrigues (u : Fin 3 → ℝ) (hu : dot u u = 1) (t eps : ℝ) (he0 : 0 < eps)
    (he1 : eps < 1) :
    so3Log (rodrigues u t) eps =
      fun i => arccos (clamp (cos t) (-1 + eps) (1 - eps)) /
        sin (arccos (clamp (cos t) (-1 + eps) (1 - eps))) * (sin t * u i) := by
  have hlo : -1 + eps ≤ clamp (cos t) (-1 + eps) (1 - eps) := le_clamp (by linarith)
  have hhi : clamp (cos t) (-1 + eps) (1 - eps) ≤ 1 - eps := clamp_le
  have hn0 : arccos (clamp (cos t) (-1 + eps) (1 - eps)) ≠ 0 := by
    rw [Ne, Real.arccos_eq_zero]; linarith
  have hnp : arccos (clamp (cos t) (-1 + eps) (1 - eps)) ≠ π := by
    rw [Ne, Real.arccos_eq_pi]; linarith
  unfold so3Log
  simp only [rodrigues_trace u hu t]
  rw [if_neg hnp, if_neg hn0]
  ext i
  fin_cases i <;> simp [rodrigues] <;> ring

theorem so3Log_main (u : Fin 3 → ℝ) (hu : dot u u = 1) (t eps : ℝ) (he0 : 0 < eps)
    (he1 : eps < 1) (h1 : arccos (1 - eps) ≤ t) (h2 : t ≤ arccos (-1 + eps)) :
    0 < t ∧ t < π ∧ so3Log (rodrigues u t) eps = fun i => t * u i := by
  have p1 : 0 < arccos (1 - eps) := by rw [Real.arccos_pos]; linarith
  have p2 : arccos (-1 + eps) < π := by
    have := Real.arccos_lt_arccos (x := -1) (y := -1 + eps) le_rfl (by linarith) (by linarith)
    rwa [Real.arccos_neg_one] at this
  have ht0 : 0 < t := by linarith
  have htp : t < π := by linarith
  have c1 : cos t ≤ 1 - eps := by
    have := Real.cos_le_cos_of_nonneg_of_le_pi (Real.arccos_nonneg _) htp.le h1
    rwa [Real.cos_arccos (by linarith) (by linarith)] at this
  have c2 : -1 + eps ≤ cos t := by
    have := Real.cos_le_cos_of_nonneg_of_le_pi ht0.le (Real.arccos_le_pi _) h2
    rwa [Real.cos_arccos (by linarith) (by linarith)] at this
  refine ⟨ht0, htp, ?_⟩
  rw [so3Log_rodrigues u hu t eps he0 he1, clamp_of_mem c2 c1, Real.arccos_cos ht0.le htp.le]
  have hs : sin t ≠ 0 := (Real.sin_pos_of_pos_of_lt_pi ht0 htp).ne'
  ext i
  field_simp

/-- Away from the identity and from half turns `so3_log` of the rotation by `t` about `u` is `t·u`.
(Missing for the full property: half turns, see `C23_violated`.) -/
theorem C23_value_partial (u : Fin 3 → ℝ) (hu : dot u u = 1) (t eps : ℝ) (he0 : 0 < eps)
    (he1 : eps < 1) (h1 : arccos (1 - eps) ≤ t) (h2 : t ≤ arccos (-1 + eps)) :
    so3Log (rodrigues u t) eps = (fun i => t * u i) ∧ vnorm (so3Log (rodrigues u t) eps) = t := by
  obtain ⟨ht0, -, e⟩ := so3Log_main u hu t eps he0 he1 h1 h2
  refine ⟨e, ?_⟩
  have : (fun i => t * u i) = t • u := rfl
  rw [e, this, vnorm_smul, vnorm_unit hu, abs_of_pos ht0, mul_one]

/-- The exponential undoes `so3_log` for every rotation matrix whose rotation angle
`acos((tr R - 1)/2)` stays away from `0` and `π`. -/
theorem C23_exp_log_partial (R : Mat3) (h : IsRotation R) (eps : ℝ) (he0 : 0 < eps) (he1 : eps < 1)
    (h1 : -1 + eps ≤ (R.trace - 1) / 2) (h2 : (R.trace - 1) / 2 ≤ 1 - eps) :
    expVec (so3Log R eps) = R ∧ vnorm (so3Log R eps) = arccos ((R.trace - 1) / 2) := by
  obtain ⟨u, t, hu, ht0, htp, rfl⟩ := exists_axis_angle h
  have htr : ((rodrigues u t).trace - 1) / 2 = cos t := by
    rw [Matrix.trace_fin_three, rodrigues_trace u hu]
  rw [htr] at h1 h2 ⊢
  have a1 : arccos (1 - eps) ≤ t := by
    have := Real.arccos_le_arccos h2
    rwa [Real.arccos_cos ht0 htp] at this
  have a2 : t ≤ arccos (-1 + eps) := by
    have := Real.arccos_le_arccos h1
    rwa [Real.arccos_cos ht0 htp] at this
  obtain ⟨e, en⟩ := C23_value_partial u hu t eps he0 he1 a1 a2
  obtain ⟨ht, -, -⟩ := so3Log_main u hu t eps he0 he1 a1 a2
  refine ⟨?_, by rw [en, Real.arccos_cos ht0 htp]⟩
  unfold expVec
  rw [en, e]
  congr 1
  ext i
  field_simp

/-- Near the identity (rotation angle below `acos(1-eps)`) the axis is kept and the length is
`sin t · θ₀ / sin θ₀` with `θ₀ = acos(1-eps)`; in particular the identity is sent to `0`. -/
theorem C23_small_partial (u : Fin 3 → ℝ) (hu : dot u u = 1) (t eps : ℝ) (he0 : 0 < eps)
    (he1 : eps < 1) (ht0 : 0 ≤ t) (h1 : t ≤ arccos (1 - eps)) :
    so3Log (rodrigues u t) eps =
      fun i => arccos (1 - eps) / sin (arccos (1 - eps)) * (sin t * u i) := by
  rw [so3Log_rodrigues u hu t eps he0 he1, clamp_of_ge]
  have := Real.cos_le_cos_of_nonneg_of_le_pi ht0 (Real.arccos_le_pi _) h1
  rwa [Real.cos_arccos (by linarith) (by linarith)] at this

theorem C23_identity (eps : ℝ) (he0 : 0 < eps) (he1 : eps < 1) :
    so3Log 1 eps = 0 := by
  have hu : dot ![(1 : ℝ), 0, 0] ![1, 0, 0] = 1 := by simp [dot, Fin.sum_univ_three]
  have e : rodrigues ![(1 : ℝ), 0, 0] 0 = 1 := by
    unfold rodrigues; simp
  rw [← e, C23_small_partial _ hu 0 eps he0 he1 le_rfl (Real.arccos_nonneg _)]
  ext i; simp

/-- At a half turn (about any axis) the returned vector is `0`, not a vector of length `π`. -/
theorem C23_half_turn (u : Fin 3 → ℝ) (hu : dot u u = 1) (eps : ℝ) (he0 : 0 < eps) (he1 : eps < 1) :
    so3Log (rodrigues u π) eps = 0 := by
  rw [so3Log_rodrigues u hu π eps he0 he1]
  ext i; simp

/-- The full property ("the logarithm of every rotation other than the identity exponentiates back
to it") is false of the code. -/
theorem C23_violated : ∃ R : Mat3, IsRotation R ∧ R ≠ 1 ∧
    so3Log R defaultEps = so3Log 1 defaultEps := by
  have hu : dot ![(1 : ℝ), 0, 0] ![1, 0, 0] = 1 := by simp [dot, Fin.sum_univ_three]
  refine ⟨rodrigues ![1, 0, 0] π, rodrigues_rotation _ hu _, ?_, ?_⟩
  · intro h
    have := congrFun (congrFun h 1) 1
    simp [rodrigues] at this
    norm_num at this
  · rw [C23_half_turn _ hu, C23_identity] <;> unfold defaultEps <;> norm_num

/-- the hypotheses of `C23_exp_log_partial` are met by a quarter turn with the default `eps`. -/
example : expVec (so3Log (matrixZ (π / 2)) defaultEps) = matrixZ (π / 2) := by
  have htr : (matrixZ (π / 2)).trace = 1 := by simp [matrixZ, Matrix.trace_fin_three]
  apply (C23_exp_log_partial _ (C14_z 0 _).1 _ _ _ _ _).1 <;> unfold defaultEps <;>
    (try rw [htr]) <;> norm_num

/-! ## C24 -/

theorem C24_unit (u : Fin 3 → ℝ) (hu : dot u u = 1) (t : ℝ) (h0 : 0 < t) (h1 : t < π) :
    quaternionLog ![cos t, sin t * u 0, sin t * u 1, sin t * u 2] =
      ![0, t * u 0, t * u 1, t * u 2] := by
  have hs : 0 < sin t := Real.sin_pos_of_pos_of_lt_pi h0 h1
  have hq : vnorm ![cos t, sin t * u 0, sin t * u 1, sin t * u 2] = 1 := by
    apply vnorm_unit
    rw [dot3] at hu
    rw [dot4]; simp
    linear_combination Real.cos_sq_add_sin_sq t + sin t ^ 2 * hu
  have hv : vnorm ![sin t * u 0, sin t * u 1, sin t * u 2] = sin t := by
    have : ![sin t * u 0, sin t * u 1, sin t * u 2] = sin t • u := by
      ext i; fin_cases i <;> simp
    rw [this, vnorm_smul, vnorm_unit hu, abs_of_pos hs, mul_one]
  unfold quaternionLog
  simp only [Matrix.cons_val_zero, Matrix.cons_val_one, Matrix.cons_val, hq, hv]
  rw [if_neg hs.ne', Real.log_one, div_one, Real.arccos_cos h0.le h1.le]
  ext i
  fin_cases i <;> simp <;> field_simp

theorem C24_identity : quaternionLog ![1, 0, 0, 0] = 0 := by
  unfold quaternionLog
  have h : vnorm ![(1 : ℝ), 0, 0, 0] = 1 := by
    apply vnorm_unit; rw [dot4]; simp
  simp only [Matrix.cons_val_zero, Matrix.cons_val_one, Matrix.cons_val, h]
  ext i
  fin_cases i <;> simp

theorem C24_scalar (q : Quat) : quaternionLog q 0 = log (√(∑ i, q i ^ 2)) := by
  simp [quaternionLog, vnorm]

/-- every unit quaternion except `±1` is covered by `C24_unit`. -/
theorem C24_covers (q : Quat) (hq : IsUnitQuat q) (h1 : q ≠ ![1, 0, 0, 0])
    (h2 : q ≠ ![-1, 0, 0, 0]) :
    ∃ (u : Fin 3 → ℝ) (t : ℝ), dot u u = 1 ∧ 0 < t ∧ t < π ∧
      q = ![cos t, sin t * u 0, sin t * u 1, sin t * u 2] := by
  have aux : ∀ p : Quat, IsUnitQuat p → 0 ≤ p 0 → p ≠ ![1, 0, 0, 0] →
      ∃ (u : Fin 3 → ℝ) (t : ℝ), dot u u = 1 ∧ 0 < t ∧ t < π ∧
      p = ![cos t, sin t * u 0, sin t * u 1, sin t * u 2] := by
    intro p hp h0 hne
    obtain ⟨u, s, hu, hs0, hs1, e⟩ := unitQuat_polar p hp h0
    refine ⟨u, s, hu, lt_of_le_of_ne hs0 ?_, by linarith [Real.pi_pos], e⟩
    rintro rfl
    apply hne; rw [e]; simp
  rcases le_total 0 (q 0) with h0 | h0
  · exact aux q hq h0 h1
  · have hn : IsUnitQuat (-q) := by
      have : IsUnitQuat ((-1 : ℝ) • q) := by
        apply isUnitQuat_smul; unfold IsUnitQuat at hq; rw [hq]; norm_num
      simpa using this
    obtain ⟨u, t, hu, ht0, ht1, e⟩ := aux (-q) hn (by simpa using h0)
      (by intro h; apply h2; rw [← neg_neg q, h]; simp)
    refine ⟨-u, π - t, by simpa [dot] using hu, by linarith, by linarith, ?_⟩
    rw [← neg_neg q, e, Real.cos_pi_sub, Real.sin_pi_sub]
    ext i; fin_cases i <;> simp

/-! ## C25 -/

theorem C25_symm (p q : Quat) (eps : ℝ) : geodesicDistance p q eps = geodesicDistance q p eps := by
  unfold geodesicDistance; simp only [mul_comm]

theorem C25_sign (p q : Quat) (eps : ℝ) :
    geodesicDistance (-p) q eps = geodesicDistance p q eps ∧
    geodesicDistance p (-q) eps = geodesicDistance p q eps := by
  unfold geodesicDistance; simp

theorem dot_hmul_left (g p q : Quat) : dot (hmul g p) (hmul g q) = dot g g * dot p q := by
  simp [hmul_eq, dot, Fin.sum_univ_four]; ring
theorem dot_hmul_right (g p q : Quat) : dot (hmul p g) (hmul q g) = dot g g * dot p q := by
  simp [hmul_eq, dot, Fin.sum_univ_four]; ring

theorem geodesic_eq_dot (p q : Quat) (eps : ℝ) :
    geodesicDistance p q eps = arccos (clamp |dot p q| (-1 + eps) (1 - eps)) := rfl

theorem C25_invariant (g p q : Quat) (hg : IsUnitQuat g) (eps : ℝ) :
    geodesicDistance (hmul g p) (hmul g q) eps = geodesicDistance p q eps ∧
    geodesicDistance (hmul p g) (hmul q g) eps = geodesicDistance p q eps := by
  unfold IsUnitQuat at hg
  simp only [geodesic_eq_dot, dot_hmul_left, dot_hmul_right, hg, one_mul, and_self]

theorem C25_range (p q : Quat) (eps : ℝ) (he0 : 0 ≤ eps) (he1 : eps ≤ 1) :
    arccos (1 - eps) ≤ geodesicDistance p q eps ∧ geodesicDistance p q eps ≤ π / 2 := by
  unfold geodesicDistance
  constructor
  · exact Real.arccos_le_arccos clamp_le
  · rw [Real.arccos_le_pi_div_two]
    exact le_min (le_max_of_le_left (abs_nonneg _)) (by linarith)

theorem trace_rel (p q : Quat) (hp : IsUnitQuat p) (hq : IsUnitQuat q) :
    ((quatToMatrix p).transpose * quatToMatrix q).trace = 4 * dot p q ^ 2 - 1 := by
  unfold IsUnitQuat at hp hq
  rw [dot4] at hp hq
  simp [Matrix.trace_fin_three, Matrix.mul_apply, Fin.sum_univ_three, quatToMatrix, dot,
    Fin.sum_univ_four]
  linear_combination (-(q 0 ^ 2 + q 1 ^ 2 + q 2 ^ 2 + q 3 ^ 2)) * hp - hq

/-- the distance is half the rotation angle of `R₁ᵀ R₂`. -/
theorem C25_half_angle (p q : Quat) (hp : IsUnitQuat p) (hq : IsUnitQuat q) (eps : ℝ)
    (he0 : 0 ≤ eps) (he1 : eps ≤ 1) (h : |dot p q| ≤ 1 - eps) :
    geodesicDistance p q eps =
      arccos ((((quatToMatrix p).transpose * quatToMatrix q).trace - 1) / 2) / 2 := by
  rw [geodesic_eq_dot, clamp_of_mem (by linarith [abs_nonneg (dot p q)]) h, trace_rel p q hp hq]
  have hd := abs_nonneg (dot p q)
  have e : (4 * dot p q ^ 2 - 1 - 1) / 2 = cos (2 * arccos |dot p q|) := by
    rw [Real.cos_two_mul, Real.cos_arccos (by linarith) (by linarith), sq_abs]; ring
  rw [e, Real.arccos_cos]
  · ring
  · have := Real.arccos_nonneg |dot p q|; linarith
  · have := Real.arccos_le_pi_div_two.2 hd; linarith

/-- in terms of the relative rotation: if `R₁ᵀ R₂` turns by `t` about some axis, the distance is
`t/2`. -/
theorem C25_relative_angle (p q : Quat) (hp : IsUnitQuat p) (hq : IsUnitQuat q) (eps : ℝ)
    (he0 : 0 ≤ eps) (he1 : eps ≤ 1) (h : |dot p q| ≤ 1 - eps) (u : Fin 3 → ℝ) (hu : dot u u = 1)
    (t : ℝ) (ht0 : 0 ≤ t) (ht1 : t ≤ π)
    (hr : (quatToMatrix p).transpose * quatToMatrix q = rodrigues u t) :
    geodesicDistance p q eps = t / 2 := by
  rw [C25_half_angle p q hp hq eps he0 he1 h, hr, Matrix.trace_fin_three, rodrigues_trace u hu,
    Real.arccos_cos ht0 ht1]

example : |dot ![(1 : ℝ), 0, 0, 0] ![1 / 2, 1 / 2, 1 / 2, 1 / 2]| ≤ 1 - defaultEps := by
  unfold defaultEps; simp [dot, Fin.sum_univ_four]; norm_num

/-! ## C26 -/

theorem sort_second (l : List ℝ) (i : ℕ) (hi : i < l.length) (h2 : 2 ≤ l.length)
    (hmin : ∀ x ∈ l, l[i] ≤ x) :
    (∃ j, ∃ h : j < l.length, j ≠ i ∧ (sortL l).getD 1 0 = l[j]) ∧
    (∀ j, ∀ h : j < l.length, j ≠ i → (sortL l).getD 1 0 ≤ l[j]) := by
  classical
  have hperm : (sortL l).Perm l := List.mergeSort_perm _ _
  have hsorted : (sortL l).Pairwise (· ≤ ·) := by
    have := List.pairwise_mergeSort (le := fun a b : ℝ => decide (a ≤ b))
      (by intro a b c; simp; exact le_trans) (by intro a b; simp; exact le_total a b) l
    unfold sortL
    simpa using this
  rcases hs : sortL l with _ | ⟨a, _ | ⟨b, s⟩⟩
  · rw [hs] at hperm; have := hperm.length_eq; simp at this; omega
  · rw [hs] at hperm; have := hperm.length_eq; simp at this; omega
  rw [hs] at hperm hsorted
  have ha : a = l[i] := by
    apply le_antisymm
    · have hmem : l[i] ∈ a :: b :: s := hperm.mem_iff.2 (List.getElem_mem hi)
      rcases List.mem_cons.1 hmem with e | e
      · exact e.ge
      · exact (List.pairwise_cons.1 hsorted).1 _ e
    · exact hmin _ (hperm.mem_iff.1 (by simp))
  have hp2 : (b :: s).Perm (l.eraseIdx i) := by
    have h1 : (l[i] :: l.eraseIdx i).Perm l := List.getElem_cons_eraseIdx_perm hi
    rw [ha] at hperm
    exact (hperm.trans h1.symm).cons_inv
  have hb := (List.pairwise_cons.1 (List.pairwise_cons.1 hsorted).2).1
  constructor
  · have : b ∈ l.eraseIdx i := hp2.mem_iff.1 (by simp)
    obtain ⟨j, hj, hne, e⟩ := List.mem_eraseIdx_iff_getElem.1 this
    exact ⟨j, hj, hne, by simpa using e.symm⟩
  · intro j hj hne
    have : l[j] ∈ b :: s := hp2.mem_iff.2 (List.mem_eraseIdx_iff_getElem.2 ⟨j, hj, hne, rfl⟩)
    rcases List.mem_cons.1 this with e | e
    · simp [e]
    · simpa using hb _ e

/-- entry `i` is the minimum of the distances from `q[i]` to the other elements. -/
theorem C26_min (q : List Quat) (hq : ∀ a ∈ q, IsUnitQuat a) (h2 : 2 ≤ q.length) :
    ∃ r, nearestNeighbourDistance q = .ok r ∧ r.length = q.length ∧
      ∀ i (hi : i < q.length), ∃ d, r[i]? = some d ∧
        (∃ j, ∃ h : j < q.length, j ≠ i ∧ d = geodesicDistance q[i] q[j] defaultEps) ∧
        (∀ j, ∀ h : j < q.length, j ≠ i → d ≤ geodesicDistance q[i] q[j] defaultEps) := by
  refine ⟨_, if_neg (by omega), by simp, ?_⟩
  intro i hi
  have hmin : ∀ x ∈ q.map (fun b => geodesicDistance q[i] b defaultEps),
      (q.map (fun b => geodesicDistance q[i] b defaultEps))[i]'(by simpa using hi) ≤ x := by
    intro x hx
    obtain ⟨b, hb, rfl⟩ := List.mem_map.1 hx
    rw [List.getElem_map]
    have hu := hq _ (List.getElem_mem hi)
    unfold IsUnitQuat at hu
    rw [geodesic_eq_dot q[i] q[i], hu, abs_one,
      clamp_of_ge (by unfold defaultEps; norm_num : 1 - defaultEps ≤ (1 : ℝ))]
    exact (C25_range _ _ _ (by unfold defaultEps; norm_num) (by unfold defaultEps; norm_num)).1
  obtain ⟨⟨j, hj, hne, e⟩, hall⟩ := sort_second _ i (by simpa using hi) (by simpa using h2) hmin
  refine ⟨_, by rw [List.getElem?_map, List.getElem?_eq_getElem hi]; rfl, ⟨j, by simpa using hj, hne, ?_⟩, ?_⟩
  · rw [List.getElem_map] at e; exact e
  · intro j hj hne
    have := hall j (by simpa using hj) hne
    rwa [List.getElem_map] at this

theorem C26_error (q : List Quat) (h : q.length < 2) :
    nearestNeighbourDistance q = .error .indexError := if_pos h

/-- the same for grids of rotation matrices, which are converted first. -/
theorem C26_matrix (r : List Mat3) (hr : ∀ a ∈ r, IsRotation a) (h2 : 2 ≤ r.length) :
    ∃ d, nearestNeighbourDistanceMatrix r = .ok d ∧ d.length = r.length ∧
      ∀ i (hi : i < r.length), ∃ x, d[i]? = some x ∧
        (∃ j, ∃ h : j < r.length, j ≠ i ∧
          x = geodesicDistance (matrixToQuat r[i]) (matrixToQuat r[j]) defaultEps) ∧
        (∀ j, ∀ h : j < r.length, j ≠ i →
          x ≤ geodesicDistance (matrixToQuat r[i]) (matrixToQuat r[j]) defaultEps) := by
  obtain ⟨d, e, hl, hd⟩ := C26_min (r.map matrixToQuat)
    (by intro a ha; obtain ⟨R, hR, rfl⟩ := List.mem_map.1 ha
        exact (C16_unit_and_inverse R (hr R hR)).1) (by simpa using h2)
  refine ⟨d, e, by simpa using hl, ?_⟩
  intro i hi
  obtain ⟨x, hx, ⟨j, hj, hne, e1⟩, hall⟩ := hd i (by simpa using hi)
  refine ⟨x, hx, ⟨j, by simpa using hj, hne, ?_⟩, ?_⟩
  · simpa only [List.getElem_map] using e1
  · intro j hj hne
    have hj' : j < (r.map matrixToQuat).length := by simpa using hj
    have := hall j hj' hne
    rwa [List.getElem_map, List.getElem_map] at this

/-! ## C29 -/

theorem turn_eq (n : ℕ) :
    (linspace 0 (2 * π) (n + 1)).dropLast = (List.range n).map (fun k : ℕ => 2 * π * k / n) :=
  SO2.uniformGrid_eq n

/-- generic: a one-parameter rotation group sampled at the `n` multiples of `2π/n`. -/
theorem cyclic_generic (f : ℝ → Mat3) (hrot : ∀ t, IsRotation (f t))
    (hadd : ∀ s t, f (s + t) = f s * f t) (hper : ∀ t, f (t + 2 * π) = f t) (n : ℕ) (g : List Quat)
    (hg : g = (linspace 0 (2 * π) (n + 1)).dropLast.map fun t => matrixToQuat (f t)) :
    g.length = n ∧
    (∀ k, k < n → ∃ q, g[k]? = some q ∧ IsUnitQuat q ∧ quatToMatrix q = f (2 * π * k / n)) ∧
    (∀ p ∈ g, ∀ q ∈ g, ∃ r ∈ g, r = hmul p q ∨ r = -hmul p q) := by
  rw [turn_eq, List.map_map] at hg
  have hunit : ∀ k : ℕ, IsUnitQuat (matrixToQuat (f (2 * π * k / n))) ∧
      quatToMatrix (matrixToQuat (f (2 * π * k / n))) = f (2 * π * k / n) :=
    fun k => C16_unit_and_inverse _ (hrot _)
  refine ⟨by rw [hg]; simp, ?_, ?_⟩
  · intro k hk
    exact ⟨_, by rw [hg]; simp [hk], hunit k⟩
  · intro p hp q hq
    rw [hg] at hp hq
    obtain ⟨k, hk, rfl⟩ := List.mem_map.1 hp
    obtain ⟨l, hl, rfl⟩ := List.mem_map.1 hq
    have hkn := List.mem_range.1 hk
    have hln := List.mem_range.1 hl
    have hn0 : (n : ℝ) ≠ 0 := by
      have : n ≠ 0 := by omega
      exact_mod_cast this
    have hm : f (2 * π * ((k + l) % n : ℕ) / n) = f (2 * π * k / n) * f (2 * π * l / n) := by
      rw [← hadd]
      by_cases hlt : k + l < n
      · rw [Nat.mod_eq_of_lt hlt]; congr 1; push_cast; ring
      · rw [Nat.mod_eq_sub_mod (not_lt.1 hlt), Nat.mod_eq_of_lt (by omega), ← hper]
        congr 1
        rw [Nat.cast_sub (not_lt.1 hlt)]; push_cast
        field_simp
        ring
    refine ⟨matrixToQuat (f (2 * π * ((k + l) % n : ℕ) / n)), by
      rw [hg]; exact List.mem_map.2 ⟨(k + l) % n, List.mem_range.2
      (Nat.mod_lt _ (by omega)), rfl⟩, ?_⟩
    have hu1 := hunit k; have hu2 := hunit l; have hu3 := hunit ((k + l) % n)
    simp only [Function.comp]
    rw [hm] at hu3 ⊢
    generalize matrixToQuat (f (2 * π * k / n)) = P at *
    generalize matrixToQuat (f (2 * π * l / n)) = Q at *
    generalize matrixToQuat (f (2 * π * k / n) * f (2 * π * l / n)) = T at *
    refine quat_eq_or_neg hu3.1 ?_ ?_
    · have a1 := hu1.1; have a2 := hu2.1
      unfold IsUnitQuat at a1 a2 ⊢
      rw [dot_hmul_left, a1, a2, one_mul]
    · rw [C15_product, hu1.2, hu2.2, hu3.2]

theorem C29_x (n : ℕ) :
    (cyclicX n).length = n ∧
    (∀ k, k < n → ∃ q, (cyclicX n)[k]? = some q ∧ IsUnitQuat q ∧
      quatToMatrix q = rodrigues ![1, 0, 0] (2 * π * k / n)) ∧
    (∀ p ∈ cyclicX n, ∀ q ∈ cyclicX n, ∃ r ∈ cyclicX n, r = hmul p q ∨ r = -hmul p q) := by
  have := cyclic_generic matrixX (fun t => (C14_x 0 t).1) (fun s t => (C14_x s t).2.2.1)
    (by intro t; unfold matrixX; rw [Real.cos_add_two_pi, Real.sin_add_two_pi]) n (cyclicX n) rfl
  simpa only [(C14_axis_angle _).1] using this

theorem C29_y (n : ℕ) :
    (cyclicY n).length = n ∧
    (∀ k, k < n → ∃ q, (cyclicY n)[k]? = some q ∧ IsUnitQuat q ∧
      quatToMatrix q = rodrigues ![0, 1, 0] (2 * π * k / n)) ∧
    (∀ p ∈ cyclicY n, ∀ q ∈ cyclicY n, ∃ r ∈ cyclicY n, r = hmul p q ∨ r = -hmul p q) := by
  have := cyclic_generic matrixY (fun t => (C14_y 0 t).1) (fun s t => (C14_y s t).2.2.1)
    (by intro t; unfold matrixY; rw [Real.cos_add_two_pi, Real.sin_add_two_pi]) n (cyclicY n) rfl
  simpa only [(C14_axis_angle _).2.1] using this

theorem C29_z (n : ℕ) :
    (cyclicZ n).length = n ∧
    (∀ k, k < n → ∃ q, (cyclicZ n)[k]? = some q ∧ IsUnitQuat q ∧
      quatToMatrix q = rodrigues ![0, 0, 1] (2 * π * k / n)) ∧
    (∀ p ∈ cyclicZ n, ∀ q ∈ cyclicZ n, ∃ r ∈ cyclicZ n, r = hmul p q ∨ r = -hmul p q) := by
  have := cyclic_generic matrixZ (fun t => (C14_z 0 t).1) (fun s t => (C14_z s t).2.2.1)
    (by intro t; unfold matrixZ; rw [Real.cos_add_two_pi, Real.sin_add_two_pi]) n (cyclicZ n) rfl
  simpa only [(C14_axis_angle _).2.2] using this

/-- `cyclic` dispatches on the axis letter, in either case, and rejects every other string. -/
theorem toLower_eq (a : String) (c C : Char) (h : ∀ d : Char, d.toLower = c ↔ d = c ∨ d = C) :
    a.toLower = String.ofList [c] ↔ a = String.ofList [c] ∨ a = String.ofList [C] := by
  rw [← String.toList_inj, ← String.toList_inj, ← String.toList_inj, String.toLower,
    String.toList_map]
  simp only [String.toList_ofList]
  rcases ha : a.toList with _ | ⟨d, _ | ⟨e, l⟩⟩
  · simp
  · simp [h]
  · simp

theorem lower_char (d : Char) (c C : Char) (h1 : c.val.toNat = C.val.toNat + 32)
    (h2 : 65 ≤ C.val.toNat) (h3 : C.val.toNat ≤ 90) : d.toLower = c ↔ d = c ∨ d = C := by
  have hv : ∀ a b : Char, a = b ↔ a.val.toNat = b.val.toNat := by
    intro a b
    rw [← Char.val_inj, UInt32.toNat_inj]
  unfold Char.toLower
  rw [hv d c, hv d C]
  split_ifs with h
  · rw [hv]
    obtain ⟨ha, hb⟩ := h
    have ha' : 65 ≤ d.val.toNat := by simpa [UInt32.le_iff_toNat_le] using ha
    have hb' : d.val.toNat ≤ 90 := by simpa [UInt32.le_iff_toNat_le] using hb
    have e : (d.val + ('a'.val - 'A'.val)).toNat = d.val.toNat + 32 := by
      rw [UInt32.toNat_add]
      have : ('a'.val - 'A'.val).toNat = 32 := by decide
      rw [this]; omega
    rw [e]
    omega
  · rw [hv]
    have h' : ¬ (65 ≤ d.val.toNat ∧ d.val.toNat ≤ 90) := by
      simpa [UInt32.le_iff_toNat_le] using h
    omega

theorem C29_dispatch (n : ℕ) (axis : String) :
    (axis = "x" ∨ axis = "X" → cyclic n axis = .ok (cyclicX n)) ∧
    (axis = "y" ∨ axis = "Y" → cyclic n axis = .ok (cyclicY n)) ∧
    (axis = "z" ∨ axis = "Z" → cyclic n axis = .ok (cyclicZ n)) ∧
    (axis ∉ ["x", "X", "y", "Y", "z", "Z"] → cyclic n axis = .error .valueError) := by
  have hx := toLower_eq axis 'x' 'X' (fun d => lower_char d _ _ (by decide) (by decide) (by decide))
  have hy := toLower_eq axis 'y' 'Y' (fun d => lower_char d _ _ (by decide) (by decide) (by decide))
  have hz := toLower_eq axis 'z' 'Z' (fun d => lower_char d _ _ (by decide) (by decide) (by decide))
  have ex : ∀ c, String.ofList [c] = String.ofList [c] := fun _ => rfl
  change axis.toLower = "x" ↔ axis = "x" ∨ axis = "X" at hx
  change axis.toLower = "y" ↔ axis = "y" ∨ axis = "Y" at hy
  change axis.toLower = "z" ↔ axis = "z" ∨ axis = "Z" at hz
  unfold cyclic
  refine ⟨?_, ?_, ?_, ?_⟩
  · intro h; rw [if_pos (hx.2 h)]
  · intro h; rw [if_neg, if_pos (hy.2 h)]
    rw [hx]; rcases h with rfl | rfl <;> decide
  · intro h; rw [if_neg, if_neg, if_pos (hz.2 h)]
    · rw [hy]; rcases h with rfl | rfl <;> decide
    · rw [hx]; rcases h with rfl | rfl <;> decide
  · intro h
    simp only [List.mem_cons, List.not_mem_nil, or_false, not_or] at h
    rw [if_neg, if_neg, if_neg]
    · rw [hz]; tauto
    · rw [hy]; tauto
    · rw [hx]; tauto

end GConv.SO3

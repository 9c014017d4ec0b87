import Verif.Model.S2
import Verif.Lemmas.Euler
import Verif.Props.SO3Euler

/-! # C36, C37 -/

namespace GConv.S2

open Real Spec SO3

/-! ## C36 -/

theorem C36_unit (g : Fin 2 → ℝ) : dot (sphericalToEuclid g) (sphericalToEuclid g) = 1 := by
  simp only [dot, Fin.sum_univ_three, sphericalToEuclid, Matrix.cons_val_zero, Matrix.cons_val_one,
    Matrix.cons_val]
  have h1 := Real.sin_sq_add_cos_sq (g 0)
  have h2 := Real.sin_sq_add_cos_sq (g 1)
  linear_combination (sin (g 0)) ^ 2 * h2 + h1

/-- every unit vector, poles included. -/
theorem C36_euclid_round_trip (x : Fin 3 → ℝ) (hx : dot x x = 1) :
    sphericalToEuclid (euclidToSpherical x) = x := by
  have hx' : x 0 ^ 2 + x 1 ^ 2 + x 2 ^ 2 = 1 := by rw [← hx]; simp [dot, Fin.sum_univ_three]; ring
  have hz : -1 ≤ x 2 ∧ x 2 ≤ 1 := by constructor <;> nlinarith [sq_nonneg (x 0), sq_nonneg (x 1)]
  have hs := Real.sin_arccos (x 2)
  have hss : √(1 - x 2 ^ 2) * √(1 - x 2 ^ 2) = 1 - x 2 ^ 2 :=
    Real.mul_self_sqrt (by nlinarith [sq_nonneg (x 0), sq_nonneg (x 1)])
  have ha := atan2_spec (x 0) (x 1) (√(1 - x 2 ^ 2)) (Real.sqrt_nonneg _) (by rw [hss]; linarith)
  ext i
  fin_cases i
  · simp [sphericalToEuclid, euclidToSpherical, hs, ha.1]
  · simp [sphericalToEuclid, euclidToSpherical, hs, ha.2]
  · simp [sphericalToEuclid, euclidToSpherical, Real.cos_arccos hz.1 hz.2]

theorem C36_spherical_round_trip (g : Fin 2 → ℝ) (h0 : 0 < g 0) (h1 : g 0 < π)
    (h2 : -π < g 1) (h3 : g 1 ≤ π) : euclidToSpherical (sphericalToEuclid g) = g := by
  have hs : 0 < sin (g 0) := Real.sin_pos_of_pos_of_lt_pi h0 h1
  ext i
  fin_cases i
  · simp [sphericalToEuclid, euclidToSpherical, Real.arccos_cos h0.le h1.le]
  · simp only [sphericalToEuclid, euclidToSpherical, Fin.mk_one, Matrix.cons_val_one,
      Matrix.cons_val_zero]
    have hp := atan2_polar (g 1) (sin (g 0)) hs
    obtain ⟨a1, a2⟩ := atan2_range (sin (g 0) * cos (g 1)) (sin (g 0) * sin (g 1))
    have hp0 := Real.pi_pos
    exact (eqMod_of_cos_sin hp.1 hp.2).elim fun k hk => by
      have : (k : ℝ) = 0 := by
        have l1 : -1 < (k : ℝ) := by nlinarith
        have l2 : (k : ℝ) < 1 := by nlinarith
        have : k = 0 := by
          have : -1 < k := by exact_mod_cast l1
          have : k < 1 := by exact_mod_cast l2
          omega
        exact_mod_cast this
      rw [hk, this]; ring

theorem C36_random (draws : List (Fin 3 → ℝ)) (h : ∀ x ∈ draws, x ≠ 0) :
    (randomS2 draws).length = draws.length ∧
    ∀ i (hi : i < draws.length), sphericalToEuclid ((randomS2 draws).getD i 0) =
      fun k => draws[i] k / √(∑ k, draws[i] k ^ 2) := by
  refine ⟨by simp [randomS2], fun i hi => ?_⟩
  have : (randomS2 draws).getD i 0 = euclidToSpherical (fun k => draws[i] k / vnorm draws[i]) := by
    simp [randomS2, hi]
  rw [this, C36_euclid_round_trip _ (dot_normalised (h _ (List.getElem_mem hi)))]
  rfl

example : euclidToSpherical (sphericalToEuclid ![π / 3, -π / 2]) = ![π / 3, -π / 2] := by
  have := Real.pi_pos
  apply C36_spherical_round_trip <;> simp <;> linarith

/-! ## C37 -/

/-- The rotation of the Euler triple maps the z axis to the point of the sphere (exactly without the
masking of tiny entries, within `eps` with it). -/
theorem C37_z_axis_partial (g : Fin 2 → ℝ) (eps : ℝ) (he : 0 ≤ eps) :
    ∃ e : Euler, sphericalToEuler [g] = .ok [e] ∧ e = ![0, g 0, g 1] ∧
      (eulerToMatrixRaw e).mulVec ![0, 0, 1] = sphericalToEuclid g ∧
      (∀ i, |(eulerToMatrix e eps).mulVec ![0, 0, 1] i - sphericalToEuclid g i| ≤ eps) ∧
      (eulerToMatrix e 0).mulVec ![0, 0, 1] = sphericalToEuclid g := by
  have hraw : (eulerToMatrixRaw ![0, g 0, g 1]).mulVec ![0, 0, 1] = sphericalToEuclid g := by
    ext i
    fin_cases i <;>
      simp [eulerToMatrixRaw, sphericalToEuclid, Matrix.mulVec, dotProduct, Fin.sum_univ_three,
        mul_comm]
  have hcol : ∀ (M : Mat3) i, M.mulVec ![0, 0, 1] i = M i 2 := by
    intro M i
    simp [Matrix.mulVec, dotProduct, Fin.sum_univ_three]
  refine ⟨_, rfl, rfl, hraw, fun i => ?_, ?_⟩
  · rw [← hraw, hcol, hcol]
    simp only [eulerToMatrix, Matrix.of_apply]
    set r := eulerToMatrixRaw ![0, g 0, g 1] i 2
    by_cases h : r > eps ∨ r < -eps
    · rw [if_pos h]; simpa using he
    · rw [if_neg h, mul_zero, zero_sub, abs_neg, abs_le]
      push Not at h
      exact ⟨h.2, h.1⟩
  · rw [← hraw]
    ext i
    rw [hcol, hcol]
    simp only [eulerToMatrix, Matrix.of_apply]
    set r := eulerToMatrixRaw ![0, g 0, g 1] i 2
    by_cases h : r > 0 ∨ r < -0
    · rw [if_pos h, mul_one]
    · rw [if_neg h, mul_zero]
      push Not at h
      have := h.2
      rw [neg_zero] at this
      exact le_antisymm this h.1

/-- dispatch of `uniform_grid_s2`: what every string gives (case-insensitive), in particular
rejection of unknown strings (by an UnboundLocalError). -/
theorem C37_dispatch_partial (grid : List (Fin 2 → ℝ)) (p : String) :
    (p.toLower = "spherical" → ∀ b, uniformGridS2 grid p b = .ok (.spherical grid)) ∧
    (p.toLower = "euclidean" → ∀ b,
      uniformGridS2 grid p b = .ok (.euclidean (grid.map sphericalToEuclid))) ∧
    (p.toLower = "euler" → uniformGridS2 grid p false =
      .ok (.euler (grid.map fun g => ![0, g 0, g 1]))) ∧
    (p.toLower = "matrix" → uniformGridS2 grid p false =
      .ok (.matrix (grid.map fun g => eulerToMatrix ![0, g 0, g 1] defaultEpsETM))) ∧
    (p.toLower = "quat" → uniformGridS2 grid p false =
      .ok (.quat (grid.map fun g => eulerToQuat ![0, g 0, g 1] defaultEpsETM))) ∧
    (p.toLower ∉ ["spherical", "euclidean", "euler", "matrix", "quat"] → ∀ b,
      uniformGridS2 grid p b = .error .unboundLocalError) := by
  unfold uniformGridS2
  refine ⟨?_, ?_, ?_, ?_, ?_, ?_⟩
  · intro h b; simp only [h, if_true]; rfl
  · intro h b; rw [h, if_neg (by decide), if_pos rfl]; rfl
  · intro h; rw [h, if_neg (by decide), if_neg (by decide), if_pos rfl]; rfl
  · intro h
    rw [h, if_neg (by decide), if_neg (by decide), if_neg (by decide), if_pos rfl]
    simp only [Bool.false_eq_true, if_false, sphericalToEuler]
    show Except.ok (Result.matrix _) = _
    rw [List.map_map]; rfl
  · intro h
    rw [h, if_neg (by decide), if_neg (by decide), if_neg (by decide), if_neg (by decide), if_pos rfl]
    simp only [Bool.false_eq_true, if_false, sphericalToEuler]
    show Except.ok (Result.quat _) = _
    rw [List.map_map]; rfl
  · intro h b
    simp only [List.mem_cons, List.not_mem_nil, or_false, not_or] at h
    rw [if_neg h.1, if_neg h.2.1, if_neg h.2.2.1, if_neg h.2.2.2.1, if_neg h.2.2.2.2]

/-- the `-gamma` variant is false of the code: with `set_alpha_as_neg_gamma=True` every rotation-valued
parameterization raises RuntimeError. -/
theorem C37_violated (grid : List (Fin 2 → ℝ)) (_hg : grid ≠ []) (p : String)
    (hp : p.toLower = "euler" ∨ p.toLower = "matrix" ∨ p.toLower = "quat") :
    uniformGridS2 grid p true = .error .runtimeError := by
  unfold uniformGridS2
  rcases hp with h | h | h
  · rw [h, if_neg (by decide), if_neg (by decide), if_pos rfl]; rfl
  · rw [h, if_neg (by decide), if_neg (by decide), if_neg (by decide), if_pos rfl]; rfl
  · rw [h, if_neg (by decide), if_neg (by decide), if_neg (by decide), if_neg (by decide), if_pos rfl]
    rfl

end GConv.S2

import Verif.Model.O2
import Verif.Props.SO2
import Verif.Lemmas.Coset
import Mathlib.Tactic.IntervalCases

/-! # Properties of O(2): C08 - C13 and the O(2) part of C04 -/

namespace GConv

open Real Spec Tensor

theorem SO2.gridSample_row (mode : String) :
    RowSampler (fun w g s sg => SO2.gridSample g s sg mode w) := by
  unfold SO2.gridSample
  by_cases h1 : mode = "rbf"
  · simp only [if_pos h1]
    exact interpolateRBF_row _ _
  · by_cases h2 : mode = "nearest"
    · simp only [if_neg h1, if_pos h2]
      exact interpolateNN_row _
    · simp only [if_neg h1, if_neg h2]
      exact errorSampler_row _

namespace O2

/-- A valid O(2) element: coefficient `±1`, any angle. -/
def Valid (h : Elt) : Prop := h.1 = 1 ∨ h.1 = -1

/-- Normalised: the angle lies in `[0, 2π)`. -/
def Normalised (h : Elt) : Prop := 0 ≤ h.2 ∧ h.2 < 2 * π

/-! ## C04 (O(2) part) -/

theorem C04_o2 (u v : List ℝ) (hl : u.length = v.length) (hu : ∀ x ∈ u, 0 ≤ x ∧ x < 1) :
    (randomGrid u v).length = u.length ∧ ∀ h ∈ randomGrid u v, Valid h ∧ Normalised h := by
  constructor
  · simp [randomGrid, SO2.randomGrid, hl]
  · rintro ⟨c, a⟩ h
    obtain ⟨hc, ha⟩ := List.of_mem_zip h
    refine ⟨?_, (SO2.C04_so2 u hu).2 a ha⟩
    obtain ⟨x, _, rfl⟩ := List.mem_map.1 hc
    unfold Valid
    by_cases hx : x > 0.5
    · left; simp only [if_pos hx]; norm_num
    · right; simp only [if_neg hx]; norm_num

example : ∀ h ∈ randomGrid [0.25, 0.5] [0.1, 0.9], Valid h ∧ Normalised h :=
  (C04_o2 [0.25, 0.5] [0.1, 0.9] rfl (by
    intro x hx
    rcases List.mem_cons.1 hx with rfl | hx
    · norm_num
    · rw [List.mem_singleton.1 hx]; norm_num)).2

/-! ## C08 -/

theorem C08_closed (a b : Elt) (ha : Valid a) (hb : Valid b) :
    Valid (leftApplyAngle a b) ∧ Normalised (leftApplyAngle a b) := by
  refine ⟨?_, SO2.C02_range a.2 b.2⟩
  unfold Valid leftApplyAngle at *
  rcases ha with h | h <;> rcases hb with h' | h' <;> simp [h, h']

theorem C08_assoc (a b c : Elt) :
    leftApplyAngle (leftApplyAngle a b) c = leftApplyAngle a (leftApplyAngle b c) := by
  ext
  · simp [leftApplyAngle, mul_assoc]
  · exact SO2.C02_assoc a.2 b.2 c.2

theorem C08_neutral (a : Elt) (ha : Normalised a) :
    leftApplyAngle (1, 0) a = a ∧ leftApplyAngle a (1, 0) = a := by
  constructor
  · ext
    · simp [leftApplyAngle]
    · exact (SO2.C02_neutral a.2 ha.1 ha.2).2
  · ext
    · simp [leftApplyAngle]
    · exact (SO2.C02_neutral a.2 ha.1 ha.2).1

theorem C08_inverse (a : Elt) (ha : Valid a) :
    leftApplyAngle (inverse a) a = (1, 0) ∧ leftApplyAngle a (inverse a) = (1, 0) := by
  have hc : a.1 * a.1 = 1 := by rcases ha with h | h <;> simp [h]
  constructor
  · ext
    · simpa [leftApplyAngle, inverse] using hc
    · have := (SO2.C02_inverse a.2).2
      simpa [leftApplyAngle, inverse, SO2.leftApplyAngle, SO2.inverseAngle] using this
  · ext
    · simpa [leftApplyAngle, inverse] using hc
    · have := (SO2.C02_inverse a.2).1
      simpa [leftApplyAngle, inverse, SO2.leftApplyAngle, SO2.inverseAngle] using this

theorem C08_det_mul (a b : Elt) : det (leftApplyAngle a b) = det a * det b := rfl

theorem C08_table (N M : ℕ) (R1 R2 : Tensor Elt) (h1 : R1.shape = [N]) (h2 : R2.shape = [M]) :
    (leftApplyToAngle R1 R2).shape = [N, M] ∧
    ∀ i j, (leftApplyToAngle R1 R2).get [i, j] = leftApplyAngle (R1.get [i]) (R2.get [j]) := by
  simp [leftApplyToAngle, pairwise, leftApplyAngle, h1, h2]

example : Valid (-1, π / 3) ∧ Normalised (-1, π / 3) := by
  have := Real.pi_pos
  refine ⟨Or.inr rfl, ?_, ?_⟩ <;> simp <;> linarith

/-! ## C09 -/

/-- the action of one element on one vector, through the API. -/
noncomputable def act1 (a : Elt) (v : Fin 2 → ℝ) : Fin 2 → ℝ :=
  (leftApplyToR2 ⟨[1], fun _ => a⟩ ⟨[1, 1], fun _ => v⟩).get [0, 0, 0]

theorem act1_eq (a : Elt) (v : Fin 2 → ℝ) : act1 a v = a.1 • SO2.act1 a.2 v := rfl

theorem C09_pointwise (N W H : ℕ) (R : Tensor Elt) (grid : Tensor (Fin 2 → ℝ))
    (hR : R.shape = [N]) (hg : grid.shape = [W, H]) :
    (leftApplyToR2 R grid).shape = [N, W, H] ∧
    ∀ n w h, (leftApplyToR2 R grid).get [n, w, h] = act1 (R.get [n]) (grid.get [w, h]) := by
  refine ⟨?_, fun n w h => rfl⟩
  simp [leftApplyToR2, SO2.leftApplyAngleToR2, SO2.leftApplyMatrixToR2, pairwise, Tensor.map, hR, hg]

theorem C09_value (c t : ℝ) (v : Fin 2 → ℝ) :
    act1 (c, t) v = ![c * (cos t * v 0 - sin t * v 1), c * (sin t * v 0 + cos t * v 1)] := by
  ext i
  fin_cases i
  · simp [act1_eq, SO2.act1_eq, SO2.angleToMatrix, Matrix.mulVec, dotProduct, Fin.sum_univ_two,
      sub_eq_add_neg]
  · simp [act1_eq, SO2.act1_eq, SO2.angleToMatrix, Matrix.mulVec, dotProduct, Fin.sum_univ_two]

theorem C09_isometry (a : Elt) (ha : Valid a) (v w : Fin 2 → ℝ) :
    dot (act1 a v) (act1 a w) = dot v w := by
  have hc : a.1 * a.1 = 1 := by rcases ha with h | h <;> simp [h]
  rw [← SO2.C05_isometry a.2 v w, act1_eq, act1_eq]
  simp only [dot, Fin.sum_univ_two, Pi.smul_apply, smul_eq_mul]
  linear_combination (SO2.act1 a.2 v 0 * SO2.act1 a.2 w 0 + SO2.act1 a.2 v 1 * SO2.act1 a.2 w 1) * hc

theorem C09_compose (a b : Elt) (v : Fin 2 → ℝ) :
    act1 (leftApplyAngle a b) v = act1 a (act1 b v) := by
  rw [act1_eq, act1_eq, act1_eq]
  change (a.1 * b.1) • SO2.act1 (SO2.leftApplyAngle a.2 b.2) v = _
  simp only [SO2.act1_eq, SO2.C01_product, ← Matrix.mulVec_mulVec, Matrix.mulVec_smul, smul_smul]

theorem C09_inverse (a : Elt) (ha : Valid a) (v : Fin 2 → ℝ) :
    act1 (inverse a) (act1 a v) = v ∧ act1 a (act1 (inverse a) v) = v := by
  rw [← C09_compose, ← C09_compose, (C08_inverse a ha).1, (C08_inverse a ha).2]
  simp [act1_eq, SO2.C05_identity]

/-! ## C10 -/

/-- the 2x2 matrix of the map by which an element acts on the plane. -/
noncomputable def actionMatrix (a : Elt) : Matrix (Fin 2) (Fin 2) ℝ :=
  Matrix.of fun i j => act1 a (Pi.single j 1) i

theorem actionMatrix_spec (a : Elt) (v : Fin 2 → ℝ) : (actionMatrix a).mulVec v = act1 a v := by
  ext i
  fin_cases i <;>
    simp [actionMatrix, act1_eq, SO2.act1_eq, SO2.angleToMatrix, Matrix.mulVec, dotProduct,
      Fin.sum_univ_two, Pi.single_apply] <;> ring

/-- What holds: the transformation always has determinant `1`, hence `det` is right exactly for
coefficient `1`; an element with coefficient `-1` acts like a rotation by an extra half turn. -/
theorem C10_partial (a : Elt) (ha : Valid a) :
    (actionMatrix a).det = 1 ∧ (det a = (actionMatrix a).det ↔ a.1 = 1) ∧
    ∀ t v, act1 (-1, t) v = act1 (1, SO2.leftApplyAngle t π) v := by
  have hc : a.1 * a.1 = 1 := by rcases ha with h | h <;> simp [h]
  have hd : (actionMatrix a).det = 1 := by
    simp [actionMatrix, act1_eq, SO2.act1_eq, SO2.angleToMatrix, Matrix.det_fin_two, Matrix.mulVec,
      dotProduct, Fin.sum_univ_two, Pi.single_apply]
    linear_combination (cos a.2 ^ 2 + sin a.2 ^ 2) * hc + Real.cos_sq_add_sin_sq a.2
  refine ⟨hd, by rw [hd]; rfl, ?_⟩
  intro t v
  ext i
  fin_cases i <;>
    simp [act1_eq, SO2.act1_eq, SO2.angleToMatrix, Matrix.mulVec, dotProduct,
      Fin.sum_univ_two, SO2.leftApplyAngle, cos_pyMod, sin_pyMod, Real.cos_add, Real.sin_add] <;> ring

/-- C10 is false of the code: every valid element with coefficient `-1` has a wrong determinant, and
two different normalised elements act identically. -/
theorem C10_violated :
    (∀ t, det (-1, t) ≠ (actionMatrix (-1, t)).det) ∧
    ∃ a b : Elt, Valid a ∧ Valid b ∧ Normalised a ∧ Normalised b ∧ a ≠ b ∧
      ∀ v, act1 a v = act1 b v := by
  constructor
  · intro t
    rw [(C10_partial (-1, t) (Or.inr rfl)).1]; norm_num [det]
  · have := Real.pi_pos
    refine ⟨(-1, 0), (1, SO2.leftApplyAngle 0 π), Or.inr rfl, Or.inl rfl,
      ⟨le_rfl, by simpa using this⟩, SO2.C02_range 0 π, ?_, fun v => ?_⟩
    · intro h
      have := congrArg Prod.fst h
      norm_num at this
    · exact (C10_partial (1, 0) (Or.inl rfl)).2.2 0 v

/-! ## C11 (O(2)) -/

theorem C11_o2 (n m : ℕ) :
    (uniformGrid n m).length = n + m ∧
    (∀ i, i < n → (uniformGrid n m)[i]? = some (1, 2 * π * i / n)) ∧
    (∀ i, i < m → (uniformGrid n m)[n + i]? = some (-1, 2 * π * i / m)) := by
  refine ⟨by simp [uniformGrid, SO2.C03_length], ?_, ?_⟩
  · intro i hi
    have h1 := SO2.C03_value n i hi
    rw [List.getElem?_eq_some_iff] at h1
    obtain ⟨hl, h1⟩ := h1
    rw [List.getElem?_eq_some_iff]
    refine ⟨by simp [uniformGrid, SO2.C03_length]; omega, ?_⟩
    simp [uniformGrid, List.getElem_append, hi, SO2.C03_length, h1]
  · intro i hi
    have h1 := SO2.C03_value m i hi
    rw [List.getElem?_eq_some_iff] at h1
    obtain ⟨hl, h1⟩ := h1
    rw [List.getElem?_eq_some_iff]
    refine ⟨by simp [uniformGrid, SO2.C03_length]; omega, ?_⟩
    simp [uniformGrid, List.getElem_append, SO2.C03_length, h1]

/-! ## C12 / C13 (O(2)) -/

/-- Row order.  `nRot`, `nRef` are the sizes of the two sub-signals; if a sub-signal is empty the query
contains no element of that coset (otherwise see `C13_o2`); the rotation sampler is assumed to succeed on
each non-empty sub-signal (for a fixed sub-signal, success does not depend on the query). -/
theorem C12_o2 (grid : Tensor Elt) (signal : Tensor ℝ) (sg : Tensor Elt)
    (n S nRot nRef : ℕ) (mode : String) (wr wf : ℝ)
    (hg : grid.shape = [n]) (hsig : signal.shape = [nRot + nRef, S])
    (hsg : sg.shape = [nRot + nRef])
    (hcoef : ∀ i < n, Valid (grid.get [i]))
    (okR : nRot ≠ 0 → ∃ q o, SO2.gridSample q (signal.slice0 0 nRot)
      ((sg.slice0 0 nRot).map Prod.snd) mode wr = .ok o)
    (okF : nRef ≠ 0 → ∃ q o, SO2.gridSample q (signal.drop0 nRot)
      ((sg.drop0 nRot).map Prod.snd) mode wf = .ok o)
    (hR : nRot = 0 → ∀ i < n, (grid.get [i]).1 ≠ 1)
    (hF : nRef = 0 → ∀ i < n, (grid.get [i]).1 ≠ -1) :
    ∃ out, gridSample grid signal sg nRot nRef mode wr wf = .ok out ∧ out.shape = [n, S] ∧
      ∀ i < n,
        ((grid.get [i]).1 = 1 → ∃ o1,
          SO2.gridSample ⟨[1], fun _ => (grid.get [i]).2⟩ (signal.slice0 0 nRot)
            ((sg.slice0 0 nRot).map Prod.snd) mode wr = .ok o1 ∧
          ∀ c, out.get [i, c] = o1.get [0, c]) ∧
        ((grid.get [i]).1 = -1 → ∃ o1,
          SO2.gridSample ⟨[1], fun _ => (grid.get [i]).2⟩ (signal.drop0 nRot)
            ((sg.drop0 nRot).map Prod.snd) mode wf = .ok o1 ∧
          ∀ c, out.get [i, c] = o1.get [0, c]) :=
  (cosetSample_spec (coef := Prod.fst) (rot := Prod.snd) (SO2.gridSample_row mode) grid n S nRot nRef
    signal sg wr wf hg hsig hcoef
    (fun h0 q' _ _ => by
      obtain ⟨q, o, ho⟩ := okR h0
      exact (SO2.gridSample_row mode).total (half_le signal sg Prod.snd nRot (by rw [hsg, hsig]; rfl)).1 ho q')
    (fun h0 q' _ _ => by
      obtain ⟨q, o, ho⟩ := okF h0
      exact (SO2.gridSample_row mode).total (half_le signal sg Prod.snd nRot (by rw [hsg, hsig]; rfl)).2 ho q')).1 ⟨hR, hF⟩

theorem C13_o2 (grid : Tensor Elt) (signal : Tensor ℝ) (sg : Tensor Elt)
    (n S nRot nRef : ℕ) (mode : String) (wr wf : ℝ)
    (hg : grid.shape = [n]) (hsig : signal.shape = [nRot + nRef, S])
    (hsg : sg.shape = [nRot + nRef])
    (hcoef : ∀ i < n, Valid (grid.get [i]))
    (okR : nRot ≠ 0 → ∃ q o, SO2.gridSample q (signal.slice0 0 nRot)
      ((sg.slice0 0 nRot).map Prod.snd) mode wr = .ok o)
    (okF : nRef ≠ 0 → ∃ q o, SO2.gridSample q (signal.drop0 nRot)
      ((sg.drop0 nRot).map Prod.snd) mode wf = .ok o) :
    ((∃ out, gridSample grid signal sg nRot nRef mode wr wf = .ok out) ↔
      ((nRot = 0 → ∀ i < n, (grid.get [i]).1 ≠ 1) ∧
       (nRef = 0 → ∀ i < n, (grid.get [i]).1 ≠ -1))) ∧
    ((∀ out, gridSample grid signal sg nRot nRef mode wr wf ≠ .ok out) →
      gridSample grid signal sg nRot nRef mode wr wf = .error .indexError) := by
  have h := cosetSample_spec (coef := Prod.fst) (rot := Prod.snd) (SO2.gridSample_row mode) grid n S
    nRot nRef signal sg wr wf hg hsig hcoef
    (fun h0 q' _ _ => by
      obtain ⟨q, o, ho⟩ := okR h0
      exact (SO2.gridSample_row mode).total (half_le signal sg Prod.snd nRot (by rw [hsg, hsig]; rfl)).1 ho q')
    (fun h0 q' _ _ => by
      obtain ⟨q, o, ho⟩ := okF h0
      exact (SO2.gridSample_row mode).total (half_le signal sg Prod.snd nRot (by rw [hsg, hsig]; rfl)).2 ho q')
  have hdef : gridSample grid signal sg nRot nRef mode wr wf =
    cosetSample Prod.fst Prod.snd (fun w g s sg => SO2.gridSample g s sg mode w)
      grid signal sg nRot nRef wr wf := rfl
  rw [← hdef] at h
  by_cases hc : (nRot = 0 → ∀ i < n, (grid.get [i]).1 ≠ 1) ∧
       (nRef = 0 → ∀ i < n, (grid.get [i]).1 ≠ -1)
  · obtain ⟨out, ho, -⟩ := h.1 hc
    exact ⟨⟨fun _ => hc, fun _ => ⟨out, ho⟩⟩, fun hno => absurd ho (hno out)⟩
  · have he := h.2 hc
    refine ⟨⟨?_, fun h' => absurd h' hc⟩, fun _ => he⟩
    rintro ⟨out, ho⟩
    rw [he] at ho; cases ho

/-- A concrete non-trivial instance of the hypotheses of C12: two rotation and two reflection weights,
a query mixing both cosets, mode `nearest`. -/
noncomputable def exGrid : Tensor Elt :=
  ⟨[3], fun idx => match idx with
    | [0] => (-1, π / 2)
    | [1] => (1, π)
    | _ => (-1, 0)⟩
noncomputable def exSignalGrid : Tensor Elt := Tensor.ofList (uniformGrid 2 2)
noncomputable def exSignal : Tensor ℝ := ⟨[4, 1], fun idx => (idx.getD 0 0 : ℝ)⟩

example : ∃ out, gridSample exGrid exSignal exSignalGrid 2 2 "nearest" 1 1 = .ok out ∧
    out.shape = [3, 1] := by
  obtain ⟨out, h, hs, -⟩ := C12_o2 exGrid exSignal exSignalGrid 3 1 2 2 "nearest" 1 1 rfl rfl (by simp [exSignalGrid, Tensor.ofList, (C11_o2 2 2).1])
    (by intro i hi; interval_cases i <;> simp [exGrid, Valid])
    (fun _ => by
      refine ⟨⟨[0], fun _ => 0⟩, ?_⟩
      simp [SO2.gridSample, Interp.interpolateNN, exSignalGrid, Tensor.ofList, slice0, Tensor.map,
        (C11_o2 2 2).1])
    (fun _ => by
      refine ⟨⟨[0], fun _ => 0⟩, ?_⟩
      simp [SO2.gridSample, Interp.interpolateNN, exSignalGrid, Tensor.ofList, slice0, drop0, Tensor.map,
        (C11_o2 2 2).1])
    (by simp) (by simp)
  exact ⟨out, h, hs⟩

end O2
end GConv

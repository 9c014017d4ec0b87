import Verif.Props.Readme
import Verif.Props.Crop
import Verif.Props.Range

/-! # C99: the features of the README program are not a function of the volume

With the default `permute_output_grid=True` the layers draw random group elements: two runs of the program on the same volume with the same
parameters give different features. -/

namespace GConv.Readme

open Tensor Spec Conv SO3 Net MeasureTheory Random

/-! ## Positive and zero correlations -/

theorem sumBox_nonneg {s : List ℕ} {f : List ℕ → ℝ} (h : ∀ x, InB s x → 0 ≤ f x) : 0 ≤ sumBox s f :=
  List.sum_nonneg fun a ha => by
    obtain ⟨x, hx, rfl⟩ := List.mem_map.1 ha
    exact h x (mem_allIdx.1 hx)

theorem sumBox_pos {s x₀ : List ℕ} {f : List ℕ → ℝ} (h : ∀ x, InB s x → 0 ≤ f x) (h₀ : InB s x₀) (hp : 0 < f x₀) : 0 < sumBox s f := by
  have hs : (sumBox s f) = sumIdx s f := rfl
  rw [hs, sumIdx_eq]
  exact Finset.sum_pos' (fun x hx => h x (mem_allIdx.1 (List.mem_toFinset.1 hx))) ⟨x₀, List.mem_toFinset.2 (mem_allIdx.2 h₀), hp⟩

theorem sumBox_zero {s : List ℕ} {f : List ℕ → ℝ} (h : ∀ x, InB s x → f x = 0) : sumBox s f = 0 := by
  rw [sumBox_congr h]
  unfold sumBox
  simp

section Corr
variable {ax : List Axis} {S o : List ℕ} {f w : List ℕ → ℝ}

theorem extended_inside (hax : ∀ a ∈ ax, a.left = 0 ∧ a.right = 0) (hg : GeomOk .zeros ax S) (ho : InB (outDims ax S) o) {k : List ℕ}
    (hk : InB (kernelDims ax) k) : ∃ q, InB S q ∧ extended .zeros S f (readPos ax o k) = f q := by
  obtain ⟨q, hq, e⟩ := Crop.inside hax hg ho k hk
  refine ⟨q, hq, ?_⟩
  unfold extended
  rw [e, cellAt_inside .zeros hq]

theorem corr_nonneg (hax : ∀ a ∈ ax, a.left = 0 ∧ a.right = 0) (hg : GeomOk .zeros ax S) (ho : InB (outDims ax S) o)
    (hf : ∀ q, InB S q → 0 ≤ f q) (hw : ∀ k, InB (kernelDims ax) k → 0 ≤ w k) : 0 ≤ corr .zeros ax S f w o :=
  sumBox_nonneg fun k hk => by
    obtain ⟨q, hq, e⟩ := extended_inside (f := f) hax hg ho hk
    rw [e]
    exact mul_nonneg (hf q hq) (hw k hk)

theorem corr_pos (hax : ∀ a ∈ ax, a.left = 0 ∧ a.right = 0) (hg : GeomOk .zeros ax S) (ho : InB (outDims ax S) o)
    (hf : ∀ q, InB S q → 0 < f q) (hw : ∀ k, InB (kernelDims ax) k → 0 ≤ w k) {k₀ : List ℕ} (h₀ : InB (kernelDims ax) k₀) (hp : 0 < w k₀) :
    0 < corr .zeros ax S f w o := by
  refine sumBox_pos (fun k hk => ?_) h₀ ?_
  · obtain ⟨q, hq, e⟩ := extended_inside (f := f) hax hg ho hk
    rw [e]
    exact mul_nonneg (hf q hq).le (hw k hk)
  · obtain ⟨q, hq, e⟩ := extended_inside (f := f) hax hg ho h₀
    rw [e]
    exact mul_pos (hf q hq) hp

theorem corr_zero_kernel (hw : ∀ k, InB (kernelDims ax) k → w k = 0) : corr .zeros ax S f w o = 0 :=
  sumBox_zero fun k hk => by rw [hw k hk, mul_zero]

theorem corr_zero_signal (hax : ∀ a ∈ ax, a.left = 0 ∧ a.right = 0) (hg : GeomOk .zeros ax S) (ho : InB (outDims ax S) o)
    (hf : ∀ q, InB S q → f q = 0) : corr .zeros ax S f w o = 0 :=
  sumBox_zero fun k hk => by
    obtain ⟨q, hq, e⟩ := extended_inside (f := f) hax hg ho hk
    rw [e, hf q hq, zero_mul]

end Corr

/-! ## The filter that is 1 in one corner -/

/-- what axis coordinate `u` contributes to cell 4 of 5. -/
noncomputable def tip (u : ℝ) : ℝ := ((F.taps .bilinear 5 u).map fun p => p.2 * if p.1 = 4 then 1 else 0).sum

theorem tip_low {u : ℝ} (h0 : 0 ≤ u) (h3 : u ≤ 3) : tip u = 0 := by
  have f0 : 0 ≤ ⌊u⌋ := Int.floor_nonneg.2 h0
  have f3 : ⌊u⌋ ≤ 3 := by exact_mod_cast (Int.floor_le u).trans h3
  unfold tip F.taps
  obtain h | h : ⌊u⌋ = 3 ∨ ⌊u⌋ ≤ 2 := by omega
  · have hu : u = 3 := le_antisymm h3 (by have := Int.floor_le u; rw [h] at this; exact_mod_cast this)
    subst hu
    norm_num [h, show Int.toNat 3 = 3 from rfl]
  · have a : (0 : ℤ) ≤ ⌊u⌋ + 1 := by omega
    have b : ⌊u⌋ < 5 := by omega
    have c : ⌊u⌋ + 1 < 5 := by omega
    have d : ¬ ⌊u⌋.toNat = 4 := by omega
    have e : ¬ (⌊u⌋ + 1).toNat = 4 := by omega
    simp [f0, a, b, c, d, e]

theorem tip_high {u : ℝ} (h3 : 3 < u) (h4 : u ≤ 4) : 0 < tip u := by
  have f3 : 3 ≤ ⌊u⌋ := Int.le_floor.2 (by exact_mod_cast h3.le)
  unfold tip F.taps
  obtain h | h : ⌊u⌋ = 3 ∨ 4 ≤ ⌊u⌋ := by omega
  · norm_num [h, show Int.toNat 3 = 3 from rfl, show Int.toNat 4 = 4 from rfl]
    exact h3
  · have hu : u = 4 := le_antisymm h4 (by have := Int.floor_le u; exact le_trans (by exact_mod_cast h) this)
    subst hu
    have : ⌊(4 : ℝ)⌋ = 4 := by norm_num
    norm_num [this, show Int.toNat 4 = 4 from rfl]

theorem tip_nonneg {u : ℝ} (h0 : 0 ≤ u) (h4 : u ≤ 4) : 0 ≤ tip u := by
  rcases le_or_gt u 3 with h | h
  · rw [tip_low h0 h]
  · exact (tip_high h h4).le

/-- the pixel coordinate of coordinate `x`, clamped to the filter. -/
noncomputable def pixel (x : ℝ) : ℝ := F.sourceCoord .border 5 x

theorem pixel_mem (x : ℝ) : 0 ≤ pixel x ∧ pixel x ≤ 4 := by
  unfold pixel F.sourceCoord clamp
  norm_num

theorem pixel_low {x : ℝ} (h : x ≤ 2 / 5) : pixel x ≤ 3 := by
  unfold pixel F.sourceCoord clamp F.unnormalize
  norm_num
  linarith

theorem pixel_high {x : ℝ} (h : 2 / 5 < x) : 3 < pixel x := by
  unfold pixel F.sourceCoord clamp F.unnormalize
  norm_num
  linarith

/-- the filter that is 1 in the last cell. -/
noncomputable def corner (r : List ℕ) : ℝ := if r = [4, 4, 4] then 1 else 0

theorem sample_corner (x : Fin 3 → ℝ) :
    F.sampleAt .bilinear .border [5, 5, 5] corner x = tip (pixel (x 2)) * (tip (pixel (x 1)) * tip (pixel (x 0))) := by
  have e : (List.ofFn x).reverse = [x 2, x 1, x 0] := by simp [List.ofFn_succ]
  unfold F.sampleAt
  rw [e]
  show F.sampleRec .bilinear [5, 5, 5] [pixel (x 2), pixel (x 1), pixel (x 0)] corner = _
  have h3 : ∀ (l : List (ℕ × ℝ)) (A B : ℝ), (l.map fun p => p.2 * (A * (B * if p.1 = 4 then 1 else 0))).sum =
      A * (B * (l.map fun p => p.2 * if p.1 = 4 then (1 : ℝ) else 0).sum) := by
    intro l A B
    rw [← List.sum_map_mul_left, ← List.sum_map_mul_left]
    refine congrArg List.sum (List.map_congr_left fun p _ => by ring)
  have h2 : ∀ (l : List (ℕ × ℝ)) (A T : ℝ), (l.map fun p => p.2 * (A * ((if p.1 = 4 then 1 else 0) * T))).sum =
      A * ((l.map fun p => p.2 * if p.1 = 4 then (1 : ℝ) else 0).sum * T) := by
    intro l A T
    rw [← List.sum_map_mul_right, ← List.sum_map_mul_left]
    refine congrArg List.sum (List.map_congr_left fun p _ => by ring)
  have h1 : ∀ (l : List (ℕ × ℝ)) (T : ℝ), (l.map fun p => p.2 * ((if p.1 = 4 then 1 else 0) * T)).sum =
      (l.map fun p => p.2 * if p.1 = 4 then (1 : ℝ) else 0).sum * T := by
    intro l T
    rw [← List.sum_map_mul_right]
    refine congrArg List.sum (List.map_congr_left fun p _ => by ring)
  have c1 : ∀ a b c : ℕ, corner [a, b, c] = (if a = 4 then 1 else 0) * ((if b = 4 then 1 else 0) * if c = 4 then 1 else 0) := by
    intro a b c
    unfold corner
    by_cases ha : a = 4 <;> by_cases hb : b = 4 <;> by_cases hc : c = 4 <;> simp [ha, hb, hc]
  simp only [F.sampleRec, c1, h3, h2]
  exact h1 _ _

/-- not negative; zero as soon as one coordinate is at most 2/5; positive if all are larger. -/
theorem corner_sign (x : Fin 3 → ℝ) : 0 ≤ F.sampleAt .bilinear .border [5, 5, 5] corner x ∧
    ((∃ i, x i ≤ 2 / 5) → F.sampleAt .bilinear .border [5, 5, 5] corner x = 0) ∧
    ((∀ i, 2 / 5 < x i) → 0 < F.sampleAt .bilinear .border [5, 5, 5] corner x) := by
  rw [sample_corner]
  have n : ∀ i, 0 ≤ tip (pixel (x i)) := fun i => tip_nonneg (pixel_mem _).1 (pixel_mem _).2
  refine ⟨mul_nonneg (n 2) (mul_nonneg (n 1) (n 0)), ?_, fun h => ?_⟩
  · rintro ⟨i, hi⟩
    have := tip_low (pixel_mem (x i)).1 (pixel_low hi)
    fin_cases i
    · rw [show tip (pixel (x 0)) = 0 from this]; simp
    · rw [show tip (pixel (x 1)) = 0 from this]; simp
    · rw [show tip (pixel (x 2)) = 0 from this]; simp
  · have p : ∀ i, 0 < tip (pixel (x i)) := fun i => tip_high (pixel_high (h i)) (pixel_mem _).2
    exact mul_pos (p 2) (mul_pos (p 1) (p 0))

/-! ## The shipped grid of 4 rotations -/

/-- position of cell `(r, s, t)` of a 5x5x5 kernel. -/
theorem grid5 (r s t : ℕ) : (Functional.createGridR3 5).get [r, s, t] = ![(t : ℝ) / 2 - 1, (s : ℝ) / 2 - 1, (r : ℝ) / 2 - 1] := by
  unfold Functional.createGridR3 Functional.meshIJ linspaceAt
  norm_num
  refine ⟨by ring, by ring, by ring⟩

/-- the mask: 0 or 1, and 1 only for cells of squared distance at most 4 (in half units) from the centre. -/
theorem mask5 (r s t : ℕ) : 0 ≤ (Functional.createSphericalMaskR3 5).get [r, s, t] ∧
    (4 < ((r : ℤ) - 2) ^ 2 + ((s : ℤ) - 2) ^ 2 + ((t : ℤ) - 2) ^ 2 → (Functional.createSphericalMaskR3 5).get [r, s, t] = 0) ∧
    (((r : ℤ) - 2) ^ 2 + ((s : ℤ) - 2) ^ 2 + ((t : ℤ) - 2) ^ 2 ≤ 4 → (Functional.createSphericalMaskR3 5).get [r, s, t] = 1) := by
  have e : (Functional.createSphericalMaskR3 5).get [r, s, t] = if vnorm ((Functional.createGridR3 5).get [r, s, t]) < 1.1 then 1 else 0 := rfl
  have hv : vnorm ((Functional.createGridR3 5).get [r, s, t]) =
      Real.sqrt (((((r : ℤ) - 2) ^ 2 + ((s : ℤ) - 2) ^ 2 + ((t : ℤ) - 2) ^ 2 : ℤ) : ℝ) / 4) := by
    rw [grid5]
    unfold vnorm
    congr 1
    simp [Fin.sum_univ_three]
    ring
  rw [e, hv]
  refine ⟨by split <;> norm_num, fun h => ?_, fun h => ?_⟩
  · rw [if_neg]
    rw [not_lt]
    refine Real.le_sqrt_of_sq_le ?_
    have : (5 : ℝ) ≤ ((((r : ℤ) - 2) ^ 2 + ((s : ℤ) - 2) ^ 2 + ((t : ℤ) - 2) ^ 2 : ℤ) : ℝ) := by exact_mod_cast h
    norm_num
    push_cast at this
    linarith
  · rw [if_pos]
    rw [Real.sqrt_lt' (by norm_num)]
    have : ((((r : ℤ) - 2) ^ 2 + ((s : ℤ) - 2) ^ 2 + ((t : ℤ) - 2) ^ 2 : ℤ) : ℝ) ≤ 4 := by exact_mod_cast h
    norm_num
    push_cast at this
    linarith

/-- the coordinates of `Mᵀ p` for `p` in half units. -/
def turned (M : Tables.Z9) (r s t : ℤ) : List ℤ :=
  [M.a * t + M.d * s + M.g * r, M.b * t + M.e * s + M.h * r, M.c * t + M.f * s + M.i * r]

/-- Turned back by a rotation of the shipped grid, no position inside the mask has all coordinates beyond 2/5. -/
theorem turned_low : ∀ M ∈ Tables.matrix4, ∀ r ∈ List.range 5, ∀ s ∈ List.range 5, ∀ t ∈ List.range 5,
    ((r : ℤ) - 2) ^ 2 + ((s : ℤ) - 2) ^ 2 + ((t : ℤ) - 2) ^ 2 ≤ 4 →
    ∃ c ∈ turned M ((r : ℤ) - 2) ((s : ℤ) - 2) ((t : ℤ) - 2), c < 8 * 10 ^ 10 := by
  decide +kernel

/-- Of the third rotation of the grid, after another rotation. -/
theorem third_high : ∃ M, Tables.matrix4[2]? = some M ∧ 2 * 10 ^ 11 < -(4 * M.a + 3 * M.g) ∧ 2 * 10 ^ 11 < -(4 * M.b + 3 * M.h) ∧
    2 * 10 ^ 11 < -(4 * M.c + 3 * M.i) :=
  ⟨_, rfl, by decide +kernel, by decide +kernel, by decide +kernel⟩

theorem grid_eq {opt : List Euler} {cin cout k : ℕ} {gr : Tensor Mat3} (h : KernelSE3.grid initialStore opt (args cin cout k) = .ok gr) :
    ∀ i < 4, ∃ M ∈ Tables.matrix4, Tables.matrix4[i]? = some M ∧ gr.get [i] = M.real (10 ^ 11) := by
  have e : (SO3.uniformGrid initialStore 4 "matrix" opt false).1 >>= KernelSE3.foldMat = .ok gr := h
  rw [RBFCert.loaded 4 (by norm_num) (by norm_num), ok_bind, RBFCert.foldMat_grid] at e
  cases e
  intro i hi
  have hl : Tables.matrix4.length = 4 := by decide +kernel
  have hm : RBFCert.mats 4 = Tables.matrix4 := by rfl
  refine ⟨Tables.matrix4[i], List.getElem_mem _, List.getElem?_eq_getElem _, ?_⟩
  show (RBFCert.grid 4).getD i 0 = _
  unfold RBFCert.grid
  rw [hm, RBFCert.getD_lt (by rw [List.length_map, hl]; exact hi), List.getElem_map]
  rfl

theorem still (h : Mat3) : moveSE3 ![1, 0, 0, 0] h = h := by
  have e : SO3.unit ![(1 : ℝ), 0, 0, 0] = ![1, 0, 0, 0] := by
    funext i
    unfold SO3.unit vnorm
    fin_cases i <;> simp [Fin.sum_univ_four]
  rw [moveSE3_eq, e]
  have : quatToMatrix ![(1 : ℝ), 0, 0, 0] = 1 := by
    ext i j
    fin_cases i <;> fin_cases j <;> simp [quatToMatrix]
  rw [this, one_mul]

theorem tilted (h : Mat3) : moveSE3 ![2, 0, -1, 0] h = !![3 / 5, 0, -4 / 5; 0, 1, 0; 4 / 5, 0, 3 / 5] * h := by
  have e5 : Real.sqrt 5 * Real.sqrt 5 = 5 := Real.mul_self_sqrt (by norm_num)
  have h5 : Real.sqrt 5 ≠ 0 := by positivity
  have e : vnorm ![(2 : ℝ), 0, -1, 0] = Real.sqrt 5 := by
    unfold vnorm
    congr 1
    simp [Fin.sum_univ_four]
    norm_num
  rw [moveSE3_eq]
  congr 1
  unfold SO3.unit
  rw [e]
  ext i j
  fin_cases i <;> fin_cases j <;> simp [quatToMatrix] <;> field_simp <;> nlinarith [e5]

/-! ## Parameters for which the features depend on the draw -/

theorem const_one (x : Fin 3 → ℝ) : 0 < F.sampleAt .bilinear .border [5, 5, 5] (fun _ => 1) x := by
  have h := GConv.sampleAt_le (d := 3) .bilinear .border [5, 5, 5] rfl (by simp) (-1) (Or.inr (by simp)) (fun _ => -1) x (fun _ _ => le_rfl)
  have e : F.sampleAt .bilinear .border [5, 5, 5] (fun _ => -1) x = - F.sampleAt .bilinear .border [5, 5, 5] (fun _ => 1) x :=
    GConv.sampleRec_neg _ _ _ _
  linarith

/-- the group filter that is largest at the first rotation of the grid. -/
noncomputable def bump (gr : Tensor Mat3) (wd : ℝ) (j : ℕ) : ℝ :=
  Interp.RBFgauss (SO3.dist (matrixToQuat (gr.get [j])) (matrixToQuat (gr.get [0]))) wd

/-- interpolated at any rotation it is positive. -/
theorem value_pos {opt : List Euler} {cin cout k : ℕ} {gr : Tensor Mat3} {wd : ℝ}
    (hr : KernelSE3.Ready initialStore opt (args cin cout k) gr wd) (hs : gr.shape = [4]) (R : Mat3) :
    0 < KernelSE3.value (args cin cout k) gr wd (bump gr wd) R := by
  obtain ⟨gs, gg⟩ := gr
  cases hs
  have hdet : (Matrix.of fun i j : Fin 4 => Interp.RBFgauss (SO3.dist (matrixToQuat (gg [i.val])) (matrixToQuat (gg [j.val]))) wd).det ≠ 0 := by
    rcases hr.solvable.2 with ⟨h, -⟩ | ⟨-, h⟩
    · exact absurd (show "rbf" = "nearest" from h) (by decide)
    · exact h
  obtain ⟨out, h1, -, h2⟩ := Interp.C39_value SO3.dist Interp.RBFgauss wd ⟨[1], fun _ => matrixToQuat R⟩
    ⟨[4], fun i => matrixToQuat (gg i)⟩ ⟨[4, 1], fun idx => bump ⟨[4], gg⟩ wd (idx.getD 0 0)⟩ 1 4 1 rfl rfl rfl
    (fun j _ => if j = 0 then 1 else 0)
    (by
      intro i _
      simp [bump]) hdet
  have e : KernelSE3.value (args cin cout k) ⟨[4], gg⟩ wd (bump ⟨[4], gg⟩ wd) R = out.get [0, 0] := by
    unfold KernelSE3.value sampleOne
    have : SO3.gridSample ⟨[1], fun _ => R⟩ ⟨[4, 1], fun idx => bump ⟨[4], gg⟩ wd (idx.getD 0 0)⟩ ⟨[4], gg⟩ (args cin cout k).groupMode wd = .ok out := by
      rw [← h1]
      unfold SO3.gridSample gridSampleQuat
      have hne : ¬ (args cin cout k).groupMode = "nearest" := show ¬ "rbf" = "nearest" by decide
      rw [if_neg hne, if_pos (show (args cin cout k).groupMode = "rbf" from rfl)]
      rfl
    show (match SO3.gridSample ⟨[1], fun _ => R⟩ ⟨[4, 1], fun idx => bump ⟨[4], gg⟩ wd (idx.getD 0 0)⟩ ⟨[4], gg⟩ (args cin cout k).groupMode wd with
      | .ok t => t.get [0, 0]
      | .error _ => 0) = _
    rw [this]
  rw [e, h2 0 (by norm_num) 0]
  simp only [mul_ite, mul_one, mul_zero, Finset.sum_ite_eq', Finset.mem_univ, if_true]
  exact (Interp.C38_range _ _).1

theorem three {a b c : ℕ} {k : List ℕ} (h : InB [a, b, c] k) : ∃ r s t, k = [r, s, t] ∧ r < a ∧ s < b ∧ t < c := by
  obtain ⟨r, k, rfl, hr, h⟩ := InB_cons_left h
  obtain ⟨s, k, rfl, hs, h⟩ := InB_cons_left h
  obtain ⟨t, k, rfl, ht, h⟩ := InB_cons_left h
  cases h
  exact ⟨r, s, t, rfl, hr, hs, ht⟩

/-- where the first filter is read for cell `(r, s, t)` of the kernel of rotation `R`. -/
noncomputable def place (R : Mat3) (r s t : ℕ) : Fin 3 → ℝ := R.transpose.mulVec ((Functional.createGridR3 5).get [r, s, t])

section Signs
variable {N cin cmid cout X Y Z : ℕ} {gr H₁ H₂ : Tensor Mat3} {wd : ℝ} {w wH wS x x₂ x₃ v vH vS : Tensor ℝ}

theorem dims1 (hX : 9 ≤ X) (hY : 9 ≤ Y) (hZ : 9 ≤ Z) : GeomOk .zeros (List.replicate 3 ⟨5, 1, 1, 0, 0⟩) [X, Y, Z] ∧
    outDims (List.replicate 3 ⟨5, 1, 1, 0, 0⟩) [X, Y, Z] = [X, Y, Z].map (· - (5 - 1)) := by
  have h1 : ∀ s ∈ [X, Y, Z], 5 ≤ s := by
    intro s hs
    fin_cases hs <;> show 5 ≤ _ <;> omega
  exact ⟨geom_ok (by norm_num) h1, out_eq (by norm_num) h1⟩

theorem dims2 (hX : 9 ≤ X) (hY : 9 ≤ Y) (hZ : 9 ≤ Z) : GeomOk .zeros (List.replicate 3 ⟨5, 1, 1, 0, 0⟩) ([X, Y, Z].map (· - (5 - 1))) ∧
    outDims (List.replicate 3 ⟨5, 1, 1, 0, 0⟩) ([X, Y, Z].map (· - (5 - 1))) = [X, Y, Z].map (· - 2 * (5 - 1)) := by
  have h1 : ∀ s ∈ [X - 4, Y - 4, Z - 4], 5 ≤ s := by
    intro s hs
    fin_cases hs <;> show 5 ≤ _ <;> omega
  refine ⟨geom_ok (by norm_num) h1, (out_eq (by norm_num) h1).trans ?_⟩
  simp only [Nat.sub_sub, List.map_cons, List.map_nil]

theorem flat : ∀ a ∈ List.replicate 3 (⟨5, 1, 1, 0, 0⟩ : Axis), a.left = 0 ∧ a.right = 0 := by
  intro a ha
  obtain rfl := List.eq_of_mem_replicate ha
  exact ⟨rfl, rfl⟩

/-- if no filter read reaches the corner, everything is 0. -/
theorem zero_of (hX : 9 ≤ X) (hY : 9 ≤ Y) (hZ : 9 ≤ Z) (C : Computes N cin cmid cout 5 [X, Y, Z] gr wd w wH wS x x₂ x₃ H₁ H₂ v vH vS)
    (hw : ∀ co ci q, w.get (co :: ci :: q) = corner q)
    (low : ∀ h < 4, ∀ r : ℕ, r < 5 → ∀ s : ℕ, s < 5 → ∀ t : ℕ, t < 5 → ((r : ℤ) - 2) ^ 2 + ((s : ℤ) - 2) ^ 2 + ((t : ℤ) - 2) ^ 2 ≤ 4 →
      ∃ i, place (H₁.get [h]) r s t i ≤ 2 / 5) :
    ∀ b co h o, b < N → co < cout → h < 4 → InB ([X, Y, Z].map (· - 2 * (5 - 1))) o → x₃.get (b :: co :: h :: o) = 0 := by
  have hv : ∀ co h ci k, co < cmid → h < 4 → ci < cin → InB [5, 5, 5] k → v.get (co :: h :: ci :: k) = 0 := by
    intro co h ci k hco hh hci hk
    obtain ⟨r, s, t, rfl, hr, hs, ht⟩ := three hk
    rw [C.lifted co h ci r s t hco hh hci hr hs ht]
    rcases le_or_gt (((r : ℤ) - 2) ^ 2 + ((s : ℤ) - 2) ^ 2 + ((t : ℤ) - 2) ^ 2) 4 with hm | hm
    · simp only [hw]
      have := (corner_sign _).2.1 (low h hh r hr s hs t ht hm)
      unfold place at this
      exact (congrArg _ this).trans (mul_zero _)
    · rw [(mask5 r s t).2.1 hm, zero_mul]
  have hx2 : ∀ b co h o, b < N → co < cmid → h < 4 → InB ([X, Y, Z].map (· - (5 - 1))) o → x₂.get (b :: co :: h :: o) = 0 := by
    intro b co h o hb hco hh ho
    rw [C.first b co h o hb hco hh ho]
    unfold Spec.liftingConv
    rw [Finset.sum_eq_zero, show biasAt none _ co = 0 from rfl, add_zero]
    intro ci hci
    have hci : ci < cin := by
      have := Finset.mem_range.1 hci
      exact lt_of_lt_of_eq this (show cin / 1 = cin from Nat.div_one _)
    exact corr_zero_kernel fun k hk => hv co h ci k hco hh hci hk
  intro b co h o hb hco hh ho
  rw [C.second b co h o hb hco hh ho]
  unfold Spec.separableConv
  rw [show biasAt none _ co = 0 from rfl, add_zero]
  refine corr_zero_signal flat (dims2 hX hY hZ).1 (by rw [(dims2 hX hY hZ).2]; exact ho) fun q hq => ?_
  unfold pointwiseGroupConv
  refine Finset.sum_eq_zero fun ci hci => Finset.sum_eq_zero fun i hi => ?_
  rw [hx2 b _ i q hb ?_ (Finset.mem_range.1 hi) hq, zero_mul]
  exact GConv.channel_lt (inC := cmid) (outC := cout) (g := 1) (one_dvd _) (one_dvd _) Nat.one_pos hco (Finset.mem_range.1 hci)

/-- if one of them does, everything is positive. -/
theorem pos_of (hX : 9 ≤ X) (hY : 9 ≤ Y) (hZ : 9 ≤ Z) (hcin : 0 < cin) (hcmid : 0 < cmid)
    {opt : List Euler} (hr : KernelSE3.Ready initialStore opt (args cmid cout 5) gr wd) (hs : gr.shape = [4])
    (C : Computes N cin cmid cout 5 [X, Y, Z] gr wd w wH wS x x₂ x₃ H₁ H₂ v vH vS)
    (hw : ∀ co ci q, w.get (co :: ci :: q) = corner q) (hwH : ∀ j co ci, wH.get [j, co, ci] = bump gr wd j)
    (hwS : ∀ i, wS.get i = 1) (hx : ∀ i, x.get i = 1)
    {h₀ r₀ s₀ t₀ : ℕ} (hh₀ : h₀ < 4) (hr₀ : r₀ < 5) (hs₀ : s₀ < 5) (ht₀ : t₀ < 5)
    (hm : ((r₀ : ℤ) - 2) ^ 2 + ((s₀ : ℤ) - 2) ^ 2 + ((t₀ : ℤ) - 2) ^ 2 ≤ 4) (high : ∀ i, 2 / 5 < place (H₁.get [h₀]) r₀ s₀ t₀ i) :
    ∀ b co h o, b < N → co < cout → h < 4 → InB ([X, Y, Z].map (· - 2 * (5 - 1))) o → 0 < x₃.get (b :: co :: h :: o) := by
  have hv : ∀ co h ci k, co < cmid → h < 4 → ci < cin → InB [5, 5, 5] k → 0 ≤ v.get (co :: h :: ci :: k) := by
    intro co h ci k hco hh hci hk
    obtain ⟨r, s, t, rfl, hr, hs, ht⟩ := three hk
    rw [C.lifted co h ci r s t hco hh hci hr hs ht]
    simp only [hw]
    exact mul_nonneg (mask5 r s t).1 (corner_sign _).1
  have hv₀ : ∀ co ci, co < cmid → ci < cin → 0 < v.get [co, h₀, ci, r₀, s₀, t₀] := by
    intro co ci hco hci
    rw [C.lifted co h₀ ci r₀ s₀ t₀ hco hh₀ hci hr₀ hs₀ ht₀, (mask5 _ _ _).2.2 hm, one_mul]
    simp only [hw]
    exact (corner_sign _).2.2 high
  have c1 : ∀ {ci}, ci ∈ Finset.range ((argsSE3 (args cin cmid 5) {}).inC / (argsSE3 (args cin cmid 5) {}).groups.toNat) → ci < cin := by
    intro ci hci
    exact lt_of_lt_of_eq (Finset.mem_range.1 hci) (show cin / 1 = cin from Nat.div_one _)
  have hx2 : ∀ b co h o, b < N → co < cmid → h < 4 → InB ([X, Y, Z].map (· - (5 - 1))) o → 0 ≤ x₂.get (b :: co :: h :: o) := by
    intro b co h o hb hco hh ho
    rw [C.first b co h o hb hco hh ho]
    unfold Spec.liftingConv
    rw [show biasAt none _ co = 0 from rfl, add_zero]
    refine Finset.sum_nonneg fun ci hci => corr_nonneg flat (dims1 hX hY hZ).1 (by rw [(dims1 hX hY hZ).2]; exact ho) (fun q _ => ?_)
      fun k hk => hv co h ci k hco hh (c1 hci) hk
    rw [hx]
    norm_num
  have hx2₀ : ∀ b co o, b < N → co < cmid → InB ([X, Y, Z].map (· - (5 - 1))) o → 0 < x₂.get (b :: co :: h₀ :: o) := by
    intro b co o hb hco ho
    rw [C.first b co h₀ o hb hco hh₀ ho]
    unfold Spec.liftingConv
    rw [show biasAt none _ co = 0 from rfl, add_zero]
    refine Finset.sum_pos (fun ci hci => corr_pos flat (dims1 hX hY hZ).1 (by rw [(dims1 hX hY hZ).2]; exact ho) (fun q _ => ?_)
      (fun k hk => hv co h₀ ci k hco hh₀ (c1 hci) hk) (k₀ := [r₀, s₀, t₀]) ?_ (hv₀ co ci hco (c1 hci))) ?_
    · rw [hx]
      norm_num
    · show InB [5, 5, 5] _
      simp [hr₀, hs₀, ht₀]
    · exact ⟨0, Finset.mem_range.2 (lt_of_lt_of_eq hcin (show cin = cin / 1 from (Nat.div_one _).symm))⟩
  intro b co h o hb hco hh ho
  rw [C.second b co h o hb hco hh ho]
  unfold Spec.separableConv
  rw [show biasAt none _ co = 0 from rfl, add_zero]
  refine corr_pos flat (dims2 hX hY hZ).1 (by rw [(dims2 hX hY hZ).2]; exact ho) (fun q hq => ?_) (fun k hk => ?_) (k₀ := [2, 2, 2])
    (by show InB [5, 5, 5] _; simp) ?_
  · unfold pointwiseGroupConv
    have c2 : ∀ {ci}, ci ∈ Finset.range ((argsSE3 (args cmid cout 5) {}).inC / (argsSE3 (args cmid cout 5) {}).groups.toNat) → ci < cmid := by
      intro ci hci
      exact lt_of_lt_of_eq (Finset.mem_range.1 hci) (show cmid / 1 = cmid from Nat.div_one _)
    have c3 : ∀ {ci}, ci ∈ Finset.range ((argsSE3 (args cmid cout 5) {}).inC / (argsSE3 (args cmid cout 5) {}).groups.toNat) →
        groupStart (argsSE3 (args cmid cout 5) {}).inC (argsSE3 (args cmid cout 5) {}).outC (argsSE3 (args cmid cout 5) {}).groups.toNat co + ci < cmid := by
      intro ci hci
      exact GConv.channel_lt (inC := cmid) (outC := cout) (g := 1) (one_dvd _) (one_dvd _) Nat.one_pos hco (Finset.mem_range.1 hci)
    have hg : ∀ ci i, ci < cmid → i < 4 → 0 < vH.get (co :: h :: ci :: i :: List.replicate (List.replicate 3 (⟨5, 1, 1, 0, 0⟩ : Axis)).length 0) := by
      intro ci i hci hi
      show 0 < vH.get [co, h, ci, i, 0, 0, 0]
      rw [C.group co h ci i hco hh hci hi]
      simp only [hwH]
      exact value_pos hr hs _
    refine Finset.sum_pos (fun ci hci => Finset.sum_pos' (fun i hi => ?_) ⟨h₀, Finset.mem_range.2 hh₀, ?_⟩) ?_
    · exact mul_nonneg (hx2 b _ i q hb (c3 hci) (Finset.mem_range.1 hi) hq) (hg ci i (c2 hci) (Finset.mem_range.1 hi)).le
    · exact mul_pos (hx2₀ b _ q hb (c3 hci) hq) (hg ci h₀ (c2 hci) hh₀)
    · exact ⟨0, Finset.mem_range.2 (lt_of_lt_of_eq hcmid (show cmid = cmid / 1 from (Nat.div_one _).symm))⟩
  · obtain ⟨r, s, t, rfl, hr, hs, ht⟩ := three (a := 5) (b := 5) (c := 5) hk
    rw [C.spatial co h r s t hco hh hr hs ht]
    simp only [hwS]
    exact mul_nonneg (mask5 r s t).1 (const_one _).le
  · rw [C.spatial co h 2 2 2 hco hh (by norm_num) (by norm_num) (by norm_num), (mask5 2 2 2).2.2 (by norm_num), one_mul]
    simp only [hwS]
    exact const_one _

end Signs

/-! ## Small changes of the draw -/

theorem unit_cont {q : Quat} (hq : vnorm q ≠ 0) : ContinuousAt (SO3.unit (k := 4)) q := by
  refine continuousAt_pi.2 fun i => ?_
  unfold SO3.unit
  have hi : ∀ i, Continuous fun p : Quat => p i := fun i => continuous_apply i
  refine ContinuousAt.div (hi i).continuousAt ?_ hq
  unfold vnorm
  exact (Real.continuous_sqrt.comp (continuous_finsetSum _ fun j _ => (hi j).pow 2)).continuousAt

theorem place_cont {q : Quat} (hq : vnorm q ≠ 0) (G : Mat3) (r s t : ℕ) (i : Fin 3) :
    ContinuousAt (fun p => place (moveSE3 p G) r s t i) q := by
  have hc : ∀ a b, Continuous fun u : Quat => quatToMatrix u a b := by
    intro a b
    fin_cases a <;> fin_cases b <;> simp [quatToMatrix] <;> fun_prop
  have h : Continuous fun u : Quat => place (quatToMatrix u * G) r s t i := by
    have hM : Continuous fun u : Quat => quatToMatrix u := continuous_matrix hc
    unfold place
    fun_prop
  simp only [moveSE3_eq]
  exact h.continuousAt.comp (unit_cont hq)

instance : Measure.IsOpenPosMeasure (ProbabilityTheory.gaussianReal 0 1) :=
  (ProbabilityTheory.gaussianReal_absolutelyContinuous' 0 one_ne_zero).isOpenPosMeasure

/-- **The features are invariant only in distribution.** There are parameters and a volume for which, with the default
`permute_output_grid=True`, with positive probability all features are 0 and with positive probability all are positive. -/
theorem C99_violated_deterministic (opt₁ opt₂ : List Euler) (N cin cmid cout X Y Z : ℕ) (hcin : 0 < cin) (hcmid : 0 < cmid) (hcout : 0 < cout)
    (hX : 9 ≤ X) (hY : 9 ≤ Y) (hZ : 9 ≤ Z) :
    ∃ w wH wS x : Tensor ℝ, w.shape = [cmid, cin, 5, 5, 5] ∧ wH.shape = [4, cout, cmid] ∧ wS.shape = [cout, 1, 5, 5, 5] ∧
      x.shape = [N, cin, X, Y, Z] ∧
      0 < normal 4 {q₁ | ∀ q₂, ∃ y, program opt₁ opt₂ cin cmid cout 5 w wH wS q₁ q₂ x = .ok y ∧
        ∀ b c, b < N → c < cout → y.get [b, c, 0] = 0} ∧
      0 < normal 4 {q₁ | ∀ q₂, ∃ y, program opt₁ opt₂ cin cmid cout 5 w wH wS q₁ q₂ x = .ok y ∧
        ∀ b c, b < N → c < cout → 0 < y.get [b, c, 0]} := by
  obtain ⟨grid, gr, wd, hs, h⟩ := C99_runs opt₁ opt₂ N cin cmid cout 5 X Y Z (by norm_num) hcin hcout hX hY hZ
  have hgrid := grid_eq hs.loaded
  set w : Tensor ℝ := ⟨[cmid, cin, 5, 5, 5], fun i => corner (i.drop 2)⟩ with hw
  set wH : Tensor ℝ := ⟨[4, cout, cmid], fun i => bump gr wd (i.headD 0)⟩ with hwH
  set wS : Tensor ℝ := ⟨[cout, 1, 5, 5, 5], fun _ => 1⟩ with hwS
  set x : Tensor ℝ := ⟨[N, cin, X, Y, Z], fun _ => 1⟩ with hx
  have hop : Measure.IsOpenPosMeasure (normal 4) := by
    unfold normal
    infer_instance
  refine ⟨w, wH, wS, x, rfl, rfl, rfl, rfl, ?_, ?_⟩
  · have hev : ∀ᶠ p in nhds (![1, 0, 0, 0] : Quat), ∀ j ∈ Finset.range 4, ∀ r ∈ Finset.range 5, ∀ s ∈ Finset.range 5, ∀ t ∈ Finset.range 5,
        ((r : ℤ) - 2) ^ 2 + ((s : ℤ) - 2) ^ 2 + ((t : ℤ) - 2) ^ 2 ≤ 4 → ∃ i, place (moveSE3 p (grid.get [j])) r s t i < 2 / 5 := by
      refine (Filter.eventually_all_finset _).2 fun j hj => (Filter.eventually_all_finset _).2 fun r hr =>
        (Filter.eventually_all_finset _).2 fun s hs => (Filter.eventually_all_finset _).2 fun t ht => ?_
      rcases le_or_gt (((r : ℤ) - 2) ^ 2 + ((s : ℤ) - 2) ^ 2 + ((t : ℤ) - 2) ^ 2) 4 with hm | hm
      swap
      · exact Filter.Eventually.of_forall fun p hle => absurd hle (not_le.2 hm)
      obtain ⟨M, hM, -, e⟩ := hgrid j (Finset.mem_range.1 hj)
      obtain ⟨c, hc, hlt⟩ := turned_low M hM r (List.mem_range.2 (Finset.mem_range.1 hr)) s (List.mem_range.2 (Finset.mem_range.1 hs)) t
        (List.mem_range.2 (Finset.mem_range.1 ht)) hm
      obtain ⟨i, hi⟩ : ∃ i, place (moveSE3 ![1, 0, 0, 0] (grid.get [j])) r s t i < 2 / 5 := by
        have hlt' : (c : ℝ) < 8 * 10 ^ 10 := by exact_mod_cast hlt
        rw [still, e]
        unfold turned at hc
        simp only [List.mem_cons, List.not_mem_nil, or_false] at hc
        unfold place
        rw [grid5]
        rcases hc with rfl | rfl | rfl
        · refine ⟨0, ?_⟩
          push_cast at hlt'
          simp [Tables.Z9.real, Matrix.mulVec, dotProduct, Fin.sum_univ_three]
          linarith
        · refine ⟨1, ?_⟩
          push_cast at hlt'
          simp [Tables.Z9.real, Matrix.mulVec, dotProduct, Fin.sum_univ_three]
          linarith
        · refine ⟨2, ?_⟩
          push_cast at hlt'
          simp [Tables.Z9.real, Matrix.mulVec, dotProduct, Fin.sum_univ_three]
          linarith
      have hn : vnorm (![1, 0, 0, 0] : Quat) ≠ 0 := by
        unfold vnorm
        simp [Fin.sum_univ_four]
      filter_upwards [(place_cont hn (grid.get [j]) r s t i).eventually_lt_const hi] with p hp hle
      exact ⟨i, hp⟩
    refine Measure.measure_pos_of_mem_nhds _ (x := ![1, 0, 0, 0]) (Filter.mem_of_superset hev fun q₁ hq q₂ => ?_)
    obtain ⟨x₂, H₁, x₃, H₂, y, -, hy, -, hH, -, -, -, hm, v, vH, vS, C⟩ := h w wH wS rfl rfl rfl q₁ q₂ x rfl
    refine ⟨y, hy, fun b c hb hc => ?_⟩
    rw [hm b c hb hc]
    unfold meanOver
    rw [sumBox_zero, zero_div]
    intro i hi
    obtain ⟨j, o, rfl, hj, ho⟩ := InB_cons_left hi
    refine zero_of hX hY hZ C (fun _ _ _ => rfl) (fun j hj r hr s hs t ht hle => ?_) b c j o hb hc hj ho
    obtain ⟨i, hi⟩ := hq j (Finset.mem_range.2 hj) r (Finset.mem_range.2 hr) s (Finset.mem_range.2 hs) t (Finset.mem_range.2 ht) hle
    rw [hH]
    exact ⟨i, hi.le⟩
  · have hev : ∀ᶠ p in nhds (![2, 0, -1, 0] : Quat), ∀ i, 2 / 5 < place (moveSE3 p (grid.get [2])) 0 2 2 i := by
      refine Filter.eventually_all.2 fun i => ?_
      have hn : vnorm (![2, 0, -1, 0] : Quat) ≠ 0 := by
        unfold vnorm
        simp [Fin.sum_univ_four]
        norm_num
      refine (place_cont hn (grid.get [2]) 0 2 2 i).eventually_const_lt ?_
      obtain ⟨M, hM, hM2, e⟩ := hgrid 2 (by norm_num)
      obtain ⟨M', hM', h1, h2, h3⟩ := third_high
      rw [hM2] at hM'
      cases hM'
      have h1' : (2 * 10 ^ 11 : ℝ) < -(4 * M.a + 3 * M.g) := by exact_mod_cast h1
      have h2' : (2 * 10 ^ 11 : ℝ) < -(4 * M.b + 3 * M.h) := by exact_mod_cast h2
      have h3' : (2 * 10 ^ 11 : ℝ) < -(4 * M.c + 3 * M.i) := by exact_mod_cast h3
      show 2 / 5 < place (moveSE3 ![2, 0, -1, 0] (grid.get [2])) 0 2 2 i
      rw [tilted, e]
      unfold place
      rw [grid5]
      fin_cases i
      · simp [Tables.Z9.real, Matrix.mulVec, dotProduct, Fin.sum_univ_three, Matrix.mul_apply]
        linarith
      · simp [Tables.Z9.real, Matrix.mulVec, dotProduct, Fin.sum_univ_three, Matrix.mul_apply]
        linarith
      · simp [Tables.Z9.real, Matrix.mulVec, dotProduct, Fin.sum_univ_three, Matrix.mul_apply]
        linarith
    refine Measure.measure_pos_of_mem_nhds _ (x := ![2, 0, -1, 0]) (Filter.mem_of_superset hev fun q₁ hq q₂ => ?_)
    obtain ⟨x₂, H₁, x₃, H₂, y, -, hy, -, hH, -, -, -, hm, v, vH, vS, C⟩ := h w wH wS rfl rfl rfl q₁ q₂ x rfl
    refine ⟨y, hy, fun b c hb hc => ?_⟩
    rw [hm b c hb hc]
    unfold meanOver
    have hp : ∀ i, InB [4, X - 2 * (5 - 1), Y - 2 * (5 - 1), Z - 2 * (5 - 1)] i → 0 < x₃.get (b :: c :: i) := by
      intro i hi
      obtain ⟨j, o, rfl, hj, ho⟩ := InB_cons_left hi
      refine pos_of hX hY hZ hcin hcmid hs.ready hs.shape' C (fun _ _ _ => rfl) (fun _ _ _ => rfl) (fun _ => rfl) (fun _ => rfl)
        (h₀ := 2) (r₀ := 0) (s₀ := 2) (t₀ := 2) (by norm_num) (by norm_num) (by norm_num) (by norm_num) (by norm_num) ?_ b c j o hb hc hj ho
      rw [hH]
      exact hq
    have hin : InB [4, X - 2 * (5 - 1), Y - 2 * (5 - 1), Z - 2 * (5 - 1)] [0, 0, 0, 0] := by
      simp
      omega
    refine div_pos (sumBox_pos (fun i hi => (hp i hi).le) hin (hp _ hin)) ?_
    have : 0 < [4, X - 2 * (5 - 1), Y - 2 * (5 - 1), Z - 2 * (5 - 1)].prod := by
      refine List.prod_pos fun s hs => ?_
      simp only [List.mem_cons, List.not_mem_nil, or_false] at hs
      rcases hs with rfl | rfl | rfl | rfl <;> omega
    exact_mod_cast this

end GConv.Readme

import Verif.Model.O3
import Verif.Props.SO3
import Verif.Props.GridCache
import Verif.Lemmas.Coset
import Mathlib.Tactic.IntervalCases

/-! # Properties of O(3): C33 - C35 and the O(3) parts of C04, C12, C13 -/

namespace GConv

open Real Spec Tensor SO3

theorem SO3.gridSampleQuat_row (mode : String) :
    RowSampler (fun w g s sg => SO3.gridSampleQuat g s sg mode w) := by
  unfold SO3.gridSampleQuat
  by_cases h1 : mode = "nearest"
  · simp only [if_pos h1]
    exact interpolateNN_row _
  · by_cases h2 : mode = "rbf"
    · simp only [if_neg h1, if_pos h2]
      exact interpolateRBF_row _ _
    · simp only [if_neg h1, if_neg h2]
      exact errorSampler_row _

theorem SO3.gridSample_row (mode : String) :
    RowSampler (fun w g s sg => SO3.gridSample g s sg mode w) := by
  have h := SO3.gridSampleQuat_row mode
  constructor
  · intro w g s sg out ho
    exact h.shape ho
  · intro w g s sg out ho i hi
    exact h.row ho i hi
  · intro w g s sg out hle ho g'
    exact h.total (sg := sg.map matrixToQuat) hle ho _
  · intro w g s sg e hle ho g'
    exact h.err (sg := sg.map matrixToQuat) hle ho _

namespace O3

/-- A valid O(3) element: coefficient `±1` and a rotation matrix. -/
def Valid (h : Elt) : Prop := (coef h = 1 ∨ coef h = -1) ∧ IsRotation (rot h)

theorem coef_mk (c : ℝ) (R : Mat3) : coef (mk c R) = c := rfl

theorem rot_mk (c : ℝ) (R : Mat3) : rot (mk c R) = R := by
  ext i j
  fin_cases i <;> fin_cases j <;> rfl

theorem mk_coef_rot (h : Elt) : mk (coef h) (rot h) = h := by
  ext k
  fin_cases k <;> rfl

theorem elt_ext {a b : Elt} (h1 : coef a = coef b) (h2 : rot a = rot b) : a = b := by
  rw [← mk_coef_rot a, ← mk_coef_rot b, h1, h2]

/-! ## C04 (O(3) part) -/

/-- Components: entry `0` is the coefficient, entry `1+3i+j` the matrix entry `(i,j)`. -/
theorem C04_o3 (draws : List Quat) (v : List ℝ) (hl : draws.length = v.length)
    (h : ∀ q ∈ draws, q ≠ 0) :
    (randomGrid draws v).length = draws.length ∧
    ∀ e ∈ randomGrid draws v, (e 0 = 1 ∨ e 0 = -1) ∧
      IsRotation !![e 1, e 2, e 3; e 4, e 5, e 6; e 7, e 8, e 9] := by
  have hm : (randomMatrix draws).length = draws.length := by simp [randomMatrix, randomQuat]
  constructor
  · simp [randomGrid, hm, hl]
  · intro e he
    unfold randomGrid at he
    obtain ⟨i, hi, rfl⟩ := List.mem_iff_getElem.1 he
    rw [List.getElem_zipWith]
    have hi2 : i < (randomMatrix draws).length := by
      rw [List.length_zipWith] at hi; omega
    have hR : IsRotation ((randomMatrix draws)[i]) := (C04_so3 draws h).2.2.2 _ (List.getElem_mem hi2)
    constructor
    · show coef (mk _ _) = 1 ∨ coef (mk _ _) = -1
      rw [coef_mk, List.getElem_map]
      by_cases hx : v[i]'(by simpa using (by rw [List.length_zipWith] at hi; simpa using (lt_min_iff.1 hi).1 : i < v.length)) > 0.5
      · left; rw [if_pos hx]; norm_num
      · right; rw [if_neg hx]; norm_num
    · have : ∀ (c : ℝ) (R : Mat3), !![mk c R 1, mk c R 2, mk c R 3; mk c R 4, mk c R 5, mk c R 6;
          mk c R 7, mk c R 8, mk c R 9] = R := by
        intro c R
        ext i j
        fin_cases i <;> fin_cases j <;> rfl
      rw [this]; exact hR

/-! ## C33 -/

/-- the product in components. -/
theorem C33_product (a b : Elt) :
    coef (leftApplyO3 a b) = coef a * coef b ∧ rot (leftApplyO3 a b) = rot a * rot b :=
  ⟨rfl, rot_mk _ _⟩

theorem C33_layout (h : Elt) :
    coef h = h 0 ∧ rot h = !![h 1, h 2, h 3; h 4, h 5, h 6; h 7, h 8, h 9] := by
  refine ⟨rfl, ?_⟩
  ext i j
  fin_cases i <;> fin_cases j <;> rfl

theorem C33_closed (a b : Elt) (ha : Valid a) (hb : Valid b) : Valid (leftApplyO3 a b) := by
  refine ⟨?_, ?_⟩
  · rw [(C33_product a b).1]
    rcases ha.1 with h | h <;> rcases hb.1 with h' | h' <;> simp [h, h']
  · rw [(C33_product a b).2]
    exact (C27_closed _ _ ha.2 hb.2).1

theorem C33_assoc (a b c : Elt) :
    leftApplyO3 (leftApplyO3 a b) c = leftApplyO3 a (leftApplyO3 b c) := by
  apply elt_ext
  · simp only [(C33_product _ _).1, mul_assoc]
  · simp only [(C33_product _ _).2, Matrix.mul_assoc]

/-- neutral element: coefficient one and the identity matrix. -/
def one : Elt := ![1, 1, 0, 0, 0, 1, 0, 0, 0, 1]

theorem one_spec : coef one = 1 ∧ rot one = 1 := by
  refine ⟨rfl, ?_⟩
  ext i j
  fin_cases i <;> fin_cases j <;> rfl

theorem C33_neutral (a : Elt) : leftApplyO3 one a = a ∧ leftApplyO3 a one = a := by
  constructor <;> apply elt_ext <;>
    simp only [(C33_product _ _).1, (C33_product _ _).2, one_spec.1, one_spec.2, one_mul, mul_one]

theorem C33_inverse (a : Elt) (ha : Valid a) :
    Valid (inverse a) ∧ leftApplyO3 (inverse a) a = one ∧ leftApplyO3 a (inverse a) = one := by
  have hc : coef a * coef a = 1 := by rcases ha.1 with h | h <;> simp [h]
  have h1 : coef (inverse a) = coef a := rfl
  have h2 : rot (inverse a) = (rot a).transpose := rot_mk _ _
  refine ⟨⟨by rw [h1]; exact ha.1, by rw [h2]; exact (C27_closed _ _ ha.2 ha.2).2⟩, ?_, ?_⟩
  · apply elt_ext
    · rw [(C33_product _ _).1, h1, hc, one_spec.1]
    · rw [(C33_product _ _).2, h2, one_spec.2]; exact ha.2.1
  · apply elt_ext
    · rw [(C33_product _ _).1, h1, hc, one_spec.1]
    · rw [(C33_product _ _).2, h2, one_spec.2]; exact mul_eq_one_comm.1 ha.2.1

theorem C33_det_mul (a b : Elt) : det (leftApplyO3 a b) = det a * det b := rfl

theorem C33_table (N M : ℕ) (H1 H2 : Tensor Elt) (h1 : H1.shape = [N]) (h2 : H2.shape = [M]) :
    (leftApplyToO3 H1 H2).shape = [N, M] ∧
    ∀ i j, (leftApplyToO3 H1 H2).get [i, j] = leftApplyO3 (H1.get [i]) (H2.get [j]) := by
  refine ⟨?_, fun i j => rfl⟩
  simp [leftApplyToO3, pairwise, h1, h2]

/-- a reflection that is a valid element. -/
example : Valid (mk (-1) (matrixZ (π / 3))) := by
  refine ⟨Or.inr rfl, ?_⟩
  rw [rot_mk]; exact (C14_z 0 (π / 3)).1

/-! ## C34 -/

/-- the 3x3 matrix by which an element should act. -/
def actionMatrix (h : Elt) : Mat3 := coef h • rot h

theorem C34_pointwise (N X Y Z : ℕ) (H : Tensor Elt) (grid : Tensor (Fin 3 → ℝ))
    (hH : H.shape = [N]) (hg : grid.shape = [X, Y, Z]) :
    (leftApplyToR3 H grid).shape = [N, X, Y, Z] ∧
    ∀ n x y z, (leftApplyToR3 H grid).get [n, x, y, z] =
      (actionMatrix (H.get [n])).mulVec (grid.get [x, y, z]) := by
  refine ⟨?_, fun n x y z => ?_⟩
  · simp [leftApplyToR3, pairwise, hH, hg]
  · simp [leftApplyToR3, pairwise, actionMatrix, Matrix.smul_mulVec]

theorem C34_isometry (a : Elt) (ha : Valid a) (v w : Fin 3 → ℝ) :
    dot ((actionMatrix a).mulVec v) ((actionMatrix a).mulVec w) = dot v w := by
  have hc : coef a * coef a = 1 := by rcases ha.1 with h | h <;> simp [h]
  have h := C27_isometry _ ha.2 v w
  rw [← h]
  simp only [actionMatrix, Matrix.smul_mulVec]
  unfold dot
  simp only [Pi.smul_apply, smul_eq_mul]
  apply Finset.sum_congr rfl
  intro i _
  linear_combination ((rot a).mulVec v i * (rot a).mulVec w i) * hc

theorem C34_compatible (a b : Elt) :
    actionMatrix (leftApplyO3 a b) = actionMatrix a * actionMatrix b := by
  simp only [actionMatrix, (C33_product a b).1, (C33_product a b).2, Matrix.smul_mul, Matrix.mul_smul,
    smul_smul, mul_comm (coef b)]

theorem C34_det (a : Elt) (ha : Valid a) : det a = (actionMatrix a).det := by
  simp only [actionMatrix, Matrix.det_smul, ha.2.2, Fintype.card_fin, mul_one, det]
  rcases ha.1 with h | h <;> rw [h] <;> norm_num

/-- distinct valid elements act differently: the ten-vector is a faithful encoding of O(3), and every
orthogonal matrix is hit. -/
theorem C34_faithful (a b : Elt) (ha : Valid a) (hb : Valid b) (h : actionMatrix a = actionMatrix b) :
    a = b := by
  have hd : coef a = coef b := by
    have := C34_det a ha
    rw [h, ← C34_det b hb] at this; exact this
  have hne : coef b ≠ 0 := by rcases hb.1 with h | h <;> rw [h] <;> norm_num
  apply elt_ext hd
  unfold actionMatrix at h
  rw [hd] at h
  exact smul_right_injective _ hne h

theorem C34_surjective (M : Mat3) (hM : M.transpose * M = 1) : ∃ a, Valid a ∧ actionMatrix a = M := by
  have hd : M.det * M.det = 1 := by
    have := congrArg Matrix.det hM
    rwa [Matrix.det_mul, Matrix.det_transpose, Matrix.det_one] at this
  have hd' : M.det = 1 ∨ M.det = -1 := mul_self_eq_one_iff.1 hd
  refine ⟨mk M.det (M.det • M), ⟨hd', ?_⟩, ?_⟩
  · rw [rot_mk]
    refine ⟨?_, ?_⟩
    · rw [Matrix.transpose_smul, Matrix.smul_mul, Matrix.mul_smul, smul_smul, hd, one_smul, hM]
    · rw [Matrix.det_smul, Fintype.card_fin]
      rcases hd' with h | h <;> rw [h] <;> norm_num
  · unfold actionMatrix
    rw [rot_mk, coef_mk, smul_smul, hd, one_smul]

/-! ## C35 -/

theorem catLegacy_rank3 (n m : ℕ) (R1 R2 : Tensor ℝ)
    (h1 : if n = 0 then R1.shape = [0] else R1.shape = [n, 3, 3])
    (h2 : if m = 0 then R2.shape = [0] else R2.shape = [m, 3, 3]) (hnm : n + m ≠ 0) :
    ∃ R, catLegacy R1 R2 = .ok R ∧ R.shape = [n + m, 3, 3] ∧
      (∀ i < n, ∀ j k, R.get [i, j, k] = R1.get [i, j, k]) ∧
      (∀ i < m, ∀ j k, R.get [n + i, j, k] = R2.get [i, j, k]) := by
  unfold catLegacy
  by_cases hn : n = 0
  · rw [if_pos hn] at h1
    rw [if_neg (by omega)] at h2
    rw [if_pos h1]
    subst hn
    exact ⟨R2, rfl, by simpa using h2, fun i hi => by omega, fun i _ j k => by simp⟩
  · rw [if_neg hn] at h1
    rw [if_neg (by rw [h1]; simp)]
    by_cases hm : m = 0
    · rw [if_pos hm] at h2
      rw [if_pos h2]
      subst hm
      exact ⟨R1, rfl, by simpa using h1, fun i _ j k => rfl, fun i hi => by omega⟩
    · rw [if_neg hm] at h2
      rw [if_neg (by rw [h2]; simp)]
      unfold cat0
      rw [if_pos (by rw [h1, h2]; rfl)]
      refine ⟨_, rfl, ?_, ?_, ?_⟩
      · simp [h1, h2]
      · intro i hi j k
        have : i < R1.shape.headD 0 := by rw [h1]; exact hi
        simp only [if_pos this]
      · intro i hi j k
        have h0 : R1.shape.headD 0 = n := by rw [h1]; rfl
        simp only [h0]
        rw [if_neg (by omega)]
        congr 2; omega

/-- Whenever the two SO(3) grids come back well-shaped (`(n,3,3)`, or empty for size `0`): layout of
the returned O(3) grid. -/
theorem C35_layout (s : GridCache.Store (Tensor ℝ)) (n m : ℕ) (opt1 opt2 : List Euler)
    (hnm : n + m ≠ 0) (R1 R2 : Tensor ℝ)
    (e1 : (SO3.uniformGrid s n "matrix" opt1 false).1 = .ok R1)
    (e2 : (SO3.uniformGrid s m "matrix" opt2 false).1 = .ok R2)
    (h1 : n ≠ 0 → R1.shape = [n, 3, 3]) (h2 : m ≠ 0 → R2.shape = [m, 3, 3]) :
    (∃ R, uniformGrid s n m opt1 opt2 true = .ok R ∧ R.shape = [n + m, 3, 3] ∧
      (∀ i < n, ∀ j k, R.get [i, j, k] = R1.get [i, j, k]) ∧
      (∀ i < m, ∀ j k, R.get [n + i, j, k] = R2.get [i, j, k])) ∧
    (∃ G, uniformGrid s n m opt1 opt2 false = .ok G ∧ G.shape = [n + m, 10] ∧
      (∀ i < n, G.get [i, 0] = 1 ∧ ∀ j k, j < 3 → k < 3 →
        G.get [i, 1 + 3 * j + k] = R1.get [i, j, k]) ∧
      (∀ i < m, G.get [n + i, 0] = -1 ∧ ∀ j k, j < 3 → k < 3 →
        G.get [n + i, 1 + 3 * j + k] = R2.get [i, j, k])) := by
  have z1 : n = 0 → R1.shape = [0] := by
    intro h; subst h
    simp only [SO3.uniformGrid, if_pos] at e1; cases e1; rfl
  have z2 : m = 0 → R2.shape = [0] := by
    intro h; subst h
    simp only [SO3.uniformGrid, if_pos] at e2; cases e2; rfl
  obtain ⟨R, hR, hs, ha, hb⟩ := catLegacy_rank3 n m R1 R2
    (by by_cases h : n = 0
        · rw [if_pos h]; exact z1 h
        · rw [if_neg h]; exact h1 h)
    (by by_cases h : m = 0
        · rw [if_pos h]; exact z2 h
        · rw [if_neg h]; exact h2 h) hnm
  constructor
  · refine ⟨R, ?_, hs, ha, hb⟩
    unfold uniformGrid
    rw [e1, e2]
    show (do let R ← catLegacy R1 R2; _) = _
    rw [hR]; rfl
  · refine ⟨⟨[n + m, 1 + 9], fun idx => if idx.getD 1 0 < 1 then
        (match idx with
          | [] => 1
          | i :: _ => if i < n then 1 else -1 * 1) else
        R.get [idx.getD 0 0, (idx.getD 1 0 - 1) / 3, (idx.getD 1 0 - 1) % 3]⟩, ?_, rfl, ?_, ?_⟩
    · unfold uniformGrid
      rw [e1, e2]
      show (do let R ← catLegacy R1 R2; _) = _
      rw [hR]
      show (do
        let coeffs ← cat0 (⟨[n, 1], fun _ => 1⟩ : Tensor ℝ) ⟨[m, 1], fun _ => -1 * 1⟩
        let F ← flattenLast2 R
        catLast coeffs F) = _
      have hF : flattenLast2 R = .ok ⟨[n + m, 3 * 3], fun idx =>
          R.get [idx.getD 0 0, idx.getD 1 0 / 3, idx.getD 1 0 % 3]⟩ := by
        unfold flattenLast2; rw [hs]
      rw [hF]
      show catLast ⟨[n + m, 1], _⟩ ⟨[n + m, 3 * 3], _⟩ = _
      simp only [catLast, if_true]
      rfl
    · intro i hi
      constructor
      · simp [hi]
      · intro j k hj hk
        have a1 : (1 + 3 * j + k - 1) / 3 = j := by omega
        have a2 : (1 + 3 * j + k - 1) % 3 = k := by omega
        simp only [List.getD_cons_zero, List.getD_cons_succ]
        rw [if_neg (by omega), a1, a2]
        exact ha i hi j k
    · intro i hi
      constructor
      · simp
      · intro j k hj hk
        have a1 : (1 + 3 * j + k - 1) / 3 = j := by omega
        have a2 : (1 + 3 * j + k - 1) % 3 = k := by omega
        simp only [List.getD_cons_zero, List.getD_cons_succ]
        rw [if_neg (by omega), a1, a2]
        exact hb i hi j k

/-- With the shipped cache (any sizes other than one, not both zero) the hypotheses of `C35_layout` hold. -/
theorem C35_shipped (n m : ℕ) (opt1 opt2 : List Euler) (hnm : n + m ≠ 0) (hn : n ≠ 1) (hm : m ≠ 1)
    (ho1 : opt1.length = n) (ho2 : opt2.length = m) :
    ∃ G, uniformGrid initialStore n m opt1 opt2 false = .ok G ∧ G.shape = [n + m, 10] ∧
      (∀ i < n, G.get [i, 0] = 1) ∧ (∀ i < m, G.get [n + i, 0] = -1) := by
  have key : ∀ (k : ℕ) (o : List Euler), k ≠ 1 → o.length = k →
      ∃ R, (SO3.uniformGrid initialStore k "matrix" o false).1 = .ok R ∧
        (k ≠ 0 → R.shape = [k, 3, 3]) := by
    intro k o hk ho
    by_cases h0 : k = 0
    · subst h0; exact ⟨_, rfl, fun h => absurd rfl h⟩
    · obtain ⟨g, hg, hs⟩ := C31_no_cache_partial [] (by simp) k (by omega) "matrix"
        (Or.inr (Or.inl lower_matrix)) (fun _ => hk) o ho
      exact ⟨g, hg, fun _ => by rw [hs, lower_matrix]; rfl⟩
  obtain ⟨R1, e1, h1⟩ := key n opt1 hn ho1
  obtain ⟨R2, e2, h2⟩ := key m opt2 hm ho2
  obtain ⟨G, hG, hs, ha, hb⟩ := (C35_layout initialStore n m opt1 opt2 hnm R1 R2 e1 e2 h1 h2).2
  exact ⟨G, hG, hs, fun i hi => (ha i hi).1, fun i hi => (hb i hi).1⟩

/-- A grid with exactly one rotation cannot be built from the shipped cache: RuntimeError. -/
theorem C35_one_rotation (m : ℕ) (opt1 opt2 : List Euler) (ho2 : opt2.length = m) :
    uniformGrid initialStore 1 m opt1 opt2 false = .error .runtimeError := by
  have h1 : ∃ R1, (SO3.uniformGrid initialStore 1 "matrix" opt1 false).1 = .ok R1 ∧
      R1.shape = [3, 3] := by
    obtain ⟨g, hg, hs, -⟩ := C32_violated
    refine ⟨g, ?_, hs⟩
    unfold SO3.uniformGrid
    rw [if_neg (by norm_num)]
    show (match GridCache.loadGrid initialStore 1 "so3" "matrix" with
      | .ok g => _ | .error _ => _ : Except PyErr (Tensor ℝ) × GridCache.Store (Tensor ℝ)).1 = _
    rw [hg]
  obtain ⟨R1, e1, s1⟩ := h1
  have hbind : ∀ (R2 R : Tensor ℝ) (F : Tensor ℝ) (k : ℕ),
      (SO3.uniformGrid initialStore m "matrix" opt2 false).1 = .ok R2 →
      catLegacy R1 R2 = .ok R → flattenLast2 R = .ok F → F.shape = [k] →
      uniformGrid initialStore 1 m opt1 opt2 false = .error .runtimeError := by
    intro R2 R F k e2 hR hF hk
    unfold uniformGrid
    rw [e1, e2]
    show (do let R ← catLegacy R1 R2; _) = _
    rw [hR]
    show (do
        let coeffs ← cat0 (⟨[1, 1], fun _ => 1⟩ : Tensor ℝ) ⟨[m, 1], fun _ => -1 * 1⟩
        let F ← flattenLast2 R
        catLast coeffs F) = _
    rw [hF]
    show catLast ⟨[1 + m, 1], _⟩ F = _
    unfold catLast
    rw [hk]
  by_cases h0 : m = 0
  · subst h0
    have e2 : (SO3.uniformGrid initialStore 0 "matrix" opt2 false).1 = .ok ⟨[0], fun _ => 0⟩ := rfl
    refine hbind _ R1 ⟨[3 * 3], fun idx => R1.get [idx.getD 0 0 / 3, idx.getD 0 0 % 3]⟩ 9 e2 ?_ ?_ rfl
    · unfold catLegacy; rw [if_neg (by rw [s1]; decide), if_pos rfl]
    · unfold flattenLast2; rw [s1]
  · by_cases h1 : m = 1
    · subst h1
      obtain ⟨g, hg, hs, -⟩ := C32_violated
      have e2 : (SO3.uniformGrid initialStore 1 "matrix" opt2 false).1 = .ok g := by
        unfold SO3.uniformGrid
        rw [if_neg (by norm_num)]
        show (match GridCache.loadGrid initialStore 1 "so3" "matrix" with
          | .ok g => _ | .error _ => _ : Except PyErr (Tensor ℝ) × GridCache.Store (Tensor ℝ)).1 = _
        rw [hg]
      have hcat : ∃ R, catLegacy R1 g = .ok R ∧ R.shape = [6, 3] := by
        unfold catLegacy
        rw [if_neg (by rw [s1]; decide), if_neg (by rw [hs]; decide)]
        unfold cat0
        rw [if_pos (by rw [s1, hs])]
        exact ⟨_, rfl, by simp [s1, hs]⟩
      obtain ⟨R, hR, hRs⟩ := hcat
      refine hbind g R ⟨[6 * 3], fun idx => R.get [idx.getD 0 0 / 3, idx.getD 0 0 % 3]⟩ 18 e2 hR ?_ rfl
      unfold flattenLast2; rw [hRs]
    · obtain ⟨R2, e2, s2⟩ := C31_no_cache_partial [] (by simp) m (by omega) "matrix"
        (Or.inr (Or.inl lower_matrix)) (fun _ => h1) opt2 ho2
      have s2' : R2.shape = [m, 3, 3] := by rw [s2, lower_matrix]; rfl
      unfold uniformGrid
      have e2' : (SO3.uniformGrid initialStore m "matrix" opt2 false).1 = .ok R2 := e2
      rw [e1, e2']
      show (do let R ← catLegacy R1 R2; _) = _
      have : catLegacy R1 R2 = .error .runtimeError := by
        unfold catLegacy
        rw [if_neg (by rw [s1]; decide), if_neg (by rw [s2']; simp)]
        unfold cat0
        rw [if_neg (by rw [s1, s2']; simp)]
      rw [this]; rfl

/-! ## C12 / C13 (O(3)) -/

/-- Row order.  See `O2.C12_o2` for the hypotheses. -/
theorem C12_o3 (grid : Tensor Elt) (signal : Tensor ℝ) (sg : Tensor Elt)
    (n S nRot nRef : ℕ) (mode : String) (wr wf : ℝ)
    (hg : grid.shape = [n]) (hsig : signal.shape = [nRot + nRef, S])
    (hsg : sg.shape = [nRot + nRef])
    (hcoef : ∀ i < n, coef (grid.get [i]) = 1 ∨ coef (grid.get [i]) = -1)
    (okR : nRot ≠ 0 → ∃ q o, SO3.gridSample q (signal.slice0 0 nRot)
      ((sg.slice0 0 nRot).map rot) mode wr = .ok o)
    (okF : nRef ≠ 0 → ∃ q o, SO3.gridSample q (signal.drop0 nRot)
      ((sg.drop0 nRot).map rot) mode wf = .ok o)
    (hR : nRot = 0 → ∀ i < n, coef (grid.get [i]) ≠ 1)
    (hF : nRef = 0 → ∀ i < n, coef (grid.get [i]) ≠ -1) :
    ∃ out, gridSample grid signal sg nRot nRef mode wr wf = .ok out ∧ out.shape = [n, S] ∧
      ∀ i < n,
        (coef (grid.get [i]) = 1 → ∃ o1,
          SO3.gridSample ⟨[1], fun _ => rot (grid.get [i])⟩ (signal.slice0 0 nRot)
            ((sg.slice0 0 nRot).map rot) mode wr = .ok o1 ∧
          ∀ c, out.get [i, c] = o1.get [0, c]) ∧
        (coef (grid.get [i]) = -1 → ∃ o1,
          SO3.gridSample ⟨[1], fun _ => rot (grid.get [i])⟩ (signal.drop0 nRot)
            ((sg.drop0 nRot).map rot) mode wf = .ok o1 ∧
          ∀ c, out.get [i, c] = o1.get [0, c]) :=
  (cosetSample_spec (coef := coef) (rot := rot) (SO3.gridSample_row mode) grid n S nRot nRef
    signal sg wr wf hg hsig hcoef
    (fun h0 q' _ _ => by
      obtain ⟨q, o, ho⟩ := okR h0
      exact (SO3.gridSample_row mode).total (half_le signal sg rot nRot (by rw [hsg, hsig]; rfl)).1 ho q')
    (fun h0 q' _ _ => by
      obtain ⟨q, o, ho⟩ := okF h0
      exact (SO3.gridSample_row mode).total (half_le signal sg rot nRot (by rw [hsg, hsig]; rfl)).2 ho q')).1 ⟨hR, hF⟩

theorem C13_o3 (grid : Tensor Elt) (signal : Tensor ℝ) (sg : Tensor Elt)
    (n S nRot nRef : ℕ) (mode : String) (wr wf : ℝ)
    (hg : grid.shape = [n]) (hsig : signal.shape = [nRot + nRef, S])
    (hsg : sg.shape = [nRot + nRef])
    (hcoef : ∀ i < n, coef (grid.get [i]) = 1 ∨ coef (grid.get [i]) = -1)
    (okR : nRot ≠ 0 → ∃ q o, SO3.gridSample q (signal.slice0 0 nRot)
      ((sg.slice0 0 nRot).map rot) mode wr = .ok o)
    (okF : nRef ≠ 0 → ∃ q o, SO3.gridSample q (signal.drop0 nRot)
      ((sg.drop0 nRot).map rot) mode wf = .ok o) :
    ((∃ out, gridSample grid signal sg nRot nRef mode wr wf = .ok out) ↔
      ((nRot = 0 → ∀ i < n, coef (grid.get [i]) ≠ 1) ∧
       (nRef = 0 → ∀ i < n, coef (grid.get [i]) ≠ -1))) ∧
    ((∀ out, gridSample grid signal sg nRot nRef mode wr wf ≠ .ok out) →
      gridSample grid signal sg nRot nRef mode wr wf = .error .indexError) := by
  have h := cosetSample_spec (coef := coef) (rot := rot) (SO3.gridSample_row mode) grid n S
    nRot nRef signal sg wr wf hg hsig hcoef
    (fun h0 q' _ _ => by
      obtain ⟨q, o, ho⟩ := okR h0
      exact (SO3.gridSample_row mode).total (half_le signal sg rot nRot (by rw [hsg, hsig]; rfl)).1 ho q')
    (fun h0 q' _ _ => by
      obtain ⟨q, o, ho⟩ := okF h0
      exact (SO3.gridSample_row mode).total (half_le signal sg rot nRot (by rw [hsg, hsig]; rfl)).2 ho q')
  have hdef : gridSample grid signal sg nRot nRef mode wr wf =
    cosetSample coef rot (fun w g s sg => SO3.gridSample g s sg mode w)
      grid signal sg nRot nRef wr wf := rfl
  rw [← hdef] at h
  by_cases hc : (nRot = 0 → ∀ i < n, coef (grid.get [i]) ≠ 1) ∧
       (nRef = 0 → ∀ i < n, coef (grid.get [i]) ≠ -1)
  · obtain ⟨out, ho, -⟩ := h.1 hc
    exact ⟨⟨fun _ => hc, fun _ => ⟨out, ho⟩⟩, fun hno => absurd ho (hno out)⟩
  · have he := h.2 hc
    refine ⟨⟨?_, fun h' => absurd h' hc⟩, fun _ => he⟩
    rintro ⟨out, ho⟩
    rw [he] at ho; cases ho

/-- A concrete instance of the hypotheses: two rotation weights and one reflection weight, queries of both
kinds in the order reflection, rotation, mode `nearest`. -/
noncomputable def exGrid : Tensor Elt :=
  ⟨[2], fun idx => if idx = [0] then mk (-1) (matrixX (π / 2)) else mk 1 (matrixY π)⟩
noncomputable def exSignalGrid : Tensor Elt :=
  ⟨[3], fun idx => if idx = [2] then mk (-1) 1 else if idx = [1] then mk 1 (matrixZ π) else mk 1 1⟩
noncomputable def exSignal : Tensor ℝ := ⟨[3, 1], fun idx => (idx.getD 0 0 : ℝ)⟩

example : ∃ out, gridSample exGrid exSignal exSignalGrid 2 1 "nearest" 1 1 = .ok out ∧
    out.shape = [2, 1] := by
  obtain ⟨out, h, hs, -⟩ := C12_o3 exGrid exSignal exSignalGrid 2 1 2 1 "nearest" 1 1 rfl rfl (by simp [exSignalGrid, Tensor.ofList])
    (by intro i hi; interval_cases i <;> simp [exGrid, coef_mk])
    (fun _ => ⟨⟨[0], fun _ => 0⟩, by
      simp [SO3.gridSample, SO3.gridSampleQuat, Interp.interpolateNN, exSignalGrid, slice0, Tensor.map]⟩)
    (fun _ => ⟨⟨[0], fun _ => 0⟩, by
      simp [SO3.gridSample, SO3.gridSampleQuat, Interp.interpolateNN, exSignalGrid, slice0, drop0, Tensor.map]⟩)
    (by simp) (by simp)
  exact ⟨out, h, hs⟩

end O3
end GConv

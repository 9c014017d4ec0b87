import Verif.Props.KernelDefaults
import Verif.Lemmas.RBFData
import Verif.Spec.Evaluate

/-! # C87: kernels with default sampling settings can be evaluated -/

namespace GConv

open Tensor Spec GroupKernel

theorem solvable_of {G : Type} {dist : G → G → ℝ} {mode : String} {w : ℝ} {q : Tensor G} {K : ℕ}
    (h : mode = "rbf" ∨ mode = "nearest") (hK : q.shape.headD 0 = K) (h0 : 0 < K)
    (hdet : (Interp.rbfMatrix dist Interp.RBFgauss w q).det ≠ 0) : Solvable dist mode w q K := by
  rcases h with h | h
  · exact ⟨hK, Or.inr ⟨h, hdet⟩⟩
  · exact ⟨hK, Or.inl ⟨h, h0⟩⟩

/-- every element is closer to itself than to all others (distances are cut off, so this is not automatic). -/
def Separated {G : Type} (dist : G → G → ℝ) (q : Tensor G) (K : ℕ) : Prop :=
  ∀ k < K, ∀ j < K, j ≠ k → dist (q.get [k]) (q.get [k]) < dist (q.get [k]) (q.get [j])

/-! ## SE(3) -/
namespace RBFCert

open SO3 SO3.Tables

theorem getD_lt {α : Type*} {l : List α} {i : ℕ} (h : i < l.length) {d : α} : l.getD i d = l[i] := by
  rw [List.getD_eq_getElem?_getD, List.getElem?_eq_getElem h, Option.getD_some]

/-- all parts of the certificate of size `n`. -/
theorem parts (n : ℕ) (h2 : 2 ≤ n) (h24 : n ≤ 24) : (mats n).length = n ∧ checkMatrix n (se3Cert n) (quatRow n) = true ∧
    checkWidth n (se3Cert n) = true ∧ checkMatrix n (e3Cert n).2.2 (quatRow n) = true ∧
    checkRows n (e3Cert n).1 (e3Cert n).2.1 (e3Cert n).2.2.wLo (e3Cert n).2.2.wHi (rowDot n) (10 ^ 22) = true := by
  have h := check_true n h2 h24
  unfold check at h
  simp only [Bool.and_eq_true, decide_eq_true_eq] at h
  obtain ⟨⟨⟨⟨h1, h2⟩, h3⟩, h4⟩, h5⟩ := h
  exact ⟨h1, h2, h3, h4, h5⟩

/-- the shipped grid of size `n` as real matrices. -/
noncomputable def grid (n : ℕ) : List Mat3 := (mats n).map (Z9.real (10 ^ 11))

theorem grid_length (n : ℕ) (h2 : 2 ≤ n) (h24 : n ≤ 24) : (grid n).length = n := by
  unfold grid
  rw [List.length_map, (parts n h2 h24).1]

theorem loaded (n : ℕ) (h2 : 2 ≤ n) (h24 : n ≤ 24) (opt : List Euler) :
    (SO3.uniformGrid initialStore n "matrix" opt false).1 = .ok (matrixTensor (grid n)) := by
  have hl := (parts n h2 h24).1
  have hc : cachedMatrices n = some (grid n) := by
    unfold cachedMatrices grid mats
    unfold mats at hl
    cases hk : matrixCache.lookup n with
    | none => rw [hk] at hl; simp at hl; omega
    | some l => rfl
  have hs := store_matrix n
  rw [hc] at hs
  dsimp only at hs
  rw [if_neg (by omega)] at hs
  unfold SO3.uniformGrid
  rw [if_neg (by omega), hs]

theorem grid_quat (n i : ℕ) (hi : i < (grid n).length) : matrixToQuat ((grid n)[i]) = unit (10 ^ 11) (quatRow n i) := by
  have hi' : i < (mats n).length := by unfold grid at hi; rwa [List.length_map] at hi
  have e : (grid n)[i] = ((mats n)[i]).real (10 ^ 11) := by simp [grid]
  unfold quatRow
  rw [e, getD_lt hi', matrixToQuat_real _ (by positivity)]
  norm_num

theorem separated (n : ℕ) (h2 : 2 ≤ n) (h24 : n ≤ 24) (q : Tensor Quat) (hq : ∀ i < n, q.get [i] = unit (10 ^ 11) (quatRow n i)) :
    Separated SO3.dist q n := by
  obtain ⟨-, hM, hW, -, -⟩ := parts n h2 h24
  unfold checkMatrix at hM
  unfold checkWidth rowMin at hW
  simp only [Bool.and_eq_true, decide_eq_true_eq] at hM hW
  obtain ⟨⟨⟨⟨hmin, -⟩, -⟩, hbig⟩, -⟩ := hW
  rw [List.all_eq_true] at hbig
  intro k hk j hj hne
  rw [hq k hk, hq j hj]
  have h1 := (angles_sound hM.1.1 (s := 10 ^ 11) (by positivity) hk hk).2
  have h3 := (angles_sound hM.1.1 (s := 10 ^ 11) (by positivity) hk hj).1
  have h4 := hbig k (List.mem_range.2 hk)
  rw [decide_eq_true_eq] at h4
  have h5 := all2_sound hmin hk hj
  rw [Bool.or_eq_true, decide_eq_true_eq, decide_eq_true_eq] at h5
  have h6 := h5.resolve_left (Ne.symm hne)
  unfold lo at h3
  unfold hi at h1
  rw [if_neg (Ne.symm hne)] at h3
  rw [if_pos rfl] at h1
  have h7 : (101 : ℝ) ≤ ((ent n (se3Cert n).T k j - 20 : ℤ) : ℝ) := by exact_mod_cast (by omega : (101 : ℤ) ≤ ent n (se3Cert n).T k j - 20)
  generalize SO3.dist _ _ = d1 at h1 ⊢
  generalize SO3.dist _ _ = d3 at h3 ⊢
  push_cast at h1 h3 h7
  linarith

theorem foldMat_grid (n : ℕ) : KernelSE3.foldMat (matrixTensor (grid n)) =
    .ok ⟨[(grid n).length], fun idx => (grid n).getD (idx.headD 0) 0⟩ := by
  unfold KernelSE3.foldMat matrixTensor
  show Except.ok _ = _
  congr 2
  funext idx
  ext i j
  simp

end RBFCert

namespace KernelSE3

open SO3 RBFCert

/-- With the default settings the reference grids of 2 to 24 rotations can be sampled. -/
theorem default_ready (opt : List Euler) (a : KernelArgs Mat3 ℕ) (hg : a.gridH = none) (hmode : a.groupMode = "rbf" ∨ a.groupMode = "nearest")
    (hw : a.rotWidth = 0) (h2 : 2 ≤ a.groupKernelSize) (h24 : a.groupKernelSize ≤ 24) (hgr : 0 < a.groups) (hk : 0 < a.kernelSize) :
    ∃ gr w, Ready initialStore opt a gr w ∧ gr.shape = [a.groupKernelSize] ∧
      Separated SO3.dist (gr.map matrixToQuat) a.groupKernelSize := by
  have hn : (RBFCert.grid a.groupKernelSize).length = a.groupKernelSize := RBFCert.grid_length _ h2 h24
  obtain ⟨-, hM, hW, -, -⟩ := RBFCert.parts _ h2 h24
  have ha : RBFCert.angles a.groupKernelSize (RBFCert.lo a.groupKernelSize (RBFCert.se3Cert a.groupKernelSize).T)
      (RBFCert.hi a.groupKernelSize (RBFCert.se3Cert a.groupKernelSize).T) (RBFCert.quatRow a.groupKernelSize) = true := by
    unfold RBFCert.checkMatrix at hM
    simp only [Bool.and_eq_true] at hM
    exact hM.1.1
  set gr : Tensor Mat3 := ⟨[(RBFCert.grid a.groupKernelSize).length], fun idx => (RBFCert.grid a.groupKernelSize).getD (idx.headD 0) 0⟩ with hgrd
  have hel : elems gr = RBFCert.grid a.groupKernelSize := by
    apply List.ext_getElem
    · simp [elems, hgrd]
    · intro i h1 h2
      simp [elems, hgrd, h2]
  obtain ⟨l, hl, hw1, hw2⟩ := RBFCert.checkWidth_sound (q := (elems gr).map matrixToQuat) hW ha (s := 10 ^ 11) (by positivity)
    (by rw [hel, List.length_map, hn]) (by
      intro i hi
      rw [List.getElem_map]
      rw [List.length_map] at hi
      simp only [hel] at hi ⊢
      exact RBFCert.grid_quat _ _ hi)
  have hrow : ∀ i < a.groupKernelSize, (gr.map matrixToQuat).get [i] = unit (10 ^ 11) (quatRow a.groupKernelSize i) := by
    intro i hi
    show matrixToQuat ((RBFCert.grid a.groupKernelSize).getD i 0) = _
    rw [getD_lt (by omega)]
    exact RBFCert.grid_quat _ _ _
  refine ⟨gr, 0.8 * mean l, ⟨?_, hgr, hk, ?_, ?_, solvable_of hmode rfl ?_ ?_⟩, by rw [hgrd]; dsimp only; rw [hn],
    RBFCert.separated _ h2 h24 _ hrow⟩
  · unfold grid
    rw [hg]
    dsimp only
    rw [RBFCert.loaded _ h2 h24, ok_bind, RBFCert.foldMat_grid]
  · unfold defaultWidth nearestNeighbourDistanceMatrix
    rw [if_pos hw, hl]; rfl
  · show 0 < (RBFCert.grid a.groupKernelSize).length
    omega
  · show 0 < (RBFCert.grid a.groupKernelSize).length
    omega
  · exact RBFCert.checkMatrix_sound hM (s := 10 ^ 11) (by positivity) (q := gr.map matrixToQuat) hn hrow hw1 hw2

end KernelSE3

/-! ## E(3) -/
namespace KernelE3

open SO3 RBFCert

theorem elt_ext {c : ℝ} {R : Mat3} {x : O3.Elt} (h0 : x 0 = c) (h : ∀ j k : Fin 3, x (Fin.ofNat 10 (1 + 3 * j + k)) = R j k) :
    x = O3.mk c R := by
  have h' : ∀ j k : ℕ, (hj : j < 3) → (hk : k < 3) → x (Fin.ofNat 10 (1 + 3 * j + k)) = R ⟨j, hj⟩ ⟨k, hk⟩ :=
    fun j k hj hk => h ⟨j, hj⟩ ⟨k, hk⟩
  funext i
  fin_cases i
  · exact h0
  · exact h' 0 0 (by omega) (by omega)
  · exact h' 0 1 (by omega) (by omega)
  · exact h' 0 2 (by omega) (by omega)
  · exact h' 1 0 (by omega) (by omega)
  · exact h' 1 1 (by omega) (by omega)
  · exact h' 1 2 (by omega) (by omega)
  · exact h' 2 0 (by omega) (by omega)
  · exact h' 2 1 (by omega) (by omega)
  · exact h' 2 2 (by omega) (by omega)

/-- the grid of the E(3) kernels with default settings: rotations of the first shipped grid, then reflections built
from the second one. -/
theorem default_grid (opt1 opt2 : List Euler) (a : KernelArgs O3.Elt SizeArg) (hg : a.gridH = none) {n m : ℕ}
    (hs : sizePair a.groupKernelSize = (n, m)) (hn : 2 ≤ n) (hn' : n ≤ 24) (hm : 2 ≤ m) (hm' : m ≤ 24) :
    ∃ gr, grid initialStore opt1 opt2 a = .ok gr ∧ gr.shape = [n + m] ∧
      (∀ i, (hi : i < (RBFCert.grid n).length) → gr.get [i] = O3.mk 1 ((RBFCert.grid n)[i])) ∧
      (∀ i, (hi : i < (RBFCert.grid m).length) → gr.get [n + i] = O3.mk (-1) ((RBFCert.grid m)[i])) := by
  have ln := RBFCert.grid_length n hn hn'
  have lm := RBFCert.grid_length m hm hm'
  obtain ⟨-, G, hG, hGs, h1, h2⟩ := O3.C35_layout initialStore n m opt1 opt2 (by omega) _ _ (RBFCert.loaded n hn hn' opt1)
    (RBFCert.loaded m hm hm' opt2) (fun _ => by unfold matrixTensor; dsimp only; rw [ln])
    (fun _ => by unfold matrixTensor; dsimp only; rw [lm])
  refine ⟨⟨[n + m], fun idx k => G.get [idx.headD 0, k]⟩, ?_, rfl, ?_, ?_⟩
  · unfold grid
    rw [hg, hs]
    dsimp only
    rw [hG, ok_bind]
    unfold foldElt
    rw [hGs]
    rfl
  · intro i hi
    obtain ⟨c, e⟩ := h1 i (by omega)
    refine elt_ext c fun j k => ?_
    have := e j k j.2 k.2
    show G.get [i, (1 + 3 * (j : ℕ) + k) % 10] = _
    rw [Nat.mod_eq_of_lt (by omega), this]
    unfold matrixTensor
    dsimp only
    show (RBFCert.grid n).getD i 0 _ _ = _
    rw [getD_lt hi]
    congr 1 <;> simp
  · intro i hi
    obtain ⟨c, e⟩ := h2 i (by omega)
    refine elt_ext c fun j k => ?_
    have := e j k j.2 k.2
    show G.get [n + i, (1 + 3 * (j : ℕ) + k) % 10] = _
    rw [Nat.mod_eq_of_lt (by omega), this]
    unfold matrixTensor
    dsimp only
    show (RBFCert.grid m).getD i 0 _ _ = _
    rw [getD_lt hi]
    congr 1 <;> simp

/-- the default width of one half of the grid. -/
theorem half_width (n : ℕ) (hn : 2 ≤ n) (hn' : n ≤ 24) (c : ℝ) (hc : c * c = 1) (l : List O3.Elt)
    (hl : l = (RBFCert.grid n).map (O3.mk c)) : ∃ d, rowNearestNeighbour l = .ok d ∧
      ((RBFCert.e3Cert n).2.2.wLo : ℝ) / 100000 ≤ 0.8 * mean d ∧ 0.8 * mean d ≤ ((RBFCert.e3Cert n).2.2.wHi : ℝ) / 100000 := by
  obtain ⟨h1, -, -, -, hR⟩ := RBFCert.parts n hn hn'
  have ln := RBFCert.grid_length n hn hn'
  subst hl
  refine ⟨_, if_neg (by rw [List.length_map, ln]; omega), ?_⟩
  refine RBFCert.checkRows_sound (dist := fun x y => rowDistance x y defaultEps) hR (by rw [List.length_map, ln]) ?_
  intro i j hi hj
  rw [List.length_map, ln] at hi hj
  refine ⟨_, ?_, rfl⟩
  rw [List.getElem_map, List.getElem_map, mk_inner, hc]
  have e : ∀ k, (hk : k < n) → (RBFCert.grid n)[k]'(by omega) = ((mats n)[k]'(by omega)).real (10 ^ 11) := by
    intro k hk; simp [RBFCert.grid]
  rw [e i hi, e j hj]
  unfold RBFCert.rowDot
  dsimp only
  rw [getD_lt (by omega), getD_lt (by omega)]
  generalize (mats n)[i]'(by omega) = p
  generalize (mats n)[j]'(by omega) = q
  unfold Tables.Z9.real
  simp [Fin.sum_univ_three]
  field_simp
  ring

/-- With the default settings the reference grids of 2 to 24 rotations and 2 to 24 reflections can be sampled. -/
theorem default_ready (opt1 opt2 : List Euler) (a : KernelArgs O3.Elt SizeArg) (hg : a.gridH = none) (hmode : a.groupMode = "rbf" ∨ a.groupMode = "nearest")
    (hw : a.rotWidth = 0) (hf : a.refWidth = 0) {n m : ℕ} (hs : sizePair a.groupKernelSize = (n, m))
    (hn : 2 ≤ n) (hn' : n ≤ 24) (hm : 2 ≤ m) (hm' : m ≤ 24) (hgr : 0 < a.groups) (hk : 0 < a.kernelSize) :
    ∃ gr wr wf, Ready initialStore opt1 opt2 a gr wr wf ∧ gr.shape = [n + m] ∧
      (∀ i < n, O3.coef (gr.get [i]) = 1) ∧ (∀ i < m, O3.coef (gr.get [n + i]) = -1) ∧
      Separated SO3.dist (quats (gr.slice0 0 n)) n ∧ Separated SO3.dist (quats (gr.drop0 n)) m := by
  obtain ⟨gr, h0, hsh, h1, h2⟩ := default_grid opt1 opt2 a hg hs hn hn' hm hm'
  have ln := RBFCert.grid_length n hn hn'
  have lm := RBFCert.grid_length m hm hm'
  have hnr : nRot a = n := by unfold nRot; rw [hs]
  have hnf : nRef a = m := by unfold nRef; rw [hs]
  have hel : elems gr = (RBFCert.grid n).map (O3.mk 1) ++ (RBFCert.grid m).map (O3.mk (-1)) := by
    apply List.ext_getElem
    · simp [elems, hsh, ln, lm]
    · intro i h3 h4
      have h3' : i < n + m := by simpa [elems, hsh] using h3
      simp only [elems, List.getElem_map, List.getElem_range]
      by_cases hi : i < n
      · rw [h1 i (by omega), List.getElem_append_left (by rw [List.length_map]; omega), List.getElem_map]
      · have e : n + (i - n) = i := by omega
        have := h2 (i - n) (by omega)
        rw [e] at this
        rw [this, List.getElem_append_right (by rw [List.length_map]; omega), List.getElem_map]
        congr 2
        rw [List.length_map, ln]
  obtain ⟨d1, e1, w1, w1'⟩ := half_width n hn hn' 1 (by norm_num) ((elems gr).take n) (by
    rw [hel, List.take_append_of_le_length (by rw [List.length_map, ln]), List.take_of_length_le (by rw [List.length_map, ln])])
  obtain ⟨d2, e2, w2, w2'⟩ := half_width m hm hm' (-1) (by norm_num) ((elems gr).drop n) (by
    rw [hel, List.drop_append_of_le_length (by rw [List.length_map, ln]), List.drop_of_length_le (by rw [List.length_map, ln]), List.nil_append])
  have hrot : ∀ c R, O3.rot (O3.mk c R) = R := fun c R => O3.rot_mk c R
  have q1 : ∀ i < n, (quats (gr.slice0 0 n)).get [i] = unit (10 ^ 11) (quatRow n i) := by
    intro i hi
    show matrixToQuat (O3.rot (gr.get [0 + i])) = _
    rw [Nat.zero_add, h1 i (by omega), hrot]
    exact grid_quat _ _ _
  have q2 : ∀ i < m, (quats (gr.drop0 n)).get [i] = unit (10 ^ 11) (quatRow m i) := by
    intro i hi
    show matrixToQuat (O3.rot (gr.get [n + i])) = _
    rw [h2 i (by omega), hrot]
    exact grid_quat _ _ _
  refine ⟨gr, 0.8 * mean d1, 0.8 * mean d2, ⟨h0, hgr, hk, ?_, ?_, by omega, fun _ => ?_, fun _ => ?_⟩, hsh, ?_, ?_,
    separated n hn hn' _ q1, separated m hm hm' _ q2⟩
  · unfold defaultWidth
    rw [if_pos hw, hnr, e1]; rfl
  · unfold defaultWidth
    rw [if_pos hf, hnr, e2]; rfl
  · rw [hnr]
    have hh : (quats (gr.slice0 0 n)).shape.headD 0 = n := by
      simp [quats, slice0, hsh, Tensor.map]
    exact solvable_of hmode hh (by omega) (checkMatrix_sound (parts n hn hn').2.2.2.1 (s := 10 ^ 11) (by positivity) hh q1 w1 w1')
  · rw [hnr, hnf]
    have hh : (quats (gr.drop0 n)).shape.headD 0 = m := by
      simp [quats, drop0, slice0, hsh, Tensor.map]
    exact solvable_of hmode hh (by omega) (checkMatrix_sound (parts m hm hm').2.2.2.1 (s := 10 ^ 11) (by positivity) hh q2 w2 w2')
  · intro i hi
    rw [h1 i (by omega)]; rfl
  · intro i hi
    rw [h2 i (by omega)]; rfl

end KernelE3

/-! ## SO(2) -/
namespace SO2

/-- different angles of the uniform grid are at least `6 / n` apart. -/
theorem uniform_apart (n i j : ℕ) (hi : i < n) (hj : j < n) (hne : i ≠ j) :
    6 / (n : ℝ) ≤ dist (2 * Real.pi * i / n) (2 * Real.pi * j / n) := by
  have hn : (0 : ℝ) < n := by exact_mod_cast (by omega : 0 < n)
  have hn2 : (2 : ℝ) ≤ n := by exact_mod_cast (by omega : 2 ≤ n)
  have hpi := Real.pi_gt_three
  have h6 : 6 / (n : ℝ) ≤ 3 := by rw [div_le_iff₀ hn]; linarith
  have h60 : 0 ≤ 6 / (n : ℝ) := by positivity
  have hle : 6 / (n : ℝ) ≤ 2 * Real.pi / n := by gcongr; linarith
  have hmain : ∀ k : ℕ, 1 ≤ k → k < n → Real.cos (2 * Real.pi * k / n) ≤ Real.cos (6 / n) := by
    intro k hk hkn
    have hk1 : (1 : ℝ) ≤ k := by exact_mod_cast hk
    have hk2 : (k : ℝ) ≤ n - 1 := by
      have : (k : ℝ) + 1 ≤ n := by exact_mod_cast hkn
      linarith
    have e1 : 2 * Real.pi / n ≤ 2 * Real.pi * k / n := by
      apply div_le_div_of_nonneg_right _ hn.le; nlinarith
    have e2 : 2 * Real.pi * k / n ≤ 2 * Real.pi - 2 * Real.pi / n := by
      rw [div_le_iff₀ hn, sub_mul, div_mul_cancel₀ _ hn.ne']
      nlinarith
    rcases le_total (2 * Real.pi * k / n) Real.pi with h | h
    · exact Real.cos_le_cos_of_nonneg_of_le_pi h60 h (hle.trans e1)
    · rw [← Real.cos_two_pi_sub]
      exact Real.cos_le_cos_of_nonneg_of_le_pi h60 (by linarith) (by linarith)
  have hcos : Real.cos (2 * Real.pi * i / n - 2 * Real.pi * j / n) ≤ Real.cos (6 / n) := by
    rcases lt_or_gt_of_ne hne with h | h
    · rw [← Real.cos_neg]
      have := hmain (j - i) (by omega) (by omega)
      rw [Nat.cast_sub h.le] at this
      refine le_trans (le_of_eq ?_) this
      congr 1; ring
    · have := hmain (i - j) (by omega) (by omega)
      rw [Nat.cast_sub h.le] at this
      refine le_trans (le_of_eq ?_) this
      congr 1; ring
  have hc3 : (-1 : ℝ) + defaultEps ≤ Real.cos (6 / n) := by
    have h1 : Real.cos 3 ≤ Real.cos (6 / n) := Real.cos_le_cos_of_nonneg_of_le_pi h60 hpi.le h6
    have h2 : Real.cos 3 = 2 * Real.cos (3 / 2) ^ 2 - 1 := by
      rw [← Real.cos_two_mul]; norm_num
    have h3 : 1 / 100 ≤ Real.cos (3 / 2) := by
      have := Real.sin_gt_sub_cube (x := Real.pi / 2 - 3 / 2) (by linarith)
      rw [Real.sin_pi_div_two_sub] at this
      have h4 := Real.pi_gt_d2
      have h5 := Real.pi_lt_d2
      have h6 : (Real.pi / 2 - 3 / 2) ^ 3 ≤ (1 / 10) ^ 3 := by
        apply pow_le_pow_left₀ (by linarith); linarith
      norm_num at h6 h4
      linarith
    have h4 : (1 / 100 : ℝ) ^ 2 ≤ Real.cos (3 / 2) ^ 2 := pow_le_pow_left₀ (by norm_num) h3 2
    have h5 : defaultEps ≤ 1 / 10000 := by unfold defaultEps; norm_num
    nlinarith
  unfold dist
  rw [geodesic_eq, ← Real.arccos_cos h60 (by linarith)]
  apply Real.antitone_arccos
  exact (min_le_left _ _).trans (max_le hcos hc3)

/-- The default width of the SE(2) and E(2) kernels (0.8 times the clamped distance 0) makes the interpolation matrix of the
uniform grid diagonally dominant. -/
theorem uniform_det (n : ℕ) (hn : n ≤ 10 ^ 6) (q : Tensor ℝ) (hq : q.shape.headD 0 = n)
    (hv : ∀ i < n, q.get [i] = 2 * Real.pi * i / n) :
    (Interp.rbfMatrix dist Interp.RBFgauss (0.8 * Real.arccos (1 - defaultEps)) q).det ≠ 0 := by
  subst hq
  set n := q.shape.headD 0 with hnn
  set d0 := Real.arccos (1 - defaultEps) with hd0
  have he : defaultEps = 1e-12 := rfl
  have hpos : 0 < d0 := by
    rw [hd0, Real.arccos_pos, he]; norm_num
  have hup : d0 ≤ 1.5e-6 := by
    rw [hd0, ← Real.arccos_cos (x := 1.5e-6) (by norm_num) (by linarith [Real.pi_gt_three])]
    apply Real.antitone_arccos
    have := Interval.cos_upper4 (x := 1.5e-6) (by norm_num)
    rw [he]; norm_num at this ⊢; linarith
  apply det_ne_zero_of_sum_row_lt_diag
  intro i
  have hdiag : Interp.rbfMatrix dist Interp.RBFgauss (0.8 * d0) q i i = Real.exp (-(0.69314718 / 0.64)) := by
    show Real.exp (-(dist _ _ ^ 2 / ((0.8 * d0) ^ 2 / 0.69314718))) = _
    congr 2
    unfold dist
    rw [geodesic_eq, sub_self, Real.cos_zero, clamp_of_ge (by rw [he]; norm_num)]
    rw [← hd0]
    field_simp
    norm_num
  have hoff : ∀ j ∈ Finset.univ.erase i, ‖Interp.rbfMatrix dist Interp.RBFgauss (0.8 * d0) q i j‖ ≤ Real.exp (-17) := by
    intro j hj
    have hne : (i : ℕ) ≠ j := fun e => Finset.ne_of_mem_erase hj (Fin.ext e.symm)
    have hap := uniform_apart n i j i.2 j.2 hne
    rw [← hv i i.2, ← hv j j.2] at hap
    have hnpos : (0 : ℝ) < n := by exact_mod_cast (Nat.lt_of_le_of_lt (Nat.zero_le _) i.2)
    have hn6 : (n : ℝ) ≤ 10 ^ 6 := by exact_mod_cast hn
    have h6 : (6e-6 : ℝ) ≤ 6 / (n : ℝ) := by
      rw [le_div_iff₀ hnpos]
      linarith
    show ‖Real.exp (-(dist _ _ ^ 2 / ((0.8 * d0) ^ 2 / 0.69314718)))‖ ≤ _
    rw [Real.norm_eq_abs, Real.abs_exp, Real.exp_le_exp, neg_le_neg_iff]
    set D := dist (q.get [i]) (q.get [j]) with hD
    have hD6 : (6e-6 : ℝ) ≤ D := h6.trans hap
    have h1 : (0.8 * d0) ^ 2 ≤ (1.2e-6) ^ 2 := by
      apply pow_le_pow_left₀ (by positivity); norm_num at hup ⊢; linarith
    have h2 : (6e-6 : ℝ) ^ 2 ≤ D ^ 2 := pow_le_pow_left₀ (by norm_num) hD6 2
    rw [le_div_iff₀ (by positivity)]
    norm_num at h1 h2 ⊢
    linarith
  refine lt_of_le_of_lt (Finset.sum_le_sum hoff) ?_
  rw [Finset.sum_const, hdiag, Real.norm_eq_abs, Real.abs_exp, nsmul_eq_mul]
  have hcard : ((Finset.univ.erase i).card : ℝ) ≤ 10 ^ 6 := by
    have : (Finset.univ.erase i).card ≤ n := by
      rw [Finset.card_erase_of_mem (Finset.mem_univ _), Finset.card_univ, Fintype.card_fin]; omega
    have h : (Finset.univ.erase i).card ≤ 10 ^ 6 := this.trans hn
    exact_mod_cast h
  have h1 : Real.exp (-2) ≤ Real.exp (-(0.69314718 / 0.64)) := by
    rw [Real.exp_le_exp]; norm_num
  have h2 : Real.exp (-17) = Real.exp (-2) * Real.exp (-15) := by rw [← Real.exp_add]; norm_num
  have h3 : Real.exp (-15) < 1 / 10 ^ 6 := by
    rw [Real.exp_neg, ← one_div]
    apply one_div_lt_one_div_of_lt (by norm_num)
    have h4 : Real.exp 15 = Real.exp 1 ^ 15 := by rw [← Real.exp_nat_mul]; norm_num
    rw [h4]
    have h5 : (2.7 : ℝ) ≤ Real.exp 1 := by have := Real.exp_one_gt_d9; linarith
    have h6 : (2.7 : ℝ) ^ 15 ≤ Real.exp 1 ^ 15 := pow_le_pow_left₀ (by norm_num) h5 15
    refine lt_of_lt_of_le ?_ h6
    norm_num
  refine lt_of_lt_of_le ?_ h1
  have h4 := Real.exp_pos (-2)
  have h5 := Real.exp_pos (-17)
  calc ((Finset.univ.erase i).card : ℝ) * Real.exp (-17) ≤ 10 ^ 6 * Real.exp (-17) := by gcongr
    _ < Real.exp (-2) := by
      rw [h2]
      have : 10 ^ 6 * (Real.exp (-2) * Real.exp (-15)) = Real.exp (-2) * (10 ^ 6 * Real.exp (-15)) := by ring
      rw [this]
      have h7 : 10 ^ 6 * Real.exp (-15) < 1 := by
        rw [lt_div_iff₀ (by norm_num)] at h3; linarith
      nlinarith

theorem uniform_separated (n : ℕ) (hn : n ≤ 10 ^ 6) (q : Tensor ℝ) (hv : ∀ i < n, q.get [i] = 2 * Real.pi * i / n) :
    Separated dist q n := by
  intro k hk j hj hne
  have he : defaultEps = 1e-12 := rfl
  have h1 : dist (q.get [k]) (q.get [k]) ≤ 1.5e-6 := by
    unfold dist
    rw [geodesic_eq, sub_self, Real.cos_zero, clamp_of_ge (by rw [he]; norm_num)]
    rw [← Real.arccos_cos (x := 1.5e-6) (by norm_num) (by linarith [Real.pi_gt_three])]
    apply Real.antitone_arccos
    have := Interval.cos_upper4 (x := 1.5e-6) (by norm_num)
    rw [he]; norm_num at this ⊢; linarith
  have h2 := uniform_apart n k j hk hj (Ne.symm hne)
  rw [← hv k hk, ← hv j hj] at h2
  have hnpos : (0 : ℝ) < n := by exact_mod_cast (Nat.lt_of_le_of_lt (Nat.zero_le _) hk)
  have hn6 : (n : ℝ) ≤ 10 ^ 6 := by exact_mod_cast hn
  have h6 : (6e-6 : ℝ) ≤ 6 / (n : ℝ) := by
    rw [le_div_iff₀ hnpos]
    linarith
  linarith

end SO2

namespace KernelSE2

/-- With the default settings the uniform grids can be sampled. -/
theorem default_ready (a : KernelArgs ℝ ℕ) (hg : a.gridH = none) (hmode : a.groupMode = "rbf" ∨ a.groupMode = "nearest") (hw : a.rotWidth = 0)
    (h1 : 1 ≤ a.groupKernelSize) (h6 : a.groupKernelSize ≤ 10 ^ 6) (hgr : 0 < a.groups) (hk : 0 < a.kernelSize) :
    ∃ w, Ready a w ∧ (grid a).shape = [a.groupKernelSize] ∧ Separated SO2.dist (grid a) a.groupKernelSize := by
  have hgrid : grid a = Tensor.ofList (SO2.uniformGrid a.groupKernelSize) := by unfold grid; rw [hg]; rfl
  have hsh : (grid a).shape = [a.groupKernelSize] := by
    rw [hgrid]; show [(SO2.uniformGrid _).length] = _; rw [SO2.C03_length]
  have hd : (grid a).shape.headD 0 = a.groupKernelSize := by rw [hsh]; rfl
  have hv : ∀ i < a.groupKernelSize, (grid a).get [i] = 2 * Real.pi * i / a.groupKernelSize := by
    intro i hi
    rw [hgrid]
    have := SO2.C03_value a.groupKernelSize i hi
    show (SO2.uniformGrid a.groupKernelSize).getD i default = _
    rw [List.getD_eq_getElem?_getD, this]; rfl
  refine ⟨0.8 * Real.arccos (1 - SO2.defaultEps), ⟨hgr, hk, ?_, by rw [hd]; omega,
    solvable_of hmode rfl (by rw [hd]; omega) (SO2.uniform_det _ h6 _ hd hv)⟩, hsh, SO2.uniform_separated _ h6 _ hv⟩
  rw [hw]
  apply so2_default
  intro h
  have := congrArg List.length h
  rw [elems_length, hd] at this
  simp at this; omega

end KernelSE2

namespace KernelE2

/-- With the default settings the uniform grids can be sampled. -/
theorem default_ready (a : KernelArgs O2.Elt SizeArg) (hg : a.gridH = none) (hmode : a.groupMode = "rbf" ∨ a.groupMode = "nearest")
    (hw : a.rotWidth = 0) (hf : a.refWidth = 0) {n m : ℕ} (hs : sizePair a.groupKernelSize = (n, m))
    (hn : 1 ≤ n) (hn6 : n ≤ 10 ^ 6) (hm : 1 ≤ m) (hm6 : m ≤ 10 ^ 6) (hgr : 0 < a.groups) (hk : 0 < a.kernelSize) :
    ∃ wr wf, Ready a wr wf ∧ (grid a).shape = [n + m] ∧
      (∀ i < n, ((grid a).get [i]).1 = 1) ∧ (∀ i < m, ((grid a).get [n + i]).1 = -1) ∧
      Separated SO2.dist (((grid a).slice0 0 n).map Prod.snd) n ∧ Separated SO2.dist (((grid a).drop0 n).map Prod.snd) m := by
  have hgrid : grid a = Tensor.ofList (O2.uniformGrid n m) := by unfold grid; rw [hg, hs]; rfl
  have hlen : (O2.uniformGrid n m).length = n + m := by simp [O2.uniformGrid, SO2.C03_length]
  have hsh : (grid a).shape = [n + m] := by
    rw [hgrid]; show [(O2.uniformGrid n m).length] = _; rw [hlen]
  have hnr : nRot a = n := by unfold nRot; rw [hs]
  have hnf : nRef a = m := by unfold nRef; rw [hs]
  have h1 : ∀ i < n, (grid a).get [i] = (1, 2 * Real.pi * i / n) := by
    intro i hi
    rw [hgrid]
    show (O2.uniformGrid n m).getD i default = _
    rw [List.getD_eq_getElem?_getD]
    have : (O2.uniformGrid n m)[i]? = some (1, 2 * Real.pi * i / n) := by
      unfold O2.uniformGrid
      dsimp only
      rw [List.getElem?_zip_eq_some]
      constructor
      · rw [List.getElem?_append_left (by simpa using hi), List.getElem?_replicate, if_pos hi]
      · rw [List.getElem?_append_left (by rw [SO2.C03_length]; exact hi), SO2.C03_value n i hi]
    rw [this]; rfl
  have h2 : ∀ i < m, (grid a).get [n + i] = (-1, 2 * Real.pi * i / m) := by
    intro i hi
    rw [hgrid]
    show (O2.uniformGrid n m).getD (n + i) default = _
    rw [List.getD_eq_getElem?_getD]
    have : (O2.uniformGrid n m)[n + i]? = some (-1, 2 * Real.pi * i / m) := by
      unfold O2.uniformGrid
      dsimp only
      rw [List.getElem?_zip_eq_some]
      constructor
      · rw [List.getElem?_append_right (by simp), List.getElem?_replicate]
        simp [hi]
      · rw [List.getElem?_append_right (by rw [SO2.C03_length]; omega), SO2.C03_length, Nat.add_sub_cancel_left, SO2.C03_value m i hi]
    rw [this]; rfl
  have hel : (elems (grid a)).length = n + m := by rw [elems_length, hsh]; rfl
  have q1 : ∀ i < n, (((grid a).slice0 0 n).map Prod.snd).get [i] = 2 * Real.pi * i / n := by
    intro i hi
    show ((grid a).get [0 + i]).2 = _
    rw [Nat.zero_add, h1 i hi]
  have q2 : ∀ i < m, (((grid a).drop0 n).map Prod.snd).get [i] = 2 * Real.pi * i / m := by
    intro i hi
    show ((grid a).get [n + i]).2 = _
    rw [h2 i hi]
  refine ⟨0.8 * Real.arccos (1 - SO2.defaultEps), 0.8 * Real.arccos (1 - SO2.defaultEps),
    ⟨hgr, hk, ?_, ?_, by omega, fun _ => ?_, fun _ => ?_⟩, hsh, fun i hi => by rw [h1 i hi], fun i hi => by rw [h2 i hi],
    SO2.uniform_separated n hn6 _ q1, SO2.uniform_separated m hm6 _ q2⟩
  · rw [hw]
    apply so2_default
    intro h
    have := congrArg List.length h
    rw [List.length_map, List.length_take, hel, hnr] at this
    simp at this; omega
  · rw [hf]
    apply so2_default
    intro h
    have := congrArg List.length h
    rw [List.length_map, List.length_drop, hel, hnr] at this
    simp at this; omega
  · rw [hnr]
    have hh : (((grid a).slice0 0 n).map Prod.snd).shape.headD 0 = n := by
      simp [slice0, hsh, Tensor.map]
    exact solvable_of hmode hh (by omega) (SO2.uniform_det n hn6 _ hh q1)
  · rw [hnr, hnf]
    have hh : (((grid a).drop0 n).map Prod.snd).shape.headD 0 = m := by
      simp [drop0, slice0, hsh, Tensor.map]
    exact solvable_of hmode hh (by omega) (SO2.uniform_det m hm6 _ hh q2)

end KernelE2

theorem KernelE3.pair_of_coef (a : KernelArgs O3.Elt SizeArg) (h1 : KernelE3.nRot a ≠ 0) (h2 : KernelE3.nRef a ≠ 0) (o i : O3.Elt)
    (ho : O3.coef o = 1 ∨ O3.coef o = -1) (hi : O3.coef i = 1 ∨ O3.coef i = -1) : KernelE3.Pair a o i := by
  rcases ho with ho | ho <;> rcases hi with hi | hi <;> unfold KernelE3.Pair <;> rw [ho, hi] <;> norm_num [h1, h2]

/-! ## C87 -/

theorem evaluates_of {G : Type} {d : ℕ} {K : GroupKernel G d} {inv mul act det core Good coreH} (hK : Lawful K inv mul act det)
    (hs : PointwiseSampler K.sampleRn K.kernelSize core) (hl : LocalCore K.kernelSize core)
    (hsH : RowwiseSampler K.sampleH K.gridH K.groupKernelDim Good coreH) (hlH : LocalChannel K.groupKernelDim coreH)
    (hpos : 0 < K.groupKernelDim) {Valid : G → Prop} (hv : ∀ o i, Valid o → Valid i → Good (mul (inv o) i)) : Evaluates K Valid where
  full weight inH outH nIn nOut hw hin hout h1 h2 := by
    obtain ⟨out, e, s, -⟩ := C51_group hK hs hl hsH hlH hpos weight inH outH nIn nOut hw hin hout
      (fun o ho i hi => hv _ _ (h2 o ho) (h1 i hi))
    exact ⟨out, e, s⟩
  separable weightH weight inH outH n hwH hw hin hout h1 h2 := by
    obtain ⟨wH, w, e, s1, s2, -⟩ := C52_separable_partial hK hs hsH hlH hpos weightH weight inH outH n hwH hw hin hout
      (fun o ho i hi => hv _ _ (h2 o ho) (h1 i hi))
    exact ⟨wH, w, e, s1, s2⟩

/-- `GKernelSE2` and `GSeparableKernelSE2` with the default grid, sampling mode and width. -/
theorem C87_SE2_partial (a : KernelArgs ℝ ℕ) (hg : a.gridH = none) (hmode : a.groupMode = "rbf" ∨ a.groupMode = "nearest") (hw : a.rotWidth = 0)
    (h1 : 1 ≤ a.groupKernelSize) (h6 : a.groupKernelSize ≤ 10 ^ 6) (hgr : 0 < a.groups) (hk : 0 < a.kernelSize) {m p}
    (hm : SpatialModes a.spatialMode a.spatialPad m p) :
    ∃ K, KernelSE2.full a = .ok K ∧ K.groupKernelSize = [a.groupKernelSize] ∧
      K.kernelSize = [a.kernelSize, a.kernelSize] ∧ K.outC = a.outC ∧ K.inC = a.inC ∧ K.groups = a.groups ∧
      Evaluates K fun _ => True := by
  obtain ⟨w, h, hsh, -⟩ := KernelSE2.default_ready a hg hmode hw h1 h6 hgr hk
  refine ⟨_, KernelSE2.full_eq h, by show [_] = _; rw [hsh]; rfl, rfl, rfl, rfl, rfl, ?_⟩
  exact evaluates_of (KernelSE2.lawful a _) (KernelSE2.pointwise a _ hm hk) (sampleAt_local m p _ rfl)
    (KernelSE2.rows h).1 (KernelSE2.rows h).2 h.nonempty (fun _ _ _ _ => trivial)

/-- `GKernelSE3` and `GSeparableKernelSE3` with the default grid, sampling mode and width, for the shipped grids. -/
theorem C87_SE3_partial (opt : List SO3.Euler) (a : KernelArgs SO3.Mat3 ℕ) (hg : a.gridH = none) (hmode : a.groupMode = "rbf" ∨ a.groupMode = "nearest")
    (hw : a.rotWidth = 0) (h2 : 2 ≤ a.groupKernelSize) (h24 : a.groupKernelSize ≤ 24) (hgr : 0 < a.groups) (hk : 0 < a.kernelSize)
    {m p} (hm : SpatialModes a.spatialMode a.spatialPad m p) :
    ∃ K, KernelSE3.full SO3.initialStore opt a = .ok K ∧ K.groupKernelSize = [a.groupKernelSize] ∧
      K.kernelSize = [a.kernelSize, a.kernelSize, a.kernelSize] ∧ K.outC = a.outC ∧ K.inC = a.inC ∧ K.groups = a.groups ∧
      Evaluates K fun _ => True := by
  obtain ⟨gr, w, h, hsh, -⟩ := KernelSE3.default_ready opt a hg hmode hw h2 h24 hgr hk
  refine ⟨_, KernelSE3.full_eq h, by show [gr.shape.headD 3] = _; rw [hsh]; rfl, rfl, rfl, rfl, rfl, ?_⟩
  exact evaluates_of (KernelSE3.lawful a gr _) (KernelSE3.pointwise a gr _ hm hk) (sampleAt_local m p _ rfl)
    (KernelSE3.rows h).1 (KernelSE3.rows h).2 (KernelSE3.dim_pos h) (fun _ _ _ _ => trivial)

/-- `GKernelE2` and `GSeparableKernelE2` with the default grid, sampling mode and widths. -/
theorem C87_E2_partial (a : KernelArgs O2.Elt SizeArg) (hg : a.gridH = none) (hmode : a.groupMode = "rbf" ∨ a.groupMode = "nearest")
    (hw : a.rotWidth = 0) (hf : a.refWidth = 0) {n m : ℕ} (hs : sizePair a.groupKernelSize = (n, m))
    (hn : 1 ≤ n) (hn6 : n ≤ 10 ^ 6) (hm : 1 ≤ m) (hm6 : m ≤ 10 ^ 6) (hgr : 0 < a.groups) (hk : 0 < a.kernelSize)
    {mo p} (hmo : SpatialModes a.spatialMode a.spatialPad mo p) :
    ∃ K, KernelE2.full a = .ok K ∧ K.groupKernelSize = [n, m] ∧
      K.kernelSize = [a.kernelSize, a.kernelSize] ∧ K.outC = a.outC ∧ K.inC = a.inC ∧ K.groups = a.groups ∧
      Evaluates K fun x => x.1 = 1 ∨ x.1 = -1 := by
  obtain ⟨wr, wf, h, hsh, -⟩ := KernelE2.default_ready a hg hmode hw hf hs hn hn6 hm hm6 hgr hk
  refine ⟨_, KernelE2.full_eq h, by show [_, _] = _; rw [hs], rfl, rfl, rfl, rfl, ?_⟩
  have h1 : KernelE2.nRot a ≠ 0 := by unfold KernelE2.nRot; rw [hs]; dsimp only; omega
  have h2 : KernelE2.nRef a ≠ 0 := by unfold KernelE2.nRef; rw [hs]; dsimp only; omega
  exact evaluates_of (KernelE2.lawful a _) (KernelE2.pointwise a _ hmo hk) (sampleAt_local mo p _ rfl)
    (KernelE2.rows h).1 (KernelE2.rows h).2 h.nonempty (fun o i ho hi => KernelE2.pair_of_valid a h1 h2 o i ho hi)

/-- `GKernelE3` and `GSeparableKernelE3` with the default grid, sampling mode and widths, for the shipped grids. -/
theorem C87_E3_partial (opt1 opt2 : List SO3.Euler) (a : KernelArgs O3.Elt SizeArg) (hg : a.gridH = none) (hmode : a.groupMode = "rbf" ∨ a.groupMode = "nearest")
    (hw : a.rotWidth = 0) (hf : a.refWidth = 0) {n m : ℕ} (hs : sizePair a.groupKernelSize = (n, m))
    (hn : 2 ≤ n) (hn' : n ≤ 24) (hm : 2 ≤ m) (hm' : m ≤ 24) (hgr : 0 < a.groups) (hk : 0 < a.kernelSize)
    {mo p} (hmo : SpatialModes a.spatialMode a.spatialPad mo p) :
    ∃ K, KernelE3.full SO3.initialStore opt1 opt2 a = .ok K ∧ K.groupKernelSize = [n, m] ∧
      K.kernelSize = [a.kernelSize, a.kernelSize, a.kernelSize] ∧ K.outC = a.outC ∧ K.inC = a.inC ∧ K.groups = a.groups ∧
      Evaluates K fun x => O3.coef x = 1 ∨ O3.coef x = -1 := by
  obtain ⟨gr, wr, wf, h, hsh, -⟩ := KernelE3.default_ready opt1 opt2 a hg hmode hw hf hs hn hn' hm hm' hgr hk
  refine ⟨_, KernelE3.full_eq h, by show [_, _] = _; rw [hs], rfl, rfl, rfl, rfl, ?_⟩
  have h1 : KernelE3.nRot a ≠ 0 := by unfold KernelE3.nRot; rw [hs]; dsimp only; omega
  have h2 : KernelE3.nRef a ≠ 0 := by unfold KernelE3.nRef; rw [hs]; dsimp only; omega
  exact evaluates_of (KernelE3.lawful a gr _) (KernelE3.pointwise a gr _ hmo hk) (sampleAt_local mo p _ rfl)
    (KernelE3.rows h).1 (KernelE3.rows h).2 h.nonempty (fun o i ho hi => KernelE3.pair_of_coef a h1 h2 o i ho hi)

/-! ### group kernels of size 1 -/

namespace KernelSE3

open SO3

/-- the shipped grid of size 1 is a bare matrix. -/
theorem grid_one (opt : List Euler) (a : KernelArgs Mat3 ℕ) (hg : a.gridH = none) (h1 : a.groupKernelSize = 1) :
    ∃ M : Mat3, grid initialStore opt a = .ok ⟨[], fun _ => M⟩ := by
  obtain ⟨Q, M, -, hM, -⟩ := C32_rows 1 le_rfl (by norm_num)
  have hs := store_matrix 1
  rw [hM] at hs
  dsimp only at hs
  rw [if_pos rfl] at hs
  unfold grid
  rw [hg, h1]
  dsimp only
  unfold SO3.uniformGrid
  rw [if_neg (by norm_num), hs]
  exact ⟨_, rfl⟩

/-- `GKernelSE3(group_kernel_size=1)` and `GSeparableKernelSE3(group_kernel_size=1)` are constructed, with weights for 3
group elements. -/
theorem full_one (opt : List Euler) (a : KernelArgs Mat3 ℕ) (hg : a.gridH = none) (h1 : a.groupKernelSize = 1) (hgr : 0 < a.groups) :
    ∃ M w, full initialStore opt a = .ok (base a ⟨[], fun _ => M⟩ (sampler a.groupMode w)) := by
  obtain ⟨M, hM⟩ := grid_one opt a hg h1
  have : ∃ w, defaultWidth a.rotWidth (nearest ⟨[], fun _ => M⟩) = .ok w := by
    unfold defaultWidth
    by_cases h : a.rotWidth = 0
    · rw [if_pos h]
      unfold nearest
      rw [if_pos rfl]
      unfold nearestNeighbourDistance
      rw [if_neg (by simp [matrixRows])]
      exact ⟨_, rfl⟩
    · rw [if_neg h]; exact ⟨_, rfl⟩
  obtain ⟨w, hw⟩ := this
  refine ⟨M, w, ?_⟩
  unfold full
  rw [hM, ok_bind, hw, ok_bind]
  exact if_neg (by omega)

end KernelSE3

/-- With `group_kernel_size=1` the SE(3) kernels are constructed (with parameters for three group elements) but no
evaluation on grids `in_H`, `out_H` succeeds, in either sampling mode. -/
theorem C87_violated_SE3 (opt : List SO3.Euler) (a : KernelArgs SO3.Mat3 ℕ) (hg : a.gridH = none)
    (hmode : a.groupMode = "rbf" ∨ a.groupMode = "nearest") (h1 : a.groupKernelSize = 1) (hgr : 0 < a.groups) :
    ∃ K, KernelSE3.full SO3.initialStore opt a = .ok K ∧ K.groupKernelSize = [3] ∧
      (∀ (weight : Tensor ℝ) (inH outH : Tensor SO3.Mat3) (nIn nOut : ℕ),
        weight.shape = [3, a.outC, a.inC / a.groups, a.kernelSize, a.kernelSize, a.kernelSize] →
        inH.shape = [nIn] → outH.shape = [nOut] → K.forward weight inH outH = .error .runtimeError) ∧
      (∀ (weightH weight : Tensor ℝ) (inH outH : Tensor SO3.Mat3) (nIn nOut : ℕ),
        weightH.shape = [3, a.outC, a.inC / a.groups] → inH.shape = [nIn] → outH.shape = [nOut] →
        K.separableForward weightH weight inH outH = .error .runtimeError) := by
  obtain ⟨M, w, hK⟩ := KernelSE3.full_one opt a hg h1 hgr
  have hs : ∀ q sig, KernelSE3.sampler a.groupMode w q sig ⟨[], fun _ => M⟩ = .error .runtimeError :=
    fun q sig => if_pos ⟨rfl, hmode.symm⟩
  have hlaw := KernelSE3.lawful a ⟨[], fun _ => M⟩ (KernelSE3.sampler a.groupMode w)
  have hdim : (KernelSE3.base a ⟨[], fun _ => M⟩ (KernelSE3.sampler a.groupMode w)).groupKernelDim = 3 := rfl
  refine ⟨_, hK, rfl, ?_, ?_⟩
  · intro weight inH outH nIn nOut hw hin hout
    unfold forward
    rw [hin, hout, show [nIn].headD 0 = nIn from rfl, show [nOut].headD 0 = nOut from rfl, hlaw.inverseH]
    dsimp only
    rw [hlaw.leftApplyToRn, hlaw.leftApplyToH, hdim,
      viewInfer_flat (pairwise _ (outH.map _) inH) nOut nIn (by simp [pairwise, Tensor.map, hout, hin]),
      ok_bind, viewInfer_rows weight 3 _ hw (by norm_num), ok_bind]
    show (KernelSE3.sampler a.groupMode w _ _ ⟨[], fun _ => M⟩ >>= _) = _
    rw [hs]; rfl
  · intro weightH weight inH outH nIn nOut hw hin hout
    unfold separableForward subgroupWeights
    rw [hin, hout, show [nIn].headD 0 = nIn from rfl, show [nOut].headD 0 = nOut from rfl, hlaw.inverseH]
    dsimp only
    rw [hlaw.leftApplyToRn, hlaw.leftApplyToH, hdim,
      viewInfer_flat (pairwise _ (outH.map _) inH) nOut nIn (by simp [pairwise, Tensor.map, hout, hin]),
      ok_bind, viewInfer_rows weightH 3 _ hw (by norm_num), ok_bind]
    show ((KernelSE3.sampler a.groupMode w _ _ ⟨[], fun _ => M⟩ >>= _) >>= _) = _
    rw [hs]; rfl

/-- E(3) kernels with one rotation cannot be constructed. -/
theorem C87_violated_E3 (opt1 opt2 : List SO3.Euler) (a : KernelArgs O3.Elt SizeArg) (hg : a.gridH = none) (m : ℕ)
    (hs : sizePair a.groupKernelSize = (1, m)) (hm : opt2.length = m) :
    KernelE3.full SO3.initialStore opt1 opt2 a = .error .runtimeError ∧
    KernelE3.lifting SO3.initialStore opt1 opt2 a = .error .runtimeError := by
  have hgrid : KernelE3.grid SO3.initialStore opt1 opt2 a = .error .runtimeError := by
    unfold KernelE3.grid
    rw [hg, hs]
    dsimp only
    rw [O3.C35_one_rotation m opt1 opt2 hm]; rfl
  constructor
  · unfold KernelE3.full
    dsimp only
    rw [hgrid]; rfl
  · unfold KernelE3.lifting
    rw [hgrid]; rfl

/-- the default arguments of the constructors meet the hypotheses. -/
example : ∃ K, KernelSE3.full SO3.initialStore [] { inC := 3, outC := 8, kernelSize := 5, groupKernelSize := 12 } = .ok K ∧
    Evaluates K fun _ => True := by
  obtain ⟨K, h, -, -, -, -, -, e⟩ := C87_SE3_partial [] { inC := 3, outC := 8, kernelSize := 5, groupKernelSize := 12 } rfl (Or.inl rfl) rfl
    (by norm_num) (by norm_num) (by norm_num) (by norm_num) (m := .bilinear) (p := .border) ⟨rfl, rfl⟩
  exact ⟨K, h, e⟩

example : ∃ K, KernelE3.full SO3.initialStore [] [] { inC := 3, outC := 8, kernelSize := 5, groupKernelSize := .pair 12 4 } = .ok K ∧
    Evaluates K fun x => O3.coef x = 1 ∨ O3.coef x = -1 := by
  obtain ⟨K, h, -, -, -, -, -, e⟩ := C87_E3_partial [] [] { inC := 3, outC := 8, kernelSize := 5, groupKernelSize := .pair 12 4 } rfl (Or.inl rfl) rfl rfl
    (n := 12) (m := 4) rfl (by norm_num) (by norm_num) (by norm_num) (by norm_num) (by norm_num) (by norm_num) (mo := .bilinear) (p := .border) ⟨rfl, rfl⟩
  exact ⟨K, h, e⟩

example : ∃ K, KernelSE2.full { inC := 3, outC := 8, kernelSize := 5, groupKernelSize := 8 } = .ok K ∧ Evaluates K fun _ => True := by
  obtain ⟨K, h, -, -, -, -, -, e⟩ := C87_SE2_partial { inC := 3, outC := 8, kernelSize := 5, groupKernelSize := 8 } rfl (Or.inl rfl) rfl
    (by norm_num) (by norm_num) (by norm_num) (by norm_num) (m := .bilinear) (p := .border) ⟨rfl, rfl⟩
  exact ⟨K, h, e⟩

example : ∃ K, KernelE2.full { inC := 3, outC := 8, kernelSize := 5, groupKernelSize := .int 8 } = .ok K ∧
    Evaluates K fun x => x.1 = 1 ∨ x.1 = -1 := by
  obtain ⟨K, h, -, -, -, -, -, e⟩ := C87_E2_partial { inC := 3, outC := 8, kernelSize := 5, groupKernelSize := .int 8 } rfl (Or.inl rfl) rfl rfl
    (n := 8) (m := 8) rfl (by norm_num) (by norm_num) (by norm_num) (by norm_num) (by norm_num) (by norm_num) (mo := .bilinear) (p := .border) ⟨rfl, rfl⟩
  exact ⟨K, h, e⟩

end GConv

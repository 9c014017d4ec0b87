import Verif.Props.Tables

/-! # The shipped grids: C32 -/

namespace GConv.SO3

open Spec Tables GridCache

/-- `Q` lists `n` approximate unit quaternions. -/
def QuatGrid (n : ℕ) (Q : List Quat) (tol : ℝ) : Prop :=
  Q.length = n ∧ ∀ q ∈ Q, |dot q q - 1| ≤ tol

/-- `M` lists `n` approximate rotation matrices. -/
def MatrixGrid (n : ℕ) (M : List Mat3) (tol : ℝ) : Prop :=
  M.length = n ∧ ∀ R ∈ M, (∀ i j, |(R.transpose * R) i j - (1 : Mat3) i j| ≤ tol) ∧
    |R.det - 1| ≤ tol

/-- row by row the same rotation, to `tol` per matrix entry. -/
def SameRotations (Q : List Quat) (M : List Mat3) (tol : ℝ) : Prop :=
  List.Forall₂ (fun q R => ∀ i j, |quatToMatrix q i j - R i j| ≤ tol) Q M

namespace Tables

def Z9.detZ (m : Z9) : Int :=
  m.a * m.e * m.i - m.a * m.f * m.h - m.b * m.d * m.i + m.b * m.f * m.g + m.c * m.d * m.h
    - m.c * m.e * m.g

def checkQ (S2 tol : Int) (T : List Z4) : Bool :=
  T.all fun q => near (q.w * q.w + q.x * q.x + q.y * q.y + q.z * q.z) S2 tol

def checkM (S2 S3 tol2 tol3 : Int) (T : List Z9) : Bool :=
  T.all fun m =>
    near (m.a * m.a + m.d * m.d + m.g * m.g) S2 tol2 && near (m.b * m.b + m.e * m.e + m.h * m.h) S2 tol2 &&
    near (m.c * m.c + m.f * m.f + m.i * m.i) S2 tol2 && near (m.a * m.b + m.d * m.e + m.g * m.h) 0 tol2 &&
    near (m.a * m.c + m.d * m.f + m.g * m.i) 0 tol2 && near (m.b * m.c + m.e * m.f + m.h * m.i) 0 tol2 &&
    near m.detZ S3 tol3

def checkRow (s tol : Int) (q : Z4) (m : Z9) : Bool :=
  near (q.x * q.x - q.y * q.y - q.z * q.z + q.w * q.w) (s * m.a) tol &&
  near (2 * (q.x * q.y - q.z * q.w)) (s * m.b) tol && near (2 * (q.x * q.z + q.y * q.w)) (s * m.c) tol &&
  near (2 * (q.x * q.y + q.z * q.w)) (s * m.d) tol &&
  near (-(q.x * q.x) + q.y * q.y - q.z * q.z + q.w * q.w) (s * m.e) tol &&
  near (2 * (q.y * q.z - q.x * q.w)) (s * m.f) tol && near (2 * (q.x * q.z - q.y * q.w)) (s * m.g) tol &&
  near (2 * (q.y * q.z + q.x * q.w)) (s * m.h) tol &&
  near (-(q.x * q.x) - q.y * q.y + q.z * q.z + q.w * q.w) (s * m.i) tol

def checkRows (s tol : Int) : List Z4 → List Z9 → Bool
  | [], [] => true
  | q :: Q, m :: M => checkRow s tol q m && checkRows s tol Q M
  | _, _ => false

theorem checkQ_sound (s : Nat) (hs : 0 < s) (S2 tol : Int) (T : List Z4) (tolR : ℝ)
    (hS2 : S2 = s * s) (htol : (tol : ℝ) / (s * s) = tolR) (h : checkQ S2 tol T = true) :
    ∀ q ∈ T.map (Z4.real s), |dot q q - 1| ≤ tolR := by
  have hs' : (0 : ℝ) < (s : ℝ) * s := by positivity
  have hs0 : (s : ℝ) ≠ 0 := by positivity
  intro q hq
  obtain ⟨z, hz, rfl⟩ := List.mem_map.1 hq
  unfold checkQ at h
  rw [List.all_eq_true] at h
  have := near_real (h z hz) _ hs'
  rw [htol, hS2] at this
  push_cast at this
  rw [div_self hs'.ne'] at this
  convert this using 2
  rw [dot4]; simp [Z4.real]; field_simp

theorem checkM_sound (s : Nat) (hs : 0 < s) (S2 S3 tol2 tol3 : Int) (T : List Z9) (tolR : ℝ)
    (hS2 : S2 = s * s) (hS3 : S3 = s * s * s) (ht2 : (tol2 : ℝ) / (s * s) = tolR)
    (ht3 : (tol3 : ℝ) / (s * s * s) = tolR) (h : checkM S2 S3 tol2 tol3 T = true) :
    ∀ R ∈ T.map (Z9.real s), (∀ i j, |(R.transpose * R) i j - (1 : Mat3) i j| ≤ tolR) ∧
      |R.det - 1| ≤ tolR := by
  have hs' : (0 : ℝ) < (s : ℝ) * s := by positivity
  have hs3 : (0 : ℝ) < (s : ℝ) * s * s := by positivity
  have hs0 : (s : ℝ) ≠ 0 := by positivity
  intro R hR
  obtain ⟨m, hm, rfl⟩ := List.mem_map.1 hR
  unfold checkM at h
  rw [List.all_eq_true] at h
  have h := h m hm
  simp only [Bool.and_eq_true] at h
  obtain ⟨⟨⟨⟨⟨⟨h1, h2⟩, h3⟩, h4⟩, h5⟩, h6⟩, h7⟩ := h
  have r1 := near_real h1 _ hs'
  have r2 := near_real h2 _ hs'
  have r3 := near_real h3 _ hs'
  have r4 := near_real h4 _ hs'
  have r5 := near_real h5 _ hs'
  have r6 := near_real h6 _ hs'
  have r7 := near_real h7 _ hs3
  rw [ht2] at r1 r2 r3 r4 r5 r6
  rw [ht3, hS3] at r7
  rw [hS2] at r1 r2 r3
  push_cast at r1 r2 r3 r4 r5 r6 r7
  rw [div_self hs'.ne'] at r1 r2 r3
  rw [div_self hs3.ne'] at r7
  rw [zero_div] at r4 r5 r6
  constructor
  · intro i j
    fin_cases i <;> fin_cases j <;>
      simp only [Matrix.mul_apply, Matrix.transpose_apply, Fin.sum_univ_three, Z9.real] <;> simp
    · convert r1 using 2; field_simp
    · convert r4 using 1; simp; congr 1; field_simp
    · convert r5 using 1; simp; congr 1; field_simp
    · convert r4 using 1; simp; congr 1; field_simp
    · convert r2 using 2; field_simp
    · convert r6 using 1; simp; congr 1; field_simp
    · convert r5 using 1; simp; congr 1; field_simp
    · convert r6 using 1; simp; congr 1; field_simp
    · convert r3 using 2; field_simp
  · convert r7 using 2
    rw [Matrix.det_fin_three]
    simp [Z9.real, Z9.detZ]
    field_simp

theorem checkRow_sound (s : Nat) (hs : 0 < s) (tol : Int) (tolR : ℝ)
    (htol : (tol : ℝ) / (s * s) = tolR) (q : Z4) (m : Z9) (h : checkRow s tol q m = true) (i j : Fin 3) :
    |quatToMatrix (q.real s) i j - m.real s i j| ≤ tolR := by
  have hs' : (0 : ℝ) < (s : ℝ) * s := by positivity
  have hs0 : (s : ℝ) ≠ 0 := by positivity
  unfold checkRow at h
  simp only [Bool.and_eq_true] at h
  obtain ⟨⟨⟨⟨⟨⟨⟨⟨h1, h2⟩, h3⟩, h4⟩, h5⟩, h6⟩, h7⟩, h8⟩, h9⟩ := h
  have r1 := near_real h1 _ hs'
  have r2 := near_real h2 _ hs'
  have r3 := near_real h3 _ hs'
  have r4 := near_real h4 _ hs'
  have r5 := near_real h5 _ hs'
  have r6 := near_real h6 _ hs'
  have r7 := near_real h7 _ hs'
  have r8 := near_real h8 _ hs'
  have r9 := near_real h9 _ hs'
  rw [htol] at r1 r2 r3 r4 r5 r6 r7 r8 r9
  push_cast at r1 r2 r3 r4 r5 r6 r7 r8 r9
  rw [mul_div_mul_left _ _ hs0] at r1 r2 r3 r4 r5 r6 r7 r8 r9
  fin_cases i <;> fin_cases j <;> simp only [quatToMatrix, Z4.real, Z9.real] <;> simp
  · convert r1 using 2; field_simp
  · convert r2 using 2; field_simp
  · convert r3 using 2; field_simp
  · convert r4 using 2; field_simp
  · convert r5 using 2; field_simp
  · convert r6 using 2; field_simp
  · convert r7 using 2; field_simp
  · convert r8 using 2; field_simp
  · convert r9 using 2; field_simp

theorem checkRows_sound (s : Nat) (hs : 0 < s) (tol : Int) (tolR : ℝ)
    (htol : (tol : ℝ) / (s * s) = tolR) (Q : List Z4) (M : List Z9)
    (h : checkRows s tol Q M = true) :
    SameRotations (Q.map (Z4.real s)) (M.map (Z9.real s)) tolR := by
  induction Q generalizing M with
  | nil =>
    cases M with
    | nil => exact List.Forall₂.nil
    | cons m M => simp [checkRows] at h
  | cons q Q ih =>
    cases M with
    | nil => simp [checkRows] at h
    | cons m M =>
      simp only [checkRows, Bool.and_eq_true] at h
      exact List.Forall₂.cons (checkRow_sound s hs tol tolR htol q m h.1) (ih M h.2)

/-- everything for all sizes at once. -/
def checkAll : Bool :=
  (List.range 24).all fun k =>
    match quatCache.lookup (k + 1), matrixCache.lookup (k + 1) with
    | some Q, some M =>
      decide (Q.length = k + 1) && decide (M.length = k + 1) &&
      checkQ (10 ^ 22) (2 * 10 ^ 18) Q && checkM (10 ^ 22) (10 ^ 33) (2 * 10 ^ 18) (2 * 10 ^ 29) M &&
      checkRows (10 ^ 11) (3 * 10 ^ 18) Q M
    | _, _ => false

theorem checkAll_true : checkAll = true := by decide +kernel

end Tables

/-- For every size 1..24 both grids exist, have that many rows, consist of rotations to `2e-4`, and
row `k` of both describes the same rotation to `3e-4`. -/
theorem C32_rows (n : ℕ) (h1 : 1 ≤ n) (h2 : n ≤ 24) :
    ∃ Q M, cachedQuats n = some Q ∧ cachedMatrices n = some M ∧
      QuatGrid n Q 2e-4 ∧ MatrixGrid n M 2e-4 ∧ SameRotations Q M 3e-4 := by
  have h := checkAll_true
  unfold checkAll at h
  rw [List.all_eq_true] at h
  have hk := h (n - 1) (List.mem_range.2 (by omega))
  rw [Nat.sub_add_cancel h1] at hk
  unfold cachedQuats cachedMatrices
  rcases hQ : quatCache.lookup n with _ | Q
  · rw [hQ] at hk; simp at hk
  rcases hM : matrixCache.lookup n with _ | M
  · rw [hQ, hM] at hk; simp at hk
  rw [hQ, hM] at hk
  simp only [Bool.and_eq_true, decide_eq_true_eq] at hk
  obtain ⟨⟨⟨⟨l1, l2⟩, c1⟩, c2⟩, c3⟩ := hk
  refine ⟨_, _, rfl, rfl, ⟨by simpa using l1, ?_⟩, ⟨by simpa using l2, ?_⟩, ?_⟩
  · exact checkQ_sound (10 ^ 11) (by norm_num) _ _ _ _ (by norm_num) (by norm_num) c1
  · exact checkM_sound (10 ^ 11) (by norm_num) _ _ _ _ _ _ (by norm_num) (by norm_num)
      (by norm_num) (by norm_num) c2
  · exact checkRows_sound (10 ^ 11) (by norm_num) _ _ (by norm_num) _ _ c3

theorem lookup_none {α : Type} (l : List (ℕ × α)) (n : ℕ) (h : ∀ p ∈ l, p.1 ≠ n) :
    l.lookup n = none := by
  induction l with
  | nil => rfl
  | cons p l ih =>
    obtain ⟨a, b⟩ := p
    rw [List.lookup_cons]
    have : (n == a) = false := by
      have := h (a, b) (by simp)
      simpa using Ne.symm this
    rw [this]
    exact ih fun p hp => h p (by simp [hp])

theorem cached_none (n : ℕ) (h : n = 0 ∨ 24 < n) :
    cachedQuats n = none ∧ cachedMatrices n = none := by
  constructor
  · unfold cachedQuats
    rw [lookup_none]; · rfl
    intro p hp
    have : p.1 ∈ quatCache.map Prod.fst := List.mem_map.2 ⟨p, hp, rfl⟩
    have e : quatCache.map Prod.fst = (List.range 24).map (· + 1) := by decide
    rw [e] at this
    simp at this; omega
  · unfold cachedMatrices
    rw [lookup_none]; · rfl
    intro p hp
    have : p.1 ∈ matrixCache.map Prod.fst := List.mem_map.2 ⟨p, hp, rfl⟩
    have e : matrixCache.map Prod.fst = (List.range 24).map (· + 1) := by decide
    rw [e] at this
    simp at this; omega

theorem store_quat (n : ℕ) : loadGrid initialStore n "so3" "quat" =
    match cachedQuats n with
    | some Q => .ok (quatTensor Q)
    | none => .error .keyError := by
  have e1 : String.toLower "so3" = "so3" := by decide +kernel
  have e2 : String.toLower "quat" = "quat" := by decide +kernel
  unfold loadGrid
  rw [e1, e2]
  have : initialStore "so3" "quat" = some fun n => (cachedQuats n).map quatTensor := by
    unfold initialStore; simp
  rw [this]
  dsimp only
  generalize cachedQuats n = o
  cases o <;> rfl

theorem store_matrix (n : ℕ) : loadGrid initialStore n "so3" "matrix" =
    match cachedMatrices n with
    | some M => .ok (if n = 1 then bareMatrixTensor (M.getD 0 0) else matrixTensor M)
    | none => .error .keyError := by
  have e1 : String.toLower "so3" = "so3" := by decide +kernel
  have e2 : String.toLower "matrix" = "matrix" := by decide +kernel
  unfold loadGrid
  rw [e1, e2]
  have : initialStore "so3" "matrix" = some fun n => (cachedMatrices n).map fun l =>
      if n = 1 then bareMatrixTensor (l.getD 0 0) else matrixTensor l := by
    unfold initialStore; simp
  rw [this]
  dsimp only
  generalize cachedMatrices n = o
  cases o <;> rfl

/-- Shapes of what the shipped cache returns: `(n, 4)` for quaternions for every size, `(n, 3, 3)`
for matrices of every size but 1 (missing for the full property: size 1). -/
theorem C32_shapes_partial (n : ℕ) (h1 : 1 ≤ n) (h2 : n ≤ 24) :
    (∃ g, loadGrid initialStore n "so3" "quat" = .ok g ∧ g.shape = [n, 4]) ∧
    (n ≠ 1 → ∃ g, loadGrid initialStore n "so3" "matrix" = .ok g ∧ g.shape = [n, 3, 3]) := by
  obtain ⟨Q, M, hQ, hM, ⟨lQ, -⟩, ⟨lM, -⟩, -⟩ := C32_rows n h1 h2
  rw [store_quat, store_matrix, hQ, hM]
  refine ⟨⟨_, rfl, by simp [quatTensor, lQ]⟩, fun h => ⟨_, rfl, ?_⟩⟩
  rw [if_neg h]; simp [matrixTensor, lM]

/-- The `"matrix"` grid of size 1 is a single 3x3 matrix without grid axis, so its number of rows is
read as 3. -/
theorem C32_violated :
    ∃ g, loadGrid initialStore 1 "so3" "matrix" = .ok g ∧ g.shape = [3, 3] ∧ rows0 g = 3 := by
  obtain ⟨Q, M, hQ, hM, -⟩ := C32_rows 1 le_rfl (by norm_num)
  rw [store_matrix, hM]
  exact ⟨_, rfl, rfl, rfl⟩

theorem C32_absent (n : ℕ) (h : n = 0 ∨ 24 < n) :
    loadGrid initialStore n "so3" "quat" = .error .keyError ∧
    loadGrid initialStore n "so3" "matrix" = .error .keyError := by
  rw [store_quat, store_matrix, (cached_none n h).1, (cached_none n h).2]
  exact ⟨rfl, rfl⟩

end GConv.SO3

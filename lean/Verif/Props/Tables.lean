import Verif.Model.GridCache
import Verif.Lemmas.SO3
import Mathlib.Tactic.NormNum

/-! # The literal tables: C28, C32 -/

namespace GConv.SO3

open Spec Tables

/-! ## C28 -/

/-- `a` and `b` agree to `tol` in every component, possibly after negating `b`. -/
def CloseUpToSign (tol : ℝ) (a b : Quat) : Prop :=
  (∀ i, |a i - b i| ≤ tol) ∨ (∀ i, |a i + b i| ≤ tol)

/-- A list of quaternions that represents, up to `tol`, a group of `n` different rotations. -/
structure RotationGroup (G : List Quat) (n : ℕ) (tol : ℝ) : Prop where
  size : G.length = n
  one : ![1, 0, 0, 0] ∈ G
  unit : ∀ q ∈ G, |dot q q - 1| ≤ tol
  mul : ∀ p ∈ G, ∀ q ∈ G, ∃ r ∈ G, CloseUpToSign tol (hmul p q) r
  inv : ∀ p ∈ G, ∃ r ∈ G, CloseUpToSign tol (quatInverse p) r
  distinct : G.Pairwise fun p q => ∃ i j, 3 / 10 ≤ |quatToMatrix p i j - quatToMatrix q i j|

namespace Tables

def Z4.mul (p q : Z4) : Z4 :=
  ⟨p.w * q.w - p.x * q.x - p.y * q.y - p.z * q.z,
   p.w * q.x + p.x * q.w + p.y * q.z - p.z * q.y,
   p.w * q.y - p.x * q.z + p.y * q.w + p.z * q.x,
   p.w * q.z + p.x * q.y - p.y * q.x + p.z * q.w⟩

def near (a b tol : Int) : Bool := decide (a - b ≤ tol) && decide (b - a ≤ tol)

/-- `a` (scaled by `s²`) against `b` (scaled by `s`), with the sign `e`. -/
def Z4.nearS (s : Nat) (tol e : Int) (a b : Z4) : Bool :=
  near a.w (e * (s * b.w)) tol && near a.x (e * (s * b.x)) tol &&
  near a.y (e * (s * b.y)) tol && near a.z (e * (s * b.z)) tol

def Z4.inv (p : Z4) (s : Nat) : Z4 := ⟨s * p.w, -(s * p.x), -(s * p.y), -(s * p.z)⟩

def Z4.matL (q : Z4) : List Int :=
  [q.x * q.x - q.y * q.y - q.z * q.z + q.w * q.w, 2 * (q.x * q.y - q.z * q.w),
   2 * (q.x * q.z + q.y * q.w), 2 * (q.x * q.y + q.z * q.w),
   -(q.x * q.x) + q.y * q.y - q.z * q.z + q.w * q.w, 2 * (q.y * q.z - q.x * q.w),
   2 * (q.x * q.z - q.y * q.w), 2 * (q.y * q.z + q.x * q.w),
   -(q.x * q.x) - q.y * q.y + q.z * q.z + q.w * q.w]

/-- distinctness test: some matrix entry differs by at least `sep` (scaled by `s²`). -/
def Z4.far (sep : Int) (p q : Z4) : Bool :=
  (List.zip p.matL q.matL).any fun ab => decide (sep ≤ ab.1 - ab.2) || decide (sep ≤ ab.2 - ab.1)

def pairwiseB {α : Type} (r : α → α → Bool) : List α → Bool
  | [] => true
  | a :: l => l.all (r a) && pairwiseB r l

def checkGroup (s : Nat) (tol sep : Int) (T : List Z4) : Bool :=
  T.any (fun q => decide (q = ⟨s, 0, 0, 0⟩)) &&
  T.all (fun q => near (q.w * q.w + q.x * q.x + q.y * q.y + q.z * q.z) (s * s) tol) &&
  T.all (fun p => T.all fun q => T.any fun r =>
    (p.mul q).nearS s tol 1 r || (p.mul q).nearS s tol (-1) r) &&
  T.all (fun p => T.any fun r => (p.inv s).nearS s tol 1 r || (p.inv s).nearS s tol (-1) r) &&
  pairwiseB (Z4.far sep) T

theorem near_real {a b tol : Int} (h : near a b tol = true) (S : ℝ) (hS : 0 < S) :
    |(a : ℝ) / S - b / S| ≤ tol / S := by
  unfold near at h
  simp only [Bool.and_eq_true, decide_eq_true_eq] at h
  have h1 : (a : ℝ) - b ≤ tol := by exact_mod_cast h.1
  have h2 : (b : ℝ) - a ≤ tol := by exact_mod_cast h.2
  rw [← sub_div, abs_div, abs_of_pos hS]
  gcongr
  rw [abs_le]; constructor <;> linarith

theorem pairwiseB_sound {α : Type} (r : α → α → Bool) (l : List α) (h : pairwiseB r l = true) :
    l.Pairwise (fun a b => r a b = true) := by
  induction l with
  | nil => exact List.Pairwise.nil
  | cons a l ih =>
    simp only [pairwiseB, Bool.and_eq_true, List.all_eq_true] at h
    exact List.Pairwise.cons h.1 (ih h.2)

theorem nearS_real {s : Nat} (hs : 0 < s) {tol e : Int} {a b : Z4} (h : a.nearS s tol e b = true)
    (A : Quat) (hA : A = ![(a.w : ℝ) / (s * s), (a.x : ℝ) / (s * s), (a.y : ℝ) / (s * s),
      (a.z : ℝ) / (s * s)]) (i : Fin 4) :
    |A i - e * b.real s i| ≤ (tol : ℝ) / (s * s) := by
  have hs' : (0 : ℝ) < (s : ℝ) * s := by positivity
  have hs0 : (s : ℝ) ≠ 0 := by positivity
  unfold Z4.nearS at h
  simp only [Bool.and_eq_true] at h
  obtain ⟨⟨⟨h0, h1⟩, h2⟩, h3⟩ := h
  have r0 := near_real h0 _ hs'
  have r1 := near_real h1 _ hs'
  have r2 := near_real h2 _ hs'
  have r3 := near_real h3 _ hs'
  push_cast at r0 r1 r2 r3
  rw [mul_div_assoc, mul_div_mul_left _ _ hs0] at r0 r1 r2 r3
  subst hA
  fin_cases i
  · exact r0
  · exact r1
  · exact r2
  · exact r3

theorem closeUpToSign_of {s : Nat} (hs : 0 < s) {tol : Int} {a b : Z4}
    (h : (a.nearS s tol 1 b || a.nearS s tol (-1) b) = true)
    (A : Quat) (hA : A = ![(a.w : ℝ) / (s * s), (a.x : ℝ) / (s * s), (a.y : ℝ) / (s * s),
      (a.z : ℝ) / (s * s)]) : CloseUpToSign ((tol : ℝ) / (s * s)) A (b.real s) := by
  rw [Bool.or_eq_true] at h
  rcases h with h | h
  · left; intro i
    simpa using nearS_real hs h A hA i
  · right; intro i
    simpa using nearS_real hs h A hA i

theorem hmul_real (s : Nat) (p q : Z4) : hmul (p.real s) (q.real s) =
    ![((p.mul q).w : ℝ) / (s * s), ((p.mul q).x : ℝ) / (s * s), ((p.mul q).y : ℝ) / (s * s),
      ((p.mul q).z : ℝ) / (s * s)] := by
  rw [hmul_eq]
  ext i
  fin_cases i <;> simp [Z4.real, Z4.mul] <;> ring

theorem inv_real (s : Nat) (hs : 0 < s) (p : Z4) : quatInverse (p.real s) =
    ![((p.inv s).w : ℝ) / (s * s), ((p.inv s).x : ℝ) / (s * s), ((p.inv s).y : ℝ) / (s * s),
      ((p.inv s).z : ℝ) / (s * s)] := by
  have hs0 : (s : ℝ) ≠ 0 := by positivity
  ext i
  fin_cases i <;> simp [quatInverse, Z4.real, Z4.inv] <;> field_simp

theorem far_real {s : Nat} (hs : 0 < s) {sep : Int} {p q : Z4} (h : Z4.far sep p q = true) :
    ∃ i j, (sep : ℝ) / (s * s) ≤ |quatToMatrix (p.real s) i j - quatToMatrix (q.real s) i j| := by
  have hs' : (0 : ℝ) < (s : ℝ) * s := by positivity
  have key : ∀ a b : Int, (decide (sep ≤ a - b) || decide (sep ≤ b - a)) = true →
      (sep : ℝ) / (s * s) ≤ |(a : ℝ) / (s * s) - (b : ℝ) / (s * s)| := by
    intro a b h
    rw [← sub_div, abs_div, abs_of_pos hs']
    gcongr
    simp only [Bool.or_eq_true, decide_eq_true_eq] at h
    rcases h with h | h
    · exact le_trans (by exact_mod_cast h) (le_abs_self _)
    · rw [abs_sub_comm]
      exact le_trans (by exact_mod_cast h) (le_abs_self _)
  have e : ∀ t : Z4, quatToMatrix (t.real s) = !![((t.matL.getD 0 0 : Int) : ℝ) / (s * s),
      ((t.matL.getD 1 0 : Int) : ℝ) / (s * s), ((t.matL.getD 2 0 : Int) : ℝ) / (s * s);
      ((t.matL.getD 3 0 : Int) : ℝ) / (s * s), ((t.matL.getD 4 0 : Int) : ℝ) / (s * s),
      ((t.matL.getD 5 0 : Int) : ℝ) / (s * s);
      ((t.matL.getD 6 0 : Int) : ℝ) / (s * s), ((t.matL.getD 7 0 : Int) : ℝ) / (s * s),
      ((t.matL.getD 8 0 : Int) : ℝ) / (s * s)] := by
    intro t
    ext i j
    fin_cases i <;> fin_cases j <;> simp [quatToMatrix, Z4.real, Z4.matL] <;> ring
  rw [e p, e q]
  unfold Z4.far at h
  rw [List.any_eq_true] at h
  obtain ⟨ab, hmem, hab⟩ := h
  have hk := key _ _ hab
  simp only [Z4.matL, List.zip_cons_cons, List.zip_nil_left, List.mem_cons, List.not_mem_nil,
    or_false] at hmem
  rcases hmem with rfl | rfl | rfl | rfl | rfl | rfl | rfl | rfl | rfl
  · exact ⟨0, 0, hk⟩
  · exact ⟨0, 1, hk⟩
  · exact ⟨0, 2, hk⟩
  · exact ⟨1, 0, hk⟩
  · exact ⟨1, 1, hk⟩
  · exact ⟨1, 2, hk⟩
  · exact ⟨2, 0, hk⟩
  · exact ⟨2, 1, hk⟩
  · exact ⟨2, 2, hk⟩

theorem checkGroup_sound (s : Nat) (hs : 0 < s) (tol sep : Int) (T : List Z4) (n : ℕ) (tolR : ℝ)
    (htol : (tol : ℝ) / (s * s) = tolR) (hsep : (sep : ℝ) / (s * s) = 3 / 10) (hn : T.length = n)
    (h : checkGroup s tol sep T = true) : RotationGroup (T.map (Z4.real s)) n tolR := by
  have hs' : (0 : ℝ) < (s : ℝ) * s := by positivity
  have hs0 : (s : ℝ) ≠ 0 := by positivity
  unfold checkGroup at h
  simp only [Bool.and_eq_true, List.all_eq_true, List.any_eq_true, decide_eq_true_eq] at h
  obtain ⟨⟨⟨⟨h1, h2⟩, h3⟩, h4⟩, h5⟩ := h
  refine ⟨by simpa using hn, ?_, ?_, ?_, ?_, ?_⟩
  · obtain ⟨q, hq, rfl⟩ := h1
    refine List.mem_map.2 ⟨_, hq, ?_⟩
    ext i; fin_cases i <;> simp [Z4.real, hs0]
  · intro q hq
    obtain ⟨z, hz, rfl⟩ := List.mem_map.1 hq
    have := near_real (h2 z hz) _ hs'
    rw [htol] at this
    push_cast at this
    rw [div_self hs'.ne'] at this
    convert this using 2
    rw [dot4]; simp [Z4.real]; field_simp
  · intro p hp q hq
    obtain ⟨y, hy, rfl⟩ := List.mem_map.1 hp
    obtain ⟨z, hz, rfl⟩ := List.mem_map.1 hq
    obtain ⟨r, hr, hh⟩ := h3 y hy z hz
    refine ⟨_, List.mem_map.2 ⟨r, hr, rfl⟩, ?_⟩
    rw [← htol]
    exact closeUpToSign_of hs hh _ (hmul_real s y z)
  · intro p hp
    obtain ⟨y, hy, rfl⟩ := List.mem_map.1 hp
    obtain ⟨r, hr, hh⟩ := h4 y hy
    refine ⟨_, List.mem_map.2 ⟨r, hr, rfl⟩, ?_⟩
    rw [← htol]
    exact closeUpToSign_of hs hh _ (inv_real s hs y)
  · rw [List.pairwise_map]
    refine (pairwiseB_sound _ _ h5).imp ?_
    intro a b hab
    rw [← hsep]
    exact far_real hs hab

end Tables

theorem C28_identity : RotationGroup identityGroup 1 0 :=
  checkGroup_sound (10 ^ 8) (by norm_num) 0 3000000000000000 Tables.identity 1 0 (by norm_num)
    (by norm_num) rfl (by decide +kernel)
theorem C28_klein : RotationGroup kleinGroup 4 0 :=
  checkGroup_sound (10 ^ 8) (by norm_num) 0 3000000000000000 Tables.klein 4 0 (by norm_num)
    (by norm_num) rfl (by decide +kernel)
theorem C28_tetrahedral : RotationGroup tetrahedral 12 0 :=
  checkGroup_sound (10 ^ 8) (by norm_num) 0 3000000000000000 Tables.tetrahedral 12 0 (by norm_num)
    (by norm_num) rfl (by decide +kernel)
theorem C28_octahedral : RotationGroup octahedral 24 1e-7 :=
  checkGroup_sound (10 ^ 8) (by norm_num) 1000000000 3000000000000000 Tables.octahedral 24 1e-7
    (by norm_num) (by norm_num) rfl (by decide +kernel)
theorem C28_icosahedral : RotationGroup icosahedral 60 1e-7 :=
  checkGroup_sound (10 ^ 8) (by norm_num) 1000000000 3000000000000000 Tables.icosahedral 60 1e-7
    (by norm_num) (by norm_num) rfl (by decide +kernel)

end GConv.SO3

import Verif.Lemmas.Interval
import Verif.Lemmas.SO3
import Verif.Lemmas.Sampling
import Verif.Model.GridCache
import Verif.Props.Energy

/-! # The interpolation matrices of the shipped grids are invertible

A certificate for a grid of `n` rotations consists of integer matrices: approximate angles, bounds of the entries of
the interpolation matrix and an approximate inverse. The checks are integer arithmetic; this file proves what they imply
for the real matrix. -/

namespace GConv.RBFCert

open Interval SO3 SO3.Tables

/-! ## packed integer matrices -/

/-- entry `(i, j)` of an `n × n` matrix of numbers below `10^6` packed into one number. -/
def ent (n x i j : ℕ) : ℤ := ((x / 10 ^ (6 * (i * n + j)) % 10 ^ 6 : ℕ) : ℤ)

/-- a test for all pairs of positions. -/
def all2 (n : ℕ) (f : ℕ → ℕ → Bool) : Bool := (List.range n).all fun i => (List.range n).all fun j => f i j

theorem all2_sound {n : ℕ} {f : ℕ → ℕ → Bool} (h : all2 n f = true) {i j : ℕ} (hi : i < n) (hj : j < n) : f i j = true := by
  unfold all2 at h
  rw [List.all_eq_true] at h
  have := h i (List.mem_range.2 hi)
  rw [List.all_eq_true] at this
  exact this j (List.mem_range.2 hj)

/-! ## an approximate inverse shows that a matrix is invertible -/

/-- sum over a range of integers. -/
def sumZ (n : ℕ) (f : ℕ → ℤ) : ℤ := ((List.range n).map f).sum

theorem sumZ_real (n : ℕ) (f : ℕ → ℤ) : ((sumZ n f : ℤ) : ℝ) = ∑ i : Fin n, (f i : ℝ) := by
  unfold sumZ
  rw [← Fin.sum_univ_eq_sum_range_aux f n]
  push_cast; rfl
where
  Fin.sum_univ_eq_sum_range_aux (f : ℕ → ℤ) (n : ℕ) : ∑ i : Fin n, f i = ((List.range n).map f).sum := by
    rw [Fin.sum_univ_def, ← List.map_coe_finRange_eq_range, List.map_map]; rfl

/-- `B` is, up to `1`, an inverse of every matrix with entries between `lo` and `hi` (units `10^-5`, `B` in `10^-4`). -/
def dominant (n : ℕ) (B lo hi : ℕ → ℕ → ℤ) : Bool := (List.range n).all fun i =>
  decide (sumZ n (fun j => |sumZ n (fun k => B i k * (lo k j + hi k j)) - (if i = j then 2000000000 else 0)| +
    sumZ n (fun k => |B i k| * (hi k j - lo k j))) < 2000000000)

theorem dominant_sound {n : ℕ} {B lo hi : ℕ → ℕ → ℤ} (h : dominant n B lo hi = true) (A : Matrix (Fin n) (Fin n) ℝ)
    (hlo : ∀ i j : Fin n, (lo i j : ℝ) / 100000 ≤ A i j) (hhi : ∀ i j : Fin n, A i j ≤ (hi i j : ℝ) / 100000) : A.det ≠ 0 := by
  unfold dominant at h
  rw [List.all_eq_true] at h
  set P : Matrix (Fin n) (Fin n) ℝ := Matrix.of fun i j => (B i j : ℝ) / 10000 with hP
  have hBA : ∀ i j, |(P * A) i j - (1 : Matrix (Fin n) (Fin n) ℝ) i j| * 2000000000 ≤
      ((|sumZ n (fun k => B i k * (lo k j + hi k j)) - (if (i : ℕ) = j then 2000000000 else 0)| +
        sumZ n (fun k => |B i k| * (hi k j - lo k j)) : ℤ) : ℝ) := by
    intro i j
    push_cast
    rw [sumZ_real, sumZ_real]
    have e1 : (P * A) i j = ∑ k : Fin n, (B i k : ℝ) / 10000 * A k j := rfl
    have e2 : (1 : Matrix (Fin n) (Fin n) ℝ) i j = (if (i : ℕ) = j then (2000000000 : ℝ) else 0) / 2000000000 := by
      rw [Matrix.one_apply]
      by_cases hij : i = j
      · rw [if_pos hij, if_pos (congrArg _ hij)]; norm_num
      · rw [if_neg hij, if_neg (fun e => hij (Fin.ext e))]; norm_num
    rw [e1, e2, ← abs_of_pos (show (0 : ℝ) < 2000000000 by norm_num), ← abs_mul, abs_of_pos (show (0 : ℝ) < 2000000000 by norm_num)]
    have e3 : (∑ k : Fin n, (B i k : ℝ) / 10000 * A k j - (if (i : ℕ) = j then (2000000000 : ℝ) else 0) / 2000000000) * 2000000000 =
        (∑ k : Fin n, (((B i k * (lo k j + hi k j) : ℤ)) : ℝ) - (if (i : ℕ) = j then (2000000000 : ℝ) else 0)) +
        ∑ k : Fin n, (B i k : ℝ) * (200000 * A k j - lo k j - hi k j) := by
      rw [sub_mul, Finset.sum_mul, div_mul_cancel₀ _ (by norm_num : (2000000000 : ℝ) ≠ 0), sub_add_eq_add_sub, ← Finset.sum_add_distrib]
      congr 1
      apply Finset.sum_congr rfl
      intro k _
      push_cast; ring
    rw [e3]
    refine (abs_add_le _ _).trans (add_le_add (le_of_eq ?_) ?_)
    · push_cast
      rfl
    · refine (Finset.abs_sum_le_sum_abs _ _).trans (Finset.sum_le_sum fun k _ => ?_)
      rw [abs_mul]
      push_cast
      refine mul_le_mul_of_nonneg_left ?_ (abs_nonneg _)
      have h1 := hlo k j
      have h2 := hhi k j
      rw [div_le_iff₀ (by norm_num)] at h1
      rw [le_div_iff₀ (by norm_num)] at h2
      rw [abs_le]
      constructor <;> linarith
  have hrow : ∀ i, ∑ j, |(P * A) i j - (1 : Matrix (Fin n) (Fin n) ℝ) i j| < 1 := by
    intro i
    have h1 := h i (List.mem_range.2 i.2)
    rw [decide_eq_true_eq] at h1
    have h2 : ((sumZ n (fun j => |sumZ n (fun k => B i k * (lo k j + hi k j)) - (if (i : ℕ) = j then 2000000000 else 0)| +
      sumZ n (fun k => |B i k| * (hi k j - lo k j))) : ℤ) : ℝ) < 2000000000 := by exact_mod_cast h1
    rw [sumZ_real] at h2
    have h3 := Finset.sum_le_sum fun j (_ : j ∈ Finset.univ) => hBA i j
    rw [← Finset.sum_mul] at h3
    linarith
  have hdet : (P * A).det ≠ 0 := by
    apply det_ne_zero_of_sum_row_lt_diag
    intro i
    have h1 := hrow i
    rw [← Finset.add_sum_erase _ _ (Finset.mem_univ i)] at h1
    have h2 : ∑ j ∈ Finset.univ.erase i, |(P * A) i j - (1 : Matrix (Fin n) (Fin n) ℝ) i j| =
        ∑ j ∈ Finset.univ.erase i, ‖(P * A) i j‖ := by
      apply Finset.sum_congr rfl
      intro j hj
      rw [Matrix.one_apply_ne (Finset.ne_of_mem_erase hj).symm, sub_zero]; rfl
    rw [h2, Matrix.one_apply_eq] at h1
    have h3 : 1 - |(P * A) i i - 1| ≤ ‖(P * A) i i‖ := by
      rw [Real.norm_eq_abs]
      have := abs_sub_abs_le_abs_sub (1 : ℝ) ((P * A) i i)
      rw [abs_one, abs_sub_comm] at this
      linarith
    linarith
  rw [Matrix.det_mul] at hdet
  exact right_ne_zero_of_mul hdet

/-! ## entries of the interpolation matrix -/

/-- bounds of the entries of the interpolation matrix: distances between `lo` and `hi` (units `10^-5 / 2`), width
between `wLo` and `wHi` (units `10^-5`), entries between `aLo` and `aHi` (units `10^-5`). -/
def entries (n : ℕ) (lo hi aLo aHi : ℕ → ℕ → ℤ) (wLo wHi : ℤ) : Bool := decide (0 < wLo) && all2 n fun i j =>
  expLe (69314718 * lo i j ^ 2) (3200000000 * wHi ^ 2) (aHi i j) &&
  expGe (69314718 * hi i j ^ 2) (3200000000 * wLo ^ 2) (aLo i j) && decide (0 ≤ lo i j)

theorem entries_sound {n : ℕ} {lo hi aLo aHi : ℕ → ℕ → ℤ} {wLo wHi : ℤ} (h : entries n lo hi aLo aHi wLo wHi = true)
    {i j : ℕ} (hi' : i < n) (hj : j < n) {d w : ℝ} (h1 : (lo i j : ℝ) / 200000 ≤ d) (h2 : d ≤ (hi i j : ℝ) / 200000)
    (h3 : (wLo : ℝ) / 100000 ≤ w) (h4 : w ≤ (wHi : ℝ) / 100000) :
    (aLo i j : ℝ) / 100000 ≤ Interp.RBFgauss d w ∧ Interp.RBFgauss d w ≤ (aHi i j : ℝ) / 100000 := by
  unfold entries at h
  rw [Bool.and_eq_true, decide_eq_true_eq] at h
  obtain ⟨hw, h⟩ := h
  have h := all2_sound h hi' hj
  simp only [Bool.and_eq_true, decide_eq_true_eq] at h
  obtain ⟨⟨ha, hb⟩, hl⟩ := h
  have hw' : (0 : ℝ) < wLo := by exact_mod_cast hw
  have hw0 : 0 < w := lt_of_lt_of_le (by positivity) h3
  have hwH : (0 : ℝ) < wHi := by
    have : 0 < (wHi : ℝ) / 100000 := lt_of_lt_of_le hw0 h4
    rw [lt_div_iff₀ (by norm_num)] at this; linarith
  have hl' : (0 : ℝ) ≤ lo i j := by exact_mod_cast hl
  have hd0 : 0 ≤ d := le_trans (by positivity) h1
  unfold Interp.RBFgauss
  have e : ∀ (t W : ℝ), 0 < W → 8 * (69314718 * t ^ 2 / (3200000000 * W ^ 2)) = (t / 200000) ^ 2 / ((W / 100000) ^ 2 / 0.69314718) := by
    intro t W hW; field_simp; ring
  constructor
  · refine expGe_sound hb ?_
    push_cast
    rw [e _ _ hw']
    gcongr
  · refine expLe_sound ha ?_
    push_cast
    rw [e _ _ hwH]
    gcongr

/-! ## distances of unit quaternions -/

theorem arccos_eps : Real.arccos (1 - SO3.defaultEps) ≤ 50 / 100000 ∧ 44 / 100000 ≤ Real.arccos (1 - SO3.defaultEps) := by
  have he : SO3.defaultEps = 1e-7 := rfl
  constructor
  · rw [← Real.arccos_cos (x := 50 / 100000) (by norm_num) (by linarith [Real.pi_gt_three])]
    apply Real.antitone_arccos
    have := cos_upper4 (x := 50 / 100000) (by norm_num)
    rw [he]; norm_num at this ⊢; linarith
  · rw [← Real.arccos_cos (x := 44 / 100000) (by norm_num) (by linarith [Real.pi_gt_three])]
    apply Real.antitone_arccos
    have := Real.one_sub_sq_div_two_le_cos (x := 44 / 100000)
    rw [he]; norm_num at this ⊢; linarith

/-- the arc cosine of a clamped non-negative number. -/
theorem arccos_clamp {u : ℝ} (h0 : 0 ≤ u) : Real.arccos u ≤ Real.arccos (clamp u (-1 + SO3.defaultEps) (1 - SO3.defaultEps)) ∧
    Real.arccos (clamp u (-1 + SO3.defaultEps) (1 - SO3.defaultEps)) ≤ max (Real.arccos u) (50 / 100000) ∧
    44 / 100000 ≤ Real.arccos (clamp u (-1 + SO3.defaultEps) (1 - SO3.defaultEps)) := by
  have he : SO3.defaultEps = 1e-7 := rfl
  have e : clamp u (-1 + SO3.defaultEps) (1 - SO3.defaultEps) = min u (1 - SO3.defaultEps) := by
    unfold clamp
    rw [max_eq_left]
    rw [he]; norm_num; linarith
  rw [e]
  refine ⟨Real.antitone_arccos (min_le_left _ _), ?_, arccos_eps.2.trans (Real.antitone_arccos (min_le_right _ _))⟩
  rcases le_total u (1 - SO3.defaultEps) with h | h
  · rw [min_eq_left h]; exact le_max_left _ _
  · rw [min_eq_right h]; exact arccos_eps.1.trans (le_max_right _ _)

/-- inner product of scaled rows. -/
def dotZ (p q : Z4) : ℤ := p.w * q.w + p.x * q.x + p.y * q.y + p.z * q.z

theorem dot_real {s : ℕ} (hs : 0 < s) (p q : Z4) : ∑ i, p.real s i * q.real s i = (dotZ p q : ℝ) / (s : ℝ) ^ 2 := by
  have : (s : ℝ) ≠ 0 := by positivity
  unfold Z4.real dotZ
  simp [Fin.sum_univ_four]
  field_simp

/-- the quaternion obtained by normalising a row. -/
noncomputable def unit (s : ℕ) (p : Z4) : Quat := fun i => p.real s i / vnorm (p.real s)

theorem unit_dot {s : ℕ} (hs : 0 < s) (p q : Z4) (hN : 0 < dotZ p p * dotZ q q) :
    |∑ i, unit s p i * unit s q i| ^ 2 = ((dotZ p q : ℝ)) ^ 2 / (dotZ p p * dotZ q q) ∧ |∑ i, unit s p i * unit s q i| ≤ 1 := by
  have hs' : (0 : ℝ) < s := by exact_mod_cast hs
  have hp : ∀ p : Z4, ∑ i, p.real s i ^ 2 = (dotZ p p : ℝ) / (s : ℝ) ^ 2 := by
    intro p; rw [← dot_real hs]; apply Finset.sum_congr rfl; intro i _; ring
  have e : ∑ i, unit s p i * unit s q i = ((dotZ p q : ℝ) / (s : ℝ) ^ 2) / (vnorm (p.real s) * vnorm (q.real s)) := by
    rw [← dot_real hs, Finset.sum_div]
    apply Finset.sum_congr rfl
    intro i _
    unfold unit
    rw [div_mul_div_comm]
  have hnn : ∀ p : Z4, (0 : ℝ) ≤ dotZ p p := by
    intro p
    unfold dotZ; push_cast
    have := mul_self_nonneg (p.w : ℝ); have := mul_self_nonneg (p.x : ℝ)
    have := mul_self_nonneg (p.y : ℝ); have := mul_self_nonneg (p.z : ℝ)
    linarith
  have hv : ∀ p : Z4, vnorm (p.real s) ^ 2 = (dotZ p p : ℝ) / (s : ℝ) ^ 2 := by
    intro p
    unfold vnorm
    rw [Real.sq_sqrt (Finset.sum_nonneg fun i _ => sq_nonneg _), hp]
  have hN' : (0 : ℝ) < dotZ p p * dotZ q q := by exact_mod_cast hN
  have hsq : |∑ i, unit s p i * unit s q i| ^ 2 = ((dotZ p q : ℝ)) ^ 2 / (dotZ p p * dotZ q q) := by
    rw [sq_abs, e, div_pow, mul_pow, hv, hv]
    have h1 : (dotZ p p : ℝ) ≠ 0 := left_ne_zero_of_mul hN'.ne'
    have h2 : (dotZ q q : ℝ) ≠ 0 := right_ne_zero_of_mul hN'.ne'
    field_simp
  refine ⟨hsq, ?_⟩
  have hcs : ((dotZ p q : ℝ)) ^ 2 ≤ dotZ p p * dotZ q q := by
    have := Finset.sum_mul_sq_le_sq_mul_sq Finset.univ (p.real s) (q.real s)
    rw [dot_real hs, hp, hp, div_pow, div_mul_div_comm, div_le_div_iff₀ (by positivity) (by positivity)] at this
    have h4 : (0 : ℝ) < ((s : ℝ) ^ 2) ^ 2 := by positivity
    rw [← pow_two] at this
    exact le_of_mul_le_mul_right this h4
  have : |∑ i, unit s p i * unit s q i| ^ 2 ≤ 1 ^ 2 := by
    rw [hsq, one_pow, div_le_one hN']; exact hcs
  exact abs_le_of_sq_le_sq' this (by norm_num) |>.2

/-- bounds of the distances of `n` rows (units `10^-5 / 2`). -/
def angles (n : ℕ) (lo hi : ℕ → ℕ → ℤ) (row : ℕ → Z4) : Bool := all2 n fun i j =>
  decide (0 < dotZ (row i) (row i) * dotZ (row j) (row j)) && decide (100 ≤ hi i j) &&
  angleGe (lo i j) (2 * dotZ (row i) (row j) ^ 2 - dotZ (row i) (row i) * dotZ (row j) (row j))
    (dotZ (row i) (row i) * dotZ (row j) (row j)) &&
  angleLe (hi i j) (2 * dotZ (row i) (row j) ^ 2 - dotZ (row i) (row i) * dotZ (row j) (row j))
    (dotZ (row i) (row i) * dotZ (row j) (row j))

theorem angles_sound {n : ℕ} {lo hi : ℕ → ℕ → ℤ} {row : ℕ → Z4} (h : angles n lo hi row = true) {s : ℕ} (hs : 0 < s)
    {i j : ℕ} (hi' : i < n) (hj : j < n) : (lo i j : ℝ) / 200000 ≤ SO3.dist (unit s (row i)) (unit s (row j)) ∧
      SO3.dist (unit s (row i)) (unit s (row j)) ≤ (hi i j : ℝ) / 200000 := by
  have h := all2_sound h hi' hj
  simp only [Bool.and_eq_true, decide_eq_true_eq] at h
  obtain ⟨⟨⟨hN, h100⟩, hge⟩, hle⟩ := h
  obtain ⟨hsq, h1⟩ := unit_dot hs (row i) (row j) hN
  have hN' : (0 : ℝ) < dotZ (row i) (row i) * dotZ (row j) (row j) := by exact_mod_cast hN
  set u := |∑ k, unit s (row i) k * unit s (row j) k| with hu
  have h0 : 0 ≤ u := abs_nonneg _
  have hcos : Real.cos (2 * Real.arccos u) = ((2 * dotZ (row i) (row j) ^ 2 - dotZ (row i) (row i) * dotZ (row j) (row j) : ℤ) : ℝ) /
      ((dotZ (row i) (row i) * dotZ (row j) (row j) : ℤ) : ℝ) := by
    rw [Real.cos_two_mul, Real.cos_arccos (by linarith) h1, hsq]
    push_cast
    rw [sub_div, div_self hN'.ne', mul_div_assoc]
  have hA := Real.arccos_nonneg u
  have hA' : 2 * Real.arccos u ≤ Real.pi := by
    have := Real.arccos_le_pi_div_two.2 h0; linarith
  have g1 := angleGe_sound hN hge (by linarith) hcos
  have g2 := angleLe_sound hN hle hA' hcos
  obtain ⟨c1, c2, -⟩ := arccos_clamp h0
  have h100' : (100 : ℝ) ≤ hi i j := by exact_mod_cast h100
  have ed : SO3.dist (unit s (row i)) (unit s (row j)) = Real.arccos (clamp u (-1 + SO3.defaultEps) (1 - SO3.defaultEps)) := rfl
  rw [ed]
  constructor
  · linarith
  · refine c2.trans (max_le (by linarith) (by linarith))

/-! ## `matrix_to_quat` of a table row -/

/-- `argmax` on integers. -/
def argmaxAuxZ : List ℤ → ℕ → ℕ → ℤ → ℕ
  | [], _, best, _ => best
  | x :: xs, i, best, v => if v < x then argmaxAuxZ xs (i + 1) i x else argmaxAuxZ xs (i + 1) best v

theorem argmaxAux_real (s : ℕ) (hs : 0 < s) (l : List ℤ) (i best : ℕ) (v : ℤ) :
    argmaxAux (l.map fun x : ℤ => (x : ℝ) / s) i best ((v : ℝ) / s) = argmaxAuxZ l i best v := by
  have hs' : (0 : ℝ) < s := by exact_mod_cast hs
  induction l generalizing i best v with
  | nil => rfl
  | cons x l ih =>
    have : ((v : ℝ) / s < (x : ℝ) / s) ↔ v < x := by
      rw [div_lt_div_iff_of_pos_right hs']; exact_mod_cast Iff.rfl
    simp only [List.map_cons, argmaxAux, argmaxAuxZ, this]
    split
    · exact ih _ _ _
    · exact ih _ _ _

/-- `matrix_to_quat` before normalisation, on scaled integers. -/
def raw (s : ℤ) (m : Z9) : Z4 :=
  match argmaxAuxZ [m.e, m.i, m.a + m.e + m.i] 1 0 m.a with
  | 0 => ⟨m.h - m.f, s - (m.a + m.e + m.i) + 2 * m.a, m.d + m.b, m.g + m.c⟩
  | 1 => ⟨m.c - m.g, m.b + m.d, s - (m.a + m.e + m.i) + 2 * m.e, m.h + m.f⟩
  | 2 => ⟨m.d - m.b, m.c + m.g, m.f + m.h, s - (m.a + m.e + m.i) + 2 * m.i⟩
  | _ => ⟨s + (m.a + m.e + m.i), m.h - m.f, m.c - m.g, m.d - m.b⟩

theorem raw_real (s : ℕ) (hs : 0 < s) (m : Z9) : matrixToQuatRaw (m.real s) = (raw s m).real s := by
  have hs' : (s : ℝ) ≠ 0 := by positivity
  have hi : argmax [m.real s 0 0, m.real s 1 1, m.real s 2 2, m.real s 0 0 + m.real s 1 1 + m.real s 2 2] =
      argmaxAuxZ [m.e, m.i, m.a + m.e + m.i] 1 0 m.a := by
    have e : m.real s 0 0 + m.real s 1 1 + m.real s 2 2 = ((m.a + m.e + m.i : ℤ) : ℝ) / s := by
      unfold Z9.real; simp; ring
    rw [e]
    exact argmaxAux_real s hs [m.e, m.i, m.a + m.e + m.i] 1 0 m.a
  have h4 : argmaxAuxZ [m.e, m.i, m.a + m.e + m.i] 1 0 m.a < 4 := by
    rw [← hi]
    exact (argmax_spec _ (by simp)).1
  unfold raw
  generalize hk : argmaxAuxZ [m.e, m.i, m.a + m.e + m.i] 1 0 m.a = k at h4 hi ⊢
  interval_cases k
  · rw [raw0 _ hi]
    funext c
    fin_cases c <;> unfold Z9.real Z4.real <;> simp <;> field_simp <;> ring
  · rw [raw1 _ hi]
    funext c
    fin_cases c <;> unfold Z9.real Z4.real <;> simp <;> field_simp <;> ring
  · rw [raw2 _ hi]
    funext c
    fin_cases c <;> unfold Z9.real Z4.real <;> simp <;> field_simp <;> ring
  · rw [raw3 _ hi]
    funext c
    fin_cases c <;> unfold Z9.real Z4.real <;> simp <;> field_simp <;> ring

theorem matrixToQuat_real (s : ℕ) (hs : 0 < s) (m : Z9) : matrixToQuat (m.real s) = unit s (raw s m) := by
  unfold matrixToQuat unit
  dsimp only
  rw [raw_real s hs]

/-! ## the second smallest entry of a row -/

theorem sort1_ge {l : List ℝ} (h2 : 2 ≤ l.length) {c : ℝ} (i : ℕ) (hi : i < l.length)
    (h : ∀ j, (hj : j < l.length) → j ≠ i → c ≤ l[j]) : c ≤ (sortL l).getD 1 0 := by
  have hp := Repulsion.sort_perm l
  have hs := Repulsion.sort_sorted l
  have hlen : (sortL l).length = l.length := hp.length_eq
  by_contra hlt
  push Not at hlt
  have hcount : (sortL l).countP (fun x => decide (x < c)) ≤ 1 := by
    rw [hp.countP_eq, (List.getElem_cons_eraseIdx_perm hi).symm.countP_eq, List.countP_cons]
    have : (l.eraseIdx i).countP (fun x => decide (x < c)) = 0 := by
      rw [List.countP_eq_zero]
      intro x hx
      obtain ⟨j, hj, hne, e⟩ := List.mem_eraseIdx_iff_getElem.1 hx
      rw [decide_eq_true_eq, ← e]
      exact not_lt.2 (h j hj hne)
    rw [this]
    split <;> omega
  generalize sortL l = L at *
  match L, hlen with
  | a :: b :: t, _ =>
    have hab : a ≤ b := (List.pairwise_cons.1 hs).1 b (by simp)
    have hb : b < c := hlt
    rw [List.countP_cons, List.countP_cons, if_pos (by simpa using hb), if_pos (by simpa using lt_of_le_of_lt hab hb)] at hcount
    omega
  | [a], h => simp at h; omega
  | [], h => simp at h; omega

theorem sort1_le {l : List ℝ} {c : ℝ} (i j : ℕ) (hi : i < l.length) (hj : j < l.length) (hne : j ≠ i)
    (h1 : l[i] ≤ c) (h2 : l[j] ≤ c) : (sortL l).getD 1 0 ≤ c := by
  have hp := Repulsion.sort_perm l
  have hs := Repulsion.sort_sorted l
  have hlen : (sortL l).length = l.length := hp.length_eq
  by_contra hlt
  push Not at hlt
  have hcount : 2 ≤ (sortL l).countP (fun x => decide (x ≤ c)) := by
    rw [hp.countP_eq, (List.getElem_cons_eraseIdx_perm hi).symm.countP_eq, List.countP_cons, if_pos (by simpa using h1)]
    have : 0 < (l.eraseIdx i).countP (fun x => decide (x ≤ c)) :=
      List.countP_pos_iff.2 ⟨l[j], List.mem_eraseIdx_iff_getElem.2 ⟨j, hj, hne, rfl⟩, by simpa using h2⟩
    omega
  generalize sortL l = L at *
  match L, hlen with
  | a :: b :: t, _ =>
    have hb : c < b := hlt
    have : (b :: t).countP (fun x => decide (x ≤ c)) = 0 := by
      rw [List.countP_eq_zero]
      intro x hx
      have hbx : b ≤ x := by
        rcases List.mem_cons.1 hx with rfl | hx
        · exact le_rfl
        · exact (List.pairwise_cons.1 (List.pairwise_cons.1 hs).2).1 x hx
      simpa using lt_of_lt_of_le hb hbx
    rw [List.countP_cons, this] at hcount
    split at hcount <;> omega
  | [a], h => simp at h; omega
  | [], h => simp at h; omega

/-- entry `i` of a packed list. -/
def ent1 (x i : ℕ) : ℤ := ((x / 10 ^ (6 * i) % 10 ^ 6 : ℕ) : ℤ)

/-- `N i` is the smallest entry of row `i` off the diagonal. -/
def rowMin (n : ℕ) (T : ℕ → ℕ → ℤ) (N : ℕ → ℤ) : Bool :=
  all2 n (fun i j => decide (i = j) || decide (N i ≤ T i j)) &&
  (List.range n).all fun i => (List.range n).any fun j => decide (j ≠ i) && decide (T i j = N i)

/-- The second smallest distances of a list with known bounds. `lo` and `hi` are monotone functions of the
approximate distance. -/
theorem nearest_sound {G : Type} {n : ℕ} {T : ℕ → ℕ → ℤ} {N : ℕ → ℤ} (h : rowMin n T N = true) (h2 : 2 ≤ n)
    {dist : G → G → ℝ} {l : List G} (hl : l.length = n) {lo hi : ℤ → ℝ} (hlo : Monotone lo)
    (hb : ∀ i j, (hi' : i < l.length) → (hj : j < l.length) → j ≠ i → lo (T i j) ≤ dist l[i] l[j] ∧ dist l[i] l[j] ≤ hi (T i j))
    (hself : ∀ i, (hi' : i < l.length) → dist l[i] l[i] ≤ hi (N i)) :
    (l.map fun a => (sortL (l.map fun b => dist a b)).getD 1 0).length = n ∧
    (∑ i : Fin n, lo (N i)) ≤ (l.map fun a => (sortL (l.map fun b => dist a b)).getD 1 0).sum ∧
    (l.map fun a => (sortL (l.map fun b => dist a b)).getD 1 0).sum ≤ ∑ i : Fin n, hi (N i) := by
  subst hl
  unfold rowMin at h
  rw [Bool.and_eq_true] at h
  obtain ⟨ha, hb'⟩ := h
  rw [List.all_eq_true] at hb'
  have key : ∀ i : Fin l.length, lo (N i) ≤ (sortL (l.map fun b => dist l[i] b)).getD 1 0 ∧
      (sortL (l.map fun b => dist l[i] b)).getD 1 0 ≤ hi (N i) := by
    intro i
    constructor
    · refine sort1_ge (by simpa using h2) i (by simp) fun j hj hne => ?_
      rw [List.length_map] at hj
      rw [List.getElem_map]
      have := all2_sound ha i.2 hj
      rw [Bool.or_eq_true, decide_eq_true_eq, decide_eq_true_eq] at this
      rcases this with h | h
      · exact absurd h.symm hne
      · exact (hlo h).trans (hb i j i.2 hj hne).1
    · have := hb' i (List.mem_range.2 i.2)
      rw [List.any_eq_true] at this
      obtain ⟨j, hj, hT⟩ := this
      rw [Bool.and_eq_true, decide_eq_true_eq, decide_eq_true_eq] at hT
      have hj := List.mem_range.1 hj
      refine sort1_le i j (by simp) (by simpa using hj) hT.1 ?_ ?_
      · rw [List.getElem_map]; exact hself i i.2
      · rw [List.getElem_map, ← hT.2]; exact (hb i j i.2 hj hT.1).2
  have e : (l.map fun a => (sortL (l.map fun b => dist a b)).getD 1 0).sum =
      ∑ i : Fin l.length, (sortL (l.map fun b => dist l[i] b)).getD 1 0 := by
    exact (Fin.sum_univ_fun_getElem l fun a => (sortL (l.map fun b => dist a b)).getD 1 0).symm
  refine ⟨by simp, ?_, ?_⟩
  · rw [e]; exact Finset.sum_le_sum fun i _ => (key i).1
  · rw [e]; exact Finset.sum_le_sum fun i _ => (key i).2

/-! ## inner products used as cosines -/

/-- bounds of `arccos |u|` for a rational `|u| = num / den`, clamped below at 44 and above at 50 (units `10^-5`). -/
def rowAngles (n : ℕ) (E : ℕ → ℕ → ℤ) (num : ℕ → ℕ → ℤ) (den : ℤ) : Bool := decide (0 < den) && all2 n fun i j =>
  if i = j then decide (den ≤ |num i j|) || angleLe 50 |num i j| den
  else (decide (E i j ≤ 46) || angleGe (E i j - 2) (min |num i j| den) den) && angleLe (max (E i j + 2) 50) (min |num i j| den) den

theorem rowAngles_sound {n : ℕ} {E num : ℕ → ℕ → ℤ} {den : ℤ} (h : rowAngles n E num den = true) {i j : ℕ} (hi' : i < n)
    (hj : j < n) {u : ℝ} (hu : u = (num i j : ℝ) / den) :
    (i = j → Real.arccos (clamp |u| (-1 + SO3.defaultEps) (1 - SO3.defaultEps)) ≤ 50 / 100000) ∧
    (j ≠ i → ((max (E i j - 2) 44 : ℤ) : ℝ) / 100000 ≤ Real.arccos (clamp |u| (-1 + SO3.defaultEps) (1 - SO3.defaultEps)) ∧
      Real.arccos (clamp |u| (-1 + SO3.defaultEps) (1 - SO3.defaultEps)) ≤ ((max (E i j + 2) 50 : ℤ) : ℝ) / 100000) := by
  unfold rowAngles at h
  rw [Bool.and_eq_true, decide_eq_true_eq] at h
  obtain ⟨hd, h⟩ := h
  have h := all2_sound h hi' hj
  have hd' : (0 : ℝ) < den := by exact_mod_cast hd
  have eu : |u| = ((|num i j| : ℤ) : ℝ) / den := by
    rw [hu, abs_div, abs_of_pos hd']; push_cast; rfl
  have emin : ((min |num i j| den : ℤ) : ℝ) / den = min |u| 1 := by
    rw [eu]; push_cast
    rw [← div_self hd'.ne', min_div_div_right hd'.le]
  have hm0 : 0 ≤ min |u| 1 := le_min (abs_nonneg _) (by norm_num)
  have harc : Real.arccos |u| = Real.arccos (min |u| 1) := by
    rcases le_total |u| 1 with h | h
    · rw [min_eq_left h]
    · rw [min_eq_right h, Real.arccos_one, Real.arccos_of_one_le h]
  have hcos : Real.cos (Real.arccos |u|) = ((min |num i j| den : ℤ) : ℝ) / den := by
    rw [harc, Real.cos_arccos (by linarith) (min_le_right _ _), emin]
  have h0 := Real.arccos_nonneg |u|
  have hpi := Real.arccos_le_pi |u|
  obtain ⟨c1, c2, c3⟩ := arccos_clamp (abs_nonneg u)
  constructor
  · intro hij
    rw [if_pos hij, Bool.or_eq_true, decide_eq_true_eq] at h
    refine c2.trans (max_le ?_ le_rfl)
    rcases h with h | h
    · have : (1 : ℝ) ≤ |u| := by
        rw [eu, le_div_iff₀ hd', one_mul]; exact_mod_cast h
      rw [Real.arccos_of_one_le this]; norm_num
    · by_cases hle : |num i j| ≤ den
      · rw [min_eq_left hle] at hcos
        have := angleLe_sound hd h hpi hcos
        push_cast at this
        linarith
      · have : (1 : ℝ) ≤ |u| := by
          rw [eu, le_div_iff₀ hd', one_mul]; exact_mod_cast (not_le.1 hle).le
        rw [Real.arccos_of_one_le this]; norm_num
  · intro hne
    rw [if_neg (Ne.symm hne), Bool.and_eq_true, Bool.or_eq_true, decide_eq_true_eq] at h
    obtain ⟨h1, h2⟩ := h
    constructor
    · push_cast
      rw [← max_div_div_right (by norm_num : (0 : ℝ) ≤ 100000)]
      refine max_le ?_ c3
      rcases h1 with h1 | h1
      · have : ((E i j : ℤ) : ℝ) ≤ 46 := by exact_mod_cast h1
        refine le_trans ?_ c3
        gcongr; linarith
      · have := angleGe_sound hd h1 h0 hcos
        push_cast at this
        linarith
    · have := angleLe_sound hd h2 hpi hcos
      refine c2.trans (max_le this ?_)
      gcongr
      push_cast
      exact le_max_right _ _

/-! ## certificates -/

/-- bounds of the default width (units `10^-5`) from bounds of the nearest-neighbour distances (`1 / u`). -/
def widths (n : ℕ) (nl nh : ℕ → ℤ) (u wLo wHi : ℤ) : Bool :=
  decide (10 * n * u * wLo ≤ 800000 * sumZ n nl) && decide (800000 * sumZ n nh ≤ 10 * n * u * wHi)

theorem widths_sound {n : ℕ} (hn : 0 < n) {nl nh : ℕ → ℤ} {u wLo wHi : ℤ} (hu : 0 < u) (h : widths n nl nh u wLo wHi = true) {x : ℝ}
    (h1 : ∑ i : Fin n, (nl i : ℝ) / u ≤ x) (h2 : x ≤ ∑ i : Fin n, (nh i : ℝ) / u) :
    (wLo : ℝ) / 100000 ≤ 0.8 * (x / n) ∧ 0.8 * (x / n) ≤ (wHi : ℝ) / 100000 := by
  unfold widths at h
  rw [Bool.and_eq_true, decide_eq_true_eq, decide_eq_true_eq] at h
  obtain ⟨ha, hb⟩ := h
  have ha' : (10 * n * u * wLo : ℝ) ≤ 800000 * ((sumZ n nl : ℤ) : ℝ) := by exact_mod_cast ha
  have hb' : 800000 * ((sumZ n nh : ℤ) : ℝ) ≤ (10 * n * u * wHi : ℝ) := by exact_mod_cast hb
  rw [sumZ_real] at ha' hb'
  rw [← Finset.sum_div] at h1 h2
  have hu' : (0 : ℝ) < u := by exact_mod_cast hu
  have hn' : (0 : ℝ) < n := by exact_mod_cast hn
  rw [div_le_iff₀ hu'] at h1
  rw [le_div_iff₀ hu'] at h2
  have e : 0.8 * (x / n) = 8 * x / (10 * n) := by field_simp; ring
  rw [e]
  constructor
  · rw [div_le_div_iff₀ (by norm_num) (by positivity)]
    nlinarith
  · rw [div_le_div_iff₀ (by positivity) (by norm_num)]
    nlinarith

/-- A certificate: approximate angles `T` (units `10^-5 / 2`), their smallest values `N` off the diagonal, bounds of
the width and of the entries of the interpolation matrix, an approximate inverse. -/
structure Cert where
  T : ℕ
  N : ℕ
  wLo : ℤ
  wHi : ℤ
  aLo : ℕ
  aHi : ℕ
  B : ℕ

/-- lower bounds of the angles. -/
def lo (n T i j : ℕ) : ℤ := if i = j then 0 else ent n T i j - 20
/-- upper bounds of the angles. -/
def hi (n T i j : ℕ) : ℤ := if i = j then 100 else ent n T i j + 20

/-- the part of a certificate about the interpolation matrix. -/
def checkMatrix (n : ℕ) (c : Cert) (row : ℕ → Z4) : Bool :=
  angles n (lo n c.T) (hi n c.T) row && entries n (lo n c.T) (hi n c.T) (ent n c.aLo) (ent n c.aHi) c.wLo c.wHi &&
  dominant n (fun i j => ent n c.B i j - 500000) (ent n c.aLo) (ent n c.aHi)

theorem checkMatrix_sound {n : ℕ} {c : Cert} {row : ℕ → Z4} (h : checkMatrix n c row = true) {s : ℕ} (hs : 0 < s)
    {q : Tensor Quat} (hn : q.shape.headD 0 = n) (hq : ∀ i < n, q.get [i] = unit s (row i)) {w : ℝ}
    (h1 : (c.wLo : ℝ) / 100000 ≤ w) (h2 : w ≤ (c.wHi : ℝ) / 100000) :
    (Interp.rbfMatrix SO3.dist Interp.RBFgauss w q).det ≠ 0 := by
  subst hn
  unfold checkMatrix at h
  rw [Bool.and_eq_true, Bool.and_eq_true] at h
  obtain ⟨⟨ha, he⟩, hd⟩ := h
  have key : ∀ i j : Fin (q.shape.headD 0), (ent (q.shape.headD 0) c.aLo i j : ℝ) / 100000 ≤ Interp.rbfMatrix SO3.dist Interp.RBFgauss w q i j ∧
      Interp.rbfMatrix SO3.dist Interp.RBFgauss w q i j ≤ (ent (q.shape.headD 0) c.aHi i j : ℝ) / 100000 := by
    intro i j
    have := angles_sound ha hs i.2 j.2
    rw [← hq i i.2, ← hq j j.2] at this
    exact entries_sound he i.2 j.2 this.1 this.2 h1 h2
  exact dominant_sound hd _ (fun i j => (key i j).1) fun i j => (key i j).2

/-- the part of a certificate about the default width of the SE(3) kernels. -/
def checkWidth (n : ℕ) (c : Cert) : Bool := rowMin n (ent n c.T) (ent1 c.N) && decide (2 ≤ n) &&
  (List.range n).all (fun i => decide (121 ≤ ent1 c.N i)) &&
  widths n (fun i => ent1 c.N i - 20) (fun i => ent1 c.N i + 20) 200000 c.wLo c.wHi

theorem checkWidth_sound {n : ℕ} {c : Cert} {row : ℕ → Z4} (h : checkWidth n c = true)
    (ha : angles n (lo n c.T) (hi n c.T) row = true) {s : ℕ} (hs : 0 < s)
    {q : List Quat} (hn : q.length = n) (hq : ∀ i, (hi : i < q.length) → q[i] = unit s (row i)) :
    ∃ l, SO3.nearestNeighbourDistance q = .ok l ∧ (c.wLo : ℝ) / 100000 ≤ 0.8 * mean l ∧ 0.8 * mean l ≤ (c.wHi : ℝ) / 100000 := by
  unfold checkWidth at h
  simp only [Bool.and_eq_true, decide_eq_true_eq] at h
  obtain ⟨⟨⟨hr, h2⟩, hbig⟩, hw⟩ := h
  rw [List.all_eq_true] at hbig
  refine ⟨_, if_neg (by omega), ?_⟩
  have hb : ∀ i j, (hi' : i < q.length) → (hj : j < q.length) → j ≠ i →
      (((ent n c.T i j - 20 : ℤ)) : ℝ) / ((200000 : ℤ) : ℝ) ≤ SO3.dist q[i] q[j] ∧
        SO3.dist q[i] q[j] ≤ (((ent n c.T i j + 20 : ℤ)) : ℝ) / ((200000 : ℤ) : ℝ) := by
    intro i j hi' hj hne
    have := angles_sound ha hs (hn ▸ hi') (hn ▸ hj)
    rw [hq i hi', hq j hj]
    unfold lo hi at this
    rw [if_neg (Ne.symm hne), if_neg (Ne.symm hne)] at this
    exact_mod_cast this
  have hself : ∀ i, (hi' : i < q.length) → SO3.dist q[i] q[i] ≤ (((ent1 c.N i + 20 : ℤ)) : ℝ) / ((200000 : ℤ) : ℝ) := by
    intro i hi'
    have := angles_sound ha hs (hn ▸ hi') (hn ▸ hi')
    rw [hq i hi']
    unfold lo hi at this
    rw [if_pos rfl, if_pos rfl] at this
    have h8 := hbig i (List.mem_range.2 (hn ▸ hi'))
    rw [decide_eq_true_eq] at h8
    refine this.2.trans ?_
    gcongr
    · exact_mod_cast (by omega : (100 : ℤ) ≤ ent1 c.N i + 20)
    · norm_num
  have hmono : Monotone fun t : ℤ => (((t - 20 : ℤ)) : ℝ) / ((200000 : ℤ) : ℝ) := by
    intro a b hab
    dsimp only
    gcongr
  have key := nearest_sound (dist := SO3.dist) hr h2 hn (lo := fun t : ℤ => (((t - 20 : ℤ)) : ℝ) / ((200000 : ℤ) : ℝ))
    (hi := fun t : ℤ => (((t + 20 : ℤ)) : ℝ) / ((200000 : ℤ) : ℝ)) hmono hb hself
  have := widths_sound (by omega) (by norm_num) hw key.2.1 key.2.2
  unfold mean
  have hl := key.1
  unfold SO3.dist at hl this
  rw [hl]
  exact this

/-- the part of a certificate about the default width of the E(3) kernels: `E` approximates the arc cosines of the inner
products of rows, `N` their smallest values off the diagonal. -/
def checkRows (n E N : ℕ) (wLo wHi : ℤ) (num : ℕ → ℕ → ℤ) (den : ℤ) : Bool :=
  rowMin n (ent n E) (ent1 N) && decide (2 ≤ n) && rowAngles n (ent n E) num den &&
  widths n (fun i => max (ent1 N i - 2) 44) (fun i => max (ent1 N i + 2) 50) 100000 wLo wHi

theorem checkRows_sound {G : Type} {n E N : ℕ} {wLo wHi : ℤ} {num : ℕ → ℕ → ℤ} {den : ℤ} (h : checkRows n E N wLo wHi num den = true)
    {q : List G} {dist : G → G → ℝ} (hn : q.length = n) (hq : ∀ i j, (hi : i < q.length) → (hj : j < q.length) →
      ∃ u : ℝ, u = (num i j : ℝ) / den ∧ dist q[i] q[j] = Real.arccos (clamp |u| (-1 + SO3.defaultEps) (1 - SO3.defaultEps))) :
    (wLo : ℝ) / 100000 ≤ 0.8 * mean (q.map fun a => (sortL (q.map fun b => dist a b)).getD 1 0) ∧
      0.8 * mean (q.map fun a => (sortL (q.map fun b => dist a b)).getD 1 0) ≤ (wHi : ℝ) / 100000 := by
  unfold checkRows at h
  simp only [Bool.and_eq_true, decide_eq_true_eq] at h
  obtain ⟨⟨⟨hr, h2⟩, ha⟩, hw⟩ := h
  have hb : ∀ i j, (hi' : i < q.length) → (hj : j < q.length) → j ≠ i →
      (((max (ent n E i j - 2) 44 : ℤ)) : ℝ) / ((100000 : ℤ) : ℝ) ≤ dist q[i] q[j] ∧
        dist q[i] q[j] ≤ (((max (ent n E i j + 2) 50 : ℤ)) : ℝ) / ((100000 : ℤ) : ℝ) := by
    intro i j hi' hj hne
    obtain ⟨u, hu, e⟩ := hq i j hi' hj
    rw [e]
    have := (rowAngles_sound ha (hn ▸ hi') (hn ▸ hj) hu).2 hne
    exact_mod_cast this
  have hself : ∀ i, (hi' : i < q.length) → dist q[i] q[i] ≤ (((max (ent1 N i + 2) 50 : ℤ)) : ℝ) / ((100000 : ℤ) : ℝ) := by
    intro i hi'
    obtain ⟨u, hu, e⟩ := hq i i hi' hi'
    rw [e]
    have := (rowAngles_sound ha (hn ▸ hi') (hn ▸ hi') hu).1 rfl
    refine this.trans ?_
    push_cast
    gcongr
    exact le_max_right _ _
  have hmono : Monotone fun t : ℤ => (((max (t - 2) 44 : ℤ)) : ℝ) / ((100000 : ℤ) : ℝ) := by
    intro a b hab
    dsimp only
    have : max (a - 2) 44 ≤ max (b - 2) 44 := max_le_max (by omega) le_rfl
    gcongr
  have key := nearest_sound (dist := dist) hr h2 hn (lo := fun t : ℤ => (((max (t - 2) 44 : ℤ)) : ℝ) / ((100000 : ℤ) : ℝ))
    (hi := fun t : ℤ => (((max (t + 2) 50 : ℤ)) : ℝ) / ((100000 : ℤ) : ℝ)) hmono hb hself
  have := widths_sound (by omega) (by norm_num) hw key.2.1 key.2.2
  unfold mean
  rw [key.1]
  exact this

end GConv.RBFCert

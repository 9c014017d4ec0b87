import Verif.Lemmas.RBFData

/-! # Certificates for the shipped quaternions, as they are stored

Most of the stored quaternions have four decimals, so their norms differ from 1 by up to `10^-4` and the distance of a
rotation to itself is up to 0.013. -/
namespace GConv.RBFCert

open SO3 SO3.Tables GConv.Interval

/-- the shipped quaternions of size `n`. -/
def quats (n : ℕ) : List Z4 := (quatCache.lookup n).getD []
/-- row `i`. -/
def qRow (n i : ℕ) : Z4 := (quats n).getD i ⟨0, 0, 0, 0⟩

/-- cosine of the double angle of a cut-off inner product, times `s^4`. -/
def dbl (d s : ℤ) : ℤ := 2 * min |d| (s ^ 2) ^ 2 - s ^ 4

/-- bounds of the distances of `n` stored rows (units `10^-5 / 2`). -/
def anglesQ (n : ℕ) (lo hi : ℕ → ℕ → ℤ) (row : ℕ → Z4) (s : ℤ) : Bool := all2 n fun i j => decide (100 ≤ hi i j) &&
    angleGe (lo i j) (dbl (dotZ (row i) (row j)) s) (s ^ 4) && angleLe (hi i j) (dbl (dotZ (row i) (row j)) s) (s ^ 4)

theorem anglesQ_sound {n : ℕ} {lo hi : ℕ → ℕ → ℤ} {row : ℕ → Z4} {s : ℕ} (h : anglesQ n lo hi row s = true) (hs : 0 < s)
    {i j : ℕ} (hi' : i < n) (hj : j < n) : (lo i j : ℝ) / 200000 ≤ SO3.dist ((row i).real s) ((row j).real s) ∧
      SO3.dist ((row i).real s) ((row j).real s) ≤ (hi i j : ℝ) / 200000 := by
  have h := all2_sound h hi' hj
  simp only [Bool.and_eq_true, decide_eq_true_eq] at h
  obtain ⟨⟨h100, hge⟩, hle⟩ := h
  have hs' : (0 : ℝ) < s := by exact_mod_cast hs
  set u := |∑ k, (row i).real s k * (row j).real s k| with hu
  have hud : u = |(dotZ (row i) (row j) : ℝ)| / (s : ℝ) ^ 2 := by
    rw [hu, dot_real hs, abs_div, abs_of_pos (by positivity : (0 : ℝ) < (s : ℝ) ^ 2)]
  have h0 : 0 ≤ u := abs_nonneg _
  have harc : Real.arccos u = Real.arccos (min u 1) := by
    rcases le_total u 1 with h | h
    · rw [min_eq_left h]
    · rw [min_eq_right h, Real.arccos_one, Real.arccos_of_one_le h]
  have hN : (0 : ℤ) < (s : ℤ) ^ 4 := by positivity
  have hcos : Real.cos (2 * Real.arccos u) = ((dbl (dotZ (row i) (row j)) s : ℤ) : ℝ) / (((s : ℤ) ^ 4 : ℤ) : ℝ) := by
    rw [harc, Real.cos_two_mul, Real.cos_arccos (by linarith [le_min h0 zero_le_one]) (min_le_right _ _)]
    have e : min u 1 = min |(dotZ (row i) (row j) : ℝ)| ((s : ℝ) ^ 2) / (s : ℝ) ^ 2 := by
      rw [hud, ← min_div_div_right (by positivity), div_self (by positivity)]
    rw [e]
    unfold dbl
    push_cast
    field_simp
  have hA := Real.arccos_nonneg u
  have hA' : 2 * Real.arccos u ≤ Real.pi := by
    have := Real.arccos_le_pi_div_two.2 h0; linarith
  have g1 := angleGe_sound hN hge (by linarith) hcos
  have g2 := angleLe_sound hN hle hA' hcos
  obtain ⟨c1, c2, -⟩ := arccos_clamp h0
  have h100' : (100 : ℝ) ≤ hi i j := by exact_mod_cast h100
  have ed : SO3.dist ((row i).real s) ((row j).real s) = Real.arccos (clamp u (-1 + SO3.defaultEps) (1 - SO3.defaultEps)) := rfl
  rw [ed]
  constructor
  · linarith
  · refine c2.trans (max_le (by linarith) (by linarith))

/-- lower bounds of the angles. -/
def loQ (n T i j : ℕ) : ℤ := if i = j then 0 else ent n T i j - 60
/-- upper bounds of the angles. -/
def hiQ (n T i j : ℕ) : ℤ := if i = j then 3500 else ent n T i j + 60

/-- the certificate of size `n` with wider bounds. -/
def checkQ (n : ℕ) : Bool :=
  decide ((quats n).length = n) && anglesQ n (loQ n (se3Cert n).T) (hiQ n (se3Cert n).T) (qRow n) (10 ^ 11 : ℕ) &&
  entries n (loQ n (se3Cert n).T) (hiQ n (se3Cert n).T) (fun i j => ent n (se3Cert n).aLo i j - 150) (fun i j => ent n (se3Cert n).aHi i j + 150)
    ((se3Cert n).wLo - 40) ((se3Cert n).wHi + 40) &&
  dominant n (fun i j => ent n (se3Cert n).B i j - 500000) (fun i j => ent n (se3Cert n).aLo i j - 150) (fun i j => ent n (se3Cert n).aHi i j + 150) &&
  rowMin n (ent n (se3Cert n).T) (ent1 (se3Cert n).N) && (List.range n).all (fun i => decide (3561 ≤ ent1 (se3Cert n).N i)) &&
  widths n (fun i => ent1 (se3Cert n).N i - 60) (fun i => ent1 (se3Cert n).N i + 60) 200000 ((se3Cert n).wLo - 40) ((se3Cert n).wHi + 40)

theorem checkQ2 : checkQ 2 = true := by decide +kernel
theorem checkQ3 : checkQ 3 = true := by decide +kernel
theorem checkQ4 : checkQ 4 = true := by decide +kernel
theorem checkQ5 : checkQ 5 = true := by decide +kernel
theorem checkQ6 : checkQ 6 = true := by decide +kernel
theorem checkQ7 : checkQ 7 = true := by decide +kernel
theorem checkQ8 : checkQ 8 = true := by decide +kernel
theorem checkQ9 : checkQ 9 = true := by decide +kernel
theorem checkQ10 : checkQ 10 = true := by decide +kernel
theorem checkQ11 : checkQ 11 = true := by decide +kernel
theorem checkQ12 : checkQ 12 = true := by decide +kernel
theorem checkQ13 : checkQ 13 = true := by decide +kernel
theorem checkQ14 : checkQ 14 = true := by decide +kernel
theorem checkQ15 : checkQ 15 = true := by decide +kernel
theorem checkQ16 : checkQ 16 = true := by decide +kernel
theorem checkQ17 : checkQ 17 = true := by decide +kernel
theorem checkQ18 : checkQ 18 = true := by decide +kernel
theorem checkQ19 : checkQ 19 = true := by decide +kernel
theorem checkQ20 : checkQ 20 = true := by decide +kernel
theorem checkQ21 : checkQ 21 = true := by decide +kernel
theorem checkQ22 : checkQ 22 = true := by decide +kernel
theorem checkQ23 : checkQ 23 = true := by decide +kernel
theorem checkQ24 : checkQ 24 = true := by decide +kernel

theorem checkQ_true (n : ℕ) (h2 : 2 ≤ n) (h24 : n ≤ 24) : checkQ n = true := by
  interval_cases n
  · exact checkQ2
  · exact checkQ3
  · exact checkQ4
  · exact checkQ5
  · exact checkQ6
  · exact checkQ7
  · exact checkQ8
  · exact checkQ9
  · exact checkQ10
  · exact checkQ11
  · exact checkQ12
  · exact checkQ13
  · exact checkQ14
  · exact checkQ15
  · exact checkQ16
  · exact checkQ17
  · exact checkQ18
  · exact checkQ19
  · exact checkQ20
  · exact checkQ21
  · exact checkQ22
  · exact checkQ23
  · exact checkQ24

end GConv.RBFCert

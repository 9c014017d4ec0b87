import Mathlib.Analysis.SpecialFunctions.Trigonometric.Bounds
import Mathlib.Analysis.SpecialFunctions.Trigonometric.Inverse
import Mathlib.Analysis.Calculus.Deriv.MeanValue
import Mathlib.Analysis.SpecialFunctions.Trigonometric.Deriv
import Mathlib.Analysis.Complex.Exponential
import Mathlib.Analysis.Real.Pi.Bounds
import Mathlib.LinearAlgebra.Matrix.Gershgorin

/-! # Bounds for cosine and exponential by integer arithmetic

Used by `Lemmas/RBFCert.lean`: the interpolation matrices of the shipped grids are not singular. -/

namespace GConv.Interval

open Real

theorem le_of_deriv_le {f g f' g' : ℝ → ℝ} (hf : ∀ x, HasDerivAt f (f' x) x) (hg : ∀ x, HasDerivAt g (g' x) x)
    (h0 : f 0 ≤ g 0) (h : ∀ x, 0 ≤ x → f' x ≤ g' x) {x : ℝ} (hx : 0 ≤ x) : f x ≤ g x := by
  have hd : ∀ x, HasDerivAt (fun x => g x - f x) (g' x - f' x) x := fun x => (hg x).sub (hf x)
  have hm : MonotoneOn (fun x => g x - f x) (Set.Ici 0) := by
    refine monotoneOn_of_deriv_nonneg (convex_Ici 0) (fun x _ => (hd x).continuousAt.continuousWithinAt)
      (fun x _ => (hd x).differentiableAt.differentiableWithinAt) fun x hx => ?_
    rw [interior_Ici] at hx
    rw [(hd x).deriv]
    exact sub_nonneg.2 (h x (le_of_lt hx))
  have := hm (Set.mem_Ici.2 le_rfl) (Set.mem_Ici.2 hx) hx
  simp only at this
  linarith

theorem sin_lower3 {x : ℝ} (hx : 0 ≤ x) : x - x ^ 3 / 6 ≤ sin x :=
  le_of_deriv_le (f := fun x => x - x ^ 3 / 6) (f' := fun x => 1 - x ^ 2 / 2) (g := sin) (g' := cos)
    (fun x => by
      have := (hasDerivAt_id x).sub (((hasDerivAt_id x).pow 3).div_const 6)
      exact HasDerivAt.congr_deriv this (by simp; ring))
    hasDerivAt_sin (by simp) (fun x _ => one_sub_sq_div_two_le_cos) hx

theorem cos_upper4 {x : ℝ} (hx : 0 ≤ x) : cos x ≤ 1 - x ^ 2 / 2 + x ^ 4 / 24 :=
  le_of_deriv_le (f := cos) (f' := fun x => -sin x) (g := fun x => 1 - x ^ 2 / 2 + x ^ 4 / 24) (g' := fun x => -x + x ^ 3 / 6)
    hasDerivAt_cos
    (fun x => by
      have := ((hasDerivAt_const x (1 : ℝ)).sub (((hasDerivAt_id x).pow 2).div_const 2)).add (((hasDerivAt_id x).pow 4).div_const 24)
      exact HasDerivAt.congr_deriv this (by simp; ring))
    (by simp) (fun x hx => by have := sin_lower3 hx; linarith) hx

theorem sin_upper5 {x : ℝ} (hx : 0 ≤ x) : sin x ≤ x - x ^ 3 / 6 + x ^ 5 / 120 :=
  le_of_deriv_le (f := sin) (f' := cos) (g := fun x => x - x ^ 3 / 6 + x ^ 5 / 120) (g' := fun x => 1 - x ^ 2 / 2 + x ^ 4 / 24)
    hasDerivAt_sin
    (fun x => by
      have := ((hasDerivAt_id x).sub (((hasDerivAt_id x).pow 3).div_const 6)).add (((hasDerivAt_id x).pow 5).div_const 120)
      exact HasDerivAt.congr_deriv this (by simp; ring))
    (by simp) (fun x hx => cos_upper4 hx) hx

theorem cos_lower6 {x : ℝ} (hx : 0 ≤ x) : 1 - x ^ 2 / 2 + x ^ 4 / 24 - x ^ 6 / 720 ≤ cos x :=
  le_of_deriv_le (f := fun x => 1 - x ^ 2 / 2 + x ^ 4 / 24 - x ^ 6 / 720) (f' := fun x => -x + x ^ 3 / 6 - x ^ 5 / 120)
    (g := cos) (g' := fun x => -sin x)
    (fun x => by
      have := (((hasDerivAt_const x (1 : ℝ)).sub (((hasDerivAt_id x).pow 2).div_const 2)).add (((hasDerivAt_id x).pow 4).div_const 24)).sub
        (((hasDerivAt_id x).pow 6).div_const 720)
      exact HasDerivAt.congr_deriv this (by simp; ring))
    hasDerivAt_cos (by simp) (fun x hx => by have := sin_upper5 hx; linarith) hx

theorem sin_lower7 {x : ℝ} (hx : 0 ≤ x) : x - x ^ 3 / 6 + x ^ 5 / 120 - x ^ 7 / 5040 ≤ sin x :=
  le_of_deriv_le (f := fun x => x - x ^ 3 / 6 + x ^ 5 / 120 - x ^ 7 / 5040)
    (f' := fun x => 1 - x ^ 2 / 2 + x ^ 4 / 24 - x ^ 6 / 720) (g := sin) (g' := cos)
    (fun x => by
      have := (((hasDerivAt_id x).sub (((hasDerivAt_id x).pow 3).div_const 6)).add (((hasDerivAt_id x).pow 5).div_const 120)).sub
        (((hasDerivAt_id x).pow 7).div_const 5040)
      exact HasDerivAt.congr_deriv this (by simp; ring))
    hasDerivAt_sin (by simp) (fun x hx => cos_lower6 hx) hx

theorem cos_upper8 {x : ℝ} (hx : 0 ≤ x) : cos x ≤ 1 - x ^ 2 / 2 + x ^ 4 / 24 - x ^ 6 / 720 + x ^ 8 / 40320 :=
  le_of_deriv_le (f := cos) (f' := fun x => -sin x) (g := fun x => 1 - x ^ 2 / 2 + x ^ 4 / 24 - x ^ 6 / 720 + x ^ 8 / 40320)
    (g' := fun x => -x + x ^ 3 / 6 - x ^ 5 / 120 + x ^ 7 / 5040)
    hasDerivAt_cos
    (fun x => by
      have := ((((hasDerivAt_const x (1 : ℝ)).sub (((hasDerivAt_id x).pow 2).div_const 2)).add (((hasDerivAt_id x).pow 4).div_const 24)).sub
        (((hasDerivAt_id x).pow 6).div_const 720)).add (((hasDerivAt_id x).pow 8).div_const 40320)
      exact HasDerivAt.congr_deriv this (by simp; ring))
    (by simp) (fun x hx => by have := sin_lower7 hx; linarith) hx

/-! ## fractions of integers bounding a cosine -/

/-- `p.1 / p.2 ≤ cos x`. -/
def Lo (p : ℤ × ℤ) (x : ℝ) : Prop := 0 < p.2 ∧ (p.1 : ℝ) / p.2 ≤ cos x
/-- `cos x ≤ p.1 / p.2`. -/
def Up (p : ℤ × ℤ) (x : ℝ) : Prop := 0 < p.2 ∧ cos x ≤ (p.1 : ℝ) / p.2

/-- `2 x² - 1` for `x = p.1 / p.2`. -/
def double (p : ℤ × ℤ) : ℤ × ℤ := (2 * p.1 ^ 2 - p.2 ^ 2, p.2 ^ 2)
/-- the lower bound zero where the fraction is negative. -/
def pos (p : ℤ × ℤ) : ℤ × ℤ := (max p.1 0, p.2)

theorem Lo.double {p : ℤ × ℤ} {x : ℝ} (h : Lo p x) (h0 : 0 ≤ cos x) : Lo (double (pos p)) (2 * x) := by
  obtain ⟨h1, h2⟩ := h
  have hp : (0 : ℝ) < p.2 := by exact_mod_cast h1
  refine ⟨by show 0 < p.2 ^ 2; positivity, ?_⟩
  have hm : ((max p.1 0 : ℤ) : ℝ) / p.2 ≤ cos x := by
    rcases le_total p.1 0 with h | h
    · rw [max_eq_right h]; simpa using h0
    · rw [max_eq_left h]; exact h2
  have hm0 : 0 ≤ ((max p.1 0 : ℤ) : ℝ) / p.2 := by
    have : (0 : ℝ) ≤ ((max p.1 0 : ℤ) : ℝ) := by exact_mod_cast le_max_right _ _
    positivity
  rw [cos_two_mul]
  have e : (((Interval.double (pos p)).1 : ℝ)) / ((Interval.double (pos p)).2) = 2 * (((max p.1 0 : ℤ) : ℝ) / p.2) ^ 2 - 1 := by
    unfold Interval.double pos; push_cast; field_simp
  rw [e]
  have := pow_le_pow_left₀ hm0 hm 2
  linarith

theorem Up.double {p : ℤ × ℤ} {x : ℝ} (h : Up p x) (h0 : 0 ≤ cos x) : Up (double p) (2 * x) := by
  obtain ⟨h1, h2⟩ := h
  have hp : (0 : ℝ) < p.2 := by exact_mod_cast h1
  refine ⟨by show 0 < p.2 ^ 2; positivity, ?_⟩
  rw [cos_two_mul]
  have e : (((Interval.double p).1 : ℝ)) / ((Interval.double p).2) = 2 * ((p.1 : ℝ) / p.2) ^ 2 - 1 := by
    unfold Interval.double; push_cast; field_simp
  rw [e]
  have := pow_le_pow_left₀ h0 h2 2
  linarith

/-- lower bound for `cos (T / c)`. -/
def lo0 (T c : ℤ) : ℤ × ℤ := (720 * c ^ 6 - 360 * T ^ 2 * c ^ 4 + 30 * T ^ 4 * c ^ 2 - T ^ 6, 720 * c ^ 6)
/-- upper bound for `cos (T / c)`. -/
def up0 (T c : ℤ) : ℤ × ℤ :=
  (40320 * c ^ 8 - 20160 * T ^ 2 * c ^ 6 + 1680 * T ^ 4 * c ^ 4 - 56 * T ^ 6 * c ^ 2 + T ^ 8, 40320 * c ^ 8)

theorem lo0_sound {T c : ℤ} (hT : 0 ≤ T) (hc : 0 < c) : Lo (lo0 T c) (T / c) := by
  have hc' : (0 : ℝ) < c := by exact_mod_cast hc
  have hT' : (0 : ℝ) ≤ T := by exact_mod_cast hT
  refine ⟨by show 0 < 720 * c ^ 6; positivity, ?_⟩
  refine le_of_eq_of_le ?_ (cos_lower6 (by positivity))
  unfold lo0; push_cast; field_simp; ring

theorem up0_sound {T c : ℤ} (hT : 0 ≤ T) (hc : 0 < c) : Up (up0 T c) (T / c) := by
  have hc' : (0 : ℝ) < c := by exact_mod_cast hc
  have hT' : (0 : ℝ) ≤ T := by exact_mod_cast hT
  refine ⟨by show 0 < 40320 * c ^ 8; positivity, ?_⟩
  refine le_trans (cos_upper8 (by positivity)) (le_of_eq ?_)
  unfold up0; push_cast; field_simp; ring

/-- a lower bound for `cos (T / 10^5)`. -/
def cosLo (T : ℤ) : ℤ × ℤ := double (pos (double (pos (double (pos (double (pos (lo0 T 1600000))))))))
/-- an upper bound for `cos (T / 10^5)`. -/
def cosUp (T : ℤ) : ℤ × ℤ := double (double (double (double (up0 T 1600000))))

theorem cos_nonneg' {T : ℤ} (hT : 0 ≤ T) (h : T ≤ 314159) {x : ℝ} (h0 : 0 ≤ x) (hx : x ≤ (T : ℝ) / 100000 / 2) : 0 ≤ cos x := by
  apply cos_nonneg_of_neg_pi_div_two_le_of_le
  · linarith [pi_pos]
  · have h1 := pi_gt_d6
    have h2 : (T : ℝ) ≤ 314159 := by exact_mod_cast h
    linarith

theorem cosLo_sound {T : ℤ} (hT : 0 ≤ T) (h : T ≤ 314159) : Lo (cosLo T) ((T : ℝ) / 100000) := by
  have hT' : (0 : ℝ) ≤ T := by exact_mod_cast hT
  have h0 := lo0_sound hT (show (0 : ℤ) < 1600000 by norm_num)
  push_cast at h0
  have h1 := h0.double (cos_nonneg' hT h (by positivity) (by linarith))
  have h2 := h1.double (cos_nonneg' hT h (by positivity) (by linarith))
  have h3 := h2.double (cos_nonneg' hT h (by positivity) (by linarith))
  have h4 := h3.double (cos_nonneg' hT h (by positivity) (by linarith))
  have e : 2 * (2 * (2 * (2 * ((T : ℝ) / 1600000)))) = (T : ℝ) / 100000 := by ring
  rw [e] at h4
  exact h4

theorem cosUp_sound {T : ℤ} (hT : 0 ≤ T) (h : T ≤ 314159) : Up (cosUp T) ((T : ℝ) / 100000) := by
  have hT' : (0 : ℝ) ≤ T := by exact_mod_cast hT
  have h0 := up0_sound hT (show (0 : ℤ) < 1600000 by norm_num)
  push_cast at h0
  have h1 := h0.double (cos_nonneg' hT h (by positivity) (by linarith))
  have h2 := h1.double (cos_nonneg' hT h (by positivity) (by linarith))
  have h3 := h2.double (cos_nonneg' hT h (by positivity) (by linarith))
  have h4 := h3.double (cos_nonneg' hT h (by positivity) (by linarith))
  have e : 2 * (2 * (2 * (2 * ((T : ℝ) / 1600000)))) = (T : ℝ) / 100000 := by ring
  rw [e] at h4
  exact h4

/-- `cos θ = num / den` implies `T / 10^5 ≤ θ`. -/
def angleGe (T num den : ℤ) : Bool := decide (0 ≤ T) && decide (T ≤ 314159) && decide (num * (cosLo T).2 ≤ (cosLo T).1 * den)
/-- `cos θ = num / den` implies `θ ≤ T / 10^5`. -/
def angleLe (T num den : ℤ) : Bool :=
  decide (314160 ≤ T) || (decide (0 ≤ T) && decide (T ≤ 314159) && decide ((cosUp T).1 * den ≤ num * (cosUp T).2))

theorem angleGe_sound {T num den : ℤ} (hden : 0 < den) (h : angleGe T num den = true) {θ : ℝ} (h0 : 0 ≤ θ)
    (he : cos θ = (num : ℝ) / den) : (T : ℝ) / 100000 ≤ θ := by
  unfold angleGe at h
  simp only [Bool.and_eq_true, decide_eq_true_eq] at h
  obtain ⟨⟨hT, hT'⟩, h⟩ := h
  obtain ⟨h1, h2⟩ := cosLo_sound hT hT'
  by_contra hlt
  push Not at hlt
  have hT1 : (T : ℝ) / 100000 ≤ π := by
    have h1 := pi_gt_d6
    have h2 : (T : ℝ) ≤ 314159 := by exact_mod_cast hT'
    linarith
  have hc := cos_lt_cos_of_nonneg_of_le_pi h0 hT1 hlt
  have hp : (0 : ℝ) < (cosLo T).2 := by exact_mod_cast h1
  have hd : (0 : ℝ) < den := by exact_mod_cast hden
  have : (num : ℝ) / den ≤ ((cosLo T).1 : ℝ) / (cosLo T).2 := by
    rw [div_le_div_iff₀ hd hp]; exact_mod_cast h
  rw [he] at hc
  linarith

theorem angleLe_sound {T num den : ℤ} (hden : 0 < den) (h : angleLe T num den = true) {θ : ℝ} (h1 : θ ≤ π)
    (he : cos θ = (num : ℝ) / den) : θ ≤ (T : ℝ) / 100000 := by
  unfold angleLe at h
  simp only [Bool.and_eq_true, Bool.or_eq_true, decide_eq_true_eq] at h
  rcases h with h | ⟨⟨hT, hT'⟩, h⟩
  · have h2 : (314160 : ℝ) ≤ T := by exact_mod_cast h
    have := pi_lt_d6
    linarith
  · obtain ⟨h1', h2⟩ := cosUp_sound hT hT'
    by_contra hlt
    push Not at hlt
    have hT0 : (0 : ℝ) ≤ (T : ℝ) / 100000 := by
      have : (0 : ℝ) ≤ T := by exact_mod_cast hT
      positivity
    have hc := cos_lt_cos_of_nonneg_of_le_pi hT0 h1 hlt
    have hp : (0 : ℝ) < (cosUp T).2 := by exact_mod_cast h1'
    have hd : (0 : ℝ) < den := by exact_mod_cast hden
    have : ((cosUp T).1 : ℝ) / (cosUp T).2 ≤ (num : ℝ) / den := by
      rw [div_le_div_iff₀ hp hd]; exact_mod_cast h
    rw [he] at hc
    linarith

/-! ## the exponential -/

/-- numerator over `120 q^5` of the Taylor polynomial of degree 5 of `exp (p / q)`. -/
def expLoN (p q : ℤ) : ℤ := 120 * q ^ 5 + 120 * p * q ^ 4 + 60 * p ^ 2 * q ^ 3 + 20 * p ^ 3 * q ^ 2 + 5 * p ^ 4 * q + p ^ 5
/-- numerator over `4320 q^6` of an upper bound of `exp (p / q)`. -/
def expUpN (p q : ℤ) : ℤ :=
  4320 * q ^ 6 + 4320 * p * q ^ 5 + 2160 * p ^ 2 * q ^ 4 + 720 * p ^ 3 * q ^ 3 + 180 * p ^ 4 * q ^ 2 + 36 * p ^ 5 * q + 7 * p ^ 6

theorem exp_lo {p q : ℤ} (hp : 0 ≤ p) (hq : 0 < q) : (expLoN p q : ℝ) / (120 * q ^ 5) ≤ exp ((p : ℝ) / q) := by
  have hq' : (0 : ℝ) < q := by exact_mod_cast hq
  have hp' : (0 : ℝ) ≤ p := by exact_mod_cast hp
  refine le_of_eq_of_le ?_ (sum_le_exp_of_nonneg (show (0 : ℝ) ≤ p / q by positivity) 6)
  simp only [Finset.sum_range_succ, Finset.sum_range_zero, Nat.factorial]
  unfold expLoN; push_cast; field_simp; ring

theorem exp_up {p q : ℤ} (hp : 0 ≤ p) (hq : 0 < q) (hpq : p ≤ q) : exp ((p : ℝ) / q) ≤ (expUpN p q : ℝ) / (4320 * q ^ 6) := by
  have hq' : (0 : ℝ) < q := by exact_mod_cast hq
  have hp' : (0 : ℝ) ≤ p := by exact_mod_cast hp
  have hpq' : (p : ℝ) ≤ q := by exact_mod_cast hpq
  refine le_trans (exp_bound' (show (0 : ℝ) ≤ p / q by positivity) (by rw [div_le_one hq']; exact hpq') (n := 6) (by norm_num)) (le_of_eq ?_)
  simp only [Finset.sum_range_succ, Finset.sum_range_zero, Nat.factorial]
  unfold expUpN; push_cast; field_simp; ring

/-- `exp (-8 p / q) ≤ a / 10^5`. -/
def expLe (p q a : ℤ) : Bool := decide (0 ≤ p) && decide (0 < q) && decide (100000 * (120 * q ^ 5) ^ 8 ≤ a * expLoN p q ^ 8)
/-- `a / 10^5 ≤ exp (-8 p / q)`. -/
def expGe (p q a : ℤ) : Bool :=
  decide (a ≤ 0) || (decide (0 ≤ p) && decide (0 < q) && decide (p ≤ q) && decide (a * expUpN p q ^ 8 ≤ 100000 * (4320 * q ^ 6) ^ 8))

theorem expLe_sound {p q a : ℤ} (h : expLe p q a = true) {y : ℝ} (hy : 8 * ((p : ℝ) / q) ≤ y) : exp (-y) ≤ (a : ℝ) / 100000 := by
  unfold expLe at h
  simp only [Bool.and_eq_true, decide_eq_true_eq] at h
  obtain ⟨⟨hp, hq⟩, h⟩ := h
  have hq' : (0 : ℝ) < q := by exact_mod_cast hq
  have hp' : (0 : ℝ) ≤ p := by exact_mod_cast hp
  have hN : (0 : ℝ) < expLoN p q := by
    unfold expLoN; push_cast
    have : (0 : ℝ) < 120 * q ^ 5 := by positivity
    have : (0 : ℝ) ≤ 120 * p * q ^ 4 := by positivity
    have : (0 : ℝ) ≤ 60 * p ^ 2 * q ^ 3 := by positivity
    have : (0 : ℝ) ≤ 20 * p ^ 3 * q ^ 2 := by positivity
    have : (0 : ℝ) ≤ 5 * p ^ 4 * q := by positivity
    have : (0 : ℝ) ≤ (p : ℝ) ^ 5 := by positivity
    linarith
  have h1 := pow_le_pow_left₀ (by positivity) (exp_lo hp hq) 8
  rw [← exp_nat_mul] at h1
  have h2 : exp (-y) ≤ exp (-(((8 : ℕ) : ℝ) * (p / q))) := exp_le_exp.2 (by push_cast; linarith)
  refine h2.trans ?_
  rw [exp_neg, inv_le_comm₀ (exp_pos _)]
  · refine le_trans ?_ h1
    have ha : (0 : ℝ) < a := by
      have h' : (100000 * (120 * (q : ℝ) ^ 5) ^ 8 : ℝ) ≤ a * (expLoN p q : ℝ) ^ 8 := by exact_mod_cast h
      by_contra hn
      push Not at hn
      have : (a : ℝ) * (expLoN p q : ℝ) ^ 8 ≤ 0 := mul_nonpos_of_nonpos_of_nonneg hn (by positivity)
      have : (0 : ℝ) < 100000 * (120 * (q : ℝ) ^ 5) ^ 8 := by positivity
      linarith
    rw [inv_div, div_pow, div_le_div_iff₀ ha (by positivity), mul_comm _ (a : ℝ)]
    exact_mod_cast h
  · have h' : (100000 * (120 * (q : ℝ) ^ 5) ^ 8 : ℝ) ≤ a * (expLoN p q : ℝ) ^ 8 := by exact_mod_cast h
    have ha : (0 : ℝ) < a := by
      by_contra hn
      push Not at hn
      have : (a : ℝ) * (expLoN p q : ℝ) ^ 8 ≤ 0 := mul_nonpos_of_nonpos_of_nonneg hn (by positivity)
      have : (0 : ℝ) < 100000 * (120 * (q : ℝ) ^ 5) ^ 8 := by positivity
      linarith
    positivity

theorem expGe_sound {p q a : ℤ} (h : expGe p q a = true) {y : ℝ} (hy : y ≤ 8 * ((p : ℝ) / q)) : (a : ℝ) / 100000 ≤ exp (-y) := by
  unfold expGe at h
  simp only [Bool.and_eq_true, Bool.or_eq_true, decide_eq_true_eq] at h
  rcases h with h | ⟨⟨⟨hp, hq⟩, hpq⟩, h⟩
  · have : (a : ℝ) ≤ 0 := by exact_mod_cast h
    exact le_trans (by linarith) (exp_pos _).le
  · have hq' : (0 : ℝ) < q := by exact_mod_cast hq
    have hp' : (0 : ℝ) ≤ p := by exact_mod_cast hp
    have h1 := pow_le_pow_left₀ (exp_pos _).le (exp_up hp hq hpq) 8
    rw [← exp_nat_mul] at h1
    have h2 : exp (-(((8 : ℕ) : ℝ) * (p / q))) ≤ exp (-y) := exp_le_exp.2 (by push_cast; linarith)
    refine le_trans ?_ h2
    rw [exp_neg]
    rcases le_or_gt a 0 with ha | ha
    · have : (a : ℝ) ≤ 0 := by exact_mod_cast ha
      exact le_trans (by linarith) (inv_pos.2 (exp_pos _)).le
    · have ha' : (0 : ℝ) < a := by exact_mod_cast ha
      rw [le_inv_comm₀ (by positivity) (exp_pos _)]
      refine h1.trans ?_
      rw [inv_div, div_pow, div_le_div_iff₀ (by positivity) ha', mul_comm _ (a : ℝ)]
      exact_mod_cast h

end GConv.Interval

import Verif.Torch.NN
import Mathlib.Analysis.SpecialFunctions.Gaussian.GaussianIntegral
import Mathlib.MeasureTheory.Integral.IntervalIntegral.FundThmCalculus
import Mathlib.Analysis.Calculus.MeanValue
import Mathlib.Analysis.Real.Pi.Bounds
import Mathlib.Analysis.SpecialFunctions.Trigonometric.DerivHyp
/-! # The activations GELU and its tanh approximation are Lipschitz -/
namespace GConv.Stability
open Real MeasureTheory

theorem abs_erf_le (x : ℝ) : |F.erf x| ≤ 1 := by
  have hI : ∫ t in Set.Ioi (0:ℝ), rexp (-t^2) = √π / 2 := by
    have := integral_gaussian_Ioi 1
    simpa using this
  have hint : IntegrableOn (fun t : ℝ => rexp (-t^2)) (Set.Ioi 0) := by
    have := (integrable_exp_neg_mul_sq (b := 1) one_pos).integrableOn (s := Set.Ioi (0:ℝ))
    simpa using this
  have hpos : ∀ x : ℝ, 0 ≤ x → |∫ t in (0:ℝ)..x, rexp (-t^2)| ≤ √π / 2 := by
    intro x hx
    rw [intervalIntegral.integral_of_le hx, abs_of_nonneg (integral_nonneg fun t => (exp_pos _).le), ← hI]
    exact setIntegral_mono_set hint (Filter.Eventually.of_forall fun t => (exp_pos _).le) (Set.Ioc_subset_Ioi_self.eventuallyLE)
  have h : |∫ t in (0:ℝ)..x, rexp (-t^2)| ≤ √π / 2 := by
    rcases le_total 0 x with hx | hx
    · exact hpos x hx
    · have := hpos (-x) (by linarith)
      have e : ∫ t in (0:ℝ)..(-x), rexp (-t^2) = - ∫ t in (0:ℝ)..x, rexp (-t^2) := by
        have := intervalIntegral.integral_comp_neg (a := 0) (b := -x) (fun t => rexp (-t^2))
        simp only [neg_neg, neg_zero, neg_sq] at this
        rw [this, intervalIntegral.integral_symm]
      rwa [e, abs_neg] at this
  unfold F.erf
  rw [abs_mul, abs_of_nonneg (by positivity)]
  calc 2 / √π * _ ≤ 2 / √π * (√π / 2) := by gcongr
    _ = 1 := by field_simp

theorem hasDerivAt_erf (x : ℝ) : HasDerivAt F.erf (2 / √π * rexp (-x^2)) x := by
  unfold F.erf
  refine HasDerivAt.const_mul _ ?_
  refine intervalIntegral.integral_hasDerivAt_right ?_ ?_ ?_
  · exact (Continuous.intervalIntegrable (by fun_prop) _ _)
  · exact (Continuous.stronglyMeasurableAtFilter (by fun_prop) _ _)
  · exact Continuous.continuousAt (by fun_prop)

theorem gelu_lip (a b : ℝ) : |F.gelu a - F.gelu b| ≤ 2 * |a - b| := by
  have hd : ∀ x, HasDerivAt F.gelu (1 * ((1 + F.erf (x / √2)) / 2) + x * ((2 / √π * rexp (-(x/√2)^2) * (1 / √2)) / 2)) x := by
    intro x
    unfold F.gelu
    refine HasDerivAt.mul (hasDerivAt_id x) ?_
    refine HasDerivAt.div_const ?_ 2
    refine HasDerivAt.const_add _ ?_
    exact HasDerivAt.comp (h₂ := F.erf) (h := fun x => x / √2) x (hasDerivAt_erf (x / √2)) ((hasDerivAt_id x).div_const _)
  have hb : ∀ x, |1 * ((1 + F.erf (x / √2)) / 2) + x * ((2 / √π * rexp (-(x/√2)^2) * (1 / √2)) / 2)| ≤ 2 := by
    intro x
    have h1 := abs_erf_le (x / √2)
    have h2 : |x * ((2 / √π * rexp (-(x/√2)^2) * (1 / √2)) / 2)| ≤ 1 := by
      set u := x / √2 with hu
      have e : x * ((2 / √π * rexp (-u^2) * (1 / √2)) / 2) = u * rexp (-u^2) / √π := by
        rw [hu]; field_simp
      rw [e, abs_div, abs_mul, abs_of_pos (exp_pos _), abs_of_nonneg (sqrt_nonneg π)]
      have h3 : 1 ≤ √π := by rw [one_le_sqrt]; linarith [pi_gt_three]
      have h4 : |u| * rexp (-u^2) ≤ 1 := by
        rw [exp_neg, ← div_eq_mul_inv, div_le_one (exp_pos _)]
        have := add_one_le_exp (u^2)
        have := sq_abs u
        nlinarith [sq_nonneg (|u| - 1), abs_nonneg u]
      rw [div_le_one (by linarith)]
      linarith
    have h1' := abs_le.1 h1
    have h2' := abs_le.1 h2
    rw [abs_le]
    constructor <;> linarith [h1'.1, h1'.2, h2'.1, h2'.2]
  have := Convex.norm_image_sub_le_of_norm_hasDerivWithin_le (f := F.gelu) (s := Set.univ) (C := 2)
    (fun x _ => (hd x).hasDerivWithinAt) (fun x _ => hb x) convex_univ (Set.mem_univ b) (Set.mem_univ a)
  simpa using this

theorem geluTanh_lip (a b : ℝ) : |F.geluTanh a - F.geluTanh b| ≤ 2 * |a - b| := by
  set c := √(2 / π) with hc
  have hc0 : 0 ≤ c := sqrt_nonneg _
  have ht : ∀ u : ℝ, HasDerivAt tanh (1 / cosh u ^ 2) u := by
    intro u
    have h := (hasDerivAt_sinh u).div (hasDerivAt_cosh u) (cosh_pos u).ne'
    have e : (cosh u * cosh u - sinh u * sinh u) / cosh u ^ 2 = 1 / cosh u ^ 2 := by
      rw [← cosh_sq_sub_sinh_sq u]; ring_nf
    rw [e] at h
    refine h.congr_of_eventuallyEq (Filter.Eventually.of_forall fun v => ?_)
    exact tanh_eq_sinh_div_cosh v
  have hd : ∀ x, HasDerivAt F.geluTanh (1 * ((1 + tanh (c * (x + 0.044715 * x ^ 3))) / 2) +
      x * ((1 / cosh (c * (x + 0.044715 * x ^ 3)) ^ 2 * (c * (1 + 0.044715 * (3 * x ^ 2)))) / 2)) x := by
    intro x
    unfold F.geluTanh
    refine HasDerivAt.mul (hasDerivAt_id x) ?_
    refine HasDerivAt.div_const ?_ 2
    refine HasDerivAt.const_add _ ?_
    refine (ht _).comp x ?_
    refine HasDerivAt.const_mul _ ?_
    refine (hasDerivAt_id x).add ?_
    have := (hasDerivAt_pow 3 x).const_mul (0.044715 : ℝ)
    simpa using this
  have hb : ∀ x, |1 * ((1 + tanh (c * (x + 0.044715 * x ^ 3))) / 2) +
      x * ((1 / cosh (c * (x + 0.044715 * x ^ 3)) ^ 2 * (c * (1 + 0.044715 * (3 * x ^ 2)))) / 2)| ≤ 2 := by
    intro x
    set u := c * (x + 0.044715 * x ^ 3) with hu
    have h1 : |tanh u| ≤ 1 := by
      rw [tanh_eq_sinh_div_cosh, abs_div, abs_of_pos (cosh_pos u), div_le_one (cosh_pos u)]
      refine abs_le_of_sq_le_sq ?_ (cosh_pos u).le
      have := cosh_sq u
      linarith
    have h5 : 1 + u ^ 2 ≤ cosh u ^ 2 := by
      rw [cosh_sq]
      have : |u| ≤ |sinh u| := by
        rcases le_total 0 u with h | h
        · rw [abs_of_nonneg h, abs_of_nonneg (sinh_nonneg_iff.2 h)]; exact self_le_sinh_iff.2 h
        · rw [abs_of_nonpos h, abs_of_nonpos (sinh_nonpos_iff.2 h)]
          have := self_le_sinh_iff.2 (neg_nonneg.2 h)
          rwa [sinh_neg] at this
      have := sq_le_sq.2 this
      linarith
    have h6 : |x| * (c * (1 + 0.044715 * (3 * x ^ 2))) ≤ 3 * |u| := by
      have : |u| = c * (|x| * (1 + 0.044715 * x ^ 2)) := by
        rw [hu, abs_mul, abs_of_nonneg hc0, show x + 0.044715 * x ^ 3 = x * (1 + 0.044715 * x ^ 2) by ring, abs_mul,
          abs_of_nonneg (a := 1 + 0.044715 * x ^ 2) (by positivity)]
      rw [this]
      have h7 : 0 ≤ |x| * c := by positivity
      have h8 : 1 + 0.044715 * (3 * x ^ 2) ≤ 3 * (1 + 0.044715 * x ^ 2) := by linarith
      calc |x| * (c * (1 + 0.044715 * (3 * x ^ 2))) = (|x| * c) * (1 + 0.044715 * (3 * x ^ 2)) := by ring
        _ ≤ (|x| * c) * (3 * (1 + 0.044715 * x ^ 2)) := by gcongr
        _ = _ := by ring
    have h2 : |x * ((1 / cosh u ^ 2 * (c * (1 + 0.044715 * (3 * x ^ 2)))) / 2)| ≤ 1 := by
      have hp : 0 ≤ c * (1 + 0.044715 * (3 * x ^ 2)) := by positivity
      have hcosh : 0 < cosh u ^ 2 := by positivity
      rw [abs_mul, abs_of_nonneg (a := (1 / cosh u ^ 2 * (c * (1 + 0.044715 * (3 * x ^ 2)))) / 2) (by positivity)]
      rw [show |x| * ((1 / cosh u ^ 2 * (c * (1 + 0.044715 * (3 * x ^ 2)))) / 2) =
        |x| * (c * (1 + 0.044715 * (3 * x ^ 2))) / (2 * cosh u ^ 2) by field_simp, div_le_one (by positivity)]
      have := sq_abs u
      nlinarith [sq_nonneg (|u| - 1), abs_nonneg u]
    have h1' := abs_le.1 h1
    have h2' := abs_le.1 h2
    rw [abs_le]
    constructor <;> linarith [h1'.1, h1'.2, h2'.1, h2'.2]
  have := Convex.norm_image_sub_le_of_norm_hasDerivWithin_le (f := F.geluTanh) (s := Set.univ) (C := 2)
    (fun x _ => (hd x).hasDerivWithinAt) (fun x _ => hb x) convex_univ (Set.mem_univ b) (Set.mem_univ a)
  simpa using this

end GConv.Stability

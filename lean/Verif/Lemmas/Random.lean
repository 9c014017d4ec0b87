import Verif.Spec.Random
import Mathlib.Probability.Distributions.Gaussian.Multivariate
import Mathlib.MeasureTheory.Function.Floor

namespace GConv.Random
open MeasureTheory ProbabilityTheory GConv.Spec

instance : IsProbabilityMeasure uniform01 := ⟨by simp [uniform01]⟩
instance (k : ℕ) : IsProbabilityMeasure (normal k) := by unfold normal; infer_instance

/-- orthogonal matrices preserve the normal distribution. -/
theorem normal_orthogonal {k : ℕ} (M : Matrix (Fin k) (Fin k) ℝ) (hM : M.transpose * M = 1) :
    MeasurePreserving (fun x => M.mulVec x) (normal k) (normal k) := by
  have hmeas : Measurable fun x : Fin k → ℝ => M.mulVec x := by
    refine measurable_pi_iff.2 fun i => ?_
    simp only [Matrix.mulVec, dotProduct]
    fun_prop
  refine ⟨hmeas, ?_⟩
  have hM' : M * M.transpose = 1 := by rwa [mul_eq_one_comm]
  let e : (Fin k → ℝ) ≃ₗ[ℝ] (Fin k → ℝ) :=
    { Matrix.mulVecLin M with
      invFun := fun x => M.transpose.mulVec x
      left_inv := fun x => by simp [hM]
      right_inv := fun x => by simp [hM'] }
  let f : EuclideanSpace ℝ (Fin k) ≃ₗᵢ[ℝ] EuclideanSpace ℝ (Fin k) :=
    { toLinearEquiv := (WithLp.linearEquiv 2 ℝ (Fin k → ℝ)).trans (e.trans (WithLp.linearEquiv 2 ℝ (Fin k → ℝ)).symm)
      norm_map' := fun x => by
        have h1 : ∀ y : EuclideanSpace ℝ (Fin k), ‖y‖ ^ 2 = dotProduct (WithLp.ofLp y) (WithLp.ofLp y) := by
          intro y
          rw [EuclideanSpace.real_norm_sq_eq]
          simp [dotProduct, sq]
        have h2 : ‖(WithLp.toLp 2 (M.mulVec (WithLp.ofLp x)) : EuclideanSpace ℝ (Fin k))‖ ^ 2 = ‖x‖ ^ 2 := by
          rw [h1, h1]
          show dotProduct (M.mulVec (WithLp.ofLp x)) (M.mulVec (WithLp.ofLp x)) = _
          rw [Matrix.dotProduct_mulVec, Matrix.vecMul_mulVec, hM]
          simp
        have h3 := abs_eq_abs.2 (sq_eq_sq_iff_abs_eq_abs _ _ |>.1 h2 |> fun h => abs_eq_abs.1 h)
        rw [abs_of_nonneg (norm_nonneg _), abs_of_nonneg (norm_nonneg _)] at h3
        exact h3 }
  have hg := stdGaussian_map f
  rw [← map_pi_eq_stdGaussian] at hg
  have hto : Measurable (WithLp.toLp 2 : (Fin k → ℝ) → EuclideanSpace ℝ (Fin k)) := by fun_prop
  have hof : Measurable (WithLp.ofLp : EuclideanSpace ℝ (Fin k) → (Fin k → ℝ)) := by fun_prop
  have hfm : Measurable f := f.continuous.measurable
  have h := congrArg (Measure.map (WithLp.ofLp : EuclideanSpace ℝ (Fin k) → (Fin k → ℝ))) hg
  rw [Measure.map_map hfm hto, Measure.map_map hof (hfm.comp hto), Measure.map_map hof hto] at h
  have e1 : (WithLp.ofLp ∘ (⇑f ∘ WithLp.toLp 2) : (Fin k → ℝ) → (Fin k → ℝ)) = fun x => M.mulVec x := rfl
  have e2 : (WithLp.ofLp ∘ WithLp.toLp 2 : (Fin k → ℝ) → (Fin k → ℝ)) = id := rfl
  rw [e1, e2, Measure.map_id] at h
  exact h

/-- rotation of the circle. -/
theorem uniform_shift (c : ℝ) : MeasurePreserving (fun u => Int.fract (u + c)) uniform01 uniform01 := by
  have hm : Measurable fun u : ℝ => Int.fract (u + c) := measurable_fract.comp (measurable_id.add_const c)
  refine ⟨hm, ?_⟩
  ext s hs
  rw [Measure.map_apply hm hs]
  unfold uniform01
  rw [Measure.restrict_apply (hm hs), Measure.restrict_apply hs]
  set d := Int.fract c with hd
  have d0 : 0 ≤ d := Int.fract_nonneg c
  have d1 : d < 1 := Int.fract_lt_one c
  have hf : ∀ u, Int.fract (u + c) = Int.fract (u + d) := by
    intro u
    have : u + c = u + d + (⌊c⌋ : ℤ) := by rw [hd, Int.fract]; ring
    rw [this, Int.fract_add_intCast]
  have l1 : (fun u => Int.fract (u + c)) ⁻¹' s ∩ Set.Ico 0 1 =
      (((fun u => u + d) ⁻¹' (s ∩ Set.Ico d 1)) ∪ ((fun u => u + (d - 1)) ⁻¹' (s ∩ Set.Ico 0 d))) := by
    ext u
    simp only [Set.mem_inter_iff, Set.mem_preimage, Set.mem_Ico, Set.mem_union, hf]
    constructor
    · rintro ⟨h, h0, h1⟩
      by_cases hu : u + d < 1
      · left
        rw [Int.fract_eq_self.2 ⟨by linarith, hu⟩] at h
        exact ⟨h, by linarith, hu⟩
      · right
        have : Int.fract (u + d) = u + (d - 1) := by
          rw [← Int.fract_sub_one, Int.fract_eq_self.2 ⟨by linarith, by linarith⟩]; ring
        rw [this] at h
        exact ⟨h, by linarith, by linarith⟩
    · rintro (⟨h, h0, h1⟩ | ⟨h, h0, h1⟩)
      · rw [Int.fract_eq_self.2 ⟨by linarith, h1⟩]
        exact ⟨h, by linarith, by linarith⟩
      · have : Int.fract (u + d) = u + (d - 1) := by
          rw [← Int.fract_sub_one, Int.fract_eq_self.2 ⟨by linarith, by linarith⟩]; ring
        rw [this]
        exact ⟨h, by linarith, by linarith⟩
  have l2 : s ∩ Set.Ico 0 1 = (s ∩ Set.Ico d 1) ∪ (s ∩ Set.Ico 0 d) := by
    ext u
    simp only [Set.mem_inter_iff, Set.mem_Ico, Set.mem_union]
    constructor
    · rintro ⟨h, h0, h1⟩
      by_cases hu : u < d
      · exact Or.inr ⟨h, h0, hu⟩
      · exact Or.inl ⟨h, by linarith, h1⟩
    · rintro (⟨h, h0, h1⟩ | ⟨h, h0, h1⟩)
      · exact ⟨h, by linarith, h1⟩
      · exact ⟨h, h0, by linarith⟩
  rw [l1, l2, measure_union, measure_union, measure_preimage_add_right, measure_preimage_add_right]
  · rw [Set.disjoint_left]; rintro u ⟨_, h⟩ ⟨_, h'⟩; simp only [Set.mem_Ico] at h h'; linarith
  · exact hs.inter measurableSet_Ico
  · rw [Set.disjoint_left]; rintro u ⟨_, h⟩ ⟨_, h'⟩; simp only [Set.mem_Ico] at h h'; linarith
  · exact (measurable_add_const _) (hs.inter measurableSet_Ico)

/-- `v ↦ 1 - v`. -/
theorem uniform_reflect : MeasurePreserving (fun v => 1 - v) uniform01 uniform01 := by
  have hm : Measurable fun u : ℝ => 1 - u := by fun_prop
  refine ⟨hm, ?_⟩
  ext s hs
  rw [Measure.map_apply hm hs]
  unfold uniform01
  rw [Measure.restrict_congr_set Ioo_ae_eq_Ico.symm, Measure.restrict_apply (hm hs), Measure.restrict_apply hs]
  have : (fun u : ℝ => 1 - u) ⁻¹' s ∩ Set.Ioo 0 1 = (fun u => 1 - u) ⁻¹' (s ∩ Set.Ioo 0 1) := by
    ext u; simp only [Set.mem_inter_iff, Set.mem_preimage, Set.mem_Ioo]
    constructor
    · rintro ⟨h, a, b⟩; exact ⟨h, by linarith, by linarith⟩
    · rintro ⟨h, a, b⟩; exact ⟨h, by linarith, by linarith⟩
  rw [this]
  exact (Measure.measurePreserving_sub_left volume 1).measure_preimage (hs.inter measurableSet_Ioo).nullMeasurableSet

/-- a grid whose rows are functions of independent draws is uniform if every group element acts on a row like a
measure preserving map of the draw. -/
theorem uniformRows_of {Γ D E : Type} [MeasurableSpace D] [MeasurableSpace E] {n : ℕ} (μ : Measure D)
    [IsProbabilityMeasure μ] (row : D → E) (hrow : Measurable row) (IsElt : Γ → Prop) (act : Γ → E → E)
    (h : ∀ g, IsElt g → ∃ T : D → D, MeasurePreserving T μ μ ∧ ∀ᵐ d ∂μ, act g (row d) = row (T d))
    (X : (Fin n → D) → Fin n → E) (hX : ∀ i, ∀ᵐ d ∂μ, ∀ ω : Fin n → D, ω i = d → X ω i = row d) :
    UniformRows (Measure.pi fun _ : Fin n => μ) X IsElt act := by
  intro g hg A hA
  choose T hT hTa using fun i => h (g i) (hg i)
  have hev : ∀ (i : Fin n) (p : D → Prop), (∀ᵐ d ∂μ, p d) → ∀ᵐ ω ∂(Measure.pi fun _ : Fin n => μ), p (ω i) :=
    fun i p hp => (Measure.quasiMeasurePreserving_eval (fun _ : Fin n => μ) i).ae hp
  have hXe : ∀ᵐ ω ∂(Measure.pi fun _ : Fin n => μ), ∀ i, X ω i = row (ω i) := by
    rw [ae_all_iff]
    intro i
    filter_upwards [hev i _ (hX i)] with ω hω
    exact hω ω rfl
  have hTe : ∀ᵐ ω ∂(Measure.pi fun _ : Fin n => μ), ∀ i, act (g i) (row (ω i)) = row (T i (ω i)) := by
    rw [ae_all_iff]
    intro i
    exact hev i _ (hTa i)
  have hB : MeasurableSet {ω : Fin n → D | (fun i => row (ω i)) ∈ A} :=
    (measurable_pi_iff.2 fun i => hrow.comp (measurable_pi_apply i)) hA
  have hpi : MeasurePreserving (fun (ω : Fin n → D) i => T i (ω i)) (Measure.pi fun _ : Fin n => μ)
      (Measure.pi fun _ : Fin n => μ) := measurePreserving_pi _ _ hT
  calc (Measure.pi fun _ : Fin n => μ) {ω | (fun i => act (g i) (X ω i)) ∈ A}
      = (Measure.pi fun _ : Fin n => μ) ((fun (ω : Fin n → D) i => T i (ω i)) ⁻¹' {ω | (fun i => row (ω i)) ∈ A}) := by
        apply measure_congr
        filter_upwards [hXe, hTe] with ω h1 h2
        apply propext
        show ((fun i => act (g i) (X ω i)) ∈ A) ↔ ((fun i => row (T i (ω i))) ∈ A)
        have : (fun i => act (g i) (X ω i)) = fun i => row (T i (ω i)) := by
          funext i; rw [h1 i, h2 i]
        rw [this]
    _ = (Measure.pi fun _ : Fin n => μ) {ω | (fun i => row (ω i)) ∈ A} := hpi.measure_preimage hB.nullMeasurableSet
    _ = (Measure.pi fun _ : Fin n => μ) {ω | X ω ∈ A} := by
        apply measure_congr
        filter_upwards [hXe] with ω h1
        apply propext
        show ((fun i => row (ω i)) ∈ A) ↔ (X ω ∈ A)
        have : X ω = fun i => row (ω i) := funext h1
        rw [this]

theorem uniformMove_of {Ω E : Type} [MeasurableSpace Ω] [MeasurableSpace E] (P : Measure Ω) (move : Ω → E → E)
    (IsElt : E → Prop) (mul : E → E → E) (hm : ∀ h, IsElt h → Measurable fun ω => move ω h)
    (hl : ∀ g, IsElt g → ∃ T : Ω → Ω, MeasurePreserving T P P ∧ ∀ᵐ ω ∂P, ∀ h, IsElt h → mul g (move ω h) = move (T ω) h)
    (hr : ∀ g, IsElt g → ∃ T : Ω → Ω, MeasurePreserving T P P ∧ ∀ᵐ ω ∂P, ∀ h, IsElt h → move ω (mul g h) = move (T ω) h) :
    UniformMove P move IsElt mul := by
  intro n h hh g hg A hA
  have hB : MeasurableSet {ω : Ω | (fun i => move ω (h i)) ∈ A} := (measurable_pi_iff.2 fun i => hm _ (hh i)) hA
  obtain ⟨T, hT, hTa⟩ := hl g hg
  obtain ⟨T', hT', hTa'⟩ := hr g hg
  constructor
  · rw [← hT.measure_preimage hB.nullMeasurableSet]
    apply measure_congr
    filter_upwards [hTa] with ω h1
    apply propext
    show ((fun i => mul g (move ω (h i))) ∈ A) ↔ ((fun i => move (T ω) (h i)) ∈ A)
    have : (fun i => mul g (move ω (h i))) = fun i => move (T ω) (h i) := funext fun i => h1 _ (hh i)
    rw [this]
  · rw [← hT'.measure_preimage hB.nullMeasurableSet]
    apply measure_congr
    filter_upwards [hTa'] with ω h1
    apply propext
    show ((fun i => move ω (mul g (h i))) ∈ A) ↔ ((fun i => move (T' ω) (h i)) ∈ A)
    have : (fun i => move ω (mul g (h i))) = fun i => move (T' ω) (h i) := funext fun i => h1 _ (hh i)
    rw [this]

end GConv.Random

import Verif.Model.Init
import Verif.Spec.Init
import Verif.Model.KernelInstances
import Mathlib.Probability.Distributions.Gaussian.Real
import Mathlib.Probability.ProductMeasure
import Mathlib.Probability.Independence.InfinitePi

/-! # C79: freshly constructed layers have independent, centred parameters of the documented scale -/

namespace GConv.Init

open MeasureTheory ProbabilityTheory GConv.Spec

/-! ## laws of scaled draws -/

theorem hasLaw_uniform {Ω : Type} [MeasurableSpace Ω] {P : Measure Ω} {u : Ω → ℝ} (hu : HasLaw u uniform01 P) {b : ℝ}
    (hb : 0 < b) : HasLaw (fun ω => -b + (b - -b) * u ω) (uniformPM b) P := by
  have hm : Measurable fun x : ℝ => -b + (b - -b) * x := by fun_prop
  refine ⟨hm.comp_aemeasurable hu.aemeasurable, ?_⟩
  have h1 : P.map (fun ω => -b + (b - -b) * u ω) = (P.map u).map fun x : ℝ => -b + (b - -b) * x := by
    rw [AEMeasurable.map_map_of_aemeasurable hm.aemeasurable hu.aemeasurable]; rfl
  rw [h1, hu.map_eq]
  have h2b : (0:ℝ) < b - -b := by linarith
  ext s hs
  rw [Measure.map_apply hm hs, uniform01, Measure.restrict_apply (hm hs), uniformPM, cond_apply measurableSet_Icc]
  have e1 : volume (Set.Icc (-b) b ∩ s) = volume (Set.Ico (-b) b ∩ s) := by
    refine measure_congr ?_
    exact (Ico_ae_eq_Icc (μ := volume) (a := -b) (b := b)).symm.inter (Filter.EventuallyEq.refl _ s)
  have e2 : (fun x : ℝ => -b + (b - -b) * x) ⁻¹' s ∩ Set.Ico 0 1 =
      (fun x : ℝ => (b - -b) * x) ⁻¹' ((fun x : ℝ => -b + x) ⁻¹' (Set.Ico (-b) b ∩ s)) := by
    ext x
    simp only [Set.mem_inter_iff, Set.mem_preimage, Set.mem_Ico]
    constructor
    · rintro ⟨h, h0, h1⟩
      refine ⟨⟨by nlinarith, by nlinarith⟩, h⟩
    · rintro ⟨⟨h0, h1⟩, h⟩
      refine ⟨h, by_contra fun hc => ?_, by_contra fun hc => ?_⟩ <;> push Not at hc <;> nlinarith
  rw [e2, Real.volume_preimage_mul_left h2b.ne', e1, measure_preimage_add, Real.volume_Icc, abs_of_pos (by positivity),
    ENNReal.ofReal_inv_of_pos h2b]

theorem hasLaw_normal {Ω : Type} [MeasurableSpace Ω] {P : Measure Ω} {z : Ω → ℝ} (hz : HasLaw z (gaussianReal 0 1) P)
    (s : ℝ) (v : NNReal) (hv : (v : ℝ) = s ^ 2) : HasLaw (fun ω => s * z ω) (gaussianReal 0 v) P := by
  have h := gaussianReal_const_mul hz s
  have e : (⟨s ^ 2, sq_nonneg s⟩ : NNReal) * 1 = v := by
    rw [mul_one]; exact NNReal.eq hv.symm
  rw [mul_zero] at h
  convert h using 1
  rw [← e]; rfl

/-! ## the constants -/

theorem gain_sqrt5 : gain √5 = 1 / √3 := by
  unfold gain
  rw [Real.sq_sqrt (by norm_num), show (2:ℝ) / (1 + 5) = 1 / 3 by norm_num, Real.sqrt_div (by norm_num), Real.sqrt_one]

theorem bound_eq (n : ℕ) : √3 * (gain √5 / √(n : ℝ)) = 1 / √(n : ℝ) := by
  rw [gain_sqrt5]
  have : √(3:ℝ) ≠ 0 := by positivity
  field_simp

theorem std_sq (n : ℕ) : (gain √5 / √(n : ℝ)) ^ 2 = 1 / (3 * n) := by
  rw [gain_sqrt5, div_pow, div_pow, one_pow, Real.sq_sqrt (by norm_num), Real.sq_sqrt (by positivity)]
  rw [div_div]

theorem fan_cast_pos {n : ℕ} (h : n ≠ 0) : 0 < 1 / √(n : ℝ) := by
  have : (0:ℝ) < n := by exact_mod_cast Nat.pos_of_ne_zero h
  positivity

theorem kaimingUniform_ok (t : Tensor ℝ) (u : List ℕ → ℝ) (n : ℕ) (hf : fanIn t.shape = .ok n) (h0 : 0 ∉ t.shape) :
    kaimingUniform t √5 u = .ok (uniform_ t (-(1 / √(n : ℝ))) (1 / √(n : ℝ)) u) := by
  unfold kaimingUniform
  rw [if_neg h0, hf]
  show Except.ok _ = _
  rw [bound_eq]

theorem kaimingNormal_ok (t : Tensor ℝ) (z : List ℕ → ℝ) (n : ℕ) (hf : fanIn t.shape = .ok n) (h0 : 0 ∉ t.shape) :
    kaimingNormal t √5 z = .ok (normal_ t (gain √5 / √(n : ℝ)) z) := by
  unfold kaimingNormal
  rw [if_neg h0, hf]
  rfl

theorem convReset_ok (kind : Kind) (p p' : KernelParams) (b : Option (Tensor ℝ)) (r : Draws) (n : ℕ)
    (h : kernelReset kind p r = .ok p') (hf : fanIn p'.weight.shape = .ok n) (hn : n ≠ 0) :
    convReset kind p b r =
      .ok (p', b.map fun t => uniform_ t (-(1 / √(n : ℝ))) (1 / √(n : ℝ)) (r .bias)) := by
  unfold convReset
  rw [h]
  cases b with
  | none => rfl
  | some t =>
    show (fanIn p'.weight.shape >>= _) = _
    rw [hf]
    show (if n ≠ 0 then _ else _) = _
    rw [if_pos hn]; rfl

/-! ## the parameters of a layer -/

/-- the parameter with a given name. -/
def param (p : KernelParams × Option (Tensor ℝ)) : Param → Option (Tensor ℝ)
  | .weightH => p.1.weightH
  | .weight => some p.1.weight
  | .bias => p.2

/-- entry `i` of the parameter with a given name. -/
noncomputable def entry (p : KernelParams × Option (Tensor ℝ)) (a : Param) (i : List ℕ) : ℝ :=
  match param p a with
  | some t => t.get i
  | none => 0

/-- What it means for the parameters after construction to be independent random numbers: the constructors succeed for
all draws, the parameter `a` exists exactly when `shape a` is given and then has that shape, and all entries of all
parameters together are independent with the laws `law`.  The draws `r₀` of the kernel's own constructor and the contents
`junk` of fresh memory are arbitrary, the draws `r` are independent, uniform on `[0, 1)` or standard normal. -/
def FreshParams {G : Type} {d : ℕ} (kind : Kind) (K : GroupKernel G d) (L : Conv.Layer) (bias : Bool)
    (drawLaw : Param → Measure ℝ) (shape : Param → Option (List ℕ)) (law : Param → Measure ℝ) : Prop :=
  ∀ (Ω : Type) [MeasurableSpace Ω] (P : Measure Ω) (junk r₀ : Ω → Draws) (r : Param → List ℕ → Ω → ℝ),
    iIndepFun (fun e : Param × List ℕ => r e.1 e.2) P → (∀ a i, HasLaw (r a i) (drawLaw a) P) →
    ∃ p : Ω → KernelParams × Option (Tensor ℝ),
      (∀ ω, build kind K L bias (junk ω) (r₀ ω) (fun a i => r a i ω) = .ok (p ω)) ∧
      (∀ ω a, (param (p ω) a).map (·.shape) = shape a) ∧
      IndependentEntries P (fun a => (shape a).isSome) (fun a => (shape a).getD []) (fun a i ω => entry (p ω) a i) law

/-- uniform draws for every parameter. -/
noncomputable def allUniform : Param → Measure ℝ := fun _ => uniform01

/-- normal draws for the weight, uniform draws for the bias. -/
noncomputable def normalWeight : Param → Measure ℝ
  | .weight => gaussianReal 0 1
  | _ => uniform01

theorem indep_of {Ω : Type} [MeasurableSpace Ω] {P : Measure Ω} {r : Param → List ℕ → Ω → ℝ}
    (hr : iIndepFun (fun e : Param × List ℕ => r e.1 e.2) P) (inUse : Param → Prop) (shape : Param → List ℕ)
    (en : Param → List ℕ → Ω → ℝ) (law : Param → Measure ℝ) (f : Param → ℝ → ℝ) (hf : ∀ a, Measurable (f a))
    (hen : ∀ a, inUse a → ∀ i ω, en a i ω = f a (r a i ω))
    (hl : ∀ a, inUse a → ∀ i, HasLaw (fun ω => f a (r a i ω)) (law a) P) :
    IndependentEntries P inUse shape en law := by
  refine ⟨?_, fun a ha i _ => ?_⟩
  · have h1 := (hr.precomp (g := fun e : {e : Param × List ℕ // inUse e.1 ∧ Tensor.InB (shape e.1) e.2} => e.1)
      Subtype.val_injective).comp (fun e => f e.1.1) (fun e => hf e.1.1)
    convert h1 using 1
    funext e
    funext ω
    exact hen _ e.2.1 _ _
  · have : en a i = fun ω => f a (r a i ω) := funext fun ω => hen a ha i ω
    rw [this]; exact hl a ha i

variable {G : Type} {d : ℕ}

/-- the variance `1 / (3 n)` of a weight with `fan_in = n`. -/
noncomputable def kvar (n : ℕ) : NNReal := ⟨1 / (3 * n), by positivity⟩

theorem not_zero_mem_cons {a : ℕ} {l : List ℕ} (h : 0 < a) (hl : 0 ∉ l) : 0 ∉ a :: l := by
  simp only [List.mem_cons, not_or]; exact ⟨by omega, hl⟩

theorem prod_ne_zero' {l : List ℕ} (hl : 0 ∉ l) : l.prod ≠ 0 := by
  simpa [List.prod_eq_zero_iff] using hl

/-- **Lifting layers** (kernel.py:171, gconv.py:147): weights `N(0, 1/(3 n))`, bias uniform on `±1/√n` with
`n = in_channels/groups · ∏ kernel_size`, all entries independent. -/
theorem C79_lifting (K : GroupKernel G d) (L : Conv.Layer) (bias : Bool) (ho : 0 < K.outC) (hi : 0 < K.inC / K.groups)
    (hk : 0 ∉ K.kernelSize) :
    FreshParams .lifting K L bias normalWeight
      (fun a => match a with
        | .weightH => none
        | .weight => some (K.outC :: (K.inC / K.groups) :: K.kernelSize)
        | .bias => if bias then some (L.outC :: List.replicate (L.nd + 1) 1) else none)
      (fun a => match a with
        | .weight => gaussianReal 0 (kvar (K.inC / K.groups * K.kernelSize.prod))
        | _ => uniformPM (1 / √((K.inC / K.groups * K.kernelSize.prod : ℕ) : ℝ))) := by
  intro Ω _ P junk r₀ r hr hlaw
  set n := K.inC / K.groups * K.kernelSize.prod with hn
  have hn0 : n ≠ 0 := Nat.mul_ne_zero hi.ne' (prod_ne_zero' hk)
  set b := 1 / √(n : ℝ)
  have hb : 0 < b := fan_cast_pos hn0
  have hw0 : 0 ∉ weightShape K .lifting := not_zero_mem_cons ho (not_zero_mem_cons hi hk)
  have hfan : fanIn (weightShape K .lifting) = .ok n := rfl
  refine ⟨fun ω => (⟨none, ⟨weightShape K .lifting, fun i => gain √5 / √(n : ℝ) * r .weight i ω⟩⟩,
    if bias then some ⟨biasShape L, fun i => -b + (b - -b) * r .bias i ω⟩ else none), ?_, ?_, ?_⟩
  · intro ω
    have e1 : kernelInit .lifting K (junk ω) (r₀ ω) =
        .ok ⟨none, ⟨weightShape K .lifting, fun i => gain √5 / √(n : ℝ) * r₀ ω .weight i⟩⟩ := by
      unfold kernelInit kernelReset
      dsimp only [weightHShape, Option.map]
      rw [kaimingNormal_ok _ _ n hfan hw0]; rfl
    unfold build
    rw [e1]
    show convReset _ _ _ _ = _
    rw [convReset_ok _ _ _ _ _ n (by unfold kernelReset; dsimp only; rw [kaimingNormal_ok _ _ n hfan hw0]; rfl) hfan hn0]
    cases bias <;> rfl
  · intro ω a
    cases a
    · rfl
    · rfl
    · cases bias <;> rfl
  · refine indep_of hr _ _ _ _ (fun a x => match a with
      | .weight => gain √5 / √(n : ℝ) * x
      | _ => -b + (b - -b) * x) ?_ ?_ ?_
    · intro a; cases a <;> dsimp only <;> fun_prop
    · intro a ha i ω
      cases a
      · simp at ha
      · rfl
      · cases bias
        · simp at ha
        · rfl
    · intro a ha i
      cases a
      · simp at ha
      · exact hasLaw_normal (hlaw .weight i) _ _ (std_sq n).symm
      · exact hasLaw_uniform (hlaw .bias i) hb

/-- **Group layers** (kernel.py:436, gconv.py:147): weights and bias uniform on `±1/√n`, all entries independent.
`n` is the product of all axes of the weight but the first, i.e. `out_channels · in_channels/groups · ∏ kernel_size`:
the first axis is the group axis, so the output channels are counted as inputs and the group elements are not. -/
theorem C79_group (K : GroupKernel G d) (L : Conv.Layer) (bias : Bool) (hd : 0 < K.groupKernelDim) (ho : 0 < K.outC)
    (hi : 0 < K.inC / K.groups) (hk : 0 ∉ K.kernelSize) :
    FreshParams .group K L bias allUniform
      (fun a => match a with
        | .weightH => none
        | .weight => some (K.groupKernelDim :: K.outC :: (K.inC / K.groups) :: K.kernelSize)
        | .bias => if bias then some (L.outC :: List.replicate (L.nd + 1) 1) else none)
      (fun _ => uniformPM (1 / √((K.outC * (K.inC / K.groups * K.kernelSize.prod) : ℕ) : ℝ))) := by
  intro Ω _ P junk r₀ r hr hlaw
  set n := K.outC * (K.inC / K.groups * K.kernelSize.prod) with hn
  have hn0 : n ≠ 0 := Nat.mul_ne_zero ho.ne' (Nat.mul_ne_zero hi.ne' (prod_ne_zero' hk))
  set b := 1 / √(n : ℝ)
  have hb : 0 < b := fan_cast_pos hn0
  have hw0 : 0 ∉ weightShape K .group := not_zero_mem_cons hd (not_zero_mem_cons ho (not_zero_mem_cons hi hk))
  have hfan : fanIn (weightShape K .group) = .ok n := by
    show Except.ok (K.outC * ((K.inC / K.groups) :: K.kernelSize).prod) = _
    rw [List.prod_cons]
  refine ⟨fun ω => (⟨none, ⟨weightShape K .group, fun i => -b + (b - -b) * r .weight i ω⟩⟩,
    if bias then some ⟨biasShape L, fun i => -b + (b - -b) * r .bias i ω⟩ else none), ?_, ?_, ?_⟩
  · intro ω
    have e1 : kernelInit .group K (junk ω) (r₀ ω) =
        .ok ⟨none, ⟨weightShape K .group, fun i => -b + (b - -b) * r₀ ω .weight i⟩⟩ := by
      unfold kernelInit kernelReset
      dsimp only [weightHShape, Option.map]
      rw [kaimingUniform_ok _ _ n hfan hw0]; rfl
    unfold build
    rw [e1]
    show convReset _ _ _ _ = _
    rw [convReset_ok _ _ _ _ _ n (by unfold kernelReset; dsimp only; rw [kaimingUniform_ok _ _ n hfan hw0]; rfl) hfan hn0]
    cases bias <;> rfl
  · intro ω a
    cases a
    · rfl
    · rfl
    · cases bias <;> rfl
  · refine indep_of hr _ _ _ _ (fun a x => -b + (b - -b) * x) ?_ ?_ ?_
    · intro a; fun_prop
    · intro a ha i ω
      cases a
      · simp at ha
      · rfl
      · cases bias
        · simp at ha
        · rfl
    · intro a ha i
      exact hasLaw_uniform (hlaw a i) hb

/-- **Subgroup layers** (kernel.py:347): as the group layers, with `n = out_channels · in_channels/groups`. -/
theorem C79_subgroup (K : GroupKernel G d) (L : Conv.Layer) (bias : Bool) (hd : 0 < K.groupKernelDim) (ho : 0 < K.outC)
    (hi : 0 < K.inC / K.groups) :
    FreshParams .subgroup K L bias allUniform
      (fun a => match a with
        | .weightH => none
        | .weight => some [K.groupKernelDim, K.outC, K.inC / K.groups]
        | .bias => if bias then some (L.outC :: List.replicate (L.nd + 1) 1) else none)
      (fun _ => uniformPM (1 / √((K.outC * (K.inC / K.groups) : ℕ) : ℝ))) := by
  intro Ω _ P junk r₀ r hr hlaw
  set n := K.outC * (K.inC / K.groups) with hn
  have hn0 : n ≠ 0 := Nat.mul_ne_zero ho.ne' hi.ne'
  set b := 1 / √(n : ℝ)
  have hb : 0 < b := fan_cast_pos hn0
  have hw0 : 0 ∉ weightShape K .subgroup :=
    not_zero_mem_cons hd (not_zero_mem_cons ho (not_zero_mem_cons hi (by simp)))
  have hfan : fanIn (weightShape K .subgroup) = .ok n := by
    show Except.ok (K.outC * [K.inC / K.groups].prod) = _
    rw [List.prod_singleton]
  refine ⟨fun ω => (⟨none, ⟨weightShape K .subgroup, fun i => -b + (b - -b) * r .weight i ω⟩⟩,
    if bias then some ⟨biasShape L, fun i => -b + (b - -b) * r .bias i ω⟩ else none), ?_, ?_, ?_⟩
  · intro ω
    have e1 : kernelInit .subgroup K (junk ω) (r₀ ω) =
        .ok ⟨none, ⟨weightShape K .subgroup, fun i => -b + (b - -b) * r₀ ω .weight i⟩⟩ := by
      unfold kernelInit kernelReset
      dsimp only [weightHShape, Option.map]
      rw [kaimingUniform_ok _ _ n hfan hw0]; rfl
    unfold build
    rw [e1]
    show convReset _ _ _ _ = _
    rw [convReset_ok _ _ _ _ _ n (by unfold kernelReset; dsimp only; rw [kaimingUniform_ok _ _ n hfan hw0]; rfl) hfan hn0]
    cases bias <;> rfl
  · intro ω a
    cases a
    · rfl
    · rfl
    · cases bias <;> rfl
  · refine indep_of hr _ _ _ _ (fun a x => -b + (b - -b) * x) ?_ ?_ ?_
    · intro a; fun_prop
    · intro a ha i ω
      cases a
      · simp at ha
      · rfl
      · cases bias
        · simp at ha
        · rfl
    · intro a ha i
      exact hasLaw_uniform (hlaw a i) hb

/-- **Separable layers** (kernel.py:253, gconv.py:147): group weights uniform on `±1/√(out_channels ·
in_channels/groups)`, spatial weights and bias uniform on `±1/√(∏ kernel_size)`, all entries independent. -/
theorem C79_separable (K : GroupKernel G d) (L : Conv.Layer) (bias : Bool) (hd : 0 < K.groupKernelDim) (ho : 0 < K.outC)
    (hi : 0 < K.inC / K.groups) (hk : 0 ∉ K.kernelSize) :
    FreshParams .separable K L bias allUniform
      (fun a => match a with
        | .weightH => some [K.groupKernelDim, K.outC, K.inC / K.groups]
        | .weight => some (K.outC :: 1 :: K.kernelSize)
        | .bias => if bias then some (L.outC :: List.replicate (L.nd + 1) 1) else none)
      (fun a => match a with
        | .weightH => uniformPM (1 / √((K.outC * (K.inC / K.groups) : ℕ) : ℝ))
        | _ => uniformPM (1 / √((K.kernelSize.prod : ℕ) : ℝ))) := by
  intro Ω _ P junk r₀ r hr hlaw
  set m := K.outC * (K.inC / K.groups) with hm
  have hm0 : m ≠ 0 := Nat.mul_ne_zero ho.ne' hi.ne'
  set c := 1 / √(m : ℝ)
  have hc : 0 < c := fan_cast_pos hm0
  set n := K.kernelSize.prod with hn
  have hn0 : n ≠ 0 := prod_ne_zero' hk
  set b := 1 / √(n : ℝ)
  have hb : 0 < b := fan_cast_pos hn0
  set sH := [K.groupKernelDim, K.outC, K.inC / K.groups] with hsH
  have hh0 : 0 ∉ sH := not_zero_mem_cons hd (not_zero_mem_cons ho (not_zero_mem_cons hi (by simp)))
  have hfanH : fanIn sH = .ok m := by
    show Except.ok (K.outC * [K.inC / K.groups].prod) = _
    rw [List.prod_singleton]
  have hw0 : 0 ∉ weightShape K .separable := not_zero_mem_cons ho (not_zero_mem_cons Nat.one_pos hk)
  have hfan : fanIn (weightShape K .separable) = .ok n := by
    show Except.ok (1 * K.kernelSize.prod) = _
    rw [Nat.one_mul]
  refine ⟨fun ω => (⟨some ⟨sH, fun i => -c + (c - -c) * r .weightH i ω⟩,
      ⟨weightShape K .separable, fun i => -b + (b - -b) * r .weight i ω⟩⟩,
    if bias then some ⟨biasShape L, fun i => -b + (b - -b) * r .bias i ω⟩ else none), ?_, ?_, ?_⟩
  · intro ω
    have e1 : kernelInit .separable K (junk ω) (r₀ ω) =
        .ok ⟨some ⟨sH, fun i => -c + (c - -c) * r₀ ω .weightH i⟩,
          ⟨weightShape K .separable, fun i => -b + (b - -b) * r₀ ω .weight i⟩⟩ := by
      unfold kernelInit kernelReset
      dsimp only [weightHShape, Option.map]
      rw [kaimingUniform_ok _ _ m hfanH hh0, kaimingUniform_ok _ _ n hfan hw0]; rfl
    unfold build
    rw [e1]
    show convReset _ _ _ _ = _
    rw [convReset_ok _ _ _ _ _ n (by unfold kernelReset; dsimp only; rw [kaimingUniform_ok _ _ m hfanH hh0, kaimingUniform_ok _ _ n hfan hw0]; rfl) hfan hn0]
    cases bias <;> rfl
  · intro ω a
    cases a
    · rfl
    · rfl
    · cases bias <;> rfl
  · refine indep_of hr _ _ _ _ (fun a x => match a with
      | .weightH => -c + (c - -c) * x
      | _ => -b + (b - -b) * x) ?_ ?_ ?_
    · intro a; cases a <;> dsimp only <;> fun_prop
    · intro a ha i ω
      cases a
      · rfl
      · rfl
      · cases bias
        · simp at ha
        · rfl
    · intro a ha i
      cases a
      · exact hasLaw_uniform (hlaw .weightH i) hc
      · exact hasLaw_uniform (hlaw .weight i) hb
      · exact hasLaw_uniform (hlaw .bias i) hb

/-! ## scale -/

instance (b : ℝ) [Fact (0 < b)] : IsProbabilityMeasure (uniformPM b) := by
  have h : (0:ℝ) < b := Fact.out
  refine cond_isProbabilityMeasure_of_finite ?_ ?_
  · rw [Real.volume_Icc]; simp; linarith
  · rw [Real.volume_Icc]; simp

theorem integral_uniformPM {b : ℝ} (hb : 0 < b) (f : ℝ → ℝ) :
    ∫ x, f x ∂(uniformPM b) = (2 * b)⁻¹ * ∫ x in (-b)..b, f x := by
  rw [uniformPM, ProbabilityTheory.cond, integral_smul_measure, Real.volume_Icc,
    intervalIntegral.integral_of_le (by linarith), integral_Icc_eq_integral_Ioc]
  rw [show b - -b = 2 * b by ring, ENNReal.toReal_inv, ENNReal.toReal_ofReal (by positivity), smul_eq_mul]

/-- the scale of the uniform parameters: every entry is at most `1/√n` in absolute value (almost surely), the mean is 0 and
the variance is `1/(3 n)`. -/
theorem C79_scale_uniform {Ω : Type} [MeasurableSpace Ω] (P : Measure Ω) (X : Ω → ℝ) (n : ℕ) (hn : 0 < n)
    (h : HasLaw X (uniformPM (1 / √(n : ℝ))) P) :
    (∀ᵐ ω ∂P, |X ω| ≤ 1 / √(n : ℝ)) ∧ (∫ ω, X ω ∂P) = 0 ∧ Var[X; P] = 1 / (3 * n) := by
  set b := 1 / √(n : ℝ) with hbdef
  have hb : 0 < b := fan_cast_pos hn.ne'
  haveI : Fact (0 < b) := ⟨hb⟩
  have hmean : ∫ x, x ∂(uniformPM b) = 0 := by
    rw [integral_uniformPM hb fun x => x]
    rw [integral_id]; ring
  refine ⟨?_, ?_, ?_⟩
  · have hm : MeasurableSet {x : ℝ | |x| ≤ b} := measurableSet_le (by fun_prop) (by fun_prop)
    have h1 : ∀ᵐ x ∂(uniformPM b), |x| ≤ b := by
      have := ae_cond_mem (μ := volume) (measurableSet_Icc (a := -b) (b := b))
      filter_upwards [this] with x hx
      exact abs_le.mpr hx
    have := (h.ae_iff (p := fun x => |x| ≤ b) (by
      exact measurableSet_setOf.mp hm)).mpr h1
    exact this
  · have := h.integral_eq
    rw [this]; exact hmean
  · rw [h.variance_eq, variance_eq_integral (by fun_prop)]
    simp only [id]
    rw [hmean]
    rw [integral_uniformPM hb]
    simp only [sub_zero]
    rw [integral_pow]
    have : b ^ 2 = 1 / n := by
      rw [hbdef, div_pow, one_pow, Real.sq_sqrt (by positivity)]
    have hbn : b ≠ 0 := hb.ne'
    field_simp
    norm_num
    have h1 : b ^ 2 * n = 1 := by rw [this]; field_simp
    linear_combination 6 * b * h1

/-- the scale of the normal weights: mean 0 and variance `1/(3 n)`. -/
theorem C79_scale_normal {Ω : Type} [MeasurableSpace Ω] (P : Measure Ω) (X : Ω → ℝ) (n : ℕ)
    (h : HasLaw X (gaussianReal 0 (kvar n)) P) : (∫ ω, X ω ∂P) = 0 ∧ Var[X; P] = 1 / (3 * n) := by
  refine ⟨?_, ?_⟩
  · rw [h.integral_eq]; exact integral_id_gaussianReal
  · rw [h.variance_eq]; exact variance_id_gaussianReal

/-! ## the hypotheses are met -/

/-- independent draws of the assumed laws exist, for every kind of layer. -/
example (law : Param → Measure ℝ) [∀ a, IsProbabilityMeasure (law a)] :
    ∃ (Ω : Type) (_ : MeasurableSpace Ω) (P : Measure Ω) (r : Param → List ℕ → Ω → ℝ),
      iIndepFun (fun e : Param × List ℕ => r e.1 e.2) P ∧ ∀ a i, HasLaw (r a i) (law a) P := by
  refine ⟨Param × List ℕ → ℝ, inferInstance, Measure.infinitePi fun e => law e.1, fun a i ω => ω (a, i), ?_, ?_⟩
  · exact iIndepFun_infinitePi (P := fun e : Param × List ℕ => law e.1) (X := fun _ x => x) (fun _ => measurable_id)
  · intro a i
    have := measurePreserving_eval_infinitePi (fun e : Param × List ℕ => law e.1) (a, i)
    exact ⟨this.measurable.aemeasurable, this.map_eq⟩

/-- the premade SE(2) kernel with 4 input and 6 output channels in 2 groups, a 5 x 5 window and 8 rotations meets the
hypotheses of `C79_lifting`, `C79_separable` and `C79_group`. -/
example (L : Conv.Layer) :
    let K := KernelSE2.base { inC := 4, outC := 6, kernelSize := 5, groupKernelSize := 8, groups := 2 } noSampler
    (∃ s l, FreshParams .lifting K L true normalWeight s l) ∧ (∃ s l, FreshParams .separable K L true allUniform s l) ∧
    (∃ s l, FreshParams .subgroup K L true allUniform s l) ∧ (∃ s l, FreshParams .group K L true allUniform s l) := by
  intro K
  have hd : 0 < K.groupKernelDim := by
    show 0 < [_].sum
    simp [KernelSE2.grid, Tensor.ofList, SO2.uniformGrid, linspace]
  have hk : 0 ∉ K.kernelSize := by show 0 ∉ [5, 5]; simp
  have hi : 0 < K.inC / K.groups := by show 0 < 4 / 2; decide
  have ho : 0 < K.outC := by show 0 < 6; decide
  exact ⟨⟨_, _, C79_lifting K L true ho hi hk⟩, ⟨_, _, C79_separable K L true hd ho hi hk⟩,
    ⟨_, _, C79_subgroup K L true hd ho hi⟩, ⟨_, _, C79_group K L true hd ho hi hk⟩⟩

end GConv.Init

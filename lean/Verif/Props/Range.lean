import Verif.Spec.Range
import Verif.Props.Modules

/-! # Resampling never leaves the range of the stored filters (C91) -/

namespace GConv

open Tensor Spec GroupKernel

/-! ## the weights of the taps -/

theorem taps_nonneg (mode : F.SMode) (s : ℕ) (u : ℝ) : ∀ q ∈ F.taps mode s u, 0 ≤ q.2 := by
  intro q hq
  unfold F.taps at hq
  rw [List.mem_map] at hq
  obtain ⟨a, ha, rfl⟩ := hq
  rw [List.mem_filter] at ha
  have h1 := Int.floor_le u
  have h2 := Int.lt_floor_add_one u
  cases mode with
  | bilinear =>
    have := ha.1
    simp only [List.mem_cons, List.not_mem_nil, or_false] at this
    rcases this with rfl | rfl
    · show 0 ≤ 1 - (u - ⌊u⌋); linarith
    · show 0 ≤ u - ⌊u⌋; linarith
  | nearest =>
    have := ha.1
    simp only [List.mem_cons, List.not_mem_nil, or_false] at this
    subst this
    exact zero_le_one

theorem taps_sum_le (mode : F.SMode) (s : ℕ) (u : ℝ) : ((F.taps mode s u).map Prod.snd).sum ≤ 1 := by
  have h1 := Int.floor_le u
  have h2 := Int.lt_floor_add_one u
  unfold F.taps
  cases mode with
  | bilinear =>
    simp only [List.filter_cons, List.filter_nil]
    split_ifs <;> simp only [List.map_cons, List.map_nil, List.sum_cons, List.sum_nil] <;> linarith
  | nearest =>
    simp only [List.filter_cons, List.filter_nil]
    split_ifs <;> simp

theorem roundEven_mem {s : ℕ} {u : ℝ} (h0 : 0 ≤ u) (h1 : u ≤ (s : ℝ) - 1) : 0 ≤ F.roundEven u ∧ F.roundEven u < (s : ℤ) := by
  have hf : 0 ≤ ⌊u⌋ := Int.floor_nonneg.2 h0
  have hlt : ⌊u⌋ < (s : ℤ) := by
    rw [Int.floor_lt]; push_cast; linarith
  have hc : u - ⌊u⌋ ≠ 0 → ⌊u⌋ + 1 < (s : ℤ) := by
    intro hne
    have : (⌊u⌋ : ℝ) < u := lt_of_le_of_ne (Int.floor_le u) (fun e => hne (by linarith))
    have h3 : (⌊u⌋ : ℝ) < (s : ℝ) - 1 := lt_of_lt_of_le this h1
    have : ((⌊u⌋ + 1 : ℤ) : ℝ) < (s : ℤ) := by push_cast; linarith
    exact_mod_cast this
  unfold F.roundEven
  split_ifs with a b c
  · exact ⟨hf, hlt⟩
  · exact ⟨by omega, hc (by intro e; rw [e] at b; norm_num at b)⟩
  · exact ⟨hf, hlt⟩
  · refine ⟨by omega, hc (by intro e; rw [e] at a; norm_num at a)⟩

/-- inside the image the weights add up to one. -/
theorem taps_sum_one (mode : F.SMode) {s : ℕ} {u : ℝ} (h0 : 0 ≤ u) (h1 : u ≤ (s : ℝ) - 1) :
    ((F.taps mode s u).map Prod.snd).sum = 1 := by
  have hf : 0 ≤ ⌊u⌋ := Int.floor_nonneg.2 h0
  have hlt : ⌊u⌋ < (s : ℤ) := by
    rw [Int.floor_lt]; push_cast; linarith
  unfold F.taps
  cases mode with
  | bilinear =>
    by_cases h : ⌊u⌋ + 1 < (s : ℤ)
    · have e1 : decide (0 ≤ ⌊u⌋ ∧ ⌊u⌋ < (s : ℤ)) = true := decide_eq_true ⟨hf, hlt⟩
      have e2 : decide (0 ≤ ⌊u⌋ + 1 ∧ ⌊u⌋ + 1 < (s : ℤ)) = true := decide_eq_true ⟨by omega, h⟩
      simp only [List.filter_cons, List.filter_nil, e1, e2, if_true, List.map_cons, List.map_nil, List.sum_cons, List.sum_nil]
      ring
    · have e1 : decide (0 ≤ ⌊u⌋ ∧ ⌊u⌋ < (s : ℤ)) = true := decide_eq_true ⟨hf, hlt⟩
      have e2 : decide (0 ≤ ⌊u⌋ + 1 ∧ ⌊u⌋ + 1 < (s : ℤ)) = false := decide_eq_false (fun c => h c.2)
      have e3 : (⌊u⌋ : ℤ) = s - 1 := by omega
      have e4 : (⌊u⌋ : ℝ) = s - 1 := by rw [e3]; push_cast; ring
      have h5 := Int.floor_le u
      simp only [List.filter_cons, List.filter_nil, e1, e2, if_true, List.map_cons, List.map_nil, List.sum_cons, List.sum_nil,
        Bool.false_eq_true, if_false]
      linarith
  | nearest =>
    have e1 : decide (0 ≤ F.roundEven u ∧ F.roundEven u < (s : ℤ)) = true := decide_eq_true (roundEven_mem h0 h1)
    simp only [List.filter_cons, List.filter_nil, e1, if_true, List.map_cons, List.map_nil, List.sum_cons, List.sum_nil]
    norm_num

/-- averages with weights of sum at most one. -/
theorem weighted_le {l : List (ℕ × ℝ)} {F : ℕ × ℝ → ℝ} {B : ℝ} (h0 : ∀ q ∈ l, 0 ≤ q.2) (hF : ∀ q ∈ l, F q ≤ B) :
    (l.map fun q => q.2 * F q).sum ≤ (l.map Prod.snd).sum * B := by
  induction l with
  | nil => simp
  | cons q l ih =>
    simp only [List.map_cons, List.sum_cons, add_mul]
    exact add_le_add (mul_le_mul_of_nonneg_left (hF q (by simp)) (h0 q (by simp)))
      (ih (fun q hq => h0 q (by simp [hq])) (fun q hq => hF q (by simp [hq])))

theorem sampleRec_le (mode : F.SMode) (B : ℝ) : ∀ (ks : List ℕ) (us : List ℝ), us.length = ks.length →
    (0 ≤ B ∨ List.Forall₂ (fun s u => 0 ≤ u ∧ u ≤ ((s : ℕ) : ℝ) - 1) ks us) →
    ∀ f : List ℕ → ℝ, (∀ r, InB ks r → f r ≤ B) → F.sampleRec mode ks us f ≤ B := by
  intro ks
  induction ks with
  | nil =>
    intro us hu _ f h
    have := h [] InB_nil_nil
    cases us <;> simpa [F.sampleRec] using this
  | cons s ss ih =>
    intro us hu hc f h
    cases us with
    | nil => simp at hu
    | cons u us =>
      simp only [F.sampleRec]
      have hin : ∀ q ∈ F.taps mode s u, F.sampleRec mode ss us (fun r => f (q.1 :: r)) ≤ B := by
        intro q hq
        apply ih us (by simpa using hu)
        · rcases hc with hc | hc
          · exact Or.inl hc
          · cases hc with | cons _ hc => exact Or.inr hc
        · intro r hr
          exact h _ (by simp [taps_lt mode s u q hq, hr])
      refine (weighted_le (F := fun q => F.sampleRec mode ss us (fun r => f (q.1 :: r))) (taps_nonneg mode s u) hin).trans ?_
      rcases hc with hc | hc
      · nlinarith [taps_sum_le mode s u]
      · cases hc with
        | cons h1 _ => rw [taps_sum_one mode h1.1 h1.2, one_mul]

theorem sampleRec_neg (mode : F.SMode) : ∀ (ks : List ℕ) (us : List ℝ) (f : List ℕ → ℝ),
    F.sampleRec mode ks us (fun r => - f r) = - F.sampleRec mode ks us f := by
  intro ks
  induction ks with
  | nil => intro us f; cases us <;> rfl
  | cons s ss ih =>
    intro us f
    cases us with
    | nil => rfl
    | cons u us =>
      simp only [F.sampleRec]
      generalize F.taps mode s u = l
      induction l with
      | nil => simp
      | cons q l ihl =>
        simp only [List.map_cons, List.sum_cons]
        rw [ihl, ih us fun r => f (q.1 :: r)]
        ring

theorem clamp_mem {x : ℝ} {s : ℕ} (hs : 0 < s) : 0 ≤ clamp x 0 ((s : ℝ) - 1) ∧ clamp x 0 ((s : ℝ) - 1) ≤ (s : ℝ) - 1 := by
  have : (1 : ℝ) ≤ s := by exact_mod_cast hs
  unfold clamp
  exact ⟨le_min (le_max_right _ _) (by linarith), min_le_right _ _⟩

theorem sourceCoord_mem {pad : F.SPad} (hp : pad ≠ .zeros) {s : ℕ} (hs : 0 < s) (x : ℝ) :
    0 ≤ F.sourceCoord pad s x ∧ F.sourceCoord pad s x ≤ (s : ℝ) - 1 := by
  cases pad with
  | zeros => exact absurd rfl hp
  | border => exact clamp_mem hs
  | reflection => exact clamp_mem hs

theorem sourceCoord_all {pad : F.SPad} (hp : pad ≠ .zeros) : ∀ (ks : List ℕ) (xs : List ℝ), xs.length = ks.length → (∀ j ∈ ks, 0 < j) →
    List.Forall₂ (fun s u => 0 ≤ u ∧ u ≤ ((s : ℕ) : ℝ) - 1) ks (List.zipWith (F.sourceCoord pad) ks xs) := by
  intro ks
  induction ks with
  | nil => intro xs _ _; exact List.Forall₂.nil
  | cons s ss ih =>
    intro xs hx h0
    cases xs with
    | nil => simp at hx
    | cons x xs =>
      exact List.Forall₂.cons (sourceCoord_mem hp (h0 s (by simp)) x) (ih xs (by simpa using hx) (fun j hj => h0 j (by simp [hj])))

theorem sampleAt_le {d : ℕ} (m : F.SMode) (p : F.SPad) (ks : List ℕ) (hl : ks.length = d) (h0 : ∀ j ∈ ks, 0 < j) (B : ℝ)
    (hB : 0 ≤ B ∨ p ≠ .zeros) (f : List ℕ → ℝ) (x : Fin d → ℝ) (h : ∀ r, InB ks r → f r ≤ B) : F.sampleAt m p ks f x ≤ B := by
  unfold F.sampleAt
  refine sampleRec_le m B ks _ (by simp [hl]) ?_ f h
  rcases hB with hB | hB
  · exact Or.inl hB
  · exact Or.inr (sourceCoord_all hB ks _ (by simp [hl]) h0)

theorem le_sampleAt {d : ℕ} (m : F.SMode) (p : F.SPad) (ks : List ℕ) (hl : ks.length = d) (h0 : ∀ j ∈ ks, 0 < j) (A : ℝ)
    (hA : A ≤ 0 ∨ p ≠ .zeros) (f : List ℕ → ℝ) (x : Fin d → ℝ) (h : ∀ r, InB ks r → A ≤ f r) : A ≤ F.sampleAt m p ks f x := by
  have := sampleAt_le m p ks hl h0 (-A) (hA.imp (fun h => by linarith) id) (fun r => - f r) x (fun r hr => by linarith [h r hr])
  unfold F.sampleAt at this ⊢
  rw [sampleRec_neg] at this
  linarith

theorem abs_sampleAt_le {d : ℕ} (m : F.SMode) (p : F.SPad) (ks : List ℕ) (hl : ks.length = d) (h0 : ∀ j ∈ ks, 0 < j) (M : ℝ)
    (f : List ℕ → ℝ) (x : Fin d → ℝ) (h : ∀ r, InB ks r → |f r| ≤ M) : |F.sampleAt m p ks f x| ≤ M := by
  have hM : 0 ≤ M := by
    refine (abs_nonneg _).trans (h (ks.map fun _ => 0) ?_)
    clear hl h
    induction ks with
    | nil => exact InB_nil_nil
    | cons s ss ih =>
      rw [List.map_cons, InB_cons]
      exact ⟨h0 s (by simp), ih (fun j hj => h0 j (by simp [hj]))⟩
  rw [abs_le]
  exact ⟨le_sampleAt m p ks hl h0 (-M) (Or.inl (by linarith)) f x fun r hr => (abs_le.1 (h r hr)).1,
    sampleAt_le m p ks hl h0 M (Or.inl hM) f x fun r hr => (abs_le.1 (h r hr)).2⟩

/-! ## kernels -/

theorem placed_abs {k s c v M : ℝ} (hk : k = 0 ∨ k = 1) (hs : s = 1 ∨ s = -1) (hv : |v| ≤ M) (e : c = k * v / s) : |c| ≤ M := by
  subst e
  have hM : 0 ≤ M := (abs_nonneg v).trans hv
  rw [abs_div, abs_mul, show |s| = 1 by rcases hs with rfl | rfl <;> simp, div_one]
  rcases hk with rfl | rfl
  · simpa using hM
  · simpa using hv

theorem placed_between {s c v : ℝ} (hs : s = 1 ∨ s = -1) (e : c = 1 * v / s) : s * c = v := by
  subst e
  rcases hs with rfl | rfl <;> ring

section
variable {G : Type} {d : ℕ}

theorem liftingRange_of {K : GroupKernel G d} {inv mul act det m p} (hK : Lawful K inv mul act det)
    (hs : PointwiseSampler K.sampleRn K.kernelSize (F.sampleAt m p K.kernelSize)) (hl : K.kernelSize.length = d)
    (h0 : ∀ j ∈ K.kernelSize, 0 < j) {Valid : G → Prop} (hv : ∀ g, Valid g → detAt det g = 1 ∨ detAt det g = -1)
    {keep : List ℕ → Prop} (hk1 : ∀ x, keep x → maskAt K.mask x = 1) (hk0 : ∀ x, ¬ keep x → maskAt K.mask x = 0) :
    LiftingRange K p Valid (detAt det) keep where
  bounded weight H n out hw hH hV e co hco ci hci M hM h hh x hx := by
    obtain ⟨out', e', -, g⟩ := C50_lifting hK hs weight H n hw hH
    rw [e] at e'; cases e'
    refine placed_abs ?_ (hv _ (hV h hh)) (abs_sampleAt_le m p K.kernelSize hl h0 M _ _ hM) (g co h ci x hco hh hci hx)
    by_cases hk : keep x
    · exact Or.inr (hk1 x hk)
    · exact Or.inl (hk0 x hk)
  between hp weight H n out hw hH hV e co hco ci hci A B hAB h hh x hx hk := by
    obtain ⟨out', e', -, g⟩ := C50_lifting hK hs weight H n hw hH
    rw [e] at e'; cases e'
    have := g co h ci x hco hh hci hx
    rw [hk1 x hk] at this
    rw [placed_between (hv _ (hV h hh)) this]
    exact ⟨le_sampleAt m p _ hl h0 A (Or.inr hp) _ _ fun r hr => (hAB r hr).1,
      sampleAt_le m p _ hl h0 B (Or.inr hp) _ _ fun r hr => (hAB r hr).2⟩
  dropped weight H n out hw hH e co hco ci hci h hh x hx hk := by
    obtain ⟨out', e', -, g⟩ := C50_lifting hK hs weight H n hw hH
    rw [e] at e'; cases e'
    rw [g co h ci x hco hh hci hx, hk0 x hk, zero_mul, zero_div]

theorem storedChannel_lt {CO CI co ci : ℕ} (hco : co < CO) (hci : ci < CI) :
    (storedChannel CO CI co ci).1 < CO ∧ (storedChannel CO CI co ci).2 < CI := by
  unfold storedChannel
  refine ⟨?_, Nat.mod_lt _ (by omega)⟩
  rw [Nat.div_lt_iff_lt_mul (by omega)]
  have : (ci + 1) * CO ≤ CI * CO := Nat.mul_le_mul_right _ hci
  rw [Nat.add_mul, Nat.one_mul] at this
  rw [Nat.mul_comm CO CI]
  omega

theorem groupRange_of {K : GroupKernel G d} {inv mul act det m p Good coreH} (hK : Lawful K inv mul act det)
    (hs : PointwiseSampler K.sampleRn K.kernelSize (F.sampleAt m p K.kernelSize)) (hl : K.kernelSize.length = d)
    (h0 : ∀ j ∈ K.kernelSize, 0 < j)
    (hsH : RowwiseSampler K.sampleH K.gridH K.groupKernelDim Good coreH) (hlH : LocalChannel K.groupKernelDim coreH)
    (hpos : 0 < K.groupKernelDim) (hpick : ∀ q, Good q → ∃ k < K.groupKernelDim, ∀ f, coreH f q = f k)
    {Valid : G → Prop} (hv : ∀ g, Valid g → detAt det g = 1 ∨ detAt det g = -1)
    (hgood : ∀ o i, Valid o → Valid i → Good (mul (inv o) i))
    {keep : List ℕ → Prop} (hk1 : ∀ x, keep x → maskAt K.mask x = 1) (hk0 : ∀ x, ¬ keep x → maskAt K.mask x = 0) :
    GroupRange K p Valid (detAt det) keep where
  bounded weight inH outH nIn nOut out hw hin hout hVi hVo e M hM co hco o ho ci hci i hi x hx := by
    obtain ⟨out', e', -, g⟩ := C51_group hK hs (sampleAt_local m p _ hl) hsH hlH hpos weight inH outH nIn nOut hw hin hout
      (fun o ho i hi => hgood _ _ (hVo o ho) (hVi i hi))
    rw [e] at e'; cases e'
    obtain ⟨k, hk, hf⟩ := hpick _ (hgood _ _ (hVo o ho) (hVi i hi))
    have := g co o ci i x hco ho hci hi hx
    simp only [hf] at this
    obtain ⟨c1, c2⟩ := storedChannel_lt hco hci
    refine placed_abs ?_ (hv _ (hVo o ho)) (abs_sampleAt_le m p K.kernelSize hl h0 M _ _ fun r hr => hM k hk _ c1 _ c2 r hr) this
    by_cases hk : keep x
    · exact Or.inr (hk1 x hk)
    · exact Or.inl (hk0 x hk)
  between hp weight inH outH nIn nOut out hw hin hout hVi hVo e A B hAB co hco o ho ci hci i hi x hx hkx := by
    obtain ⟨out', e', -, g⟩ := C51_group hK hs (sampleAt_local m p _ hl) hsH hlH hpos weight inH outH nIn nOut hw hin hout
      (fun o ho i hi => hgood _ _ (hVo o ho) (hVi i hi))
    rw [e] at e'; cases e'
    obtain ⟨k, hk, hf⟩ := hpick _ (hgood _ _ (hVo o ho) (hVi i hi))
    have := g co o ci i x hco ho hci hi hx
    simp only [hf] at this
    obtain ⟨c1, c2⟩ := storedChannel_lt hco hci
    rw [hk1 x hkx] at this
    rw [placed_between (hv _ (hVo o ho)) this]
    exact ⟨le_sampleAt m p _ hl h0 A (Or.inr hp) _ _ fun r hr => (hAB k hk _ c1 _ c2 r hr).1,
      sampleAt_le m p _ hl h0 B (Or.inr hp) _ _ fun r hr => (hAB k hk _ c1 _ c2 r hr).2⟩

end

/-- the nearest-neighbour sampler returns one of the stored values. -/
theorem nn_picks {G : Type} (dist : G → G → ℝ) (g : Tensor G) (K : ℕ) (hs : g.shape.headD 0 = K) (hK : K ≠ 0) (q : G) :
    ∃ k < K, ∀ f, sampleOne (fun q sig g => Interp.interpolateNN dist q g sig) g K f q = f k := by
  have hlt : Interp.nnIdx dist ⟨[1], fun _ => q⟩ g 0 < K := by
    unfold Interp.nnIdx
    rw [hs]
    exact (Interp.topk1_spec K _ hK).1
  refine ⟨Interp.nnIdx dist ⟨[1], fun _ => q⟩ g 0, hlt, fun f => ?_⟩
  unfold sampleOne Interp.interpolateNN
  dsimp only
  rw [if_neg]
  · rfl
  · rintro (h | ⟨-, i, hi, h⟩)
    · rw [hs] at h; exact hK h
    · change i < 1 at hi
      obtain rfl : i = 0 := by omega
      exact absurd hlt (not_lt.2 h)

/-! ## C91 -/

theorem SO2.picks {w : ℝ} {g : Tensor ℝ} {K : ℕ} (hs : g.shape.headD 0 = K) (hK : K ≠ 0) (q : ℝ) :
    ∃ k < K, ∀ f, sampleOne (fun q sig g => SO2.gridSample q sig g "nearest" w) g K f q = f k := by
  have : (fun q sig g => SO2.gridSample q sig g "nearest" w) = fun q sig g => Interp.interpolateNN SO2.dist q g sig := by
    funext q sig g; unfold SO2.gridSample; rw [if_neg (by decide), if_pos rfl]; rfl
  rw [this]
  exact nn_picks _ _ _ hs hK q

theorem SO3.picksQuat {w : ℝ} {g : Tensor SO3.Quat} {K : ℕ} (hs : g.shape.headD 0 = K) (hK : K ≠ 0) (q : SO3.Quat) :
    ∃ k < K, ∀ f, sampleOne (fun q sig g => SO3.gridSampleQuat q sig g "nearest" w) g K f q = f k := by
  have : (fun q sig g => SO3.gridSampleQuat q sig g "nearest" w) = fun q sig g => Interp.interpolateNN SO3.dist q g sig := by
    funext q sig g; unfold SO3.gridSampleQuat; rw [if_pos rfl]; rfl
  rw [this]
  exact nn_picks _ _ _ hs hK q

theorem checkGroups_eq {K K' : GroupKernel G d} {g : ℕ} (h : checkGroups g K = .ok K') : K' = K := by
  unfold checkGroups at h
  by_cases h0 : g = 0
  · rw [if_pos h0] at h; cases h
  · rw [if_neg h0] at h; cases h; rfl

theorem maskR2_zero (s : ℕ) (x : List ℕ) (h : ¬ Functional.Inside ((Functional.createGridR2 s).get x)) :
    (Functional.createSphericalMaskR2 s).get x = 0 := ((Functional.C47_R2 s).2.1 x).2 h

theorem maskR3_zero (s : ℕ) (x : List ℕ) (h : ¬ Functional.Inside ((Functional.createGridR3 s).get x)) :
    (Functional.createSphericalMaskR3 s).get x = 0 := ((Functional.C47_R3 s).2.1 x).2 h

/-- `GLiftingKernelSE2`. -/
theorem C91_SE2 (a : KernelArgs ℝ ℕ) (K : GroupKernel ℝ 2) (hK : KernelSE2.lifting a = .ok K) (hk : 0 < a.kernelSize) {m p}
    (hm : SpatialModes a.spatialMode a.spatialPad m p) :
    LiftingRange K p (fun _ => True) (fun _ => 1) (fun x => Functional.Inside ((Functional.createGridR2 a.kernelSize).get x)) := by
  obtain rfl := checkGroups_eq hK
  exact liftingRange_of (KernelSE2.lawful a _) (KernelSE2.pointwise a _ hm hk) rfl (forall_pair hk)
    (fun _ _ => Or.inl rfl) (fun x h => ((Functional.C47_R2 a.kernelSize).2.1 x).1 h) (fun x h => maskR2_zero _ x h)

/-- `GKernelSE2` with nearest-neighbour sampling on the group. -/
theorem C91_SE2_group (a : KernelArgs ℝ ℕ) (w : ℝ) (h : KernelSE2.Ready a w) (hn : a.groupMode = "nearest") {m p}
    (hm : SpatialModes a.spatialMode a.spatialPad m p) :
    ∃ K, KernelSE2.full a = .ok K ∧
      GroupRange K p (fun _ => True) (fun _ => 1) (fun x => Functional.Inside ((Functional.createGridR2 a.kernelSize).get x)) := by
  refine ⟨_, KernelSE2.full_eq h, ?_⟩
  refine groupRange_of (KernelSE2.lawful a _) (KernelSE2.pointwise a _ hm h.kernel) rfl (forall_pair h.kernel)
    (KernelSE2.rows h).1 (KernelSE2.rows h).2 h.nonempty ?_ (fun _ _ => Or.inl rfl) (fun _ _ _ _ => trivial)
    (fun x h => ((Functional.C47_R2 a.kernelSize).2.1 x).1 h) (fun x h => maskR2_zero _ x h)
  intro q _
  have := SO2.picks (w := w) (g := KernelSE2.grid a) rfl (by have := h.nonempty; omega) q
  rw [← hn] at this
  exact this

theorem flagged_one {b : Bool} {t : Tensor ℝ} {x : List ℕ} {P : Prop} (h1 : P → t.get x = 1) (h : b = true → P) :
    maskAt (if b then some t else none) x = 1 := by
  cases b
  · rfl
  · exact h1 (h rfl)

theorem flagged_zero {b : Bool} {t : Tensor ℝ} {x : List ℕ} {P : Prop} (h0 : ¬ P → t.get x = 0) (h : ¬ (b = true → P)) :
    maskAt (if b then some t else none) x = 0 := by
  cases b
  · exact absurd (fun h => by cases h) h
  · exact h0 (fun hp => h fun _ => hp)

/-- `GLiftingKernelSE3`; without `mask=True` every cell is kept. -/
theorem C91_SE3 (s opt) (a : KernelArgs SO3.Mat3 ℕ) (K : GroupKernel SO3.Mat3 3) (hK : KernelSE3.lifting s opt a = .ok K)
    (hk : 0 < a.kernelSize) {m p} (hm : SpatialModes a.spatialMode a.spatialPad m p) :
    LiftingRange K p (fun _ => True) (fun _ => 1)
      (fun x => a.mask = true → Functional.Inside ((Functional.createGridR3 a.kernelSize).get x)) := by
  unfold KernelSE3.lifting at hK
  obtain ⟨gr, -, hK⟩ := Conv.bind_ok hK
  obtain rfl := checkGroups_eq hK
  exact liftingRange_of (KernelSE3.lawful a gr _) (KernelSE3.pointwise a gr _ hm hk) rfl (forall_triple hk)
    (fun _ _ => Or.inl rfl) (fun x h => flagged_one ((Functional.C47_R3 a.kernelSize).2.1 x).1 h) (fun x h => flagged_zero (maskR3_zero _ x) h)

/-- `GKernelSE3` with nearest-neighbour sampling on the group. -/
theorem C91_SE3_group (s opt) (a : KernelArgs SO3.Mat3 ℕ) (gr) (w : ℝ) (h : KernelSE3.Ready s opt a gr w) (hn : a.groupMode = "nearest") {m p}
    (hm : SpatialModes a.spatialMode a.spatialPad m p) :
    ∃ K, KernelSE3.full s opt a = .ok K ∧
      GroupRange K p (fun _ => True) (fun _ => 1)
        (fun x => a.mask = true → Functional.Inside ((Functional.createGridR3 a.kernelSize).get x)) := by
  refine ⟨_, KernelSE3.full_eq h, ?_⟩
  refine groupRange_of (KernelSE3.lawful a gr _) (KernelSE3.pointwise a gr _ hm h.kernel) rfl (forall_triple h.kernel)
    (KernelSE3.rows h).1 (KernelSE3.rows h).2 (KernelSE3.dim_pos h) ?_ (fun _ _ => Or.inl rfl) (fun _ _ _ _ => trivial)
    (fun x h => flagged_one ((Functional.C47_R3 a.kernelSize).2.1 x).1 h) (fun x h => flagged_zero (maskR3_zero _ x) h)
  intro q _
  obtain ⟨k, hk, hf⟩ := SO3.picksQuat (w := w) (g := gr.map SO3.matrixToQuat) rfl (by have := h.nonempty; show gr.shape.headD 0 ≠ 0; omega) (SO3.matrixToQuat q)
  refine ⟨k, ?_, fun f => ?_⟩
  · show k < [gr.shape.headD 3].sum
    rw [KernelSE3.dim h]
    have hk' : k < gr.shape.headD 0 := hk
    simpa using hk'
  · unfold KernelSE3.value
    rw [hn]
    exact hf f

/-- `GLiftingKernelE2`, for elements with coefficient `±1`; the values at reflections carry the sign of the coefficient. -/
theorem C91_E2 (a : KernelArgs O2.Elt SizeArg) (K : GroupKernel O2.Elt 2) (hK : KernelE2.lifting a = .ok K) (hk : 0 < a.kernelSize) {m p}
    (hm : SpatialModes a.spatialMode a.spatialPad m p) :
    LiftingRange K p (fun g => g.1 = 1 ∨ g.1 = -1) (fun g => g.1)
      (fun x => a.mask = true → Functional.Inside ((Functional.createGridR2 a.kernelSize).get x)) := by
  obtain rfl := checkGroups_eq hK
  exact liftingRange_of (KernelE2.lawful a _) (KernelE2.pointwise a _ hm hk) rfl (forall_pair hk)
    (fun _ h => h) (fun x h => flagged_one ((Functional.C47_R2 a.kernelSize).2.1 x).1 h) (fun x h => flagged_zero (maskR2_zero _ x) h)

/-- the coset-wise nearest-neighbour sampler returns one of the stored values. -/
theorem cosetCore_picks {G Q : Type} {coef : G → ℝ} {rot : G → Q} {samp : ℝ → Tensor Q → Tensor ℝ → Tensor Q → Except PyErr (Tensor ℝ)}
    (gr : Tensor G) (n m : ℕ) (wr wf : ℝ)
    (hR : n ≠ 0 → ∀ q, ∃ k < n, ∀ f, sampleOne (samp wr) ((gr.slice0 0 n).map rot) n f q = f k)
    (hF : m ≠ 0 → ∀ q, ∃ k < m, ∀ f, sampleOne (samp wf) ((gr.drop0 n).map rot) m f q = f k)
    (q : G) (hq : (coef q = 1 ∧ n ≠ 0) ∨ (coef q = -1 ∧ m ≠ 0)) :
    ∃ k < n + m, ∀ f, cosetCore coef rot samp gr n m wr wf f q = f k := by
  rcases hq with ⟨h1, h2⟩ | ⟨h1, h2⟩
  · obtain ⟨k, hk, hf⟩ := hR h2 (rot q)
    refine ⟨k, by omega, fun f => ?_⟩
    unfold cosetCore
    rw [if_pos h1, if_neg h2]
    exact hf f
  · obtain ⟨k, hk, hf⟩ := hF h2 (rot q)
    refine ⟨n + k, by omega, fun f => ?_⟩
    unfold cosetCore
    rw [if_neg (by rw [h1]; norm_num), if_neg h2]
    exact hf fun k => f (n + k)

/-- `GKernelE2` with nearest-neighbour sampling on the group, reference grids with rotations and reflections. -/
theorem C91_E2_group (a : KernelArgs O2.Elt SizeArg) (wr wf : ℝ) (h : KernelE2.Ready a wr wf) (hn : a.groupMode = "nearest")
    (h1 : KernelE2.nRot a ≠ 0) (h2 : KernelE2.nRef a ≠ 0) {m p} (hm : SpatialModes a.spatialMode a.spatialPad m p) :
    ∃ K, KernelE2.full a = .ok K ∧
      GroupRange K p (fun g => g.1 = 1 ∨ g.1 = -1) (fun g => g.1)
        (fun x => a.mask = true → Functional.Inside ((Functional.createGridR2 a.kernelSize).get x)) := by
  refine ⟨_, KernelE2.full_eq h, ?_⟩
  refine groupRange_of (KernelE2.lawful a _) (KernelE2.pointwise a _ hm h.kernel) rfl (forall_pair h.kernel)
    (KernelE2.rows h).1 (KernelE2.rows h).2 h.nonempty ?_ (fun _ h => h) (fun o i ho hi => KernelE2.pair_of_valid a h1 h2 o i ho hi)
    (fun x h => flagged_one ((Functional.C47_R2 a.kernelSize).2.1 x).1 h) (fun x h => flagged_zero (maskR2_zero _ x) h)
  intro q hq
  show ∃ k < [KernelE2.nRot a, KernelE2.nRef a].sum, _
  rw [show [KernelE2.nRot a, KernelE2.nRef a].sum = KernelE2.nRot a + KernelE2.nRef a by simp]
  refine cosetCore_picks _ _ _ _ _ (fun h0 q => ?_) (fun h0 q => ?_) q hq
  · rw [hn]; exact SO2.picks (by rw [(h.solvableR h0).1]) h0 q
  · rw [hn]; exact SO2.picks (by rw [(h.solvableF h0).1]) h0 q

/-- `GLiftingKernelE3`. -/
theorem C91_E3 (s opt1 opt2) (a : KernelArgs O3.Elt SizeArg) (K : GroupKernel O3.Elt 3) (hK : KernelE3.lifting s opt1 opt2 a = .ok K)
    (hk : 0 < a.kernelSize) {m p} (hm : SpatialModes a.spatialMode a.spatialPad m p) :
    LiftingRange K p (fun g => O3.coef g = 1 ∨ O3.coef g = -1) O3.coef
      (fun x => a.mask = true → Functional.Inside ((Functional.createGridR3 a.kernelSize).get x)) := by
  unfold KernelE3.lifting at hK
  obtain ⟨gr, -, hK⟩ := Conv.bind_ok hK
  obtain rfl := checkGroups_eq hK
  exact liftingRange_of (KernelE3.lawful a gr _) (KernelE3.pointwise a gr _ hm hk) rfl (forall_triple hk)
    (fun _ h => h) (fun x h => flagged_one ((Functional.C47_R3 a.kernelSize).2.1 x).1 h) (fun x h => flagged_zero (maskR3_zero _ x) h)

/-- `GKernelE3` with nearest-neighbour sampling on the group, reference grids with rotations and reflections. -/
theorem C91_E3_group (s opt1 opt2) (a : KernelArgs O3.Elt SizeArg) (gr) (wr wf : ℝ) (h : KernelE3.Ready s opt1 opt2 a gr wr wf)
    (hn : a.groupMode = "nearest") (h1 : KernelE3.nRot a ≠ 0) (h2 : KernelE3.nRef a ≠ 0) {m p}
    (hm : SpatialModes a.spatialMode a.spatialPad m p) :
    ∃ K, KernelE3.full s opt1 opt2 a = .ok K ∧
      GroupRange K p O3.Valid O3.coef
        (fun x => a.mask = true → Functional.Inside ((Functional.createGridR3 a.kernelSize).get x)) := by
  refine ⟨_, KernelE3.full_eq h, ?_⟩
  refine groupRange_of (KernelE3.lawful a gr _) (KernelE3.pointwise a gr _ hm h.kernel) rfl (forall_triple h.kernel)
    (KernelE3.rows h).1 (KernelE3.rows h).2 h.nonempty ?_ (fun _ h => h.1) (fun o i ho hi => KernelE3.pair_of_valid a h1 h2 o i ho hi)
    (fun x h => flagged_one ((Functional.C47_R3 a.kernelSize).2.1 x).1 h) (fun x h => flagged_zero (maskR3_zero _ x) h)
  intro q hq
  show ∃ k < [KernelE3.nRot a, KernelE3.nRef a].sum, _
  rw [show [KernelE3.nRot a, KernelE3.nRef a].sum = KernelE3.nRot a + KernelE3.nRef a by simp]
  refine cosetCore_picks _ _ _ _ _ (fun h0 q => ?_) (fun h0 q => ?_) q hq
  · rw [hn]
    exact SO3.picksQuat (g := KernelE3.quats (gr.slice0 0 (KernelE3.nRot a))) (by rw [(h.solvableR h0).1]) h0 (SO3.matrixToQuat q)
  · rw [hn]
    exact SO3.picksQuat (g := KernelE3.quats (gr.drop0 (KernelE3.nRot a))) (by rw [(h.solvableF h0).1]) h0 (SO3.matrixToQuat q)

/-! ## convolutions -/

section
variable {G : Type} {d : ℕ}
open Conv

theorem list_sum_abs_le {α : Type} {l : List α} {F : α → ℝ} {B : ℝ} (h : ∀ x ∈ l, |F x| ≤ B) : |(l.map F).sum| ≤ l.length * B := by
  induction l with
  | nil => simp
  | cons x l ih =>
    simp only [List.map_cons, List.sum_cons, List.length_cons, Nat.cast_add, Nat.cast_one]
    have h1 := abs_add_le (F x) (l.map F).sum
    have h2 := h x (by simp)
    have h3 := ih fun y hy => h y (by simp [hy])
    linarith

theorem sumBox_abs_le {s : List ℕ} {f : List ℕ → ℝ} {B : ℝ} (h : ∀ k, InB s k → |f k| ≤ B) : |sumBox s f| ≤ s.prod * B := by
  unfold sumBox
  have := list_sum_abs_le (l := allIdx s) (F := f) (B := B) fun k hk => h k ((mem_allIdx).1 hk)
  rwa [allIdx_length] at this

theorem corr_abs_le {mode : F.CPad} {ax : List Axis} {S : List ℕ} (hg : GeomOk mode ax S) {f w : List ℕ → ℝ} {o : List ℕ}
    (ho : InB (outDims ax S) o) {M X : ℝ} (hX : 0 ≤ X) (hM : 0 ≤ M) (hf : ∀ q, InB S q → |f q| ≤ X) (hw : ∀ k, InB (kernelDims ax) k → |w k| ≤ M) :
    |corr mode ax S f w o| ≤ (kernelDims ax).prod * (X * M) := by
  unfold corr
  apply sumBox_abs_le
  intro k hk
  rw [abs_mul]
  refine mul_le_mul ?_ (hw k hk) (abs_nonneg _) hX
  unfold extended
  cases e : cellAt mode S (readPos ax o k) with
  | none => simpa using hX
  | some q => exact hf q (cellAt_InB hg ho hk e)

theorem finset_sum_abs_le {n : ℕ} {F : ℕ → ℝ} {B : ℝ} (h : ∀ i < n, |F i| ≤ B) : |∑ i ∈ Finset.range n, F i| ≤ n * B := by
  refine (Finset.abs_sum_le_sum_abs _ _).trans ?_
  have := Finset.sum_le_card_nsmul (Finset.range n) (fun i => |F i|) B fun i hi => h i (Finset.mem_range.1 hi)
  simpa using this

theorem channel_lt {inC outC g co ci : ℕ} (h1 : g ∣ inC) (h2 : g ∣ outC) (h0 : 0 < g) (hco : co < outC) (hci : ci < inC / g) :
    groupStart inC outC g co + ci < inC := by
  obtain ⟨c, rfl⟩ := h1
  obtain ⟨e, rfl⟩ := h2
  unfold groupStart
  rw [Nat.mul_div_cancel_left _ h0] at hci ⊢
  rw [Nat.mul_div_cancel_left _ h0]
  have hlt : co / e < g := Nat.div_lt_of_lt_mul (by rwa [Nat.mul_comm] at hco)
  have := Nat.mul_le_mul_right c (Nat.succ_le_of_lt hlt)
  rw [Nat.succ_mul] at this
  omega

/-- Lifting convolutions of kernels with the range property: with filters bounded by `M` and inputs bounded by `X` the outputs
are bounded by the number of kernel cells and channels that enter, times `X * M`, plus the bias. -/
theorem C91_lifting_layer {a : Args} {mode : F.CPad} {ax : List Axis} (hgeo : HasGeometry a mode ax) {L : Layer}
    (hL : init a (kernelDims ax) = .ok L) {S : List ℕ} (hg : GeomOk mode ax S) {K : GroupKernel G d}
    {p Valid sign keep} (hR : LiftingRange K p Valid sign keep) (hout : K.outC = a.outC) (hin : K.inC / K.groups = a.inC / a.groups.toNat)
    (hks : K.kernelSize = kernelDims ax) (weight w : Tensor ℝ) (hwt : weight.shape = [K.outC, K.inC / K.groups] ++ K.kernelSize)
    (bias : Option (Tensor ℝ)) (N n : ℕ) (input : Tensor ℝ) (H : Tensor G)
    (hH : H.shape = [n]) (hV : ∀ h < n, Valid (H.get [h])) (hpos : 0 < a.inC) (hK : K.liftingForward weight H = .ok w)
    (hw : w.shape = a.outC :: n :: a.inC / a.groups.toNat :: kernelDims ax)
    (hx : input.shape = N :: a.inC :: S) (hb : BiasShape bias a.outC ax.length)
    (M X : ℝ) (hM : ∀ co < a.outC, ∀ ci < a.inC / a.groups.toNat, ∀ r, InB (kernelDims ax) r → |weight.get (co :: ci :: r)| ≤ M)
    (hX0 : 0 ≤ X) (hM0 : 0 ≤ M) (hX : ∀ b < N, ∀ c < a.inC, ∀ q, InB S q → |input.get (b :: c :: q)| ≤ X) :
    ∃ out, L.liftingForward K weight bias input H = .ok (out, H) ∧
      ∀ b co h o, b < N → co < a.outC → h < n → InB (outDims ax S) o →
        |out.get (b :: co :: h :: o)| ≤
          (a.inC / a.groups.toNat : ℕ) * ((kernelDims ax).prod * (X * M)) + |biasAt bias ax.length co| := by
  obtain ⟨out, e, -, g⟩ := C60_lifting hgeo hL hg K weight w bias N n input H hH hpos hK hw hx hb
  refine ⟨out, e, fun b co h o hb' hco hh ho => ?_⟩
  obtain ⟨f1, f2, f3, f4, f5, f6, f7⟩ := init_fields hgeo hL
  rw [f3] at f5 f6 f7
  rw [g b co h o hb' hco hh ho]
  unfold Spec.liftingConv
  refine (abs_add_le _ _).trans (add_le_add_left (finset_sum_abs_le fun ci hci => ?_) _)
  refine corr_abs_le hg ho hX0 hM0 (fun q hq => hX b hb' _ (channel_lt f5 f6 f7 hco hci) q hq) fun k hk => ?_
  refine hR.bounded weight H n w hwt hH hV hK co (by rw [hout]; exact hco) ci (by rw [hin]; exact hci) M (fun r hr => ?_) h hh k
    (by rw [hks]; exact hk)
  exact hM co hco ci hci r (by rw [← hks]; exact hr)

/-- Group convolutions of kernels with the range property. -/
theorem C91_group_layer {a : Args} {mode : F.CPad} {ax : List Axis} (hgeo : HasGeometry a mode ax) {L : Layer}
    (hL : init a (kernelDims ax) = .ok L) {S : List ℕ} (hg : GeomOk mode ax S) {K : GroupKernel G d}
    {p Valid sign keep} (hR : GroupRange K p Valid sign keep) (hout : K.outC = a.outC) (hin : K.inC / K.groups = a.inC / a.groups.toNat)
    (hks : K.kernelSize = kernelDims ax) (weight w : Tensor ℝ)
    (hwt : weight.shape = [K.groupKernelDim, K.outC, K.inC / K.groups] ++ K.kernelSize)
    (bias : Option (Tensor ℝ)) (N m n : ℕ) (input : Tensor ℝ) (inH outH : Tensor G)
    (hi : inH.shape = [m]) (ho : outH.shape = [n]) (hVi : ∀ i < m, Valid (inH.get [i])) (hVo : ∀ h < n, Valid (outH.get [h]))
    (hK : K.forward weight inH outH = .ok w)
    (hw : w.shape = a.outC :: n :: a.inC / a.groups.toNat :: m :: kernelDims ax)
    (hx : input.shape = N :: a.inC :: m :: S) (hb : BiasShape bias a.outC ax.length)
    (M X : ℝ) (hM : ∀ k < K.groupKernelDim, ∀ co < a.outC, ∀ ci < a.inC / a.groups.toNat, ∀ r, InB (kernelDims ax) r →
      |weight.get (k :: co :: ci :: r)| ≤ M)
    (hX0 : 0 ≤ X) (hM0 : 0 ≤ M) (hX : ∀ b < N, ∀ c < a.inC, ∀ i < m, ∀ q, InB S q → |input.get (b :: c :: i :: q)| ≤ X) :
    ∃ out, L.groupForward K weight bias input inH outH = .ok (out, outH) ∧
      ∀ b co h o, b < N → co < a.outC → h < n → InB (outDims ax S) o →
        |out.get (b :: co :: h :: o)| ≤
          (a.inC / a.groups.toNat : ℕ) * (m * ((kernelDims ax).prod * (X * M))) + |biasAt bias ax.length co| := by
  obtain ⟨out, e, -, g⟩ := C61_group hgeo hL hg K weight w bias N m n input inH outH hi ho hK hw hx hb
  refine ⟨out, e, fun b co h o hb' hco hh ho' => ?_⟩
  obtain ⟨f1, f2, f3, f4, f5, f6, f7⟩ := init_fields hgeo hL
  rw [f3] at f5 f6 f7
  rw [g b co h o hb' hco hh ho']
  unfold Spec.groupConv
  refine (abs_add_le _ _).trans (add_le_add_left (finset_sum_abs_le fun ci hci => finset_sum_abs_le fun i hi' => ?_) _)
  refine corr_abs_le hg ho' hX0 hM0 (fun q hq => hX b hb' _ (channel_lt f5 f6 f7 hco hci) i hi' q hq) fun k hk => ?_
  refine hR.bounded weight inH outH m n w hwt hi ho hVi hVo hK M (fun j hj co hco ci hci r hr => ?_) co (by rw [hout]; exact hco) h hh
    ci (by rw [hin]; exact hci) i hi' k (by rw [hks]; exact hk)
  exact hM j hj co (by rw [← hout]; exact hco) ci (by rw [← hin]; exact hci) r (by rw [← hks]; exact hr)

end

/-- A case: with the default padding a constant filter stays constant on all kept cells, at every angle. -/
example (a : KernelArgs ℝ ℕ) (K : GroupKernel ℝ 2) (hK : KernelSE2.lifting a = .ok K) (hk : 0 < a.kernelSize)
    (hm : SpatialModes a.spatialMode a.spatialPad .bilinear .border) (c t : ℝ) (out : Tensor ℝ)
    (h : K.liftingForward ⟨[K.outC, K.inC / K.groups] ++ K.kernelSize, fun _ => c⟩ ⟨[1], fun _ => t⟩ = .ok out)
    (hco : 0 < K.outC) (hci : 0 < K.inC / K.groups) (x : List ℕ) (hx : InB K.kernelSize x)
    (hin : Functional.Inside ((Functional.createGridR2 a.kernelSize).get x)) : out.get (0 :: 0 :: 0 :: x) = c := by
  have := (C91_SE2 a K hK hk hm).between (by decide) _ ⟨[1], fun _ => t⟩ 1 out rfl rfl (fun _ _ => trivial) h 0 hco 0 hci c c
    (fun _ _ => ⟨le_rfl, le_rfl⟩) 0 one_pos x hx hin
  rw [one_mul] at this
  exact le_antisymm this.2 this.1

end GConv

import Verif.Props.Geometry

/-! # C113 for E(2) -/

namespace GConv.Conv

open Tensor Spec

theorem corr_scale (mode : F.CPad) (ax : List Axis) (S : List ℕ) (f w : List ℕ → ℝ) (c : ℝ) (o : List ℕ) :
    corr mode ax S f (fun k => c * w k) o = c * corr mode ax S f w o := by
  unfold corr
  rw [← sumBox_mul]
  exact congrArg (sumBox _) (funext fun k => by ring)

/-- the mask `KernelE2` multiplies with: the circular mask, or none. -/
noncomputable def maskE2 (b : Bool) (k : ℕ) (p : List ℕ) : ℝ := if b then (Functional.createSphericalMaskR2 k).get p else 1

/-- with and without the mask the mean of a coordinate is the middle. -/
theorem maskE2_mean (b : Bool) (k : ℕ) (hk : 3 ≤ k) {i : ℕ} (hi : i < 2) :
    0 < sumBox [k, k] (maskE2 b k) ∧
    2 * sumBox [k, k] (fun p => (p.getD i 0 : ℝ) * maskE2 b k p) = ((k : ℝ) - 1) * sumBox [k, k] (maskE2 b k) := by
  cases b with
  | true => exact mask_mean k hk hi
  | false =>
    have e0 : maskE2 false k = fun _ => 1 := rfl
    rw [e0]
    refine ⟨GConv.Readme.sumBox_pos (x₀ := [0, 0]) (fun _ _ => zero_le_one) (by simp only [InB_cons, InB_nil_nil, and_true]; omega) one_pos, ?_⟩
    have hb := sumBox_bij (halfTurn_bij k) (f := fun p => (k : ℝ) - 1 - p.getD i 0) (g := fun p => (p.getD i 0 : ℝ) * 1) ?_
    · have e : sumBox [k, k] (fun p => (k : ℝ) - 1 - p.getD i 0) =
          ((k : ℝ) - 1) * sumBox [k, k] (fun _ => 1) + (-1) * sumBox [k, k] (fun p => (p.getD i 0 : ℝ) * 1) := by
        rw [← sumBox_mul, ← sumBox_mul, ← sumBox_add]
        exact sumBox_congr fun p _ => by ring
      linarith [hb, e]
    · intro p hp
      show _ = _
      rw [halfTurn_getD _ _ hi]
      have hlt : p.getD i 0 < k := by
        have := (InB_iff.1 hp).2 i (by simpa using hi)
        interval_cases i <;> simpa using this
      have hk' : [k, k].getD i 0 = k := by interval_cases i <;> rfl
      rw [hk', Nat.sub_sub, Nat.cast_sub (by omega)]
      push_cast
      ring

/-- The sum a window of `ramp` gives, for weights whose mean is the middle of the window. -/
theorem ramp_corr' {mode : F.CPad} {ax : List Axis} {s0 s1 k st dl l0 r0 l1 r1 : ℕ} (hax : ax = [⟨k, st, dl, l0, r0⟩, ⟨k, st, dl, l1, r1⟩])
    {i : ℕ} (hi : i < 2) {o : List ℕ} (ho : o.length = 2) (h : WindowInside ax [s0, s1] o) (α β : ℝ) {w : List ℕ → ℝ}
    (hm : 2 * sumBox [k, k] (fun p => (p.getD i 0 : ℝ) * w p) = ((k : ℝ) - 1) * sumBox [k, k] w) :
    corr mode ax [s0, s1] (fun q => α + β * (q.getD i 0 : ℝ)) w o =
      sumBox [k, k] w *
        (α + β * ((o.getD i 0 : ℝ) * st - (if i = 0 then l0 else l1 : ℕ) + (dl : ℝ) * ((k : ℝ) - 1) / 2)) := by
  rw [corr_inside h _ (fun P => α + β * ((P.getD i 0 : ℤ) : ℝ)) (fun q hq => ?_)]
  · have hks : kernelDims ax = [k, k] := by rw [hax]; rfl
    rw [hks]
    have e : sumBox [k, k] (fun p => (α + β * (((readPos ax o p).getD i 0 : ℤ) : ℝ)) * w p) =
        (α + β * ((o.getD i 0 : ℝ) * st - (if i = 0 then l0 else l1 : ℕ))) *
          sumBox [k, k] w +
        β * dl * sumBox [k, k] (fun p => (p.getD i 0 : ℝ) * w p) := by
      rw [← sumBox_mul, ← sumBox_mul, ← sumBox_add]
      refine sumBox_congr fun p hp => ?_
      have hpl : p.length = 2 := (InB_iff.1 hp).1
      rw [readPos_getD ⟨k, st, dl, l0, r0⟩ ax o p (by rw [hax, ho]; rfl) (by rw [hax, hpl]; rfl) i (by rw [hax]; exact hi), hax]
      interval_cases i
      · simp only [List.getD_cons_zero, Axis.pos, if_pos]; push_cast; ring
      · simp only [List.getD_cons_zero, List.getD_cons_succ, Axis.pos, one_ne_zero, if_false]; push_cast; ring
    rw [e]
    linear_combination β * dl / 2 * hm
  · have : ((q.map Int.ofNat).getD i 0 : ℤ) = ((q.getD i 0 : ℕ) : ℤ) := by
      obtain ⟨a, _, rfl, -, hq⟩ := InB_cons_left hq
      obtain ⟨b, _, rfl, -, hq⟩ := InB_cons_left hq
      cases InB_nil_left hq
      interval_cases i <;> rfl
    rw [this]
    push_cast
    rfl

/-- `GLiftingConvE2` (with or without mask) is not equivariant under the half turn (the element `(1, π)`) either when an axis does not
treat its ends alike. -/
theorem C113_E2 (k : KernelArgs O2.Elt SizeArg) (c : ConvOpts) (hk : 3 ≤ k.kernelSize) {m}
    (hm : SpatialModes k.spatialMode k.spatialPad m .border) (hp : c.permute = false)
    {M : Module O2.Elt 2} (hM : liftingE2 k c = .ok M) {mode : F.CPad} {a0 a1 : Axis}
    (hgeo : HasGeometry (argsE2 k c) mode [a0, a1]) {s0 s1 : ℕ} (hS : GeomOk mode [a0, a1] [s0, s1])
    (hin : 0 < k.inC) (hout : 0 < k.outC) (H : Tensor O2.Elt) (n : ℕ) (hn : 0 < n) (hH : H.shape = [n]) (hdet : ∀ h < n, (H.get [h]).1 ≠ 0) (move : O2.Elt → O2.Elt)
    (hne : ¬ EndsAlike a0 s0 ∨ ¬ EndsAlike a1 s1) (o : List ℕ) (ho : InB (outDims [a0, a1] [s0, s1]) o)
    (hw : WindowInside [a0, a1] [s0, s1] o)
    (hw' : WindowInside [a0, a1] [s0, s1] (halfTurn.move LatticeSym.ax2 (outDims [a0, a1] [s0, s1]) o)) :
    ∃ weight x x' out out', weight.shape = [k.outC, k.inC / k.groups, k.kernelSize, k.kernelSize] ∧
      MovedTensor LatticeSym.ax2 halfTurn [1, k.inC] [s0, s1] [s0, s1] x x' ∧
      M.lift move weight none x (some H) = .ok (out, H) ∧
      M.lift move weight none x' (some (H.map (O2.leftApplyAngle (1, Real.pi)))) = .ok (out', H.map (O2.leftApplyAngle (1, Real.pi))) ∧
      ∀ h < n, out'.get ([0, 0, h] ++ halfTurn.move LatticeSym.ax2 (outDims [a0, a1] [s0, s1]) o) ≠ out.get ([0, 0, h] ++ o) := by
  obtain ⟨i, hi, hne⟩ : ∃ i, i < 2 ∧ ¬ EndsAlike ([a0, a1].getD i a0) ([s0, s1].getD i 0) := by
    rcases hne with h | h
    · exact ⟨0, by norm_num, h⟩
    · exact ⟨1, by norm_num, h⟩
  obtain ⟨K, hK, hL, hMK, hMp⟩ := build_ok hM
  have hg0 : 0 < k.groups := Int.natCast_pos.1 (groups_pos hgeo hL)
  have hdvd : k.groups ∣ k.inC := by
    have := (C58_accepts _ _ _ _ hgeo.stride hgeo.dilation).1 ⟨_, hL⟩
    exact Int.natCast_dvd_natCast.1 this.2.2.1
  have hCI : 0 < k.inC / k.groups := Nat.div_pos (Nat.le_of_dvd hin hdvd) hg0
  have hks : kernelDims [a0, a1] = [k.kernelSize, k.kernelSize] := hgeo.kernel.symm
  obtain ⟨hg1, hg2⟩ := (C60_geometry_2d k.inC k.outC k.kernelSize (sizeArg k.groupKernelSize) k.groups c.stride c.padding c.dilation
    c.paddingMode mode [a0, a1])
  obtain ⟨-, hall, -, -⟩ := hg1.1 hgeo
  obtain ⟨q1, q2, q3⟩ := hall a0 (by simp)
  obtain ⟨q4, q5, q6⟩ := hall a1 (by simp)
  set K' := k.kernelSize with hK'
  have hax : [a0, a1] = [⟨K', c.stride, c.dilation, a0.left, a0.right⟩, ⟨K', c.stride, c.dilation, a1.left, a1.right⟩] := by
    rw [← q1, ← q2, ← q3]
    have : a1 = ⟨a0.k, a0.stride, a0.dil, a1.left, a1.right⟩ := by rw [q1, q2, q3, ← q4, ← q5, ← q6]
    rw [← this]
  set weight : Tensor ℝ := ⟨[k.outC, k.inC / k.groups, K', K'], fun _ => 1⟩ with hweight
  obtain ⟨w, out, e1, -, e3, e4⟩ := C60_E2 k c hm hM hgeo hS hin weight rfl none (fun b hb => by cases hb) 1 (ramp k.inC [s0, s1] i) rfl
    (some H) n hH move H (by rw [hp]; rfl)
  obtain ⟨w', out', f1, -, f3, f4⟩ := C60_E2 k c hm hM hgeo hS hin weight rfl none (fun b hb => by cases hb) 1 (ramp' k.inC [s0, s1] i) rfl
    (some (H.map (O2.leftApplyAngle (1, Real.pi)))) n hH move (H.map (O2.leftApplyAngle (1, Real.pi))) (by rw [hp]; rfl)
  refine ⟨weight, _, _, out, out', rfl, ramp_moved k.inC hi, e1, f1, fun h hh => ?_⟩
  have hone : ∀ v : Fin 2 → ℝ, F.sampleAt m .border [K', K'] (fun _ => (1 : ℝ)) v = 1 := fun v => by
    have h0 : ∀ j ∈ [K', K'], 0 < j := forall_pair (by omega)
    exact le_antisymm (sampleAt_le m .border [K', K'] rfl h0 1 (Or.inl zero_le_one) _ v fun _ _ => le_rfl)
      (le_sampleAt m .border [K', K'] rfl h0 1 (Or.inr (by simp)) _ v fun _ _ => le_rfl)
  set γ : ℝ := 1 / (H.get [h]).1 with hγ
  have hγ0 : γ ≠ 0 := one_div_ne_zero (hdet h hh)
  -- both sampled kernels are the mask, divided by the coefficient
  have hol : o.length = 2 := (InB_iff.1 ho).1
  have hmol : (halfTurn.move LatticeSym.ax2 (outDims [a0, a1] [s0, s1]) o).length = 2 := rfl
  have hmo := LatticeSym.move_InB (halfTurn_matches (S := outDims [a0, a1] [s0, s1]) rfl) ho
  set tot := sumBox [K', K'] (maskE2 k.mask K') with htot
  have hpos : 0 < tot := (maskE2_mean k.mask K' hk hi).1
  have hgn : (argsE2 k c).inC / (argsE2 k c).groups.toNat = k.inC / k.groups := rfl
  have hval : ∀ (w : Tensor ℝ) (x : Tensor ℝ) (p : List ℕ) (α β : ℝ), p.length = 2 → InB (outDims [a0, a1] [s0, s1]) p →
      WindowInside [a0, a1] [s0, s1] p →
      (∀ b c q, x.get (b :: c :: q) = α + β * (q.getD i 0 : ℝ)) →
      (∀ ci < k.inC / k.groups, ∀ x < K', ∀ y < K', w.get [0, h, ci, x, y] = γ * maskE2 k.mask K' [x, y]) →
      Spec.liftingConv (argsE2 k c) mode [a0, a1] [s0, s1] x w none 0 0 h p = ((k.inC / k.groups : ℕ) : ℝ) *
        (γ * (tot * (α + β * ((p.getD i 0 : ℝ) * c.stride - (if i = 0 then a0.left else a1.left : ℕ) +
          (c.dilation : ℝ) * ((K' : ℝ) - 1) / 2)))) := by
    intro w x p α β hpl hpo hwin hx hw
    unfold Spec.liftingConv
    rw [hgn]
    show _ + (0 : ℝ) = _
    rw [add_zero, ← ramp_corr' hax hi hpl hwin α β (maskE2_mean k.mask K' hk hi).2, ← corr_scale]
    rw [Finset.sum_congr rfl fun ci hci => ?_, Finset.sum_const, Finset.card_range, nsmul_eq_mul]
    refine corr_congr' hS hpo (fun q _ => hx _ _ q) (fun q hq => ?_)
    rw [hks] at hq
    obtain ⟨u, _, rfl, hu, hq⟩ := InB_cons_left hq
    obtain ⟨v, _, rfl, hv, hq⟩ := InB_cons_left hq
    cases InB_nil_left hq
    exact hw ci (Finset.mem_range.1 hci) u hu v hv
  have hA := e3 0 0 h o Nat.one_pos hout hh ho
  have hB := f3 0 0 h _ Nat.one_pos hout hh hmo
  rw [hval w (ramp k.inC [s0, s1] i) o 0 1 hol ho hw (fun b c q => by
      show ((q.getD i 0 : ℕ) : ℝ) = _; ring) (fun ci hci u hu v hv => by
      rw [e4 0 h ci u v hout hh hci hu hv]
      show _ * F.sampleAt m .border [K', K'] (fun _ => (1 : ℝ)) _ / (H.get [h]).1 = _
      rw [hone, hγ, mul_one, one_div, div_eq_inv_mul]; rfl)] at hA
  rw [hval w' (ramp' k.inC [s0, s1] i) _ (([s0, s1].getD i 0 : ℝ) - 1) (-1) hmol hmo hw' (fun b c q => by
      show (([s0, s1].getD i 0 : ℕ) : ℝ) - 1 - ((q.getD i 0 : ℕ) : ℝ) = _
      ring) (fun ci hci u hu v hv => by
      rw [f4 0 h ci u v hout hh hci hu hv]
      show _ * F.sampleAt m .border [K', K'] (fun _ => (1 : ℝ)) _ / (1 * (H.get [h]).1) = _
      rw [hone, hγ, mul_one, one_mul, one_div, div_eq_inv_mul]; rfl)] at hB
  show out'.get (0 :: 0 :: h :: halfTurn.move LatticeSym.ax2 (outDims [a0, a1] [s0, s1]) o) ≠ out.get (0 :: 0 :: h :: o)
  rw [hA, hB, halfTurn_getD _ _ hi]
  intro heq
  have hCI' : ((k.inC / k.groups : ℕ) : ℝ) ≠ 0 := by exact_mod_cast hCI.ne'
  have heq := mul_left_cancel₀ hpos.ne' (mul_left_cancel₀ hγ0 (mul_left_cancel₀ hCI' heq))
  -- the axis concerned
  obtain ⟨A, hAx, s, hs, hAk, hAst, hAdl, hAl⟩ : ∃ A : Axis, A = [a0, a1].getD i a0 ∧ ∃ s, s = [s0, s1].getD i 0 ∧ A.k = K' ∧
      A.stride = c.stride ∧ A.dil = c.dilation ∧ A.left = (if i = 0 then a0.left else a1.left) := by
    interval_cases i
    · exact ⟨a0, rfl, s0, rfl, q1, q2, q3, rfl⟩
    · exact ⟨a1, rfl, s1, rfl, q4, q5, q6, rfl⟩
  have hAm : A ∈ [a0, a1] := by interval_cases i <;> simp [hAx]
  have hout' : (outDims [a0, a1] [s0, s1]).getD i 0 = A.out s := by interval_cases i <;> rw [hAx, hs] <;> rfl
  have hoi : o.getD i 0 < A.out s := by
    have := (InB_iff.1 ho).2 i (by simpa [outDims] using hi)
    rw [← hout']; exact this
  have hOk : A.Ok mode s := by
    obtain ⟨h1, h2⟩ : A.Ok mode s ∧ True := by
      cases hS with
      | cons h1 h2 => cases h2 with
        | cons h2 _ =>
          refine ⟨?_, trivial⟩
          interval_cases i
          · rw [hAx, hs]; exact h1
          · rw [hAx, hs]; exact h2
    exact h1
  rw [← hs, hout', ← hAl, ← hAst, ← hAdl, ← hAk] at heq
  rw [← hAx, ← hs] at hne
  obtain ⟨g1, g2, g3, g4, -⟩ := hOk
  have hX : A.out s - 1 = (s + A.left + A.right - A.span) / A.stride := by
    unfold Axis.out; exact Nat.add_sub_cancel _ _
  have hdm := Nat.div_add_mod (s + A.left + A.right - A.span) A.stride
  rw [← hX] at hdm
  have hspan : (A.span : ℝ) = A.dil * ((A.k : ℝ) - 1) + 1 := by
    unfold Axis.span
    rw [Nat.cast_add, Nat.cast_mul, Nat.cast_sub (by omega)]; push_cast; ring
  have hcast : (A.stride : ℝ) * ((A.out s - 1 : ℕ) : ℝ) + ((s + A.left + A.right - A.span) % A.stride : ℕ) =
      s + A.left + A.right - A.span := by
    have : ((A.stride * (A.out s - 1) + (s + A.left + A.right - A.span) % A.stride : ℕ) : ℝ) =
        ((s + A.left + A.right - A.span : ℕ) : ℝ) := by exact_mod_cast hdm
    rw [Nat.cast_sub g4] at this
    push_cast at this ⊢
    linarith
  have hmove : ((A.out s - 1 - o.getD i 0 : ℕ) : ℝ) = ((A.out s - 1 : ℕ) : ℝ) - o.getD i 0 := by
    rw [Nat.cast_sub (by omega)]
  rw [hmove] at heq
  have hfin : (((s + A.left + A.right - A.span) % A.stride : ℕ) : ℝ) + A.left - A.right = 0 := by
    rw [hspan] at hcast
    linear_combination heq + hcast
  rcases ends_unlike hgeo hL hAm with h | h
  · refine hne ⟨h, Nat.dvd_of_mod_eq_zero ?_⟩
    rw [h] at hfin
    have : (((s + A.right + A.right - A.span) % A.stride : ℕ) : ℝ) = 0 := by linarith
    rw [h]
    exact_mod_cast this
  · rw [h, Nat.mod_one] at hfin
    refine hne ⟨?_, by rw [h]; exact one_dvd _⟩
    have : (A.left : ℝ) = A.right := by push_cast at hfin; linarith
    exact_mod_cast this

/-- `GLiftingConvE2(4, 6, 5, ..., stride=2)`, no padding, images of 8 x 8 cells: `8 - 5 = 3` is odd. -/
example (n : ℕ) (M : Module O2.Elt 2) (hM : liftingE2 (KernelE2.exArgs n) { stride := 2, permute := false } = .ok M) (H : Tensor O2.Elt)
    (hH : H.shape = [7]) (hd : ∀ h < 7, (H.get [h]).1 = 1 ∨ (H.get [h]).1 = -1) :
    ∃ weight x x' out out', weight.shape = [6, 2, 5, 5] ∧
      MovedTensor LatticeSym.ax2 halfTurn [1, 4] [8, 8] [8, 8] x x' ∧
      M.lift id weight none x (some H) = .ok (out, H) ∧
      M.lift id weight none x' (some (H.map (O2.leftApplyAngle (1, Real.pi)))) = .ok (out', H.map (O2.leftApplyAngle (1, Real.pi))) ∧
      ∀ h < 7, out'.get [0, 0, h, 1, 1] ≠ out.get [0, 0, h, 0, 0] := by
  set o : Axis := ⟨5, 2, 1, 0, 0⟩ with ho
  have hgeo : HasGeometry (argsE2 (KernelE2.exArgs n) { stride := 2, permute := false }) .zeros [o, o] :=
    ⟨Or.inl ⟨rfl, rfl⟩, rfl, rfl, rfl, by show ∀ a ∈ [o, o], a.left = 0 ∧ a.right = 0; simp [ho], Or.inl ⟨rfl, rfl⟩⟩
  have hok : o.Ok .zeros 8 := ⟨by simp [ho], by simp [ho], by simp [ho], by simp [ho, Axis.span], rfl⟩
  have hO : outDims [o, o] [8, 8] = [2, 2] := by simp [outDims, ho, Axis.out, Axis.span]
  have hwin : ∀ a < 2, WindowInside [o, o] [8, 8] [a, a] := by
    intro a ha q hq
    obtain ⟨u, _, rfl, hu, hq⟩ := InB_cons_left hq
    obtain ⟨v, _, rfl, hv, hq⟩ := InB_cons_left hq
    cases InB_nil_left hq
    have hu : u < 5 := hu
    have hv : v < 5 := hv
    refine ⟨[a * 2 + u, a * 2 + v], by simp only [InB_cons, InB_nil_nil, and_true]; omega, ?_⟩
    simp [readPos, Axis.pos, ho]
  obtain ⟨weight, x, x', out, out', h1, h2, h3, h4, h5⟩ := C113_E2 (KernelE2.exArgs n) { stride := 2, permute := false }
    (by norm_num [KernelE2.exArgs]) defaultModes rfl hM hgeo (.cons hok (.cons hok .nil)) (by norm_num [KernelE2.exArgs])
    (by norm_num [KernelE2.exArgs]) H 7 (by norm_num) hH (fun h hh => by rcases hd h hh with e | e <;> rw [e] <;> norm_num) id (Or.inl fun h => by
      have := h.2
      simp [ho, Axis.span] at this) [0, 0] (by rw [hO]; simp) (hwin 0 (by norm_num)) (by rw [hO]; exact hwin 1 (by norm_num))
  rw [hO] at h5
  exact ⟨weight, x, x', out, out', by rw [h1]; simp [KernelE2.exArgs], h2, h3, h4, h5⟩

end GConv.Conv

import Verif.Props.Rotation
import Verif.Props.Range
import Verif.Props.ReadmeRandom

/-! # C113: rotation equivariance needs a symmetric geometry

C64 assumes that both ends of every axis are padded alike and that the stride reaches the last cell exactly.  Without this,
`GLiftingConvSE2` is not equivariant under half turns. -/

namespace GConv.Conv

open Tensor Spec

/-- The half turn. -/
def halfTurn : LatticeSym 2 := ⟨1, ![true, true]⟩

theorem halfTurn_matrix : SO2.angleToMatrix Real.pi = halfTurn.matrix := by
  ext i j
  fin_cases i <;> fin_cases j <;> simp [SO2.angleToMatrix, LatticeSym.matrix, halfTurn]

theorem halfTurn_move (S p : List ℕ) :
    halfTurn.move LatticeSym.ax2 S p = [S.getD 0 0 - 1 - p.getD 0 0, S.getD 1 0 - 1 - p.getD 1 0] := rfl

theorem halfTurn_getD (S p : List ℕ) {i : ℕ} (hi : i < 2) :
    (halfTurn.move LatticeSym.ax2 S p).getD i 0 = S.getD i 0 - 1 - p.getD i 0 := by
  rw [halfTurn_move]
  interval_cases i <;> rfl

theorem halfTurn_matches {S : List ℕ} (h : S.length = 2) : LatticeSym.Matches LatticeSym.ax2 halfTurn S S :=
  ⟨h, h, fun c => by fin_cases c <;> rfl⟩

/-- a correlation that does not read the padding. -/
theorem corr_inside {mode : F.CPad} {ax : List Axis} {S o : List ℕ} (h : WindowInside ax S o) (f : List ℕ → ℝ) (g : List ℤ → ℝ)
    (hfg : ∀ q, InB S q → g (q.map Int.ofNat) = f q) (w : List ℕ → ℝ) :
    corr mode ax S f w o = sumBox (kernelDims ax) fun k => g (readPos ax o k) * w k := by
  unfold corr
  refine sumBox_congr fun k hk => ?_
  obtain ⟨q, hq, e⟩ := h k hk
  unfold extended
  rw [e, cellAt_inside mode hq, hfg q hq]

theorem sumBox_add (s : List ℕ) (f g : List ℕ → ℝ) : sumBox s (fun x => f x + g x) = sumBox s f + sumBox s g := by
  unfold sumBox; rw [List.sum_map_add]

theorem sumBox_mul (s : List ℕ) (c : ℝ) (f : List ℕ → ℝ) : sumBox s (fun x => c * f x) = c * sumBox s f := by
  unfold sumBox; rw [List.sum_map_mul_left]

theorem halfTurn_bij (k : ℕ) : BoxBijection [k, k] [k, k] (halfTurn.move LatticeSym.ax2 [k, k]) := by
  refine ⟨fun p hp => LatticeSym.move_InB (halfTurn_matches rfl) hp, fun p q hp hq h => ?_, fun q hq => ?_⟩
  · obtain ⟨a, _, rfl, ha, hp⟩ := InB_cons_left hp
    obtain ⟨b, _, rfl, hb, hp⟩ := InB_cons_left hp
    cases InB_nil_left hp
    obtain ⟨a', _, rfl, ha', hq⟩ := InB_cons_left hq
    obtain ⟨b', _, rfl, hb', hq⟩ := InB_cons_left hq
    cases InB_nil_left hq
    rw [halfTurn_move, halfTurn_move] at h
    simp only [List.getD_cons_zero, List.getD_cons_succ, List.cons.injEq, and_true] at h ⊢
    omega
  · obtain ⟨a', _, rfl, ha', hq⟩ := InB_cons_left hq
    obtain ⟨b', _, rfl, hb', hq⟩ := InB_cons_left hq
    cases InB_nil_left hq
    refine ⟨[k - 1 - a', k - 1 - b'], by simp only [InB_cons, InB_nil_nil, and_true]; omega, ?_⟩
    rw [halfTurn_move]
    simp only [List.getD_cons_zero, List.getD_cons_succ, List.cons.injEq, and_true]
    omega

/-- the circular mask is symmetric: the mean of a coordinate over the mask is the middle. -/
theorem mask_mean (k : ℕ) (hk : 3 ≤ k) {i : ℕ} (hi : i < 2) :
    0 < sumBox [k, k] (fun p => (Functional.createSphericalMaskR2 k).get p) ∧
    2 * sumBox [k, k] (fun p => (p.getD i 0 : ℝ) * (Functional.createSphericalMaskR2 k).get p) =
      ((k : ℝ) - 1) * sumBox [k, k] (fun p => (Functional.createSphericalMaskR2 k).get p) := by
  have h01 : ∀ p, (Functional.createSphericalMaskR2 k).get p = 1 ∨ (Functional.createSphericalMaskR2 k).get p = 0 := fun p => by
    by_cases h : Functional.Inside ((Functional.createGridR2 k).get p)
    · exact Or.inl (((Functional.C47_R2 k).2.1 p).1 h)
    · exact Or.inr (((Functional.C47_R2 k).2.1 p).2 h)
  refine ⟨?_, ?_⟩
  · obtain ⟨p, hp, h⟩ := (Functional.C48_support_partial k hk).2
    refine GConv.Readme.sumBox_pos (fun q _ => ?_) hp (by rw [h]; exact one_pos)
    rcases h01 q with h | h <;> rw [h] <;> norm_num
  · have hb := sumBox_bij (halfTurn_bij k) (f := fun p => ((k : ℝ) - 1 - p.getD i 0) * (Functional.createSphericalMaskR2 k).get p)
      (g := fun p => (p.getD i 0 : ℝ) * (Functional.createSphericalMaskR2 k).get p) ?_
    · have e : sumBox [k, k] (fun p => ((k : ℝ) - 1 - p.getD i 0) * (Functional.createSphericalMaskR2 k).get p) =
          ((k : ℝ) - 1) * sumBox [k, k] (fun p => (Functional.createSphericalMaskR2 k).get p) +
            (-1) * sumBox [k, k] (fun p => (p.getD i 0 : ℝ) * (Functional.createSphericalMaskR2 k).get p) := by
        rw [← sumBox_mul, ← sumBox_mul, ← sumBox_add]
        exact sumBox_congr fun p _ => by ring
      linarith [hb, e]
    · intro p hp
      rw [(Functional.C47_R2 k).2.2 (by omega) halfTurn p hp, halfTurn_getD _ _ hi]
      have hlt : p.getD i 0 < k := by
        have := (InB_iff.1 hp).2 i (by simpa using hi)
        interval_cases i <;> simpa using this
      have hk' : [k, k].getD i 0 = k := by interval_cases i <;> rfl
      rw [hk', Nat.sub_sub, Nat.cast_sub (by omega)]
      push_cast
      ring

/-- The images of the counterexample: row (or column) number `axis i`, and the same image after the half turn. -/
noncomputable def ramp (inC : ℕ) (S : List ℕ) (i : ℕ) : Tensor ℝ := ⟨1 :: inC :: S, fun p => ((p.drop 2).getD i 0 : ℝ)⟩

/-- see `ramp`. -/
noncomputable def ramp' (inC : ℕ) (S : List ℕ) (i : ℕ) : Tensor ℝ :=
  ⟨1 :: inC :: S, fun p => (S.getD i 0 : ℝ) - 1 - ((p.drop 2).getD i 0 : ℝ)⟩

theorem ramp_moved (inC : ℕ) {s0 s1 i : ℕ} (hi : i < 2) :
    MovedTensor LatticeSym.ax2 halfTurn [1, inC] [s0, s1] [s0, s1] (ramp inC [s0, s1] i) (ramp' inC [s0, s1] i) := by
  refine ⟨rfl, rfl, fun p q hp hq => ?_⟩
  obtain ⟨b, _, rfl, hb, hp⟩ := InB_cons_left hp
  obtain ⟨c, _, rfl, hc, hp⟩ := InB_cons_left hp
  cases InB_nil_left hp
  show (([s0, s1].getD i 0 : ℕ) : ℝ) - 1 - (((halfTurn.move LatticeSym.ax2 [s0, s1] q).getD i 0 : ℕ) : ℝ) = ((q.getD i 0 : ℕ) : ℝ)
  have hlt := (InB_iff.1 hq).2 i (by simpa using hi)
  have hlt : q.getD i 0 < [s0, s1].getD i 0 := hlt
  rw [halfTurn_getD _ _ hi, Nat.sub_sub, Nat.cast_sub (by omega)]
  push_cast
  ring

/-- the sum a window of `ramp` gives. -/
theorem ramp_corr {mode : F.CPad} {ax : List Axis} {s0 s1 k st dl l0 r0 l1 r1 : ℕ} (hax : ax = [⟨k, st, dl, l0, r0⟩, ⟨k, st, dl, l1, r1⟩])
    (hk : 3 ≤ k) {i : ℕ} (hi : i < 2) {o : List ℕ} (ho : o.length = 2) (h : WindowInside ax [s0, s1] o) (α β : ℝ) :
    corr mode ax [s0, s1] (fun q => α + β * (q.getD i 0 : ℝ)) (fun p => (Functional.createSphericalMaskR2 k).get p) o =
      sumBox [k, k] (fun p => (Functional.createSphericalMaskR2 k).get p) *
        (α + β * ((o.getD i 0 : ℝ) * st - (if i = 0 then l0 else l1 : ℕ) + (dl : ℝ) * ((k : ℝ) - 1) / 2)) := by
  obtain ⟨-, hm⟩ := mask_mean k hk hi
  rw [corr_inside h _ (fun P => α + β * ((P.getD i 0 : ℤ) : ℝ)) (fun q hq => ?_)]
  · have hks : kernelDims ax = [k, k] := by rw [hax]; rfl
    rw [hks]
    have e : sumBox [k, k] (fun p => (α + β * (((readPos ax o p).getD i 0 : ℤ) : ℝ)) * (Functional.createSphericalMaskR2 k).get p) =
        (α + β * ((o.getD i 0 : ℝ) * st - (if i = 0 then l0 else l1 : ℕ))) *
          sumBox [k, k] (fun p => (Functional.createSphericalMaskR2 k).get p) +
        β * dl * sumBox [k, k] (fun p => (p.getD i 0 : ℝ) * (Functional.createSphericalMaskR2 k).get p) := by
      rw [← sumBox_mul, ← sumBox_mul, ← sumBox_add]
      refine sumBox_congr fun p hp => ?_
      have hpl : p.length = 2 := (InB_iff.1 hp).1
      rw [readPos_getD ⟨k, st, dl, l0, r0⟩ ax o p (by rw [hax, ho]; rfl) (by rw [hax, hpl]; rfl) i (by rw [hax]; exact hi), hax]
      interval_cases i
      · simp only [List.getD_cons_zero, Axis.pos, if_pos]; push_cast; ring
      · simp only [List.getD_cons_zero, List.getD_cons_succ, Axis.pos, one_ne_zero, if_false]; push_cast; ring
    rw [e]
    linear_combination β * dl / 2 * hm
  · have : ((q.map Int.ofNat).getD i 0 : ℤ) = ((q.getD i 0 : ℕ) : ℤ) := by
      obtain ⟨a, _, rfl, -, hq⟩ := InB_cons_left hq
      obtain ⟨b, _, rfl, -, hq⟩ := InB_cons_left hq
      cases InB_nil_left hq
      interval_cases i <;> rfl
    rw [this]
    push_cast
    rfl

/-- One axis treats both ends alike: the same padding on both sides, and the stride reaches the last cell of the padded signal. -/
def EndsAlike (x : Axis) (s : ℕ) : Prop := x.left = x.right ∧ x.stride ∣ s + x.left + x.right - x.span

/-- the padding of a layer differs at the two ends of an axis only for `'same'`, and then the stride is 1. -/
theorem ends_unlike {a : Args} {mode : F.CPad} {ax : List Axis} (hgeo : HasGeometry a mode ax) {L : Layer} {ks : List ℕ}
    (hL : init a ks = .ok L) {x : Axis} (hx : x ∈ ax) : x.left = x.right ∨ x.stride = 1 := by
  have ha := (C58_accepts a _ _ _ hgeo.stride hgeo.dilation).1 ⟨L, hL⟩
  have hP := hgeo.padding
  unfold PadsAs at hP
  cases hp : a.padding with
  | str t =>
    rw [hp] at hP
    rcases hP with ⟨rfl, -⟩ | ⟨-, h⟩
    · rcases ha.2.2.2.2.1 "same" hp with h | ⟨-, h⟩
      · exact absurd h (by decide)
      · exact Or.inr (h _ hgeo.stride _ (List.mem_map.2 ⟨x, hx, rfl⟩))
    · exact Or.inl ((h x hx).1.trans (h x hx).2.symm)
  | int p =>
    rw [hp] at hP
    exact Or.inl ((hP x hx).1.trans (hP x hx).2.symm)
  | tuple l =>
    rw [hp] at hP
    obtain ⟨h1, h2⟩ := hP
    have h := h1.symm.trans h2
    exact Or.inl (List.map_inj_left.1 h x hx)

/-- `GLiftingConvSE2` with any grid, stride, dilation and padding: if some axis does not treat its ends alike, there are weights and an image
whose outputs for the image and for the image after a half turn (and the group elements multiplied with this half turn) do not agree, not even at
an output cell `o` whose window, like that of its mirror image, stays inside the image. -/
theorem C113_SE2 (k : KernelArgs ℝ ℕ) (c : ConvOpts) (hk : 3 ≤ k.kernelSize) {m}
    (hm : SpatialModes k.spatialMode k.spatialPad m .border) (hp : c.permute = false)
    {M : Module ℝ 2} (hM : liftingSE2 k c = .ok M) {mode : F.CPad} {a0 a1 : Axis}
    (hgeo : HasGeometry (argsSE2 k c) mode [a0, a1]) {s0 s1 : ℕ} (hS : GeomOk mode [a0, a1] [s0, s1])
    (hin : 0 < k.inC) (hout : 0 < k.outC) (H : Tensor ℝ) (n : ℕ) (hn : 0 < n) (hH : H.shape = [n]) (move : ℝ → ℝ)
    (hne : ¬ EndsAlike a0 s0 ∨ ¬ EndsAlike a1 s1) (o : List ℕ) (ho : InB (outDims [a0, a1] [s0, s1]) o)
    (hw : WindowInside [a0, a1] [s0, s1] o)
    (hw' : WindowInside [a0, a1] [s0, s1] (halfTurn.move LatticeSym.ax2 (outDims [a0, a1] [s0, s1]) o)) :
    ∃ weight x x' out out', weight.shape = [k.outC, k.inC / k.groups, k.kernelSize, k.kernelSize] ∧
      MovedTensor LatticeSym.ax2 halfTurn [1, k.inC] [s0, s1] [s0, s1] x x' ∧
      M.lift move weight none x (some H) = .ok (out, H) ∧
      M.lift move weight none x' (some (H.map (SO2.leftApplyAngle Real.pi))) = .ok (out', H.map (SO2.leftApplyAngle Real.pi)) ∧
      ∀ h < n, out'.get ([0, 0, h] ++ halfTurn.move LatticeSym.ax2 (outDims [a0, a1] [s0, s1]) o) ≠ out.get ([0, 0, h] ++ o) := by
  obtain ⟨i, hi, hne⟩ : ∃ i, i < 2 ∧ ¬ EndsAlike ([a0, a1].getD i a0) ([s0, s1].getD i 0) := by
    rcases hne with h | h
    · exact ⟨0, by norm_num, h⟩
    · exact ⟨1, by norm_num, h⟩
  obtain ⟨K, hK, hL, hMK, hMp⟩ := build_ok hM
  have hg0 : 0 < k.groups := Int.natCast_pos.1 (groups_pos hgeo hL)
  have hdvd : k.groups ∣ k.inC := by
    have := (C58_accepts _ _ _ _ hgeo.stride hgeo.dilation).1 ⟨_, hL⟩
    exact Int.natCast_dvd_natCast.1 this.2.2.1
  have hCI : 0 < k.inC / k.groups := Nat.div_pos (Nat.le_of_dvd hin hdvd) hg0
  have hks : kernelDims [a0, a1] = [k.kernelSize, k.kernelSize] := hgeo.kernel.symm
  obtain ⟨hg1, hg2⟩ := (C60_geometry_2d k.inC k.outC k.kernelSize (.int k.groupKernelSize) k.groups c.stride c.padding c.dilation
    c.paddingMode mode [a0, a1])
  obtain ⟨-, hall, -, -⟩ := hg1.1 hgeo
  obtain ⟨q1, q2, q3⟩ := hall a0 (by simp)
  obtain ⟨q4, q5, q6⟩ := hall a1 (by simp)
  set K' := k.kernelSize with hK'
  have hax : [a0, a1] = [⟨K', c.stride, c.dilation, a0.left, a0.right⟩, ⟨K', c.stride, c.dilation, a1.left, a1.right⟩] := by
    rw [← q1, ← q2, ← q3]
    have : a1 = ⟨a0.k, a0.stride, a0.dil, a1.left, a1.right⟩ := by rw [q1, q2, q3, ← q4, ← q5, ← q6]
    rw [← this]
  set weight : Tensor ℝ := ⟨[k.outC, k.inC / k.groups, K', K'], fun _ => 1⟩ with hweight
  obtain ⟨w, out, e1, -, e3, e4⟩ := C60_SE2 k c hm hM hgeo hS hin weight rfl none (fun b hb => by cases hb) 1 (ramp k.inC [s0, s1] i) rfl
    (some H) n hH move H (by rw [hp]; rfl)
  obtain ⟨w', out', f1, -, f3, f4⟩ := C60_SE2 k c hm hM hgeo hS hin weight rfl none (fun b hb => by cases hb) 1 (ramp' k.inC [s0, s1] i) rfl
    (some (H.map (SO2.leftApplyAngle Real.pi))) n hH move (H.map (SO2.leftApplyAngle Real.pi)) (by rw [hp]; rfl)
  refine ⟨weight, _, _, out, out', rfl, ramp_moved k.inC hi, e1, f1, fun h hh => ?_⟩
  have hone : ∀ v : Fin 2 → ℝ, F.sampleAt m .border [K', K'] (fun _ => (1 : ℝ)) v = 1 := fun v => by
    have h0 : ∀ j ∈ [K', K'], 0 < j := forall_pair (by omega)
    exact le_antisymm (sampleAt_le m .border [K', K'] rfl h0 1 (Or.inl zero_le_one) _ v fun _ _ => le_rfl)
      (le_sampleAt m .border [K', K'] rfl h0 1 (Or.inr (by simp)) _ v fun _ _ => le_rfl)
  -- both sampled kernels are the mask
  have hol : o.length = 2 := (InB_iff.1 ho).1
  have hmol : (halfTurn.move LatticeSym.ax2 (outDims [a0, a1] [s0, s1]) o).length = 2 := rfl
  have hmo := LatticeSym.move_InB (halfTurn_matches (S := outDims [a0, a1] [s0, s1]) rfl) ho
  set tot := sumBox [K', K'] (fun p => (Functional.createSphericalMaskR2 K').get p) with htot
  have hpos : 0 < tot := (mask_mean K' hk hi).1
  have hgn : (argsSE2 k c).inC / (argsSE2 k c).groups.toNat = k.inC / k.groups := rfl
  have hval : ∀ (w : Tensor ℝ) (x : Tensor ℝ) (p : List ℕ) (α β : ℝ), p.length = 2 → InB (outDims [a0, a1] [s0, s1]) p →
      WindowInside [a0, a1] [s0, s1] p →
      (∀ b c q, x.get (b :: c :: q) = α + β * (q.getD i 0 : ℝ)) →
      (∀ ci < k.inC / k.groups, ∀ x < K', ∀ y < K', w.get [0, h, ci, x, y] = (Functional.createSphericalMaskR2 K').get [x, y]) →
      Spec.liftingConv (argsSE2 k c) mode [a0, a1] [s0, s1] x w none 0 0 h p = ((k.inC / k.groups : ℕ) : ℝ) *
        (tot * (α + β * ((p.getD i 0 : ℝ) * c.stride - (if i = 0 then a0.left else a1.left : ℕ) +
          (c.dilation : ℝ) * ((K' : ℝ) - 1) / 2))) := by
    intro w x p α β hpl hpo hwin hx hw
    unfold Spec.liftingConv
    rw [hgn]
    show _ + (0 : ℝ) = _
    rw [add_zero, ← ramp_corr hax hk hi hpl hwin α β]
    rw [Finset.sum_congr rfl fun ci hci => ?_, Finset.sum_const, Finset.card_range, nsmul_eq_mul]
    refine corr_congr' hS hpo (fun q _ => hx _ _ q) (fun q hq => ?_)
    rw [hks] at hq
    obtain ⟨u, _, rfl, hu, hq⟩ := InB_cons_left hq
    obtain ⟨v, _, rfl, hv, hq⟩ := InB_cons_left hq
    cases InB_nil_left hq
    exact hw ci (Finset.mem_range.1 hci) u hu v hv
  have hA := e3 0 0 h o Nat.one_pos hout hh ho
  have hB := f3 0 0 h _ Nat.one_pos hout hh hmo
  rw [hval w (ramp k.inC [s0, s1] i) o 0 1 hol ho hw (fun b c q => by
      show ((q.getD i 0 : ℕ) : ℝ) = _; ring) (fun ci hci u hu v hv => by
      rw [e4 0 h ci u v hout hh hci hu hv]
      show _ * F.sampleAt m .border [K', K'] (fun _ => (1 : ℝ)) _ = _
      rw [hone, mul_one])] at hA
  rw [hval w' (ramp' k.inC [s0, s1] i) _ (([s0, s1].getD i 0 : ℝ) - 1) (-1) hmol hmo hw' (fun b c q => by
      show (([s0, s1].getD i 0 : ℕ) : ℝ) - 1 - ((q.getD i 0 : ℕ) : ℝ) = _
      ring) (fun ci hci u hu v hv => by
      rw [f4 0 h ci u v hout hh hci hu hv]
      show _ * F.sampleAt m .border [K', K'] (fun _ => (1 : ℝ)) _ = _
      rw [hone, mul_one])] at hB
  show out'.get (0 :: 0 :: h :: halfTurn.move LatticeSym.ax2 (outDims [a0, a1] [s0, s1]) o) ≠ out.get (0 :: 0 :: h :: o)
  rw [hA, hB, halfTurn_getD _ _ hi]
  intro heq
  have hCI' : ((k.inC / k.groups : ℕ) : ℝ) ≠ 0 := by exact_mod_cast hCI.ne'
  have heq := mul_left_cancel₀ hpos.ne' (mul_left_cancel₀ hCI' heq)
  -- the axis concerned
  obtain ⟨A, hAx, s, hs, hAk, hAst, hAdl, hAl⟩ : ∃ A : Axis, A = [a0, a1].getD i a0 ∧ ∃ s, s = [s0, s1].getD i 0 ∧ A.k = K' ∧
      A.stride = c.stride ∧ A.dil = c.dilation ∧ A.left = (if i = 0 then a0.left else a1.left) := by
    interval_cases i
    · exact ⟨a0, rfl, s0, rfl, q1, q2, q3, rfl⟩
    · exact ⟨a1, rfl, s1, rfl, q4, q5, q6, rfl⟩
  have hAm : A ∈ [a0, a1] := by interval_cases i <;> simp [hAx]
  have hout' : (outDims [a0, a1] [s0, s1]).getD i 0 = A.out s := by interval_cases i <;> rw [hAx, hs] <;> rfl
  have hoi : o.getD i 0 < A.out s := by
    have := (InB_iff.1 ho).2 i (by simpa [outDims] using hi)
    rw [← hout']; exact this
  have hOk : A.Ok mode s := by
    obtain ⟨h1, h2⟩ : A.Ok mode s ∧ True := by
      cases hS with
      | cons h1 h2 => cases h2 with
        | cons h2 _ =>
          refine ⟨?_, trivial⟩
          interval_cases i
          · rw [hAx, hs]; exact h1
          · rw [hAx, hs]; exact h2
    exact h1
  rw [← hs, hout', ← hAl, ← hAst, ← hAdl, ← hAk] at heq
  rw [← hAx, ← hs] at hne
  obtain ⟨g1, g2, g3, g4, -⟩ := hOk
  have hX : A.out s - 1 = (s + A.left + A.right - A.span) / A.stride := by
    unfold Axis.out; exact Nat.add_sub_cancel _ _
  have hdm := Nat.div_add_mod (s + A.left + A.right - A.span) A.stride
  rw [← hX] at hdm
  have hspan : (A.span : ℝ) = A.dil * ((A.k : ℝ) - 1) + 1 := by
    unfold Axis.span
    rw [Nat.cast_add, Nat.cast_mul, Nat.cast_sub (by omega)]; push_cast; ring
  have hcast : (A.stride : ℝ) * ((A.out s - 1 : ℕ) : ℝ) + ((s + A.left + A.right - A.span) % A.stride : ℕ) =
      s + A.left + A.right - A.span := by
    have : ((A.stride * (A.out s - 1) + (s + A.left + A.right - A.span) % A.stride : ℕ) : ℝ) =
        ((s + A.left + A.right - A.span : ℕ) : ℝ) := by exact_mod_cast hdm
    rw [Nat.cast_sub g4] at this
    push_cast at this ⊢
    linarith
  have hmove : ((A.out s - 1 - o.getD i 0 : ℕ) : ℝ) = ((A.out s - 1 : ℕ) : ℝ) - o.getD i 0 := by
    rw [Nat.cast_sub (by omega)]
  rw [hmove] at heq
  have hfin : (((s + A.left + A.right - A.span) % A.stride : ℕ) : ℝ) + A.left - A.right = 0 := by
    rw [hspan] at hcast
    linear_combination heq + hcast
  rcases ends_unlike hgeo hL hAm with h | h
  · refine hne ⟨h, Nat.dvd_of_mod_eq_zero ?_⟩
    rw [h] at hfin
    have : (((s + A.right + A.right - A.span) % A.stride : ℕ) : ℝ) = 0 := by linarith
    rw [h]
    exact_mod_cast this
  · rw [h, Nat.mod_one] at hfin
    refine hne ⟨?_, by rw [h]; exact one_dvd _⟩
    have : (A.left : ℝ) = A.right := by push_cast at hfin; linarith
    exact_mod_cast this

/-- `GLiftingConvSE2(4, 6, 5, ..., stride=2)`, no padding, images of 8 x 8 cells: `8 - 5 = 3` is odd. -/
example (n : ℕ) (M : Module ℝ 2) (hM : liftingSE2 (KernelSE2.exArgs n) { stride := 2, permute := false } = .ok M) (H : Tensor ℝ)
    (hH : H.shape = [7]) :
    ∃ weight x x' out out', weight.shape = [6, 2, 5, 5] ∧
      MovedTensor LatticeSym.ax2 halfTurn [1, 4] [8, 8] [8, 8] x x' ∧
      M.lift id weight none x (some H) = .ok (out, H) ∧
      M.lift id weight none x' (some (H.map (SO2.leftApplyAngle Real.pi))) = .ok (out', H.map (SO2.leftApplyAngle Real.pi)) ∧
      ∀ h < 7, out'.get [0, 0, h, 1, 1] ≠ out.get [0, 0, h, 0, 0] := by
  set o : Axis := ⟨5, 2, 1, 0, 0⟩ with ho
  have hgeo : HasGeometry (argsSE2 (KernelSE2.exArgs n) { stride := 2, permute := false }) .zeros [o, o] :=
    ⟨Or.inl ⟨rfl, rfl⟩, rfl, rfl, rfl, by show ∀ a ∈ [o, o], a.left = 0 ∧ a.right = 0; simp [ho], Or.inl ⟨rfl, rfl⟩⟩
  have hok : o.Ok .zeros 8 := ⟨by simp [ho], by simp [ho], by simp [ho], by simp [ho, Axis.span], rfl⟩
  have hO : outDims [o, o] [8, 8] = [2, 2] := by simp [outDims, ho, Axis.out, Axis.span]
  have hwin : ∀ a < 2, WindowInside [o, o] [8, 8] [a, a] := by
    intro a ha q hq
    obtain ⟨u, _, rfl, hu, hq⟩ := InB_cons_left hq
    obtain ⟨v, _, rfl, hv, hq⟩ := InB_cons_left hq
    cases InB_nil_left hq
    have hu : u < 5 := hu
    have hv : v < 5 := hv
    refine ⟨[a * 2 + u, a * 2 + v], by simp only [InB_cons, InB_nil_nil, and_true]; omega, ?_⟩
    simp [readPos, Axis.pos, ho]
  obtain ⟨weight, x, x', out, out', h1, h2, h3, h4, h5⟩ := C113_SE2 (KernelSE2.exArgs n) { stride := 2, permute := false }
    (by norm_num [KernelSE2.exArgs]) defaultModes rfl hM hgeo (.cons hok (.cons hok .nil)) (by norm_num [KernelSE2.exArgs])
    (by norm_num [KernelSE2.exArgs]) H 7 (by norm_num) hH id (Or.inl fun h => by
      have := h.2
      simp [ho, Axis.span] at this) [0, 0] (by rw [hO]; simp) (hwin 0 (by norm_num)) (by rw [hO]; exact hwin 1 (by norm_num))
  rw [hO] at h5
  exact ⟨weight, x, x', out, out', by rw [h1]; simp [KernelSE2.exArgs], h2, h3, h4, h5⟩

/-- An even kernel with `padding='same'`: `GLiftingConvSE2(1, 1, 4, ..., padding='same')` on images of 9 x 9 cells. -/
example (M : Module ℝ 2) (hM : liftingSE2 { inC := 1, outC := 1, kernelSize := 4, groupKernelSize := 4 }
      { padding := .str "same", permute := false } = .ok M) (H : Tensor ℝ) (hH : H.shape = [7]) :
    ∃ weight x x' out out', weight.shape = [1, 1, 4, 4] ∧
      MovedTensor LatticeSym.ax2 halfTurn [1, 1] [9, 9] [9, 9] x x' ∧
      M.lift id weight none x (some H) = .ok (out, H) ∧
      M.lift id weight none x' (some (H.map (SO2.leftApplyAngle Real.pi))) = .ok (out', H.map (SO2.leftApplyAngle Real.pi)) ∧
      ∀ h < 7, out'.get [0, 0, h, 4, 4] ≠ out.get [0, 0, h, 4, 4] := by
  set o : Axis := ⟨4, 1, 1, 1, 2⟩ with ho
  have hgeo : HasGeometry (argsSE2 { inC := 1, outC := 1, kernelSize := 4, groupKernelSize := 4 }
      { padding := .str "same", permute := false }) .zeros [o, o] := by
    refine ⟨Or.inl ⟨rfl, rfl⟩, rfl, rfl, rfl, Or.inl ⟨rfl, ?_⟩, Or.inl ⟨rfl, rfl⟩⟩
    simp [ho]
  have hok : o.Ok .zeros 9 := ⟨by simp [ho], by simp [ho], by simp [ho], by simp [ho, Axis.span], rfl⟩
  have hO : outDims [o, o] [9, 9] = [9, 9] := by simp [outDims, ho, Axis.out, Axis.span]
  have hwin : WindowInside [o, o] [9, 9] [4, 4] := by
    intro q hq
    obtain ⟨u, _, rfl, hu, hq⟩ := InB_cons_left hq
    obtain ⟨v, _, rfl, hv, hq⟩ := InB_cons_left hq
    cases InB_nil_left hq
    have hu : u < 4 := hu
    have hv : v < 4 := hv
    refine ⟨[3 + u, 3 + v], by simp only [InB_cons, InB_nil_nil, and_true]; omega, ?_⟩
    simp [readPos, Axis.pos, ho]
    omega
  obtain ⟨weight, x, x', out, out', h1, h2, h3, h4, h5⟩ := C113_SE2 { inC := 1, outC := 1, kernelSize := 4, groupKernelSize := 4 }
    { padding := .str "same", permute := false } (by norm_num) defaultModes rfl hM hgeo (.cons hok (.cons hok .nil)) (by norm_num)
    (by norm_num) H 7 (by norm_num) hH id (Or.inl fun h => by
      have := h.1
      simp [ho] at this) [4, 4] (by rw [hO]; simp) hwin (by rw [hO]; exact hwin)
  rw [hO] at h5
  exact ⟨weight, x, x', out, out', by rw [h1]; simp, h2, h3, h4, h5⟩

end GConv.Conv

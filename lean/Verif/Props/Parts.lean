import Verif.Props.Reorder
import Verif.Props.Usable
import Verif.Spec.Parts

/-! # C109: the output of a group convolution is the sum of the contributions of the single group elements -/

namespace GConv.Conv

open Tensor Spec GroupKernel

variable {G : Type} {d : ℕ}

/-- any layer with a kernel whose entries depend only on the pair of group elements they stand for. -/
theorem C109_group {a : Args} {mode : F.CPad} {ax : List Axis} (hgeo : HasGeometry a mode ax) {L : Layer}
    (hL : init a (kernelDims ax) = .ok L) {S : List ℕ} (hg : GeomOk mode ax S)
    {K : GroupKernel G d} {Pair : G → G → Prop} (hK : GroupLocal K Pair)
    (ho : K.outC = a.outC) (hi : K.inC / K.groups = a.inC / a.groups.toNat) (hk : K.kernelSize = kernelDims ax)
    (weight : Tensor ℝ) (hw : weight.shape = [K.groupKernelDim, K.outC, K.inC / K.groups] ++ K.kernelSize)
    (bias : Option (Tensor ℝ)) (hb : BiasShape bias a.outC ax.length) (N m n : ℕ) (x : Tensor ℝ)
    (inH outH : Tensor G) (hin : inH.shape = [m]) (hout : outH.shape = [n])
    (hp : ∀ o < n, ∀ i < m, Pair (outH.get [o]) (inH.get [i])) (hx : x.shape = N :: a.inC :: m :: S) :
    ∃ (out : Tensor ℝ) (part : ℕ → Tensor ℝ), L.groupForward K weight bias x inH outH = .ok (out, outH) ∧
      (∀ i < m, L.groupForward K weight none (elementPart i x) (elementOf i inH) outH = .ok (part i, outH) ∧ (part i).shape = out.shape) ∧
      out.shape = N :: a.outC :: n :: outDims ax S ∧
      ∀ b co h q, b < N → co < a.outC → h < n → InB (outDims ax S) q →
        out.get (b :: co :: h :: q) = (∑ i ∈ Finset.range m, (part i).get (b :: co :: h :: q)) + biasAt bias ax.length co := by
  have hid : Lists id n n outH outH := ⟨hout, hout, fun h hh => ⟨hh, rfl⟩⟩
  have hid' : Lists id m m inH inH := ⟨hin, hin, fun h hh => ⟨hh, rfl⟩⟩
  obtain ⟨w, -, k1, -, k3, -, -⟩ := hK weight inH inH outH outH m m n n id id hw hid' hid hp
  rw [ho, hi, hk] at k3
  obtain ⟨out, x1, x2, x3⟩ := C61_group hgeo hL hg K weight w bias N m n x inH outH hin hout k1 k3 hx hb
  have single : ∀ i, ∃ part : Tensor ℝ, i < m → L.groupForward K weight none (elementPart i x) (elementOf i inH) outH = .ok (part, outH) ∧
      part.shape = out.shape ∧ ∀ b co h q, b < N → co < a.outC → h < n → InB (outDims ax S) q →
        part.get (b :: co :: h :: q) = ∑ ci ∈ Finset.range (a.inC / a.groups.toNat),
          corr mode ax S (fun q => x.get (b :: (groupStart a.inC a.outC a.groups.toNat co + ci) :: i :: q))
            (fun k => w.get (co :: h :: ci :: i :: k)) q := by
    intro i
    by_cases him : i < m
    · obtain ⟨w₀, w', j1, j2, -, j4, j5⟩ := hK weight inH (elementOf i inH) outH outH m 1 n n (fun _ => i) id hw
        ⟨hin, rfl, fun h _ => ⟨him, rfl⟩⟩ hid hp
      rw [k1] at j1
      cases j1
      rw [ho, hi, hk] at j4 j5
      obtain ⟨part, y1, y2, y3⟩ := C61_group hgeo hL hg K weight w' none N 1 n (elementPart i x) (elementOf i inH) outH rfl hout j2 j4
        (by unfold elementPart; rw [hx]; rfl) (fun b h => by cases h)
      refine ⟨part, fun _ => ⟨y1, by rw [x2, y2], fun b co h q hb hco hh hq => ?_⟩⟩
      rw [y3 b co h q hb hco hh hq]
      unfold Spec.groupConv
      rw [show biasAt none ax.length co = 0 from rfl, add_zero]
      refine Finset.sum_congr rfl fun ci hci => ?_
      rw [Finset.sum_range_one]
      refine corr_congr' hg hq (fun r _ => rfl) fun y hy => ?_
      exact j5 co h ci 0 y hco hh (Finset.mem_range.1 hci) one_pos hy
    · exact ⟨x, fun h => absurd h him⟩
  choose part hpart using single
  refine ⟨out, part, x1, fun i hi => ⟨(hpart i hi).1, (hpart i hi).2.1⟩, x2, fun b co h q hb hco hh hq => ?_⟩
  rw [x3 b co h q hb hco hh hq]
  unfold Spec.groupConv
  rw [Finset.sum_comm]
  congr 1
  exact Finset.sum_congr rfl fun i hi => ((hpart i (Finset.mem_range.1 hi)).2.2 b co h q hb hco hh hq).symm

/-- `GConvSE2`: the single elements are convolved onto the same output elements. -/
theorem C109_SE2 (k : KernelArgs ℝ ℕ) (c : ConvOpts) {m p} (hm : SpatialModes k.spatialMode k.spatialPad m p)
    (wd : ℝ) (hr : KernelSE2.Ready k wd) {M : Module ℝ 2} (hM : fullSE2 k c = .ok M) {mode : F.CPad} {ax : List Axis}
    (hgeo : HasGeometry (argsSE2 k c) mode ax) {S : List ℕ} (hS : GeomOk mode ax S)
    (weight : Tensor ℝ) (hw : weight.shape = [(KernelSE2.grid k).shape.headD 0, k.outC, k.inC / k.groups, k.kernelSize, k.kernelSize])
    (bias : Option (Tensor ℝ)) (hb : BiasShape bias k.outC 2) (N mi n : ℕ) (x : Tensor ℝ) (hx : x.shape = N :: k.inC :: mi :: S)
    (inH : Tensor ℝ) (hin : inH.shape = [mi]) (H : Option (Tensor ℝ)) (hH : (H.getD inH).shape = [n]) (move : ℝ → ℝ) (Hc : Tensor ℝ)
    (hHc : Hc = if c.permute then (H.getD inH).map move else H.getD inH) :
    ∃ (out : Tensor ℝ) (part : ℕ → Tensor ℝ), M.groupSE move weight bias x inH H = .ok (out, Hc) ∧
      (∀ i < mi, M.groupSE move weight none (elementPart i x) (elementOf i inH) (some (H.getD inH)) = .ok (part i, Hc) ∧
        (part i).shape = out.shape) ∧
      out.shape = N :: k.outC :: n :: outDims ax S ∧
      ∀ b co h q, b < N → co < k.outC → h < n → InB (outDims ax S) q →
        out.get (b :: co :: h :: q) = (∑ i ∈ Finset.range mi, (part i).get (b :: co :: h :: q)) + biasAt bias 2 co := by
  obtain ⟨K, hK, hL, hMK, hMp⟩ := build_ok hM
  have hks : kernelDims ax = [k.kernelSize, k.kernelSize] := hgeo.kernel.symm
  obtain ⟨b1, b2, b3, b4⟩ := fullSE2_args k wd hr hK
  have hd : ax.length = 2 := by
    have := congrArg List.length hks
    simpa [kernelDims] using this
  rw [b3, ← hks] at hL
  have hHs : Hc.shape = [n] := by
    rw [hHc, ← hH]
    cases c.permute <;> rfl
  obtain ⟨out, part, x1, x2, x3, x4⟩ := C109_group hgeo hL hS (groupLocal_SE2 k hm wd hr hK).1 b1 b2 (by rw [b3, hks]) weight
    (by rw [b1, b2, b3, b4]; exact hw) bias (by rw [hd]; exact hb) N mi n x inH Hc hin hHs (fun _ _ _ _ => trivial) hx
  rw [hd] at x4
  refine ⟨out, part, ?_, fun i hi => ⟨?_, (x2 i hi).2⟩, x3, x4⟩
  · rw [← x1, eq_permute hHc hHs, ← hMp, ← hMK]; rfl
  · rw [← (x2 i hi).1, eq_permute hHc hHs, ← hMp, ← hMK]; rfl

/-- `GConvSE3`: the single elements are convolved onto the same output elements. -/
theorem C109_SE3 (s : GridCache.Store (Tensor ℝ)) (opt : List SO3.Euler) (k : KernelArgs SO3.Mat3 ℕ) (c : ConvOpts) {m p} (hm : SpatialModes k.spatialMode k.spatialPad m p)
    (gr : Tensor SO3.Mat3) (wd : ℝ) (hr : KernelSE3.Ready s opt k gr wd) {M : Module SO3.Mat3 3} (hM : fullSE3 s opt k c = .ok M) {mode : F.CPad} {ax : List Axis}
    (hgeo : HasGeometry (argsSE3 k c) mode ax) {S : List ℕ} (hS : GeomOk mode ax S)
    (weight : Tensor ℝ) (hw : weight.shape = [gr.shape.headD 0, k.outC, k.inC / k.groups, k.kernelSize, k.kernelSize, k.kernelSize])
    (bias : Option (Tensor ℝ)) (hb : BiasShape bias k.outC 3) (N mi n : ℕ) (x : Tensor ℝ) (hx : x.shape = N :: k.inC :: mi :: S)
    (inH : Tensor SO3.Mat3) (hin : inH.shape = [mi]) (H : Option (Tensor SO3.Mat3)) (hH : (H.getD inH).shape = [n]) (move : SO3.Mat3 → SO3.Mat3) (Hc : Tensor SO3.Mat3)
    (hHc : Hc = if c.permute then (H.getD inH).map move else H.getD inH) :
    ∃ (out : Tensor ℝ) (part : ℕ → Tensor ℝ), M.groupSE move weight bias x inH H = .ok (out, Hc) ∧
      (∀ i < mi, M.groupSE move weight none (elementPart i x) (elementOf i inH) (some (H.getD inH)) = .ok (part i, Hc) ∧
        (part i).shape = out.shape) ∧
      out.shape = N :: k.outC :: n :: outDims ax S ∧
      ∀ b co h q, b < N → co < k.outC → h < n → InB (outDims ax S) q →
        out.get (b :: co :: h :: q) = (∑ i ∈ Finset.range mi, (part i).get (b :: co :: h :: q)) + biasAt bias 3 co := by
  obtain ⟨K, hK, hL, hMK, hMp⟩ := build_ok hM
  have hks : kernelDims ax = [k.kernelSize, k.kernelSize, k.kernelSize] := hgeo.kernel.symm
  obtain ⟨b1, b2, b3, b4⟩ := fullSE3_args s opt k gr wd hr hK
  have hd : ax.length = 3 := by
    have := congrArg List.length hks
    simpa [kernelDims] using this
  rw [b3, ← hks] at hL
  have hHs : Hc.shape = [n] := by
    rw [hHc, ← hH]
    cases c.permute <;> rfl
  obtain ⟨out, part, x1, x2, x3, x4⟩ := C109_group hgeo hL hS (groupLocal_SE3 s opt k hm gr wd hr hK).1 b1 b2 (by rw [b3, hks]) weight
    (by rw [b1, b2, b3, b4]; exact hw) bias (by rw [hd]; exact hb) N mi n x inH Hc hin hHs (fun _ _ _ _ => trivial) hx
  rw [hd] at x4
  refine ⟨out, part, ?_, fun i hi => ⟨?_, (x2 i hi).2⟩, x3, x4⟩
  · rw [← x1, eq_permute hHc hHs, ← hMp, ← hMK]; rfl
  · rw [← (x2 i hi).1, eq_permute hHc hHs, ← hMp, ← hMK]; rfl

/-- `GConvE2`. -/
theorem C109_E2 (k : KernelArgs O2.Elt SizeArg) (c : ConvOpts) {m p} (hm : SpatialModes k.spatialMode k.spatialPad m p)
    (wr wf : ℝ) (hr : KernelE2.Ready k wr wf) {M : Module O2.Elt 2} (hM : fullE2 k c = .ok M) {mode : F.CPad} {ax : List Axis}
    (hgeo : HasGeometry (argsE2 k c) mode ax) {S : List ℕ} (hS : GeomOk mode ax S)
    (weight : Tensor ℝ) (hw : weight.shape = [KernelE2.nRot k + KernelE2.nRef k, k.outC, k.inC / k.groups, k.kernelSize, k.kernelSize])
    (bias : Option (Tensor ℝ)) (hb : BiasShape bias k.outC 2) (N mi n : ℕ) (x : Tensor ℝ) (hx : x.shape = N :: k.inC :: mi :: S)
    (inH : Tensor O2.Elt) (hin : inH.shape = [mi]) (H : Option (Tensor O2.Elt)) (hH : (H.getD M.kernel.gridH).shape = [n]) (move : O2.Elt → O2.Elt) (Hc : Tensor O2.Elt)
    (hHc : Hc = if c.permute then (H.getD M.kernel.gridH).map move else H.getD M.kernel.gridH)
    (hp : ∀ h < n, ∀ i < mi, KernelE2.Pair k (Hc.get [h]) (inH.get [i])) :
    ∃ (out : Tensor ℝ) (part : ℕ → Tensor ℝ), M.groupE move weight bias x inH H = .ok (out, Hc) ∧
      (∀ i < mi, M.groupE move weight none (elementPart i x) (elementOf i inH) H = .ok (part i, Hc) ∧
        (part i).shape = out.shape) ∧
      out.shape = N :: k.outC :: n :: outDims ax S ∧
      ∀ b co h q, b < N → co < k.outC → h < n → InB (outDims ax S) q →
        out.get (b :: co :: h :: q) = (∑ i ∈ Finset.range mi, (part i).get (b :: co :: h :: q)) + biasAt bias 2 co := by
  obtain ⟨K, hK, hL, hMK, hMp⟩ := build_ok hM
  have hks : kernelDims ax = [k.kernelSize, k.kernelSize] := hgeo.kernel.symm
  obtain ⟨b1, b2, b3, b4⟩ := fullE2_args k wr wf hr hK
  have hd : ax.length = 2 := by
    have := congrArg List.length hks
    simpa [kernelDims] using this
  rw [b3, ← hks] at hL
  have hHs : Hc.shape = [n] := by
    rw [hHc, ← hH]
    cases c.permute <;> rfl
  obtain ⟨out, part, x1, x2, x3, x4⟩ := C109_group hgeo hL hS (groupLocal_E2 k hm wr wf hr hK).1 b1 b2 (by rw [b3, hks]) weight
    (by rw [b1, b2, b3, b4]; exact hw) bias (by rw [hd]; exact hb) N mi n x inH Hc hin hHs hp hx
  rw [hd] at x4
  refine ⟨out, part, ?_, fun i hi => ⟨?_, (x2 i hi).2⟩, x3, x4⟩
  · rw [← x1, eq_permute hHc hHs, ← hMp, ← hMK]; rfl
  · rw [← (x2 i hi).1, eq_permute hHc hHs, ← hMp, ← hMK]; rfl

/-- `GConvE3`. -/
theorem C109_E3 (s : GridCache.Store (Tensor ℝ)) (opt1 opt2 : List SO3.Euler) (k : KernelArgs O3.Elt SizeArg) (c : ConvOpts) {m p} (hm : SpatialModes k.spatialMode k.spatialPad m p)
    (gr : Tensor O3.Elt) (wr wf : ℝ) (hr : KernelE3.Ready s opt1 opt2 k gr wr wf) {M : Module O3.Elt 3} (hM : fullE3 s opt1 opt2 k c = .ok M) {mode : F.CPad} {ax : List Axis}
    (hgeo : HasGeometry (argsE3 k c) mode ax) {S : List ℕ} (hS : GeomOk mode ax S)
    (weight : Tensor ℝ) (hw : weight.shape = [KernelE3.nRot k + KernelE3.nRef k, k.outC, k.inC / k.groups, k.kernelSize, k.kernelSize, k.kernelSize])
    (bias : Option (Tensor ℝ)) (hb : BiasShape bias k.outC 3) (N mi n : ℕ) (x : Tensor ℝ) (hx : x.shape = N :: k.inC :: mi :: S)
    (inH : Tensor O3.Elt) (hin : inH.shape = [mi]) (H : Option (Tensor O3.Elt)) (hH : (H.getD M.kernel.gridH).shape = [n]) (move : O3.Elt → O3.Elt) (Hc : Tensor O3.Elt)
    (hHc : Hc = if c.permute then (H.getD M.kernel.gridH).map move else H.getD M.kernel.gridH)
    (hp : ∀ h < n, ∀ i < mi, KernelE3.Pair k (Hc.get [h]) (inH.get [i])) :
    ∃ (out : Tensor ℝ) (part : ℕ → Tensor ℝ), M.groupE move weight bias x inH H = .ok (out, Hc) ∧
      (∀ i < mi, M.groupE move weight none (elementPart i x) (elementOf i inH) H = .ok (part i, Hc) ∧
        (part i).shape = out.shape) ∧
      out.shape = N :: k.outC :: n :: outDims ax S ∧
      ∀ b co h q, b < N → co < k.outC → h < n → InB (outDims ax S) q →
        out.get (b :: co :: h :: q) = (∑ i ∈ Finset.range mi, (part i).get (b :: co :: h :: q)) + biasAt bias 3 co := by
  obtain ⟨K, hK, hL, hMK, hMp⟩ := build_ok hM
  have hks : kernelDims ax = [k.kernelSize, k.kernelSize, k.kernelSize] := hgeo.kernel.symm
  obtain ⟨b1, b2, b3, b4⟩ := fullE3_args s opt1 opt2 k gr wr wf hr hK
  have hd : ax.length = 3 := by
    have := congrArg List.length hks
    simpa [kernelDims] using this
  rw [b3, ← hks] at hL
  have hHs : Hc.shape = [n] := by
    rw [hHc, ← hH]
    cases c.permute <;> rfl
  obtain ⟨out, part, x1, x2, x3, x4⟩ := C109_group hgeo hL hS (groupLocal_E3 s opt1 opt2 k hm gr wr wf hr hK).1 b1 b2 (by rw [b3, hks]) weight
    (by rw [b1, b2, b3, b4]; exact hw) bias (by rw [hd]; exact hb) N mi n x inH Hc hin hHs hp hx
  rw [hd] at x4
  refine ⟨out, part, ?_, fun i hi => ⟨?_, (x2 i hi).2⟩, x3, x4⟩
  · rw [← x1, eq_permute hHc hHs, ← hMp, ← hMK]; rfl
  · rw [← (x2 i hi).1, eq_permute hHc hHs, ← hMp, ← hMK]; rfl

/-- `GConvSE2(2, 6, 3, 8, padding="same")` on a batch of three with eight group elements: the sum of eight calls with one element each. -/
example (weight x inH : Tensor ℝ) (u : ℝ) (hw : weight.shape = [8, 6, 2, 3, 3]) (hx : x.shape = [3, 2, 8, 28, 28]) (hin : inH.shape = [8]) :
    ∃ M, fullSE2 { inC := 2, outC := 6, kernelSize := 3, groupKernelSize := 8 } testOpts = .ok M ∧
      ∃ (out : Tensor ℝ) (Hc : Tensor ℝ) (part : ℕ → Tensor ℝ), M.groupSE (moveSE2 u) weight none x inH none = .ok (out, Hc) ∧
        (∀ i < 8, M.groupSE (moveSE2 u) weight none (elementPart i x) (elementOf i inH) (some inH) = .ok (part i, Hc)) ∧
        ∀ b co h p q, b < 3 → co < 6 → h < 8 → p < 28 → q < 28 →
          out.get [b, co, h, p, q] = ∑ i ∈ Finset.range 8, (part i).get [b, co, h, p, q] := by
  obtain ⟨f2, o2, -⟩ := fits_tests (nd := 2) 2 6 (by norm_num) (by norm_num)
  obtain ⟨M, wd, hM, hr, hd⟩ := fullSE2_built { inC := 2, outC := 6, kernelSize := 3, groupKernelSize := 8 } testOpts rfl (Or.inl rfl) rfl (by norm_num) (by norm_num) f2
  refine ⟨M, hM, ?_⟩
  obtain ⟨out, part, x1, x2, -, x4⟩ := C109_SE2 _ testOpts defaultModes wd hr hM ((C60_geometry_SE2 _ _ _ _).1.2 f2.geometry) f2.extents weight
    (by rw [hd]; exact hw) none (fun b h => by cases h) 3 8 8 x hx inH hin none hin (moveSE2 u) _ rfl
  refine ⟨out, _, part, x1, fun i hi => (x2 i hi).1, fun b co h p q hb hco hh hp hq => ?_⟩
  rw [o2] at x4
  rw [x4 b co h [p, q] hb hco hh (InB_cons.2 ⟨hp, InB_cons.2 ⟨hq, .nil⟩⟩)]
  exact add_zero _

end GConv.Conv

import Verif.Props.Rotation

/-! # C114: elements that map the kernel grid onto itself use the exactly turned filter

Kernel sizes up to 3, or nearest-neighbour interpolation, border padding of the kernel (the default). -/

namespace GConv.Conv

open Tensor Spec

/-- `g` are the `(co, ci)` filters `f`, masked by `mask` and moved by the lattice symmetry `σ` (about the centre of the box `ks`). -/
def TurnedFilter {d : ℕ} (e : Equiv.Perm (Fin d)) (σ : LatticeSym d) (ks : List ℕ) (mask : List ℕ → ℝ) (f g : ℕ → ℕ → List ℕ → ℝ) (CO CI : ℕ) : Prop :=
  ∀ co ci q, co < CO → ci < CI → InB ks q → g co ci (σ.move e ks q) = mask q * f co ci q

/-- The ordinary convolution (`F.conv2d`, `F.conv3d` with `padding_mode`) of the images with the filters `f`, channel `co` of the output at cell `o`. -/
noncomputable def plainConv (a : Args) (mode : F.CPad) (ax : List Axis) (S : List ℕ) (input : Tensor ℝ) (f : ℕ → ℕ → List ℕ → ℝ)
    (bias : Option (Tensor ℝ)) (b co : ℕ) (o : List ℕ) : ℝ :=
  (∑ ci ∈ Finset.range (a.inC / a.groups.toNat),
    corr mode ax S (fun q => input.get (b :: (groupStart a.inC a.outC a.groups.toNat co + ci) :: q)) (f co ci) o) +
    biasAt bias ax.length co

theorem lattice_inv {d : ℕ} (σ : LatticeSym d) (v : Fin d → ℝ) : σ.matrix.transpose.mulVec (σ.matrix.mulVec v) = v := by
  rw [Matrix.mulVec_mulVec, _root_.mul_eq_one_comm.1 σ.matrix_transpose_mul, Matrix.one_mulVec]

theorem sample_turned3 {m : F.SMode} {k : ℕ} (hk : 2 ≤ k) (hm : m = .nearest ∨ k ≤ 3) (σ : LatticeSym 3) (f : List ℕ → ℝ) {q : List ℕ}
    (hq : InB [k, k, k] q) :
    F.sampleAt m .border [k, k, k] f (σ.matrix.transpose.mulVec ((Functional.createGridR3 k).get (σ.move LatticeSym.ax3 [k, k, k] q))) = f q := by
  rw [Functional.C46_moves_R3 k hk σ q hq, lattice_inv]
  obtain ⟨x, _, rfl, hx, hq⟩ := InB_cons_left hq
  obtain ⟨y, _, rfl, hy, hq⟩ := InB_cons_left hq
  obtain ⟨z, _, rfl, hz, hq⟩ := InB_cons_left hq
  cases InB_nil_left hq
  exact Functional.C49_R3_partial m k hm f x y z hx hy hz

theorem sample_turned2 {m : F.SMode} {k : ℕ} (hk : 2 ≤ k) (hm : m = .nearest ∨ k ≤ 3) (σ : LatticeSym 2) (f : List ℕ → ℝ) {q : List ℕ}
    (hq : InB [k, k] q) :
    F.sampleAt m .border [k, k] f (σ.matrix.transpose.mulVec ((Functional.createGridR2 k).get (σ.move LatticeSym.ax2 [k, k] q))) = f q.reverse := by
  rw [Functional.C46_moves_R2 k hk σ q hq, lattice_inv]
  obtain ⟨x, _, rfl, hx, hq⟩ := InB_cons_left hq
  obtain ⟨y, _, rfl, hy, hq⟩ := InB_cons_left hq
  cases InB_nil_left hq
  exact Functional.C49_R2_transposed_partial m k hm f x y hx hy

theorem angle_transpose (t : ℝ) : SO2.angleToMatrix (-t) = (SO2.angleToMatrix t).transpose := by
  ext i j
  fin_cases i <;> fin_cases j <;> simp [SO2.angleToMatrix]

/-- `GLiftingConvSE2`: group elements `h` that act as a lattice symmetry `σ` (multiples of a quarter turn) use the filter stored in `weight`, masked,
transposed (see C49) and turned by `σ`. -/
theorem C114_SE2 (k : KernelArgs ℝ ℕ) (c : ConvOpts) (hk : 2 ≤ k.kernelSize) {m}
    (hm : SpatialModes k.spatialMode k.spatialPad m .border) (hm3 : m = .nearest ∨ k.kernelSize ≤ 3)
    {M : Module ℝ 2} (hM : liftingSE2 k c = .ok M) {mode : F.CPad} {ax : List Axis}
    (hgeo : HasGeometry (argsSE2 k c) mode ax) {S : List ℕ} (hS : GeomOk mode ax S) (hpos : 0 < k.inC)
    (weight : Tensor ℝ) (hw : weight.shape = [k.outC, k.inC / k.groups, k.kernelSize, k.kernelSize])
    (bias : Option (Tensor ℝ)) (hb : BiasShape bias k.outC 2) (N : ℕ) (input : Tensor ℝ)
    (hx : input.shape = N :: k.inC :: S) (H : Option (Tensor (ℝ))) (n : ℕ)
    (hH : (H.getD M.kernel.gridH).shape = [n]) (move : ℝ → ℝ) (Hc : Tensor (ℝ))
    (hHc : Hc = if c.permute then (H.getD M.kernel.gridH).map move else H.getD M.kernel.gridH)
    (h : ℕ) (hh : h < n) (σ : LatticeSym 2) (hσ : SO2.angleToMatrix (Hc.get [h]) = σ.matrix) :
    ∃ out f, M.lift move weight bias input H = .ok (out, Hc) ∧
      TurnedFilter LatticeSym.ax2 σ [k.kernelSize, k.kernelSize] (fun q => (Functional.createSphericalMaskR2 k.kernelSize).get q) (fun co ci q => weight.get (co :: ci :: q.reverse)) f k.outC (k.inC / k.groups) ∧
      ∀ b co o, b < N → co < k.outC → InB (outDims ax S) o →
        out.get (b :: co :: h :: o) = plainConv (argsSE2 k c) mode ax S input f bias b co o := by
  obtain ⟨w, out, e1, -, e3, e4⟩ := C60_SE2 k c hm hM hgeo hS hpos weight hw bias hb N input hx H n hH move Hc hHc
  refine ⟨out, fun co ci q => w.get (co :: h :: ci :: q), e1, fun co ci q hco hci hq => ?_, fun b co o hb hco ho => e3 b co h o hb hco hh ho⟩
  have hmv : InB [k.kernelSize, k.kernelSize] (σ.move LatticeSym.ax2 [k.kernelSize, k.kernelSize] q) := LatticeSym.move_InB (LatticeSym.matches_cube _) hq
  have hmask := (Functional.C47_R2 k.kernelSize).2.2 hk σ q hq
  have hs := sample_turned2 hk hm3 σ (fun r => weight.get (co :: ci :: r)) hq
  generalize σ.move LatticeSym.ax2 [k.kernelSize, k.kernelSize] q = q' at hmv hmask hs
  obtain ⟨x, _, rfl, hx, hmv⟩ := InB_cons_left hmv
  obtain ⟨y, _, rfl, hy, hmv⟩ := InB_cons_left hmv
  cases InB_nil_left hmv
  show w.get [co, h, ci, x, y] = _
  rw [e4 co h ci x y hco hh hci hx hy, hmask]
  rw [angle_transpose, hσ, hs]

/-- `GLiftingConvSE3`: rotations that are lattice symmetries `σ` (the rotations of the cube) use the filter stored in `weight`, masked and turned by `σ`. -/
theorem C114_SE3 (s : GridCache.Store (Tensor ℝ)) (opt : List SO3.Euler) (k : KernelArgs SO3.Mat3 ℕ) (c : ConvOpts) (hk : 2 ≤ k.kernelSize) {m}
    (hm : SpatialModes k.spatialMode k.spatialPad m .border) (hm3 : m = .nearest ∨ k.kernelSize ≤ 3)
    {M : Module SO3.Mat3 3} (hM : liftingSE3 s opt k c = .ok M) {mode : F.CPad} {ax : List Axis}
    (hgeo : HasGeometry (argsSE3 k c) mode ax) {S : List ℕ} (hS : GeomOk mode ax S) (hpos : 0 < k.inC)
    (weight : Tensor ℝ) (hw : weight.shape = [k.outC, k.inC / k.groups, k.kernelSize, k.kernelSize, k.kernelSize])
    (bias : Option (Tensor ℝ)) (hb : BiasShape bias k.outC 3) (N : ℕ) (input : Tensor ℝ)
    (hx : input.shape = N :: k.inC :: S) (H : Option (Tensor (SO3.Mat3))) (n : ℕ)
    (hH : (H.getD M.kernel.gridH).shape = [n]) (move : SO3.Mat3 → SO3.Mat3) (Hc : Tensor (SO3.Mat3))
    (hHc : Hc = if c.permute then (H.getD M.kernel.gridH).map move else H.getD M.kernel.gridH)
    (h : ℕ) (hh : h < n) (σ : LatticeSym 3) (hσ : Hc.get [h] = σ.matrix) :
    ∃ out f, M.lift move weight bias input H = .ok (out, Hc) ∧
      TurnedFilter LatticeSym.ax3 σ [k.kernelSize, k.kernelSize, k.kernelSize] (fun q => if k.mask then (Functional.createSphericalMaskR3 k.kernelSize).get q else 1) (fun co ci q => weight.get (co :: ci :: q)) f k.outC (k.inC / k.groups) ∧
      ∀ b co o, b < N → co < k.outC → InB (outDims ax S) o →
        out.get (b :: co :: h :: o) = plainConv (argsSE3 k c) mode ax S input f bias b co o := by
  obtain ⟨w, out, e1, -, e3, e4⟩ := C60_SE3 s opt k c hm hM hgeo hS hpos weight hw bias hb N input hx H n hH move Hc hHc
  refine ⟨out, fun co ci q => w.get (co :: h :: ci :: q), e1, fun co ci q hco hci hq => ?_, fun b co o hb hco ho => e3 b co h o hb hco hh ho⟩
  have hmv : InB [k.kernelSize, k.kernelSize, k.kernelSize] (σ.move LatticeSym.ax3 [k.kernelSize, k.kernelSize, k.kernelSize] q) := LatticeSym.move_InB (LatticeSym.matches_cube _) hq
  have hmask := (Functional.C47_R3 k.kernelSize).2.2 hk σ q hq
  have hs := sample_turned3 hk hm3 σ (fun r => weight.get (co :: ci :: r)) hq
  generalize σ.move LatticeSym.ax3 [k.kernelSize, k.kernelSize, k.kernelSize] q = q' at hmv hmask hs
  obtain ⟨x, _, rfl, hx, hmv⟩ := InB_cons_left hmv
  obtain ⟨y, _, rfl, hy, hmv⟩ := InB_cons_left hmv
  obtain ⟨z, _, rfl, hz, hmv⟩ := InB_cons_left hmv
  cases InB_nil_left hmv
  show w.get [co, h, ci, x, y, z] = _
  rw [e4 co h ci x y z hco hh hci hx hy hz, hmask]
  rw [hσ, hs]

/-- `GLiftingConvE2`: elements `(c, t)` that act as a lattice symmetry use the filter stored in `weight`, masked, transposed (see C49), turned, and divided by `c`. -/
theorem C114_E2 (k : KernelArgs O2.Elt SizeArg) (c : ConvOpts) (hk : 2 ≤ k.kernelSize) {m}
    (hm : SpatialModes k.spatialMode k.spatialPad m .border) (hm3 : m = .nearest ∨ k.kernelSize ≤ 3)
    {M : Module O2.Elt 2} (hM : liftingE2 k c = .ok M) {mode : F.CPad} {ax : List Axis}
    (hgeo : HasGeometry (argsE2 k c) mode ax) {S : List ℕ} (hS : GeomOk mode ax S) (hpos : 0 < k.inC)
    (weight : Tensor ℝ) (hw : weight.shape = [k.outC, k.inC / k.groups, k.kernelSize, k.kernelSize])
    (bias : Option (Tensor ℝ)) (hb : BiasShape bias k.outC 2) (N : ℕ) (input : Tensor ℝ)
    (hx : input.shape = N :: k.inC :: S) (H : Option (Tensor (O2.Elt))) (n : ℕ)
    (hH : (H.getD M.kernel.gridH).shape = [n]) (move : O2.Elt → O2.Elt) (Hc : Tensor (O2.Elt))
    (hHc : Hc = if c.permute then (H.getD M.kernel.gridH).map move else H.getD M.kernel.gridH)
    (h : ℕ) (hh : h < n) (σ : LatticeSym 2) (hσ : (Hc.get [h]).1 • SO2.angleToMatrix (Hc.get [h]).2 = σ.matrix) :
    ∃ out f, M.lift move weight bias input H = .ok (out, Hc) ∧
      TurnedFilter LatticeSym.ax2 σ [k.kernelSize, k.kernelSize] (fun q => if k.mask then (Functional.createSphericalMaskR2 k.kernelSize).get q else 1) (fun co ci q => weight.get (co :: ci :: q.reverse) / (Hc.get [h]).1) f k.outC (k.inC / k.groups) ∧
      ∀ b co o, b < N → co < k.outC → InB (outDims ax S) o →
        out.get (b :: co :: h :: o) = plainConv (argsE2 k c) mode ax S input f bias b co o := by
  obtain ⟨w, out, e1, -, e3, e4⟩ := C60_E2 k c hm hM hgeo hS hpos weight hw bias hb N input hx H n hH move Hc hHc
  refine ⟨out, fun co ci q => w.get (co :: h :: ci :: q), e1, fun co ci q hco hci hq => ?_, fun b co o hb hco ho => e3 b co h o hb hco hh ho⟩
  have hmv : InB [k.kernelSize, k.kernelSize] (σ.move LatticeSym.ax2 [k.kernelSize, k.kernelSize] q) := LatticeSym.move_InB (LatticeSym.matches_cube _) hq
  have hmask := (Functional.C47_R2 k.kernelSize).2.2 hk σ q hq
  have hs := sample_turned2 hk hm3 σ (fun r => weight.get (co :: ci :: r)) hq
  generalize σ.move LatticeSym.ax2 [k.kernelSize, k.kernelSize] q = q' at hmv hmask hs
  obtain ⟨x, _, rfl, hx, hmv⟩ := InB_cons_left hmv
  obtain ⟨y, _, rfl, hy, hmv⟩ := InB_cons_left hmv
  cases InB_nil_left hmv
  show w.get [co, h, ci, x, y] = _
  rw [e4 co h ci x y hco hh hci hx hy, hmask]
  have ht : (Hc.get [h]).1 • (SO2.angleToMatrix (-(Hc.get [h]).2)).mulVec ((Functional.createGridR2 k.kernelSize).get [x, y]) =
      σ.matrix.transpose.mulVec ((Functional.createGridR2 k.kernelSize).get [x, y]) := by
    rw [← hσ, Matrix.transpose_smul, angle_transpose, Matrix.smul_mulVec]
  rw [ht, hs, mul_div_assoc]

/-- `GLiftingConvE3`: elements (coefficient and rotation) that act as a lattice symmetry use the filter stored in `weight`, masked, turned, and divided by the coefficient. -/
theorem C114_E3 (s : GridCache.Store (Tensor ℝ)) (opt1 opt2 : List SO3.Euler) (k : KernelArgs O3.Elt SizeArg) (c : ConvOpts) (hk : 2 ≤ k.kernelSize) {m}
    (hm : SpatialModes k.spatialMode k.spatialPad m .border) (hm3 : m = .nearest ∨ k.kernelSize ≤ 3)
    {M : Module O3.Elt 3} (hM : liftingE3 s opt1 opt2 k c = .ok M) {mode : F.CPad} {ax : List Axis}
    (hgeo : HasGeometry (argsE3 k c) mode ax) {S : List ℕ} (hS : GeomOk mode ax S) (hpos : 0 < k.inC)
    (weight : Tensor ℝ) (hw : weight.shape = [k.outC, k.inC / k.groups, k.kernelSize, k.kernelSize, k.kernelSize])
    (bias : Option (Tensor ℝ)) (hb : BiasShape bias k.outC 3) (N : ℕ) (input : Tensor ℝ)
    (hx : input.shape = N :: k.inC :: S) (H : Option (Tensor (O3.Elt))) (n : ℕ)
    (hH : (H.getD M.kernel.gridH).shape = [n]) (move : O3.Elt → O3.Elt) (Hc : Tensor (O3.Elt))
    (hHc : Hc = if c.permute then (H.getD M.kernel.gridH).map move else H.getD M.kernel.gridH)
    (h : ℕ) (hh : h < n) (σ : LatticeSym 3) (hσ : O3.coef (Hc.get [h]) • O3.rot (Hc.get [h]) = σ.matrix) :
    ∃ out f, M.lift move weight bias input H = .ok (out, Hc) ∧
      TurnedFilter LatticeSym.ax3 σ [k.kernelSize, k.kernelSize, k.kernelSize] (fun q => if k.mask then (Functional.createSphericalMaskR3 k.kernelSize).get q else 1) (fun co ci q => weight.get (co :: ci :: q) / O3.coef (Hc.get [h])) f k.outC (k.inC / k.groups) ∧
      ∀ b co o, b < N → co < k.outC → InB (outDims ax S) o →
        out.get (b :: co :: h :: o) = plainConv (argsE3 k c) mode ax S input f bias b co o := by
  obtain ⟨w, out, e1, -, e3, e4⟩ := C60_E3 s opt1 opt2 k c hm hM hgeo hS hpos weight hw bias hb N input hx H n hH move Hc hHc
  refine ⟨out, fun co ci q => w.get (co :: h :: ci :: q), e1, fun co ci q hco hci hq => ?_, fun b co o hb hco ho => e3 b co h o hb hco hh ho⟩
  have hmv : InB [k.kernelSize, k.kernelSize, k.kernelSize] (σ.move LatticeSym.ax3 [k.kernelSize, k.kernelSize, k.kernelSize] q) := LatticeSym.move_InB (LatticeSym.matches_cube _) hq
  have hmask := (Functional.C47_R3 k.kernelSize).2.2 hk σ q hq
  have hs := sample_turned3 hk hm3 σ (fun r => weight.get (co :: ci :: r)) hq
  generalize σ.move LatticeSym.ax3 [k.kernelSize, k.kernelSize, k.kernelSize] q = q' at hmv hmask hs
  obtain ⟨x, _, rfl, hx, hmv⟩ := InB_cons_left hmv
  obtain ⟨y, _, rfl, hy, hmv⟩ := InB_cons_left hmv
  obtain ⟨z, _, rfl, hz, hmv⟩ := InB_cons_left hmv
  cases InB_nil_left hmv
  show w.get [co, h, ci, x, y, z] = _
  rw [e4 co h ci x y z hco hh hci hx hy hz, hmask]
  have ht : O3.coef (Hc.get [h]) • (O3.rot (Hc.get [h])).transpose.mulVec ((Functional.createGridR3 k.kernelSize).get [x, y, z]) =
      σ.matrix.transpose.mulVec ((Functional.createGridR3 k.kernelSize).get [x, y, z]) := by
    rw [← hσ, Matrix.transpose_smul, Matrix.smul_mulVec]
  rw [ht, hs, mul_div_assoc]

/-- `GLiftingConvSE2(4, 6, 3, ..., groups=2)` on images of 8 x 8 cells, the group elements 0 and a quarter turn: entry `(x, y)` of the weight is
found at `(y, x)` of the filter for the element 0 and at `(2 - x, y)` of the filter for the quarter turn. -/
example (gks : ℕ) (weight : Tensor ℝ) (hw : weight.shape = [6, 2, 3, 3]) (input : Tensor ℝ) (hx : input.shape = [5, 4, 8, 8])
    (M : Module ℝ 2) (hM : liftingSE2 { inC := 4, outC := 6, kernelSize := 3, groupKernelSize := gks, groups := 2 } { permute := false } = .ok M) :
    ∃ out f0 f1, M.lift id weight none input (some (Tensor.ofList [0, Real.pi / 2])) = .ok (out, Tensor.ofList [0, Real.pi / 2]) ∧
      (∀ co ci x y, co < 6 → ci < 2 → x < 3 → y < 3 →
        f0 co ci [y, x] = (Functional.createSphericalMaskR2 3).get [y, x] * weight.get [co, ci, x, y] ∧
        f1 co ci [2 - x, y] = (Functional.createSphericalMaskR2 3).get [y, x] * weight.get [co, ci, x, y]) ∧
      ∀ b co u v, b < 5 → co < 6 → u < 6 → v < 6 →
        out.get [b, co, 0, u, v] = plainConv (argsSE2 { inC := 4, outC := 6, kernelSize := 3, groupKernelSize := gks, groups := 2 }
          { permute := false }) .zeros [⟨3, 1, 1, 0, 0⟩, ⟨3, 1, 1, 0, 0⟩] [8, 8] input f0 none b co [u, v] ∧
        out.get [b, co, 1, u, v] = plainConv (argsSE2 { inC := 4, outC := 6, kernelSize := 3, groupKernelSize := gks, groups := 2 }
          { permute := false }) .zeros [⟨3, 1, 1, 0, 0⟩, ⟨3, 1, 1, 0, 0⟩] [8, 8] input f1 none b co [u, v] := by
  set o : Axis := ⟨3, 1, 1, 0, 0⟩ with ho
  have hgeo : HasGeometry (argsSE2 { inC := 4, outC := 6, kernelSize := 3, groupKernelSize := gks, groups := 2 } { permute := false })
      .zeros [o, o] :=
    ⟨Or.inl ⟨rfl, rfl⟩, rfl, rfl, rfl, by show ∀ a ∈ [o, o], a.left = 0 ∧ a.right = 0; simp [ho], Or.inl ⟨rfl, rfl⟩⟩
  have hok : o.Ok .zeros 8 := ⟨by simp [ho], by simp [ho], by simp [ho], by simp [ho, Axis.span], rfl⟩
  have hO : outDims [o, o] [8, 8] = [6, 6] := by simp [outDims, ho, Axis.out, Axis.span]
  have key := fun h hh σ hσ => C114_SE2 { inC := 4, outC := 6, kernelSize := 3, groupKernelSize := gks, groups := 2 } { permute := false }
    (by norm_num) defaultModes (Or.inr le_rfl) hM hgeo (.cons hok (.cons hok .nil)) (by norm_num) weight (by rw [hw]; simp) none
    (fun b hb => by cases hb) 5 input hx (some (Tensor.ofList [0, Real.pi / 2])) 2 rfl id (Tensor.ofList [0, Real.pi / 2]) rfl h hh σ hσ
  obtain ⟨out, f0, e1, e2, e3⟩ := key 0 (by norm_num) ⟨1, fun _ => false⟩ (by
    show SO2.angleToMatrix 0 = _
    ext i j
    fin_cases i <;> fin_cases j <;> simp [SO2.angleToMatrix, LatticeSym.matrix])
  obtain ⟨out', f1, e1', e2', e3'⟩ := key 1 (by norm_num) KernelSE2.quarter KernelSE2.quarter_matrix
  rw [e1] at e1'
  cases e1'
  rw [hO] at e3 e3'
  refine ⟨out, f0, f1, e1, fun co ci x y hco hci hx hy => ⟨?_, ?_⟩, fun b co u v hb hco hu hv => ⟨?_, ?_⟩⟩
  · exact e2 co ci [y, x] hco (by simpa using hci) (by simp only [InB_cons, InB_nil_nil, and_true]; exact ⟨hy, hx⟩)
  · exact e2' co ci [y, x] hco (by simpa using hci) (by simp only [InB_cons, InB_nil_nil, and_true]; exact ⟨hy, hx⟩)
  · exact e3 b co [u, v] hb hco (by simp only [InB_cons, InB_nil_nil, and_true]; exact ⟨hu, hv⟩)
  · exact e3' b co [u, v] hb hco (by simp only [InB_cons, InB_nil_nil, and_true]; exact ⟨hu, hv⟩)

end GConv.Conv

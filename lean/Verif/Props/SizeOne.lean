import Verif.Props.DefaultSampling
import Verif.Props.Modules

/-! # C60, C72: `GLiftingConvSE3(group_kernel_size=1)`

The shipped SO(3) grid of size 1 is one matrix without grid axis (C32). A lifting layer turns it into a grid of one
element when `permute_output_grid` is set, so the lifting layer works; without it every call of the layer raises. -/
namespace GConv.Conv

open Tensor Spec GroupKernel

/-- With `permute_output_grid` the layer lifts to one group element: the product of the random element and the shipped
matrix. The values are those of the lifting formula for that element. -/
theorem C60_SE3_one (opt : List SO3.Euler) (k : KernelArgs SO3.Mat3 ℕ) (c : ConvOpts) {m p}
    (hm : SpatialModes k.spatialMode k.spatialPad m p) (hg : k.gridH = none) (h1 : k.groupKernelSize = 1)
    (hp : c.permute = true) {M : Module SO3.Mat3 3} (hM : liftingSE3 SO3.initialStore opt k c = .ok M) {mode : F.CPad}
    {ax : List Axis} (hgeo : HasGeometry (argsSE3 k c) mode ax) {S : List ℕ} (hS : GeomOk mode ax S) (hpos : 0 < k.inC)
    (weight : Tensor ℝ) (hw : weight.shape = [k.outC, k.inC / k.groups, k.kernelSize, k.kernelSize, k.kernelSize])
    (bias : Option (Tensor ℝ)) (hb : BiasShape bias k.outC 3) (N : ℕ) (input : Tensor ℝ)
    (hx : input.shape = N :: k.inC :: S) (move : SO3.Mat3 → SO3.Mat3) :
    ∃ (R : SO3.Mat3) (w out : Tensor ℝ), KernelSE3.grid SO3.initialStore opt k = .ok ⟨[], fun _ => R⟩ ∧
      M.lift move weight bias input none = .ok (out, ⟨[1], fun _ => move R⟩) ∧
      out.shape = N :: k.outC :: 1 :: outDims ax S ∧
      (∀ b co o, b < N → co < k.outC → InB (outDims ax S) o →
        out.get (b :: co :: 0 :: o) = Spec.liftingConv (argsSE3 k c) mode ax S input w bias b co 0 o) ∧
      ∀ co ci x y z, co < k.outC → ci < k.inC / k.groups → x < k.kernelSize → y < k.kernelSize → z < k.kernelSize →
        w.get [co, 0, ci, x, y, z] =
          (if k.mask then (Functional.createSphericalMaskR3 k.kernelSize).get [x, y, z] else 1) *
            F.sampleAt m p [k.kernelSize, k.kernelSize, k.kernelSize] (fun r => weight.get (co :: ci :: r))
              ((move R).transpose.mulVec ((Functional.createGridR3 k.kernelSize).get [x, y, z])) := by
  obtain ⟨R, hR⟩ := KernelSE3.grid_one opt k hg h1
  obtain ⟨K, hK, hL, hMK, hMp⟩ := build_ok hM
  have hKg : K.gridH = ⟨[], fun _ => R⟩ := by
    have hK' := hK
    unfold KernelSE3.lifting at hK'
    rw [hR, ok_bind] at hK'
    unfold checkGroups at hK'
    split at hK'
    · cases hK'
    · cases hK'; rfl
  -- the same layer without the permutation, called with the moved element
  let c' : ConvOpts := { c with permute := false }
  have hM' : liftingSE3 SO3.initialStore opt k c' = .ok ⟨M.layer, K, false⟩ := by
    show build _ (argsSE3 k c) false = _
    unfold build
    rw [hK, ok_bind, hL, ok_bind]; rfl
  obtain ⟨w, out, o1, o2, o3, o4⟩ := C60_SE3 SO3.initialStore opt k c' hm hM' (mode := mode) (ax := ax) hgeo hS hpos weight hw bias hb N
    input hx (some ⟨[1], fun _ => move R⟩) 1 rfl move ⟨[1], fun _ => move R⟩ rfl
  refine ⟨R, w, out, hR, ?_, o2, fun b co o h2 h3 h4 => o3 b co 0 o h2 h3 Nat.one_pos h4,
    fun co ci x y z a1 a2 a3 a4 a5 => o4 co 0 ci x y z a1 Nat.one_pos a2 a3 a4 a5⟩
  rw [← o1]
  unfold Module.lift
  dsimp only
  rw [hMp, hp, hMK, permuteGrid_single _ _ (by show (K.gridH).shape = []; rw [hKg])]
  show M.layer.liftingForward K weight bias input ⟨[1], fun _ => move (K.gridH.get [])⟩ = _
  rw [hKg]
  rfl

/-- Such a layer exists, and the shipped element is a rotation up to `2e-4` (C32): the constructor with its defaults. -/
example : ∃ M, liftingSE3 SO3.initialStore [] { inC := 2, outC := 3, kernelSize := 5, groupKernelSize := 1 } {} = .ok M ∧
    M.permute = true ∧ M.kernel.gridH.shape = [] := by
  obtain ⟨R, hR⟩ := KernelSE3.grid_one [] { inC := 2, outC := 3, kernelSize := 5, groupKernelSize := 1 } rfl rfl
  have hK : KernelSE3.lifting SO3.initialStore [] { inC := 2, outC := 3, kernelSize := 5, groupKernelSize := 1 } =
      .ok (KernelSE3.base { inC := 2, outC := 3, kernelSize := 5, groupKernelSize := 1 } ⟨[], fun _ => R⟩ noSampler) := by
    unfold KernelSE3.lifting
    rw [hR, ok_bind]; rfl
  obtain ⟨L, hL⟩ : ∃ L, init (argsSE3 { inC := 2, outC := 3, kernelSize := 5, groupKernelSize := 1 } {}) [5, 5, 5] = .ok L :=
    ⟨_, rfl⟩
  refine ⟨⟨L, KernelSE3.base { inC := 2, outC := 3, kernelSize := 5, groupKernelSize := 1 } ⟨[], fun _ => R⟩ noSampler, true⟩, ?_, rfl, rfl⟩
  unfold liftingSE3 build
  rw [hK, ok_bind]
  show (init _ [5, 5, 5] >>= _) = _
  rw [hL, ok_bind]; rfl

end GConv.Conv

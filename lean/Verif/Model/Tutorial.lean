import Verif.Model.Modules

/-! # Model of the custom group convolution in `gconv_tutorial.ipynb`

The notebook implements SE(2) convolutions with group operations of its own on top of the library classes. Angles have a trailing axis of
extent one in the notebook, which is folded. -/

namespace GConv.Tutorial

open Real Tensor Conv

/-- `uniform_grid_so2`, gconv_tutorial.ipynb cell 5: `linspace(0, 2π, n + 1)[:-1]`. -/
noncomputable def uniformGrid (n : ℕ) : Tensor ℝ := Tensor.ofList (linspace 0 (2 * π) (n + 1)).dropLast

/-- `random_grid_so2`, cell 5; `draws` is the outcome of `torch.rand(n)`. -/
noncomputable def randomGrid (draws : List ℝ) : Tensor ℝ := Tensor.ofList (draws.map fun u => 2 * π * u)

/-- `create_grid_R2`, cell 5: `stack((Y, X), -1)` of `X, Y = meshgrid((x, x), indexing="xy")`. -/
noncomputable def createGridR2 (n : ℕ) : Tensor (Fin 2 → ℝ) :=
  let x := linspaceAt (-1) 1 n
  ⟨[n, n], fun idx => ![Functional.meshXY x 1 idx, Functional.meshXY x 0 idx]⟩

/-- `det_so2`, cell 7: `torch.ones_like(H)`. -/
noncomputable def det (H : Tensor ℝ) : Tensor ℝ := H.map fun _ => 1

/-- `inverse_so2`, cell 9: `-H`. -/
def inverse (H : Tensor ℝ) : Tensor ℝ := H.map fun a => -a

/-- `left_apply_to_so2`, cell 11: `(H1[:, None] + H2) % (2π)`. -/
noncomputable def leftApplyToH (H1 H2 : Tensor ℝ) : Tensor ℝ := pairwise (fun a b => pyMod (a + b) (2 * π)) H1 H2

/-- `left_apply_to_R2`, cell 13: one rotation matrix per angle, `(matrices[:, None, None] @ grid[..., None]).flatten(-2)`. -/
noncomputable def leftApplyToR2 (H : Tensor ℝ) (grid : Tensor (Fin 2 → ℝ)) : Tensor (Fin 2 → ℝ) :=
  pairwise (fun a v => (!![cos a, -sin a; sin a, cos a] : Matrix (Fin 2) (Fin 2) ℝ).mulVec v) H grid

/-- `torch.topk(d, 2, largest=False)[1]` on a vector of length `n`: two distinct positions of the smallest entries in ascending order
(ties are not specified by torch and nothing is assumed). -/
noncomputable def topk2 (n : ℕ) (d : ℕ → ℝ) : Fin 2 → ℕ :=
  open Classical in
  if h : ∃ t : Fin 2 → ℕ, t 0 ≠ t 1 ∧ (∀ i, t i < n) ∧ d (t 0) ≤ d (t 1) ∧ ∀ j < n, (∀ i, t i ≠ j) → d (t 1) ≤ d j
  then Classical.choose h else 0

/-- the `distances` of `grid_sample_so2`, cell 15: the inner product of the points of the unit circle with the angles `a` and `b`. -/
noncomputable def distance (a b : ℝ) : ℝ := cos a * cos b + sin a * sin b

/-- the `neighbours` of a query, cell 15. -/
noncomputable def neighbours (signalGrid : Tensor ℝ) (a : ℝ) : Fin 2 → ℕ :=
  topk2 (signalGrid.shape.headD 0) fun j => distance a (signalGrid.get [j])

/-- `grid_sample_so2`, cell 15: `coeffs = dists / (2π / N)`, `(coeffs[..., None] * signal[neighbours]).sum(-2)`. `topk` raises RuntimeError
for fewer than two grid elements, `signal[neighbours]` IndexError for a position beyond the last row of the signal. -/
noncomputable def gridSample (grid signal signalGrid : Tensor ℝ) : Except PyErr (Tensor ℝ) :=
  open Classical in
  let N := signalGrid.shape.headD 0
  if N < 2 then .error .runtimeError
  else if ∃ i < grid.shape.headD 0, ∃ t, signal.shape.headD 0 ≤ neighbours signalGrid (grid.get [i]) t then .error .indexError
  else .ok ⟨[grid.shape.headD 0, signal.shape.getD 1 0], fun idx =>
    ∑ t, distance (grid.get [idx.getD 0 0]) (signalGrid.get [neighbours signalGrid (grid.get [idx.getD 0 0]) t]) / (2 * π / N) *
      signal.get [neighbours signalGrid (grid.get [idx.getD 0 0]) t, idx.getD 1 0]⟩

/-- the arguments of the classes of the notebook and their defaults, cells 17, 19, 22, 24. -/
structure Opts where
  inC : ℕ
  outC : ℕ
  kernelSize : ℕ
  groupKernelSize : ℕ
  groups : ℕ := 1
  stride : ℕ := 1
  padding : PadArg := .int 0
  dilation : ℕ := 1
  paddingMode : String := "zeros"

/-- the arguments of the base class in `GLiftingKernelSE2` (cell 17) and `GSeparableKernelSE2` (cell 19). -/
noncomputable def kernel (a : Opts) (sampleH : Tensor ℝ → Tensor ℝ → Tensor ℝ → Except PyErr (Tensor ℝ)) : GroupKernel ℝ 2 where
  inC := a.inC
  outC := a.outC
  kernelSize := [a.kernelSize, a.kernelSize]
  groupKernelSize := [a.groupKernelSize]
  groups := a.groups
  gridH := uniformGrid a.groupKernelSize
  gridRn := createGridR2 a.kernelSize
  mask := none
  detH := some det
  inverseH := inverse
  leftApplyToH := leftApplyToH
  leftApplyToRn := leftApplyToR2
  sampleH := sampleH
  sampleRn := F.gridSample "bilinear" "border"

/-- the arguments of `GLiftingConv2d` (cell 22) and `GSeparableConv2d` (cell 24). -/
def layerArgs (a : Opts) : Args :=
  args2d a.inC a.outC a.kernelSize (.int a.groupKernelSize) a.groups a.stride a.padding a.dilation a.paddingMode

/-- `GLiftingConvSE2.__init__`, cell 22 (kernel: cell 17). -/
noncomputable def liftingConv (a : Opts) : Except PyErr (Module ℝ 2) :=
  build (checkGroups a.groups (kernel a noSampler)) (layerArgs a) false

/-- `GSeparableConvSE2.__init__`, cell 24 (kernel: cell 19). -/
noncomputable def separableConv (a : Opts) : Except PyErr (Module ℝ 2) :=
  build (checkGroups a.groups (kernel a gridSample)) (layerArgs a) false

/-- the program of cells 22 and 24: `x2, H2 = lifting_layer(x1, H1)`, `x3, H3 = conv_layer(x2, H2, H2)` with
`H1 = uniform_grid_so2(group_kernel_size)`; `w` and `wH`, `wS` are the parameters of the two layers. -/
noncomputable def program (inC outC k n : ℕ) (w wH wS x : Tensor ℝ) :
    Except PyErr ((Tensor ℝ × Tensor ℝ) × (Tensor ℝ × Tensor ℝ)) := do
  let lifting ← liftingConv { inC := inC, outC := outC, kernelSize := k, groupKernelSize := n }
  let f₁ ← lifting.layer.liftingForward lifting.kernel w none x (uniformGrid n)
  let conv ← separableConv { inC := outC, outC := outC, kernelSize := k, groupKernelSize := n }
  let f₂ ← conv.layer.separableForward conv.kernel wH wS none f₁.1 f₁.2 f₁.2
  return (f₁, f₂)

end GConv.Tutorial

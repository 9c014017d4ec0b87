import Verif.Model.Network
import Verif.Model.GridCache

/-! # Model of the program in `README.md:20-34`

The first program a user runs. The sizes of the volume, the channels and the extent of the kernels are kept as parameters;
everything else has the default value of the constructors, as in the README. -/

namespace GConv.Readme

open Conv SO3

/-- `GLiftingConvSE3(in_channels=cin, out_channels=cout, kernel_size=k)`: the arguments that go to the kernel with the defaults
of gconv_se3.py:12-28 and gconv_se3.py:94-114 (`group_kernel_size=4`, `groups=1`, `"rbf"`, width `0.0`, `"bilinear"`, `"border"`,
`mask=True`, no grid). -/
def args (cin cout k : ℕ) : KernelArgs Mat3 ℕ := { inC := cin, outC := cout, kernelSize := k, groupKernelSize := 4 }

/-- `x2, H1 = lifting_layer(x1)` and `x3, H2 = gconv_layer(x2, H1)` (README.md:25-31), after the construction of the two layers with the
parameters `w` and `wH`, `wS`. `q₁`, `q₂` are the outcomes of `torch.randn(1, 4)` in the two forward passes; `opt₁`, `opt₂` what the
optimiser would return if a grid had to be computed (it has not: the grids of 4 elements are shipped). -/
noncomputable def features (opt₁ opt₂ : List Euler) (cin cmid cout k : ℕ) (w wH wS : Tensor ℝ) (q₁ q₂ : Quat) (x : Tensor ℝ) :
    Except PyErr ((Tensor ℝ × Tensor Mat3) × (Tensor ℝ × Tensor Mat3)) := do
  let lifting ← liftingSE3 initialStore opt₁ (args cin cmid k) {}
  let gconv ← fullSE3 initialStore opt₂ (args cmid cout k) {}
  let f₁ ← lifting.lift (moveSE3 q₁) w none x none
  let f₂ ← gconv.separableSE (moveSE3 q₂) wH wS none f₁.1 f₁.2 none
  return (f₁, f₂)

/-- the whole program: `y = pool(x3, H2)` with `pool = GAvgGlobalPool()` (README.md:28, 33). -/
noncomputable def program (opt₁ opt₂ : List Euler) (cin cmid cout k : ℕ) (w wH wS : Tensor ℝ) (q₁ q₂ : Quat) (x : Tensor ℝ) :
    Except PyErr (Tensor ℝ) := do
  let f ← features opt₁ opt₂ cin cmid cout k w wH wS q₁ q₂ x
  let r ← Pooling.avgGlobal f.2.1
  return Net.values r

end GConv.Readme

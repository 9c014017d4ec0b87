import Verif.Torch.NN

/-! # Model of `gconv/gnn/modules/activations.py` and `gconv/gnn/modules/wrappers.py` -/

namespace GConv.Activations

open Tensor

variable {G : Type}

/-- the three activation modules with their constructor arguments (`inplace=True`, which also overwrites the
argument, is not modelled). -/
inductive Act
  /-- `GReLU()`, activations.py:5-7 -/
  | relu
  /-- `GGELU(approximate)`, activations.py:10-12 -/
  | gelu (approximate : String)
  /-- `GLeakyReLU(negative_slope)`, activations.py:15-17 -/
  | leaky (slope : ℝ)

/-- the function applied by the base class; `F.gelu` raises RuntimeError for an unknown `approximate`. -/
noncomputable def Act.fn : Act → Except PyErr (ℝ → ℝ)
  | .relu => .ok F.relu
  | .gelu s => if s = "none" then .ok F.gelu else if s = "tanh" then .ok F.geluTanh else .error .runtimeError
  | .leaky s => .ok (F.leakyRelu s)

/-- `return super().forward(x), H`, activations.py:6-7, 11-12, 16-17. -/
noncomputable def Act.forward (a : Act) (x : Tensor ℝ) (H : Tensor G) : Except PyErr (Tensor ℝ × Tensor G) := do
  let f ← a.fn
  return (x.map f, H)

/-- the argument of `GWrap`: an `nn.Module` or another callable. -/
inductive Callable
  | module (f : Tensor ℝ → Except PyErr (Tensor ℝ))
  | other (f : Tensor ℝ → Except PyErr (Tensor ℝ))

/-- `GWrap.__init__`, wrappers.py:6-16: `self.module = module` without `super().__init__()`.
`nn.Module.__setattr__` raises AttributeError when a module is assigned before `Module.__init__`; other values
are stored. -/
def wrap : Callable → Except PyErr (Tensor ℝ → Except PyErr (Tensor ℝ))
  | .module _ => .error .attributeError
  | .other f => .ok f

/-- calling the wrapped object, `w(x, H)`: `nn.Module.__call__` looks up hook tables that `Module.__init__` would
have created (AttributeError) before it reaches `forward` (wrappers.py:18-19). -/
def call (_ : Tensor ℝ → Except PyErr (Tensor ℝ)) (_ : Tensor ℝ) (_ : Tensor G) : Except PyErr (Tensor ℝ × Tensor G) :=
  .error .attributeError

/-- `w.forward(x, H)` called directly, wrappers.py:18-19. -/
def forward (w : Tensor ℝ → Except PyErr (Tensor ℝ)) (x : Tensor ℝ) (H : Tensor G) :
    Except PyErr (Tensor ℝ × Tensor G) := do
  let y ← w x
  return (y, H)

end GConv.Activations

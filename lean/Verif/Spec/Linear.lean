import Verif.Torch.Tensor

/-! # Specification of linearity for calls that may raise -/

namespace GConv.Spec

/-- `z` is the tensor `α x + β y` (computed entry by entry; `x`, `y` have the shape of `z`). -/
def IsComb (α β : ℝ) (x y z : Tensor ℝ) : Prop :=
  x.shape = z.shape ∧ y.shape = z.shape ∧ ∀ idx, z.get idx = α * x.get idx + β * y.get idx

/-- optional parameters: all absent, or all present and combined. -/
inductive IsCombOpt (α β : ℝ) : Option (Tensor ℝ) → Option (Tensor ℝ) → Option (Tensor ℝ) → Prop
  | none : IsCombOpt α β none none none
  | some {x y z} : IsComb α β x y z → IsCombOpt α β (some x) (some y) (some z)

/-- three calls have corresponding outcomes: all raise the same error, or all succeed with results related by `R`. -/
inductive Outcomes {A : Type} (R : A → A → A → Prop) : Except PyErr A → Except PyErr A → Except PyErr A → Prop
  | error (e : PyErr) : Outcomes R (.error e) (.error e) (.error e)
  | ok {x y z : A} : R x y z → Outcomes R (.ok x) (.ok y) (.ok z)

/-- the results of three layer calls: the third feature map is `α` times the first plus `β` times the second, the
returned grids are the same. -/
def CombLayer {G : Type} (α β : ℝ) (x y z : Tensor ℝ × Tensor G) : Prop :=
  IsComb α β x.1 y.1 z.1 ∧ x.2 = z.2 ∧ y.2 = z.2

end GConv.Spec

import Verif.Torch.Tensor

/-! # Batches put together from the samples of another batch -/

namespace GConv.Spec

open Tensor

/-- `y` is a batch of `N' > 0` samples taken from the batch `x` of `N` samples: sample `b` of `y` is sample `r b` of
`x`. Samples may be left out, repeated and put in another order. Samples have `k` axes. -/
structure Picks (r : ℕ → ℕ) (N N' k : ℕ) (x y : Tensor ℝ) : Prop where
  pos : 0 < N'
  lt : ∀ b < N', r b < N
  samples : ∃ s, s.length = k ∧ x.shape = N :: s ∧ y.shape = N' :: s ∧
    ∀ b q, b < N' → InB s q → y.get (b :: q) = x.get (r b :: q)

/-- two calls have corresponding outcomes: both raise the same error, or both succeed with results related by `R`. -/
inductive Outcomes2 {A B : Type} (R : A → B → Prop) : Except PyErr A → Except PyErr B → Prop
  | error (e : PyErr) : Outcomes2 R (.error e) (.error e)
  | ok {x : A} {y : B} : R x y → Outcomes2 R (.ok x) (.ok y)

/-- results of layers: the feature maps correspond, the grids are the same. -/
def PicksLayer {G : Type} (r : ℕ → ℕ) (N N' k : ℕ) (x y : Tensor ℝ × Tensor G) : Prop :=
  Picks r N N' k x.1 y.1 ∧ x.2 = y.2

end GConv.Spec

import Verif.Spec.Random
import Verif.Torch.Tensor

/-! # Laws of random results that correspond under a symmetry -/

namespace GConv.Spec

open MeasureTheory

/-- The random results `f` and `f'` (calls that draw `ω` with law `P`) succeed almost surely, and `f'` is distributed like the
moved `f`: events `A`, `A'` that say the same about a result `r` and about any result `r'` that is `r` moved have the same
probability. -/
def MovedLaw {Ω R : Type} [MeasurableSpace Ω] (P : Measure Ω) (f f' : Ω → Except PyErr R) (moved : R → R → Prop) : Prop :=
  (∀ᵐ ω ∂P, ∃ r, f ω = .ok r) ∧ (∀ᵐ ω ∂P, ∃ r, f' ω = .ok r) ∧
    ∀ A A' : Set R, (∀ r r', moved r r' → (r ∈ A ↔ r' ∈ A')) →
      P {ω | ∃ r ∈ A, f ω = .ok r} = P {ω | ∃ r ∈ A', f' ω = .ok r}

/-- Two pooled results with the same numbers at all batch elements `< N` and channels `< C`. -/
def SamePooled (N C : ℕ) (z z' : Tensor ℝ) : Prop :=
  z.shape = [N, C, 1] ∧ z'.shape = [N, C, 1] ∧ ∀ b c, b < N → c < C → z'.get [b, c, 0] = z.get [b, c, 0]

end GConv.Spec

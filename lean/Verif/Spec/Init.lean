import Verif.Torch.Tensor
import Verif.Spec.Random
import Mathlib.Probability.HasLaw
import Mathlib.Probability.Independence.Basic
import Mathlib.Probability.ConditionalProbability

/-! # Specification of random parameters -/

namespace GConv.Spec

open MeasureTheory ProbabilityTheory

/-- the uniform distribution on `[-b, b]`. -/
noncomputable def uniformPM (b : ℝ) : Measure ℝ := cond volume (Set.Icc (-b) b)

/-- all entries of all random tensors `T a` (for the names `a` in use, of the given shapes) together are independent,
and every entry of `T a` has the law `law a`. -/
def IndependentEntries {Ω A : Type} [MeasurableSpace Ω] (P : Measure Ω) (inUse : A → Prop) (shape : A → List ℕ)
    (entry : A → List ℕ → Ω → ℝ) (law : A → Measure ℝ) : Prop :=
  (iIndepFun (fun e : {e : A × List ℕ // inUse e.1 ∧ Tensor.InB (shape e.1) e.2} => entry e.1.1 e.1.2) P) ∧
  ∀ a, inUse a → ∀ i, Tensor.InB (shape a) i → HasLaw (entry a i) (law a) P

end GConv.Spec

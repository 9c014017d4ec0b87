import Mathlib.Probability.Distributions.Gaussian.Real
import Mathlib.MeasureTheory.Constructions.Pi
import Mathlib.MeasureTheory.Measure.Lebesgue.Basic

/-! # Specification of random draws and of uniformly distributed random grids -/

namespace GConv.Spec

open MeasureTheory ProbabilityTheory

/-- the law of one number drawn by `torch.rand`: uniform on `[0, 1)`. -/
noncomputable def uniform01 : Measure ℝ := volume.restrict (Set.Ico 0 1)

/-- the law of `k` numbers drawn by `torch.randn`: independent standard normal. -/
noncomputable def normal (k : ℕ) : Measure (Fin k → ℝ) := Measure.pi fun _ => gaussianReal 0 1

/-- events about matrices are events about their nine entries. -/
instance : MeasurableSpace (Matrix (Fin 3) (Fin 3) ℝ) := inferInstanceAs (MeasurableSpace (Fin 3 → Fin 3 → ℝ))

/-- The rows `X ω 0, …, X ω (n-1)` of a random grid are independent and uniformly distributed with respect to the
group elements satisfying `IsElt`, which act by `act`: multiplying every row by a group element, the same or a
different one for each row, does not change the joint distribution.  (For a compact group acting transitively this
characterises the product of the normalised Haar measures.) -/
def UniformRows {Ω Γ E : Type} [MeasurableSpace Ω] [MeasurableSpace E] {n : ℕ} (P : Measure Ω) (X : Ω → Fin n → E)
    (IsElt : Γ → Prop) (act : Γ → E → E) : Prop :=
  ∀ g : Fin n → Γ, (∀ i, IsElt (g i)) → ∀ A : Set (Fin n → E), MeasurableSet A →
    P {ω | (fun i => act (g i) (X ω i)) ∈ A} = P {ω | X ω ∈ A}

/-- A random move of group elements is uniformly distributed: however many elements `h 0, …, h (n-1)` it is applied to,
the joint distribution of the moved elements does not change when they are multiplied by a fixed group element
afterwards, nor when they are multiplied by one before. -/
def UniformMove {Ω E : Type} [MeasurableSpace Ω] [MeasurableSpace E] (P : Measure Ω) (move : Ω → E → E)
    (IsElt : E → Prop) (mul : E → E → E) : Prop :=
  ∀ (n : ℕ) (h : Fin n → E), (∀ i, IsElt (h i)) → ∀ g, IsElt g → ∀ A : Set (Fin n → E), MeasurableSet A →
    P {ω | (fun i => mul g (move ω (h i))) ∈ A} = P {ω | (fun i => move ω (h i)) ∈ A} ∧
    P {ω | (fun i => move ω (mul g (h i))) ∈ A} = P {ω | (fun i => move ω (h i)) ∈ A}

end GConv.Spec

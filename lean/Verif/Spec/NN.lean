import Verif.Spec.Conv

/-! # Means, maxima, reorderings -/

namespace GConv.Spec

open Tensor

/-- mean of `f` over a box. -/
noncomputable def meanOver (s : List ℕ) (f : List ℕ → ℝ) : ℝ := sumBox s f / (s.prod : ℝ)

/-- variance of `f` over a box (divided by the number of cells). -/
noncomputable def varOver (s : List ℕ) (f : List ℕ → ℝ) : ℝ := meanOver s fun i => (f i - meanOver s f) ^ 2

/-- unbiased variance of `f` over a box (divided by the number of cells minus one). -/
noncomputable def varUnbiased (s : List ℕ) (f : List ℕ → ℝ) : ℝ :=
  sumBox s (fun i => (f i - meanOver s f) ^ 2) / ((s.prod : ℝ) - 1)

/-- `(x - mean) / sqrt(var + eps) * scale + shift`. -/
noncomputable def normalised (eps mean var scale shift x : ℝ) : ℝ := (x - mean) / Real.sqrt (var + eps) * scale + shift

/-- channel `c` of a batch of feature maps `(N, C, n, *S)`; `i` is batch element, group position, cell. -/
def channelOf (x : Tensor ℝ) (c : ℕ) (i : List ℕ) : ℝ := x.get (i.headD 0 :: c :: i.tail)

/-- `m` is the largest value of `f` on a box. -/
def IsMaxOver (s : List ℕ) (f : List ℕ → ℝ) (m : ℝ) : Prop :=
  (∃ i, InB s i ∧ f i = m) ∧ ∀ i, InB s i → f i ≤ m

/-- `φ` maps the cells of the box `s` one to one onto the cells of the box `t`. -/
def BoxBijection (s t : List ℕ) (φ : List ℕ → List ℕ) : Prop :=
  (∀ i, InB s i → InB t (φ i)) ∧ (∀ i j, InB s i → InB s j → φ i = φ j → i = j) ∧
    ∀ j, InB t j → ∃ i, InB s i ∧ φ i = j

end GConv.Spec

import Mathlib.Analysis.SpecialFunctions.Trigonometric.Inverse
import Mathlib.Analysis.SpecialFunctions.Complex.Arg
import Mathlib.Algebra.BigOperators.Fin

/-!
# Scalar primitives of torch / Python used by the code

These are the meanings we assume for library functions (trusted base, DESIGN.md §3).
Floating point numbers are modelled as exact reals.
-/

namespace GConv

/-- Python exceptions that the modelled code can raise. -/
inductive PyErr
  | valueError | keyError | indexError | typeError | runtimeError
  | unboundLocalError | attributeError | zeroDivisionError
  deriving DecidableEq, Repr

/-- `a % m` of Python / `torch.remainder` (result has the sign of the modulus). -/
noncomputable def pyMod (a m : ℝ) : ℝ := a - m * ⌊a / m⌋

/-- `torch.clamp(x, lo, hi)` = `min(max(x, lo), hi)`. -/
noncomputable def clamp (x lo hi : ℝ) : ℝ := min (max x lo) hi

/-- `torch.atan2(y, x)`; `atan2(0, 0) = 0`, range `(-π, π]`. -/
noncomputable def atan2 (y x : ℝ) : ℝ := Complex.arg ⟨x, y⟩

/-- element `i` of `torch.linspace(a, b, n)`; one step gives `[a]`. -/
noncomputable def linspaceAt (a b : ℝ) (n i : ℕ) : ℝ :=
  if n ≤ 1 then a else a + i * ((b - a) / ((n : ℝ) - 1))

/-- `torch.linspace(a, b, n)`. -/
noncomputable def linspace (a b : ℝ) (n : ℕ) : List ℝ :=
  (List.range n).map (linspaceAt a b n)

/-- `torch.argmax` of a non-empty vector: the first position of a maximum. -/
noncomputable def argmaxAux : List ℝ → ℕ → ℕ → ℝ → ℕ
  | [], _, best, _ => best
  | x :: xs, i, best, v => if v < x then argmaxAux xs (i + 1) i x else argmaxAux xs (i + 1) best v

noncomputable def argmax : List ℝ → ℕ
  | [] => 0
  | x :: xs => argmaxAux xs 1 0 x

/-- `torch.linalg.norm(v, dim=-1)` of one vector. -/
noncomputable def vnorm {n : ℕ} (v : Fin n → ℝ) : ℝ := Real.sqrt (∑ i, v i ^ 2)

/-- `torch.sort` of a vector (ascending). -/
noncomputable def sortL (l : List ℝ) : List ℝ :=
  open Classical in l.mergeSort (fun a b => decide (a ≤ b))

end GConv

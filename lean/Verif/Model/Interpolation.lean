import Verif.Torch.Tensor
import Mathlib.LinearAlgebra.Matrix.NonsingularInverse
import Mathlib.Analysis.SpecialFunctions.Exp

/-! # Model of `gconv/geometry/interpolation.py`

Simplification: the leading batch axis `N` of `nodes`, `grid`, `signal` is dropped; every caller in
the repo passes a batch of one (`grid[None]`, `so2.py:215-228`, `so3.py:702-715`).  The trailing
component axis `D` of a node is folded into the entry type `G`. -/

namespace GConv.Interp

open Tensor

/-- `RBF_gauss`, interpolation.py:6-19. -/
noncomputable def RBFgauss (x width : ℝ) : ℝ :=
  Real.exp (-(x ^ 2 / (width ^ 2 / 0.69314718)))

/-- the matrix `m` of `interpolate_RBF`, interpolation.py:50: `rbf(dist_fn(grid[i], grid[j]), width)`. -/
noncomputable def rbfMatrix {G : Type*} (dist : G → G → ℝ) (rbf : ℝ → ℝ → ℝ) (width : ℝ)
    (grid : Tensor G) : Matrix (Fin (grid.shape.headD 0)) (Fin (grid.shape.headD 0)) ℝ :=
  Matrix.of fun i j => rbf (dist (grid.get [i]) (grid.get [j])) width

/-- `interpolate_RBF`, interpolation.py:22-55.  `torch.linalg.solve(m, signal)` is `m⁻¹ * signal`,
RuntimeError when `m` is singular or `signal` does not have one row per grid node. -/
noncomputable def interpolateRBF {G : Type*} (dist : G → G → ℝ) (rbf : ℝ → ℝ → ℝ) (width : ℝ)
    (nodes grid : Tensor G) (signal : Tensor ℝ) : Except PyErr (Tensor ℝ) :=
  let m := rbfMatrix dist rbf width grid
  if signal.shape.headD 0 ≠ grid.shape.headD 0 ∨ m.det = 0 then .error .runtimeError
  else
    -- coeffs = torch.linalg.solve(m, signal)
    let coeffs : Fin (grid.shape.headD 0) → ℕ → ℝ :=
      fun j s => m⁻¹.mulVec (fun i => signal.get [i, s]) j
    -- p = rbf(dist_fn(nodes, grid), width);  return p @ coeffs
    .ok ⟨[nodes.shape.headD 0, signal.shape.getD 1 0],
      fun idx => ∑ j : Fin (grid.shape.headD 0),
        rbf (dist (nodes.get [idx.getD 0 0]) (grid.get [j])) width * coeffs j (idx.getD 1 0)⟩

/-- `torch.topk(d, k=1, largest=False)[1]` on a vector of length `n`: an index of a minimum
(which one in case of ties is not specified by torch and not assumed here). -/
noncomputable def topk1 (n : ℕ) (d : ℕ → ℝ) : ℕ :=
  open Classical in
  if h : ∃ i, i < n ∧ ∀ j < n, d i ≤ d j then Classical.choose h else 0

/-- the position `topk` selects for query `i` of `interpolate_NN`, interpolation.py:83-84. -/
noncomputable def nnIdx {G : Type*} (dist : G → G → ℝ) (nodes grid : Tensor G) (i : ℕ) : ℕ :=
  topk1 (grid.shape.headD 0) (fun j => dist (nodes.get [i]) (grid.get [j]))

/-- `interpolate_NN`, interpolation.py:58-86.  RuntimeError when the grid is empty (`k=1` exceeds the
extent), and when `signal.gather` meets a selected position beyond the last row of the signal (possible
only if the signal has fewer rows than the grid; there is nothing to gather if there are no columns). -/
noncomputable def interpolateNN {G : Type*} (dist : G → G → ℝ)
    (nodes grid : Tensor G) (signal : Tensor ℝ) : Except PyErr (Tensor ℝ) :=
  open Classical in
  if grid.shape.headD 0 = 0 ∨ (signal.shape.getD 1 0 ≠ 0 ∧
      ∃ i < nodes.shape.headD 0, signal.shape.headD 0 ≤ nnIdx dist nodes grid i) then .error .runtimeError
  else
    .ok ⟨[nodes.shape.headD 0, signal.shape.getD 1 0],
      fun idx => signal.get [nnIdx dist nodes grid (idx.getD 0 0), idx.getD 1 0]⟩

/-- `torch.topk(d, k=3, largest=False)[1]` on a vector of length `n`: three distinct positions of the
smallest entries in ascending order (ties are not specified by torch and nothing is assumed). -/
noncomputable def topk3 (n : ℕ) (d : ℕ → ℝ) : Fin 3 → ℕ :=
  open Classical in
  if h : ∃ t : Fin 3 → ℕ, Function.Injective t ∧ (∀ i, t i < n) ∧ d (t 0) ≤ d (t 1) ∧ d (t 1) ≤ d (t 2) ∧
      ∀ j < n, (∀ i, t i ≠ j) → d (t 2) ≤ d j
  then Classical.choose h else 0

/-- squared residual `‖Σ x_i s_i - b‖²`. -/
def residual {D : ℕ} (s : Fin 3 → Fin D → ℝ) (b : Fin D → ℝ) (x : Fin 3 → ℝ) : ℝ :=
  ∑ k, (∑ i, x i * s i k - b k) ^ 2

/-- `torch.linalg.lstsq(sᵀ, b)[0]`: a minimiser of the squared residual (which one, when there are
several, is not assumed). -/
noncomputable def lstsq {D : ℕ} (s : Fin 3 → Fin D → ℝ) (b : Fin D → ℝ) : Fin 3 → ℝ :=
  open Classical in
  if h : ∃ x, ∀ y, residual s b x ≤ residual s b y then Classical.choose h else 0

/-- the weights of one query of `interpolate_BCC`, interpolation.py:127-134: a node closer than `eps`
gets weights `(1,0,0)`; negative weights are set to zero; the weights are divided by their sum. -/
noncomputable def bccWeights (d0 eps : ℝ) (sol : Fin 3 → ℝ) : Fin 3 → ℝ :=
  let b : Fin 3 → ℝ := if d0 ≤ eps then ![1, 0, 0] else sol
  let b : Fin 3 → ℝ := fun i => if b i < 0 then 0 else b i
  fun i => b i / ∑ j, b j

/-- `interpolate_BCC`, interpolation.py:89-142.  RuntimeError when the grid has fewer than three nodes
(`k=3` exceeds the extent) or a node has fewer than three components (`gather` index too large). -/
noncomputable def interpolateBCC {D : ℕ} (dist : (Fin D → ℝ) → (Fin D → ℝ) → ℝ) (eps : ℝ)
    (nodes grid : Tensor (Fin D → ℝ)) (signal : Tensor ℝ) : Except PyErr (Tensor ℝ) :=
  let L := grid.shape.headD 0
  if L < 3 ∨ D < 3 then .error .runtimeError
  else
    .ok ⟨[nodes.shape.headD 0, signal.shape.getD 1 0],
      fun idx =>
        let x := nodes.get [idx.getD 0 0]
        let t := topk3 L (fun j => dist x (grid.get [j]))
        let simplices := fun i => grid.get [t i]
        let bcc := bccWeights (dist x (grid.get [t 0])) eps (lstsq simplices x)
        ∑ i, bcc i * signal.get [t i, idx.getD 1 0]⟩

end GConv.Interp

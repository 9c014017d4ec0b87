import Verif.Model.SO3

/-! # Model of `gconv/geometry/repulsion.py` -/

namespace GConv.Repulsion

/-- `columb_energy`, repulsion.py:16-27 (one entry, positive exponent). -/
noncomputable def columbEnergy (d : ℝ) (k : ℕ) : ℝ := d ^ (-(k : ℤ))

/-- A grid `(N, D)`: a list of rows. -/
abbrev Grid (D : ℕ) := List (Fin D → ℝ)

/-- `mean_total_energy`, repulsion.py:77-84: every row of pairwise distances is sorted and its first
entry dropped; the normalised distances are mapped through the energy and averaged. -/
noncomputable def meanTotalEnergy {D : ℕ} {Q : Type} (transform : (Fin D → ℝ) → Q) (metric : Q → Q → ℝ)
    (energy : ℝ → ℝ) (norm : ℝ) (grid : Grid D) : ℝ :=
  let es := grid.flatMap fun a =>
    ((sortL (grid.map fun b => metric (transform a) (transform b))).drop 1).map fun d => energy (d / norm)
  es.sum / es.length

/-- the factor of the noise added to the gradient in epoch `epoch`, repulsion.py:86-91. -/
noncomputable def noiseFactor (steps epoch : ℕ) (alpha : ℝ) : ℝ :=
  ((steps : ℝ) - epoch) / steps * alpha

/-- One pass of the loop body, repulsion.py:71-93: the gradient plus scaled noise, then
`optimizer.step()` of plain SGD (`p -= lr * grad`). `grad` is the gradient that autograd computes. -/
noncomputable def sgdStep {D : ℕ} (grad : Grid D → Grid D) (steps : ℕ) (lr alpha : ℝ)
    (noise : Grid D) (epoch : ℕ) (g : Grid D) : Grid D :=
  let gr := List.zipWith (fun a b => a + noiseFactor steps epoch alpha • b) (grad g) noise
  List.zipWith (fun p d => p - lr • d) g gr

/-- Tensors by reference: a heap of grids. -/
abbrev Heap (D : ℕ) := List (Grid D)

/-- `repulse`, repulsion.py:30-97: `grid` is a reference `loc`; `clone()` allocates a new cell; the loop
updates the working cell; the returned (detached) tensor shares the working cell. `noise e` is the draw
of epoch `e`. -/
noncomputable def repulse {D : ℕ} (grad : Grid D → Grid D) (steps : ℕ) (lr alpha : ℝ)
    (noise : ℕ → Grid D) (inPlace : Bool) (heap : Heap D) (loc : ℕ) : Heap D × ℕ :=
  let (heap, work) := if inPlace then (heap, loc) else (heap ++ [heap.getD loc []], heap.length)
  let heap := (List.range steps).foldl
    (fun h epoch => h.set work (sgdStep grad steps lr alpha (noise epoch) epoch (h.getD work []))) heap
  (heap, work)

end GConv.Repulsion

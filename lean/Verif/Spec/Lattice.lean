import Mathlib.LinearAlgebra.Matrix.NonsingularInverse
import Mathlib.LinearAlgebra.Matrix.Notation
import Mathlib.Data.Real.Basic
import Mathlib.Logic.Equiv.Fin.Basic

/-! # Lattice symmetries: signed permutations of the coordinate axes

These are the rotations and reflections that map a pixel lattice to itself. -/

namespace GConv.Spec

/-- A signed permutation of `d` coordinates: coordinate `c` of the image of `v` is
`± v (perm c)`, with a minus sign when `flip c`. -/
structure LatticeSym (d : ℕ) where
  perm : Equiv.Perm (Fin d)
  flip : Fin d → Bool

namespace LatticeSym
variable {d : ℕ}

/-- the matrix of the symmetry. -/
def matrix (σ : LatticeSym d) : Matrix (Fin d) (Fin d) ℝ :=
  Matrix.of fun i j => if j = σ.perm i then (if σ.flip i then -1 else 1) else 0

/-- How the symmetry moves the cells of a box.  `ax c` is the tensor axis that coordinate `c` runs
along, `S` the extents of the box that the cells are moved to: the entry of the new position on axis
`ax c` is the entry of `p` on axis `ax (perm c)`, counted from the other end when `flip c`. -/
def move (ax : Equiv.Perm (Fin d)) (σ : LatticeSym d) (S p : List ℕ) : List ℕ :=
  List.ofFn fun a : Fin d =>
    let c := ax.symm a
    let i := p.getD (ax (σ.perm c)) 0
    if σ.flip c then S.getD a 0 - 1 - i else i

/-- extents of the box after the symmetry: axis `ax (perm c)` of the box of `p` has the extent of axis
`ax c` of the target box. -/
def Matches (ax : Equiv.Perm (Fin d)) (σ : LatticeSym d) (S' S : List ℕ) : Prop :=
  S'.length = d ∧ S.length = d ∧ ∀ c : Fin d, S'.getD (ax (σ.perm c)) 0 = S.getD (ax c) 0

/-- coordinates of cell `p` relative to the centre of a box with extents `S`. -/
noncomputable def centred (ax : Equiv.Perm (Fin d)) (S p : List ℕ) : Fin d → ℝ :=
  fun c => (p.getD (ax c) 0 : ℝ) - ((S.getD (ax c) 0 : ℝ) - 1) / 2

/-- axis convention of `create_grid_R2`: coordinate `c` runs along axis `c`. -/
def ax2 : Equiv.Perm (Fin 2) := Equiv.refl _

/-- axis convention of `create_grid_R3`: coordinate `c` runs along axis `2 - c`. -/
def ax3 : Equiv.Perm (Fin 3) := Fin.revPerm

end LatticeSym
end GConv.Spec

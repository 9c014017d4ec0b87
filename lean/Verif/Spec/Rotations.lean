import Verif.Model.Modules
import Verif.Spec.Reading

/-! # Rotations as elements of O(2) and O(3), and layers with the same arguments for both kinds of groups -/
namespace GConv.Spec

open Tensor

/-- a rotation of the plane as an element of O(2): coefficient 1. -/
def asO2 (t : ℝ) : O2.Elt := (1, t)

/-- a rotation of space as an element of O(3): coefficient 1. -/
def asO3 (R : SO3.Mat3) : O3.Elt := O3.mk 1 R

/-- The arguments of an SE(n) and of an E(n) kernel that do not concern the group agree. -/
structure SameArgs {G G' S S' : Type} (k : KernelArgs G S) (k' : KernelArgs G' S') : Prop where
  inC : k'.inC = k.inC
  outC : k'.outC = k.outC
  kernelSize : k'.kernelSize = k.kernelSize
  groups : k'.groups = k.groups
  spatialMode : k'.spatialMode = k.spatialMode
  spatialPad : k'.spatialPad = k.spatialPad

/-- The first `n` elements of the reference grid `g'` of an E(n) kernel are the `n` rotations of the reference grid `g` of an
SE(n) kernel. -/
def StartsWith {G G' : Type} (asG : G → G') (n : ℕ) (g : Tensor G) (g' : Tensor G') : Prop :=
  g.shape = [n] ∧ (∃ l, g'.shape = [l] ∧ n ≤ l) ∧ ∀ i < n, g'.get [i] = asG (g.get [i])

/-- the feature maps have the same entries, the grid of the second is the image of the grid of the first. -/
def SameMaps {G G' : Type} (asG : G → G') (y : Tensor ℝ × Tensor G) (y' : Tensor ℝ × Tensor G') : Prop :=
  SameEntries y.1 y'.1 ∧ y'.2 = y.2.map asG

end GConv.Spec

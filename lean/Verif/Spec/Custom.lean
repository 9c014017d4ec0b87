import Verif.Props.Kernel
import Verif.Spec.Equivariance

/-! # Custom groups

What the README asks of a user who implements a group convolution of his own: the group operations, for tensors of group elements. -/

namespace GConv.Spec

open Tensor GroupKernel

variable {G : Type} {d : ℕ}

/-- The callables handed to the kernel `K` are the operations of the group `G`, element by element: inverse, product, an action `act` on
vectors and (if given) a determinant, which is multiplicative. -/
structure GroupOps [Group G] (K : GroupKernel G d) (act : G → (Fin d → ℝ) → (Fin d → ℝ)) (det : Option (G → ℝ)) : Prop where
  elementwise : Lawful K (·⁻¹) (· * ·) act det
  act_one : ∀ v, act 1 v = v
  act_mul : ∀ a b v, act (a * b) v = act a (act b v)
  det_mul : ∀ f, det = some f → ∀ a b, f (a * b) = f a * f b

/-- `g` acts on the spatial grid of the kernel as the symmetry `σ` of the pixel lattice (coordinate `c` runs along axis `e c`): the cells
of the cubic kernel are permuted, and the mask is the same on moved cells. -/
structure ActsAs (K : GroupKernel G d) (act : G → (Fin d → ℝ) → (Fin d → ℝ)) (e : Equiv.Perm (Fin d)) (σ : LatticeSym d) (g : G) : Prop where
  cube : ∃ s, K.kernelSize = List.replicate d s
  grid : ∀ x, InB K.kernelSize x → K.gridRn.get (LatticeSym.move e σ K.kernelSize x) = act g (K.gridRn.get x)
  mask : ∀ x, InB K.kernelSize x → maskAt K.mask (LatticeSym.move e σ K.kernelSize x) = maskAt K.mask x

end GConv.Spec

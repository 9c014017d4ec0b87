import Verif.Spec.Layer
import Verif.Spec.Lattice

/-! # Shifted and rotated signals -/

namespace GConv.Spec

open Tensor

/-- `p' = p + t`, axis by axis. -/
def ShiftedBy (t : List ℤ) (p p' : List ℕ) : Prop :=
  p.length = t.length ∧ p'.length = t.length ∧ ∀ i < t.length, (p'.getD i 0 : ℤ) = p.getD i 0 + t.getD i 0

/-- the shift of the input that goes with the shift `t` of the output: one step of the output is `stride`
steps of the input. -/
def inputShift (ax : List Axis) (t : List ℤ) : List ℤ := List.zipWith (fun a t => (a.stride : ℤ) * t) ax t

/-- the window of output cell `o` lies inside the signal (no padding is read). -/
def WindowInside (ax : List Axis) (S o : List ℕ) : Prop :=
  ∀ k, InB (kernelDims ax) k → ∃ q, InB S q ∧ readPos ax o k = q.map Int.ofNat

/-- the cell `p + t` on a torus with extents `S`. -/
def wrap (S : List ℕ) (t : List ℤ) (p : List ℕ) : List ℕ :=
  List.ofFn fun i : Fin S.length => (((p.getD i 0 : ℤ) + t.getD i 0) % (S.getD i 0 : ℤ)).toNat

/-- `f'` (extents `S`) is `f` (extents `S'`) moved by the lattice symmetry `σ`; `e` says along which tensor axis
each coordinate runs. -/
def Moved {d : ℕ} (e : Equiv.Perm (Fin d)) (σ : LatticeSym d) (S' S : List ℕ) (f f' : List ℕ → ℝ) : Prop :=
  ∀ q, InB S' q → f' (σ.move e S q) = f q

/-- A geometry that treats all axes and both ends of every axis alike: the same kernel extent, stride and
dilation on every axis, the same padding on both sides, and the stride reaches the last cell of the padded
signal exactly. -/
def SymmetricGeometry (d : ℕ) (ax : List Axis) (S : List ℕ) : Prop :=
  ∃ x : Axis, ax = List.replicate d x ∧ x.left = x.right ∧ ∀ s ∈ S, x.stride ∣ s + x.left + x.right - x.span

/-- `x'` is `x` with its spatial part (extents `S'` and `S`) moved by `σ`, for all leading indices below `pre`. -/
def MovedTensor {d : ℕ} (e : Equiv.Perm (Fin d)) (σ : LatticeSym d) (pre S' S : List ℕ) (x x' : Tensor ℝ) : Prop :=
  x.shape = pre ++ S' ∧ x'.shape = pre ++ S ∧
    ∀ p q, InB pre p → InB S' q → x'.get (p ++ σ.move e S q) = x.get (p ++ q)

/-- The outputs `x` and `x'` of a layer (shape `(N, C, n, *spatial)`): `x'` is `x` with its spatial part moved by
`σ`, the part without bias multiplied by `c`. -/
def MovedOutput {d : ℕ} (e : Equiv.Perm (Fin d)) (σ : LatticeSym d) (c : ℝ) (bias : Option (Tensor ℝ)) (N C n : ℕ)
    (S' S : List ℕ) (x x' : Tensor ℝ) : Prop :=
  x.shape = [N, C, n] ++ S' ∧ x'.shape = [N, C, n] ++ S ∧
    ∀ b co h q, b < N → co < C → h < n → InB S' q →
      x'.get (b :: co :: h :: σ.move e S q) - biasAt bias d co = c * (x.get (b :: co :: h :: q) - biasAt bias d co)

end GConv.Spec

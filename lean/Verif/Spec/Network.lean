import Verif.Spec.Equivariance

/-! # Feature maps turned by a lattice symmetry -/

namespace GConv.Spec

open Tensor

/-- The group elements `H'` are the elements `left h` for `h` in `H`, at position `π k` instead of `k`. -/
def MovedGrid {G : Type} (left : G → G) {n : ℕ} (π : Equiv.Perm (Fin n)) (H H' : Tensor G) : Prop :=
  H.shape = [n] ∧ H'.shape = [n] ∧ ∀ k : Fin n, H'.get [(π k : ℕ)] = left (H.get [(k : ℕ)])

/-- a list of group elements that `left` only puts in another order. -/
def ClosedGrid {G : Type} (left : G → G) (n : ℕ) (H : Tensor G) : Prop := ∃ π : Equiv.Perm (Fin n), MovedGrid left π H H

/-- The feature map `x'` on the group elements `H'` is the feature map `x` on `H` turned by `left` / `σ`: up to an
ordering `π` of the group elements, `x'` at `(left h, σ q)` is `x` at `(h, q)`, for batch elements `< N` and channels
`< C`. The elements of `H` satisfy `Good`. -/
def MovedFeature {G : Type} {d : ℕ} (e : Equiv.Perm (Fin d)) (σ : LatticeSym d) (left : G → G) (Good : G → Prop)
    (N C n : ℕ) (S' S : List ℕ) (x : Tensor ℝ) (H : Tensor G) (x' : Tensor ℝ) (H' : Tensor G) : Prop :=
  x.shape = N :: C :: n :: S' ∧ x'.shape = N :: C :: n :: S ∧ (∀ k < n, Good (H.get [k])) ∧
    ∃ π : Equiv.Perm (Fin n), MovedGrid left π H H' ∧
      ∀ b c q (k : Fin n), b < N → c < C → InB S' q →
        x'.get (b :: c :: (π k : ℕ) :: σ.move e S q) = x.get (b :: c :: (k : ℕ) :: q)

end GConv.Spec

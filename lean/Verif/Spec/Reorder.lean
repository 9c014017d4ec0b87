import Verif.Torch.Tensor

/-! # Listing group elements in another order -/

namespace GConv.Spec

open Tensor

/-- `H'` lists elements of `H`, in any order and with any repetitions: position `h` of `H'` holds the element at
position `ρ h` of `H`. -/
def Lists {G : Type} (ρ : ℕ → ℕ) (n n' : ℕ) (H H' : Tensor G) : Prop :=
  H.shape = [n] ∧ H'.shape = [n'] ∧ ∀ h < n', ρ h < n ∧ H'.get [h] = H.get [ρ h]

/-- `x'` (shape `(N, C, n, *S)`) is `x` with its group axis put in another order: position `π k` of the group axis
of `x` becomes position `k`. -/
def GroupAxisPermuted {n : ℕ} (π : Equiv.Perm (Fin n)) (N C : ℕ) (S : List ℕ) (x x' : Tensor ℝ) : Prop :=
  x.shape = N :: C :: n :: S ∧ x'.shape = N :: C :: n :: S ∧
    ∀ b c q (k : Fin n), b < N → c < C → InB S q → x'.get (b :: c :: (k : ℕ) :: q) = x.get (b :: c :: (π k : ℕ) :: q)

/-- `y'` (shape `(N, C, n', *T)`) holds at group position `h` what `y` (shape `(N, C, n, *T)`) holds at `ρ h`. -/
def GroupAxisReindexed (ρ : ℕ → ℕ) (N C n n' : ℕ) (T : List ℕ) (y y' : Tensor ℝ) : Prop :=
  y.shape = N :: C :: n :: T ∧ y'.shape = N :: C :: n' :: T ∧
    ∀ b c h q, b < N → c < C → h < n' → InB T q → y'.get (b :: c :: h :: q) = y.get (b :: c :: ρ h :: q)

end GConv.Spec

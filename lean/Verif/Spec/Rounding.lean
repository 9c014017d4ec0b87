import Verif.Spec.Layer
import Verif.Spec.Equivariance
import Verif.Spec.Stability

/-! # Floating point evaluation of convolutions

The standard model of rounding: every operation returns its exact result times `1 + δ` with `|δ| ≤ u` (`u = 2 ^ -24` for
float32; no overflow or underflow).  Sums may be formed in any order and grouping, as BLAS and cuDNN do; a fused
multiply-add is the case `δ = 0` of the product. -/

namespace GConv.Spec

open Conv

/-- `v` is a possible floating point value of the sum of the numbers `l`, added in any order and grouping. -/
inductive FlSum (u : ℝ) : List ℝ → ℝ → Prop
  | one (a : ℝ) : FlSum u [a] a
  | add {l r : List ℝ} {a b δ : ℝ} : FlSum u l a → FlSum u r b → |δ| ≤ u → FlSum u (l ++ r) ((a + b) * (1 + δ))
  | perm {l r : List ℝ} {a : ℝ} : l.Perm r → FlSum u l a → FlSum u r a

/-- `v` is a possible floating point value of the sum of the products of these pairs. -/
def FlDot (u : ℝ) (l : List (ℝ × ℝ)) (v : ℝ) : Prop :=
  ∃ p : List ℝ, List.Forall₂ (fun ab c => ∃ δ, |δ| ≤ u ∧ c = ab.1 * ab.2 * (1 + δ)) l p ∧ FlSum u p v

/-- the pairs (cell of the input or the padding, entry of the filter) summed by one correlation. -/
def corrTerms (mode : F.CPad) (ax : List Axis) (S : List ℕ) (f w : List ℕ → ℝ) (o : List ℕ) : List (ℝ × ℝ) :=
  (Tensor.allIdx (kernelDims ax)).map fun k => (extended mode S f (readPos ax o k), w k)

/-- the pairs summed for output channel `co`, group element `h`, cell `o` of a lifting convolution. -/
def liftingTerms (a : Args) (mode : F.CPad) (ax : List Axis) (S : List ℕ) (input w : Tensor ℝ) (b co h : ℕ) (o : List ℕ) : List (ℝ × ℝ) :=
  (List.range (a.inC / a.groups.toNat)).flatMap fun ci =>
    corrTerms mode ax S (fun q => input.get (b :: (groupStart a.inC a.outC a.groups.toNat co + ci) :: q))
      (fun k => w.get (co :: h :: ci :: k)) o

/-- the pairs summed for output channel `co`, group element `h`, cell `o` of a group convolution. -/
def groupTerms (a : Args) (mode : F.CPad) (ax : List Axis) (S : List ℕ) (input w : Tensor ℝ) (m b co h : ℕ) (o : List ℕ) :
    List (ℝ × ℝ) :=
  (List.range (a.inC / a.groups.toNat)).flatMap fun ci => (List.range m).flatMap fun i =>
    corrTerms mode ax S (fun q => input.get (b :: (groupStart a.inC a.outC a.groups.toNat co + ci) :: i :: q))
      (fun k => w.get (co :: h :: ci :: i :: k)) o

/-- `v` is a possible floating point value of a sum of products, plus the bias if there is one. -/
def FlCell (u : ℝ) (terms : List (ℝ × ℝ)) (bias : Option (Tensor ℝ)) (nd co : ℕ) (v : ℝ) : Prop :=
  match bias with
  | none => FlDot u terms v
  | some _ => ∃ s δ, FlDot u terms s ∧ |δ| ≤ u ∧ v = (s + biasAt bias nd co) * (1 + δ)

/-- The feature map `fl` (`N` images, `n` group elements) may come out of a lifting convolution in floating point arithmetic
with input `x` and stored filters `w`. -/
def FlLifting (u : ℝ) (a : Args) (mode : F.CPad) (ax : List Axis) (S : List ℕ) (x w : Tensor ℝ) (bias : Option (Tensor ℝ)) (N n : ℕ)
    (fl : Tensor ℝ) : Prop :=
  ∀ b co h o, b < N → co < a.outC → h < n → Tensor.InB (outDims ax S) o →
    FlCell u (liftingTerms a mode ax S x w b co h o) bias ax.length co (fl.get (b :: co :: h :: o))

/-- The feature map `fl` may come out of a group convolution (`m` input, `n` output elements) in floating point arithmetic. -/
def FlGroup (u : ℝ) (a : Args) (mode : F.CPad) (ax : List Axis) (S : List ℕ) (x w : Tensor ℝ) (bias : Option (Tensor ℝ)) (N m n : ℕ)
    (fl : Tensor ℝ) : Prop :=
  ∀ b co h o, b < N → co < a.outC → h < n → Tensor.InB (outDims ax S) o →
    FlCell u (groupTerms a mode ax S x w m b co h o) bias ax.length co (fl.get (b :: co :: h :: o))

/-- the stored filters `w'` (float32) are close to the exact ones `w`, and bounded. -/
def StoredFilters (W η : ℝ) (w w' : Tensor ℝ) : Prop := ∀ p, Tensor.InB w.shape p → |w'.get p - w.get p| ≤ η ∧ |w'.get p| ≤ W

/-- The feature map `fl` may come out of a lifting convolution with input `x` (entries at most `B`), bias at most `β`, and exact
filters `w`, of which the stored ones are at most `W` and off by at most `η`. -/
def LiftingRun (u B W β η : ℝ) (a : Args) (mode : F.CPad) (ax : List Axis) (S : List ℕ) (x w : Tensor ℝ) (bias : Option (Tensor ℝ))
    (N n : ℕ) (fl : Tensor ℝ) : Prop :=
  fl.shape = N :: a.outC :: n :: outDims ax S ∧ Bounded B x ∧ (∀ co < a.outC, |biasAt bias ax.length co| ≤ β) ∧
    ∃ ws, StoredFilters W η w ws ∧ FlLifting u a mode ax S x ws bias N n fl

/-- The same for a group convolution. -/
def GroupRun (u B W β η : ℝ) (a : Args) (mode : F.CPad) (ax : List Axis) (S : List ℕ) (x w : Tensor ℝ) (bias : Option (Tensor ℝ))
    (N m n : ℕ) (fl : Tensor ℝ) : Prop :=
  fl.shape = N :: a.outC :: n :: outDims ax S ∧ Bounded B x ∧ (∀ co < a.outC, |biasAt bias ax.length co| ≤ β) ∧
    ∃ ws, StoredFilters W η w ws ∧ FlGroup u a mode ax S x ws bias N m n fl

/-- `fl'` is `fl` moved by `σ`, up to `ε`. -/
def MovedWithin {d : ℕ} (ε : ℝ) (e : Equiv.Perm (Fin d)) (σ : LatticeSym d) (N C n : ℕ) (O' O : List ℕ) (fl fl' : Tensor ℝ) : Prop :=
  ∀ b co h o, b < N → co < C → h < n → Tensor.InB O' o →
    |fl'.get (b :: co :: h :: σ.move e O o) - fl.get (b :: co :: h :: o)| ≤ ε

/-- `fl'` is `fl` moved by `σ` up to `ε`, the part without bias multiplied by `c`. -/
def ScaledWithin {d : ℕ} (ε : ℝ) (e : Equiv.Perm (Fin d)) (σ : LatticeSym d) (c : ℝ) (bias : Option (Tensor ℝ)) (N C n : ℕ)
    (O' O : List ℕ) (fl fl' : Tensor ℝ) : Prop :=
  ∀ b co h o, b < N → co < C → h < n → Tensor.InB O' o →
    |(fl'.get (b :: co :: h :: σ.move e O o) - biasAt bias d co) - c * (fl.get (b :: co :: h :: o) - biasAt bias d co)| ≤ ε

/-- The rounding error of one output value: `n` products of entries at most `B` and `W`, stored filters that are off by at
most `η`, a bias of at most `β`. -/
noncomputable def roundingError (u : ℝ) (n : ℕ) (B W β η : ℝ) : ℝ := ((1 + u) ^ (n + 1) - 1) * (n * B * W + β) + n * B * η

end GConv.Spec

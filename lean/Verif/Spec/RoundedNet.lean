import Verif.Spec.Stability
import Verif.Model.Network

/-! # Networks computed layer by layer with errors -/

namespace GConv.Spec

open Conv

variable {G : Type} {d : ℕ}

/-- A pass through the layers `bs` in which the computed output of every layer differs by at most `δ` from the exact output for the
(already inexact) features the layer receives; the pass starts with the features and group elements `xH` and ends with `r`. The
group elements are exact. -/
inductive RoundedRun (δ : ℝ) : List (Net.Block G d) → Tensor ℝ × Tensor G → Tensor ℝ × Tensor G → Prop
  | nil (xH : Tensor ℝ × Tensor G) : RoundedRun δ [] xH xH
  | cons {b : Net.Block G d} {bs : List (Net.Block G d)} {x : Tensor ℝ} {H : Tensor G} {y : Tensor ℝ} {K : Tensor G} {z : Tensor ℝ}
      {r : Tensor ℝ × Tensor G} : b.call x H = .ok (y, K) → Within δ z y → RoundedRun δ bs (z, K) r → RoundedRun δ (b :: bs) (x, H) r

/-- A pass through a classifier (lifting layer, layers `bs`, pooling) computed with an error of at most `δ` in every layer; the
pooled features that come out are `v`. -/
def RoundedClassifier (δ : ℝ) (L : Module G d) (move : G → G) (weight : Tensor ℝ) (bias : Option (Tensor ℝ)) (H : Option (Tensor G))
    (bs : List (Net.Block G d)) (pool : Tensor ℝ × Tensor G → Except PyErr (Tensor ℝ)) (x v : Tensor ℝ) : Prop :=
  ∃ y K z r p, L.lift move weight bias x H = .ok (y, K) ∧ Within δ z y ∧ RoundedRun δ bs (z, K) r ∧ pool r = .ok p ∧ Within δ v p

end GConv.Spec

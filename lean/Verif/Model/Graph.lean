import Verif.Model.Network

/-! # Model of networks with residual and skip connections

Networks users build from the layers: `x, H = layer(x, H)` as in README.md:20-34, with branches whose feature maps are
added (`x + y`) or concatenated along the channels (`torch.cat((x, y), dim=1)`). -/

namespace GConv.Net

open Tensor Conv F

variable {G : Type} {d : ℕ}

/-- `x + y` for feature maps of equal shapes; other shapes, which torch might broadcast, are not modelled (error). -/
def addMaps (x y : Tensor ℝ) : Except PyErr (Tensor ℝ) :=
  if x.shape = y.shape then .ok ⟨x.shape, fun i => x.get i + y.get i⟩ else .error .runtimeError

/-- `torch.cat((x, y), dim=1)`: all axes but the channel axis agree. -/
def catMaps (x y : Tensor ℝ) : Except PyErr (Tensor ℝ) :=
  match x.shape, y.shape with
  | N :: C :: s, N' :: C' :: s' =>
    if N = N' ∧ s = s' then
      .ok ⟨N :: (C + C') :: s, fun i => if i.getD 1 0 < C then x.get i else y.get (i.set 1 (i.getD 1 0 - C))⟩
    else .error .runtimeError
  | _, _ => .error .runtimeError

/-- networks of layers. -/
inductive Graph (G : Type) (d : ℕ)
  /-- the input itself (a skip connection) -/
  | skip
  /-- one layer -/
  | layer (b : Block G d)
  /-- first `f`, then `g` -/
  | seq (f g : Graph G d)
  /-- the sum of two branches, on the group elements of the first -/
  | add (f g : Graph G d)
  /-- two branches side by side, on the group elements of the first -/
  | cat (f g : Graph G d)

/-- the forward pass. -/
noncomputable def Graph.run : Graph G d → Tensor ℝ × Tensor G → Except PyErr (Tensor ℝ × Tensor G)
  | .skip, xH => .ok xH
  | .layer b, xH => b.call xH.1 xH.2
  | .seq f g, xH => do
    let yH ← f.run xH
    g.run yH
  | .add f g, xH => do
    let y ← f.run xH
    let z ← g.run xH
    let s ← addMaps y.1 z.1
    return (s, y.2)
  | .cat f g, xH => do
    let y ← f.run xH
    let z ← g.run xH
    let s ← catMaps y.1 z.1
    return (s, y.2)

end GConv.Net

import Verif.Model.Network

/-! # Model of a training loop around a network

`x, H = lifting_layer(x)`, the layers of the chain, `GAvgGlobalPool`, as in README.md:20-34, in a loop
`for x in batches: out = net(x); ...; optimizer.step()`. The loop and the optimizer are the user's: the optimizer is an
arbitrary function (`Optimizer`). What is modelled of the library is the pass with the new running statistics it leaves in
the normalisation layers (normalization.py:6-32). -/

namespace GConv.Net

open Tensor Conv F

variable {G : Type} {d : ℕ}

/-- the buffers of a normalisation layer have one entry per feature. -/
noncomputable def _root_.GConv.F.Running.upto (C : ℕ) (r : Running) : Running :=
  ⟨fun c => if c < C then r.mean c else 0, fun c => if c < C then r.var c else 0, r.count⟩

/-- `layer(x, H)` and the layer afterwards: normalisation layers keep their new running statistics
(normalization.py:6-9, 12-15, 23-26, 29-32), the other layers do not change. -/
noncomputable def Block.pass : Block G d → Tensor ℝ → Tensor G → Except PyErr ((Tensor ℝ × Tensor G) × Block G d)
  | .batch a t r, x, H => do
    let y ← Normalization.batch d a t r x H
    return (y.1, .batch a t (y.2.upto a.features))
  | .inst a t r, x, H => do
    let y ← Normalization.inst d a t r x H
    return (y.1, .inst a t (y.2.upto a.features))
  | b, x, H => do
    let y ← b.call x H
    return (y, b)

/-- the layers in order, and the layers afterwards. -/
noncomputable def pass : List (Block G d) → Tensor ℝ × Tensor G → Except PyErr ((Tensor ℝ × Tensor G) × List (Block G d))
  | [], xH => .ok (xH, [])
  | b :: bs, xH => do
    let y ← b.pass xH.1 xH.2
    let z ← pass bs y.1
    return (z.1, y.2 :: z.2)

/-- the parameters and buffers of a network that starts with a lifting layer. -/
structure Weights (G : Type) (d : ℕ) where
  weight : Tensor ℝ
  bias : Option (Tensor ℝ)
  layers : List (Block G d)

/-- images of one training step, and how the group elements drawn in this step act (`first` in the lifting layer, `rest`
in the layers of the chain). -/
structure Batch (G : Type) where
  images : Tensor ℝ
  first : G → G
  rest : ℕ → G → G

/-- the layers of a pass in which layer `i` draws an element that acts by `move i` (layers that do not draw ignore it). -/
def drawnBy : (ℕ → G → G) → List (Block G d) → List (Block G d)
  | _, [] => []
  | move, b :: bs => b.draw (move 0) :: drawnBy (fun i => move (i + 1)) bs

/-- the layers with the group elements drawn for this batch. -/
def Weights.ready (s : Weights G d) (b : Batch G) : List (Block G d) := drawnBy b.rest s.layers

/-- `out, _ = net(x)`: feature maps of the last layer and the layers afterwards. -/
noncomputable def forward (M : Module G d) (s : Weights G d) (b : Batch G) :
    Except PyErr ((Tensor ℝ × Tensor G) × List (Block G d)) := do
  let y ← M.lift b.first s.weight s.bias b.images none
  pass (s.ready b) y

/-- the pooled features of image `i` of the batch, channel `c`: `GAvgGlobalPool()(out).view(N, C)[i, c]` (RuntimeError if the
output does not have this size). -/
noncomputable def features (M : Module G d) (N C : ℕ) (s : Weights G d) (b : Batch G) : Except PyErr (Fin N → Fin C → ℝ) := do
  let y ← forward M s b
  let z ← avgPooled y.1
  let z ← z.view [N, C]
  return fun i c => z.get [(i : ℕ), (c : ℕ)]

/-- the network after the pass: new running statistics, and nothing left of the drawn elements. -/
noncomputable def Weights.after (s : Weights G d) (layers : List (Block G d)) : Weights G d :=
  ⟨s.weight, s.bias, layers.map (Block.draw id)⟩

/-- the same kind of layer, with parameters and buffers of the same shapes. -/
inductive Block.Like : Block G d → Block G d → Prop
  | act (a : Activations.Act) : Block.Like (.act a) (.act a)
  | batch (a : NormArgs) (w v : ℕ → ℝ) (t : Bool) (r r' : Running) : Block.Like (.batch a t r) (.batch { a with weight := w, bias := v } t r')
  | inst (a : NormArgs) (w v : ℕ → ℝ) (t : Bool) (r r' : Running) : Block.Like (.inst a t r) (.inst { a with weight := w, bias := v } t r')
  | groupSE (M : Module G d) (m m' : G → G) (w w' : Tensor ℝ) (v v' : Option (Tensor ℝ)) (h : w'.shape = w.shape)
    (hv : v'.map Tensor.shape = v.map Tensor.shape) : Block.Like (.groupSE M m w v) (.groupSE M m' w' v')
  | separableSE (M : Module G d) (m m' : G → G) (u u' w w' : Tensor ℝ) (v v' : Option (Tensor ℝ)) (hu : u'.shape = u.shape)
    (h : w'.shape = w.shape) (hv : v'.map Tensor.shape = v.map Tensor.shape) :
    Block.Like (.separableSE M m u w v) (.separableSE M m' u' w' v')
  | groupE (M : Module G d) (m m' : G → G) (w w' : Tensor ℝ) (v v' : Option (Tensor ℝ)) (h : w'.shape = w.shape)
    (hv : v'.map Tensor.shape = v.map Tensor.shape) : Block.Like (.groupE M m w v) (.groupE M m' w' v')
  | separableE (M : Module G d) (m m' : G → G) (u u' w w' : Tensor ℝ) (v v' : Option (Tensor ℝ)) (hu : u'.shape = u.shape)
    (h : w'.shape = w.shape) (hv : v'.map Tensor.shape = v.map Tensor.shape) :
    Block.Like (.separableE M m u w v) (.separableE M m' u' w' v')

/-- the same architecture. -/
def Weights.Like (s s' : Weights G d) : Prop :=
  s'.weight.shape = s.weight.shape ∧ s'.bias.map Tensor.shape = s.bias.map Tensor.shape ∧ List.Forall₂ Block.Like s.layers s'.layers

/-- A training step of the user: from the number of the step (which also stands for the labels of the batch), the state of
the optimizer, the present parameters and buffers, and the features of the batch as a function of the parameters (of
which the optimizer may use the values, the derivatives or anything else), new parameters of the same shapes. -/
abbrev Optimizer (G : Type) (d N C : ℕ) (Memory : Type) : Type :=
  ℕ → Memory → (s : Weights G d) → ({s' : Weights G d // s.Like s'} → Except PyErr (Fin N → Fin C → ℝ)) →
    Memory × {s' : Weights G d // s.Like s'}

/-- the loop over the batches, starting at step `t`. -/
noncomputable def train (M : Module G d) {N C : ℕ} {Memory : Type} (opt : Optimizer G d N C Memory) :
    ℕ → List (Batch G) → Memory → Weights G d → Except PyErr (Memory × Weights G d)
  | _, [], m, s => .ok (m, s)
  | t, b :: bs, m, s => do
    let y ← forward M s b
    let s₁ := s.after y.2
    let p := opt t m s₁ (fun s' => features M N C s'.1 b)
    train M opt (t + 1) bs p.1 p.2.1

end GConv.Net

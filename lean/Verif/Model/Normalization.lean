import Verif.Torch.NN

/-! # Model of `gconv/gnn/modules/normalization.py` -/

namespace GConv.Normalization

open Tensor F

variable {G : Type}

/-- `N, C, _H, Z, *dims = x.shape` and
`return super().forward(x.view(N, C, _H * Z, *dims)).view(N, C, _H, Z, *dims), H`, normalization.py:8-9, 14-15,
25-26, 31-32; fewer than four axes cannot be unpacked (ValueError).  The second component is the state of the
module afterwards. -/
noncomputable def folded (norm : Tensor ℝ → Except PyErr (Tensor ℝ × Running)) (x : Tensor ℝ) (H : Tensor G) :
    Except PyErr ((Tensor ℝ × Tensor G) × Running) :=
  match x.shape with
  | N :: C :: h :: Z :: dims => do
    let y ← x.view (N :: C :: h * Z :: dims)
    let y ← norm y
    let z ← y.1.view (N :: C :: h :: Z :: dims)
    return ((z, H), y.2)
  | _ => .error .valueError

/-- `GBatchNorm2d.forward` (`nd = 2`, normalization.py:6-9), `GBatchNorm3d.forward` (`nd = 3`, 12-15). -/
noncomputable def batch (nd : ℕ) (a : NormArgs) (training : Bool) (r : Running) (x : Tensor ℝ) (H : Tensor G) :
    Except PyErr ((Tensor ℝ × Tensor G) × Running) :=
  folded (batchNorm nd a training r) x H

/-- `GInstanceNorm2d.forward` (`nd = 2`, normalization.py:23-26), `GInstanceNorm3d.forward` (`nd = 3`, 29-32). -/
noncomputable def inst (nd : ℕ) (a : NormArgs) (training : Bool) (r : Running) (x : Tensor ℝ) (H : Tensor G) :
    Except PyErr ((Tensor ℝ × Tensor G) × Running) :=
  folded (instanceNorm nd a training r) x H

/-- `GLayerNorm.forward`, normalization.py:18-20; `shape` is `normalized_shape`. -/
noncomputable def layer (shape : List ℕ) (eps : ℝ) (weight bias : List ℕ → ℝ) (x : Tensor ℝ) (H : Tensor G) :
    Except PyErr (Tensor ℝ × Tensor G) := do
  let y ← layerNorm shape eps weight bias x
  return (y, H)

end GConv.Normalization

import Verif.Model.Interpolation
import Mathlib.LinearAlgebra.Matrix.Notation
import Mathlib.Analysis.SpecialFunctions.Log.Basic

/-! # Model of `gconv/geometry/groups/so3.py` (without the grid optimiser, see `Model/SO3Grid.lean`)

A quaternion is `Fin 4 → ℝ` (`[w, x, y, z]`), a rotation matrix a 3x3 real matrix, Euler angles
`Fin 3 → ℝ`.  Functions that act row-wise on a batch are modelled on one row. -/

namespace GConv.SO3

open Real Tensor

abbrev Quat := Fin 4 → ℝ
abbrev Mat3 := Matrix (Fin 3) (Fin 3) ℝ
abbrev Euler := Fin 3 → ℝ

/-- `matrix_x`, so3.py:58-86. -/
noncomputable def matrixX (t : ℝ) : Mat3 := !![1, 0, 0; 0, cos t, -sin t; 0, sin t, cos t]

/-- `matrix_y`, so3.py:89-117. -/
noncomputable def matrixY (t : ℝ) : Mat3 := !![cos t, 0, sin t; 0, 1, 0; -sin t, 0, cos t]

/-- `matrix_z`, so3.py:120-148. -/
noncomputable def matrixZ (t : ℝ) : Mat3 := !![cos t, -sin t, 0; sin t, cos t, 0; 0, 0, 1]

/-- `quat_inverse`, so3.py:151-161. -/
def quatInverse (q : Quat) : Quat := fun i => q i * ![1, -1, -1, -1] i

/-- `matrix_inverse`, so3.py:164-174. -/
def matrixInverse (r : Mat3) : Mat3 := r.transpose

/-- A Python value on the right-hand side of a tensor item assignment: a tensor (here one real per
row) or a tuple. -/
inductive RHS
  | tensor (v : ℝ)
  | tuple (l : List ℝ)

/-- `q[..., i] = rhs`: assigning a tuple to a tensor slice raises TypeError. -/
def setItem (q : Quat) (i : Fin 4) : RHS → Except PyErr Quat
  | .tensor v => .ok (Function.update q i v)
  | .tuple _ => .error .typeError

/-- `left_apply_quat`, so3.py:177-201.  `torch.cross` of the vector parts is `c`; note the comma on
lines 197-199, which makes the right-hand sides tuples. `q0` is the uninitialised tensor. -/
def leftApplyQuat (q0 q1 q2 : Quat) : Except PyErr Quat := do
  let c : Fin 3 → ℝ := ![q1 2 * q2 3 - q1 3 * q2 2, q1 3 * q2 1 - q1 1 * q2 3,
    q1 1 * q2 2 - q1 2 * q2 1]
  let q ← setItem q0 0 (.tensor (q1 0 * q2 0 - q1 1 * q2 1 - q1 2 * q2 2 - q1 3 * q2 3))
  let q ← setItem q 1 (.tuple [q1 0 * q2 1 + q2 0, q1 1 + c 0])
  let q ← setItem q 2 (.tuple [q1 0 * q2 2 + q2 0, q1 2 + c 1])
  let q ← setItem q 3 (.tuple [q1 0 * q2 3 + q2 0, q1 3 + c 2])
  return q

/-- `euler_to_matrix` before masking, so3.py:229-247. -/
noncomputable def eulerToMatrixRaw (g : Euler) : Mat3 :=
  let ca := cos (g 0); let cb := cos (g 1); let cg := cos (g 2)
  let sa := sin (g 0); let sb := sin (g 1); let sg := sin (g 2)
  !![ca * cb * cg - sa * sg, -ca * sg - cg * cb * sa, cg * sb;
     cg * sa + cb * ca * sg, cg * ca - cb * sa * sg, sg * sb;
     -ca * sb, sb * sa, cb]

/-- `euler_to_matrix`, so3.py:218-251: entries with absolute value at most `eps` are masked. -/
noncomputable def eulerToMatrix (g : Euler) (eps : ℝ) : Mat3 :=
  Matrix.of fun i j =>
    let r := eulerToMatrixRaw g i j
    r * (if r > eps ∨ r < -eps then 1 else 0)

/-- `matrix_to_quat` before normalisation, so3.py:264-287. `decision = [r00, r11, r22, trace]`. -/
noncomputable def matrixToQuatRaw (r : Mat3) : Quat :=
  let tr := r 0 0 + r 1 1 + r 2 2
  let i := argmax [r 0 0, r 1 1, r 2 2, tr]
  if i ≠ 3 then
    let ci : Fin 3 := Fin.ofNat 3 i
    let cj : Fin 3 := ci + 1
    let ck : Fin 3 := cj + 1
    let q : Quat := Function.update 0 ci.succ (1 - tr + 2 * r ci ci)
    let q := Function.update q cj.succ (r cj ci + r ci cj)
    let q := Function.update q ck.succ (r ck ci + r ci ck)
    Function.update q 0 (r ck cj - r cj ck)
  else
    let q : Quat := Function.update 0 1 (r 2 1 - r 1 2)
    let q := Function.update q 2 (r 0 2 - r 2 0)
    let q := Function.update q 3 (r 1 0 - r 0 1)
    Function.update q 0 (1 + tr)

/-- `matrix_to_quat`, so3.py:254-289. -/
noncomputable def matrixToQuat (r : Mat3) : Quat :=
  let q := matrixToQuatRaw r
  fun i => q i / vnorm q

/-- `euler_to_quat`, so3.py:204-215. -/
noncomputable def eulerToQuat (g : Euler) (eps : ℝ) : Quat := matrixToQuat (eulerToMatrix g eps)

/-- the wrap step of `matrix_to_euler`, so3.py:352-353: `g[g < -pi] += 2pi; g[g >= pi] -= 2pi`. -/
noncomputable def wrapPi (x : ℝ) : ℝ :=
  let y := if x < -π then x + 2 * π else x
  if y ≥ π then y - 2 * π else y

/-- `matrix_trans = c r cᵀ`, so3.py:312-316. -/
noncomputable def matrixTrans (r : Mat3) : Mat3 :=
  let c : Mat3 := !![0, 1, 0; -1, 0, 0; 0, 0, 1]
  (c * r) * c.transpose

/-- `g[:, 1]` after step 4, so3.py:319-321. -/
noncomputable def mteBeta (r : Mat3) : ℝ := arccos (clamp (matrixTrans r 2 2) (-1) 1)

/-- `safe1`, so3.py:324. -/
noncomputable def mteSafe1 (r : Mat3) (eps : ℝ) : Prop := |mteBeta r| ≥ eps

/-- `safe2`, so3.py:325. -/
noncomputable def mteSafe2 (r : Mat3) (eps : ℝ) : Prop := |mteBeta r - π| ≥ eps

open Classical in
/-- `matrix_to_euler` up to step 5b (lines 331-343). -/
noncomputable def mteStep5 (r : Mat3) (eps : ℝ) : Euler :=
  let m := matrixTrans r
  let beta := mteBeta r
  let safe := mteSafe1 r eps ∧ mteSafe2 r eps
  let gamma := if safe then atan2 (m 0 2) (-(m 1 2)) else 0
  let alpha := if safe then atan2 (m 2 0) (m 2 1) else 0
  let alpha := if ¬ mteSafe1 r eps then atan2 (m 1 0 - m 0 1) (m 0 0 + m 1 1) else alpha
  let alpha := if ¬ mteSafe2 r eps then -atan2 (m 1 0 + m 0 1) (m 0 0 - m 1 1) else alpha
  ![alpha, beta, gamma]

/-- the condition of step 7, so3.py:346. -/
noncomputable def mteAdjust (r : Mat3) (eps : ℝ) : Prop :=
  (mteStep5 r eps 1 < 0 ∨ mteStep5 r eps 1 > π) ∧ mteSafe1 r eps ∧ mteSafe2 r eps

open Classical in
/-- `matrix_to_euler`, so3.py:292-362, one row. -/
noncomputable def matrixToEuler (r : Mat3) (eps : ℝ) : Euler :=
  let g := mteStep5 r eps
  let g : Euler := if mteAdjust r eps then ![g 0 - π, g 1 * (-1), g 2 + π] else g
  fun i => wrapPi (g i)

open Classical in
/-- the warning condition of `matrix_to_euler` for a batch, so3.py:355:
`not no_warn and not torch.any(safe)`. -/
noncomputable def mteWarns (batch : List Mat3) (eps : ℝ) (noWarn : Bool) : Bool :=
  !noWarn && !(batch.any fun r => decide (mteSafe1 r eps ∧ mteSafe2 r eps))

/-- `quat_to_matrix`, so3.py:365-396. -/
def quatToMatrix (q : Quat) : Mat3 :=
  let w := q 0; let x := q 1; let y := q 2; let z := q 3
  let x2 := x * x; let y2 := y * y; let z2 := z * z; let w2 := w * w
  let xy := x * y; let zw := z * w; let xz := x * z
  let yw := y * w; let yz := y * z; let xw := x * w
  !![x2 - y2 - z2 + w2, 2 * (xy - zw), 2 * (xz + yw);
     2 * (xy + zw), -x2 + y2 - z2 + w2, 2 * (yz - xw);
     2 * (xz - yw), 2 * (yz + xw), -x2 - y2 + z2 + w2]

/-- default `eps = 1e-5` of `matrix_to_euler`, so3.py:292. -/
noncomputable def defaultEpsMTE : ℝ := 1e-5
/-- default `eps = 1e-6` of `euler_to_matrix`, so3.py:218. -/
noncomputable def defaultEpsETM : ℝ := 1e-6
/-- default `eps = 1e-7` of `geodesic_distance`, so3.py:638, and `so3_log`, so3.py:455. -/
noncomputable def defaultEps : ℝ := 1e-7

/-- `quat_to_euler`, so3.py:399-409. -/
noncomputable def quatToEuler (q : Quat) : Euler := matrixToEuler (quatToMatrix q) defaultEpsMTE

/-- `left_apply_to_R3`, so3.py:412-424. -/
def leftApplyToR3 (R : Tensor Mat3) (grid : Tensor (Fin 3 → ℝ)) : Tensor (Fin 3 → ℝ) :=
  pairwise (fun M v => M.mulVec v) R grid

/-- `left_apply_matrix`, so3.py:427-438 (one pair; the usual broadcasting applies to the batch). -/
def leftApplyMatrix (R1 R2 : Mat3) : Mat3 := R1 * R2

/-- `left_apply_to_matrix`, so3.py:441-452. -/
def leftApplyToMatrix (R1 R2 : Tensor Mat3) : Tensor Mat3 := pairwise (fun a b => a * b) R1 R2

/-- `so3_log`, so3.py:455-495. -/
noncomputable def so3Log (R : Mat3) (eps : ℝ) : Fin 3 → ℝ :=
  let theta := arccos (clamp (((R 0 0 + R 1 1 + R 2 2) - 1) / 2) (-1 + eps) (1 - eps))
  let inv := 0.5 * theta / sin theta
  let c : Fin 3 → ℝ := ![inv * (R 2 1 - R 1 2), inv * (R 0 2 - R 2 0), inv * (R 1 0 - R 0 1)]
  let c : Fin 3 → ℝ := if theta = 0 then
    ![0.5 * R 2 1 - R 1 2, 0.5 * R 0 2 - R 2 0, 0.5 * R 1 0 - R 0 1] else c
  if theta = π then ![π, 0, 0] else c

/-- `random_quat`, so3.py:498-514; `draws` are the outcomes of `torch.randn`. -/
noncomputable def randomQuat (draws : List Quat) : List Quat :=
  draws.map fun q => fun i => q i / vnorm q

/-- `random_matrix`, so3.py:517-528. -/
noncomputable def randomMatrix (draws : List Quat) : List Mat3 :=
  (randomQuat draws).map quatToMatrix

/-- `random_euler`, so3.py:531-540. -/
noncomputable def randomEuler (draws : List Quat) : List Euler :=
  (randomQuat draws).map quatToEuler

/-- `quaternion_log`, so3.py:613-634; `1/0 = inf` is reset to `0` on line 629. -/
noncomputable def quaternionLog (q : Quat) : Fin 4 → ℝ :=
  let qn := vnorm q
  let v : Fin 3 → ℝ := ![q 1, q 2, q 3]
  let inv := if vnorm v = 0 then 0 else 1 / vnorm v
  let s := inv * arccos (q 0 / qn)
  ![log qn, s * q 1, s * q 2, s * q 3]

/-- `geodesic_distance`, so3.py:637-652. -/
noncomputable def geodesicDistance (qx qy : Quat) (eps : ℝ) : ℝ :=
  arccos (clamp |∑ i, qx i * qy i| (-1 + eps) (1 - eps))

/-- `nearest_neighbour_distance`, so3.py:655-670, on quaternions: row-wise sort, column 1.
IndexError when the row has fewer than two entries. -/
noncomputable def nearestNeighbourDistance (q : List Quat) : Except PyErr (List ℝ) :=
  if q.length < 2 then .error .indexError
  else .ok (q.map fun a => (sortL (q.map fun b => geodesicDistance a b defaultEps)).getD 1 0)

/-- `nearest_neighbour_distance` on matrices (`q.ndim == 3`), so3.py:667-668. -/
noncomputable def nearestNeighbourDistanceMatrix (r : List Mat3) : Except PyErr (List ℝ) :=
  nearestNeighbourDistance (r.map matrixToQuat)

/-- `grid_sample` on quaternion grids, so3.py:673-716. -/
noncomputable def gridSampleQuat (grid : Tensor Quat) (signal : Tensor ℝ) (signalGrid : Tensor Quat)
    (mode : String) (width : ℝ) : Except PyErr (Tensor ℝ) :=
  if mode = "nearest" then
    Interp.interpolateNN (fun a b => geodesicDistance a b defaultEps) grid signalGrid signal
  else if mode = "rbf" then
    Interp.interpolateRBF (fun a b => geodesicDistance a b defaultEps) Interp.RBFgauss width
      grid signalGrid signal
  else .error .valueError

/-- `grid_sample` on matrix grids: lines 695-699 convert to quaternions first. -/
noncomputable def gridSample (grid : Tensor Mat3) (signal : Tensor ℝ) (signalGrid : Tensor Mat3)
    (mode : String) (width : ℝ) : Except PyErr (Tensor ℝ) :=
  gridSampleQuat (grid.map matrixToQuat) signal (signalGrid.map matrixToQuat) mode width

/-- `cyclic_x`, so3.py:905-916. -/
noncomputable def cyclicX (n : ℕ) : List Quat :=
  (linspace 0 (2 * π) (n + 1)).dropLast.map fun t => matrixToQuat (matrixX t)
/-- `cyclic_y`, so3.py:919-930. -/
noncomputable def cyclicY (n : ℕ) : List Quat :=
  (linspace 0 (2 * π) (n + 1)).dropLast.map fun t => matrixToQuat (matrixY t)
/-- `cyclic_z`, so3.py:933-944. -/
noncomputable def cyclicZ (n : ℕ) : List Quat :=
  (linspace 0 (2 * π) (n + 1)).dropLast.map fun t => matrixToQuat (matrixZ t)

/-- `cyclic`, so3.py:947-966 (`str.lower` on ASCII letters). -/
noncomputable def cyclic (n : ℕ) (axis : String) : Except PyErr (List Quat) :=
  if axis.toLower = "x" then .ok (cyclicX n)
  else if axis.toLower = "y" then .ok (cyclicY n)
  else if axis.toLower = "z" then .ok (cyclicZ n)
  else .error .valueError

end GConv.SO3

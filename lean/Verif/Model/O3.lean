import Verif.Model.O2
import Verif.Model.GridCache

/-! # Model of `gconv/geometry/groups/o3.py`

An O(3) element is a vector of ten reals: the coefficient followed by the row-major flattened
matrix. -/

namespace GConv.O3

open Tensor SO3

abbrev Elt := Fin 10 → ℝ

/-- `H[..., 1:].unflatten(-1, (3, 3))` / `.view(-1, 3, 3)` of one element (o3.py:75). -/
def rot (h : Elt) : Mat3 :=
  Matrix.of fun i j => h ⟨1 + 3 * i.val + j.val, by omega⟩

/-- `H[..., 0]` of one element (o3.py:78). -/
def coef (h : Elt) : ℝ := h 0

/-- `torch.cat((coeff, R.flatten(-2, -1)), dim=-1)` of one element (o3.py:81-84). -/
def mk (c : ℝ) (R : Mat3) : Elt := fun k =>
  if k.val = 0 then c
  else R ⟨(k.val - 1) / 3, by omega⟩ ⟨(k.val - 1) % 3, Nat.mod_lt _ (by norm_num)⟩

/-- `torch.cat((a, b), dim=0)` including the rule that one-dimensional empty tensors are skipped. -/
def catLegacy {α} (a b : Tensor α) : Except PyErr (Tensor α) :=
  if a.shape = [0] then .ok b else if b.shape = [0] then .ok a else a.cat0 b

/-- `R.flatten(-2, -1)`; IndexError for fewer than two axes. (Only used on tensors of one to three axes.) -/
def flattenLast2 (R : Tensor ℝ) : Except PyErr (Tensor ℝ) :=
  match R.shape with
  | [a, b] => .ok ⟨[a * b], fun idx => R.get [idx.getD 0 0 / b, idx.getD 0 0 % b]⟩
  | [n, a, b] => .ok ⟨[n, a * b], fun idx => R.get [idx.getD 0 0, idx.getD 1 0 / b, idx.getD 1 0 % b]⟩
  | _ => .error .indexError

/-- `torch.cat((c, r), dim=-1)` for a two-dimensional `c`; RuntimeError when ranks or rows differ. -/
def catLast (c r : Tensor ℝ) : Except PyErr (Tensor ℝ) :=
  match c.shape, r.shape with
  | [n, a], [m, b] =>
    if n = m then .ok ⟨[n, a + b], fun idx =>
      if idx.getD 1 0 < a then c.get idx else r.get [idx.getD 0 0, idx.getD 1 0 - a]⟩
    else .error .runtimeError
  | _, _ => .error .runtimeError

/-- `uniform_grid`, o3.py:8-43.  `s` is the grid cache, `opt1`, `opt2` the optimised Euler grids of the
two calls of `so3.uniform_grid` (used only for sizes that are not cached); default `cache_grid=False`
leaves the cache alone. -/
noncomputable def uniformGrid (s : GridCache.Store (Tensor ℝ)) (n m : ℕ) (opt1 opt2 : List Euler)
    (matrixOnly : Bool) : Except PyErr (Tensor ℝ) := do
  let R1 ← (SO3.uniformGrid s n "matrix" opt1 false).1
  let R2 ← (SO3.uniformGrid s m "matrix" opt2 false).1
  let R ← catLegacy R1 R2
  if matrixOnly then return R
  else
    let coeff1 : Tensor ℝ := ⟨[n, 1], fun _ => 1⟩
    let coeff2 : Tensor ℝ := ⟨[m, 1], fun _ => -1 * 1⟩
    let coeffs ← coeff1.cat0 coeff2
    let F ← flattenLast2 R
    catLast coeffs F

/-- `random_grid`, o3.py:46-60; `draws` those of `so3.random_matrix`, `v` those of the coefficients. -/
noncomputable def randomGrid (draws : List Quat) (v : List ℝ) : List Elt :=
  let R := randomMatrix draws
  let coeffs := v.map (fun x => (if x > 0.5 then (1 : ℝ) else 0) * 2 - 1)
  List.zipWith mk coeffs R

/-- `left_apply_O3`, o3.py:63-84 (one pair; the usual broadcasting applies to the batch). -/
def leftApplyO3 (H1 H2 : Elt) : Elt :=
  let R := rot H1 * rot H2
  let c := coef H1 * coef H2
  mk c R

/-- `left_apply_to_O3`, o3.py:87-108. -/
def leftApplyToO3 (H1 H2 : Tensor Elt) : Tensor Elt :=
  pairwise (fun a b => mk (coef a * coef b) (rot a * rot b)) H1 H2

/-- `left_apply_to_R3`, o3.py:111-124. -/
def leftApplyToR3 (H : Tensor Elt) (grid : Tensor (Fin 3 → ℝ)) : Tensor (Fin 3 → ℝ) :=
  pairwise (fun h v => coef h • (rot h).mulVec v) H grid

/-- `det`, o3.py:127-137. -/
def det (H : Elt) : ℝ := coef H

/-- `inverse`, o3.py:140-151. -/
def inverse (H : Elt) : Elt := mk (coef H) (rot H).transpose

/-- `grid_sample`, o3.py:154-212. -/
noncomputable def gridSample (grid : Tensor Elt) (signal : Tensor ℝ) (signalGrid : Tensor Elt)
    (nRot nRef : ℕ) (mode : String) (rotWidth refWidth : ℝ) : Except PyErr (Tensor ℝ) :=
  cosetSample coef rot (fun w g s sg => SO3.gridSample g s sg mode w)
    grid signal signalGrid nRot nRef rotWidth refWidth

end GConv.O3

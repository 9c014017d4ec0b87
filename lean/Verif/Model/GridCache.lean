import Verif.Model.SO3
import Verif.Model.SO3Tables

/-! # Model of `gconv/geometry/groups/_grid_cache.py` and of `so3.uniform_grid` -/

namespace GConv

namespace GridCache

/-- The module-level dictionary `_grid_cache[grid_type][parameterization][size]`,
_grid_cache.py:29: a missing outer or middle key is `none`. -/
abbrev Store (G : Type) := String → String → Option (ℕ → Option G)

/-- `load_grid`, _grid_cache.py:25-26. -/
def loadGrid {G : Type} (s : Store G) (size : ℕ) (gtype param : String) : Except PyErr G :=
  match s gtype.toLower param.toLower with
  | none => .error .keyError
  | some d =>
    match d size with
    | none => .error .keyError
    | some g => .ok g

/-- `_grid_cache[t][p][n] = g`, _grid_cache.py:22 (KeyError when `t` or `p` is missing). -/
def setItem {G : Type} (s : Store G) (t p : String) (n : ℕ) (g : G) : Except PyErr (Store G) :=
  match s t p with
  | none => .error .keyError
  | some d => .ok fun t' p' => if t' = t ∧ p' = p then some (fun m => if m = n then some g else d m)
      else s t' p'

/-- `save_grid`, _grid_cache.py:4-22; `rows g` is `grid.shape[0]`. -/
def saveGrid {G : Type} (rows : G → ℕ) (s : Store G) (g : G) (gtype param : String)
    (overwrite : Bool) : Except PyErr (Store G) :=
  if !overwrite then
    match loadGrid s (rows g) gtype param with
    | .ok _ => .ok s
    | .error _ => setItem s gtype.toLower param.toLower (rows g) g
  else setItem s gtype.toLower param.toLower (rows g) g

/-- a call on the cache. -/
inductive Op (G : Type)
  | save (g : G) (gtype param : String) (overwrite : Bool)
  | load (size : ℕ) (gtype param : String)

/-- effect of one call on the dictionary; a raising call leaves it as it was. -/
def step {G : Type} (rows : G → ℕ) (s : Store G) : Op G → Store G
  | .save g t p o => match saveGrid rows s g t p o with
    | .ok s' => s'
    | .error _ => s
  | .load _ _ _ => s

/-- the dictionary after a history of calls. -/
def run {G : Type} (rows : G → ℕ) (s : Store G) (h : List (Op G)) : Store G :=
  h.foldl (step rows) s

end GridCache

namespace SO3

open GridCache

/-- an `(n, 4)` tensor of quaternions. -/
noncomputable def quatTensor (l : List Quat) : Tensor ℝ :=
  ⟨[l.length, 4], fun idx => (l.getD (idx.getD 0 0) 0) (Fin.ofNat 4 (idx.getD 1 0))⟩

/-- an `(n, 3)` tensor of Euler angles. -/
noncomputable def eulerTensor (l : List Euler) : Tensor ℝ :=
  ⟨[l.length, 3], fun idx => (l.getD (idx.getD 0 0) 0) (Fin.ofNat 3 (idx.getD 1 0))⟩

/-- an `(n, 3, 3)` tensor of matrices. -/
noncomputable def matrixTensor (l : List Mat3) : Tensor ℝ :=
  ⟨[l.length, 3, 3], fun idx =>
    (l.getD (idx.getD 0 0) 0) (Fin.ofNat 3 (idx.getD 1 0)) (Fin.ofNat 3 (idx.getD 2 0))⟩

/-- a `(3, 3)` tensor. -/
noncomputable def bareMatrixTensor (m : Mat3) : Tensor ℝ :=
  ⟨[3, 3], fun idx => m (Fin.ofNat 3 (idx.getD 0 0)) (Fin.ofNat 3 (idx.getD 1 0))⟩

namespace Tables

/-- a table row as reals. -/
noncomputable def Z4.real (s : ℕ) (q : Z4) : Quat :=
  ![(q.w : ℝ) / s, (q.x : ℝ) / s, (q.y : ℝ) / s, (q.z : ℝ) / s]

noncomputable def Z9.real (s : ℕ) (m : Z9) : Mat3 :=
  !![(m.a : ℝ) / s, (m.b : ℝ) / s, (m.c : ℝ) / s;
     (m.d : ℝ) / s, (m.e : ℝ) / s, (m.f : ℝ) / s;
     (m.g : ℝ) / s, (m.h : ℝ) / s, (m.i : ℝ) / s]

end Tables

open Tables in
/-- `identity()`, so3.py:724-734. (The literals are taken as exact decimals; torch rounds them to
float32.) -/
noncomputable def identityGroup : List Quat := Tables.identity.map (Z4.real (10 ^ 8))
open Tables in
/-- `klein_group()`, so3.py:737-755. -/
noncomputable def kleinGroup : List Quat := Tables.klein.map (Z4.real (10 ^ 8))
open Tables in
/-- `tetrahedral()`, so3.py:758-784. -/
noncomputable def tetrahedral : List Quat := Tables.tetrahedral.map (Z4.real (10 ^ 8))
open Tables in
/-- `octahedral()`, so3.py:787-825. -/
noncomputable def octahedral : List Quat := Tables.octahedral.map (Z4.real (10 ^ 8))
open Tables in
/-- `icosahedral()`, so3.py:828-902. -/
noncomputable def icosahedral : List Quat := Tables.icosahedral.map (Z4.real (10 ^ 8))

/-- the quaternion rows shipped for a size. -/
noncomputable def cachedQuats (n : ℕ) : Option (List Quat) :=
  (Tables.quatCache.lookup n).map fun l => l.map (Tables.Z4.real (10 ^ 11))

/-- the matrices shipped for a size. -/
noncomputable def cachedMatrices (n : ℕ) : Option (List Mat3) :=
  (Tables.matrixCache.lookup n).map fun l => l.map (Tables.Z9.real (10 ^ 11))

/-- the initial dictionary, _grid_cache.py:29-end.  The `"matrix"` entry of size 1 is a bare 3x3
literal. -/
noncomputable def initialStore : Store (Tensor ℝ) := fun t p =>
  if t = "so3" ∧ p = "quat" then some fun n => (cachedQuats n).map quatTensor
  else if t = "so3" ∧ p = "matrix" then some fun n => (cachedMatrices n).map fun l =>
    if n = 1 then bareMatrixTensor (l.getD 0 0) else matrixTensor l
  else none

/-- `param_fn` of so3.py:577-586 applied to an Euler grid; `none` for an unknown string. -/
noncomputable def paramFn (p : String) : Option (List Euler → Tensor ℝ) :=
  if p = "quat" then some fun l => quatTensor (l.map (eulerToQuat · defaultEpsETM))
  else if p = "matrix" then some fun l => matrixTensor (l.map (eulerToMatrix · defaultEpsETM))
  else if p = "euler" then some fun l =>
    eulerTensor (l.map fun g => matrixToEuler (eulerToMatrix g defaultEpsETM) defaultEpsMTE)
  else none

/-- `grid.shape[0]`. -/
def rows0 (t : Tensor ℝ) : ℕ := t.shape.headD 0

/-- `uniform_grid`, so3.py:543-610.  `opt` is the Euler grid left behind by the random
initialisation and the in-place repulsion (lines 590-604, modelled in `Model/Repulsion.lean`); it has
`size` rows.  The result is the returned value or exception, and the dictionary afterwards. -/
noncomputable def uniformGrid (s : Store (Tensor ℝ)) (size : ℕ) (param : String) (opt : List Euler)
    (cacheGrid : Bool) : Except PyErr (Tensor ℝ) × Store (Tensor ℝ) :=
  if size = 0 then (.ok ⟨[0], fun _ => 0⟩, s)
  else
    match loadGrid s size "so3" param with
    | .ok g => (.ok g, s)
    | .error _ =>
      match paramFn param.toLower with
      | none => (.error .valueError, s)
      | some f =>
        if cacheGrid then
          match saveGrid rows0 s (eulerTensor opt) "so3" param.toLower false with
          | .error e => (.error e, s)
          | .ok s' => (.ok (f opt), s')
        else (.ok (f opt), s)

end SO3
end GConv

import Verif.Model.GridCache

/-! # Model of tensor identity: which layers, caches and callers hold the same tensor object

Tensors are mutable objects.  The functional models (`Model/GridCache.lean`, `Model/KernelInstances.lean`) speak about
values; this file models which calls return a tensor object that already exists and which ones return a new one, and
the two ways in which a user writes into an existing tensor: `load_state_dict` and in-place operations.

Trusted facts about torch: `register_buffer` and `nn.Parameter` keep the tensor object they are given;
`Module.load_state_dict` copies every entry of matching shape into the existing tensor in place and raises afterwards
if some entry does not match; `torch.cat`, `linspace`, arithmetic and indexing by a list return new tensors. -/

namespace GConv.Memory

open GridCache

/-- identity of a tensor object. -/
notation "Addr" => ℕ

/-- the tensors in memory, the next unused identity, and the dictionary `_grid_cache` (_grid_cache.py:29), which holds
tensor objects. -/
structure Mem where
  cell : Addr → Tensor ℝ
  next : Addr
  cache : Store Addr

namespace Mem

/-- create a new tensor. -/
def alloc (m : Mem) (t : Tensor ℝ) : Addr × Mem :=
  (m.next, { m with cell := Function.update m.cell m.next t, next := m.next + 1 })

/-- create new tensors. -/
def allocs (m : Mem) : List (Tensor ℝ) → List Addr × Mem
  | [] => ([], m)
  | t :: ts =>
    let (a, m) := m.alloc t
    let (as, m) := m.allocs ts
    (a :: as, m)

/-- copy the value `t` into the tensor `a` if the shapes agree. -/
def copyInto (m : Mem) (a : Addr) (t : Tensor ℝ) : Mem :=
  if (m.cell a).shape = t.shape then { m with cell := Function.update m.cell a t } else m

/-- `Module.load_state_dict`: the tensors of the module, in order, receive the saved values. -/
def load (m : Mem) : List Addr → List (Tensor ℝ) → Mem
  | a :: as, t :: ts => (m.copyInto a t).load as ts
  | _, _ => m

/-- `so3.uniform_grid`, so3.py:545-610, with object identities: a cached grid is returned as it is (line 577 and
`load_grid`, _grid_cache.py:25-26: no copy), every other call returns a new tensor; with `cache_grid` the optimised
Euler grid is entered into the dictionary (607-608). -/
noncomputable def uniformGrid (m : Mem) (size : ℕ) (param : String) (opt : List SO3.Euler) (cacheGrid : Bool) :
    Except PyErr Addr × Mem :=
  if size = 0 then
    let (a, m) := m.alloc ⟨[0], fun _ => 0⟩
    (.ok a, m)
  else
    match loadGrid m.cache size "so3" param with
    | .ok a => (.ok a, m)
    | .error _ =>
      match SO3.paramFn param.toLower with
      | none => (.error .valueError, m)
      | some f =>
        if cacheGrid then
          let (g, m') := m.alloc (SO3.eulerTensor opt)
          match saveGrid (fun a => SO3.rows0 (m'.cell a)) m'.cache g "so3" param.toLower false with
          | .error e => (.error e, m')
          | .ok c =>
            let (a, m') := { m' with cache := c }.alloc (f opt)
            (.ok a, m')
        else
          let (a, m) := m.alloc (f opt)
          (.ok a, m)

end Mem

/-- where the buffer `grid_H` of a kernel comes from. -/
inductive Source
  /-- argument `grid_H` given: the `k`-th tensor held by the caller (kernel.py:102). -/
  | given (k : ℕ)
  /-- SE(3) kernels: `so3.uniform_grid(group_kernel_size, "matrix")`, kernel_se3.py:50-51, 116-117, 192-193; SO(3)
  kernel: `"quat"`, kernel_so3.py:45-46. -/
  | so3 (size : ℕ) (param : String) (opt : List SO3.Euler)
  /-- SE(2), E(2), E(3) kernels: `so2.uniform_grid` (kernel_se2.py:40-41), `o2.uniform_grid` (kernel_e2.py:49-50),
  `o3.uniform_grid` (kernel_e3.py:49-50; ends in `torch.cat`, o3.py:39): a new tensor with value `t`. -/
  | fresh (t : Tensor ℝ)

/-- what a user does. -/
inductive Op
  /-- call `so3.uniform_grid` and keep the result. -/
  | grid (size : ℕ) (param : String) (opt : List SO3.Euler) (cacheGrid : Bool)
  /-- call any function that returns a new tensor, and keep it. -/
  | tensor (t : Tensor ℝ)
  /-- construct a layer; `others` are the values of its other tensors (`grid_Rn`, `mask`, the weights, the bias), which
  are new (kernel.py:103-105, 162, 242, 246, 341, 422, gconv.py:141). -/
  | layer (src : Source) (others : List (Tensor ℝ))
  /-- read the buffer `grid_H` of layer `i` and keep it (the lifting layers return it as `H`). -/
  | expose (i : ℕ)
  /-- `load_state_dict` on layer `i`. -/
  | load (i : ℕ) (state : List (Tensor ℝ))
  /-- overwrite the `k`-th kept tensor in place. -/
  | write (k : ℕ) (t : Tensor ℝ)

/-- memory, the tensors kept by the user, and the tensors of each layer (`grid_H` first). -/
structure World where
  mem : Mem
  handles : List Addr
  layers : List (List Addr)

namespace World

/-- the tensor used as `grid_H`. -/
noncomputable def gridOf (w : World) : Source → Except PyErr Addr × Mem
  | .given k => match w.handles[k]? with
    | some a => (.ok a, w.mem)
    | none => (.error .indexError, w.mem)
  | .so3 size param opt => w.mem.uniformGrid size param opt false
  | .fresh t => let (a, m) := w.mem.alloc t; (.ok a, m)

/-- effect of one step; a raising call keeps nothing. -/
noncomputable def step (w : World) : Op → World
  | .grid size param opt c =>
    match w.mem.uniformGrid size param opt c with
    | (.ok a, m) => { w with mem := m, handles := w.handles ++ [a] }
    | (.error _, m) => { w with mem := m }
  | .tensor t => let (a, m) := w.mem.alloc t; { w with mem := m, handles := w.handles ++ [a] }
  | .layer src others =>
    match w.gridOf src with
    | (.ok a, m) => let (as, m) := m.allocs others; { w with mem := m, layers := w.layers ++ [a :: as] }
    | (.error _, m) => { w with mem := m }
  | .expose i => match w.layers[i]? with
    | some (a :: _) => { w with handles := w.handles ++ [a] }
    | _ => w
  | .load i st => match w.layers[i]? with
    | some as => { w with mem := w.mem.load as st }
    | none => w
  | .write k t => match w.handles[k]? with
    | some a => { w with mem := w.mem.copyInto a t }
    | none => w

/-- a history. -/
noncomputable def run (w : World) (h : List Op) : World := h.foldl step w

/-- the values of the tensors of layer `i`: everything its outputs depend on besides its arguments. -/
def contents (w : World) (i : ℕ) : List (Tensor ℝ) := (w.layers.getD i []).map w.mem.cell

end World

/-- an upper bound of the keys of a dictionary. -/
def keyBound {α : Type} (l : List (ℕ × α)) : ℕ := (l.map Prod.fst).foldr max 0 + 1

/-- The program start: only the shipped grids exist (_grid_cache.py:29-end); the quaternion grid of size `n` is object
`2 n`, the matrix grid of size `n` object `2 n + 1`. -/
noncomputable def start : World where
  mem :=
    { cell := fun a =>
        match loadGrid SO3.initialStore (a / 2) "so3" (if a % 2 = 0 then "quat" else "matrix") with
        | .ok t => t
        | .error _ => ⟨[0], fun _ => 0⟩
      next := 2 * (max (keyBound SO3.Tables.quatCache) (keyBound SO3.Tables.matrixCache)) + 2
      cache := fun t p =>
        if t = "so3" ∧ p = "quat" then some fun n => (SO3.cachedQuats n).map fun _ => 2 * n
        else if t = "so3" ∧ p = "matrix" then some fun n => (SO3.cachedMatrices n).map fun _ => 2 * n + 1
        else none }
  handles := []
  layers := []

end GConv.Memory

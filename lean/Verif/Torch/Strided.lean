import Verif.Torch.Tensor

/-! # Strided tensors

A torch tensor is a window into a storage: sizes, strides, an offset. Transposed, sliced, expanded and
channels-last tensors share a storage with other strides. `Tensor.view` of the rest of the model is about the
entries only; this file adds the layouts, because `Tensor.view` of torch refuses some of them. -/

namespace GConv

/-- sizes with strides (axis by axis), storage offset and storage. -/
structure Strided (α : Type) where
  axes : List (ℕ × ℕ)
  offset : ℕ
  data : ℕ → α

namespace Strided

variable {α : Type}

/-- `Σ i_d * stride_d`. -/
def off : List (ℕ × ℕ) → List ℕ → ℕ
  | a :: as, i :: is => i * a.2 + off as is
  | _, _ => 0

/-- `x.shape`. -/
def shape (x : Strided α) : List ℕ := x.axes.map Prod.fst

/-- the entries the tensor shows. -/
def tensor (x : Strided α) : Tensor α := ⟨x.shape, fun idx => x.data (x.offset + off x.axes idx)⟩

/-- the inner loop of `computeStride`: the new axes (from the last) that belong to the chunk of `tn` entries with
stride `base`; returns their strides, the number of entries they cover and the remaining axes. -/
def eat (base tn : ℕ) : ℕ → List ℕ → List ℕ × ℕ × List ℕ
  | vn, [] => ([], vn, [])
  | vn, v :: vs =>
    if vn < tn ∨ v = 1 then
      let r := eat base tn (vn * v) vs
      (vn * base :: r.1, r.2)
    else ([], vn, v :: vs)

/-- the outer loop of `computeStride` over the old axes from the last; `tn` entries have been collected in the
current chunk, which has stride `base`. -/
def chunks (tn base : ℕ) : List (ℕ × ℕ) → List ℕ → Option (List ℕ)
  | [], _ => none
  | [a], vs =>
    let r := eat base (tn * a.1) 1 vs
    if r.2.1 = tn * a.1 ∧ r.2.2 = [] then some r.1 else none
  | a :: b :: as, vs =>
    if b.1 ≠ 1 ∧ b.2 ≠ tn * a.1 * base then
      let r := eat base (tn * a.1) 1 vs
      if r.2.1 = tn * a.1 then (chunks 1 b.2 (b :: as) r.2.2).map (r.1 ++ ·) else none
    else chunks (tn * a.1) base (b :: as) vs

/-- row-major strides of a shape given from the last axis on (`max(size, 1)` as in torch). -/
def packed : ℕ → List ℕ → List ℕ
  | _, [] => []
  | k, v :: vs => k :: packed (k * max v 1) vs

/-- `at::detail::computeStride(oldshape, oldstride, newshape)` (ATen/TensorUtils.cpp): the strides of a view, if it
is possible. Axes from the last. A scalar has strides 1; without entries the strides are those of a new tensor (or the
old ones, which makes no difference to the entries). -/
def computeStride (old : List (ℕ × ℕ)) (vs : List ℕ) : Option (List ℕ) :=
  match old with
  | [] => some (vs.map fun _ => 1)
  | a :: _ =>
    if (old.map Prod.fst).prod = 0 then some (packed 1 vs)
    else chunks 1 a.2 old vs

/-- `x.view(*s)`: RuntimeError when the number of entries differs or the strides do not permit it. -/
def view (x : Strided α) (s : List ℕ) : Except PyErr (Strided α) :=
  if x.shape.prod ≠ s.prod then .error .runtimeError
  else match computeStride x.axes.reverse s.reverse with
    | none => .error .runtimeError
    | some st => .ok ⟨s.zip st.reverse, x.offset, x.data⟩

/-- a new row-major tensor with given entries (every torch operation that computes new entries; `contiguous()`). -/
def new (t : Tensor α) : Strided α :=
  ⟨t.shape.zip (packed 1 t.shape.reverse).reverse, 0, fun n => t.get (Tensor.unravel t.shape n)⟩

/-- `x.reshape(*s)`, `x.flatten(..)`: a view if possible, otherwise a view of a copy. -/
def reshape (x : Strided α) (s : List ℕ) : Except PyErr (Strided α) :=
  match x.view s with
  | .ok y => .ok y
  | .error _ => (new x.tensor).view s

end Strided
end GConv

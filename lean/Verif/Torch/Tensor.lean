import Verif.Torch.Scalar
import Mathlib.Algebra.BigOperators.Group.List.Basic

/-!
# Row-major tensors

`Tensor α` is a shape and an index function.  Entries outside the shape are junk and no theorem
speaks about them.  `view`, `transpose`, `repeat`, `repeat_interleave`, broadcasting follow the
torch documentation; calls that torch rejects return an error.
-/

namespace GConv

structure Tensor (α : Type*) where
  shape : List ℕ
  get : List ℕ → α

namespace Tensor

/-- `idx` is a valid index for `shape`. -/
def InB (shape idx : List ℕ) : Prop := List.Forall₂ (· < ·) idx shape

/-- row-major offset of a multi-index. -/
def ravel : List ℕ → List ℕ → ℕ
  | _ :: ss, i :: is => i * ss.prod + ravel ss is
  | _, _ => 0

/-- multi-index of a row-major offset. -/
def unravel : List ℕ → ℕ → List ℕ
  | [], _ => []
  | _ :: ss, n => (n / ss.prod) :: unravel ss (n % ss.prod)

/-- `t.view(*s)` / `t.reshape(*s)`: same entries in row-major order; RuntimeError when the number of
entries differs. (Contiguity errors of `view` are not modelled.) -/
def view {α} (t : Tensor α) (s : List ℕ) : Except PyErr (Tensor α) :=
  if t.shape.prod = s.prod then .ok ⟨s, fun idx => t.get (unravel t.shape (ravel s idx))⟩
  else .error .runtimeError

/-- `t.view(*pre, -1, *post)`: the missing extent is inferred; RuntimeError when it is ambiguous
or does not divide. -/
def viewInfer {α} (t : Tensor α) (pre post : List ℕ) : Except PyErr (Tensor α) :=
  let r := pre.prod * post.prod
  if r = 0 ∨ t.shape.prod % r ≠ 0 then .error .runtimeError
  else t.view (pre ++ [t.shape.prod / r] ++ post)

/-- swap positions `a` and `b` of a list. -/
def swapL (l : List ℕ) (a b : ℕ) : List ℕ :=
  (l.set a (l.getD b 0)).set b (l.getD a 0)

/-- `t.transpose(a, b)`. -/
def transpose {α} (t : Tensor α) (a b : ℕ) : Tensor α :=
  ⟨swapL t.shape a b, fun idx => t.get (swapL idx a b)⟩

/-- `t.repeat_interleave(n, dim=0)`. -/
def repeatInterleave0 {α} (t : Tensor α) (n : ℕ) : Tensor α :=
  ⟨match t.shape with
    | [] => []
    | s :: ss => (s * n) :: ss,
   fun idx => match idx with
    | [] => t.get []
    | i :: is => t.get ((i / n) :: is)⟩

/-- `t.repeat(n, 1, ..., 1)`. -/
def repeat0 {α} (t : Tensor α) (n : ℕ) : Tensor α :=
  ⟨match t.shape with
    | [] => []
    | s :: ss => (n * s) :: ss,
   fun idx => match idx with
    | [] => t.get []
    | i :: is => t.get ((i % t.shape.headD 1) :: is)⟩

/-- right-aligned broadcast shape; `none` when incompatible. -/
def bcastRev : List ℕ → List ℕ → Option (List ℕ)
  | [], bs => some bs
  | as, [] => some as
  | a :: as, b :: bs =>
    if a = b then (bcastRev as bs).map (a :: ·)
    else if a = 1 then (bcastRev as bs).map (b :: ·)
    else if b = 1 then (bcastRev as bs).map (a :: ·)
    else none

def bcastShape (a b : List ℕ) : Option (List ℕ) :=
  (bcastRev a.reverse b.reverse).map List.reverse

/-- the index into a tensor of shape `s` that a broadcast index `idx` refers to: leading axes are
dropped, extents `1` are read at `0`. -/
def bidx (s idx : List ℕ) : List ℕ :=
  List.zipWith (fun n i => if n = 1 then 0 else i) s (idx.drop (idx.length - s.length))

/-- element-wise binary operation with broadcasting; RuntimeError when shapes are incompatible. -/
def bzip {α β γ} (f : α → β → γ) (a : Tensor α) (b : Tensor β) : Except PyErr (Tensor γ) :=
  match bcastShape a.shape b.shape with
  | none => .error .runtimeError
  | some s => .ok ⟨s, fun idx => f (a.get (bidx a.shape idx)) (b.get (bidx b.shape idx))⟩

/-- element-wise map. -/
def map {α β} (f : α → β) (t : Tensor α) : Tensor β := ⟨t.shape, fun idx => f (t.get idx)⟩

/-- pairwise table `out[n, *rest] = f(a[n], b[*rest])`: the broadcasting idiom `a[:, None] op b`. -/
def pairwise {α β γ} (f : α → β → γ) (a : Tensor α) (b : Tensor β) : Tensor γ :=
  ⟨a.shape.headD 0 :: b.shape,
   fun idx => match idx with
    | [] => f (a.get []) (b.get [])
    | n :: rest => f (a.get [n]) (b.get rest)⟩

/-- one-dimensional tensor from a list (entries beyond the end are junk). -/
def ofList {α} [Inhabited α] (l : List α) : Tensor α :=
  ⟨[l.length], fun idx => l.getD (idx.headD 0) default⟩

/-- `t[a:b]` along the first axis (Python slicing truncates at the end). -/
def slice0 {α} (t : Tensor α) (a b : ℕ) : Tensor α :=
  ⟨match t.shape with
    | [] => []
    | s :: ss => (min b s - a) :: ss,
   fun idx => match idx with
    | [] => t.get []
    | i :: is => t.get ((a + i) :: is)⟩

/-- `t[a:]` along the first axis. -/
def drop0 {α} (t : Tensor α) (a : ℕ) : Tensor α := t.slice0 a (t.shape.headD 0)

/-- `t[l]` for a list `l` of row numbers; IndexError when one is out of range. -/
def index0 {α} (t : Tensor α) (l : List ℕ) : Except PyErr (Tensor α) :=
  if l.all (· < t.shape.headD 0) then
    .ok ⟨l.length :: t.shape.tail,
      fun idx => match idx with
        | [] => t.get []
        | i :: is => t.get (l.getD i 0 :: is)⟩
  else .error .indexError

/-- `torch.cat((a, b), dim=0)`; RuntimeError when the other extents differ. -/
def cat0 {α} (a b : Tensor α) : Except PyErr (Tensor α) :=
  if a.shape.tail = b.shape.tail then
    .ok ⟨(a.shape.headD 0 + b.shape.headD 0) :: a.shape.tail,
      fun idx => match idx with
        | [] => a.get []
        | i :: is => if i < a.shape.headD 0 then a.get (i :: is)
                     else b.get ((i - a.shape.headD 0) :: is)⟩
  else .error .runtimeError

/-- all multi-indices of a shape in row-major order. -/
def allIdx : List ℕ → List (List ℕ)
  | [] => [[]]
  | s :: ss => (List.range s).flatMap (fun i => (allIdx ss).map (i :: ·))

end Tensor
end GConv

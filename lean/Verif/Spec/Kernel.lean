import Verif.Torch.Tensor

/-! # What the kernel classes expect of the callables they are given -/

namespace GConv.Spec

open Tensor

/-- `samp` samples images of extents `ks` pointwise: output cell `o` of image `(n, c)` is
`core (image (n, c)) (coordinate of cell o in grid n)`. -/
def PointwiseSampler {d : ℕ} (samp : Tensor ℝ → Tensor (Fin d → ℝ) → Except PyErr (Tensor ℝ))
    (ks : List ℕ) (core : (List ℕ → ℝ) → (Fin d → ℝ) → ℝ) : Prop :=
  ∀ (input : Tensor ℝ) (grid : Tensor (Fin d → ℝ)) (N C : ℕ),
    input.shape = N :: C :: ks → grid.shape = N :: ks →
    ∃ out, samp input grid = .ok out ∧ out.shape = N :: C :: ks ∧
      ∀ n < N, ∀ c < C, ∀ o, InB ks o →
        out.get (n :: c :: o) = core (fun r => input.get (n :: c :: r)) (grid.get (n :: o))

/-- an image sampler looks only at the cells of the image. -/
def LocalCore {d : ℕ} (ks : List ℕ) (core : (List ℕ → ℝ) → (Fin d → ℝ) → ℝ) : Prop :=
  ∀ f g : List ℕ → ℝ, ∀ v, (∀ r, InB ks r → f r = g r) → core f v = core g v

/-- `samp` (with its reference grid fixed) samples `K` stored values per channel row by row and channel
by channel: for queries that all satisfy `Good`, entry `(i, c)` of the result is
`core (channel c) (query i)`. -/
def RowwiseSampler {G : Type} (samp : Tensor G → Tensor ℝ → Tensor G → Except PyErr (Tensor ℝ))
    (gridH : Tensor G) (K : ℕ) (Good : G → Prop) (core : (ℕ → ℝ) → G → ℝ) : Prop :=
  ∀ (q : Tensor G) (sig : Tensor ℝ) (m S : ℕ), q.shape = [m] → sig.shape = [K, S] →
    (∀ i < m, Good (q.get [i])) →
    ∃ out, samp q sig gridH = .ok out ∧ out.shape = [m, S] ∧
      ∀ i < m, ∀ c < S, out.get [i, c] = core (fun k => sig.get [k, c]) (q.get [i])

/-- a channel sampler looks only at the `K` stored values. -/
def LocalChannel {G : Type} (K : ℕ) (core : (ℕ → ℝ) → G → ℝ) : Prop :=
  ∀ f g : ℕ → ℝ, ∀ q, (∀ k < K, f k = g k) → core f q = core g q

/-- the value a group sampler returns for one query element `q` and one channel of `K` stored
values `f`. -/
def sampleOne {G : Type} (samp : Tensor G → Tensor ℝ → Tensor G → Except PyErr (Tensor ℝ))
    (gridH : Tensor G) (K : ℕ) (f : ℕ → ℝ) (q : G) : ℝ :=
  match samp ⟨[1], fun _ => q⟩ ⟨[K, 1], fun idx => f (idx.getD 0 0)⟩ gridH with
  | .ok t => t.get [0, 0]
  | .error _ => 0

/-- Which stored channel pair `(co', ci')` entry `(co, ci)` of a group kernel reads: position
`ci * CO + co` of the row-major list of pairs. -/
def storedChannel (CO CI co ci : ℕ) : ℕ × ℕ := ((ci * CO + co) / CI, (ci * CO + co) % CI)

end GConv.Spec

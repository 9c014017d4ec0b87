import Verif.Torch.Tensor
import Mathlib.Algebra.Order.Round
import Mathlib.Data.Real.Archimedean

/-! # `torch.nn.functional` on images: `grid_sample`, `pad`, `conv2d` / `conv3d`

Meanings assumed for these library functions (trusted base, DESIGN.md §3), written for any number
`d` of spatial axes.  A spatial position is a list with one entry per axis. -/

namespace GConv.F

open Tensor

/-! ## `F.grid_sample(input, grid, mode, padding_mode)` with `align_corners=False` -/

/-- unnormalisation of a coordinate in `[-1, 1]` to pixel units (`align_corners=False`). -/
noncomputable def unnormalize (s : ℕ) (x : ℝ) : ℝ := ((x + 1) * s - 1) / 2

/-- reflection about the outer borders `-1/2` and `s - 1/2` of the outer pixels. -/
noncomputable def reflectCoord (s : ℕ) (u : ℝ) : ℝ :=
  let v := |u + 1 / 2|
  let extra := v - s * ⌊v / s⌋
  if Even ⌊v / s⌋ then extra - 1 / 2 else s - extra - 1 / 2

/-- padding modes of `grid_sample`. -/
inductive SPad
  | zeros | border | reflection
  deriving DecidableEq

/-- interpolation modes of `grid_sample` named by the docstrings of the repo
(`bicubic` is not modelled). -/
inductive SMode
  | bilinear | nearest
  deriving DecidableEq

/-- the source coordinate after padding. -/
noncomputable def sourceCoord (pad : SPad) (s : ℕ) (x : ℝ) : ℝ :=
  match pad with
  | .zeros => unnormalize s x
  | .border => clamp (unnormalize s x) 0 ((s : ℝ) - 1)
  | .reflection => clamp (reflectCoord s (unnormalize s x)) 0 ((s : ℝ) - 1)

/-- `nearbyint`: round half to even. -/
noncomputable def roundEven (u : ℝ) : ℤ :=
  if u - ⌊u⌋ < 1 / 2 then ⌊u⌋
  else if 1 / 2 < u - ⌊u⌋ then ⌊u⌋ + 1
  else if Even ⌊u⌋ then ⌊u⌋ else ⌊u⌋ + 1

/-- pixels of one axis that contribute, with their weights (pixels outside count as zero). -/
noncomputable def taps (mode : SMode) (s : ℕ) (u : ℝ) : List (ℕ × ℝ) :=
  let cand : List (ℤ × ℝ) := match mode with
    | .bilinear => [(⌊u⌋, 1 - (u - ⌊u⌋)), (⌊u⌋ + 1, u - ⌊u⌋)]
    | .nearest => [(roundEven u, 1)]
  (cand.filter (fun p => decide (0 ≤ p.1 ∧ p.1 < (s : ℤ)))).map (fun p => (p.1.toNat, p.2))

/-- separable interpolation of `f` on a box of shape `S` at pixel coordinates `us` (axis order). -/
noncomputable def sampleRec (mode : SMode) : List ℕ → List ℝ → (List ℕ → ℝ) → ℝ
  | s :: ss, u :: us, f =>
    ((taps mode s u).map (fun p => p.2 * sampleRec mode ss us (fun r => f (p.1 :: r)))).sum
  | _, _, f => f []

/-- one output value: coordinate `0` of `x` belongs to the last axis. -/
noncomputable def sampleAt {d : ℕ} (mode : SMode) (pad : SPad) (S : List ℕ) (f : List ℕ → ℝ)
    (x : Fin d → ℝ) : ℝ :=
  sampleRec mode S (List.zipWith (sourceCoord pad) S (List.ofFn x).reverse) f

/-- mode strings; anything else is a ValueError. -/
def parseMode (m : String) : Except PyErr SMode :=
  if m = "bilinear" then .ok .bilinear else if m = "nearest" then .ok .nearest else .error .valueError

/-- padding mode strings; anything else is a ValueError. -/
def parsePad (m : String) : Except PyErr SPad :=
  if m = "zeros" then .ok .zeros else if m = "border" then .ok .border
  else if m = "reflection" then .ok .reflection else .error .valueError

/-- `F.grid_sample`: `input` of shape `(N, C, *S)`, `grid` of shape `(N, *O)` with entries in `ℝ^d`.
RuntimeError when the ranks, the batch extents or an empty `S` do not fit. -/
noncomputable def gridSample {d : ℕ} (mode pad : String) (input : Tensor ℝ)
    (grid : Tensor (Fin d → ℝ)) : Except PyErr (Tensor ℝ) := do
  let mode ← parseMode mode
  let pad ← parsePad pad
  match input.shape, grid.shape with
  | N :: C :: S, N' :: O =>
    if N = N' ∧ S.length = d ∧ O.length = d ∧ S.all (0 < ·) then
      .ok ⟨N :: C :: O, fun idx => match idx with
        | n :: c :: o => sampleAt mode pad S (fun r => input.get (n :: c :: r)) (grid.get (n :: o))
        | _ => 0⟩
    else .error .runtimeError
  | _, _ => .error .runtimeError

/-! ## `F.pad` and convolution -/

/-- padding modes of convolution layers. -/
inductive CPad
  | zeros | reflect | replicate | circular
  deriving DecidableEq

/-- source pixel of position `p` (relative to the unpadded axis of extent `s`); `none` is zero. -/
def padIdx (mode : CPad) (s : ℕ) (p : ℤ) : Option ℕ :=
  match mode with
  | .zeros => if 0 ≤ p ∧ p < s then some p.toNat else none
  | .reflect => some (if p < 0 then -p else if p < s then p else 2 * (s - 1) - p).toNat
  | .replicate => some (max 0 (min p (s - 1))).toNat
  | .circular => some (p % s).toNat

/-- is the amount of padding accepted by `F.pad`? -/
def padAllowed (mode : CPad) (s l r : ℕ) : Bool :=
  match mode with
  | .zeros => true
  | .reflect => l < s ∧ r < s
  | .replicate => 0 < s
  | .circular => l ≤ s ∧ r ≤ s

/-- the source index for a padded index: one entry per axis, `none` when some axis is outside. -/
def padIndex (mode : CPad) : List ℕ → List (ℕ × ℕ) → List ℕ → Option (List ℕ)
  | s :: ss, lr :: ps, i :: is =>
    match padIdx mode s ((i : ℤ) - lr.1), padIndex mode ss ps is with
    | some j, some js => some (j :: js)
    | _, _ => none
  | _, _, _ => some []

/-- pad the spatial axes of `input (N, C, *S)` by `(left, right)` pairs given in axis order. -/
def padAxes (mode : CPad) (input : Tensor ℝ) (ps : List (ℕ × ℕ)) : Except PyErr (Tensor ℝ) :=
  match input.shape with
  | N :: C :: S =>
    if S.length = ps.length ∧ (List.zipWith (fun s lr => padAllowed mode s lr.1 lr.2) S ps).all id then
      .ok ⟨N :: C :: List.zipWith (fun s lr => s + lr.1 + lr.2) S ps, fun idx => match idx with
        | n :: c :: p => match padIndex mode S ps p with
          | some q => input.get (n :: c :: q)
          | none => 0
        | _ => 0⟩
    else .error .runtimeError
  | _ => .error .runtimeError

/-- consecutive pairs of a flat list. -/
def pairs : List ℕ → List (ℕ × ℕ)
  | a :: b :: l => (a, b) :: pairs l
  | _ => []

/-- `F.pad(input, flat, mode)`: the flat list starts with the pair of the last axis. -/
def pad (mode : CPad) (input : Tensor ℝ) (flat : List ℕ) : Except PyErr (Tensor ℝ) :=
  padAxes mode input (pairs flat).reverse

/-- extent of the output along one axis. -/
def outSize (s k st dil : ℕ) : ℕ := (s - (dil * (k - 1) + 1)) / st + 1

/-- input position read by output position `o` and kernel cell `k`. -/
def inPos : List ℕ → List ℕ → List ℕ → List ℕ → List ℕ
  | st :: sts, dil :: dils, o :: os, k :: ks => (o * st + k * dil) :: inPos sts dils os ks
  | _, _, _, _ => []

/-- output extents. -/
def outSizes : List ℕ → List ℕ → List ℕ → List ℕ → List ℕ
  | s :: ss, k :: ks, st :: sts, dil :: dils => outSize s k st dil :: outSizes ss ks sts dils
  | _, _, _, _ => []

/-- does the dilated kernel fit into the (padded) input along every axis? -/
def fits : List ℕ → List ℕ → List ℕ → Bool
  | s :: ss, k :: ks, dil :: dils => decide (dil * (k - 1) + 1 ≤ s) && fits ss ks dils
  | _, _, _ => true

/-- convolution (cross-correlation) without padding:
`out[n,co,o] = Σ_{ci < Cin/groups} Σ_k input[n, grp(co)·Cin/groups + ci, o·stride + k·dilation] · weight[co,ci,k]`.
RuntimeError for non-matching ranks, channels, groups or a kernel larger than the input. -/
def convValid (input weight : Tensor ℝ) (stride dilation : List ℕ) (groups : ℕ) :
    Except PyErr (Tensor ℝ) :=
  match input.shape, weight.shape with
  | N :: Cin :: S, Cout :: Cg :: K =>
    if S.length = K.length ∧ stride.length = K.length ∧ dilation.length = K.length ∧
        Cin = Cg * groups ∧ 0 < groups ∧ Cout % groups = 0 ∧ stride.all (0 < ·) ∧ dilation.all (0 < ·) ∧
        K.all (0 < ·) ∧ fits S K dilation then
      .ok ⟨N :: Cout :: outSizes S K stride dilation, fun idx => match idx with
        | n :: co :: o =>
          ((List.range Cg).map fun ci => ((allIdx K).map fun k =>
            input.get (n :: (co / (Cout / groups) * Cg + ci) :: inPos stride dilation o k) *
              weight.get (co :: ci :: k)).sum).sum
        | _ => 0⟩
    else .error .runtimeError
  | _, _ => .error .runtimeError

/-- the `padding` argument of `F.conv2d` / `F.conv3d`. -/
inductive ConvPad
  | amounts (l : List ℕ)
  | same
  | valid
  deriving DecidableEq

/-- total padding of `padding='same'` along an axis, left part `total // 2`. -/
def samePair (k dil : ℕ) : ℕ × ℕ := (dil * (k - 1) / 2, dil * (k - 1) - dil * (k - 1) / 2)

/-- `F.conv2d` / `F.conv3d` (`bias=None`).  `padding='same'` needs unit strides (RuntimeError). -/
def conv (input weight : Tensor ℝ) (stride : List ℕ) (padding : ConvPad) (dilation : List ℕ)
    (groups : ℕ) : Except PyErr (Tensor ℝ) := do
  match padding with
  | .valid => convValid input weight stride dilation groups
  | .same =>
    if stride.all (· == 1) then
      let x ← padAxes .zeros input (List.zipWith samePair (weight.shape.drop 2) dilation)
      convValid x weight stride dilation groups
    else .error .runtimeError
  | .amounts l =>
    let x ← padAxes .zeros input (l.map fun p => (p, p))
    convValid x weight stride dilation groups

/-- `F.pad` and `F.conv2d` / `F.conv3d` take an input `(C, *S)` with `nd` spatial axes for a batch of one and drop the batch axis of
the result. -/
def unbatched (nd : ℕ) (f : Tensor ℝ → Except PyErr (Tensor ℝ)) (x : Tensor ℝ) : Except PyErr (Tensor ℝ) :=
  if x.shape.length = nd + 1 then do
    let y ← f ⟨1 :: x.shape, fun idx => x.get idx.tail⟩
    return ⟨y.shape.tail, fun idx => y.get (0 :: idx)⟩
  else f x

end GConv.F

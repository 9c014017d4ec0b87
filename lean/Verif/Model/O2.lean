import Verif.Model.SO2
import Mathlib.Data.List.Sort

/-! # Model of `gconv/geometry/groups/o2.py` -/

namespace GConv

/-! ## Coset-wise sampling shared (textually) by `o2.grid_sample` and `o3.grid_sample` -/

/-- `torch.argsort(l)` (the keys used by the code are distinct). -/
def argsort (l : List ℕ) : List ℕ :=
  (List.range l.length).mergeSort (fun a b => l.getD a 0 ≤ l.getD b 0)

/-- `torch.where(p)[0]` for a vector of length `n`. -/
def whereIdx (n : ℕ) (p : ℕ → Bool) : List ℕ := (List.range n).filter p

/-- The body of `o2.grid_sample` (o2.py:173-203) and `o3.grid_sample` (o3.py:182-212), which differ
only in how the coefficient (`coef`) and the rotation part (`rot`) are read from an element and in
the rotation sampler `samp width grid signal signal_grid`. -/
noncomputable def cosetSample {G Q : Type} (coef : G → ℝ) (rot : G → Q)
    (samp : ℝ → Tensor Q → Tensor ℝ → Tensor Q → Except PyErr (Tensor ℝ))
    (grid : Tensor G) (signal : Tensor ℝ) (signalGrid : Tensor G)
    (nRot nRef : ℕ) (rotWidth refWidth : ℝ) : Except PyErr (Tensor ℝ) := do
  let n := grid.shape.headD 0
  let R : Tensor Q := grid.map rot
  let rotSignal := signal.slice0 0 nRot
  let rotSignalGrid := (signalGrid.slice0 0 nRot).map rot
  let refSignal := signal.drop0 nRot
  let refSignalGrid := (signalGrid.drop0 nRot).map rot
  -- find rotations and reflections
  let rotIdx := whereIdx n (fun i => decide (coef (grid.get [i]) = 1))
  let refIdx := whereIdx n (fun i => decide (coef (grid.get [i]) = -1))
  -- sample rotations and reflections if they exist
  let rotSignal ← (if nRot ≠ 0 then (do
      let q ← R.index0 rotIdx
      samp rotWidth q rotSignal rotSignalGrid)
    else pure rotSignal)
  let refSignal ← (if nRef ≠ 0 then (do
      let q ← R.index0 refIdx
      samp refWidth q refSignal refSignalGrid)
    else pure refSignal)
  let sampled ← rotSignal.cat0 refSignal
  -- restore original order
  let perms := argsort (rotIdx ++ refIdx)
  sampled.index0 perms

namespace O2

open Real Tensor

/-- An O(2) element: `(coefficient, angle)`, the two components of the trailing axis. -/
abbrev Elt := ℝ × ℝ

/-- `uniform_grid`, o2.py:9-37. -/
noncomputable def uniformGrid (n m : ℕ) : List Elt :=
  let angles := SO2.uniformGrid n ++ SO2.uniformGrid m
  let coeffs := List.replicate n (1 : ℝ) ++ List.replicate m (-1 : ℝ)
  List.zip coeffs angles

/-- `random_grid`, o2.py:40-59; `u` the draws for the angles, `v` those for the coefficients
(`(2 * (rand > 0.5)) - 1`). -/
noncomputable def randomGrid (u v : List ℝ) : List Elt :=
  let angles := SO2.randomGrid u
  let coeffs := v.map (fun x => 2 * (if x > 0.5 then (1 : ℝ) else 0) - 1)
  List.zip coeffs angles

/-- `inverse`, o2.py:62-74. -/
def inverse (R : Elt) : Elt := (R.1, R.2 * (-1))

/-- `det`, o2.py:77-88. -/
def det (R : Elt) : ℝ := R.1

/-- `left_apply_angle`, o2.py:91-105. -/
noncomputable def leftApplyAngle (R1 R2 : Elt) : Elt :=
  (R1.1 * R2.1, pyMod (R1.2 + R2.2) (2 * π))

/-- `left_apply_to_angle`, o2.py:108-123. -/
noncomputable def leftApplyToAngle (R1 R2 : Tensor Elt) : Tensor Elt :=
  pairwise (fun a b => (a.1 * b.1, pyMod (a.2 + b.2) (2 * π))) R1 R2

/-- `left_apply_to_R2`, o2.py:126-142: `coeffs.view(-1,1,1,1) * so2.left_apply_angle_to_R2(...)`. -/
noncomputable def leftApplyToR2 (R : Tensor Elt) (grid : Tensor (Fin 2 → ℝ)) :
    Tensor (Fin 2 → ℝ) :=
  let t := SO2.leftApplyAngleToR2 (R.map Prod.snd) grid
  ⟨t.shape, fun idx => match idx with
    | [] => (R.get []).1 • t.get []
    | n :: rest => (R.get [n]).1 • t.get (n :: rest)⟩

/-- `grid_sample`, o2.py:145-203. -/
noncomputable def gridSample (grid : Tensor Elt) (signal : Tensor ℝ) (signalGrid : Tensor Elt)
    (nRot nRef : ℕ) (mode : String) (rotWidth refWidth : ℝ) : Except PyErr (Tensor ℝ) :=
  cosetSample Prod.fst Prod.snd (fun w g s sg => SO2.gridSample g s sg mode w)
    grid signal signalGrid nRot nRef rotWidth refWidth

end O2
end GConv

import Verif.Lemmas.KernelSym
import Verif.Props.SO3Log

/-! # C54 – C57 and the formulas C50 – C52 for the premade kernels -/

namespace GConv

open Tensor Spec GroupKernel

/-- the spatial sampling mode is one of the documented ones. -/
def SpatialModes (mode pad : String) (m : F.SMode) (p : F.SPad) : Prop :=
  F.parseMode mode = .ok m ∧ F.parsePad pad = .ok p

/-- the defaults of the constructors. -/
theorem defaultModes : SpatialModes "bilinear" "border" .bilinear .border := ⟨rfl, by decide⟩

theorem forall_pair {k : ℕ} (h : 0 < k) : ∀ j ∈ [k, k], 0 < j := by
  intro j hj; rcases List.mem_pair.1 hj with rfl | rfl <;> exact h

theorem forall_triple {k : ℕ} (h : 0 < k) : ∀ j ∈ [k, k, k], 0 < j := by
  intro j hj; simp only [List.mem_cons, List.not_mem_nil, or_false, or_self] at hj; omega

theorem elems_length {G : Type} (t : Tensor G) : (elems t).length = t.shape.headD 0 := by
  simp [elems]

theorem maskAt_ite (b : Bool) (t : Tensor ℝ) (x y : List ℕ) (h : t.get x = t.get y) :
    maskAt (if b then some t else none) x = maskAt (if b then some t else none) y := by
  cases b
  · rfl
  · exact h

theorem maskAt_flag (b : Bool) (t : Tensor ℝ) (x : List ℕ) :
    maskAt (if b then some t else none) x = if b then t.get x else 1 := by
  cases b <;> rfl

/-! ## How the weights of a kernel change when all group elements are multiplied on the left -/

namespace GroupKernel
variable {G : Type} {d : ℕ}

/-- Multiplying the elements of `H` by `left` moves the cells of every lifting kernel by `σ` and scales
the values by `c`. -/
def LiftingMoves (K : GroupKernel G d) (left : G → G) (ax : Equiv.Perm (Fin d)) (σ : LatticeSym d)
    (c : ℝ) : Prop :=
  ∀ (weight : Tensor ℝ) (H : Tensor G) (n : ℕ),
    weight.shape = [K.outC, K.inC / K.groups] ++ K.kernelSize → H.shape = [n] →
    ∃ out out', K.liftingForward weight H = .ok out ∧ K.liftingForward weight (H.map left) = .ok out' ∧
      out.shape = [K.outC, n, K.inC / K.groups] ++ K.kernelSize ∧ out'.shape = out.shape ∧
      ∀ co h ci x, co < K.outC → h < n → ci < K.inC / K.groups → InB K.kernelSize x →
        out'.get (co :: h :: ci :: LatticeSym.move ax σ K.kernelSize x) = c * out.get (co :: h :: ci :: x)

/-- Multiplying the elements of `in_H` and `out_H` by `left` moves the cells of every group kernel by `σ`
and scales the values by `c`; `Pair o i` says which pairs of elements are admitted. -/
def GroupMoves (K : GroupKernel G d) (left : G → G) (ax : Equiv.Perm (Fin d)) (σ : LatticeSym d)
    (c : ℝ) (Pair : G → G → Prop) : Prop :=
  ∀ (weight : Tensor ℝ) (inH outH : Tensor G) (nIn nOut : ℕ),
    weight.shape = [K.groupKernelDim, K.outC, K.inC / K.groups] ++ K.kernelSize →
    inH.shape = [nIn] → outH.shape = [nOut] →
    (∀ o < nOut, ∀ i < nIn, Pair (outH.get [o]) (inH.get [i])) →
    ∃ out out', K.forward weight inH outH = .ok out ∧
      K.forward weight (inH.map left) (outH.map left) = .ok out' ∧
      out.shape = [K.outC, nOut, K.inC / K.groups, nIn] ++ K.kernelSize ∧ out'.shape = out.shape ∧
      ∀ co o ci i x, co < K.outC → o < nOut → ci < K.inC / K.groups → i < nIn → InB K.kernelSize x →
        out'.get (co :: o :: ci :: i :: LatticeSym.move ax σ K.kernelSize x) =
          c * out.get (co :: o :: ci :: i :: x)

/-- The same for separable kernels (as many input as output group elements): the group weights stay
what they are, the spatial weights move. -/
def SeparableMoves (K : GroupKernel G d) (left : G → G) (ax : Equiv.Perm (Fin d)) (σ : LatticeSym d)
    (c : ℝ) (Pair : G → G → Prop) : Prop :=
  ∀ (weightH weight : Tensor ℝ) (inH outH : Tensor G) (n : ℕ),
    weightH.shape = [K.groupKernelDim, K.outC, K.inC / K.groups] →
    weight.shape = [K.outC, 1] ++ K.kernelSize →
    inH.shape = [n] → outH.shape = [n] →
    (∀ o < n, ∀ i < n, Pair (outH.get [o]) (inH.get [i])) →
    ∃ wH w w', K.separableForward weightH weight inH outH = .ok (wH, w) ∧
      K.separableForward weightH weight (inH.map left) (outH.map left) = .ok (wH, w') ∧
      wH.shape = [K.outC, n, K.inC / K.groups, n] ++ List.replicate K.kernelSize.length 1 ∧
      w.shape = [K.outC, n, 1] ++ K.kernelSize ∧ w'.shape = w.shape ∧
      ∀ co o x, co < K.outC → o < n → InB K.kernelSize x →
        w'.get (co :: o :: 0 :: LatticeSym.move ax σ K.kernelSize x) = c * w.get (co :: o :: 0 :: x)

theorem liftingMoves {K : GroupKernel G d} {inv mul act det core ax σ g} (hK : Lawful K inv mul act det)
    (hs : PointwiseSampler K.sampleRn K.kernelSize core) (hc : Cancels inv mul act det g)
    (hm : MovesGrid K act ax σ g) {c : ℝ} (hd : 1 / detAt det g = c) :
    LiftingMoves K (mul g) ax σ c := by
  intro weight H n hw hH
  obtain ⟨o, o', h1, h2, h3, h4, h5⟩ := lifting_move hK hs hc hm weight H n hw hH
  refine ⟨o, o', h1, h2, h3, h4, fun co h ci x a b c' d => ?_⟩
  rw [h5 co h ci x a b c' d, ← hd]; ring

theorem groupMoves {K : GroupKernel G d} {inv mul act det core Good coreH ax σ g}
    (hK : Lawful K inv mul act det)
    (hs : PointwiseSampler K.sampleRn K.kernelSize core) (hl : LocalCore K.kernelSize core)
    (hsH : RowwiseSampler K.sampleH K.gridH K.groupKernelDim Good coreH) (hlH : LocalChannel K.groupKernelDim coreH)
    (hpos : 0 < K.groupKernelDim) (hc : Cancels inv mul act det g) (hm : MovesGrid K act ax σ g)
    {c : ℝ} (hd : 1 / detAt det g = c) (Pair : G → G → Prop) (hP : ∀ o i, Pair o i → Good (mul (inv o) i)) :
    GroupMoves K (mul g) ax σ c Pair ∧ SeparableMoves K (mul g) ax σ c Pair := by
  constructor
  · intro weight inH outH nIn nOut hw hin hout hp
    obtain ⟨o, o', h1, h2, h3, h4, h5⟩ := forward_move hK hs hl hsH hlH hpos hc hm weight inH outH nIn nOut hw hin hout
      (fun o ho i hi => hP _ _ (hp o ho i hi))
    refine ⟨o, o', h1, h2, h3, h4, fun co h ci i x a b c' d e => ?_⟩
    rw [h5 co h ci i x a b c' d e, ← hd]; ring
  · intro weightH weight inH outH n hwH hw hin hout hp
    obtain ⟨wH, o, o', h1, h2, h3, h4, h5, h6⟩ := separable_move hK hs hsH hlH hpos hc hm weightH weight inH outH n hwH hw hin hout
      (fun o ho i hi => hP _ _ (hp o ho i hi))
    refine ⟨wH, o, o', h1, h2, h3, h4, h5, fun co h x a b c' => ?_⟩
    rw [h6 co h x a b c', ← hd]; ring

end GroupKernel

/-! ## SE(2) -/
namespace KernelSE2

/-- an angle acts on vectors by its rotation matrix. -/
noncomputable def act (a : ℝ) (v : Fin 2 → ℝ) : Fin 2 → ℝ := (SO2.angleToMatrix a).mulVec v

theorem lawful (a : KernelArgs ℝ ℕ) (s) :
    Lawful (base a s) SO2.inverseAngle SO2.leftApplyAngle act none where
  inverseH _ := rfl
  leftApplyToH _ _ := rfl
  leftApplyToRn A B := rfl
  detH := rfl
  gridRn := rfl
  mask m h := by cases h; rfl

theorem cancels (g : ℝ) : Cancels SO2.inverseAngle SO2.leftApplyAngle act none g where
  group a b := by
    unfold SO2.leftApplyAngle SO2.inverseAngle
    refine (pyMod_eq_iff two_pi_pos').2 ?_
    have h := ((pyMod_eqMod (g + a) (2 * Real.pi)).neg).add (pyMod_eqMod (g + b) (2 * Real.pi))
    have e : -(g + a) + (g + b) = -a + b := by ring
    rwa [e] at h
  space h v := by
    unfold act
    rw [Matrix.mulVec_mulVec]
    congr 1
    rw [(SO2.C01_inverse _).1, SO2.C01_product, (SO2.C01_inverse h).1]
    unfold SO2.inverseMatrix
    rw [Matrix.transpose_mul, Matrix.mul_assoc, (SO2.C01_angle_to_matrix_rotation g).1, Matrix.mul_one]
  det _ := (one_mul _).symm

theorem moves (a : KernelArgs ℝ ℕ) (s) (hs : 2 ≤ a.kernelSize) (σ : LatticeSym 2) (g : ℝ)
    (hg : SO2.angleToMatrix g = σ.matrix) : MovesGrid (base a s) act LatticeSym.ax2 σ g where
  cube := ⟨a.kernelSize, rfl⟩
  grid x hx := by
    unfold act; rw [hg]
    exact Functional.C46_moves_R2 a.kernelSize hs σ x hx
  mask x hx := (Functional.C47_R2 a.kernelSize).2.2 hs σ x hx

theorem pointwise (a : KernelArgs ℝ ℕ) (s) {m p} (hm : SpatialModes a.spatialMode a.spatialPad m p)
    (h : 0 < a.kernelSize) :
    PointwiseSampler (base a s).sampleRn (base a s).kernelSize (F.sampleAt m p [a.kernelSize, a.kernelSize]) :=
  gridSample_pointwise _ _ m p _ hm.1 hm.2 rfl (forall_pair h)

/-- `GLiftingKernelSE2`: entry `(co, h, ci, x)` of the kernel for the angles `H`. -/
theorem C50_SE2 (a : KernelArgs ℝ ℕ) (hg : 0 < a.groups) (hk : 0 < a.kernelSize) {m p}
    (hm : SpatialModes a.spatialMode a.spatialPad m p) (weight : Tensor ℝ) (H : Tensor ℝ) (n : ℕ)
    (hw : weight.shape = [a.outC, a.inC / a.groups, a.kernelSize, a.kernelSize]) (hH : H.shape = [n]) :
    ∃ K out, lifting a = .ok K ∧ K.liftingForward weight H = .ok out ∧
      out.shape = [a.outC, n, a.inC / a.groups, a.kernelSize, a.kernelSize] ∧
      ∀ co h ci x y, co < a.outC → h < n → ci < a.inC / a.groups → x < a.kernelSize → y < a.kernelSize →
        out.get [co, h, ci, x, y] =
          (Functional.createSphericalMaskR2 a.kernelSize).get [x, y] *
            F.sampleAt m p [a.kernelSize, a.kernelSize] (fun r => weight.get (co :: ci :: r))
              ((SO2.angleToMatrix (-H.get [h])).mulVec ((Functional.createGridR2 a.kernelSize).get [x, y])) := by
  obtain ⟨out, e, s, g⟩ := C50_lifting (lawful a noSampler) (pointwise a noSampler hm hk) weight H n hw hH
  refine ⟨base a noSampler, out, if_neg (by omega), e, s, ?_⟩
  intro co h ci x y hco hh hci hx hy
  have := g co h ci [x, y] hco hh hci (by simp [base, hx, hy])
  rw [this]
  exact div_one _

/-- the constructor's arguments give a working kernel: positive sizes, the width `w` of the group sampler
is determined and sampling with it works. -/
structure Ready (a : KernelArgs ℝ ℕ) (w : ℝ) : Prop where
  groups : 0 < a.groups
  kernel : 0 < a.kernelSize
  width : defaultWidth a.rotWidth (SO2.nearestNeighbourDistance (elems (grid a))) = .ok w
  nonempty : 0 < (grid a).shape.headD 0
  solvable : Solvable SO2.dist a.groupMode w (grid a) ((grid a).shape.headD 0)

theorem full_eq {a : KernelArgs ℝ ℕ} {w : ℝ} (h : Ready a w) :
    full a = .ok (base a fun q sig g => SO2.gridSample q sig g a.groupMode w) := by
  unfold full
  rw [h.width, ok_bind]
  exact if_neg (by have := h.groups; omega)

/-- arguments used in the examples below: the default grid with `n` angles, nearest-neighbour sampling. -/
def exArgs (n : ℕ) : KernelArgs ℝ ℕ :=
  { inC := 4, outC := 6, kernelSize := 5, groupKernelSize := n, groups := 2, groupMode := "nearest", rotWidth := 1 }

theorem exReady (n : ℕ) (hn : 0 < n) : Ready (exArgs n) 1 := by
  have hl : (grid (exArgs n)).shape.headD 0 = n := SO2.C03_length n
  refine ⟨by norm_num [exArgs], by norm_num [exArgs], if_neg one_ne_zero, by rw [hl]; exact hn, rfl, Or.inl ⟨rfl, ?_⟩⟩
  rw [hl]; exact hn

/-- the value the group sampler of the kernel returns for one relative angle and one channel. -/
noncomputable def value (a : KernelArgs ℝ ℕ) (w : ℝ) : (ℕ → ℝ) → ℝ → ℝ :=
  sampleOne (fun q sig g => SO2.gridSample q sig g a.groupMode w) (grid a) ((grid a).shape.headD 0)

theorem rows {a : KernelArgs ℝ ℕ} {w : ℝ} (h : Ready a w) :
    RowwiseSampler (fun q sig g => SO2.gridSample q sig g a.groupMode w) (grid a)
      [(grid a).shape.headD 0].sum (fun _ => True) (value a w) ∧
    LocalChannel [(grid a).shape.headD 0].sum (value a w) :=
  SO2.rowwise _ _ _ _ h.solvable

/-- `GKernelSE2`: entry `(co, o, ci, i, x, y)` of the kernel for the angles `in_H`, `out_H`. -/
theorem C51_SE2 (a : KernelArgs ℝ ℕ) (w : ℝ) (h : Ready a w) {m p}
    (hm : SpatialModes a.spatialMode a.spatialPad m p) (weight inH outH : Tensor ℝ) (nIn nOut : ℕ)
    (hw : weight.shape = [(grid a).shape.headD 0, a.outC, a.inC / a.groups, a.kernelSize, a.kernelSize])
    (hin : inH.shape = [nIn]) (hout : outH.shape = [nOut]) :
    ∃ K out, full a = .ok K ∧ K.forward weight inH outH = .ok out ∧
      out.shape = [a.outC, nOut, a.inC / a.groups, nIn, a.kernelSize, a.kernelSize] ∧
      ∀ co o ci i x y, co < a.outC → o < nOut → ci < a.inC / a.groups → i < nIn →
        x < a.kernelSize → y < a.kernelSize →
        out.get [co, o, ci, i, x, y] =
          (Functional.createSphericalMaskR2 a.kernelSize).get [x, y] *
            F.sampleAt m p [a.kernelSize, a.kernelSize]
              (fun r => value a w (fun k => weight.get (k ::
                  (storedChannel a.outC (a.inC / a.groups) co ci).1 ::
                  (storedChannel a.outC (a.inC / a.groups) co ci).2 :: r))
                (SO2.leftApplyAngle (-outH.get [o]) (inH.get [i])))
              ((SO2.angleToMatrix (-outH.get [o])).mulVec ((Functional.createGridR2 a.kernelSize).get [x, y])) := by
  obtain ⟨out, e, s, g⟩ := C51_group (lawful a _) (pointwise a _ hm h.kernel) (sampleAt_local m p _ rfl)
    (rows h).1 (rows h).2 h.nonempty weight inH outH nIn nOut hw hin hout (fun _ _ _ _ => trivial)
  refine ⟨_, out, full_eq h, e, s, ?_⟩
  intro co o ci i x y hco ho hci hi hx hy
  have := g co o ci i [x, y] hco ho hci hi (by simp [base, hx, hy])
  rw [this]
  exact div_one _

theorem full_base {a : KernelArgs ℝ ℕ} {K : GroupKernel ℝ 2} (h : full a = .ok K) : ∃ s, K = base a s := by
  unfold full at h
  cases hd : defaultWidth a.rotWidth (SO2.nearestNeighbourDistance (elems (grid a))) with
  | error e => rw [hd] at h; cases h
  | ok w =>
    rw [hd, ok_bind] at h
    unfold checkGroups at h
    by_cases h0 : a.groups = 0
    · rw [if_pos h0] at h; cases h
    · rw [if_neg h0] at h; cases h; exact ⟨_, rfl⟩

/-- Group weights of `GSeparableKernelSE2` / `GKernelSE2` for any grids, weights and settings. -/
theorem C56_SE2 (a : KernelArgs ℝ ℕ) (K : GroupKernel ℝ 2) (h : full a = .ok K) (g : ℝ)
    (weight inH outH : Tensor ℝ) (dims : List ℕ) :
    K.subgroupWeights weight (inH.map (SO2.leftApplyAngle g)) (outH.map (SO2.leftApplyAngle g)) dims =
      K.subgroupWeights weight inH outH dims := by
  obtain ⟨s, rfl⟩ := full_base h
  exact subgroupWeights_cancel (lawful a s) (cancels g) weight inH outH dims

/-- Spatial weights move with every lattice rotation. -/
theorem C57_SE2 (a : KernelArgs ℝ ℕ) (hs : 2 ≤ a.kernelSize) {m p}
    (hm : SpatialModes a.spatialMode a.spatialPad m p) (g : ℝ) (σ : LatticeSym 2)
    (hg : SO2.angleToMatrix g = σ.matrix) :
    (0 < a.groups → ∃ K, lifting a = .ok K ∧ LiftingMoves K (SO2.leftApplyAngle g) LatticeSym.ax2 σ 1) ∧
    (∀ w, Ready a w → ∃ K, full a = .ok K ∧
      GroupMoves K (SO2.leftApplyAngle g) LatticeSym.ax2 σ 1 (fun _ _ => True) ∧
      SeparableMoves K (SO2.leftApplyAngle g) LatticeSym.ax2 σ 1 (fun _ _ => True)) := by
  have hone : (1 : ℝ) / detAt (none : Option (ℝ → ℝ)) g = 1 := div_one _
  constructor
  · intro h0
    exact ⟨base a noSampler, if_neg (by omega), liftingMoves (lawful a _) (pointwise a _ hm (by omega)) (cancels g)
      (moves a _ hs σ g hg) hone⟩
  · intro w h
    exact ⟨_, full_eq h, groupMoves (lawful a _) (pointwise a _ hm h.kernel) (sampleAt_local m p _ rfl)
      (rows h).1 (rows h).2 h.nonempty (cancels g) (moves a _ hs σ g hg) hone _ (fun _ _ _ => trivial)⟩

/-- the quarter turn is a lattice symmetry and the example kernel satisfies the hypotheses. -/
def quarter : LatticeSym 2 := ⟨Equiv.swap 0 1, ![true, false]⟩

theorem quarter_matrix : SO2.angleToMatrix (Real.pi / 2) = quarter.matrix := by
  ext i j
  fin_cases i <;> fin_cases j <;> simp [SO2.angleToMatrix, LatticeSym.matrix, quarter]

example (n : ℕ) (hn : 0 < n) : ∃ K, full (exArgs n) = .ok K ∧
    GroupMoves K (SO2.leftApplyAngle (Real.pi / 2)) LatticeSym.ax2 quarter 1 (fun _ _ => True) := by
  obtain ⟨K, h1, h2, -⟩ := (C57_SE2 (exArgs n) (by norm_num [exArgs]) defaultModes (Real.pi / 2)
    quarter quarter_matrix).2 1 (exReady n hn)
  exact ⟨K, h1, h2⟩

end KernelSE2

/-! ## SE(3) -/
namespace KernelSE3

open SO3

/-- a matrix acts on vectors by multiplication. -/
def act (R : Mat3) (v : Fin 3 → ℝ) : Fin 3 → ℝ := R.mulVec v

theorem lawful (a : KernelArgs Mat3 ℕ) (g : Tensor Mat3) (s) :
    Lawful (base a g s) matrixInverse leftApplyMatrix act none where
  inverseH _ := rfl
  leftApplyToH _ _ := rfl
  leftApplyToRn A B := rfl
  detH := rfl
  gridRn := rfl
  mask m h := by
    unfold base at h
    dsimp only at h
    cases hb : a.mask with
    | false => rw [hb] at h; cases h
    | true => rw [hb] at h; cases h; rfl

theorem cancels (g : Mat3) (hg : IsRotation g) : Cancels matrixInverse leftApplyMatrix act none g where
  group a b := by
    unfold leftApplyMatrix matrixInverse
    rw [Matrix.transpose_mul, Matrix.mul_assoc, ← Matrix.mul_assoc g.transpose, hg.1, Matrix.one_mul]
  space h v := by
    unfold act leftApplyMatrix matrixInverse
    rw [Matrix.mulVec_mulVec, Matrix.transpose_mul, Matrix.mul_assoc, hg.1, Matrix.mul_one]
  det _ := (one_mul _).symm

theorem moves (a : KernelArgs Mat3 ℕ) (gr : Tensor Mat3) (s) (hs : 2 ≤ a.kernelSize) (σ : LatticeSym 3) (g : Mat3)
    (hg : g = σ.matrix) : MovesGrid (base a gr s) act LatticeSym.ax3 σ g where
  cube := ⟨a.kernelSize, rfl⟩
  grid x hx := by
    unfold act; rw [hg]
    exact Functional.C46_moves_R3 a.kernelSize hs σ x hx
  mask x hx := maskAt_ite a.mask _ _ _ ((Functional.C47_R3 a.kernelSize).2.2 hs σ x hx)

theorem pointwise (a : KernelArgs Mat3 ℕ) (g : Tensor Mat3) (s) {m p} (hm : SpatialModes a.spatialMode a.spatialPad m p)
    (h : 0 < a.kernelSize) :
    PointwiseSampler (base a g s).sampleRn (base a g s).kernelSize
      (F.sampleAt m p [a.kernelSize, a.kernelSize, a.kernelSize]) :=
  gridSample_pointwise _ _ m p _ hm.1 hm.2 rfl (forall_triple h)

/-- `GLiftingKernelSE3`: entry `(co, h, ci, x, y, z)` of the kernel for the matrices `H`. -/
theorem C50_SE3 (s : GridCache.Store (Tensor ℝ)) (opt : List Euler) (a : KernelArgs Mat3 ℕ) (gr : Tensor Mat3)
    (hgr : grid s opt a = .ok gr) (hg : 0 < a.groups) (hk : 0 < a.kernelSize) {m p}
    (hm : SpatialModes a.spatialMode a.spatialPad m p) (weight : Tensor ℝ) (H : Tensor Mat3) (n : ℕ)
    (hw : weight.shape = [a.outC, a.inC / a.groups, a.kernelSize, a.kernelSize, a.kernelSize]) (hH : H.shape = [n]) :
    ∃ K out, lifting s opt a = .ok K ∧ K.liftingForward weight H = .ok out ∧
      out.shape = [a.outC, n, a.inC / a.groups, a.kernelSize, a.kernelSize, a.kernelSize] ∧
      ∀ co h ci x y z, co < a.outC → h < n → ci < a.inC / a.groups →
        x < a.kernelSize → y < a.kernelSize → z < a.kernelSize →
        out.get [co, h, ci, x, y, z] =
          (if a.mask then (Functional.createSphericalMaskR3 a.kernelSize).get [x, y, z] else 1) *
            F.sampleAt m p [a.kernelSize, a.kernelSize, a.kernelSize] (fun r => weight.get (co :: ci :: r))
              ((H.get [h]).transpose.mulVec ((Functional.createGridR3 a.kernelSize).get [x, y, z])) := by
  obtain ⟨out, e, sh, g⟩ := C50_lifting (lawful a gr noSampler) (pointwise a gr noSampler hm hk) weight H n hw hH
  refine ⟨base a gr noSampler, out, ?_, e, sh, ?_⟩
  · unfold lifting; rw [hgr, ok_bind]; exact if_neg (by omega)
  intro co h ci x y z hco hh hci hx hy hz
  have := g co h ci [x, y, z] hco hh hci (by simp [base, hx, hy, hz])
  rw [this, show ∀ s, (base a gr s).mask = if a.mask then some (Functional.createSphericalMaskR3 a.kernelSize) else none from fun _ => rfl,
    maskAt_flag]
  exact div_one _

/-- the constructor's arguments give a working kernel: the reference grid `gr` and the width `w` of the
group sampler are determined and sampling with them works. -/
structure Ready (s : GridCache.Store (Tensor ℝ)) (opt : List Euler) (a : KernelArgs Mat3 ℕ) (gr : Tensor Mat3)
    (w : ℝ) : Prop where
  grid : grid s opt a = .ok gr
  groups : 0 < a.groups
  kernel : 0 < a.kernelSize
  width : defaultWidth a.rotWidth (nearestNeighbourDistanceMatrix (elems gr)) = .ok w
  nonempty : 0 < gr.shape.headD 0
  solvable : Solvable SO3.dist a.groupMode w (gr.map matrixToQuat) (gr.shape.headD 0)

theorem headD_pos {gr : Tensor Mat3} (h : 0 < gr.shape.headD 0) :
    gr.shape ≠ [] ∧ gr.shape.headD 3 = gr.shape.headD 0 := by
  generalize gr.shape = l at h ⊢
  cases l with
  | nil => exact absurd h (by simp)
  | cons a l => exact ⟨by simp, rfl⟩

theorem nearest_eq {gr : Tensor Mat3} (h : gr.shape ≠ []) :
    nearest gr = nearestNeighbourDistanceMatrix (elems gr) := if_neg h

theorem sampler_eq {gr : Tensor Mat3} (h : gr.shape ≠ []) (mode : String) (w : ℝ) (q : Tensor Mat3) (sig : Tensor ℝ) :
    sampler mode w q sig gr = SO3.gridSample q sig gr mode w := if_neg (fun h' => h h'.1)

theorem full_eq {s opt} {a : KernelArgs Mat3 ℕ} {gr} {w : ℝ} (h : Ready s opt a gr w) :
    full s opt a = .ok (base a gr (sampler a.groupMode w)) := by
  unfold full
  rw [h.grid, ok_bind, nearest_eq (headD_pos h.nonempty).1, h.width, ok_bind]
  exact if_neg (by have := h.groups; omega)

/-- arguments used in the examples below: a user-supplied reference grid `gr`, nearest-neighbour sampling. -/
def exArgs (gr : Tensor Mat3) : KernelArgs Mat3 ℕ :=
  { inC := 4, outC := 6, kernelSize := 5, groupKernelSize := 4, groups := 2, groupMode := "nearest", rotWidth := 1,
    gridH := some gr }

theorem exReady (s opt) (gr : Tensor Mat3) (hn : 0 < gr.shape.headD 0) : Ready s opt (exArgs gr) gr 1 :=
  ⟨rfl, by norm_num [exArgs], by norm_num [exArgs], if_neg one_ne_zero, hn, rfl, Or.inl ⟨rfl, hn⟩⟩

/-- the value the group sampler of the kernel returns for one relative rotation and one channel. -/
noncomputable def value (a : KernelArgs Mat3 ℕ) (gr : Tensor Mat3) (w : ℝ) : (ℕ → ℝ) → Mat3 → ℝ :=
  sampleOne (fun q sig g => SO3.gridSample q sig g a.groupMode w) gr (gr.shape.headD 0)

theorem rows {s opt} {a : KernelArgs Mat3 ℕ} {gr} {w : ℝ} (h : Ready s opt a gr w) :
    RowwiseSampler (sampler a.groupMode w) gr
      [gr.shape.headD 3].sum (fun _ => True) (value a gr w) ∧
    LocalChannel [gr.shape.headD 3].sum (value a gr w) := by
  obtain ⟨hne, hd⟩ := headD_pos h.nonempty
  have := SO3.rowwise _ _ _ _ h.solvable
  rw [hd]
  refine ⟨fun q sig m S hq hsig hg => ?_, this.2⟩
  rw [sampler_eq hne]
  exact this.1 q sig m S hq hsig hg

/-- the first axis of the weights of a working kernel. -/
theorem dim {s opt} {a : KernelArgs Mat3 ℕ} {gr} {w : ℝ} (h : Ready s opt a gr w) :
    gr.shape.headD 3 = gr.shape.headD 0 := (headD_pos h.nonempty).2

theorem dim_pos {s opt} {a : KernelArgs Mat3 ℕ} {gr} {w : ℝ} (h : Ready s opt a gr w) :
    0 < gr.shape.headD 3 := by rw [dim h]; exact h.nonempty

/-- `GKernelSE3`: entry `(co, o, ci, i, x, y, z)` of the kernel for the matrices `in_H`, `out_H`. -/
theorem C51_SE3 (s opt) (a : KernelArgs Mat3 ℕ) (gr) (w : ℝ) (h : Ready s opt a gr w) {m p}
    (hm : SpatialModes a.spatialMode a.spatialPad m p) (weight : Tensor ℝ) (inH outH : Tensor Mat3) (nIn nOut : ℕ)
    (hw : weight.shape = [gr.shape.headD 0, a.outC, a.inC / a.groups, a.kernelSize, a.kernelSize, a.kernelSize])
    (hin : inH.shape = [nIn]) (hout : outH.shape = [nOut]) :
    ∃ K out, full s opt a = .ok K ∧ K.forward weight inH outH = .ok out ∧
      out.shape = [a.outC, nOut, a.inC / a.groups, nIn, a.kernelSize, a.kernelSize, a.kernelSize] ∧
      ∀ co o ci i x y z, co < a.outC → o < nOut → ci < a.inC / a.groups → i < nIn →
        x < a.kernelSize → y < a.kernelSize → z < a.kernelSize →
        out.get [co, o, ci, i, x, y, z] =
          (if a.mask then (Functional.createSphericalMaskR3 a.kernelSize).get [x, y, z] else 1) *
            F.sampleAt m p [a.kernelSize, a.kernelSize, a.kernelSize]
              (fun r => value a gr w (fun k => weight.get (k ::
                  (storedChannel a.outC (a.inC / a.groups) co ci).1 ::
                  (storedChannel a.outC (a.inC / a.groups) co ci).2 :: r))
                ((outH.get [o]).transpose * inH.get [i]))
              ((outH.get [o]).transpose.mulVec ((Functional.createGridR3 a.kernelSize).get [x, y, z])) := by
  obtain ⟨out, e, sh, g⟩ := C51_group (lawful a gr _) (pointwise a gr _ hm h.kernel) (sampleAt_local m p _ rfl)
    (rows h).1 (rows h).2 (dim_pos h) weight inH outH nIn nOut (by rw [← dim h] at hw; exact hw) hin hout (fun _ _ _ _ => trivial)
  refine ⟨_, out, full_eq h, e, sh, ?_⟩
  intro co o ci i x y z hco ho hci hi hx hy hz
  have := g co o ci i [x, y, z] hco ho hci hi (by simp [base, hx, hy, hz])
  rw [this, show ∀ s, (base a gr s).mask = if a.mask then some (Functional.createSphericalMaskR3 a.kernelSize) else none from fun _ => rfl,
    maskAt_flag]
  exact div_one _

theorem full_base {s opt} {a : KernelArgs Mat3 ℕ} {K : GroupKernel Mat3 3} (h : full s opt a = .ok K) :
    ∃ gr sa, K = base a gr sa := by
  unfold full at h
  cases hgr : grid s opt a with
  | error e => rw [hgr] at h; cases h
  | ok gr =>
    rw [hgr, ok_bind] at h
    cases hd : defaultWidth a.rotWidth (nearest gr) with
    | error e => rw [hd] at h; cases h
    | ok w =>
      rw [hd, ok_bind] at h
      unfold checkGroups at h
      by_cases h0 : a.groups = 0
      · rw [if_pos h0] at h; cases h
      · rw [if_neg h0] at h; cases h; exact ⟨_, _, rfl⟩

/-- Group weights of `GSeparableKernelSE3` / `GKernelSE3` for any grids, weights and settings. -/
theorem C56_SE3 (s opt) (a : KernelArgs Mat3 ℕ) (K : GroupKernel Mat3 3) (h : full s opt a = .ok K) (g : Mat3)
    (hg : IsRotation g) (weight : Tensor ℝ) (inH outH : Tensor Mat3) (dims : List ℕ) :
    K.subgroupWeights weight (inH.map (leftApplyMatrix g)) (outH.map (leftApplyMatrix g)) dims =
      K.subgroupWeights weight inH outH dims := by
  obtain ⟨gr, sa, rfl⟩ := full_base h
  exact subgroupWeights_cancel (lawful a gr sa) (cancels g hg) weight inH outH dims

/-- Spatial weights move with every lattice rotation. -/
theorem C57_SE3 (s opt) (a : KernelArgs Mat3 ℕ) (hs : 2 ≤ a.kernelSize) {m p}
    (hm : SpatialModes a.spatialMode a.spatialPad m p) (σ : LatticeSym 3) (hσ : IsRotation σ.matrix) :
    (∀ gr, 0 < a.groups → grid s opt a = .ok gr →
      ∃ K, lifting s opt a = .ok K ∧ LiftingMoves K (leftApplyMatrix σ.matrix) LatticeSym.ax3 σ 1) ∧
    (∀ gr w, Ready s opt a gr w → ∃ K, full s opt a = .ok K ∧
      GroupMoves K (leftApplyMatrix σ.matrix) LatticeSym.ax3 σ 1 (fun _ _ => True) ∧
      SeparableMoves K (leftApplyMatrix σ.matrix) LatticeSym.ax3 σ 1 (fun _ _ => True)) := by
  have hone : (1 : ℝ) / detAt (none : Option (Mat3 → ℝ)) σ.matrix = 1 := div_one _
  constructor
  · intro gr h0 hgr
    refine ⟨base a gr noSampler, ?_, liftingMoves (lawful a gr _) (pointwise a gr _ hm (by omega)) (cancels _ hσ)
      (moves a gr _ hs σ _ rfl) hone⟩
    unfold lifting; rw [hgr, ok_bind]; exact if_neg (by omega)
  · intro gr w h
    exact ⟨_, full_eq h, groupMoves (lawful a gr _) (pointwise a gr _ hm h.kernel) (sampleAt_local m p _ rfl)
      (rows h).1 (rows h).2 (dim_pos h) (cancels _ hσ) (moves a gr _ hs σ _ rfl) hone _ (fun _ _ _ => trivial)⟩

/-- the quarter turn about the first coordinate axis. -/
def quarter : LatticeSym 3 := ⟨Equiv.swap 1 2, ![false, true, false]⟩

theorem quarter_matrix : quarter.matrix = !![1, 0, 0; 0, 0, -1; 0, 1, 0] := by
  ext i j
  fin_cases i <;> fin_cases j <;> simp [LatticeSym.matrix, quarter, Equiv.swap_apply_def]

theorem quarter_rotation : IsRotation quarter.matrix := by
  rw [quarter_matrix]
  constructor
  · ext i j
    fin_cases i <;> fin_cases j <;> simp [Matrix.mul_apply, Fin.sum_univ_three]
  · simp [Matrix.det_fin_three]

example (s opt) (gr : Tensor Mat3) (hn : 0 < gr.shape.headD 0) : ∃ K, full s opt (exArgs gr) = .ok K ∧
    GroupMoves K (leftApplyMatrix quarter.matrix) LatticeSym.ax3 quarter 1 (fun _ _ => True) := by
  obtain ⟨K, h1, h2, -⟩ := (C57_SE3 s opt (exArgs gr) (by norm_num [exArgs]) defaultModes
    quarter quarter_rotation).2 gr 1 (exReady s opt gr hn)
  exact ⟨K, h1, h2⟩

end KernelSE3

/-! ## E(2) -/
namespace KernelE2

/-- a pair (coefficient, angle) acts on vectors by `o2.left_apply_to_R2`. -/
noncomputable def act (a : O2.Elt) (v : Fin 2 → ℝ) : Fin 2 → ℝ := a.1 • (SO2.angleToMatrix a.2).mulVec v

theorem lawful (a : KernelArgs O2.Elt SizeArg) (s) :
    Lawful (base a s) O2.inverse O2.leftApplyAngle act (some O2.det) where
  inverseH _ := rfl
  leftApplyToH _ _ := rfl
  leftApplyToRn A B := by
    show O2.leftApplyToR2 A B = _
    unfold O2.leftApplyToR2 SO2.leftApplyAngleToR2 SO2.leftApplyMatrixToR2 pairwise Tensor.map act
    congr 1
  detH := rfl
  gridRn := rfl
  mask m h := by
    unfold base at h
    dsimp only at h
    cases hb : a.mask with
    | false => rw [hb] at h; cases h
    | true => rw [hb] at h; cases h; rfl

theorem cancels (g : O2.Elt) (hg : g.1 = 1 ∨ g.1 = -1) :
    Cancels O2.inverse O2.leftApplyAngle act (some O2.det) g where
  group a b := by
    have hc : g.1 * g.1 = 1 := by rcases hg with h | h <;> simp [h]
    have h2 := (KernelSE2.cancels g.2).group a.2 b.2
    unfold O2.leftApplyAngle O2.inverse
    ext
    · dsimp only; linear_combination (a.1 * b.1) * hc
    · have e : ∀ x : ℝ, x * (-1) = SO2.inverseAngle x := fun x => by unfold SO2.inverseAngle; ring
      dsimp only
      rw [e, e]; exact h2
  space h v := by
    have hc : g.1 * g.1 = 1 := by rcases hg with h | h <;> simp [h]
    have h2 := (KernelSE2.cancels g.2).space h.2 v
    unfold KernelSE2.act SO2.inverseAngle SO2.leftApplyAngle at h2
    unfold act O2.leftApplyAngle O2.inverse
    dsimp only
    rw [Matrix.mulVec_smul, smul_smul, mul_neg_one, mul_neg_one, h2]
    congr 1
    linear_combination h.1 * hc
  det _ := rfl

theorem moves (a : KernelArgs O2.Elt SizeArg) (s) (hs : 2 ≤ a.kernelSize) (σ : LatticeSym 2) (g : O2.Elt)
    (hg : g.1 • SO2.angleToMatrix g.2 = σ.matrix) : MovesGrid (base a s) act LatticeSym.ax2 σ g where
  cube := ⟨a.kernelSize, rfl⟩
  grid x hx := by
    unfold act; rw [← Matrix.smul_mulVec, hg]
    exact Functional.C46_moves_R2 a.kernelSize hs σ x hx
  mask x hx := maskAt_ite a.mask _ _ _ ((Functional.C47_R2 a.kernelSize).2.2 hs σ x hx)

theorem pointwise (a : KernelArgs O2.Elt SizeArg) (s) {m p} (hm : SpatialModes a.spatialMode a.spatialPad m p)
    (h : 0 < a.kernelSize) :
    PointwiseSampler (base a s).sampleRn (base a s).kernelSize (F.sampleAt m p [a.kernelSize, a.kernelSize]) :=
  gridSample_pointwise _ _ m p _ hm.1 hm.2 rfl (forall_pair h)

/-- `GLiftingKernelE2`: entry `(co, h, ci, x, y)` of the kernel for the elements `H`. -/
theorem C50_E2 (a : KernelArgs O2.Elt SizeArg) (hg : 0 < a.groups) (hk : 0 < a.kernelSize) {m p}
    (hm : SpatialModes a.spatialMode a.spatialPad m p) (weight : Tensor ℝ) (H : Tensor O2.Elt) (n : ℕ)
    (hw : weight.shape = [a.outC, a.inC / a.groups, a.kernelSize, a.kernelSize]) (hH : H.shape = [n]) :
    ∃ K out, lifting a = .ok K ∧ K.liftingForward weight H = .ok out ∧
      out.shape = [a.outC, n, a.inC / a.groups, a.kernelSize, a.kernelSize] ∧
      ∀ co h ci x y, co < a.outC → h < n → ci < a.inC / a.groups → x < a.kernelSize → y < a.kernelSize →
        out.get [co, h, ci, x, y] =
          (if a.mask then (Functional.createSphericalMaskR2 a.kernelSize).get [x, y] else 1) *
            F.sampleAt m p [a.kernelSize, a.kernelSize] (fun r => weight.get (co :: ci :: r))
              ((H.get [h]).1 • (SO2.angleToMatrix (-(H.get [h]).2)).mulVec
                ((Functional.createGridR2 a.kernelSize).get [x, y])) /
          (H.get [h]).1 := by
  obtain ⟨out, e, s, g⟩ := C50_lifting (lawful a noSampler) (pointwise a noSampler hm hk) weight H n hw hH
  refine ⟨base a noSampler, out, if_neg (by omega), e, s, ?_⟩
  intro co h ci x y hco hh hci hx hy
  have := g co h ci [x, y] hco hh hci (by simp [base, hx, hy])
  rw [this, show ∀ s, (base a s).mask = if a.mask then some (Functional.createSphericalMaskR2 a.kernelSize) else none from fun _ => rfl,
    maskAt_flag]
  unfold act O2.inverse
  dsimp only
  rw [mul_neg_one]
  rfl

/-- number of rotations and of reflections of the reference grid. -/
def nRot (a : KernelArgs O2.Elt SizeArg) : ℕ := (sizePair a.groupKernelSize).1
def nRef (a : KernelArgs O2.Elt SizeArg) : ℕ := (sizePair a.groupKernelSize).2

/-- the constructor's arguments give a working kernel: positive sizes, the widths `wr`, `wf` of the group
sampler are determined and sampling with them works on the rotations and on the reflections. -/
structure Ready (a : KernelArgs O2.Elt SizeArg) (wr wf : ℝ) : Prop where
  groups : 0 < a.groups
  kernel : 0 < a.kernelSize
  widthR : defaultWidth a.rotWidth
    (SO2.nearestNeighbourDistance (((elems (grid a)).take (nRot a)).map Prod.snd)) = .ok wr
  widthF : defaultWidth a.refWidth
    (SO2.nearestNeighbourDistance (((elems (grid a)).drop (nRot a)).map Prod.snd)) = .ok wf
  nonempty : 0 < nRot a + nRef a
  solvableR : nRot a ≠ 0 →
    Solvable SO2.dist a.groupMode wr (((grid a).slice0 0 (nRot a)).map Prod.snd) (nRot a)
  solvableF : nRef a ≠ 0 →
    Solvable SO2.dist a.groupMode wf (((grid a).drop0 (nRot a)).map Prod.snd) (nRef a)

theorem full_eq {a : KernelArgs O2.Elt SizeArg} {wr wf : ℝ} (h : Ready a wr wf) :
    full a = .ok (base a fun q sig g => O2.gridSample q sig g (nRot a) (nRef a) a.groupMode wr wf) := by
  unfold full
  have h1 := h.widthR
  have h2 := h.widthF
  unfold nRot at h1 h2
  dsimp only
  rw [h1, ok_bind, h2, ok_bind]
  exact if_neg (by have := h.groups; omega)

/-- arguments used in the examples below: the default grid with `n` rotations and `n` reflections,
nearest-neighbour sampling. -/
def exArgs (n : ℕ) : KernelArgs O2.Elt SizeArg :=
  { inC := 4, outC := 6, kernelSize := 5, groupKernelSize := .int n, groups := 2, groupMode := "nearest",
    rotWidth := 1, refWidth := 1 }

theorem exReady (n : ℕ) (hn : 0 < n) : Ready (exArgs n) 1 1 := by
  have hl : (grid (exArgs n)).shape = [n + n] := by
    show [(O2.uniformGrid n n).length] = _
    simp [O2.uniformGrid, SO2.C03_length]
  refine ⟨by norm_num [exArgs], by norm_num [exArgs], if_neg one_ne_zero, if_neg one_ne_zero, ?_, ?_, ?_⟩
  · show 0 < n + n; omega
  · intro _
    refine ⟨?_, Or.inl ⟨rfl, hn⟩⟩
    simp only [Tensor.map, slice0, hl]
    show min n (n + n) - 0 = n; omega
  · intro _
    refine ⟨?_, Or.inl ⟨rfl, hn⟩⟩
    simp only [Tensor.map, drop0, slice0, hl]
    show min (n + n) (n + n) - n = n; omega

/-- the value the group sampler of the kernel returns for one relative element and one channel: rotations
read the stored values of the reference rotations, reflections those of the reference reflections. -/
noncomputable def value (a : KernelArgs O2.Elt SizeArg) (wr wf : ℝ) : (ℕ → ℝ) → O2.Elt → ℝ :=
  cosetCore Prod.fst Prod.snd (fun w g s sg => SO2.gridSample g s sg a.groupMode w) (grid a) (nRot a) (nRef a) wr wf

theorem rows {a : KernelArgs O2.Elt SizeArg} {wr wf : ℝ} (h : Ready a wr wf) :
    RowwiseSampler (fun q sig g => O2.gridSample q sig g (nRot a) (nRef a) a.groupMode wr wf) (grid a)
      [nRot a, nRef a].sum (fun x => (x.1 = 1 ∧ nRot a ≠ 0) ∨ (x.1 = -1 ∧ nRef a ≠ 0)) (value a wr wf) ∧
    LocalChannel [nRot a, nRef a].sum (value a wr wf) := by
  have e : [nRot a, nRef a].sum = nRot a + nRef a := by simp
  rw [e]
  have hR := fun h0 => SO2.rowwise a.groupMode wr _ _ (h.solvableR h0)
  have hF := fun h0 => SO2.rowwise a.groupMode wf _ _ (h.solvableF h0)
  exact ⟨coset_rowwise (SO2.gridSample_row a.groupMode) (grid a) (nRot a) (nRef a) wr wf hR hF,
    cosetCore_local (grid a) (nRot a) (nRef a) wr wf (fun h0 => (hR h0).2) (fun h0 => (hF h0).2)⟩

/-- the relative element `o⁻¹ i` is a rotation and there are reference rotations, or a reflection and there
are reference reflections. -/
def Pair (a : KernelArgs O2.Elt SizeArg) (o i : O2.Elt) : Prop :=
  (o.1 * i.1 = 1 ∧ nRot a ≠ 0) ∨ (o.1 * i.1 = -1 ∧ nRef a ≠ 0)

/-- every pair of elements with coefficients `±1` is admitted when both parts of the grid are non-empty. -/
theorem pair_of_valid (a : KernelArgs O2.Elt SizeArg) (h1 : nRot a ≠ 0) (h2 : nRef a ≠ 0) (o i : O2.Elt)
    (ho : o.1 = 1 ∨ o.1 = -1) (hi : i.1 = 1 ∨ i.1 = -1) : Pair a o i := by
  rcases ho with ho | ho <;> rcases hi with hi | hi <;> unfold Pair <;> rw [ho, hi] <;> norm_num [h1, h2]

/-- `GKernelE2`: entry `(co, o, ci, i, x, y)` of the kernel for the elements `in_H`, `out_H`. -/
theorem C51_E2 (a : KernelArgs O2.Elt SizeArg) (wr wf : ℝ) (h : Ready a wr wf) {m p}
    (hm : SpatialModes a.spatialMode a.spatialPad m p) (weight : Tensor ℝ) (inH outH : Tensor O2.Elt) (nIn nOut : ℕ)
    (hw : weight.shape = [nRot a + nRef a, a.outC, a.inC / a.groups, a.kernelSize, a.kernelSize])
    (hin : inH.shape = [nIn]) (hout : outH.shape = [nOut])
    (hp : ∀ o < nOut, ∀ i < nIn, Pair a (outH.get [o]) (inH.get [i])) :
    ∃ K out, full a = .ok K ∧ K.forward weight inH outH = .ok out ∧
      out.shape = [a.outC, nOut, a.inC / a.groups, nIn, a.kernelSize, a.kernelSize] ∧
      ∀ co o ci i x y, co < a.outC → o < nOut → ci < a.inC / a.groups → i < nIn →
        x < a.kernelSize → y < a.kernelSize →
        out.get [co, o, ci, i, x, y] =
          (if a.mask then (Functional.createSphericalMaskR2 a.kernelSize).get [x, y] else 1) *
            F.sampleAt m p [a.kernelSize, a.kernelSize]
              (fun r => value a wr wf (fun k => weight.get (k ::
                  (storedChannel a.outC (a.inC / a.groups) co ci).1 ::
                  (storedChannel a.outC (a.inC / a.groups) co ci).2 :: r))
                (O2.leftApplyAngle (O2.inverse (outH.get [o])) (inH.get [i])))
              ((outH.get [o]).1 • (SO2.angleToMatrix (-(outH.get [o]).2)).mulVec
                ((Functional.createGridR2 a.kernelSize).get [x, y])) /
          (outH.get [o]).1 := by
  obtain ⟨out, e, s, g⟩ := C51_group (lawful a _) (pointwise a _ hm h.kernel) (sampleAt_local m p _ rfl)
    (rows h).1 (rows h).2 h.nonempty weight inH outH nIn nOut hw hin hout hp
  refine ⟨_, out, full_eq h, e, s, ?_⟩
  intro co o ci i x y hco ho hci hi hx hy
  have := g co o ci i [x, y] hco ho hci hi (by simp [base, hx, hy])
  rw [this, show ∀ s, (base a s).mask = if a.mask then some (Functional.createSphericalMaskR2 a.kernelSize) else none from fun _ => rfl,
    maskAt_flag]
  have e2 : act (O2.inverse (outH.get [o])) = fun v => (outH.get [o]).1 • (SO2.angleToMatrix (-(outH.get [o]).2)).mulVec v := by
    unfold act O2.inverse
    dsimp only
    rw [mul_neg_one]
  rw [e2]
  rfl

theorem full_base {a : KernelArgs O2.Elt SizeArg} {K : GroupKernel O2.Elt 2} (h : full a = .ok K) : ∃ s, K = base a s := by
  unfold full at h
  dsimp only at h
  cases hd : defaultWidth a.rotWidth (SO2.nearestNeighbourDistance
      (((elems (grid a)).take (sizePair a.groupKernelSize).1).map Prod.snd)) with
  | error e => rw [hd] at h; cases h
  | ok w =>
    rw [hd, ok_bind] at h
    cases hd2 : defaultWidth a.refWidth (SO2.nearestNeighbourDistance
      (((elems (grid a)).drop (sizePair a.groupKernelSize).1).map Prod.snd)) with
    | error e => rw [hd2] at h; cases h
    | ok w2 =>
      rw [hd2, ok_bind] at h
      unfold checkGroups at h
      by_cases h0 : a.groups = 0
      · rw [if_pos h0] at h; cases h
      · rw [if_neg h0] at h; cases h; exact ⟨_, rfl⟩

/-- Group weights of `GSeparableKernelE2` / `GKernelE2` for any grids, weights and settings. -/
theorem C56_E2 (a : KernelArgs O2.Elt SizeArg) (K : GroupKernel O2.Elt 2) (h : full a = .ok K) (g : O2.Elt)
    (hg : g.1 = 1 ∨ g.1 = -1) (weight : Tensor ℝ) (inH outH : Tensor O2.Elt) (dims : List ℕ) :
    K.subgroupWeights weight (inH.map (O2.leftApplyAngle g)) (outH.map (O2.leftApplyAngle g)) dims =
      K.subgroupWeights weight inH outH dims := by
  obtain ⟨s, rfl⟩ := full_base h
  exact subgroupWeights_cancel (lawful a s) (cancels g hg) weight inH outH dims

/-- Spatial weights move with every lattice symmetry by which an element can act, times its coefficient. -/
theorem C57_E2 (a : KernelArgs O2.Elt SizeArg) (hs : 2 ≤ a.kernelSize) {m p}
    (hm : SpatialModes a.spatialMode a.spatialPad m p) (g : O2.Elt) (hc : g.1 = 1 ∨ g.1 = -1) (σ : LatticeSym 2)
    (hg : g.1 • SO2.angleToMatrix g.2 = σ.matrix) :
    (0 < a.groups → ∃ K, lifting a = .ok K ∧ LiftingMoves K (O2.leftApplyAngle g) LatticeSym.ax2 σ (O2.det g)) ∧
    (∀ wr wf, Ready a wr wf → ∃ K, full a = .ok K ∧
      GroupMoves K (O2.leftApplyAngle g) LatticeSym.ax2 σ (O2.det g) (Pair a) ∧
      SeparableMoves K (O2.leftApplyAngle g) LatticeSym.ax2 σ (O2.det g) (Pair a)) := by
  have hone : (1 : ℝ) / detAt (some O2.det) g = O2.det g := by
    show 1 / g.1 = g.1
    rcases hc with h | h <;> rw [h] <;> norm_num
  constructor
  · intro h0
    exact ⟨base a noSampler, if_neg (by omega), liftingMoves (lawful a _) (pointwise a _ hm (by omega)) (cancels g hc)
      (moves a _ hs σ g hg) hone⟩
  · intro wr wf h
    exact ⟨_, full_eq h, groupMoves (lawful a _) (pointwise a _ hm h.kernel) (sampleAt_local m p _ rfl)
      (rows h).1 (rows h).2 h.nonempty (cancels g hc) (moves a _ hs σ g hg) hone _ (fun _ _ h => h)⟩

/-- an element of coefficient `-1` that acts as a lattice symmetry (the half turn), with the example kernel. -/
def half : LatticeSym 2 := ⟨1, ![true, true]⟩

theorem half_matrix : (-1 : ℝ) • SO2.angleToMatrix 0 = half.matrix := by
  ext i j
  fin_cases i <;> fin_cases j <;> simp [SO2.angleToMatrix, LatticeSym.matrix, half]

example (n : ℕ) (hn : 0 < n) : ∃ K, full (exArgs n) = .ok K ∧
    GroupMoves K (O2.leftApplyAngle (-1, 0)) LatticeSym.ax2 half (-1) (Pair (exArgs n)) ∧
    Pair (exArgs n) (1, 0) (-1, 1) := by
  obtain ⟨K, h1, h2, -⟩ := (C57_E2 (exArgs n) (by norm_num [exArgs]) defaultModes (-1, 0) (Or.inr rfl)
    half half_matrix).2 1 1 (exReady n hn)
  have h0 : n ≠ 0 := by omega
  exact ⟨K, h1, h2, pair_of_valid (exArgs n) h0 h0 _ _ (Or.inl rfl) (Or.inr rfl)⟩

end KernelE2

/-! ## E(3) -/
namespace KernelE3

open SO3

/-- an element (coefficient, matrix) acts on vectors by `o3.left_apply_to_R3`. -/
def act (a : O3.Elt) (v : Fin 3 → ℝ) : Fin 3 → ℝ := O3.coef a • (O3.rot a).mulVec v

theorem lawful (a : KernelArgs O3.Elt SizeArg) (g : Tensor O3.Elt) (s) :
    Lawful (base a g s) O3.inverse O3.leftApplyO3 act (some O3.det) where
  inverseH _ := rfl
  leftApplyToH _ _ := rfl
  leftApplyToRn A B := rfl
  detH := rfl
  gridRn := rfl
  mask m h := by
    unfold base at h
    dsimp only at h
    cases hb : a.mask with
    | false => rw [hb] at h; cases h
    | true => rw [hb] at h; cases h; rfl

theorem cancels (g : O3.Elt) (hg : O3.Valid g) :
    Cancels O3.inverse O3.leftApplyO3 act (some O3.det) g where
  group a b := by
    have hc : O3.coef g * O3.coef g = 1 := by rcases hg.1 with h | h <;> simp [h]
    apply O3.elt_ext
    · simp only [O3.leftApplyO3, O3.inverse, O3.coef_mk]
      linear_combination (O3.coef a * O3.coef b) * hc
    · simp only [O3.leftApplyO3, O3.inverse, O3.rot_mk]
      exact (KernelSE3.cancels _ hg.2).group (O3.rot a) (O3.rot b)
  space h v := by
    have hc : O3.coef g * O3.coef g = 1 := by rcases hg.1 with h | h <;> simp [h]
    have h2 := (KernelSE3.cancels _ hg.2).space (O3.rot h) v
    unfold KernelSE3.act leftApplyMatrix matrixInverse at h2
    unfold act O3.leftApplyO3 O3.inverse
    simp only [O3.coef_mk, O3.rot_mk]
    rw [Matrix.mulVec_smul, smul_smul, h2]
    congr 1
    linear_combination O3.coef h * hc
  det _ := rfl

theorem moves (a : KernelArgs O3.Elt SizeArg) (gr : Tensor O3.Elt) (s) (hs : 2 ≤ a.kernelSize) (σ : LatticeSym 3)
    (g : O3.Elt) (hg : O3.coef g • O3.rot g = σ.matrix) : MovesGrid (base a gr s) act LatticeSym.ax3 σ g where
  cube := ⟨a.kernelSize, rfl⟩
  grid x hx := by
    unfold act; rw [← Matrix.smul_mulVec, hg]
    exact Functional.C46_moves_R3 a.kernelSize hs σ x hx
  mask x hx := maskAt_ite a.mask _ _ _ ((Functional.C47_R3 a.kernelSize).2.2 hs σ x hx)

theorem pointwise (a : KernelArgs O3.Elt SizeArg) (g : Tensor O3.Elt) (s) {m p}
    (hm : SpatialModes a.spatialMode a.spatialPad m p) (h : 0 < a.kernelSize) :
    PointwiseSampler (base a g s).sampleRn (base a g s).kernelSize
      (F.sampleAt m p [a.kernelSize, a.kernelSize, a.kernelSize]) :=
  gridSample_pointwise _ _ m p _ hm.1 hm.2 rfl (forall_triple h)

theorem act_inverse (h : O3.Elt) (v : Fin 3 → ℝ) :
    act (O3.inverse h) v = O3.coef h • (O3.rot h).transpose.mulVec v := by
  unfold act O3.inverse
  rw [O3.coef_mk, O3.rot_mk]

/-- `GLiftingKernelE3`: entry `(co, h, ci, x, y, z)` of the kernel for the elements `H`. -/
theorem C50_E3 (s : GridCache.Store (Tensor ℝ)) (opt1 opt2 : List Euler) (a : KernelArgs O3.Elt SizeArg)
    (gr : Tensor O3.Elt) (hgr : grid s opt1 opt2 a = .ok gr) (hg : 0 < a.groups) (hk : 0 < a.kernelSize) {m p}
    (hm : SpatialModes a.spatialMode a.spatialPad m p) (weight : Tensor ℝ) (H : Tensor O3.Elt) (n : ℕ)
    (hw : weight.shape = [a.outC, a.inC / a.groups, a.kernelSize, a.kernelSize, a.kernelSize]) (hH : H.shape = [n]) :
    ∃ K out, lifting s opt1 opt2 a = .ok K ∧ K.liftingForward weight H = .ok out ∧
      out.shape = [a.outC, n, a.inC / a.groups, a.kernelSize, a.kernelSize, a.kernelSize] ∧
      ∀ co h ci x y z, co < a.outC → h < n → ci < a.inC / a.groups →
        x < a.kernelSize → y < a.kernelSize → z < a.kernelSize →
        out.get [co, h, ci, x, y, z] =
          (if a.mask then (Functional.createSphericalMaskR3 a.kernelSize).get [x, y, z] else 1) *
            F.sampleAt m p [a.kernelSize, a.kernelSize, a.kernelSize] (fun r => weight.get (co :: ci :: r))
              (O3.coef (H.get [h]) • (O3.rot (H.get [h])).transpose.mulVec
                ((Functional.createGridR3 a.kernelSize).get [x, y, z])) /
          O3.coef (H.get [h]) := by
  obtain ⟨out, e, sh, g⟩ := C50_lifting (lawful a gr noSampler) (pointwise a gr noSampler hm hk) weight H n hw hH
  refine ⟨base a gr noSampler, out, ?_, e, sh, ?_⟩
  · unfold lifting; rw [hgr, ok_bind]; exact if_neg (by omega)
  intro co h ci x y z hco hh hci hx hy hz
  have := g co h ci [x, y, z] hco hh hci (by simp [base, hx, hy, hz])
  rw [this, show ∀ s, (base a gr s).mask = if a.mask then some (Functional.createSphericalMaskR3 a.kernelSize) else none from fun _ => rfl,
    maskAt_flag, act_inverse]
  rfl

/-- number of rotations and of reflections of the reference grid. -/
def nRot (a : KernelArgs O3.Elt SizeArg) : ℕ := (sizePair a.groupKernelSize).1
def nRef (a : KernelArgs O3.Elt SizeArg) : ℕ := (sizePair a.groupKernelSize).2

/-- the rotation matrices of a part of the reference grid, as the quaternions used for sampling. -/
noncomputable def quats (t : Tensor O3.Elt) : Tensor Quat := (t.map O3.rot).map matrixToQuat

/-- the constructor's arguments give a working kernel: the reference grid `gr` and the widths `wr`, `wf` of
the group sampler are determined and sampling with them works on the rotations and on the reflections. -/
structure Ready (s : GridCache.Store (Tensor ℝ)) (opt1 opt2 : List Euler) (a : KernelArgs O3.Elt SizeArg)
    (gr : Tensor O3.Elt) (wr wf : ℝ) : Prop where
  grid : grid s opt1 opt2 a = .ok gr
  groups : 0 < a.groups
  kernel : 0 < a.kernelSize
  widthR : defaultWidth a.rotWidth (rowNearestNeighbour ((elems gr).take (nRot a))) = .ok wr
  widthF : defaultWidth a.refWidth (rowNearestNeighbour ((elems gr).drop (nRot a))) = .ok wf
  nonempty : 0 < nRot a + nRef a
  solvableR : nRot a ≠ 0 → Solvable SO3.dist a.groupMode wr (quats (gr.slice0 0 (nRot a))) (nRot a)
  solvableF : nRef a ≠ 0 → Solvable SO3.dist a.groupMode wf (quats (gr.drop0 (nRot a))) (nRef a)

theorem full_eq {s opt1 opt2} {a : KernelArgs O3.Elt SizeArg} {gr} {wr wf : ℝ} (h : Ready s opt1 opt2 a gr wr wf) :
    full s opt1 opt2 a = .ok (base a gr fun q sig g => O3.gridSample q sig g (nRot a) (nRef a) a.groupMode wr wf) := by
  unfold full
  have h1 := h.widthR
  have h2 := h.widthF
  unfold nRot at h1 h2
  dsimp only
  rw [h.grid, ok_bind, h1, ok_bind, h2, ok_bind]
  exact if_neg (by have := h.groups; omega)

/-- arguments used in the examples below: a user-supplied reference grid with `n` rotations and `m`
reflections, nearest-neighbour sampling. -/
def exArgs (gr : Tensor O3.Elt) (n m : ℕ) : KernelArgs O3.Elt SizeArg :=
  { inC := 4, outC := 6, kernelSize := 5, groupKernelSize := .pair n m, groups := 2, groupMode := "nearest",
    rotWidth := 1, refWidth := 1, gridH := some gr }

theorem exReady (s opt1 opt2) (gr : Tensor O3.Elt) (n m : ℕ) (hgr : gr.shape = [n + m]) (hn : 0 < n + m) :
    Ready s opt1 opt2 (exArgs gr n m) gr 1 1 := by
  refine ⟨rfl, by norm_num [exArgs], by norm_num [exArgs], if_neg one_ne_zero, if_neg one_ne_zero, hn, ?_, ?_⟩
  · intro h0
    refine ⟨?_, Or.inl ⟨rfl, Nat.pos_of_ne_zero h0⟩⟩
    simp only [quats, Tensor.map, slice0, hgr]
    show min n (n + m) - 0 = n; omega
  · intro h0
    refine ⟨?_, Or.inl ⟨rfl, Nat.pos_of_ne_zero h0⟩⟩
    simp only [quats, Tensor.map, drop0, slice0, hgr]
    show min (n + m) (n + m) - n = m; omega

/-- the value the group sampler of the kernel returns for one relative element and one channel: rotations
read the stored values of the reference rotations, reflections those of the reference reflections. -/
noncomputable def value (a : KernelArgs O3.Elt SizeArg) (gr : Tensor O3.Elt) (wr wf : ℝ) : (ℕ → ℝ) → O3.Elt → ℝ :=
  cosetCore O3.coef O3.rot (fun w g s sg => SO3.gridSample g s sg a.groupMode w) gr (nRot a) (nRef a) wr wf

theorem rows {s opt1 opt2} {a : KernelArgs O3.Elt SizeArg} {gr} {wr wf : ℝ} (h : Ready s opt1 opt2 a gr wr wf) :
    RowwiseSampler (fun q sig g => O3.gridSample q sig g (nRot a) (nRef a) a.groupMode wr wf) gr
      [nRot a, nRef a].sum (fun x => (O3.coef x = 1 ∧ nRot a ≠ 0) ∨ (O3.coef x = -1 ∧ nRef a ≠ 0)) (value a gr wr wf) ∧
    LocalChannel [nRot a, nRef a].sum (value a gr wr wf) := by
  have e : [nRot a, nRef a].sum = nRot a + nRef a := by simp
  rw [e]
  have hR := fun h0 => SO3.rowwise a.groupMode wr _ _ (h.solvableR h0)
  have hF := fun h0 => SO3.rowwise a.groupMode wf _ _ (h.solvableF h0)
  exact ⟨coset_rowwise (SO3.gridSample_row a.groupMode) gr (nRot a) (nRef a) wr wf hR hF,
    cosetCore_local gr (nRot a) (nRef a) wr wf (fun h0 => (hR h0).2) (fun h0 => (hF h0).2)⟩

/-- the relative element `o⁻¹ i` is a rotation and there are reference rotations, or a reflection and there
are reference reflections. -/
def Pair (a : KernelArgs O3.Elt SizeArg) (o i : O3.Elt) : Prop :=
  (O3.coef o * O3.coef i = 1 ∧ nRot a ≠ 0) ∨ (O3.coef o * O3.coef i = -1 ∧ nRef a ≠ 0)

/-- every pair of valid elements is admitted when both parts of the grid are non-empty. -/
theorem pair_of_valid (a : KernelArgs O3.Elt SizeArg) (h1 : nRot a ≠ 0) (h2 : nRef a ≠ 0) (o i : O3.Elt)
    (ho : O3.Valid o) (hi : O3.Valid i) : Pair a o i := by
  rcases ho.1 with ho | ho <;> rcases hi.1 with hi | hi <;> unfold Pair <;> rw [ho, hi] <;> norm_num [h1, h2]

/-- `GKernelE3`: entry `(co, o, ci, i, x, y, z)` of the kernel for the elements `in_H`, `out_H`. -/
theorem C51_E3 (s opt1 opt2) (a : KernelArgs O3.Elt SizeArg) (gr) (wr wf : ℝ) (h : Ready s opt1 opt2 a gr wr wf) {m p}
    (hm : SpatialModes a.spatialMode a.spatialPad m p) (weight : Tensor ℝ) (inH outH : Tensor O3.Elt) (nIn nOut : ℕ)
    (hw : weight.shape = [nRot a + nRef a, a.outC, a.inC / a.groups, a.kernelSize, a.kernelSize, a.kernelSize])
    (hin : inH.shape = [nIn]) (hout : outH.shape = [nOut])
    (hp : ∀ o < nOut, ∀ i < nIn, Pair a (outH.get [o]) (inH.get [i])) :
    ∃ K out, full s opt1 opt2 a = .ok K ∧ K.forward weight inH outH = .ok out ∧
      out.shape = [a.outC, nOut, a.inC / a.groups, nIn, a.kernelSize, a.kernelSize, a.kernelSize] ∧
      ∀ co o ci i x y z, co < a.outC → o < nOut → ci < a.inC / a.groups → i < nIn →
        x < a.kernelSize → y < a.kernelSize → z < a.kernelSize →
        out.get [co, o, ci, i, x, y, z] =
          (if a.mask then (Functional.createSphericalMaskR3 a.kernelSize).get [x, y, z] else 1) *
            F.sampleAt m p [a.kernelSize, a.kernelSize, a.kernelSize]
              (fun r => value a gr wr wf (fun k => weight.get (k ::
                  (storedChannel a.outC (a.inC / a.groups) co ci).1 ::
                  (storedChannel a.outC (a.inC / a.groups) co ci).2 :: r))
                (O3.leftApplyO3 (O3.inverse (outH.get [o])) (inH.get [i])))
              (O3.coef (outH.get [o]) • (O3.rot (outH.get [o])).transpose.mulVec
                ((Functional.createGridR3 a.kernelSize).get [x, y, z])) /
          O3.coef (outH.get [o]) := by
  obtain ⟨out, e, sh, g⟩ := C51_group (lawful a gr _) (pointwise a gr _ hm h.kernel) (sampleAt_local m p _ rfl)
    (rows h).1 (rows h).2 h.nonempty weight inH outH nIn nOut hw hin hout hp
  refine ⟨_, out, full_eq h, e, sh, ?_⟩
  intro co o ci i x y z hco ho hci hi hx hy hz
  have := g co o ci i [x, y, z] hco ho hci hi (by simp [base, hx, hy, hz])
  rw [this, show ∀ s, (base a gr s).mask = if a.mask then some (Functional.createSphericalMaskR3 a.kernelSize) else none from fun _ => rfl,
    maskAt_flag, act_inverse]
  rfl

theorem full_base {s opt1 opt2} {a : KernelArgs O3.Elt SizeArg} {K : GroupKernel O3.Elt 3}
    (h : full s opt1 opt2 a = .ok K) : ∃ gr sa, K = base a gr sa := by
  unfold full at h
  dsimp only at h
  cases hgr : grid s opt1 opt2 a with
  | error e => rw [hgr] at h; cases h
  | ok gr =>
    rw [hgr, ok_bind] at h
    cases hd : defaultWidth a.rotWidth (rowNearestNeighbour ((elems gr).take (sizePair a.groupKernelSize).1)) with
    | error e => rw [hd] at h; cases h
    | ok w =>
      rw [hd, ok_bind] at h
      cases hd2 : defaultWidth a.refWidth (rowNearestNeighbour ((elems gr).drop (sizePair a.groupKernelSize).1)) with
      | error e => rw [hd2] at h; cases h
      | ok w2 =>
        rw [hd2, ok_bind] at h
        unfold checkGroups at h
        by_cases h0 : a.groups = 0
        · rw [if_pos h0] at h; cases h
        · rw [if_neg h0] at h; cases h; exact ⟨_, _, rfl⟩

/-- Group weights of `GSeparableKernelE3` / `GKernelE3` for any grids, weights and settings. -/
theorem C56_E3 (s opt1 opt2) (a : KernelArgs O3.Elt SizeArg) (K : GroupKernel O3.Elt 3)
    (h : full s opt1 opt2 a = .ok K) (g : O3.Elt)
    (hg : O3.Valid g) (weight : Tensor ℝ) (inH outH : Tensor O3.Elt) (dims : List ℕ) :
    K.subgroupWeights weight (inH.map (O3.leftApplyO3 g)) (outH.map (O3.leftApplyO3 g)) dims =
      K.subgroupWeights weight inH outH dims := by
  obtain ⟨gr, sa, rfl⟩ := full_base h
  exact subgroupWeights_cancel (lawful a gr sa) (cancels g hg) weight inH outH dims

/-- Spatial weights move with every lattice symmetry, rotation or reflection, times the determinant. -/
theorem C57_E3 (s opt1 opt2) (a : KernelArgs O3.Elt SizeArg) (hs : 2 ≤ a.kernelSize) {m p}
    (hm : SpatialModes a.spatialMode a.spatialPad m p) (g : O3.Elt) (hv : O3.Valid g) (σ : LatticeSym 3)
    (hg : O3.coef g • O3.rot g = σ.matrix) :
    (∀ gr, 0 < a.groups → grid s opt1 opt2 a = .ok gr →
      ∃ K, lifting s opt1 opt2 a = .ok K ∧ LiftingMoves K (O3.leftApplyO3 g) LatticeSym.ax3 σ (O3.det g)) ∧
    (∀ gr wr wf, Ready s opt1 opt2 a gr wr wf → ∃ K, full s opt1 opt2 a = .ok K ∧
      GroupMoves K (O3.leftApplyO3 g) LatticeSym.ax3 σ (O3.det g) (Pair a) ∧
      SeparableMoves K (O3.leftApplyO3 g) LatticeSym.ax3 σ (O3.det g) (Pair a)) := by
  have hone : (1 : ℝ) / detAt (some O3.det) g = O3.det g := by
    show 1 / O3.coef g = O3.coef g
    rcases hv.1 with h | h <;> rw [h] <;> norm_num
  constructor
  · intro gr h0 hgr
    refine ⟨base a gr noSampler, ?_, liftingMoves (lawful a gr _) (pointwise a gr _ hm (by omega)) (cancels g hv)
      (moves a gr _ hs σ g hg) hone⟩
    unfold lifting; rw [hgr, ok_bind]; exact if_neg (by omega)
  · intro gr wr wf h
    exact ⟨_, full_eq h, groupMoves (lawful a gr _) (pointwise a gr _ hm h.kernel) (sampleAt_local m p _ rfl)
      (rows h).1 (rows h).2 h.nonempty (cancels g hv) (moves a gr _ hs σ g hg) hone _ (fun _ _ h => h)⟩

/-- the mirror image in the first coordinate, as coefficient `-1` and a half turn. -/
def mirror : LatticeSym 3 := ⟨1, ![true, false, false]⟩

def mirrorElt : O3.Elt := O3.mk (-1) !![1, 0, 0; 0, -1, 0; 0, 0, -1]

theorem mirror_spec : O3.Valid mirrorElt ∧ O3.coef mirrorElt • O3.rot mirrorElt = mirror.matrix := by
  unfold mirrorElt O3.Valid
  rw [O3.coef_mk, O3.rot_mk]
  refine ⟨⟨Or.inr rfl, ?_, ?_⟩, ?_⟩
  · ext i j
    fin_cases i <;> fin_cases j <;> simp [Matrix.mul_apply, Fin.sum_univ_three]
  · simp [Matrix.det_fin_three]
  · ext i j
    fin_cases i <;> fin_cases j <;> simp [LatticeSym.matrix, mirror]

example (s opt1 opt2) (gr : Tensor O3.Elt) (n m : ℕ) (hgr : gr.shape = [n + m]) (hn : 0 < n + m) :
    ∃ K, full s opt1 opt2 (exArgs gr n m) = .ok K ∧
    GroupMoves K (O3.leftApplyO3 mirrorElt) LatticeSym.ax3 mirror (-1) (Pair (exArgs gr n m)) := by
  obtain ⟨K, h1, h2, -⟩ := (C57_E3 s opt1 opt2 (exArgs gr n m) (by norm_num [exArgs]) defaultModes mirrorElt
    mirror_spec.1 mirror mirror_spec.2).2 gr 1 1 (exReady s opt1 opt2 gr n m hgr hn)
  exact ⟨K, h1, h2⟩

end KernelE3

end GConv

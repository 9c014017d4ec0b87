import Verif.Props.Separable
import Verif.Props.KernelDefaults

/-! # C112: convolutions over the subgroup act on the fibres only

`GConvNd` with a `GSubgroupKernel` (spatial extents 1, here with stride 1 and no padding): the values of the output at a cell are
a function of the values of the input at this cell, the same function for all cells, batch elements and images of any extents;
left multiplication of the input and output elements by the same group element does not change this function. -/

namespace GConv.Conv

open Tensor Spec GroupKernel

variable {G : Type} {d : ℕ}

/-- A filter with one cell, stride 1 and no padding. -/
def OneCell (ax : List Axis) : Prop := ∀ x ∈ ax, x.k = 1 ∧ x.stride = 1 ∧ x.left = 0 ∧ x.right = 0

/-- Feature maps `x` at cell `q` and `x'` at cell `q'` have the same values: all batch elements, channels and group
elements (`N`, `C` and `n` many). -/
def SameFibre (N C n : ℕ) (x x' : Tensor ℝ) (q q' : List ℕ) : Prop :=
  ∀ b c i, b < N → c < C → i < n → x'.get (b :: c :: i :: q') = x.get (b :: c :: i :: q)

theorem oneCell_out {mode : F.CPad} {ax : List Axis} (h : OneCell ax) {S : List ℕ} (hg : GeomOk mode ax S) : outDims ax S = S := by
  unfold GeomOk at hg
  unfold outDims
  induction hg with
  | nil => rfl
  | @cons x s ax S hx _ ih =>
    rw [List.zipWith_cons_cons, ih fun y hy => h y (List.mem_cons_of_mem _ hy)]
    obtain ⟨h1, h2, h3, h4⟩ := h x List.mem_cons_self
    obtain ⟨-, -, -, h5, -⟩ := hx
    congr 1
    unfold Axis.out
    unfold Axis.span at h5 ⊢
    rw [h1, h2, h3, h4] at *
    simp only [Nat.sub_self, Nat.mul_zero, Nat.div_one] at h5 ⊢
    omega

/-- Any `GSubgroupKernel`; the kernel is sampled at the original elements only. -/
theorem C112_fibres {a : Args} {mode : F.CPad} {ax : List Axis} (hgeo : HasGeometry a mode ax) (h1 : OneCell ax) {L : Layer}
    (hL : init a (kernelDims ax) = .ok L) {S S' : List ℕ} (hg : GeomOk mode ax S) (hg' : GeomOk mode ax S')
    {K : GroupKernel G d} {inv mul act det} (hK : Lawful K inv mul act det) {g : G} (hc : Cancels inv mul act det g)
    (hks : K.kernelSize = kernelDims ax) (weight w : Tensor ℝ) (bias : Option (Tensor ℝ)) (N n : ℕ) (x x' : Tensor ℝ)
    (inH outH : Tensor G) (hin : inH.shape = [n]) (hout : outH.shape = [n]) (hw : K.subgroupForward weight inH outH = .ok w)
    (hws : w.shape = a.outC :: n :: a.inC / a.groups.toNat :: n :: kernelDims ax)
    (hx : x.shape = N :: a.inC :: n :: S) (hx' : x'.shape = N :: a.inC :: n :: S') (hb : BiasShape bias a.outC ax.length) :
    ∃ y y', L.subgroupForward K weight bias x inH outH = .ok (y, outH) ∧
      L.subgroupForward K weight bias x' (inH.map (mul g)) (outH.map (mul g)) = .ok (y', outH.map (mul g)) ∧
      y.shape = N :: a.outC :: n :: S ∧ y'.shape = N :: a.outC :: n :: S' ∧
      ∀ q q', InB S q → InB S' q' → SameFibre N a.inC n x x' q q' → SameFibre N a.outC n y y' q q' := by
  obtain ⟨f1, f2, f3, f4, f5, f6, f7⟩ := init_fields hgeo hL
  have hw' : K.subgroupForward weight (inH.map (mul g)) (outH.map (mul g)) = .ok w := by
    rw [← hw]
    exact subgroupWeights_cancel hK hc weight inH outH K.kernelSize
  obtain ⟨y, e1, s1, v1⟩ := C61_subgroup hgeo hL hg K weight w bias N n n x inH outH hin hout hw hws hx hb
  obtain ⟨y', e2, s2, v2⟩ := C61_subgroup hgeo hL hg' K weight w bias N n n x' (inH.map (mul g)) (outH.map (mul g)) hin hout
    hw' hws hx' hb
  rw [oneCell_out h1 hg] at s1 v1
  rw [oneCell_out h1 hg'] at s2 v2
  refine ⟨y, y', e1, e2, s1, s2, fun q q' hq hq' hs b co h hb' hco hh => ?_⟩
  rw [v1 b co h q hb' hco hh hq, v2 b co h q' hb' hco hh hq']
  unfold Spec.groupConv
  have hax : ∀ x ∈ ax, x.k = 1 ∧ x.stride = 1 ∧ x.left = 0 := fun y hy =>
    ⟨(h1 y hy).1, (h1 y hy).2.1, (h1 y hy).2.2.1⟩
  congr 1
  refine Finset.sum_congr rfl fun ci hci => Finset.sum_congr rfl fun i hi => ?_
  rw [Finset.mem_range] at hci hi
  rw [corr_point _ _ hax hq (GeomOk.length hg), corr_point _ _ hax hq' (GeomOk.length hg')]
  have hlt : groupStart a.inC a.outC a.groups.toNat co + ci < a.inC := by
    obtain ⟨c, hc⟩ := f6
    rw [f3] at f5 f7 hc
    have e1 : a.outC / a.groups.toNat = c := by rw [hc, Nat.mul_div_cancel_left _ f7]
    have e2 : co / c < a.groups.toNat := Nat.div_lt_of_lt_mul (by rw [Nat.mul_comm, ← hc]; exact hco)
    unfold groupStart
    rw [e1]
    calc co / c * (a.inC / a.groups.toNat) + ci < a.groups.toNat * (a.inC / a.groups.toNat) := row_lt e2 hci
      _ = a.inC := by rw [Nat.mul_comm]; exact Nat.div_mul_cancel f5
  rw [hs b _ i hb' hlt hi]

/-- `GConv3d` with `GSubgroupKernelSO3`: multiplying the input and output rotations by the same rotation `g` and moving the cells
of the volume in any way (for instance rotating the volume by `g` about its centre, or cropping it) moves the cells of the
output in the same way and changes nothing else. -/
theorem C112_SO3 {a : Args} {mode : F.CPad} {ax : List Axis} (hgeo : HasGeometry a mode ax) (h1 : OneCell ax) {L : Layer}
    (hks : kernelDims ax = [1, 1, 1]) (hL : init a (kernelDims ax) = .ok L) {S S' : List ℕ} (hg : GeomOk mode ax S)
    (hg' : GeomOk mode ax S') (smode : String) (width : ℝ) (quats : Tensor SO3.Quat) (K : GroupKernel SO3.Mat3 0)
    (hK : KernelSO3.subgroup a.inC a.outC a.groups.toNat smode width quats = .ok K) (wd : ℝ)
    (hwd : defaultWidth width (SO3.nearestNeighbourDistance (elems quats)) = .ok wd)
    (hsolv : Solvable SO3.dist smode wd quats (quats.shape.headD 0)) (hpos : 0 < quats.shape.headD 0)
    (g : SO3.Mat3) (hgr : Spec.IsRotation g) (weight : Tensor ℝ) (bias : Option (Tensor ℝ)) (N n : ℕ) (x x' : Tensor ℝ)
    (inH outH : Tensor SO3.Mat3) (hw : weight.shape = [quats.shape.headD 0, a.outC, a.inC / a.groups.toNat])
    (hin : inH.shape = [n]) (hout : outH.shape = [n])
    (hx : x.shape = N :: a.inC :: n :: S) (hx' : x'.shape = N :: a.inC :: n :: S') (hb : BiasShape bias a.outC ax.length) :
    ∃ y y', L.subgroupForward K weight bias x inH outH = .ok (y, outH) ∧
      L.subgroupForward K weight bias x' (inH.map (g * ·)) (outH.map (g * ·)) = .ok (y', outH.map (g * ·)) ∧
      y.shape = N :: a.outC :: n :: S ∧ y'.shape = N :: a.outC :: n :: S' ∧
      ∀ q q', InB S q → InB S' q' → SameFibre N a.inC n x x' q q' → SameFibre N a.outC n y y' q q' := by
  obtain ⟨-, -, -, -, -, e5, -, -, hLaw⟩ := KernelSO3.subgroup_base hK
  obtain ⟨w, hw1, hw2, -⟩ := KernelSO3.C52_SO3_partial a.inC a.outC a.groups.toNat smode width quats K hK wd hwd hsolv hpos weight
    inH outH n hw hin hout
  have hcan : Cancels SO3.matrixInverse SO3.leftApplyMatrix (fun (_ : SO3.Mat3) (v : Fin 0 → ℝ) => v) none g :=
    ⟨(KernelSE3.cancels g hgr).group, fun _ _ => rfl, fun _ => by simp [detAt]⟩
  exact C112_fibres hgeo h1 hL hg hg' hLaw hcan (by rw [e5, hks]) weight w bias N n x x' inH outH hin hout hw1
    (by rw [hw2, hks]) hx hx' hb

/-- `GConv3d(4, 6, 1, kernel=GSubgroupKernelSO3(4, 6, n, groups=2, "nearest", 1.0, grid_H=quats), groups=2)`. -/
def exFibreArgs : Args := argsNd "3d" 3 4 6 1 (.int 5) 2 1 (.int 0) 1 "zeros"

/-- A volume of 8 x 9 x 10 cells and this volume turned by a quarter about the last axis (9 x 8 x 10 cells); the rotations are
multiplied with an arbitrary rotation: the output volume is turned in the same way. -/
example (quats : Tensor SO3.Quat) (hpos : 0 < quats.shape.headD 0) (g : SO3.Mat3) (hgr : Spec.IsRotation g)
    (weight : Tensor ℝ) (hw : weight.shape = [quats.shape.headD 0, 6, 2]) (x x' : Tensor ℝ) (inH outH : Tensor SO3.Mat3)
    (hin : inH.shape = [7]) (hout : outH.shape = [7]) (hx : x.shape = [3, 4, 7, 8, 9, 10]) (hx' : x'.shape = [3, 4, 7, 9, 8, 10])
    (hturn : ∀ b c i u v z, b < 3 → c < 4 → i < 7 → u < 8 → v < 9 → z < 10 → x'.get [b, c, i, v, 7 - u, z] = x.get [b, c, i, u, v, z]) :
    ∃ K L y y', KernelSO3.subgroup 4 6 2 "nearest" 1 quats = .ok K ∧ init exFibreArgs [1, 1, 1] = .ok L ∧
      L.subgroupForward K weight none x inH outH = .ok (y, outH) ∧
      L.subgroupForward K weight none x' (inH.map (g * ·)) (outH.map (g * ·)) = .ok (y', outH.map (g * ·)) ∧
      ∀ b c h u v z, b < 3 → c < 6 → h < 7 → u < 8 → v < 9 → z < 10 → y'.get [b, c, h, v, 7 - u, z] = y.get [b, c, h, u, v, z] := by
  have hd : defaultWidth 1 (SO3.nearestNeighbourDistance (elems quats)) = .ok 1 := if_neg one_ne_zero
  obtain ⟨K, hK⟩ : ∃ K, KernelSO3.subgroup 4 6 2 "nearest" 1 quats = .ok K := by
    unfold KernelSO3.subgroup
    rw [hd]
    exact ⟨_, rfl⟩
  set o : Axis := ⟨1, 1, 1, 0, 0⟩ with ho
  have hgeo : HasGeometry exFibreArgs .zeros [o, o, o] :=
    ⟨Or.inr ⟨rfl, rfl⟩, rfl, rfl, rfl, by show ∀ a ∈ [o, o, o], a.left = 0 ∧ a.right = 0; simp [ho],
      Or.inl ⟨rfl, rfl⟩⟩
  have h1 : OneCell [o, o, o] := fun x hx => by
    simp only [List.mem_cons, List.not_mem_nil, or_false, or_self] at hx
    subst hx
    exact ⟨rfl, rfl, rfl, rfl⟩
  obtain ⟨L, hL⟩ : ∃ L, init exFibreArgs [1, 1, 1] = .ok L := ⟨_, rfl⟩
  have hok : ∀ s : ℕ, 0 < s → o.Ok .zeros s := fun s hs => by
    refine ⟨Nat.one_pos, Nat.one_pos, Nat.one_pos, ?_, rfl⟩
    unfold Axis.span
    simp only [ho]
    omega
  have hg : GeomOk .zeros [o, o, o] [8, 9, 10] :=
    .cons (hok 8 (by norm_num)) (.cons (hok 9 (by norm_num)) (.cons (hok 10 (by norm_num)) .nil))
  have hg' : GeomOk .zeros [o, o, o] [9, 8, 10] :=
    .cons (hok 9 (by norm_num)) (.cons (hok 8 (by norm_num)) (.cons (hok 10 (by norm_num)) .nil))
  obtain ⟨y, y', e1, e2, -, -, h⟩ := C112_SO3 hgeo h1 rfl hL hg hg' "nearest" 1 quats K hK 1 hd ⟨rfl, Or.inl ⟨rfl, hpos⟩⟩ hpos g hgr
    weight none 3 7 x x' inH outH hw hin hout hx hx' (fun b hb => by cases hb)
  refine ⟨K, L, y, y', hK, hL, e1, e2, fun b c k u v z hb hc hk hu hv hz => ?_⟩
  refine h [u, v, z] [v, 7 - u, z] ?_ ?_ (fun b c i hb hc hi => hturn b c i u v z hb hc hi hu hv hz) b c k hb hc hk
  · simp only [InB_cons, InB_nil_nil, and_true]; omega
  · simp only [InB_cons, InB_nil_nil, and_true]; omega

end GConv.Conv

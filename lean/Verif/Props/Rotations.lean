import Verif.Spec.Rotations
import Verif.Props.Invariance
import Verif.Props.Separable
import Verif.Props.DefaultSampling
import Verif.Lemmas.Weights

/-! # C106: the layers of E(n) contain those of SE(n) -/
namespace GConv

open Tensor Spec GroupKernel Conv

namespace Rotations

/-! ## Samplers read the reference grid only at its elements -/
section
variable {G : Type}

theorem interpolateRBF_grid (dist : G → G → ℝ) (rbf : ℝ → ℝ → ℝ) (w : ℝ) (nodes g g' : Tensor G) (sig : Tensor ℝ)
    (hs : g.shape = g'.shape) (h : ∀ i < g.shape.headD 0, g.get [i] = g'.get [i]) :
    Interp.interpolateRBF dist rbf w nodes g sig = Interp.interpolateRBF dist rbf w nodes g' sig := by
  obtain ⟨s, f⟩ := g
  obtain ⟨s', f'⟩ := g'
  dsimp only at hs h
  subst hs
  have hm : Interp.rbfMatrix dist rbf w ⟨s, f⟩ = Interp.rbfMatrix dist rbf w ⟨s, f'⟩ := by
    ext i j
    unfold Interp.rbfMatrix
    dsimp only [Matrix.of_apply]
    rw [h i i.2, h j j.2]
  unfold Interp.interpolateRBF
  dsimp only
  rw [hm]
  split
  · rfl
  · congr 2
    funext idx
    refine Finset.sum_congr rfl fun j _ => ?_
    rw [h j j.2]

theorem interpolateNN_grid (dist : G → G → ℝ) (nodes g g' : Tensor G) (sig : Tensor ℝ)
    (hs : g.shape = g'.shape) (h : ∀ i < g.shape.headD 0, g.get [i] = g'.get [i]) :
    Interp.interpolateNN dist nodes g sig = Interp.interpolateNN dist nodes g' sig := by
  have hn : ∀ i, Interp.nnIdx dist nodes g i = Interp.nnIdx dist nodes g' i := by
    intro i
    unfold Interp.nnIdx
    rw [← hs]
    exact topk1_congr _ _ _ fun j hj => by rw [h j hj]
  unfold Interp.interpolateNN
  simp only [hn, ← hs]

theorem SO2_grid (q sig g g' : Tensor ℝ) (mode : String) (w : ℝ)
    (hs : g.shape = g'.shape) (h : ∀ i < g.shape.headD 0, g.get [i] = g'.get [i]) :
    SO2.gridSample q sig g mode w = SO2.gridSample q sig g' mode w := by
  unfold SO2.gridSample
  rw [interpolateRBF_grid _ _ _ _ g g' sig hs h, interpolateNN_grid _ _ g g' sig hs h]

theorem SO3_grid (q : Tensor SO3.Mat3) (sig : Tensor ℝ) (g g' : Tensor SO3.Mat3) (mode : String) (w : ℝ)
    (hs : g.shape = g'.shape) (h : ∀ i < g.shape.headD 0, g.get [i] = g'.get [i]) :
    SO3.gridSample q sig g mode w = SO3.gridSample q sig g' mode w := by
  unfold SO3.gridSample SO3.gridSampleQuat
  have h' : ∀ i < (g.map SO3.matrixToQuat).shape.headD 0, (g.map SO3.matrixToQuat).get [i] = (g'.map SO3.matrixToQuat).get [i] :=
    fun i hi => congrArg SO3.matrixToQuat (h i hi)
  rw [interpolateRBF_grid _ _ _ _ (g.map SO3.matrixToQuat) (g'.map SO3.matrixToQuat) sig hs h',
    interpolateNN_grid _ _ (g.map SO3.matrixToQuat) (g'.map SO3.matrixToQuat) sig hs h']

end

/-- the value at a rotation: only the first `n` stored values are used. -/
theorem value2 (mode : String) (wr wf : ℝ) (n m : ℕ) (hn : n ≠ 0) {g : Tensor ℝ} {g' : Tensor O2.Elt} (h : StartsWith asO2 n g g')
    (f : ℕ → ℝ) (t : ℝ) :
    cosetCore Prod.fst Prod.snd (fun w g s sg => SO2.gridSample g s sg mode w) g' n m wr wf f (asO2 t) =
      sampleOne (fun q sig g => SO2.gridSample q sig g mode wr) g n f t := by
  obtain ⟨h1, ⟨l, h2, hl⟩, h3⟩ := h
  unfold cosetCore
  rw [if_pos (show (asO2 t).1 = 1 from rfl), if_neg hn]
  unfold sampleOne
  dsimp only
  rw [SO2_grid _ _ ((g'.slice0 0 n).map Prod.snd) g mode wr (by simp [slice0, Tensor.map, h1, h2, hl])]
  · rfl
  · intro i hi
    have hi' : i < n := by simpa [slice0, Tensor.map, h2, hl] using hi
    show (g'.get [0 + i]).2 = _
    rw [Nat.zero_add, h3 i hi']
    rfl

theorem coef_asO3 (R : SO3.Mat3) : O3.coef (asO3 R) = 1 := O3.coef_mk _ _
theorem rot_asO3 (R : SO3.Mat3) : O3.rot (asO3 R) = R := O3.rot_mk _ _

theorem value3 (mode : String) (wr wf : ℝ) (n m : ℕ) (hn : n ≠ 0) {g : Tensor SO3.Mat3} {g' : Tensor O3.Elt}
    (h : StartsWith asO3 n g g') (f : ℕ → ℝ) (R : SO3.Mat3) :
    cosetCore O3.coef O3.rot (fun w g s sg => SO3.gridSample g s sg mode w) g' n m wr wf f (asO3 R) =
      sampleOne (fun q sig g => SO3.gridSample q sig g mode wr) g n f R := by
  obtain ⟨h1, ⟨l, h2, hl⟩, h3⟩ := h
  unfold cosetCore
  rw [if_pos (coef_asO3 R), if_neg hn, rot_asO3]
  unfold sampleOne
  dsimp only
  rw [SO3_grid _ _ ((g'.slice0 0 n).map O3.rot) g mode wr (by simp [slice0, Tensor.map, h1, h2, hl])]
  intro i hi
  have hi' : i < n := by simpa [slice0, Tensor.map, h2, hl] using hi
  show O3.rot (g'.get [0 + i]) = _
  rw [Nat.zero_add, h3 i hi', rot_asO3]

theorem InB_two {k : ℕ} {x : List ℕ} (h : InB [k, k] x) : ∃ a b, x = [a, b] ∧ a < k ∧ b < k := by
  obtain ⟨a, r, rfl, ha, h⟩ := InB_cons_left h
  obtain ⟨b, r, rfl, hb, h⟩ := InB_cons_left h
  cases h
  exact ⟨a, b, rfl, ha, hb⟩

theorem InB_three {k : ℕ} {x : List ℕ} (h : InB [k, k, k] x) : ∃ a b c, x = [a, b, c] ∧ a < k ∧ b < k ∧ c < k := by
  obtain ⟨a, r, rfl, ha, h⟩ := InB_cons_left h
  obtain ⟨b, r, rfl, hb, h⟩ := InB_cons_left h
  obtain ⟨c, r, rfl, hc, h⟩ := InB_cons_left h
  cases h
  exact ⟨a, b, c, rfl, ha, hb, hc⟩

/-- moved grids. -/
theorem moved {G G' : Type} (p : Bool) (asG : G → G') {move : G → G} {move' : G' → G'} (h : ∀ g, move' (asG g) = asG (move g)) (H : Tensor G) :
    (if p then (H.map asG).map move' else H.map asG) = (if p then H.map move else H).map asG := by
  cases p with
  | false => rfl
  | true =>
    simp only [if_true]
    unfold Tensor.map
    congr 1
    funext i
    exact h _

/-- a relative rotation. -/
theorem relative2 (s t : ℝ) : O2.leftApplyAngle (O2.inverse (asO2 s)) (asO2 t) = asO2 (SO2.leftApplyAngle (-s) t) := by
  unfold O2.leftApplyAngle O2.inverse asO2 SO2.leftApplyAngle
  dsimp only
  rw [one_mul, mul_neg_one]

theorem relative3 (A B : SO3.Mat3) : O3.leftApplyO3 (O3.inverse (asO3 A)) (asO3 B) = asO3 (A.transpose * B) := by
  unfold O3.leftApplyO3 O3.inverse
  dsimp only
  rw [O3.rot_mk, O3.coef_mk, coef_asO3, coef_asO3, rot_asO3, rot_asO3, one_mul]
  rfl

/-! ## Layers with the same filters -/

/-- the constructor of the base class does not keep the group kernel size. -/
theorem init_same {a a' : Args} {ks : List ℕ} {L L' : Layer} (e : a' = { a with groupKernelSize := a'.groupKernelSize })
    (h : init a ks = .ok L) (h' : init a' ks = .ok L') : L' = L ∧ 0 < a.groups := by
  rw [e] at h'
  unfold init at h h'
  obtain ⟨_, -, h⟩ := bind_ok h
  obtain ⟨_, -, h'⟩ := bind_ok h'
  obtain ⟨_, hg, -⟩ := bind_ok h
  refine ⟨Except.ok.inj (h'.symm.trans h), ?_⟩
  by_contra hn
  unfold raiseIf at hg
  rw [if_pos (not_lt.1 hn)] at hg
  cases hg

section
variable {G G' : Type} {d : ℕ} {asG : G → G'} {M : Module G d} {M' : Module G' d} {weight weight' w w' : Tensor ℝ} {n : ℕ}
  {move : G → G} {move' : G' → G'} (hmove : ∀ g, move' (asG g) = asG (move g)) {H Hc : Tensor G} (hH : H.shape = [n])
  (hL : M'.layer = M.layer) {p : Bool} (hp : M.permute = p) (hp' : M'.permute = p) (hHc : Hc = if p then H.map move else H)
include hmove hH hp hp' hHc

omit hp' in
theorem permuted : permuteGrid M.permute move H = Hc := by
  rw [permuteGrid_eq M.permute move (ne_nil_of_eq hH), hp, hHc]

omit hp in
theorem permuted' : permuteGrid M'.permute move' (H.map asG) = Hc.map asG := by
  rw [permuteGrid_eq M'.permute move' (ne_nil_of_eq (n := n) hH), hp', hHc]
  exact moved p asG hmove H

include hL

theorem lifting_maps (h : M.kernel.liftingForward weight Hc = .ok w)
    (h' : M'.kernel.liftingForward weight' (Hc.map asG) = .ok w') (hw : SameEntries w w') (bias : Option (Tensor ℝ)) (input : Tensor ℝ) :
    Outcomes2 (SameMaps asG) (M.lift move weight bias input (some H)) (M'.lift move' weight' bias input (some (H.map asG))) := by
  unfold Module.lift
  rw [Option.getD_some, Option.getD_some]
  dsimp only
  rw [permuted hmove hH hp hHc, permuted' hmove hH hp' hHc, hL]
  unfold Layer.liftingForward
  rw [h, h']
  cases input.shape with
  | nil => exact .error _
  | cons N s => exact Weights.liftingConv _ bias N input Hc hw

variable {inH : Tensor G}

theorem group_maps (h : M.kernel.forward weight inH Hc = .ok w)
    (h' : M'.kernel.forward weight' (inH.map asG) (Hc.map asG) = .ok w') (hw : SameEntries w w') (bias : Option (Tensor ℝ)) (input : Tensor ℝ) :
    Outcomes2 (SameMaps asG) (M.groupSE move weight bias input inH (some H)) (M'.groupE move' weight' bias input (inH.map asG) (some (H.map asG))) := by
  unfold Module.groupSE Module.groupE
  rw [Option.getD_some, Option.getD_some]
  dsimp only
  rw [permuted hmove hH hp hHc, permuted' hmove hH hp' hHc, hL]
  unfold Layer.groupForward
  rw [h, h']
  rcases input.shape with _ | ⟨N, _ | ⟨C, _ | ⟨m, D⟩⟩⟩
  · exact .error _
  · exact .error _
  · exact .error _
  · exact Weights.groupConv _ bias N D input inH Hc hw

theorem separable_maps {weightH weightH' wH wH' : Tensor ℝ} (h : M.kernel.separableForward weightH weight inH Hc = .ok (wH, w))
    (h' : M'.kernel.separableForward weightH' weight' (inH.map asG) (Hc.map asG) = .ok (wH', w')) (hwH : SameEntries wH wH') (hw : SameEntries w w')
    (bias : Option (Tensor ℝ)) (input : Tensor ℝ) :
    Outcomes2 (SameMaps asG) (M.separableSE move weightH weight bias input inH (some H))
      (M'.separableE move' weightH' weight' bias input (inH.map asG) (some (H.map asG))) := by
  unfold Module.separableSE Module.separableE
  rw [Option.getD_some, Option.getD_some]
  dsimp only
  rw [permuted hmove hH hp hHc, permuted' hmove hH hp' hHc, hL]
  unfold Layer.separableForward
  rw [h, h']
  rcases input.shape with _ | ⟨N, _ | ⟨C, _ | ⟨m, D⟩⟩⟩
  · exact .error _
  · exact .error _
  · exact .error _
  · exact Weights.separableConv _ bias N D input inH Hc hwH hw

end

theorem moved_shape {G : Type} {p : Bool} {move : G → G} {H Hc : Tensor G} {n : ℕ} (hH : H.shape = [n]) (hHc : Hc = if p then H.map move else H) :
    Hc.shape = [n] := by rw [hHc]; cases p <;> exact hH

end Rotations

open Rotations

/-- `GLiftingConvE2` lifts to rotations as `GLiftingConvSE2` does, for all inputs, errors included. -/
theorem C106_lifting_2 {k : KernelArgs ℝ ℕ} {k' : KernelArgs O2.Elt SizeArg} (h : SameArgs k k') (hmask : k'.mask = true) (c : ConvOpts)
    (hk : 0 < k.kernelSize) {m p} (hm : SpatialModes k.spatialMode k.spatialPad m p)
    {M : Module ℝ 2} (hM : liftingSE2 k c = .ok M) {M' : Module O2.Elt 2} (hM' : liftingE2 k' c = .ok M')
    (weight : Tensor ℝ) (hw : weight.shape = [k.outC, k.inC / k.groups, k.kernelSize, k.kernelSize])
    (H : Tensor ℝ) (n : ℕ) (hH : H.shape = [n]) (move : ℝ → ℝ) (move' : O2.Elt → O2.Elt)
    (hmove : ∀ g, move' (asO2 g) = asO2 (move g)) (bias : Option (Tensor ℝ)) (input : Tensor ℝ) :
    Outcomes2 (SameMaps asO2) (M.lift move weight bias input (some H)) (M'.lift move' weight bias input (some (H.map asO2))) := by
  obtain ⟨K, hK, hL, hMK, hMp⟩ := build_ok hM
  obtain ⟨K', hK', hL', hMK', hMp'⟩ := build_ok hM'
  rw [(liftingSE2_size hK)] at hL
  rw [(liftingE2_size hK'), h.kernelSize] at hL'
  obtain ⟨hLL, hg⟩ := init_same (a := argsSE2 k c) (a' := argsE2 k' c)
    (by unfold argsE2 argsSE2 args2d argsNd; rw [h.inC, h.outC, h.kernelSize, h.groups]) hL hL'
  have hg : 0 < k.groups := Int.natCast_pos.1 hg
  obtain ⟨Hc, hHc⟩ : ∃ Hc, Hc = if c.permute then H.map move else H := ⟨_, rfl⟩
  have hHs := moved_shape hH hHc
  obtain ⟨_, w, e0, e1, e2, e3⟩ := KernelSE2.C50_SE2 k hg hk hm weight Hc n hw hHs
  rw [hK] at e0
  cases e0
  obtain ⟨_, w', f0, f1, f2, f3⟩ := KernelE2.C50_E2 k' (by rw [h.groups]; exact hg) (by rw [h.kernelSize]; exact hk) (by rw [h.spatialMode, h.spatialPad]; exact hm) weight (Hc.map asO2) n
    (by rw [h.outC, h.inC, h.groups, h.kernelSize]; exact hw) hHs
  rw [hK'] at f0
  cases f0
  rw [h.outC, h.inC, h.groups, h.kernelSize] at f2 f3
  refine lifting_maps hmove hH hLL hMp hMp' hHc (by rw [hMK]; exact e1) (by rw [hMK']; exact f1) ⟨by rw [e2, f2], fun idx hidx => ?_⟩ bias input
  rw [e2] at hidx
  obtain ⟨co, idx, rfl, hco, hidx⟩ := InB_cons_left hidx
  obtain ⟨h, idx, rfl, hh, hidx⟩ := InB_cons_left hidx
  obtain ⟨ci, idx, rfl, hci, hidx⟩ := InB_cons_left hidx
  obtain ⟨x, y, rfl, hx, hy⟩ := InB_two hidx
  rw [e3 co h ci x y hco hh hci hx hy, f3 co h ci x y hco hh hci hx hy]
  rw [show (Hc.map asO2).get [h] = asO2 (Hc.get [h]) from rfl]
  rw [show (asO2 (Hc.get [h])).1 = 1 from rfl, show (asO2 (Hc.get [h])).2 = Hc.get [h] from rfl, hmask, if_pos rfl, one_smul, div_one]

/-- `GConvE2` between rotations computes what `GConvSE2` computes with the first of the stored filters, for all inputs,
errors included. -/
theorem C106_group_2 {k : KernelArgs ℝ ℕ} {k' : KernelArgs O2.Elt SizeArg} (h : SameArgs k k') (hmask : k'.mask = true) (hgm : k'.groupMode = k.groupMode)
    (c : ConvOpts) {m p} (hm : SpatialModes k.spatialMode k.spatialPad m p) (wr wf : ℝ)
    (hr : KernelSE2.Ready k wr) (hr' : KernelE2.Ready k' wr wf) (hn : KernelE2.nRot k' ≠ 0)
    (hgrid : StartsWith asO2 (KernelE2.nRot k') (KernelSE2.grid k) (KernelE2.grid k'))
    {M : Module ℝ 2} (hM : fullSE2 k c = .ok M) {M' : Module O2.Elt 2} (hM' : fullE2 k' c = .ok M')
    (weight weight' : Tensor ℝ) (hw : weight.shape = [(KernelSE2.grid k).shape.headD 0, k.outC, k.inC / k.groups, k.kernelSize, k.kernelSize])
    (hw' : weight'.shape = [KernelE2.nRot k' + KernelE2.nRef k', k.outC, k.inC / k.groups, k.kernelSize, k.kernelSize])
    (hww : ∀ i < KernelE2.nRot k', ∀ r, weight'.get (i :: r) = weight.get (i :: r))
    (mi n : ℕ) (inH : Tensor ℝ) (hin : inH.shape = [mi]) (H : Tensor ℝ) (hH : H.shape = [n])
    (move : ℝ → ℝ) (move' : O2.Elt → O2.Elt) (hmove : ∀ g, move' (asO2 g) = asO2 (move g)) (bias : Option (Tensor ℝ)) (input : Tensor ℝ) :
    Outcomes2 (SameMaps asO2) (M.groupSE move weight bias input inH (some H))
      (M'.groupE move' weight' bias input (inH.map asO2) (some (H.map asO2))) := by
  have hn0 : (KernelSE2.grid k).shape.headD 0 = KernelE2.nRot k' := by rw [hgrid.1]; rfl
  obtain ⟨K, hK, hL, hMK, hMp⟩ := build_ok hM
  obtain ⟨K', hK', hL', hMK', hMp'⟩ := build_ok hM'
  rw [fullSE2_size hK] at hL
  rw [fullE2_size hK', h.kernelSize] at hL'
  obtain ⟨hLL, -⟩ := init_same (a := argsSE2 k c) (a' := argsE2 k' c)
    (by unfold argsE2 argsSE2 args2d argsNd; rw [h.inC, h.outC, h.kernelSize, h.groups]) hL hL'
  obtain ⟨Hc, hHc⟩ : ∃ Hc, Hc = if c.permute then H.map move else H := ⟨_, rfl⟩
  have hHs := moved_shape hH hHc
  have hv : ∀ (f : ℕ → ℝ) t, KernelE2.value k' wr wf f (asO2 t) = KernelSE2.value k wr f t := by
    intro f t
    unfold KernelE2.value KernelSE2.value
    rw [hgm, value2 k.groupMode wr wf (KernelE2.nRot k') (KernelE2.nRef k') hn hgrid, hn0]
  have hl : ∀ (f f' : ℕ → ℝ) t, (∀ i < KernelE2.nRot k', f i = f' i) → KernelSE2.value k wr f t = KernelSE2.value k wr f' t := by
    intro f f' t hf
    refine (KernelSE2.rows hr).2 f f' t fun i hi => hf i ?_
    have hi : i < [(KernelSE2.grid k).shape.headD 0].sum := hi
    rw [hn0] at hi
    simpa using hi
  obtain ⟨_, w, e0, e1, e2, e3⟩ := KernelSE2.C51_SE2 k wr hr hm weight inH Hc mi n hw hin hHs
  rw [hK] at e0
  cases e0
  obtain ⟨_, w', f0, f1, f2, f3⟩ := KernelE2.C51_E2 k' wr wf hr' (by rw [h.spatialMode, h.spatialPad]; exact hm) weight' (inH.map asO2) (Hc.map asO2) mi n
    (by rw [h.outC, h.inC, h.groups, h.kernelSize]; exact hw') hin hHs (fun _ _ _ _ => Or.inl ⟨by show (1 : ℝ) * 1 = 1; norm_num, hn⟩)
  rw [hK'] at f0
  cases f0
  rw [h.outC, h.inC, h.groups, h.kernelSize] at f2 f3
  refine group_maps hmove hH hLL hMp hMp' hHc (by rw [hMK]; exact e1) (by rw [hMK']; exact f1) ⟨by rw [e2, f2], fun idx hidx => ?_⟩ bias input
  rw [e2] at hidx
  obtain ⟨co, idx, rfl, hco, hidx⟩ := InB_cons_left hidx
  obtain ⟨h, idx, rfl, hh, hidx⟩ := InB_cons_left hidx
  obtain ⟨ci, idx, rfl, hci, hidx⟩ := InB_cons_left hidx
  obtain ⟨i, idx, rfl, hi, hidx⟩ := InB_cons_left hidx
  obtain ⟨x, y, rfl, hx, hy⟩ := InB_two hidx
  rw [e3 co h ci i x y hco hh hci hi hx hy, f3 co h ci i x y hco hh hci hi hx hy]
  rw [show (Hc.map asO2).get [h] = asO2 (Hc.get [h]) from rfl, show (inH.map asO2).get [i] = asO2 (inH.get [i]) from rfl, relative2]
  simp only [hv]
  rw [show (asO2 (Hc.get [h])).1 = 1 from rfl, show (asO2 (Hc.get [h])).2 = Hc.get [h] from rfl, hmask, if_pos rfl, one_smul, div_one]
  congr 2
  funext r
  exact hl _ _ _ fun i hi => hww i hi _

/-- `GSeparableConvE2` between rotations computes what `GSeparableConvSE2` computes with the first of the stored group weights,
for all inputs, errors included, and as many output as input rotations. -/
theorem C106_separable_2 {k : KernelArgs ℝ ℕ} {k' : KernelArgs O2.Elt SizeArg} (h : SameArgs k k') (hmask : k'.mask = true) (hgm : k'.groupMode = k.groupMode)
    (c : ConvOpts) {m p} (hm : SpatialModes k.spatialMode k.spatialPad m p) (wr wf : ℝ)
    (hr : KernelSE2.Ready k wr) (hr' : KernelE2.Ready k' wr wf) (hn : KernelE2.nRot k' ≠ 0)
    (hgrid : StartsWith asO2 (KernelE2.nRot k') (KernelSE2.grid k) (KernelE2.grid k'))
    {M : Module ℝ 2} (hM : fullSE2 k c = .ok M) {M' : Module O2.Elt 2} (hM' : fullE2 k' c = .ok M')
    (weightH weightH' weight : Tensor ℝ) (hwH : weightH.shape = [(KernelSE2.grid k).shape.headD 0, k.outC, k.inC / k.groups])
    (hwH' : weightH'.shape = [KernelE2.nRot k' + KernelE2.nRef k', k.outC, k.inC / k.groups])
    (hww : ∀ i < KernelE2.nRot k', ∀ r, weightH'.get (i :: r) = weightH.get (i :: r))
    (hw : weight.shape = [k.outC, 1, k.kernelSize, k.kernelSize])
    (n : ℕ) (inH : Tensor ℝ) (hin : inH.shape = [n]) (H : Tensor ℝ) (hH : H.shape = [n])
    (move : ℝ → ℝ) (move' : O2.Elt → O2.Elt) (hmove : ∀ g, move' (asO2 g) = asO2 (move g)) (bias : Option (Tensor ℝ)) (input : Tensor ℝ) :
    Outcomes2 (SameMaps asO2) (M.separableSE move weightH weight bias input inH (some H))
      (M'.separableE move' weightH' weight bias input (inH.map asO2) (some (H.map asO2))) := by
  have hn0 : (KernelSE2.grid k).shape.headD 0 = KernelE2.nRot k' := by rw [hgrid.1]; rfl
  obtain ⟨K, hK, hL, hMK, hMp⟩ := build_ok hM
  obtain ⟨K', hK', hL', hMK', hMp'⟩ := build_ok hM'
  rw [fullSE2_size hK] at hL
  rw [fullE2_size hK', h.kernelSize] at hL'
  obtain ⟨hLL, -⟩ := init_same (a := argsSE2 k c) (a' := argsE2 k' c)
    (by unfold argsE2 argsSE2 args2d argsNd; rw [h.inC, h.outC, h.kernelSize, h.groups]) hL hL'
  obtain ⟨Hc, hHc⟩ : ∃ Hc, Hc = if c.permute then H.map move else H := ⟨_, rfl⟩
  have hHs := moved_shape hH hHc
  have hv : ∀ (f : ℕ → ℝ) t, KernelE2.value k' wr wf f (asO2 t) = KernelSE2.value k wr f t := by
    intro f t
    unfold KernelE2.value KernelSE2.value
    rw [hgm, value2 k.groupMode wr wf (KernelE2.nRot k') (KernelE2.nRef k') hn hgrid, hn0]
  have hl : ∀ (f f' : ℕ → ℝ) t, (∀ i < KernelE2.nRot k', f i = f' i) → KernelSE2.value k wr f t = KernelSE2.value k wr f' t := by
    intro f f' t hf
    refine (KernelSE2.rows hr).2 f f' t fun i hi => hf i ?_
    have hi : i < [(KernelSE2.grid k).shape.headD 0].sum := hi
    rw [hn0] at hi
    simpa using hi
  obtain ⟨_, wH, w, e0, e1, e2, e3, e4, e5⟩ := KernelSE2.C52_SE2_partial k wr hr hm weightH weight inH Hc n hwH hw hin hHs
  rw [hK] at e0
  cases e0
  obtain ⟨_, wH', w', f0, f1, f2, f3, f4, f5⟩ := KernelE2.C52_E2_partial k' wr wf hr' (by rw [h.spatialMode, h.spatialPad]; exact hm) weightH' weight (inH.map asO2) (Hc.map asO2) n
    (by rw [h.outC, h.inC, h.groups]; exact hwH') (by rw [h.outC, h.kernelSize]; exact hw) hin hHs (fun _ _ _ _ => Or.inl ⟨by show (1 : ℝ) * 1 = 1; norm_num, hn⟩)
  rw [hK'] at f0
  cases f0
  rw [h.outC, h.inC, h.groups] at f2 f4
  rw [h.outC, h.kernelSize] at f3 f5
  refine separable_maps hmove hH hLL hMp hMp' hHc (by rw [hMK]; exact e1) (by rw [hMK']; exact f1) ⟨by rw [e2, f2], fun idx hidx => ?_⟩
    ⟨by rw [e3, f3], fun idx hidx => ?_⟩ bias input
  · rw [e2] at hidx
    obtain ⟨co, idx, rfl, hco, hidx⟩ := InB_cons_left hidx
    obtain ⟨h, idx, rfl, hh, hidx⟩ := InB_cons_left hidx
    obtain ⟨ci, idx, rfl, hci, hidx⟩ := InB_cons_left hidx
    obtain ⟨i, idx, rfl, hi, hidx⟩ := InB_cons_left hidx
    obtain ⟨x, y, rfl, hx, hy⟩ := InB_two hidx
    cases Nat.lt_one_iff.1 hx
    cases Nat.lt_one_iff.1 hy
    rw [e4 co h ci i hco hh hci hi, f4 co h ci i hco hh hci hi]
    rw [show (Hc.map asO2).get [h] = asO2 (Hc.get [h]) from rfl, show (inH.map asO2).get [i] = asO2 (inH.get [i]) from rfl, relative2, hv]
    exact hl _ _ _ fun i hi => hww i hi _
  · rw [e3] at hidx
    obtain ⟨co, idx, rfl, hco, hidx⟩ := InB_cons_left hidx
    obtain ⟨h, idx, rfl, hh, hidx⟩ := InB_cons_left hidx
    obtain ⟨z0, idx, rfl, hz0, hidx⟩ := InB_cons_left hidx
    obtain ⟨x, y, rfl, hx, hy⟩ := InB_two hidx
    cases Nat.lt_one_iff.1 hz0
    rw [e5 co h x y hco hh hx hy, f5 co h x y hco hh hx hy]
    rw [show (Hc.map asO2).get [h] = asO2 (Hc.get [h]) from rfl]
    rw [show (asO2 (Hc.get [h])).1 = 1 from rfl, show (asO2 (Hc.get [h])).2 = Hc.get [h] from rfl, hmask, if_pos rfl, one_smul, div_one]

/-- `GLiftingConvE3` lifts to rotations as `GLiftingConvSE3` does, for all inputs, errors included. -/
theorem C106_lifting_3 (s : GridCache.Store (Tensor ℝ)) (opt opt1 opt2 : List SO3.Euler) {k : KernelArgs SO3.Mat3 ℕ} {k' : KernelArgs O3.Elt SizeArg} (h : SameArgs k k') (hmask : k'.mask = k.mask) (c : ConvOpts)
    (hk : 0 < k.kernelSize) {m p} (hm : SpatialModes k.spatialMode k.spatialPad m p)
    {M : Module SO3.Mat3 3} (hM : liftingSE3 s opt k c = .ok M) {M' : Module O3.Elt 3} (hM' : liftingE3 s opt1 opt2 k' c = .ok M')
    (weight : Tensor ℝ) (hw : weight.shape = [k.outC, k.inC / k.groups, k.kernelSize, k.kernelSize, k.kernelSize])
    (H : Tensor SO3.Mat3) (n : ℕ) (hH : H.shape = [n]) (move : SO3.Mat3 → SO3.Mat3) (move' : O3.Elt → O3.Elt)
    (hmove : ∀ g, move' (asO3 g) = asO3 (move g)) (bias : Option (Tensor ℝ)) (input : Tensor ℝ) :
    Outcomes2 (SameMaps asO3) (M.lift move weight bias input (some H)) (M'.lift move' weight bias input (some (H.map asO3))) := by
  obtain ⟨K, hK, hL, hMK, hMp⟩ := build_ok hM
  obtain ⟨K', hK', hL', hMK', hMp'⟩ := build_ok hM'
  rw [(liftingSE3_size hK).1] at hL
  rw [(liftingE3_size hK').1, h.kernelSize] at hL'
  obtain ⟨hLL, hg⟩ := init_same (a := argsSE3 k c) (a' := argsE3 k' c)
    (by unfold argsE3 argsSE3 args3d argsNd; rw [h.inC, h.outC, h.kernelSize, h.groups]) hL hL'
  have hg : 0 < k.groups := Int.natCast_pos.1 hg
  obtain ⟨Hc, hHc⟩ : ∃ Hc, Hc = if c.permute then H.map move else H := ⟨_, rfl⟩
  have hHs := moved_shape hH hHc
  obtain ⟨gr, hgr⟩ := (liftingSE3_size hK).2
  obtain ⟨gr', hgr'⟩ := (liftingE3_size hK').2
  obtain ⟨_, w, e0, e1, e2, e3⟩ := KernelSE3.C50_SE3 s opt k gr hgr hg hk hm weight Hc n hw hHs
  rw [hK] at e0
  cases e0
  obtain ⟨_, w', f0, f1, f2, f3⟩ := KernelE3.C50_E3 s opt1 opt2 k' gr' hgr' (by rw [h.groups]; exact hg) (by rw [h.kernelSize]; exact hk) (by rw [h.spatialMode, h.spatialPad]; exact hm) weight (Hc.map asO3) n
    (by rw [h.outC, h.inC, h.groups, h.kernelSize]; exact hw) hHs
  rw [hK'] at f0
  cases f0
  rw [h.outC, h.inC, h.groups, h.kernelSize] at f2 f3
  refine lifting_maps hmove hH hLL hMp hMp' hHc (by rw [hMK]; exact e1) (by rw [hMK']; exact f1) ⟨by rw [e2, f2], fun idx hidx => ?_⟩ bias input
  rw [e2] at hidx
  obtain ⟨co, idx, rfl, hco, hidx⟩ := InB_cons_left hidx
  obtain ⟨h, idx, rfl, hh, hidx⟩ := InB_cons_left hidx
  obtain ⟨ci, idx, rfl, hci, hidx⟩ := InB_cons_left hidx
  obtain ⟨x, y, z, rfl, hx, hy, hz⟩ := InB_three hidx
  rw [e3 co h ci x y z hco hh hci hx hy hz, f3 co h ci x y z hco hh hci hx hy hz]
  rw [show (Hc.map asO3).get [h] = asO3 (Hc.get [h]) from rfl]
  rw [coef_asO3, rot_asO3, hmask, one_smul, div_one]

/-- `GConvE3` between rotations computes what `GConvSE3` computes with the first of the stored filters, for all inputs,
errors included. -/
theorem C106_group_3 (s : GridCache.Store (Tensor ℝ)) (opt opt1 opt2 : List SO3.Euler) {k : KernelArgs SO3.Mat3 ℕ} {k' : KernelArgs O3.Elt SizeArg} (h : SameArgs k k') (hmask : k'.mask = k.mask) (hgm : k'.groupMode = k.groupMode)
    (c : ConvOpts) {m p} (hm : SpatialModes k.spatialMode k.spatialPad m p) {gr : Tensor SO3.Mat3} {gr' : Tensor O3.Elt} (wr wf : ℝ)
    (hr : KernelSE3.Ready s opt k gr wr) (hr' : KernelE3.Ready s opt1 opt2 k' gr' wr wf) (hn : KernelE3.nRot k' ≠ 0)
    (hgrid : StartsWith asO3 (KernelE3.nRot k') gr gr')
    {M : Module SO3.Mat3 3} (hM : fullSE3 s opt k c = .ok M) {M' : Module O3.Elt 3} (hM' : fullE3 s opt1 opt2 k' c = .ok M')
    (weight weight' : Tensor ℝ) (hw : weight.shape = [gr.shape.headD 0, k.outC, k.inC / k.groups, k.kernelSize, k.kernelSize, k.kernelSize])
    (hw' : weight'.shape = [KernelE3.nRot k' + KernelE3.nRef k', k.outC, k.inC / k.groups, k.kernelSize, k.kernelSize, k.kernelSize])
    (hww : ∀ i < KernelE3.nRot k', ∀ r, weight'.get (i :: r) = weight.get (i :: r))
    (mi n : ℕ) (inH : Tensor SO3.Mat3) (hin : inH.shape = [mi]) (H : Tensor SO3.Mat3) (hH : H.shape = [n])
    (move : SO3.Mat3 → SO3.Mat3) (move' : O3.Elt → O3.Elt) (hmove : ∀ g, move' (asO3 g) = asO3 (move g)) (bias : Option (Tensor ℝ)) (input : Tensor ℝ) :
    Outcomes2 (SameMaps asO3) (M.groupSE move weight bias input inH (some H))
      (M'.groupE move' weight' bias input (inH.map asO3) (some (H.map asO3))) := by
  have hn0 : gr.shape.headD 0 = KernelE3.nRot k' := by rw [hgrid.1]; rfl
  obtain ⟨K, hK, hL, hMK, hMp⟩ := build_ok hM
  obtain ⟨K', hK', hL', hMK', hMp'⟩ := build_ok hM'
  rw [fullSE3_size hK] at hL
  rw [fullE3_size hK', h.kernelSize] at hL'
  obtain ⟨hLL, -⟩ := init_same (a := argsSE3 k c) (a' := argsE3 k' c)
    (by unfold argsE3 argsSE3 args3d argsNd; rw [h.inC, h.outC, h.kernelSize, h.groups]) hL hL'
  obtain ⟨Hc, hHc⟩ : ∃ Hc, Hc = if c.permute then H.map move else H := ⟨_, rfl⟩
  have hHs := moved_shape hH hHc
  have hv : ∀ (f : ℕ → ℝ) t, KernelE3.value k' gr' wr wf f (asO3 t) = KernelSE3.value k gr wr f t := by
    intro f t
    unfold KernelE3.value KernelSE3.value
    rw [hgm, value3 k.groupMode wr wf (KernelE3.nRot k') (KernelE3.nRef k') hn hgrid, hn0]
  have hl : ∀ (f f' : ℕ → ℝ) t, (∀ i < KernelE3.nRot k', f i = f' i) → KernelSE3.value k gr wr f t = KernelSE3.value k gr wr f' t := by
    intro f f' t hf
    refine (KernelSE3.rows hr).2 f f' t fun i hi => hf i ?_
    have hi : i < [gr.shape.headD 3].sum := hi
    rw [KernelSE3.dim hr] at hi
    rw [hn0] at hi
    simpa using hi
  obtain ⟨_, w, e0, e1, e2, e3⟩ := KernelSE3.C51_SE3 s opt k gr wr hr hm weight inH Hc mi n hw hin hHs
  rw [hK] at e0
  cases e0
  obtain ⟨_, w', f0, f1, f2, f3⟩ := KernelE3.C51_E3 s opt1 opt2 k' gr' wr wf hr' (by rw [h.spatialMode, h.spatialPad]; exact hm) weight' (inH.map asO3) (Hc.map asO3) mi n
    (by rw [h.outC, h.inC, h.groups, h.kernelSize]; exact hw') hin hHs (fun _ _ _ _ => Or.inl ⟨by show O3.coef (asO3 _) * O3.coef (asO3 _) = 1; rw [coef_asO3, coef_asO3, one_mul], hn⟩)
  rw [hK'] at f0
  cases f0
  rw [h.outC, h.inC, h.groups, h.kernelSize] at f2 f3
  refine group_maps hmove hH hLL hMp hMp' hHc (by rw [hMK]; exact e1) (by rw [hMK']; exact f1) ⟨by rw [e2, f2], fun idx hidx => ?_⟩ bias input
  rw [e2] at hidx
  obtain ⟨co, idx, rfl, hco, hidx⟩ := InB_cons_left hidx
  obtain ⟨h, idx, rfl, hh, hidx⟩ := InB_cons_left hidx
  obtain ⟨ci, idx, rfl, hci, hidx⟩ := InB_cons_left hidx
  obtain ⟨i, idx, rfl, hi, hidx⟩ := InB_cons_left hidx
  obtain ⟨x, y, z, rfl, hx, hy, hz⟩ := InB_three hidx
  rw [e3 co h ci i x y z hco hh hci hi hx hy hz, f3 co h ci i x y z hco hh hci hi hx hy hz]
  rw [show (Hc.map asO3).get [h] = asO3 (Hc.get [h]) from rfl, show (inH.map asO3).get [i] = asO3 (inH.get [i]) from rfl, relative3]
  simp only [hv]
  rw [coef_asO3, rot_asO3, hmask, one_smul, div_one]
  congr 2
  funext r
  exact hl _ _ _ fun i hi => hww i hi _

/-- `GSeparableConvE3` between rotations computes what `GSeparableConvSE3` computes with the first of the stored group weights,
for all inputs, errors included, and as many output as input rotations. -/
theorem C106_separable_3 (s : GridCache.Store (Tensor ℝ)) (opt opt1 opt2 : List SO3.Euler) {k : KernelArgs SO3.Mat3 ℕ} {k' : KernelArgs O3.Elt SizeArg} (h : SameArgs k k') (hmask : k'.mask = k.mask) (hgm : k'.groupMode = k.groupMode)
    (c : ConvOpts) {m p} (hm : SpatialModes k.spatialMode k.spatialPad m p) {gr : Tensor SO3.Mat3} {gr' : Tensor O3.Elt} (wr wf : ℝ)
    (hr : KernelSE3.Ready s opt k gr wr) (hr' : KernelE3.Ready s opt1 opt2 k' gr' wr wf) (hn : KernelE3.nRot k' ≠ 0)
    (hgrid : StartsWith asO3 (KernelE3.nRot k') gr gr')
    {M : Module SO3.Mat3 3} (hM : fullSE3 s opt k c = .ok M) {M' : Module O3.Elt 3} (hM' : fullE3 s opt1 opt2 k' c = .ok M')
    (weightH weightH' weight : Tensor ℝ) (hwH : weightH.shape = [gr.shape.headD 0, k.outC, k.inC / k.groups])
    (hwH' : weightH'.shape = [KernelE3.nRot k' + KernelE3.nRef k', k.outC, k.inC / k.groups])
    (hww : ∀ i < KernelE3.nRot k', ∀ r, weightH'.get (i :: r) = weightH.get (i :: r))
    (hw : weight.shape = [k.outC, 1, k.kernelSize, k.kernelSize, k.kernelSize])
    (n : ℕ) (inH : Tensor SO3.Mat3) (hin : inH.shape = [n]) (H : Tensor SO3.Mat3) (hH : H.shape = [n])
    (move : SO3.Mat3 → SO3.Mat3) (move' : O3.Elt → O3.Elt) (hmove : ∀ g, move' (asO3 g) = asO3 (move g)) (bias : Option (Tensor ℝ)) (input : Tensor ℝ) :
    Outcomes2 (SameMaps asO3) (M.separableSE move weightH weight bias input inH (some H))
      (M'.separableE move' weightH' weight bias input (inH.map asO3) (some (H.map asO3))) := by
  have hn0 : gr.shape.headD 0 = KernelE3.nRot k' := by rw [hgrid.1]; rfl
  obtain ⟨K, hK, hL, hMK, hMp⟩ := build_ok hM
  obtain ⟨K', hK', hL', hMK', hMp'⟩ := build_ok hM'
  rw [fullSE3_size hK] at hL
  rw [fullE3_size hK', h.kernelSize] at hL'
  obtain ⟨hLL, -⟩ := init_same (a := argsSE3 k c) (a' := argsE3 k' c)
    (by unfold argsE3 argsSE3 args3d argsNd; rw [h.inC, h.outC, h.kernelSize, h.groups]) hL hL'
  obtain ⟨Hc, hHc⟩ : ∃ Hc, Hc = if c.permute then H.map move else H := ⟨_, rfl⟩
  have hHs := moved_shape hH hHc
  have hv : ∀ (f : ℕ → ℝ) t, KernelE3.value k' gr' wr wf f (asO3 t) = KernelSE3.value k gr wr f t := by
    intro f t
    unfold KernelE3.value KernelSE3.value
    rw [hgm, value3 k.groupMode wr wf (KernelE3.nRot k') (KernelE3.nRef k') hn hgrid, hn0]
  have hl : ∀ (f f' : ℕ → ℝ) t, (∀ i < KernelE3.nRot k', f i = f' i) → KernelSE3.value k gr wr f t = KernelSE3.value k gr wr f' t := by
    intro f f' t hf
    refine (KernelSE3.rows hr).2 f f' t fun i hi => hf i ?_
    have hi : i < [gr.shape.headD 3].sum := hi
    rw [KernelSE3.dim hr] at hi
    rw [hn0] at hi
    simpa using hi
  obtain ⟨_, wH, w, e0, e1, e2, e3, e4, e5⟩ := KernelSE3.C52_SE3_partial s opt k gr wr hr hm weightH weight inH Hc n hwH hw hin hHs
  rw [hK] at e0
  cases e0
  obtain ⟨_, wH', w', f0, f1, f2, f3, f4, f5⟩ := KernelE3.C52_E3_partial s opt1 opt2 k' gr' wr wf hr' (by rw [h.spatialMode, h.spatialPad]; exact hm) weightH' weight (inH.map asO3) (Hc.map asO3) n
    (by rw [h.outC, h.inC, h.groups]; exact hwH') (by rw [h.outC, h.kernelSize]; exact hw) hin hHs (fun _ _ _ _ => Or.inl ⟨by show O3.coef (asO3 _) * O3.coef (asO3 _) = 1; rw [coef_asO3, coef_asO3, one_mul], hn⟩)
  rw [hK'] at f0
  cases f0
  rw [h.outC, h.inC, h.groups] at f2 f4
  rw [h.outC, h.kernelSize] at f3 f5
  refine separable_maps hmove hH hLL hMp hMp' hHc (by rw [hMK]; exact e1) (by rw [hMK']; exact f1) ⟨by rw [e2, f2], fun idx hidx => ?_⟩
    ⟨by rw [e3, f3], fun idx hidx => ?_⟩ bias input
  · rw [e2] at hidx
    obtain ⟨co, idx, rfl, hco, hidx⟩ := InB_cons_left hidx
    obtain ⟨h, idx, rfl, hh, hidx⟩ := InB_cons_left hidx
    obtain ⟨ci, idx, rfl, hci, hidx⟩ := InB_cons_left hidx
    obtain ⟨i, idx, rfl, hi, hidx⟩ := InB_cons_left hidx
    obtain ⟨x, y, z, rfl, hx, hy, hz⟩ := InB_three hidx
    cases Nat.lt_one_iff.1 hx
    cases Nat.lt_one_iff.1 hy
    cases Nat.lt_one_iff.1 hz
    rw [e4 co h ci i hco hh hci hi, f4 co h ci i hco hh hci hi]
    rw [show (Hc.map asO3).get [h] = asO3 (Hc.get [h]) from rfl, show (inH.map asO3).get [i] = asO3 (inH.get [i]) from rfl, relative3, hv]
    exact hl _ _ _ fun i hi => hww i hi _
  · rw [e3] at hidx
    obtain ⟨co, idx, rfl, hco, hidx⟩ := InB_cons_left hidx
    obtain ⟨h, idx, rfl, hh, hidx⟩ := InB_cons_left hidx
    obtain ⟨z0, idx, rfl, hz0, hidx⟩ := InB_cons_left hidx
    obtain ⟨x, y, z, rfl, hx, hy, hz⟩ := InB_three hidx
    cases Nat.lt_one_iff.1 hz0
    rw [e5 co h x y z hco hh hx hy hz, f5 co h x y z hco hh hx hy hz]
    rw [show (Hc.map asO3).get [h] = asO3 (Hc.get [h]) from rfl]
    rw [coef_asO3, rot_asO3, hmask, one_smul, div_one]

/-! ## The hypotheses hold for the default grids, for the modules' random moves, and for a concrete layer -/
namespace Rotations

/-- default grids of SE(2) and E(2). -/
theorem starts2 (k : KernelArgs ℝ ℕ) (k' : KernelArgs O2.Elt SizeArg) (h : k.gridH = none) (h' : k'.gridH = none)
    (hn : KernelE2.nRot k' = k.groupKernelSize) : StartsWith asO2 (KernelE2.nRot k') (KernelSE2.grid k) (KernelE2.grid k') := by
  unfold KernelE2.nRot at hn ⊢
  unfold KernelSE2.grid KernelE2.grid
  rw [h, h', Option.getD_none, Option.getD_none, hn]
  have l1 : (SO2.uniformGrid k.groupKernelSize).length = k.groupKernelSize := SO2.C03_length _
  have l2 : (SO2.uniformGrid (sizePair k'.groupKernelSize).2).length = (sizePair k'.groupKernelSize).2 := SO2.C03_length _
  refine ⟨by show [_] = _; rw [l1], ⟨_, rfl, ?_⟩, fun i hi => ?_⟩
  · unfold O2.uniformGrid
    dsimp only
    rw [List.length_zip, List.length_append, List.length_append, List.length_replicate, List.length_replicate, l1, l2]
    omega
  · unfold Tensor.ofList O2.uniformGrid asO2
    dsimp only
    rw [List.headD_cons, RBFCert.getD_lt (by rw [List.length_zip, List.length_append, List.length_append,
      List.length_replicate, List.length_replicate, l1, l2]; omega), List.getElem_zip, List.getElem_append_left (by rw [List.length_replicate]; exact hi),
      List.getElem_append_left (by rw [l1]; exact hi), List.getElem_replicate, RBFCert.getD_lt (by rw [l1]; exact hi)]

/-- the shipped grids of SE(3) and E(3). -/
theorem starts3 (opt opt1 opt2 : List SO3.Euler) (k : KernelArgs SO3.Mat3 ℕ) (k' : KernelArgs O3.Elt SizeArg) (h : k.gridH = none) (h' : k'.gridH = none)
    {n m : ℕ} (hs : k.groupKernelSize = n) (hs' : sizePair k'.groupKernelSize = (n, m)) (h1 : 2 ≤ n) (h2 : n ≤ 24) (h3 : 2 ≤ m) (h4 : m ≤ 24) :
    ∃ gr gr', KernelSE3.grid SO3.initialStore opt k = .ok gr ∧ KernelE3.grid SO3.initialStore opt1 opt2 k' = .ok gr' ∧ StartsWith asO3 n gr gr' := by
  have ln := RBFCert.grid_length n h1 h2
  obtain ⟨gr', e1, e2, e3, -⟩ := KernelE3.default_grid opt1 opt2 k' h' hs' h1 h2 h3 h4
  refine ⟨⟨[(RBFCert.grid n).length], fun idx => (RBFCert.grid n).getD (idx.headD 0) 0⟩, gr', ?_, e1, by show [_] = _; rw [ln],
    ⟨_, e2, by omega⟩, fun i hi => ?_⟩
  · unfold KernelSE3.grid
    rw [h]
    dsimp only
    rw [hs, RBFCert.loaded _ h1 h2, ok_bind, RBFCert.foldMat_grid]
  · rw [e3 i (by omega)]
    unfold asO3
    dsimp only
    rw [List.headD_cons]
    rw [RBFCert.getD_lt (by omega)]

/-- a drawn rotation moves rotations in E(2) as in SE(2). -/
theorem move2 (u v : ℝ) (hv : v > 0.5) (t : ℝ) : moveE2 u v (asO2 t) = asO2 (moveSE2 u t) := by
  unfold moveE2 moveSE2 O2.randomGrid SO2.randomGrid O2.leftApplyAngle asO2 SO2.leftApplyAngle
  simp [hv]
  norm_num

/-- a drawn rotation moves rotations in E(3) as in SE(3). -/
theorem move3 (q : SO3.Quat) (v : ℝ) (hv : v > 0.5) (R : SO3.Mat3) : moveE3 q v (asO3 R) = asO3 (moveSE3 q R) := by
  have : (O3.randomGrid [q] [v]).headD (fun _ => 0) = asO3 ((SO3.randomMatrix [q]).headD 1) := by
    unfold O3.randomGrid SO3.randomMatrix asO3 SO3.randomQuat
    simp [hv]
    norm_num
  unfold moveE3 moveSE3
  rw [this]
  unfold O3.leftApplyO3
  dsimp only
  rw [coef_asO3, coef_asO3, rot_asO3, rot_asO3, one_mul]
  rfl

theorem exArgs_same (n : ℕ) : SameArgs (KernelSE2.exArgs n) (KernelE2.exArgs n) := ⟨rfl, rfl, rfl, rfl, rfl, rfl⟩

/-- strides 2, dilation 2, no padding, random moves. -/
def exOpts : ConvOpts := { stride := 2, dilation := 2, padding := .str "valid" }

/-- `GConvSE2` and `GConvE2` with kernel extent 5 and the default grids of `n` rotations (and `n` reflections): the weights of the
first are the first `n` weights of the second. Drawn rotations, a batch of 16 x 17 images. -/
example (n : ℕ) (hn : 0 < n) (u v : ℝ) (hv : v > 0.5) (weight : Tensor ℝ) (hw : weight.shape = [n + n, 6, 2, 5, 5])
    (input inH : Tensor ℝ) (hx : input.shape = [3, 4, n, 16, 17]) (hin : inH.shape = [n]) :
    ∃ M M' out out' H, fullSE2 (KernelSE2.exArgs n) exOpts = .ok M ∧ fullE2 (KernelE2.exArgs n) exOpts = .ok M' ∧
      M.groupSE (moveSE2 u) ⟨[n, 6, 2, 5, 5], weight.get⟩ none input inH (some inH) = .ok (out, H) ∧
      M'.groupE (moveE2 u v) weight none input (inH.map asO2) (some (inH.map asO2)) = .ok (out', H.map asO2) ∧
      SameEntries out out' := by
  have ha : Accepted (argsSE2 (KernelSE2.exArgs n) exOpts) := by
    refine ⟨fun l h => (by cases h), (by decide : (0 : ℤ) < 2), (by decide : (2 : ℤ) ∣ (4 : ℕ)), (by decide : (2 : ℤ) ∣ (6 : ℕ)),
      fun s h => ?_, Or.inl rfl, Or.inl rfl⟩
    cases h
    exact Or.inl rfl
  have ha' : Accepted (argsE2 (KernelE2.exArgs n) exOpts) := by
    refine ⟨fun l h => (by cases h), (by decide : (0 : ℤ) < 2), (by decide : (2 : ℤ) ∣ (4 : ℕ)), (by decide : (2 : ℤ) ∣ (6 : ℕ)),
      fun s h => ?_, Or.inl rfl, Or.inl rfl⟩
    cases h
    exact Or.inl rfl
  obtain ⟨L, hL⟩ := (C58_accepts _ _ _ [5, 5] rfl rfl).2 ha
  obtain ⟨L', hL'⟩ := (C58_accepts _ _ _ [5, 5] rfl rfl).2 ha'
  have hM : ∃ M : Module ℝ 2, fullSE2 (KernelSE2.exArgs n) exOpts = .ok M := by
    unfold fullSE2 build
    rw [KernelSE2.full_eq (KernelSE2.exReady n hn), ok_bind]
    have : ∀ s, (KernelSE2.base (KernelSE2.exArgs n) s).kernelSize = [5, 5] := fun _ => rfl
    rw [this, hL, ok_bind]
    exact ⟨_, rfl⟩
  have hM' : ∃ M : Module O2.Elt 2, fullE2 (KernelE2.exArgs n) exOpts = .ok M := by
    unfold fullE2 build
    rw [KernelE2.full_eq (KernelE2.exReady n hn), ok_bind]
    have : ∀ s, (KernelE2.base (KernelE2.exArgs n) s).kernelSize = [5, 5] := fun _ => rfl
    rw [this, hL', ok_bind]
    exact ⟨_, rfl⟩
  obtain ⟨M, hM⟩ := hM
  obtain ⟨M', hM'⟩ := hM'
  have hgeo : HasGeometry (argsSE2 (KernelSE2.exArgs n) exOpts) .zeros [⟨5, 2, 2, 0, 0⟩, ⟨5, 2, 2, 0, 0⟩] :=
    ⟨Or.inl ⟨rfl, rfl⟩, rfl, rfl, rfl, by
      refine Or.inr ⟨rfl, fun a ha => ?_⟩
      rcases List.mem_pair.1 ha with rfl | rfl <;> exact ⟨rfl, rfl⟩, Or.inl ⟨rfl, rfl⟩⟩
  have hok : ∀ (s : ℕ), 9 ≤ s → (⟨5, 2, 2, 0, 0⟩ : Axis).Ok .zeros s := fun s h2 =>
    ⟨by norm_num, by norm_num, by norm_num, by unfold Axis.span; simp only; omega, by simp [F.padAllowed]⟩
  have hg : (KernelSE2.grid (KernelSE2.exArgs n)).shape.headD 0 = n := SO2.C03_length n
  have hb : BiasShape none 6 2 := fun b hb => by cases hb
  obtain ⟨_, out, e1, -⟩ := C61_SE2 (KernelSE2.exArgs n) exOpts defaultModes 1 (KernelSE2.exReady n hn) hM hgeo
    (S := [16, 17]) (List.Forall₂.cons (hok 16 (by norm_num)) (List.Forall₂.cons (hok 17 (by norm_num)) .nil))
    ⟨[n, 6, 2, 5, 5], weight.get⟩ (by rw [hg]; simp [KernelSE2.exArgs]) none hb 3 n n input hx inH hin (some inH) hin (moveSE2 u) _ rfl
  have hR : KernelE2.nRot (KernelE2.exArgs n) = n := rfl
  have h := C106_group_2 (exArgs_same n) rfl rfl exOpts defaultModes 1 1 (KernelSE2.exReady n hn) (KernelE2.exReady n hn)
    (by rw [hR]; omega) (starts2 _ _ rfl rfl rfl) hM hM' ⟨[n, 6, 2, 5, 5], weight.get⟩ weight (by rw [hg]; simp [KernelSE2.exArgs]) (hw.trans (by simp [KernelSE2.exArgs, KernelE2.nRot, KernelE2.nRef, KernelE2.exArgs, sizePair])) (fun _ _ _ => rfl)
    n n inH hin inH hin (moveSE2 u) (moveE2 u v) (move2 u v hv) none input
  rw [e1] at h
  revert h
  generalize hq : M'.groupE _ _ _ _ _ _ = q
  intro h
  cases h with
  | @ok _ y h => exact ⟨M, M', out, y.1, _, hM, hM', e1, by rw [hq, ← h.2], h.1⟩

end Rotations

end GConv

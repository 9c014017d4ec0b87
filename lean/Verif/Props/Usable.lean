import Verif.Spec.Usable
import Verif.Props.DefaultSampling
import Verif.Props.DefaultGrids
import Verif.Props.Separable
import Verif.Props.Random

/-! # C107: premade layers with default grids can be built and called -/
namespace GConv.Conv

open Tensor Spec

theorem Fits_accepted_2d {inC outC k groups : ℕ} {gks : GroupSize} {c : ConvOpts} {mode : F.CPad} {ax : List Axis} {S : List ℕ}
    (h : Fits 2 inC outC groups k c mode ax S) (hg : ∀ l, gks = .tuple l → (∀ i ∈ l, 0 ≤ i) ∧ 0 < l.sum) :
    ∃ L, init (args2d inC outC k gks groups c.stride c.padding c.dilation c.paddingMode) [k, k] = .ok L := by
  refine (C58_accepts _ [c.stride, c.stride] [c.dilation, c.dilation] [k, k] rfl rfl).2 ?_
  obtain ⟨-, -, ⟨g1, g2, g3⟩, ⟨-, -, hp, hm⟩, hu, -⟩ := h
  refine ⟨hg, ?_, ?_, ?_, ?_, ?_, Or.inl rfl⟩
  · show (0 : ℤ) < groups
    exact_mod_cast g1
  · show (groups : ℤ) ∣ (inC : ℤ)
    exact_mod_cast g2
  · show (groups : ℤ) ∣ (outC : ℤ)
    exact_mod_cast g3
  · intro s hs
    have hs' : c.padding = .str s := hs
    rw [hs'] at hp
    rcases hp with ⟨rfl, -⟩ | ⟨rfl, -⟩
    · refine Or.inr ⟨rfl, fun l hl x hx => ?_⟩
      have := hu hs'
      cases hl
      have hx' : x ∈ [c.stride, c.stride] := hx
      simp only [List.mem_cons, List.not_mem_nil, or_false, or_self] at hx'
      omega
    · exact Or.inl rfl
  · rcases hm with ⟨h, -⟩ | ⟨h, -⟩ | ⟨h, -⟩ | ⟨h, -⟩
    · exact Or.inl h
    · exact Or.inr (Or.inl h)
    · exact Or.inr (Or.inr (Or.inl h))
    · exact Or.inr (Or.inr (Or.inr h))

theorem Fits_accepted_3d {inC outC k groups : ℕ} {gks : GroupSize} {c : ConvOpts} {mode : F.CPad} {ax : List Axis} {S : List ℕ}
    (h : Fits 3 inC outC groups k c mode ax S) (hg : ∀ l, gks = .tuple l → (∀ i ∈ l, 0 ≤ i) ∧ 0 < l.sum) :
    ∃ L, init (args3d inC outC k gks groups c.stride c.padding c.dilation c.paddingMode) [k, k, k] = .ok L := by
  refine (C58_accepts _ [c.stride, c.stride, c.stride] [c.dilation, c.dilation, c.dilation] [k, k, k] rfl rfl).2 ?_
  obtain ⟨-, -, ⟨g1, g2, g3⟩, ⟨-, -, hp, hm⟩, hu, -⟩ := h
  refine ⟨hg, ?_, ?_, ?_, ?_, ?_, Or.inr rfl⟩
  · show (0 : ℤ) < groups
    exact_mod_cast g1
  · show (groups : ℤ) ∣ (inC : ℤ)
    exact_mod_cast g2
  · show (groups : ℤ) ∣ (outC : ℤ)
    exact_mod_cast g3
  · intro s hs
    have hs' : c.padding = .str s := hs
    rw [hs'] at hp
    rcases hp with ⟨rfl, -⟩ | ⟨rfl, -⟩
    · refine Or.inr ⟨rfl, fun l hl x hx => ?_⟩
      have := hu hs'
      cases hl
      have hx' : x ∈ [c.stride, c.stride, c.stride] := hx
      simp only [List.mem_cons, List.not_mem_nil, or_false, or_self] at hx'
      omega
    · exact Or.inl rfl
  · rcases hm with ⟨h, -⟩ | ⟨h, -⟩ | ⟨h, -⟩ | ⟨h, -⟩
    · exact Or.inl h
    · exact Or.inr (Or.inl h)
    · exact Or.inr (Or.inr (Or.inl h))
    · exact Or.inr (Or.inr (Or.inr h))

theorem Fits_kernel {nd inC outC groups k : ℕ} {c : ConvOpts} {mode : F.CPad} {ax : List Axis} {S : List ℕ}
    (h : Fits nd inC outC groups k c mode ax S) (hn : 0 < nd) : 0 < k := by
  obtain ⟨-, -, -, ⟨h1, h2, -⟩, -, h3⟩ := h
  cases ax with
  | nil => simp at h1; omega
  | cons a l =>
    have := kernelDims_pos h3 a.k (by unfold kernelDims; exact List.mem_cons_self)
    rwa [(h2 a List.mem_cons_self).1] at this

theorem returned {G : Type} (permute : Bool) (move : G → G) (H : Tensor G) :
    Returned permute move H (if permute then H.map move else H) := by
  cases permute
  · exact ⟨rfl, fun _ => rfl⟩
  · exact ⟨rfl, fun _ => rfl⟩

/-- the size argument of the E(n) layers is accepted. -/
theorem sizeArg_ok {s : SizeArg} {n m : ℕ} (hs : sizePair s = (n, m)) (h : 0 < n + m) :
    ∀ l, sizeArg s = .tuple l → (∀ i ∈ l, 0 ≤ i) ∧ 0 < l.sum := by
  cases s with
  | int _ => intro l hl; cases hl
  | pair a b =>
    cases hs
    intro l hl
    cases hl
    constructor
    · intro i hi
      simp only [List.mem_cons, List.not_mem_nil, or_false] at hi
      rcases hi with rfl | rfl <;> exact Int.natCast_nonneg _
    · simp only [List.sum_cons, List.sum_nil, add_zero]
      exact_mod_cast h

/-! ## SE(2) -/

/-- `GLiftingConvSE2`. -/
theorem C107_lifting_SE2 (k : KernelArgs ℝ ℕ) (c : ConvOpts) {m p} (hm : SpatialModes k.spatialMode k.spatialPad m p)
    (hg : k.gridH = none) {mode : F.CPad} {ax : List Axis} {S : List ℕ}
    (hf : Fits 2 k.inC k.outC k.groups k.kernelSize c mode ax S) :
    ∃ M grid, liftingSE2 k c = .ok M ∧ grid.shape = [k.groupKernelSize] ∧
      (∀ i < k.groupKernelSize, grid.get [i] = 2 * Real.pi * i / k.groupKernelSize) ∧
      ∀ (weight : Tensor ℝ) (bias : Option (Tensor ℝ)) (N : ℕ) (input : Tensor ℝ) (H : Option (Tensor ℝ)) (n : ℕ) (u : ℝ),
        weight.shape = [k.outC, k.inC / k.groups, k.kernelSize, k.kernelSize] → BiasShape bias k.outC 2 →
        input.shape = N :: k.inC :: S → (H.getD grid).shape = [n] →
        ∃ out Hc, M.lift (moveSE2 u) weight bias input H = .ok (out, Hc) ∧ out.shape = N :: k.outC :: n :: outDims ax S ∧
          Returned c.permute (moveSE2 u) (H.getD grid) Hc := by
  obtain ⟨L, hL⟩ := Fits_accepted_2d hf (gks := .int k.groupKernelSize) (fun l h => by cases h)
  obtain ⟨K, hK⟩ : ∃ K, KernelSE2.lifting k = .ok K := by
    unfold KernelSE2.lifting
    exact ⟨_, if_neg (show ¬k.groups = 0 by have := hf.groups.1; omega)⟩
  have hM : liftingSE2 k c = .ok ⟨L, K, c.permute⟩ := by
    unfold liftingSE2 build
    rw [hK, ok_bind, liftingSE2_size hK]
    show (init _ _ >>= _) = _
    unfold argsSE2
    rw [hL]
    rfl
  have hgr : K.gridH = Tensor.ofList (SO2.uniformGrid k.groupKernelSize) := by
    rw [liftingSE2_grid hK]
    unfold KernelSE2.grid
    rw [hg]
    rfl
  refine ⟨⟨L, K, c.permute⟩, K.gridH, hM, ?_, ?_, ?_⟩
  · rw [hgr]
    show [(SO2.uniformGrid _).length] = _
    rw [SO2.C03_length]
  · intro i hi
    rw [hgr]
    show (SO2.uniformGrid k.groupKernelSize).getD i default = _
    rw [List.getD_eq_getElem?_getD, SO2.C03_value _ i hi]
    rfl
  · intro weight bias N input H n u hw hb hx hH
    obtain ⟨w, out, o1, o2, -⟩ := C60_SE2 k c hm hM ((C60_geometry_SE2 _ _ _ _).1.2 hf.geometry) hf.extents hf.input weight hw bias hb N
      input hx H n hH (moveSE2 u) _ rfl
    exact ⟨out, _, o1, o2, returned _ _ _⟩

/-- the group and separable layers of SE2 can be built. -/
theorem fullSE2_built (k : KernelArgs ℝ ℕ) (c : ConvOpts) (hg : k.gridH = none)
    (hmode : k.groupMode = "rbf" ∨ k.groupMode = "nearest") (hw : k.rotWidth = 0) (h1 : 1 ≤ k.groupKernelSize) (h2 : k.groupKernelSize ≤ 10 ^ 6) {mode : F.CPad} {ax : List Axis} {S : List ℕ}
    (hf : Fits 2 k.inC k.outC k.groups k.kernelSize c mode ax S) :
    ∃ M wd, fullSE2 k c = .ok M ∧ KernelSE2.Ready k wd ∧ (KernelSE2.grid k).shape.headD 0 = k.groupKernelSize := by
  obtain ⟨wd, hr, hsh, -⟩ := KernelSE2.default_ready k hg hmode hw h1 h2 hf.groups.1 (Fits_kernel hf (by norm_num))
  obtain ⟨L, hL⟩ := Fits_accepted_2d hf (gks := .int k.groupKernelSize) (fun l h => by cases h)
  obtain ⟨M, hM⟩ : ∃ M, fullSE2 k c = .ok M := by
    unfold fullSE2 build
    rw [KernelSE2.full_eq hr, ok_bind]
    show ∃ M, (init (argsSE2 k c) [k.kernelSize, k.kernelSize] >>= _) = _
    unfold argsSE2
    rw [hL, ok_bind]
    exact ⟨_, rfl⟩
  exact ⟨M, wd, hM, hr, by rw [hsh]; rfl⟩

/-- `GConvSE2`. -/
theorem C107_group_SE2 (k : KernelArgs ℝ ℕ) (c : ConvOpts) {m p} (hm : SpatialModes k.spatialMode k.spatialPad m p)
    (hg : k.gridH = none) (hmode : k.groupMode = "rbf" ∨ k.groupMode = "nearest") (hw : k.rotWidth = 0)
    (h1 : 1 ≤ k.groupKernelSize) (h2 : k.groupKernelSize ≤ 10 ^ 6) {mode : F.CPad} {ax : List Axis} {S : List ℕ}
    (hf : Fits 2 k.inC k.outC k.groups k.kernelSize c mode ax S) :
    ∃ M, fullSE2 k c = .ok M ∧
      ∀ (weight : Tensor ℝ) (bias : Option (Tensor ℝ)) (N mi n : ℕ) (input : Tensor ℝ) (inH : Tensor ℝ) (H : Option (Tensor ℝ)) (u : ℝ),
        weight.shape = [k.groupKernelSize, k.outC, k.inC / k.groups, k.kernelSize, k.kernelSize] → BiasShape bias k.outC 2 →
        input.shape = N :: k.inC :: mi :: S → inH.shape = [mi] → (H.getD inH).shape = [n] →
        ∃ out Hc, M.groupSE (moveSE2 u) weight bias input inH H = .ok (out, Hc) ∧ out.shape = N :: k.outC :: n :: outDims ax S ∧
          Returned c.permute (moveSE2 u) (H.getD inH) Hc := by
  obtain ⟨M, wd, hM, hr, hd⟩ := fullSE2_built k c hg hmode hw h1 h2 hf
  refine ⟨M, hM, fun weight bias N mi n input inH H u hw hb hx hin hH => ?_⟩
  obtain ⟨w, out, o1, o2, -⟩ := C61_SE2 k c hm wd hr hM ((C60_geometry_SE2 _ _ _ _).1.2 hf.geometry) hf.extents weight
    (by rw [hd]; exact hw) bias hb N mi n input hx inH hin H hH (moveSE2 u) _ rfl
  exact ⟨out, _, o1, o2, returned _ _ _⟩

/-- `GSeparableConvSE2` with strides 1 and no padding or zero padding `'same'`, as many output as input group elements. -/
theorem C107_separable_SE2 (k : KernelArgs ℝ ℕ) (c : ConvOpts) {m p} (hm : SpatialModes k.spatialMode k.spatialPad m p)
    (hg : k.gridH = none) (hmode : k.groupMode = "rbf" ∨ k.groupMode = "nearest") (hw : k.rotWidth = 0)
    (h1 : 1 ≤ k.groupKernelSize) (h2 : k.groupKernelSize ≤ 10 ^ 6) {mode : F.CPad} {ax : List Axis} {S : List ℕ}
    (hf : Fits 2 k.inC k.outC k.groups k.kernelSize c mode ax S) (ho : AppliedOnce mode c.padding ax) :
    ∃ M, fullSE2 k c = .ok M ∧
      ∀ (weightH weight : Tensor ℝ) (bias : Option (Tensor ℝ)) (N n : ℕ) (input : Tensor ℝ) (inH : Tensor ℝ) (H : Option (Tensor ℝ)) (u : ℝ),
        weightH.shape = [k.groupKernelSize, k.outC, k.inC / k.groups] → weight.shape = [k.outC, 1, k.kernelSize, k.kernelSize] → BiasShape bias k.outC 2 →
        0 < n → input.shape = N :: k.inC :: n :: S → inH.shape = [n] → (H.getD inH).shape = [n] →
        ∃ out Hc, M.separableSE (moveSE2 u) weightH weight bias input inH H = .ok (out, Hc) ∧ out.shape = N :: k.outC :: n :: outDims ax S ∧
          Returned c.permute (moveSE2 u) (H.getD inH) Hc := by
  obtain ⟨M, wd, hM, hr, hd⟩ := fullSE2_built k c hg hmode hw h1 h2 hf
  refine ⟨M, hM, fun weightH weight bias N n input inH H u hwH hw hb hn hx hin hH => ?_⟩
  obtain ⟨wH, w, out, o1, o2, -⟩ := C62_SE2_partial k c hm wd hr hM ((C60_geometry_SE2 _ _ _ _).1.2 hf.geometry) hf.extents ho
    hf.output weightH weight (by rw [hd]; exact hwH) hw bias hb N n hn input hx inH hin H hH (moveSE2 u) _ rfl
  exact ⟨out, _, o1, o2, returned _ _ _⟩

/-! ## SE(3) -/

/-- `GLiftingConvSE3`. -/
theorem C107_lifting_SE3 (opt : List SO3.Euler) (k : KernelArgs SO3.Mat3 ℕ) (c : ConvOpts) {m p} (hm : SpatialModes k.spatialMode k.spatialPad m p)
    (hg : k.gridH = none) (h1 : 2 ≤ k.groupKernelSize) (h2 : k.groupKernelSize ≤ 24) {mode : F.CPad} {ax : List Axis} {S : List ℕ}
    (hf : Fits 3 k.inC k.outC k.groups k.kernelSize c mode ax S) :
    ∃ M grid, liftingSE3 SO3.initialStore opt k c = .ok M ∧ grid.shape = [k.groupKernelSize] ∧
      KernelSE3.grid SO3.initialStore opt k = .ok grid ∧
      ∀ (weight : Tensor ℝ) (bias : Option (Tensor ℝ)) (N : ℕ) (input : Tensor ℝ) (H : Option (Tensor SO3.Mat3)) (n : ℕ) (q : SO3.Quat),
        weight.shape = [k.outC, k.inC / k.groups, k.kernelSize, k.kernelSize, k.kernelSize] → BiasShape bias k.outC 3 →
        input.shape = N :: k.inC :: S → (H.getD grid).shape = [n] →
        ∃ out Hc, M.lift (moveSE3 q) weight bias input H = .ok (out, Hc) ∧ out.shape = N :: k.outC :: n :: outDims ax S ∧
          Returned c.permute (moveSE3 q) (H.getD grid) Hc := by
  obtain ⟨L, hL⟩ := Fits_accepted_3d hf (gks := .int k.groupKernelSize) (fun l h => by cases h)
  have hgr : KernelSE3.grid SO3.initialStore opt k = .ok ⟨[(RBFCert.grid k.groupKernelSize).length], fun idx => (RBFCert.grid k.groupKernelSize).getD (idx.headD 0) 0⟩ := by
    unfold KernelSE3.grid
    rw [hg]
    dsimp only
    rw [RBFCert.loaded _ h1 h2, ok_bind, RBFCert.foldMat_grid]
  obtain ⟨K, hK⟩ : ∃ K, KernelSE3.lifting SO3.initialStore opt k = .ok K := by
    unfold KernelSE3.lifting
    rw [hgr, ok_bind]
    exact ⟨_, if_neg (show ¬k.groups = 0 by have := hf.groups.1; omega)⟩
  have e := Except.ok.inj (hgr.symm.trans (liftingSE3_grid hK))
  have hM : liftingSE3 SO3.initialStore opt k c = .ok ⟨L, K, c.permute⟩ := by
    unfold liftingSE3 build
    rw [hK, ok_bind, (liftingSE3_size hK).1]
    show (init _ _ >>= _) = _
    unfold argsSE3
    rw [hL]
    rfl
  refine ⟨⟨L, K, c.permute⟩, K.gridH, hM, ?_, ?_, ?_⟩
  · rw [← e]
    show [_] = _
    rw [RBFCert.grid_length _ h1 h2]
  · rw [hgr, e]
  · intro weight bias N input H n q hw hb hx hH
    obtain ⟨w, out, o1, o2, -⟩ := C60_SE3 SO3.initialStore opt k c hm hM ((C60_geometry_SE3 _ _ _ _).1.2 hf.geometry) hf.extents hf.input weight hw bias hb N
      input hx H n hH (moveSE3 q) _ rfl
    exact ⟨out, _, o1, o2, returned _ _ _⟩

/-- the group and separable layers of SE3 can be built. -/
theorem fullSE3_built (opt : List SO3.Euler) (k : KernelArgs SO3.Mat3 ℕ) (c : ConvOpts) (hg : k.gridH = none)
    (hmode : k.groupMode = "rbf" ∨ k.groupMode = "nearest") (hw : k.rotWidth = 0) (h1 : 2 ≤ k.groupKernelSize) (h2 : k.groupKernelSize ≤ 24) {mode : F.CPad} {ax : List Axis} {S : List ℕ}
    (hf : Fits 3 k.inC k.outC k.groups k.kernelSize c mode ax S) :
    ∃ M gr wd, fullSE3 SO3.initialStore opt k c = .ok M ∧ KernelSE3.Ready SO3.initialStore opt k gr wd ∧ gr.shape.headD 0 = k.groupKernelSize := by
  obtain ⟨gr, wd, hr, hsh, -⟩ := KernelSE3.default_ready opt k hg hmode hw h1 h2 hf.groups.1 (Fits_kernel hf (by norm_num))
  obtain ⟨L, hL⟩ := Fits_accepted_3d hf (gks := .int k.groupKernelSize) (fun l h => by cases h)
  obtain ⟨M, hM⟩ : ∃ M, fullSE3 SO3.initialStore opt k c = .ok M := by
    unfold fullSE3 build
    rw [KernelSE3.full_eq hr, ok_bind]
    show ∃ M, (init (argsSE3 k c) [k.kernelSize, k.kernelSize, k.kernelSize] >>= _) = _
    unfold argsSE3
    rw [hL, ok_bind]
    exact ⟨_, rfl⟩
  exact ⟨M, gr, wd, hM, hr, by rw [hsh]; rfl⟩

/-- `GConvSE3`. -/
theorem C107_group_SE3 (opt : List SO3.Euler) (k : KernelArgs SO3.Mat3 ℕ) (c : ConvOpts) {m p} (hm : SpatialModes k.spatialMode k.spatialPad m p)
    (hg : k.gridH = none) (hmode : k.groupMode = "rbf" ∨ k.groupMode = "nearest") (hw : k.rotWidth = 0)
    (h1 : 2 ≤ k.groupKernelSize) (h2 : k.groupKernelSize ≤ 24) {mode : F.CPad} {ax : List Axis} {S : List ℕ}
    (hf : Fits 3 k.inC k.outC k.groups k.kernelSize c mode ax S) :
    ∃ M, fullSE3 SO3.initialStore opt k c = .ok M ∧
      ∀ (weight : Tensor ℝ) (bias : Option (Tensor ℝ)) (N mi n : ℕ) (input : Tensor ℝ) (inH : Tensor SO3.Mat3) (H : Option (Tensor SO3.Mat3)) (q : SO3.Quat),
        weight.shape = [k.groupKernelSize, k.outC, k.inC / k.groups, k.kernelSize, k.kernelSize, k.kernelSize] → BiasShape bias k.outC 3 →
        input.shape = N :: k.inC :: mi :: S → inH.shape = [mi] → (H.getD inH).shape = [n] →
        ∃ out Hc, M.groupSE (moveSE3 q) weight bias input inH H = .ok (out, Hc) ∧ out.shape = N :: k.outC :: n :: outDims ax S ∧
          Returned c.permute (moveSE3 q) (H.getD inH) Hc := by
  obtain ⟨M, gr, wd, hM, hr, hd⟩ := fullSE3_built opt k c hg hmode hw h1 h2 hf
  refine ⟨M, hM, fun weight bias N mi n input inH H q hw hb hx hin hH => ?_⟩
  obtain ⟨w, out, o1, o2, -⟩ := C61_SE3 SO3.initialStore opt k c hm gr wd hr hM ((C60_geometry_SE3 _ _ _ _).1.2 hf.geometry) hf.extents weight
    (by rw [hd]; exact hw) bias hb N mi n input hx inH hin H hH (moveSE3 q) _ rfl
  exact ⟨out, _, o1, o2, returned _ _ _⟩

/-- `GSeparableConvSE3` with strides 1 and no padding or zero padding `'same'`, as many output as input group elements. -/
theorem C107_separable_SE3 (opt : List SO3.Euler) (k : KernelArgs SO3.Mat3 ℕ) (c : ConvOpts) {m p} (hm : SpatialModes k.spatialMode k.spatialPad m p)
    (hg : k.gridH = none) (hmode : k.groupMode = "rbf" ∨ k.groupMode = "nearest") (hw : k.rotWidth = 0)
    (h1 : 2 ≤ k.groupKernelSize) (h2 : k.groupKernelSize ≤ 24) {mode : F.CPad} {ax : List Axis} {S : List ℕ}
    (hf : Fits 3 k.inC k.outC k.groups k.kernelSize c mode ax S) (ho : AppliedOnce mode c.padding ax) :
    ∃ M, fullSE3 SO3.initialStore opt k c = .ok M ∧
      ∀ (weightH weight : Tensor ℝ) (bias : Option (Tensor ℝ)) (N n : ℕ) (input : Tensor ℝ) (inH : Tensor SO3.Mat3) (H : Option (Tensor SO3.Mat3)) (q : SO3.Quat),
        weightH.shape = [k.groupKernelSize, k.outC, k.inC / k.groups] → weight.shape = [k.outC, 1, k.kernelSize, k.kernelSize, k.kernelSize] → BiasShape bias k.outC 3 →
        0 < n → input.shape = N :: k.inC :: n :: S → inH.shape = [n] → (H.getD inH).shape = [n] →
        ∃ out Hc, M.separableSE (moveSE3 q) weightH weight bias input inH H = .ok (out, Hc) ∧ out.shape = N :: k.outC :: n :: outDims ax S ∧
          Returned c.permute (moveSE3 q) (H.getD inH) Hc := by
  obtain ⟨M, gr, wd, hM, hr, hd⟩ := fullSE3_built opt k c hg hmode hw h1 h2 hf
  refine ⟨M, hM, fun weightH weight bias N n input inH H q hwH hw hb hn hx hin hH => ?_⟩
  obtain ⟨wH, w, out, o1, o2, -⟩ := C62_SE3_partial SO3.initialStore opt k c hm gr wd hr hM ((C60_geometry_SE3 _ _ _ _).1.2 hf.geometry) hf.extents ho
    hf.output weightH weight (by rw [hd]; exact hwH) hw bias hb N n hn input hx inH hin H hH (moveSE3 q) _ rfl
  exact ⟨out, _, o1, o2, returned _ _ _⟩


/-! ## E(2), E(3)

The elements of the grids have coefficient 1 (rotations) or -1 (reflections); the theorems ask for that of the grids the user passes. -/

theorem sign_cases (v : ℝ) : O2.sign v = 1 ∨ O2.sign v = -1 := by
  unfold O2.sign
  split
  · left; norm_num
  · right; norm_num

/-- a drawn element turns coefficients 1, -1 into coefficients 1, -1. -/
theorem moveE2_coef (u v : ℝ) (h : O2.Elt) (hh : h.1 = 1 ∨ h.1 = -1) : (moveE2 u v h).1 = 1 ∨ (moveE2 u v h).1 = -1 := by
  show O2.sign v * h.1 = 1 ∨ O2.sign v * h.1 = -1
  rcases sign_cases v with e | e <;> rcases hh with e' | e' <;> rw [e, e'] <;> norm_num

theorem moveE3_coef (q : SO3.Quat) (v : ℝ) (h : O3.Elt) (hh : O3.coef h = 1 ∨ O3.coef h = -1) :
    O3.coef (moveE3 q v h) = 1 ∨ O3.coef (moveE3 q v h) = -1 := by
  rw [moveE3_eq, (O3.C33_product _ _).1, O3.coef_mk]
  rcases sign_cases v with e | e <;> rcases hh with e' | e' <;> rw [e, e'] <;> norm_num

/-- the uniform grid: `nr` rotations, then `nf` reflections. -/
theorem gridE2_facts (k : KernelArgs O2.Elt SizeArg) (hg : k.gridH = none) {nr nf : ℕ} (hs : sizePair k.groupKernelSize = (nr, nf)) :
    (KernelE2.grid k).shape = [nr + nf] ∧ (∀ i < nr, (KernelE2.grid k).get [i] = (1, 2 * Real.pi * i / nr)) ∧
      ∀ i < nf, (KernelE2.grid k).get [nr + i] = (-1, 2 * Real.pi * i / nf) := by
  have e : KernelE2.grid k = Tensor.ofList (O2.uniformGrid nr nf) := by unfold KernelE2.grid; rw [hg, hs]; rfl
  rw [e]
  refine ⟨?_, fun i hi => ?_, fun i hi => ?_⟩
  · show [(O2.uniformGrid nr nf).length] = _
    simp [O2.uniformGrid, SO2.C03_length]
  · show (O2.uniformGrid nr nf).getD i default = _
    rw [List.getD_eq_getElem?_getD]
    have : (O2.uniformGrid nr nf)[i]? = some (1, 2 * Real.pi * i / nr) := by
      unfold O2.uniformGrid
      dsimp only
      rw [List.getElem?_zip_eq_some]
      constructor
      · rw [List.getElem?_append_left (by simpa using hi), List.getElem?_replicate, if_pos hi]
      · rw [List.getElem?_append_left (by rw [SO2.C03_length]; exact hi), SO2.C03_value nr i hi]
    rw [this]; rfl
  · show (O2.uniformGrid nr nf).getD (nr + i) default = _
    rw [List.getD_eq_getElem?_getD]
    have : (O2.uniformGrid nr nf)[nr + i]? = some (-1, 2 * Real.pi * i / nf) := by
      unfold O2.uniformGrid
      dsimp only
      rw [List.getElem?_zip_eq_some]
      constructor
      · rw [List.getElem?_append_right (by simp), List.length_replicate, Nat.add_sub_cancel_left, List.getElem?_replicate, if_pos hi]
      · rw [List.getElem?_append_right (by rw [SO2.C03_length]; omega), SO2.C03_length, Nat.add_sub_cancel_left, SO2.C03_value nf i hi]
    rw [this]; rfl

/-- `GLiftingConvE2`. -/
theorem C107_lifting_E2 (k : KernelArgs O2.Elt SizeArg) (c : ConvOpts) {m p} (hm : SpatialModes k.spatialMode k.spatialPad m p)
    (hg : k.gridH = none) {nr nf : ℕ} (hs : sizePair k.groupKernelSize = (nr, nf)) (h0 : 0 < nr + nf) {mode : F.CPad} {ax : List Axis} {S : List ℕ}
    (hf : Fits 2 k.inC k.outC k.groups k.kernelSize c mode ax S) :
    ∃ M grid, liftingE2 k c = .ok M ∧ grid.shape = [nr + nf] ∧
      (∀ i < nr, grid.get [i] = (1, 2 * Real.pi * i / nr)) ∧ (∀ i < nf, grid.get [nr + i] = (-1, 2 * Real.pi * i / nf)) ∧
      ∀ (weight : Tensor ℝ) (bias : Option (Tensor ℝ)) (N : ℕ) (input : Tensor ℝ) (H : Option (Tensor O2.Elt)) (n : ℕ) (u v : ℝ),
        weight.shape = [k.outC, k.inC / k.groups, k.kernelSize, k.kernelSize] → BiasShape bias k.outC 2 →
        input.shape = N :: k.inC :: S → (H.getD grid).shape = [n] →
        ∃ out Hc, M.lift (moveE2 u v) weight bias input H = .ok (out, Hc) ∧ out.shape = N :: k.outC :: n :: outDims ax S ∧
          Returned c.permute (moveE2 u v) (H.getD grid) Hc := by
  obtain ⟨L, hL⟩ := Fits_accepted_2d hf (gks := sizeArg k.groupKernelSize) (sizeArg_ok hs (by omega))
  obtain ⟨K, hK⟩ : ∃ K, KernelE2.lifting k = .ok K := by
    unfold KernelE2.lifting
    exact ⟨_, if_neg (show ¬k.groups = 0 by have := hf.groups.1; omega)⟩
  have hM : liftingE2 k c = .ok ⟨L, K, c.permute⟩ := by
    unfold liftingE2 build
    rw [hK, ok_bind, liftingE2_size hK]
    show (init _ _ >>= _) = _
    unfold argsE2
    rw [hL]
    rfl
  obtain ⟨e1, e2, e3⟩ := gridE2_facts k hg hs
  rw [← liftingE2_grid hK] at e1 e2 e3
  refine ⟨⟨L, K, c.permute⟩, K.gridH, hM, e1, e2, e3, ?_⟩
  intro weight bias N input H n u v hw hb hx hH
  obtain ⟨w, out, o1, o2, -⟩ := C60_E2 k c hm hM ((C60_geometry_E2 _ _ _ _).1.2 hf.geometry) hf.extents hf.input weight hw bias hb N
    input hx H n hH (moveE2 u v) _ rfl
  exact ⟨out, _, o1, o2, returned _ _ _⟩

/-- the group and separable layers of E2 can be built; their grids have coefficients 1 and -1. -/
theorem fullE2_built (k : KernelArgs O2.Elt SizeArg) (c : ConvOpts) (hg : k.gridH = none)
    (hmode : k.groupMode = "rbf" ∨ k.groupMode = "nearest") (hw : k.rotWidth = 0) (hw' : k.refWidth = 0) {nr nf : ℕ}
    (hs : sizePair k.groupKernelSize = (nr, nf)) (h1 : 1 ≤ nr) (h2 : nr ≤ 10 ^ 6) (h3 : 1 ≤ nf) (h4 : nf ≤ 10 ^ 6) {mode : F.CPad} {ax : List Axis} {S : List ℕ}
    (hf : Fits 2 k.inC k.outC k.groups k.kernelSize c mode ax S) :
    ∃ M wr wf, fullE2 k c = .ok M ∧ KernelE2.Ready k wr wf ∧ M.kernel.gridH.shape = [nr + nf] ∧
      ∀ i < nr + nf, ((M.kernel.gridH.get [i]).1 = 1 ∨ (M.kernel.gridH.get [i]).1 = -1) := by
  obtain ⟨wr, wf, hr, hsh, hc1, hc2, -, -⟩ := KernelE2.default_ready k hg hmode hw hw' hs h1 h2 h3 h4 hf.groups.1 (Fits_kernel hf (by norm_num))
  obtain ⟨L, hL⟩ := Fits_accepted_2d hf (gks := sizeArg k.groupKernelSize) (sizeArg_ok hs (by omega))
  obtain ⟨M, hM⟩ : ∃ M, fullE2 k c = .ok M := by
    unfold fullE2 build
    rw [KernelE2.full_eq hr, ok_bind]
    show ∃ M, (init (argsE2 k c) [k.kernelSize, k.kernelSize] >>= _) = _
    unfold argsE2
    rw [hL, ok_bind]
    exact ⟨_, rfl⟩
  have hG : M.kernel.gridH = (KernelE2.grid k) := by
    obtain ⟨K, hK, -, hMK, -⟩ := build_ok hM
    rw [hMK, fullE2_grid hK]
  refine ⟨M, wr, wf, hM, hr, by rw [hG]; exact hsh, fun i hi => ?_⟩
  rw [hG]
  by_cases hin : i < nr
  · exact Or.inl (hc1 i hin)
  · have := hc2 (i - nr) (by omega)
    rw [Nat.add_sub_cancel' (by omega)] at this
    exact Or.inr this

/-- the chosen grid, moved or not, has coefficients 1 and -1. -/
theorem chosenE2 {n : ℕ} {Z : Tensor O2.Elt} {c : ConvOpts} (u v : ℝ) (hZ : ∀ i < n, ((Z.get [i]).1 = 1 ∨ (Z.get [i]).1 = -1)) :
    ∀ i < n, (((if c.permute then Z.map (moveE2 u v) else Z).get [i]).1 = 1 ∨ ((if c.permute then Z.map (moveE2 u v) else Z).get [i]).1 = -1) := by
  intro i hi
  cases c.permute
  · exact hZ i hi
  · exact moveE2_coef u v _ (hZ i hi)

/-- `GConvE2`. -/
theorem C107_group_E2 (k : KernelArgs O2.Elt SizeArg) (c : ConvOpts) {m p} (hm : SpatialModes k.spatialMode k.spatialPad m p)
    (hg : k.gridH = none) (hmode : k.groupMode = "rbf" ∨ k.groupMode = "nearest") (hw : k.rotWidth = 0) (hw' : k.refWidth = 0) {nr nf : ℕ}
    (hs : sizePair k.groupKernelSize = (nr, nf)) (h1 : 1 ≤ nr) (h2 : nr ≤ 10 ^ 6) (h3 : 1 ≤ nf) (h4 : nf ≤ 10 ^ 6) {mode : F.CPad} {ax : List Axis} {S : List ℕ}
    (hf : Fits 2 k.inC k.outC k.groups k.kernelSize c mode ax S) :
    ∃ M grid, fullE2 k c = .ok M ∧ grid.shape = [nr + nf] ∧ (∀ i < nr + nf, ((grid.get [i]).1 = 1 ∨ (grid.get [i]).1 = -1)) ∧
      ∀ (weight : Tensor ℝ) (bias : Option (Tensor ℝ)) (N mi n : ℕ) (input : Tensor ℝ) (inH : Tensor O2.Elt) (H : Option (Tensor O2.Elt)) (u v : ℝ),
        weight.shape = [nr + nf, k.outC, k.inC / k.groups, k.kernelSize, k.kernelSize] → BiasShape bias k.outC 2 →
        input.shape = N :: k.inC :: mi :: S → inH.shape = [mi] → (∀ i < mi, ((inH.get [i]).1 = 1 ∨ (inH.get [i]).1 = -1)) →
        (H.getD grid).shape = [n] → (∀ G, H = some G → ∀ i < n, ((G.get [i]).1 = 1 ∨ (G.get [i]).1 = -1)) →
        ∃ out Hc, M.groupE (moveE2 u v) weight bias input inH H = .ok (out, Hc) ∧ out.shape = N :: k.outC :: n :: outDims ax S ∧
          Returned c.permute (moveE2 u v) (H.getD grid) Hc := by
  obtain ⟨M, wr, wf, hM, hr, hsh, hcg⟩ := fullE2_built k c hg hmode hw hw' hs h1 h2 h3 h4 hf
  refine ⟨M, M.kernel.gridH, hM, hsh, hcg, fun weight bias N mi n input inH H u v hwt hb hx hin hci hH hcH => ?_⟩
  have hn1 : KernelE2.nRot k = nr := by unfold KernelE2.nRot; rw [hs]
  have hn2 : KernelE2.nRef k = nf := by unfold KernelE2.nRef; rw [hs]
  have hZ : ∀ i < n, (((H.getD M.kernel.gridH).get [i]).1 = 1 ∨ ((H.getD M.kernel.gridH).get [i]).1 = -1) := by
    cases H with
    | none =>
      have : n = nr + nf := by
        have e : M.kernel.gridH.shape = [n] := hH
        rw [hsh] at e
        injection e with e _
        exact e.symm
      subst this
      exact hcg
    | some G => exact hcH G rfl
  obtain ⟨w, out, o1, o2, -⟩ := C61_E2 k c hm wr wf hr hM ((C60_geometry_E2 _ _ _ _).1.2 hf.geometry) hf.extents weight
    (by rw [hn1, hn2]; exact hwt) bias hb N mi n input hx inH hin H hH (moveE2 u v) _ rfl
    (fun h hh i hi => KernelE2.pair_of_valid k (by omega) (by omega) _ _ (chosenE2 (c := c) u v hZ h hh) (hci i hi))
  exact ⟨out, _, o1, o2, returned _ _ _⟩

/-- `GSeparableConvE2` with strides 1 and no padding or zero padding `'same'`, as many output as input group elements. -/
theorem C107_separable_E2 (k : KernelArgs O2.Elt SizeArg) (c : ConvOpts) {m p} (hm : SpatialModes k.spatialMode k.spatialPad m p)
    (hg : k.gridH = none) (hmode : k.groupMode = "rbf" ∨ k.groupMode = "nearest") (hw : k.rotWidth = 0) (hw' : k.refWidth = 0) {nr nf : ℕ}
    (hs : sizePair k.groupKernelSize = (nr, nf)) (h1 : 1 ≤ nr) (h2 : nr ≤ 10 ^ 6) (h3 : 1 ≤ nf) (h4 : nf ≤ 10 ^ 6) {mode : F.CPad} {ax : List Axis} {S : List ℕ}
    (hf : Fits 2 k.inC k.outC k.groups k.kernelSize c mode ax S) (ho : AppliedOnce mode c.padding ax) :
    ∃ M grid, fullE2 k c = .ok M ∧ grid.shape = [nr + nf] ∧ (∀ i < nr + nf, ((grid.get [i]).1 = 1 ∨ (grid.get [i]).1 = -1)) ∧
      ∀ (weightH weight : Tensor ℝ) (bias : Option (Tensor ℝ)) (N n : ℕ) (input : Tensor ℝ) (inH : Tensor O2.Elt) (H : Option (Tensor O2.Elt)) (u v : ℝ),
        weightH.shape = [nr + nf, k.outC, k.inC / k.groups] → weight.shape = [k.outC, 1, k.kernelSize, k.kernelSize] → BiasShape bias k.outC 2 →
        0 < n → input.shape = N :: k.inC :: n :: S → inH.shape = [n] → (∀ i < n, ((inH.get [i]).1 = 1 ∨ (inH.get [i]).1 = -1)) →
        (H.getD grid).shape = [n] → (∀ G, H = some G → ∀ i < n, ((G.get [i]).1 = 1 ∨ (G.get [i]).1 = -1)) →
        ∃ out Hc, M.separableE (moveE2 u v) weightH weight bias input inH H = .ok (out, Hc) ∧ out.shape = N :: k.outC :: n :: outDims ax S ∧
          Returned c.permute (moveE2 u v) (H.getD grid) Hc := by
  obtain ⟨M, wr, wf, hM, hr, hsh, hcg⟩ := fullE2_built k c hg hmode hw hw' hs h1 h2 h3 h4 hf
  refine ⟨M, M.kernel.gridH, hM, hsh, hcg, fun weightH weight bias N n input inH H u v hwH hwt hb hn hx hin hci hH hcH => ?_⟩
  have hn1 : KernelE2.nRot k = nr := by unfold KernelE2.nRot; rw [hs]
  have hn2 : KernelE2.nRef k = nf := by unfold KernelE2.nRef; rw [hs]
  have hZ : ∀ i < n, (((H.getD M.kernel.gridH).get [i]).1 = 1 ∨ ((H.getD M.kernel.gridH).get [i]).1 = -1) := by
    cases H with
    | none =>
      have : n = nr + nf := by
        have e : M.kernel.gridH.shape = [n] := hH
        rw [hsh] at e
        injection e with e _
        exact e.symm
      subst this
      exact hcg
    | some G => exact hcH G rfl
  obtain ⟨wH, w, out, o1, o2, -⟩ := C62_E2_partial k c hm wr wf hr hM ((C60_geometry_E2 _ _ _ _).1.2 hf.geometry) hf.extents ho
    hf.output weightH weight (by rw [hn1, hn2]; exact hwH) hwt bias hb N n hn input hx inH hin H hH (moveE2 u v) _ rfl
    (fun h hh i hi => KernelE2.pair_of_valid k (by omega) (by omega) _ _ (chosenE2 (c := c) u v hZ h hh) (hci i hi))
  exact ⟨out, _, o1, o2, returned _ _ _⟩

/-- `GLiftingConvE3`. -/
theorem C107_lifting_E3 (opt1 opt2 : List SO3.Euler) (k : KernelArgs O3.Elt SizeArg) (c : ConvOpts) {m p} (hm : SpatialModes k.spatialMode k.spatialPad m p)
    (hg : k.gridH = none) {nr nf : ℕ} (hs : sizePair k.groupKernelSize = (nr, nf)) (h1 : 2 ≤ nr) (h2 : nr ≤ 24) (h3 : 2 ≤ nf) (h4 : nf ≤ 24) {mode : F.CPad} {ax : List Axis} {S : List ℕ}
    (hf : Fits 3 k.inC k.outC k.groups k.kernelSize c mode ax S) :
    ∃ M grid, liftingE3 SO3.initialStore opt1 opt2 k c = .ok M ∧ grid.shape = [nr + nf] ∧
      KernelE3.grid SO3.initialStore opt1 opt2 k = .ok grid ∧
      ∀ (weight : Tensor ℝ) (bias : Option (Tensor ℝ)) (N : ℕ) (input : Tensor ℝ) (H : Option (Tensor O3.Elt)) (n : ℕ) (q : SO3.Quat) (v : ℝ),
        weight.shape = [k.outC, k.inC / k.groups, k.kernelSize, k.kernelSize, k.kernelSize] → BiasShape bias k.outC 3 →
        input.shape = N :: k.inC :: S → (H.getD grid).shape = [n] →
        ∃ out Hc, M.lift (moveE3 q v) weight bias input H = .ok (out, Hc) ∧ out.shape = N :: k.outC :: n :: outDims ax S ∧
          Returned c.permute (moveE3 q v) (H.getD grid) Hc := by
  obtain ⟨L, hL⟩ := Fits_accepted_3d hf (gks := sizeArg k.groupKernelSize) (sizeArg_ok hs (by omega))
  obtain ⟨gr, hgr, hsh, -⟩ := KernelE3.default_grid opt1 opt2 k hg hs h1 h2 h3 h4
  obtain ⟨K, hK⟩ : ∃ K, KernelE3.lifting SO3.initialStore opt1 opt2 k = .ok K := by
    unfold KernelE3.lifting
    rw [hgr, ok_bind]
    exact ⟨_, if_neg (show ¬k.groups = 0 by have := hf.groups.1; omega)⟩
  have e := Except.ok.inj (hgr.symm.trans (liftingE3_grid hK))
  have hM : liftingE3 SO3.initialStore opt1 opt2 k c = .ok ⟨L, K, c.permute⟩ := by
    unfold liftingE3 build
    rw [hK, ok_bind, (liftingE3_size hK).1]
    show (init _ _ >>= _) = _
    unfold argsE3
    rw [hL]
    rfl
  refine ⟨⟨L, K, c.permute⟩, K.gridH, hM, by rw [← e]; exact hsh, by rw [← e]; exact hgr, ?_⟩
  intro weight bias N input H n q v hw hb hx hH
  obtain ⟨w, out, o1, o2, -⟩ := C60_E3 SO3.initialStore opt1 opt2 k c hm hM ((C60_geometry_E3 _ _ _ _).1.2 hf.geometry) hf.extents hf.input weight hw bias hb N
    input hx H n hH (moveE3 q v) _ rfl
  exact ⟨out, _, o1, o2, returned _ _ _⟩

/-- the group and separable layers of E3 can be built; their grids have coefficients 1 and -1. -/
theorem fullE3_built (opt1 opt2 : List SO3.Euler) (k : KernelArgs O3.Elt SizeArg) (c : ConvOpts) (hg : k.gridH = none)
    (hmode : k.groupMode = "rbf" ∨ k.groupMode = "nearest") (hw : k.rotWidth = 0) (hw' : k.refWidth = 0) {nr nf : ℕ}
    (hs : sizePair k.groupKernelSize = (nr, nf)) (h1 : 2 ≤ nr) (h2 : nr ≤ 24) (h3 : 2 ≤ nf) (h4 : nf ≤ 24) {mode : F.CPad} {ax : List Axis} {S : List ℕ}
    (hf : Fits 3 k.inC k.outC k.groups k.kernelSize c mode ax S) :
    ∃ M gr wr wf, fullE3 SO3.initialStore opt1 opt2 k c = .ok M ∧ KernelE3.Ready SO3.initialStore opt1 opt2 k gr wr wf ∧ M.kernel.gridH.shape = [nr + nf] ∧
      ∀ i < nr + nf, (O3.coef (M.kernel.gridH.get [i]) = 1 ∨ O3.coef (M.kernel.gridH.get [i]) = -1) := by
  obtain ⟨gr, wr, wf, hr, hsh, hc1, hc2, -, -⟩ := KernelE3.default_ready opt1 opt2 k hg hmode hw hw' hs h1 h2 h3 h4 hf.groups.1 (Fits_kernel hf (by norm_num))
  obtain ⟨L, hL⟩ := Fits_accepted_3d hf (gks := sizeArg k.groupKernelSize) (sizeArg_ok hs (by omega))
  obtain ⟨M, hM⟩ : ∃ M, fullE3 SO3.initialStore opt1 opt2 k c = .ok M := by
    unfold fullE3 build
    rw [KernelE3.full_eq hr, ok_bind]
    show ∃ M, (init (argsE3 k c) [k.kernelSize, k.kernelSize, k.kernelSize] >>= _) = _
    unfold argsE3
    rw [hL, ok_bind]
    exact ⟨_, rfl⟩
  have hG : M.kernel.gridH = gr := by
    obtain ⟨K, hK, -, hMK, -⟩ := build_ok hM
    have e := Except.ok.inj (hr.grid.symm.trans (fullE3_grid hK))
    rw [hMK, ← e]
  refine ⟨M, gr, wr, wf, hM, hr, by rw [hG]; exact hsh, fun i hi => ?_⟩
  rw [hG]
  by_cases hin : i < nr
  · exact Or.inl (hc1 i hin)
  · have := hc2 (i - nr) (by omega)
    rw [Nat.add_sub_cancel' (by omega)] at this
    exact Or.inr this

/-- the chosen grid, moved or not, has coefficients 1 and -1. -/
theorem chosenE3 {n : ℕ} {Z : Tensor O3.Elt} {c : ConvOpts} (q : SO3.Quat) (v : ℝ) (hZ : ∀ i < n, (O3.coef (Z.get [i]) = 1 ∨ O3.coef (Z.get [i]) = -1)) :
    ∀ i < n, (O3.coef ((if c.permute then Z.map (moveE3 q v) else Z).get [i]) = 1 ∨ O3.coef ((if c.permute then Z.map (moveE3 q v) else Z).get [i]) = -1) := by
  intro i hi
  cases c.permute
  · exact hZ i hi
  · exact moveE3_coef q v _ (hZ i hi)

/-- `GConvE3`. -/
theorem C107_group_E3 (opt1 opt2 : List SO3.Euler) (k : KernelArgs O3.Elt SizeArg) (c : ConvOpts) {m p} (hm : SpatialModes k.spatialMode k.spatialPad m p)
    (hg : k.gridH = none) (hmode : k.groupMode = "rbf" ∨ k.groupMode = "nearest") (hw : k.rotWidth = 0) (hw' : k.refWidth = 0) {nr nf : ℕ}
    (hs : sizePair k.groupKernelSize = (nr, nf)) (h1 : 2 ≤ nr) (h2 : nr ≤ 24) (h3 : 2 ≤ nf) (h4 : nf ≤ 24) {mode : F.CPad} {ax : List Axis} {S : List ℕ}
    (hf : Fits 3 k.inC k.outC k.groups k.kernelSize c mode ax S) :
    ∃ M grid, fullE3 SO3.initialStore opt1 opt2 k c = .ok M ∧ grid.shape = [nr + nf] ∧ (∀ i < nr + nf, (O3.coef (grid.get [i]) = 1 ∨ O3.coef (grid.get [i]) = -1)) ∧
      ∀ (weight : Tensor ℝ) (bias : Option (Tensor ℝ)) (N mi n : ℕ) (input : Tensor ℝ) (inH : Tensor O3.Elt) (H : Option (Tensor O3.Elt)) (q : SO3.Quat) (v : ℝ),
        weight.shape = [nr + nf, k.outC, k.inC / k.groups, k.kernelSize, k.kernelSize, k.kernelSize] → BiasShape bias k.outC 3 →
        input.shape = N :: k.inC :: mi :: S → inH.shape = [mi] → (∀ i < mi, (O3.coef (inH.get [i]) = 1 ∨ O3.coef (inH.get [i]) = -1)) →
        (H.getD grid).shape = [n] → (∀ G, H = some G → ∀ i < n, (O3.coef (G.get [i]) = 1 ∨ O3.coef (G.get [i]) = -1)) →
        ∃ out Hc, M.groupE (moveE3 q v) weight bias input inH H = .ok (out, Hc) ∧ out.shape = N :: k.outC :: n :: outDims ax S ∧
          Returned c.permute (moveE3 q v) (H.getD grid) Hc := by
  obtain ⟨M, gr, wr, wf, hM, hr, hsh, hcg⟩ := fullE3_built opt1 opt2 k c hg hmode hw hw' hs h1 h2 h3 h4 hf
  refine ⟨M, M.kernel.gridH, hM, hsh, hcg, fun weight bias N mi n input inH H q v hwt hb hx hin hci hH hcH => ?_⟩
  have hn1 : KernelE3.nRot k = nr := by unfold KernelE3.nRot; rw [hs]
  have hn2 : KernelE3.nRef k = nf := by unfold KernelE3.nRef; rw [hs]
  have hZ : ∀ i < n, (O3.coef ((H.getD M.kernel.gridH).get [i]) = 1 ∨ O3.coef ((H.getD M.kernel.gridH).get [i]) = -1) := by
    cases H with
    | none =>
      have : n = nr + nf := by
        have e : M.kernel.gridH.shape = [n] := hH
        rw [hsh] at e
        injection e with e _
        exact e.symm
      subst this
      exact hcg
    | some G => exact hcH G rfl
  obtain ⟨w, out, o1, o2, -⟩ := C61_E3 SO3.initialStore opt1 opt2 k c hm gr wr wf hr hM ((C60_geometry_E3 _ _ _ _).1.2 hf.geometry) hf.extents weight
    (by rw [hn1, hn2]; exact hwt) bias hb N mi n input hx inH hin H hH (moveE3 q v) _ rfl
    (fun h hh i hi => KernelE3.pair_of_coef k (by omega) (by omega) _ _ (chosenE3 (c := c) q v hZ h hh) (hci i hi))
  exact ⟨out, _, o1, o2, returned _ _ _⟩

/-- `GSeparableConvE3` with strides 1 and no padding or zero padding `'same'`, as many output as input group elements. -/
theorem C107_separable_E3 (opt1 opt2 : List SO3.Euler) (k : KernelArgs O3.Elt SizeArg) (c : ConvOpts) {m p} (hm : SpatialModes k.spatialMode k.spatialPad m p)
    (hg : k.gridH = none) (hmode : k.groupMode = "rbf" ∨ k.groupMode = "nearest") (hw : k.rotWidth = 0) (hw' : k.refWidth = 0) {nr nf : ℕ}
    (hs : sizePair k.groupKernelSize = (nr, nf)) (h1 : 2 ≤ nr) (h2 : nr ≤ 24) (h3 : 2 ≤ nf) (h4 : nf ≤ 24) {mode : F.CPad} {ax : List Axis} {S : List ℕ}
    (hf : Fits 3 k.inC k.outC k.groups k.kernelSize c mode ax S) (ho : AppliedOnce mode c.padding ax) :
    ∃ M grid, fullE3 SO3.initialStore opt1 opt2 k c = .ok M ∧ grid.shape = [nr + nf] ∧ (∀ i < nr + nf, (O3.coef (grid.get [i]) = 1 ∨ O3.coef (grid.get [i]) = -1)) ∧
      ∀ (weightH weight : Tensor ℝ) (bias : Option (Tensor ℝ)) (N n : ℕ) (input : Tensor ℝ) (inH : Tensor O3.Elt) (H : Option (Tensor O3.Elt)) (q : SO3.Quat) (v : ℝ),
        weightH.shape = [nr + nf, k.outC, k.inC / k.groups] → weight.shape = [k.outC, 1, k.kernelSize, k.kernelSize, k.kernelSize] → BiasShape bias k.outC 3 →
        0 < n → input.shape = N :: k.inC :: n :: S → inH.shape = [n] → (∀ i < n, (O3.coef (inH.get [i]) = 1 ∨ O3.coef (inH.get [i]) = -1)) →
        (H.getD grid).shape = [n] → (∀ G, H = some G → ∀ i < n, (O3.coef (G.get [i]) = 1 ∨ O3.coef (G.get [i]) = -1)) →
        ∃ out Hc, M.separableE (moveE3 q v) weightH weight bias input inH H = .ok (out, Hc) ∧ out.shape = N :: k.outC :: n :: outDims ax S ∧
          Returned c.permute (moveE3 q v) (H.getD grid) Hc := by
  obtain ⟨M, gr, wr, wf, hM, hr, hsh, hcg⟩ := fullE3_built opt1 opt2 k c hg hmode hw hw' hs h1 h2 h3 h4 hf
  refine ⟨M, M.kernel.gridH, hM, hsh, hcg, fun weightH weight bias N n input inH H q v hwH hwt hb hn hx hin hci hH hcH => ?_⟩
  have hn1 : KernelE3.nRot k = nr := by unfold KernelE3.nRot; rw [hs]
  have hn2 : KernelE3.nRef k = nf := by unfold KernelE3.nRef; rw [hs]
  have hZ : ∀ i < n, (O3.coef ((H.getD M.kernel.gridH).get [i]) = 1 ∨ O3.coef ((H.getD M.kernel.gridH).get [i]) = -1) := by
    cases H with
    | none =>
      have : n = nr + nf := by
        have e : M.kernel.gridH.shape = [n] := hH
        rw [hsh] at e
        injection e with e _
        exact e.symm
      subst this
      exact hcg
    | some G => exact hcH G rfl
  obtain ⟨wH, w, out, o1, o2, -⟩ := C62_E3_partial SO3.initialStore opt1 opt2 k c hm gr wr wf hr hM ((C60_geometry_E3 _ _ _ _).1.2 hf.geometry) hf.extents ho
    hf.output weightH weight (by rw [hn1, hn2]; exact hwH) hwt bias hb N n hn input hx inH hin H hH (moveE3 q v) _ rfl
    (fun h hh i hi => KernelE3.pair_of_coef k (by omega) (by omega) _ _ (chosenE3 (c := c) q v hZ h hh) (hci i hi))
  exact ⟨out, _, o1, o2, returned _ _ _⟩


/-! ## The layers of the repository's test-suite (`gconv/tests/test_gconv_*.py`): kernels of extent 3, padding `'same'`, extents 28 -/

/-- the options of the tests. -/
def testOpts : ConvOpts := { padding := .str "same" }

theorem fits_tests {nd : ℕ} (inC outC : ℕ) (h1 : 0 < inC) (h2 : 0 < outC) :
    Fits nd inC outC 1 3 testOpts .zeros (List.replicate nd ⟨3, 1, 1, 1, 1⟩) (List.replicate nd 28) ∧
      outDims (List.replicate nd ⟨3, 1, 1, 1, 1⟩) (List.replicate nd 28) = List.replicate nd 28 ∧
      AppliedOnce .zeros testOpts.padding (List.replicate nd ⟨3, 1, 1, 1, 1⟩) := by
  refine ⟨⟨h1, h2, ⟨one_pos, one_dvd _, one_dvd _⟩, ⟨List.length_replicate, ?_, ?_, Or.inl ⟨rfl, rfl⟩⟩, fun _ => rfl, ?_⟩, ?_, ?_⟩
  · intro a ha
    obtain rfl := List.eq_of_mem_replicate ha
    exact ⟨rfl, rfl, rfl⟩
  · refine Or.inl ⟨rfl, fun a ha => ?_⟩
    obtain rfl := List.eq_of_mem_replicate ha
    exact ⟨rfl, rfl⟩
  · induction nd with
    | zero => exact .nil
    | succ n ih => exact .cons ⟨by norm_num, by norm_num, by norm_num, by simp [Axis.span], by simp [F.padAllowed]⟩ ih
  · induction nd with
    | zero => rfl
    | succ n ih =>
      show _ :: outDims (List.replicate n ⟨3, 1, 1, 1, 1⟩) (List.replicate n 28) = 28 :: List.replicate n 28
      rw [ih]
      rfl
  · intro a ha
    obtain rfl := List.eq_of_mem_replicate ha
    exact ⟨rfl, Or.inr ⟨rfl, rfl⟩⟩

/-- `test_gconv_se2.py`: `test_lifting_gconv`, `test_gconv`, `test_separable_gconv`. -/
theorem C107_tests_SE2 :
    (∃ M, liftingSE2 { inC := 1, outC := 2, kernelSize := 3, groupKernelSize := 4 } testOpts = .ok M ∧
      ∀ (weight bias input : Tensor ℝ) (u : ℝ), weight.shape = [2, 1, 3, 3] → bias.shape = [2, 1, 1, 1] → input.shape = [1, 1, 28, 28] →
        ∃ out Hc, M.lift (moveSE2 u) weight (some bias) input none = .ok (out, Hc) ∧ out.shape = [1, 2, 4, 28, 28] ∧ Hc.shape = [4]) ∧
    (∃ M, fullSE2 { inC := 2, outC := 6, kernelSize := 3, groupKernelSize := 8 } testOpts = .ok M ∧
      ∀ (weight bias input : Tensor ℝ) (inH : Tensor ℝ) (u : ℝ), weight.shape = [8, 6, 2, 3, 3] → bias.shape = [6, 1, 1, 1] →
        input.shape = [3, 2, 8, 28, 28] → inH.shape = [8] → 
        ∃ out Hc, M.groupSE (moveSE2 u) weight (some bias) input inH none = .ok (out, Hc) ∧ out.shape = [3, 6, 8, 28, 28] ∧ Hc.shape = [8]) ∧
    ∃ M, fullSE2 { inC := 2, outC := 6, kernelSize := 3, groupKernelSize := 8 } testOpts = .ok M ∧
      ∀ (weightH weight bias input : Tensor ℝ) (inH : Tensor ℝ) (u : ℝ), weightH.shape = [8, 6, 2] → weight.shape = [6, 1, 3, 3] →
        bias.shape = [6, 1, 1, 1] → input.shape = [3, 2, 8, 28, 28] → inH.shape = [8] → 
        ∃ out Hc, M.separableSE (moveSE2 u) weightH weight (some bias) input inH none = .ok (out, Hc) ∧ out.shape = [3, 6, 8, 28, 28] ∧
          Hc.shape = [8] := by
  obtain ⟨f1, o1, -⟩ := fits_tests (nd := 2) 1 2 (by norm_num) (by norm_num)
  obtain ⟨f2, o2, once⟩ := fits_tests (nd := 2) 2 6 (by norm_num) (by norm_num)
  refine ⟨?_, ?_, ?_⟩
  · obtain ⟨M, grid, hM, hs, -, h⟩ := C107_lifting_SE2 { inC := 1, outC := 2, kernelSize := 3, groupKernelSize := 4 } testOpts defaultModes rfl f1
    refine ⟨M, hM, fun weight bias input u hw hb hx => ?_⟩
    obtain ⟨out, Hc, e1, e2, e3⟩ := h weight (some bias) 1 input none 4 u hw (by intro b h; cases h; exact hb) hx hs
    exact ⟨out, Hc, e1, by rw [e2, o1]; rfl, by rw [e3.1]; exact hs⟩
  · obtain ⟨M, hM, h⟩ := C107_group_SE2 { inC := 2, outC := 6, kernelSize := 3, groupKernelSize := 8 } testOpts defaultModes rfl (Or.inl rfl) rfl (by norm_num) (by norm_num) f2
    refine ⟨M, hM, fun weight bias input inH u hw hb hx hin => ?_⟩
    obtain ⟨out, Hc, e1, e2, e3⟩ := h weight (some bias) 3 8 8 input inH none u hw (by intro b h; cases h; exact hb) hx hin hin
    exact ⟨out, Hc, e1, by rw [e2, o2]; rfl, by rw [e3.1]; exact hin⟩
  · obtain ⟨M, hM, h⟩ := C107_separable_SE2 { inC := 2, outC := 6, kernelSize := 3, groupKernelSize := 8 } testOpts defaultModes rfl (Or.inl rfl) rfl (by norm_num) (by norm_num) f2 once
    refine ⟨M, hM, fun weightH weight bias input inH u hwH hw hb hx hin => ?_⟩
    obtain ⟨out, Hc, e1, e2, e3⟩ := h weightH weight (some bias) 3 8 input inH none u hwH hw (by intro b h; cases h; exact hb) (by norm_num) hx hin hin
    exact ⟨out, Hc, e1, by rw [e2, o2]; rfl, by rw [e3.1]; exact hin⟩

/-- `test_gconv_se3.py`: `test_lifting_gconv`, `test_gconv`, `test_separable_gconv`. -/
theorem C107_tests_SE3 (opt : List SO3.Euler) :
    (∃ M, liftingSE3 SO3.initialStore opt { inC := 1, outC := 2, kernelSize := 3, groupKernelSize := 4 } testOpts = .ok M ∧
      ∀ (weight bias input : Tensor ℝ) (q : SO3.Quat), weight.shape = [2, 1, 3, 3, 3] → bias.shape = [2, 1, 1, 1, 1] → input.shape = [1, 1, 28, 28, 28] →
        ∃ out Hc, M.lift (moveSE3 q) weight (some bias) input none = .ok (out, Hc) ∧ out.shape = [1, 2, 4, 28, 28, 28] ∧ Hc.shape = [4]) ∧
    (∃ M, fullSE3 SO3.initialStore opt { inC := 2, outC := 6, kernelSize := 3, groupKernelSize := 4 } testOpts = .ok M ∧
      ∀ (weight bias input : Tensor ℝ) (inH : Tensor SO3.Mat3) (q : SO3.Quat), weight.shape = [4, 6, 2, 3, 3, 3] → bias.shape = [6, 1, 1, 1, 1] →
        input.shape = [3, 2, 4, 28, 28, 28] → inH.shape = [4] → 
        ∃ out Hc, M.groupSE (moveSE3 q) weight (some bias) input inH none = .ok (out, Hc) ∧ out.shape = [3, 6, 4, 28, 28, 28] ∧ Hc.shape = [4]) ∧
    ∃ M, fullSE3 SO3.initialStore opt { inC := 2, outC := 6, kernelSize := 3, groupKernelSize := 4 } testOpts = .ok M ∧
      ∀ (weightH weight bias input : Tensor ℝ) (inH : Tensor SO3.Mat3) (q : SO3.Quat), weightH.shape = [4, 6, 2] → weight.shape = [6, 1, 3, 3, 3] →
        bias.shape = [6, 1, 1, 1, 1] → input.shape = [3, 2, 4, 28, 28, 28] → inH.shape = [4] → 
        ∃ out Hc, M.separableSE (moveSE3 q) weightH weight (some bias) input inH none = .ok (out, Hc) ∧ out.shape = [3, 6, 4, 28, 28, 28] ∧
          Hc.shape = [4] := by
  obtain ⟨f1, o1, -⟩ := fits_tests (nd := 3) 1 2 (by norm_num) (by norm_num)
  obtain ⟨f2, o2, once⟩ := fits_tests (nd := 3) 2 6 (by norm_num) (by norm_num)
  refine ⟨?_, ?_, ?_⟩
  · obtain ⟨M, grid, hM, hs, -, h⟩ := C107_lifting_SE3 opt { inC := 1, outC := 2, kernelSize := 3, groupKernelSize := 4 } testOpts defaultModes rfl (by norm_num) (by norm_num) f1
    refine ⟨M, hM, fun weight bias input q hw hb hx => ?_⟩
    obtain ⟨out, Hc, e1, e2, e3⟩ := h weight (some bias) 1 input none 4 q hw (by intro b h; cases h; exact hb) hx hs
    exact ⟨out, Hc, e1, by rw [e2, o1]; rfl, by rw [e3.1]; exact hs⟩
  · obtain ⟨M, hM, h⟩ := C107_group_SE3 opt { inC := 2, outC := 6, kernelSize := 3, groupKernelSize := 4 } testOpts defaultModes rfl (Or.inl rfl) rfl (by norm_num) (by norm_num) f2
    refine ⟨M, hM, fun weight bias input inH q hw hb hx hin => ?_⟩
    obtain ⟨out, Hc, e1, e2, e3⟩ := h weight (some bias) 3 4 4 input inH none q hw (by intro b h; cases h; exact hb) hx hin hin
    exact ⟨out, Hc, e1, by rw [e2, o2]; rfl, by rw [e3.1]; exact hin⟩
  · obtain ⟨M, hM, h⟩ := C107_separable_SE3 opt { inC := 2, outC := 6, kernelSize := 3, groupKernelSize := 4 } testOpts defaultModes rfl (Or.inl rfl) rfl (by norm_num) (by norm_num) f2 once
    refine ⟨M, hM, fun weightH weight bias input inH q hwH hw hb hx hin => ?_⟩
    obtain ⟨out, Hc, e1, e2, e3⟩ := h weightH weight (some bias) 3 4 input inH none q hwH hw (by intro b h; cases h; exact hb) (by norm_num) hx hin hin
    exact ⟨out, Hc, e1, by rw [e2, o2]; rfl, by rw [e3.1]; exact hin⟩

/-- `test_gconv_e2.py`: `test_lifting_gconv`, `test_gconv`, `test_separable_gconv`. -/
theorem C107_tests_E2 :
    (∃ M, liftingE2 { inC := 1, outC := 2, kernelSize := 3, groupKernelSize := .pair 4 4 } testOpts = .ok M ∧
      ∀ (weight bias input : Tensor ℝ) (u v : ℝ), weight.shape = [2, 1, 3, 3] → bias.shape = [2, 1, 1, 1] → input.shape = [1, 1, 28, 28] →
        ∃ out Hc, M.lift (moveE2 u v) weight (some bias) input none = .ok (out, Hc) ∧ out.shape = [1, 2, 8, 28, 28] ∧ Hc.shape = [8]) ∧
    (∃ M, fullE2 { inC := 2, outC := 6, kernelSize := 3, groupKernelSize := .pair 4 4 } testOpts = .ok M ∧
      ∀ (weight bias input : Tensor ℝ) (inH : Tensor O2.Elt) (u v : ℝ), weight.shape = [8, 6, 2, 3, 3] → bias.shape = [6, 1, 1, 1] →
        input.shape = [3, 2, 8, 28, 28] → inH.shape = [8] → (∀ i < 8, (inH.get [i]).1 = 1 ∨ (inH.get [i]).1 = -1) → 
        ∃ out Hc, M.groupE (moveE2 u v) weight (some bias) input inH none = .ok (out, Hc) ∧ out.shape = [3, 6, 8, 28, 28] ∧ Hc.shape = [8]) ∧
    ∃ M, fullE2 { inC := 2, outC := 6, kernelSize := 3, groupKernelSize := .pair 4 4 } testOpts = .ok M ∧
      ∀ (weightH weight bias input : Tensor ℝ) (inH : Tensor O2.Elt) (u v : ℝ), weightH.shape = [8, 6, 2] → weight.shape = [6, 1, 3, 3] →
        bias.shape = [6, 1, 1, 1] → input.shape = [3, 2, 8, 28, 28] → inH.shape = [8] → (∀ i < 8, (inH.get [i]).1 = 1 ∨ (inH.get [i]).1 = -1) → 
        ∃ out Hc, M.separableE (moveE2 u v) weightH weight (some bias) input inH none = .ok (out, Hc) ∧ out.shape = [3, 6, 8, 28, 28] ∧
          Hc.shape = [8] := by
  obtain ⟨f1, o1, -⟩ := fits_tests (nd := 2) 1 2 (by norm_num) (by norm_num)
  obtain ⟨f2, o2, once⟩ := fits_tests (nd := 2) 2 6 (by norm_num) (by norm_num)
  refine ⟨?_, ?_, ?_⟩
  · obtain ⟨M, grid, hM, hs, -, -, h⟩ := C107_lifting_E2 { inC := 1, outC := 2, kernelSize := 3, groupKernelSize := .pair 4 4 } testOpts defaultModes rfl (nr := 4) (nf := 4) rfl (by norm_num) f1
    refine ⟨M, hM, fun weight bias input u v hw hb hx => ?_⟩
    obtain ⟨out, Hc, e1, e2, e3⟩ := h weight (some bias) 1 input none 8 u v hw (by intro b h; cases h; exact hb) hx hs
    exact ⟨out, Hc, e1, by rw [e2, o1]; rfl, by rw [e3.1]; exact hs⟩
  · obtain ⟨M, grid, hM, hs, -, h⟩ := C107_group_E2 { inC := 2, outC := 6, kernelSize := 3, groupKernelSize := .pair 4 4 } testOpts defaultModes rfl (Or.inl rfl) rfl rfl (nr := 4) (nf := 4) rfl (by norm_num) (by norm_num) (by norm_num) (by norm_num) f2
    refine ⟨M, hM, fun weight bias input inH u v hw hb hx hin hc => ?_⟩
    obtain ⟨out, Hc, e1, e2, e3⟩ := h weight (some bias) 3 8 8 input inH none u v hw (by intro b h; cases h; exact hb) hx hin hc hs (fun G h => by cases h)
    exact ⟨out, Hc, e1, by rw [e2, o2]; rfl, by rw [e3.1]; exact hs⟩
  · obtain ⟨M, grid, hM, hs, -, h⟩ := C107_separable_E2 { inC := 2, outC := 6, kernelSize := 3, groupKernelSize := .pair 4 4 } testOpts defaultModes rfl (Or.inl rfl) rfl rfl (nr := 4) (nf := 4) rfl (by norm_num) (by norm_num) (by norm_num) (by norm_num) f2 once
    refine ⟨M, hM, fun weightH weight bias input inH u v hwH hw hb hx hin hc => ?_⟩
    obtain ⟨out, Hc, e1, e2, e3⟩ := h weightH weight (some bias) 3 8 input inH none u v hwH hw (by intro b h; cases h; exact hb) (by norm_num) hx hin hc hs (fun G h => by cases h)
    exact ⟨out, Hc, e1, by rw [e2, o2]; rfl, by rw [e3.1]; exact hs⟩

/-- `test_gconv_e3.py`: `test_lifting_gconv`, `test_gconv`, `test_separable_gconv`. -/
theorem C107_tests_E3 (opt1 opt2 : List SO3.Euler) :
    (∃ M, liftingE3 SO3.initialStore opt1 opt2 { inC := 1, outC := 2, kernelSize := 3, groupKernelSize := .pair 4 4 } testOpts = .ok M ∧
      ∀ (weight bias input : Tensor ℝ) (q : SO3.Quat) (v : ℝ), weight.shape = [2, 1, 3, 3, 3] → bias.shape = [2, 1, 1, 1, 1] → input.shape = [1, 1, 28, 28, 28] →
        ∃ out Hc, M.lift (moveE3 q v) weight (some bias) input none = .ok (out, Hc) ∧ out.shape = [1, 2, 8, 28, 28, 28] ∧ Hc.shape = [8]) ∧
    (∃ M, fullE3 SO3.initialStore opt1 opt2 { inC := 2, outC := 6, kernelSize := 3, groupKernelSize := .pair 4 4 } testOpts = .ok M ∧
      ∀ (weight bias input : Tensor ℝ) (inH : Tensor O3.Elt) (q : SO3.Quat) (v : ℝ), weight.shape = [8, 6, 2, 3, 3, 3] → bias.shape = [6, 1, 1, 1, 1] →
        input.shape = [3, 2, 8, 28, 28, 28] → inH.shape = [8] → (∀ i < 8, O3.coef (inH.get [i]) = 1 ∨ O3.coef (inH.get [i]) = -1) → 
        ∃ out Hc, M.groupE (moveE3 q v) weight (some bias) input inH none = .ok (out, Hc) ∧ out.shape = [3, 6, 8, 28, 28, 28] ∧ Hc.shape = [8]) ∧
    ∃ M, fullE3 SO3.initialStore opt1 opt2 { inC := 2, outC := 6, kernelSize := 3, groupKernelSize := .pair 4 4 } testOpts = .ok M ∧
      ∀ (weightH weight bias input : Tensor ℝ) (inH : Tensor O3.Elt) (q : SO3.Quat) (v : ℝ), weightH.shape = [8, 6, 2] → weight.shape = [6, 1, 3, 3, 3] →
        bias.shape = [6, 1, 1, 1, 1] → input.shape = [3, 2, 8, 28, 28, 28] → inH.shape = [8] → (∀ i < 8, O3.coef (inH.get [i]) = 1 ∨ O3.coef (inH.get [i]) = -1) → 
        ∃ out Hc, M.separableE (moveE3 q v) weightH weight (some bias) input inH none = .ok (out, Hc) ∧ out.shape = [3, 6, 8, 28, 28, 28] ∧
          Hc.shape = [8] := by
  obtain ⟨f1, o1, -⟩ := fits_tests (nd := 3) 1 2 (by norm_num) (by norm_num)
  obtain ⟨f2, o2, once⟩ := fits_tests (nd := 3) 2 6 (by norm_num) (by norm_num)
  refine ⟨?_, ?_, ?_⟩
  · obtain ⟨M, grid, hM, hs, -, h⟩ := C107_lifting_E3 opt1 opt2 { inC := 1, outC := 2, kernelSize := 3, groupKernelSize := .pair 4 4 } testOpts defaultModes rfl (nr := 4) (nf := 4) rfl (by norm_num) (by norm_num) (by norm_num) (by norm_num) f1
    refine ⟨M, hM, fun weight bias input q v hw hb hx => ?_⟩
    obtain ⟨out, Hc, e1, e2, e3⟩ := h weight (some bias) 1 input none 8 q v hw (by intro b h; cases h; exact hb) hx hs
    exact ⟨out, Hc, e1, by rw [e2, o1]; rfl, by rw [e3.1]; exact hs⟩
  · obtain ⟨M, grid, hM, hs, -, h⟩ := C107_group_E3 opt1 opt2 { inC := 2, outC := 6, kernelSize := 3, groupKernelSize := .pair 4 4 } testOpts defaultModes rfl (Or.inl rfl) rfl rfl (nr := 4) (nf := 4) rfl (by norm_num) (by norm_num) (by norm_num) (by norm_num) f2
    refine ⟨M, hM, fun weight bias input inH q v hw hb hx hin hc => ?_⟩
    obtain ⟨out, Hc, e1, e2, e3⟩ := h weight (some bias) 3 8 8 input inH none q v hw (by intro b h; cases h; exact hb) hx hin hc hs (fun G h => by cases h)
    exact ⟨out, Hc, e1, by rw [e2, o2]; rfl, by rw [e3.1]; exact hs⟩
  · obtain ⟨M, grid, hM, hs, -, h⟩ := C107_separable_E3 opt1 opt2 { inC := 2, outC := 6, kernelSize := 3, groupKernelSize := .pair 4 4 } testOpts defaultModes rfl (Or.inl rfl) rfl rfl (nr := 4) (nf := 4) rfl (by norm_num) (by norm_num) (by norm_num) (by norm_num) f2 once
    refine ⟨M, hM, fun weightH weight bias input inH q v hwH hw hb hx hin hc => ?_⟩
    obtain ⟨out, Hc, e1, e2, e3⟩ := h weightH weight (some bias) 3 8 input inH none q v hwH hw (by intro b h; cases h; exact hb) (by norm_num) hx hin hc hs (fun G h => by cases h)
    exact ⟨out, Hc, e1, by rw [e2, o2]; rfl, by rw [e3.1]; exact hs⟩

end GConv.Conv

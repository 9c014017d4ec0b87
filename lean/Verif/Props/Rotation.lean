import Verif.Props.Translation

/-! # C64, C65, C66: lattice symmetries -/

namespace GConv.Conv

open Tensor Spec GroupKernel

variable {G : Type} {d : ℕ}

theorem geomOk_matches {mode : F.CPad} {e : Equiv.Perm (Fin d)} {σ : LatticeSym d} {ax : List Axis} {S' S : List ℕ}
    (hm : LatticeSym.Matches e σ S' S) (hsym : SymmetricGeometry d ax S) (hg : GeomOk mode ax S) : GeomOk mode ax S' := by
  obtain ⟨x, rfl, -, -⟩ := hsym
  refine List.forall₂_iff_get.2 ⟨by simp [hm.1], fun i h1 h2 => ?_⟩
  have hi : i < d := by simpa using h1
  have hc := hm.2.2 (σ.perm.symm (e.symm ⟨i, hi⟩))
  rw [Equiv.apply_symm_apply, Equiv.apply_symm_apply] at hc
  have := geomOk_getD hg _ (Fin.isLt (e (σ.perm.symm (e.symm ⟨i, hi⟩))))
  rw [← hc, List.getD_eq_getElem?_getD, List.getElem?_eq_getElem h2] at this
  simpa using this

theorem movedOutput_one {e : Equiv.Perm (Fin d)} {σ : LatticeSym d} {bias : Option (Tensor ℝ)} {N C n : ℕ}
    {S' S : List ℕ} {x x' : Tensor ℝ} (h : MovedOutput e σ 1 bias N C n S' S x x') :
    MovedTensor e σ [N, C, n] S' S x x' := by
  refine ⟨h.1, h.2.1, fun p q hp hq => ?_⟩
  obtain ⟨b, _, rfl, hb, hp⟩ := InB_cons_left hp
  obtain ⟨co, _, rfl, hco, hp⟩ := InB_cons_left hp
  obtain ⟨k, _, rfl, hk, hp⟩ := InB_cons_left hp
  cases InB_nil_left hp
  have := h.2.2 b co k q hb hco hk hq
  rw [one_mul] at this
  exact sub_left_inj.1 this

/-- Lifting convolution with any kernel that moves with `left`. -/
theorem lifting_equivariant {a : Args} {mode : F.CPad} {ax : List Axis} (hgeo : HasGeometry a mode ax) {L : Layer}
    (hL : init a (kernelDims ax) = .ok L) {e : Equiv.Perm (Fin d)} {σ : LatticeSym d} {S' S : List ℕ}
    (hm : LatticeSym.Matches e σ S' S) (hg : GeomOk mode ax S) (hsym : SymmetricGeometry d ax S)
    {K : GroupKernel G d} {left : G → G} {c : ℝ} (hK : LiftingMoves K left e σ c)
    (ho : K.outC = a.outC) (hi : K.inC / K.groups = a.inC / a.groups.toNat) (hk : K.kernelSize = kernelDims ax)
    (weight : Tensor ℝ) (hw : weight.shape = [K.outC, K.inC / K.groups] ++ K.kernelSize) (bias : Option (Tensor ℝ))
    (hb : BiasShape bias a.outC d) (N n : ℕ) (x x' : Tensor ℝ) (H : Tensor G) (hH : H.shape = [n]) (hpos : 0 < a.inC)
    (hx : MovedTensor e σ [N, a.inC] S' S x x') :
    ∃ out out', L.liftingForward K weight bias x H = .ok (out, H) ∧
      L.liftingForward K weight bias x' (H.map left) = .ok (out', H.map left) ∧
      MovedOutput e σ c bias N a.outC n (outDims ax S') (outDims ax S) out out' := by
  obtain ⟨w, w', k1, k2, k3, k4, k5⟩ := hK weight H n hw hH
  have hg' := geomOk_matches hm hsym hg
  have hd : ax.length = d := by obtain ⟨y, rfl, -⟩ := hsym; simp
  rw [ho, hi, hk] at k3 k5
  obtain ⟨out, x1, x2, x3⟩ := C60_lifting hgeo hL hg' K weight w bias N n x H hH hpos k1 k3 hx.1 (by rw [hd]; exact hb)
  obtain ⟨out', y1, y2, y3⟩ := C60_lifting hgeo hL hg K weight w' bias N n x' (H.map left) hH hpos k2
    (by rw [k4, k3]; rfl) hx.2.1 (by rw [hd]; exact hb)
  refine ⟨out, out', x1, y1, x2, y2, fun b co h q hb' hco hh hq => ?_⟩
  have hmo : LatticeSym.Matches e σ (outDims ax S') (outDims ax S) := by
    obtain ⟨y, rfl, -⟩ := hsym; exact matches_out hm
  rw [x3 b co h q hb' hco hh hq, y3 b co h _ hb' hco hh (LatticeSym.move_InB hmo hq)]
  unfold Spec.liftingConv
  rw [hd, add_sub_cancel_right, add_sub_cancel_right, Finset.mul_sum]
  refine Finset.sum_congr rfl fun ci hci => ?_
  rw [← corr_smul_weight]
  refine corr_move hm hg' hg hsym (fun q hq => ?_) (fun y hy => ?_) hq
  · exact hx.2.2 [b, _] q (by simp [hb', channel_lt hgeo hL hco (Finset.mem_range.1 hci)]) hq
  · exact k5 co h ci y hco hh (Finset.mem_range.1 hci) hy

/-- Group convolution with any kernel that moves with `left`. -/
theorem group_equivariant {a : Args} {mode : F.CPad} {ax : List Axis} (hgeo : HasGeometry a mode ax) {L : Layer}
    (hL : init a (kernelDims ax) = .ok L) {e : Equiv.Perm (Fin d)} {σ : LatticeSym d} {S' S : List ℕ}
    (hm : LatticeSym.Matches e σ S' S) (hg : GeomOk mode ax S) (hsym : SymmetricGeometry d ax S)
    {K : GroupKernel G d} {left : G → G} {c : ℝ} {Pair : G → G → Prop} (hK : GroupMoves K left e σ c Pair)
    (ho : K.outC = a.outC) (hi : K.inC / K.groups = a.inC / a.groups.toNat) (hk : K.kernelSize = kernelDims ax)
    (weight : Tensor ℝ) (hw : weight.shape = [K.groupKernelDim, K.outC, K.inC / K.groups] ++ K.kernelSize)
    (bias : Option (Tensor ℝ)) (hb : BiasShape bias a.outC d) (N mi n : ℕ) (x x' : Tensor ℝ) (inH outH : Tensor G)
    (hin : inH.shape = [mi]) (hout : outH.shape = [n]) (hp : ∀ o < n, ∀ i < mi, Pair (outH.get [o]) (inH.get [i]))
    (hx : MovedTensor e σ [N, a.inC, mi] S' S x x') :
    ∃ out out', L.groupForward K weight bias x inH outH = .ok (out, outH) ∧
      L.groupForward K weight bias x' (inH.map left) (outH.map left) = .ok (out', outH.map left) ∧
      MovedOutput e σ c bias N a.outC n (outDims ax S') (outDims ax S) out out' := by
  obtain ⟨w, w', k1, k2, k3, k4, k5⟩ := hK weight inH outH mi n hw hin hout hp
  have hg' := geomOk_matches hm hsym hg
  have hd : ax.length = d := by obtain ⟨y, rfl, -⟩ := hsym; simp
  rw [ho, hi, hk] at k3 k5
  obtain ⟨out, x1, x2, x3⟩ := C61_group hgeo hL hg' K weight w bias N mi n x inH outH hin hout k1 k3 hx.1
    (by rw [hd]; exact hb)
  obtain ⟨out', y1, y2, y3⟩ := C61_group hgeo hL hg K weight w' bias N mi n x' (inH.map left) (outH.map left) hin hout k2
    (by rw [k4, k3]; rfl) hx.2.1 (by rw [hd]; exact hb)
  refine ⟨out, out', x1, y1, x2, y2, fun b co h q hb' hco hh hq => ?_⟩
  have hmo : LatticeSym.Matches e σ (outDims ax S') (outDims ax S) := by
    obtain ⟨y, rfl, -⟩ := hsym; exact matches_out hm
  rw [x3 b co h q hb' hco hh hq, y3 b co h _ hb' hco hh (LatticeSym.move_InB hmo hq)]
  unfold Spec.groupConv
  rw [hd, add_sub_cancel_right, add_sub_cancel_right, Finset.mul_sum]
  refine Finset.sum_congr rfl fun ci hci => ?_
  rw [Finset.mul_sum]
  refine Finset.sum_congr rfl fun i hi' => ?_
  rw [← corr_smul_weight]
  refine corr_move hm hg' hg hsym (fun q hq => ?_) (fun y hy => ?_) hq
  · exact hx.2.2 [b, _, i] q (by simp [hb', channel_lt hgeo hL hco (Finset.mem_range.1 hci), Finset.mem_range.1 hi']) hq
  · exact k5 co h ci i y hco hh (Finset.mem_range.1 hci) (Finset.mem_range.1 hi') hy

/-- Separable convolution with any kernel that moves with `left`; both convolutions (the first one with extents
1, see C62) have a symmetric geometry. -/
theorem separable_equivariant {a : Args} {mode : F.CPad} {ax : List Axis} (hgeo : HasGeometry a mode ax) {L : Layer}
    (hL : init a (kernelDims ax) = .ok L) {e : Equiv.Perm (Fin d)} {σ : LatticeSym d} {S' S S₁' S₁ : List ℕ}
    (hm : LatticeSym.Matches e σ S' S) (hg₁ : GeomOk mode (firstAxes mode a.padding ax) S)
    (hsym₁ : SymmetricGeometry d (firstAxes mode a.padding ax) S)
    (hS₁ : outDims (firstAxes mode a.padding ax) S = S₁) (hS₁' : outDims (firstAxes mode a.padding ax) S' = S₁')
    (hg : GeomOk mode ax S₁) (hsym : SymmetricGeometry d ax S₁)
    {K : GroupKernel G d} {left : G → G} {c : ℝ} {Pair : G → G → Prop} (hK : SeparableMoves K left e σ c Pair)
    (ho : K.outC = a.outC) (hi : K.inC / K.groups = a.inC / a.groups.toNat) (hk : K.kernelSize = kernelDims ax)
    (weightH weight : Tensor ℝ) (hwH : weightH.shape = [K.groupKernelDim, K.outC, K.inC / K.groups])
    (hw : weight.shape = [K.outC, 1] ++ K.kernelSize)
    (bias : Option (Tensor ℝ)) (hb : BiasShape bias a.outC d) (N n : ℕ) (hC : 0 < a.outC) (hn : 0 < n) (x x' : Tensor ℝ)
    (inH outH : Tensor G)
    (hin : inH.shape = [n]) (hout : outH.shape = [n]) (hp : ∀ o < n, ∀ i < n, Pair (outH.get [o]) (inH.get [i]))
    (hx : MovedTensor e σ [N, a.inC, n] S' S x x') :
    ∃ out out', L.separableForward K weightH weight bias x inH outH = .ok (out, outH) ∧
      L.separableForward K weightH weight bias x' (inH.map left) (outH.map left) = .ok (out', outH.map left) ∧
      MovedOutput e σ c bias N a.outC n (outDims ax S₁') (outDims ax S₁) out out' := by
  obtain ⟨wH, w, w', k1, k2, k3H, k3, k4, k5⟩ := hK weightH weight inH outH n hwH hw hin hout hp
  have hd : ax.length = d := by obtain ⟨y, rfl, -⟩ := hsym; simp
  have hg₁' := geomOk_matches hm hsym₁ hg₁
  have hm₁ : LatticeSym.Matches e σ S₁' S₁ := by
    obtain ⟨y, hy, -⟩ := hsym₁
    rw [← hS₁, ← hS₁', hy]; exact matches_out hm
  have hg' := geomOk_matches hm₁ hsym hg
  have hkl : K.kernelSize.length = ax.length := by rw [hk]; simp [kernelDims]
  rw [ho, hi, hkl] at k3H
  rw [ho, hk] at k3 k5
  obtain ⟨out, x1, x2, x3⟩ := C62_formula_partial hgeo hL hg₁' hS₁' hg' K weightH weight wH w bias N n n x inH outH hin hout
    hC hn k1 k3H k3 hx.1 (by rw [hd]; exact hb)
  obtain ⟨out', y1, y2, y3⟩ := C62_formula_partial hgeo hL hg₁ hS₁ hg K weightH weight wH w' bias N n n x' (inH.map left)
    (outH.map left) hin hout hC hn k2 k3H (by rw [k4, k3]; rfl) hx.2.1 (by rw [hd]; exact hb)
  refine ⟨out, out', x1, y1, x2, y2, fun b co h q hb' hco hh hq => ?_⟩
  have hmo : LatticeSym.Matches e σ (outDims ax S₁') (outDims ax S₁) := by
    obtain ⟨y, rfl, -⟩ := hsym; exact matches_out hm₁
  rw [x3 b co h q hb' hco hh hq, y3 b co h _ hb' hco hh (LatticeSym.move_InB hmo hq)]
  rw [hd, add_sub_cancel_right, add_sub_cancel_right, ← corr_smul_weight]
  refine corr_move hm₁ hg' hg hsym (fun q hq => ?_) (fun y hy => ?_) hq
  · refine Finset.sum_congr rfl fun ci hci => Finset.sum_congr rfl fun i hi' => ?_
    rw [← hS₁]
    refine corr_move hm hg₁' hg₁ hsym₁ (fun q hq => ?_) (fun y hy => ?_) (by rw [hS₁']; exact hq)
    · exact hx.2.2 [b, _, i] q (by simp [hb', channel_lt hgeo hL hco (Finset.mem_range.1 hci), Finset.mem_range.1 hi']) hq
    · rw [kernelDims_first] at hy ⊢
      have hu : ∀ z : List ℕ, InB (List.replicate ax.length 1) z → z = List.replicate ax.length 0 := by
        intro z hz
        refine List.eq_replicate_iff.2 ⟨by rw [hz.length]; simp, fun v hv => ?_⟩
        obtain ⟨j, hj, rfl⟩ := List.getElem_of_mem hv
        have := (InB_iff.1 hz).2 j (by rw [← hz.length]; exact hj)
        rw [List.getD_eq_getElem?_getD, List.getElem?_eq_getElem hj, replicate_getD (by rw [hz.length] at hj; simpa using hj)] at this
        simpa using this
      have hcube : LatticeSym.Matches e σ (List.replicate ax.length 1) (List.replicate ax.length 1) := by
        rw [hd]; exact LatticeSym.matches_cube 1
      rw [hu _ (LatticeSym.move_InB hcube hy), hu _ hy]
  · exact k5 co h y hco hh hy

/-! ## SE2 -/

theorem liftingSE2_args {k : KernelArgs ℝ ℕ} {K} (h : KernelSE2.lifting k = .ok K) :
    K.outC = k.outC ∧ K.inC / K.groups = k.inC / k.groups ∧ K.kernelSize = [k.kernelSize, k.kernelSize] := by
  unfold KernelSE2.lifting checkGroups at h
  split at h
  · cases h
  · cases h; exact ⟨rfl, rfl, rfl⟩

theorem fullSE2_args (k : KernelArgs ℝ ℕ) (wd : ℝ) (hr : KernelSE2.Ready k wd) {K}
    (h : KernelSE2.full k = .ok K) :
    K.outC = k.outC ∧ K.inC / K.groups = k.inC / k.groups ∧ K.kernelSize = [k.kernelSize, k.kernelSize] ∧ K.groupKernelDim = (KernelSE2.grid k).shape.headD 0 := by
  rw [KernelSE2.full_eq hr] at h
  cases h
  exact ⟨rfl, rfl, rfl, rfl⟩

/-- `GLiftingConvSE2`: moving the input by a lattice symmetry and multiplying the group elements that are used
(`Hc`: the given or the default ones, multiplied by the random element if `permute_output_grid`) moves the
output. -/
theorem C64_SE2 (k : KernelArgs ℝ ℕ) (c : ConvOpts) (hk : 2 ≤ k.kernelSize) {m p}
    (hm : SpatialModes k.spatialMode k.spatialPad m p)
    {M : Module ℝ 2} (hM : liftingSE2 k c = .ok M) {mode : F.CPad} {ax : List Axis}
    (hgeo : HasGeometry (argsSE2 k c) mode ax)
    {σ : LatticeSym 2} {S' S : List ℕ} (hσ : LatticeSym.Matches LatticeSym.ax2 σ S' S)
    (hS : GeomOk mode ax S) (hsym : SymmetricGeometry 2 ax S) (g : ℝ) (hg : SO2.angleToMatrix g = σ.matrix) (hpos : 0 < k.inC)
    (weight : Tensor ℝ) (hw : weight.shape = [k.outC, k.inC / k.groups, k.kernelSize, k.kernelSize])
    (bias : Option (Tensor ℝ)) (hb : BiasShape bias k.outC 2) (N n : ℕ) (x x' : Tensor ℝ)
    (H H' : Option (Tensor (ℝ))) (move move' : ℝ → ℝ) (Hc : Tensor (ℝ))
    (hHc : Hc = if c.permute then (H.getD M.kernel.gridH).map move else H.getD M.kernel.gridH)
    (hHc' : Hc.map (SO2.leftApplyAngle g) = if c.permute then (H'.getD M.kernel.gridH).map move' else H'.getD M.kernel.gridH) (hn : Hc.shape = [n])
    (hx : MovedTensor LatticeSym.ax2 σ [N, k.inC] S' S x x') :
    ∃ out out', M.lift move weight bias x H = .ok (out, Hc) ∧
      M.lift move' weight bias x' H' = .ok (out', Hc.map (SO2.leftApplyAngle g)) ∧
      MovedTensor LatticeSym.ax2 σ [N, k.outC, n] (outDims ax S') (outDims ax S) out out' := by
  obtain ⟨K, hK, hL, hMK, hMp⟩ := build_ok hM
  have hg0 : 0 < k.groups := Int.natCast_pos.1 (groups_pos hgeo hL)
  have hks : kernelDims ax = [k.kernelSize, k.kernelSize] := hgeo.kernel.symm
  rw [liftingSE2_size hK, ← hks] at hL
  
  obtain ⟨K', h1, h2⟩ := (KernelSE2.C57_SE2 k hk hm g σ hg).1 hg0
  rw [hK] at h1
  cases h1
  obtain ⟨b1, b2, b3⟩ := liftingSE2_args hK
  obtain ⟨out, out', x1, y1, z⟩ := lifting_equivariant hgeo hL hσ hS hsym h2 b1 b2 (by rw [b3, hks]) weight
    (by rw [b1, b2, b3]; exact hw) bias hb N n x x' Hc hn hpos hx
  refine ⟨out, out', ?_, ?_, movedOutput_one z⟩
  · rw [← x1, eq_permute hHc hn, ← hMp, ← hMK]; rfl
  · rw [← y1, eq_permute hHc' hn, ← hMp, ← hMK]; rfl

/-- `GConvSE2`. -/
theorem C65_SE2 (k : KernelArgs ℝ ℕ) (c : ConvOpts) (hk : 2 ≤ k.kernelSize) {m p}
    (hm : SpatialModes k.spatialMode k.spatialPad m p)
    (wd : ℝ) (hr : KernelSE2.Ready k wd)
    {M : Module ℝ 2} (hM : fullSE2 k c = .ok M) {mode : F.CPad} {ax : List Axis}
    (hgeo : HasGeometry (argsSE2 k c) mode ax)
    {σ : LatticeSym 2} {S' S : List ℕ} (hσ : LatticeSym.Matches LatticeSym.ax2 σ S' S)
    (hS : GeomOk mode ax S) (hsym : SymmetricGeometry 2 ax S) (g : ℝ) (hg : SO2.angleToMatrix g = σ.matrix)
    (weight : Tensor ℝ) (hw : weight.shape = [(KernelSE2.grid k).shape.headD 0, k.outC, k.inC / k.groups, k.kernelSize, k.kernelSize])
    (bias : Option (Tensor ℝ)) (hb : BiasShape bias k.outC 2) (N mi n : ℕ) (x x' : Tensor ℝ)
    (inH : Tensor (ℝ)) (hin : inH.shape = [mi])
    (H H' : Option (Tensor (ℝ))) (move move' : ℝ → ℝ) (Hc : Tensor (ℝ))
    (hHc : Hc = if c.permute then (H.getD inH).map move else H.getD inH)
    (hHc' : Hc.map (SO2.leftApplyAngle g) = if c.permute then (H'.getD (inH.map (SO2.leftApplyAngle g))).map move' else H'.getD (inH.map (SO2.leftApplyAngle g))) (hn : Hc.shape = [n])
    (hx : MovedTensor LatticeSym.ax2 σ [N, k.inC, mi] S' S x x') :
    ∃ out out', M.groupSE move weight bias x inH H = .ok (out, Hc) ∧
      M.groupSE move' weight bias x' (inH.map (SO2.leftApplyAngle g)) H' = .ok (out', Hc.map (SO2.leftApplyAngle g)) ∧
      MovedTensor LatticeSym.ax2 σ [N, k.outC, n] (outDims ax S') (outDims ax S) out out' := by
  obtain ⟨K, hK, hL, hMK, hMp⟩ := build_ok hM
  have hks : kernelDims ax = [k.kernelSize, k.kernelSize] := hgeo.kernel.symm
  obtain ⟨b1, b2, b3, b4⟩ := fullSE2_args k wd hr hK
  rw [b3, ← hks] at hL
  obtain ⟨K', h1, h2, -⟩ := (KernelSE2.C57_SE2 k hk hm g σ hg).2 wd hr
  rw [hK] at h1
  cases h1
  obtain ⟨out, out', x1, y1, z⟩ := group_equivariant hgeo hL hσ hS hsym h2 b1 b2 (by rw [b3, hks]) weight
    (by rw [b1, b2, b3, b4]; exact hw) bias hb N mi n x x' inH Hc hin hn (fun _ _ _ _ => trivial) hx
  refine ⟨out, out', ?_, ?_, movedOutput_one z⟩
  · rw [← x1, eq_permute hHc hn, ← hMp, ← hMK]; rfl
  · rw [← y1, eq_permute hHc' hn, ← hMp, ← hMK]; rfl

/-- `GSeparableConvSE2` with as many input as output group elements; the geometry of both convolutions is
symmetric (`S₁` are the extents between them). -/
theorem C65_SE2_separable (k : KernelArgs ℝ ℕ) (c : ConvOpts) (hk : 2 ≤ k.kernelSize) {m p}
    (hm : SpatialModes k.spatialMode k.spatialPad m p)
    (wd : ℝ) (hr : KernelSE2.Ready k wd)
    {M : Module ℝ 2} (hM : fullSE2 k c = .ok M) {mode : F.CPad} {ax : List Axis}
    (hgeo : HasGeometry (argsSE2 k c) mode ax)
    {σ : LatticeSym 2} {S' S : List ℕ} (hσ : LatticeSym.Matches LatticeSym.ax2 σ S' S) {S₁' S₁ : List ℕ}
    (hg₁ : GeomOk mode (firstAxes mode c.padding ax) S) (hsym₁ : SymmetricGeometry 2 (firstAxes mode c.padding ax) S)
    (hS₁ : outDims (firstAxes mode c.padding ax) S = S₁) (hS₁' : outDims (firstAxes mode c.padding ax) S' = S₁')
    (hS : GeomOk mode ax S₁) (hsym : SymmetricGeometry 2 ax S₁) (g : ℝ) (hg : SO2.angleToMatrix g = σ.matrix) (hC : 0 < k.outC)
    (weightH weight : Tensor ℝ) (hwH : weightH.shape = [(KernelSE2.grid k).shape.headD 0, k.outC, k.inC / k.groups])
    (hw : weight.shape = [k.outC, 1, k.kernelSize, k.kernelSize])
    (bias : Option (Tensor ℝ)) (hb : BiasShape bias k.outC 2) (N n : ℕ) (hn0 : 0 < n) (x x' : Tensor ℝ)
    (inH : Tensor (ℝ)) (hin : inH.shape = [n])
    (H H' : Option (Tensor (ℝ))) (move move' : ℝ → ℝ) (Hc : Tensor (ℝ))
    (hHc : Hc = if c.permute then (H.getD inH).map move else H.getD inH)
    (hHc' : Hc.map (SO2.leftApplyAngle g) = if c.permute then (H'.getD (inH.map (SO2.leftApplyAngle g))).map move' else H'.getD (inH.map (SO2.leftApplyAngle g))) (hn : Hc.shape = [n])
    (hx : MovedTensor LatticeSym.ax2 σ [N, k.inC, n] S' S x x') :
    ∃ out out', M.separableSE move weightH weight bias x inH H = .ok (out, Hc) ∧
      M.separableSE move' weightH weight bias x' (inH.map (SO2.leftApplyAngle g)) H' = .ok (out', Hc.map (SO2.leftApplyAngle g)) ∧
      MovedTensor LatticeSym.ax2 σ [N, k.outC, n] (outDims ax S₁') (outDims ax S₁) out out' := by
  obtain ⟨K, hK, hL, hMK, hMp⟩ := build_ok hM
  have hks : kernelDims ax = [k.kernelSize, k.kernelSize] := hgeo.kernel.symm
  obtain ⟨b1, b2, b3, b4⟩ := fullSE2_args k wd hr hK
  rw [b3, ← hks] at hL
  obtain ⟨K', h1, -, h2⟩ := (KernelSE2.C57_SE2 k hk hm g σ hg).2 wd hr
  rw [hK] at h1
  cases h1
  obtain ⟨out, out', x1, y1, z⟩ := separable_equivariant hgeo hL hσ hg₁ hsym₁ hS₁ hS₁' hS hsym h2 b1 b2 (by rw [b3, hks])
    weightH weight (by rw [b1, b2, b4]; exact hwH) (by rw [b1, b3]; exact hw) bias hb N n hC hn0 x x' inH Hc hin hn (fun _ _ _ _ => trivial) hx
  refine ⟨out, out', ?_, ?_, movedOutput_one z⟩
  · rw [← x1, eq_permute hHc hn, ← hMp, ← hMK]; rfl
  · rw [← y1, eq_permute hHc' hn, ← hMp, ← hMK]; rfl

/-! ## SE3 -/

theorem liftingSE3_args {s : GridCache.Store (Tensor ℝ)} {opt : List SO3.Euler} {k : KernelArgs SO3.Mat3 ℕ} {K} (h : KernelSE3.lifting s opt k = .ok K) :
    K.outC = k.outC ∧ K.inC / K.groups = k.inC / k.groups ∧ K.kernelSize = [k.kernelSize, k.kernelSize, k.kernelSize] := by
  unfold KernelSE3.lifting at h
  obtain ⟨gr, hgr, h⟩ := bind_ok h
  unfold checkGroups at h
  split at h
  · cases h
  · cases h; exact ⟨rfl, rfl, rfl⟩

theorem fullSE3_args (s : GridCache.Store (Tensor ℝ)) (opt : List SO3.Euler) (k : KernelArgs SO3.Mat3 ℕ) (gr : Tensor SO3.Mat3) (wd : ℝ) (hr : KernelSE3.Ready s opt k gr wd) {K}
    (h : KernelSE3.full s opt k = .ok K) :
    K.outC = k.outC ∧ K.inC / K.groups = k.inC / k.groups ∧ K.kernelSize = [k.kernelSize, k.kernelSize, k.kernelSize] ∧ K.groupKernelDim = gr.shape.headD 0 := by
  rw [KernelSE3.full_eq hr] at h
  cases h
  exact ⟨rfl, rfl, rfl, KernelSE3.dim hr⟩

/-- `GLiftingConvSE3`: moving the input by a lattice symmetry and multiplying the group elements that are used
(`Hc`: the given or the default ones, multiplied by the random element if `permute_output_grid`) moves the
output. -/
theorem C64_SE3 (s : GridCache.Store (Tensor ℝ)) (opt : List SO3.Euler) (k : KernelArgs SO3.Mat3 ℕ) (c : ConvOpts) (hk : 2 ≤ k.kernelSize) {m p}
    (hm : SpatialModes k.spatialMode k.spatialPad m p)
    {M : Module SO3.Mat3 3} (hM : liftingSE3 s opt k c = .ok M) {mode : F.CPad} {ax : List Axis}
    (hgeo : HasGeometry (argsSE3 k c) mode ax)
    {σ : LatticeSym 3} {S' S : List ℕ} (hσ : LatticeSym.Matches LatticeSym.ax3 σ S' S)
    (hS : GeomOk mode ax S) (hsym : SymmetricGeometry 3 ax S) (hσr : IsRotation σ.matrix) (hpos : 0 < k.inC)
    (weight : Tensor ℝ) (hw : weight.shape = [k.outC, k.inC / k.groups, k.kernelSize, k.kernelSize, k.kernelSize])
    (bias : Option (Tensor ℝ)) (hb : BiasShape bias k.outC 3) (N n : ℕ) (x x' : Tensor ℝ)
    (H H' : Option (Tensor (SO3.Mat3))) (move move' : SO3.Mat3 → SO3.Mat3) (Hc : Tensor (SO3.Mat3))
    (hHc : Hc = if c.permute then (H.getD M.kernel.gridH).map move else H.getD M.kernel.gridH)
    (hHc' : Hc.map (SO3.leftApplyMatrix σ.matrix) = if c.permute then (H'.getD M.kernel.gridH).map move' else H'.getD M.kernel.gridH) (hn : Hc.shape = [n])
    (hx : MovedTensor LatticeSym.ax3 σ [N, k.inC] S' S x x') :
    ∃ out out', M.lift move weight bias x H = .ok (out, Hc) ∧
      M.lift move' weight bias x' H' = .ok (out', Hc.map (SO3.leftApplyMatrix σ.matrix)) ∧
      MovedTensor LatticeSym.ax3 σ [N, k.outC, n] (outDims ax S') (outDims ax S) out out' := by
  obtain ⟨K, hK, hL, hMK, hMp⟩ := build_ok hM
  have hg0 : 0 < k.groups := Int.natCast_pos.1 (groups_pos hgeo hL)
  have hks : kernelDims ax = [k.kernelSize, k.kernelSize, k.kernelSize] := hgeo.kernel.symm
  rw [(liftingSE3_size hK).1, ← hks] at hL
  obtain ⟨gr, hgr⟩ := (liftingSE3_size hK).2
  obtain ⟨K', h1, h2⟩ := (KernelSE3.C57_SE3 s opt k hk hm σ hσr).1 gr hg0 hgr
  rw [hK] at h1
  cases h1
  obtain ⟨b1, b2, b3⟩ := liftingSE3_args hK
  obtain ⟨out, out', x1, y1, z⟩ := lifting_equivariant hgeo hL hσ hS hsym h2 b1 b2 (by rw [b3, hks]) weight
    (by rw [b1, b2, b3]; exact hw) bias hb N n x x' Hc hn hpos hx
  refine ⟨out, out', ?_, ?_, movedOutput_one z⟩
  · rw [← x1, eq_permute hHc hn, ← hMp, ← hMK]; rfl
  · rw [← y1, eq_permute hHc' hn, ← hMp, ← hMK]; rfl

/-- `GConvSE3`. -/
theorem C65_SE3 (s : GridCache.Store (Tensor ℝ)) (opt : List SO3.Euler) (k : KernelArgs SO3.Mat3 ℕ) (c : ConvOpts) (hk : 2 ≤ k.kernelSize) {m p}
    (hm : SpatialModes k.spatialMode k.spatialPad m p)
    (gr : Tensor SO3.Mat3) (wd : ℝ) (hr : KernelSE3.Ready s opt k gr wd)
    {M : Module SO3.Mat3 3} (hM : fullSE3 s opt k c = .ok M) {mode : F.CPad} {ax : List Axis}
    (hgeo : HasGeometry (argsSE3 k c) mode ax)
    {σ : LatticeSym 3} {S' S : List ℕ} (hσ : LatticeSym.Matches LatticeSym.ax3 σ S' S)
    (hS : GeomOk mode ax S) (hsym : SymmetricGeometry 3 ax S) (hσr : IsRotation σ.matrix)
    (weight : Tensor ℝ) (hw : weight.shape = [gr.shape.headD 0, k.outC, k.inC / k.groups, k.kernelSize, k.kernelSize, k.kernelSize])
    (bias : Option (Tensor ℝ)) (hb : BiasShape bias k.outC 3) (N mi n : ℕ) (x x' : Tensor ℝ)
    (inH : Tensor (SO3.Mat3)) (hin : inH.shape = [mi])
    (H H' : Option (Tensor (SO3.Mat3))) (move move' : SO3.Mat3 → SO3.Mat3) (Hc : Tensor (SO3.Mat3))
    (hHc : Hc = if c.permute then (H.getD inH).map move else H.getD inH)
    (hHc' : Hc.map (SO3.leftApplyMatrix σ.matrix) = if c.permute then (H'.getD (inH.map (SO3.leftApplyMatrix σ.matrix))).map move' else H'.getD (inH.map (SO3.leftApplyMatrix σ.matrix))) (hn : Hc.shape = [n])
    (hx : MovedTensor LatticeSym.ax3 σ [N, k.inC, mi] S' S x x') :
    ∃ out out', M.groupSE move weight bias x inH H = .ok (out, Hc) ∧
      M.groupSE move' weight bias x' (inH.map (SO3.leftApplyMatrix σ.matrix)) H' = .ok (out', Hc.map (SO3.leftApplyMatrix σ.matrix)) ∧
      MovedTensor LatticeSym.ax3 σ [N, k.outC, n] (outDims ax S') (outDims ax S) out out' := by
  obtain ⟨K, hK, hL, hMK, hMp⟩ := build_ok hM
  have hks : kernelDims ax = [k.kernelSize, k.kernelSize, k.kernelSize] := hgeo.kernel.symm
  obtain ⟨b1, b2, b3, b4⟩ := fullSE3_args s opt k gr wd hr hK
  rw [b3, ← hks] at hL
  obtain ⟨K', h1, h2, -⟩ := (KernelSE3.C57_SE3 s opt k hk hm σ hσr).2 gr wd hr
  rw [hK] at h1
  cases h1
  obtain ⟨out, out', x1, y1, z⟩ := group_equivariant hgeo hL hσ hS hsym h2 b1 b2 (by rw [b3, hks]) weight
    (by rw [b1, b2, b3, b4]; exact hw) bias hb N mi n x x' inH Hc hin hn (fun _ _ _ _ => trivial) hx
  refine ⟨out, out', ?_, ?_, movedOutput_one z⟩
  · rw [← x1, eq_permute hHc hn, ← hMp, ← hMK]; rfl
  · rw [← y1, eq_permute hHc' hn, ← hMp, ← hMK]; rfl

/-- `GSeparableConvSE3` with as many input as output group elements; the geometry of both convolutions is
symmetric (`S₁` are the extents between them). -/
theorem C65_SE3_separable (s : GridCache.Store (Tensor ℝ)) (opt : List SO3.Euler) (k : KernelArgs SO3.Mat3 ℕ) (c : ConvOpts) (hk : 2 ≤ k.kernelSize) {m p}
    (hm : SpatialModes k.spatialMode k.spatialPad m p)
    (gr : Tensor SO3.Mat3) (wd : ℝ) (hr : KernelSE3.Ready s opt k gr wd)
    {M : Module SO3.Mat3 3} (hM : fullSE3 s opt k c = .ok M) {mode : F.CPad} {ax : List Axis}
    (hgeo : HasGeometry (argsSE3 k c) mode ax)
    {σ : LatticeSym 3} {S' S : List ℕ} (hσ : LatticeSym.Matches LatticeSym.ax3 σ S' S) {S₁' S₁ : List ℕ}
    (hg₁ : GeomOk mode (firstAxes mode c.padding ax) S) (hsym₁ : SymmetricGeometry 3 (firstAxes mode c.padding ax) S)
    (hS₁ : outDims (firstAxes mode c.padding ax) S = S₁) (hS₁' : outDims (firstAxes mode c.padding ax) S' = S₁')
    (hS : GeomOk mode ax S₁) (hsym : SymmetricGeometry 3 ax S₁) (hσr : IsRotation σ.matrix) (hC : 0 < k.outC)
    (weightH weight : Tensor ℝ) (hwH : weightH.shape = [gr.shape.headD 0, k.outC, k.inC / k.groups])
    (hw : weight.shape = [k.outC, 1, k.kernelSize, k.kernelSize, k.kernelSize])
    (bias : Option (Tensor ℝ)) (hb : BiasShape bias k.outC 3) (N n : ℕ) (hn0 : 0 < n) (x x' : Tensor ℝ)
    (inH : Tensor (SO3.Mat3)) (hin : inH.shape = [n])
    (H H' : Option (Tensor (SO3.Mat3))) (move move' : SO3.Mat3 → SO3.Mat3) (Hc : Tensor (SO3.Mat3))
    (hHc : Hc = if c.permute then (H.getD inH).map move else H.getD inH)
    (hHc' : Hc.map (SO3.leftApplyMatrix σ.matrix) = if c.permute then (H'.getD (inH.map (SO3.leftApplyMatrix σ.matrix))).map move' else H'.getD (inH.map (SO3.leftApplyMatrix σ.matrix))) (hn : Hc.shape = [n])
    (hx : MovedTensor LatticeSym.ax3 σ [N, k.inC, n] S' S x x') :
    ∃ out out', M.separableSE move weightH weight bias x inH H = .ok (out, Hc) ∧
      M.separableSE move' weightH weight bias x' (inH.map (SO3.leftApplyMatrix σ.matrix)) H' = .ok (out', Hc.map (SO3.leftApplyMatrix σ.matrix)) ∧
      MovedTensor LatticeSym.ax3 σ [N, k.outC, n] (outDims ax S₁') (outDims ax S₁) out out' := by
  obtain ⟨K, hK, hL, hMK, hMp⟩ := build_ok hM
  have hks : kernelDims ax = [k.kernelSize, k.kernelSize, k.kernelSize] := hgeo.kernel.symm
  obtain ⟨b1, b2, b3, b4⟩ := fullSE3_args s opt k gr wd hr hK
  rw [b3, ← hks] at hL
  obtain ⟨K', h1, -, h2⟩ := (KernelSE3.C57_SE3 s opt k hk hm σ hσr).2 gr wd hr
  rw [hK] at h1
  cases h1
  obtain ⟨out, out', x1, y1, z⟩ := separable_equivariant hgeo hL hσ hg₁ hsym₁ hS₁ hS₁' hS hsym h2 b1 b2 (by rw [b3, hks])
    weightH weight (by rw [b1, b2, b4]; exact hwH) (by rw [b1, b3]; exact hw) bias hb N n hC hn0 x x' inH Hc hin hn (fun _ _ _ _ => trivial) hx
  refine ⟨out, out', ?_, ?_, movedOutput_one z⟩
  · rw [← x1, eq_permute hHc hn, ← hMp, ← hMK]; rfl
  · rw [← y1, eq_permute hHc' hn, ← hMp, ← hMK]; rfl

/-! ## E2 -/

theorem liftingE2_args {k : KernelArgs O2.Elt SizeArg} {K} (h : KernelE2.lifting k = .ok K) :
    K.outC = k.outC ∧ K.inC / K.groups = k.inC / k.groups ∧ K.kernelSize = [k.kernelSize, k.kernelSize] := by
  unfold KernelE2.lifting checkGroups at h
  split at h
  · cases h
  · cases h; exact ⟨rfl, rfl, rfl⟩

theorem fullE2_args (k : KernelArgs O2.Elt SizeArg) (wr wf : ℝ) (hr : KernelE2.Ready k wr wf) {K}
    (h : KernelE2.full k = .ok K) :
    K.outC = k.outC ∧ K.inC / K.groups = k.inC / k.groups ∧ K.kernelSize = [k.kernelSize, k.kernelSize] ∧ K.groupKernelDim = KernelE2.nRot k + KernelE2.nRef k := by
  rw [KernelE2.full_eq hr] at h
  cases h
  exact ⟨rfl, rfl, rfl, by rfl⟩

/-- `GLiftingConvE2`: moving the input by a lattice symmetry and multiplying the group elements that are used
(`Hc`: the given or the default ones, multiplied by the random element if `permute_output_grid`) moves the
output times `det g`. -/
theorem C66_E2_partial (k : KernelArgs O2.Elt SizeArg) (c : ConvOpts) (hk : 2 ≤ k.kernelSize) {m p}
    (hm : SpatialModes k.spatialMode k.spatialPad m p)
    {M : Module O2.Elt 2} (hM : liftingE2 k c = .ok M) {mode : F.CPad} {ax : List Axis}
    (hgeo : HasGeometry (argsE2 k c) mode ax)
    {σ : LatticeSym 2} {S' S : List ℕ} (hσ : LatticeSym.Matches LatticeSym.ax2 σ S' S)
    (hS : GeomOk mode ax S) (hsym : SymmetricGeometry 2 ax S) (g : O2.Elt) (hc : g.1 = 1 ∨ g.1 = -1) (hg : g.1 • SO2.angleToMatrix g.2 = σ.matrix) (hpos : 0 < k.inC)
    (weight : Tensor ℝ) (hw : weight.shape = [k.outC, k.inC / k.groups, k.kernelSize, k.kernelSize])
    (bias : Option (Tensor ℝ)) (hb : BiasShape bias k.outC 2) (N n : ℕ) (x x' : Tensor ℝ)
    (H H' : Option (Tensor (O2.Elt))) (move move' : O2.Elt → O2.Elt) (Hc : Tensor (O2.Elt))
    (hHc : Hc = if c.permute then (H.getD M.kernel.gridH).map move else H.getD M.kernel.gridH)
    (hHc' : Hc.map (O2.leftApplyAngle g) = if c.permute then (H'.getD M.kernel.gridH).map move' else H'.getD M.kernel.gridH) (hn : Hc.shape = [n])
    (hx : MovedTensor LatticeSym.ax2 σ [N, k.inC] S' S x x') :
    ∃ out out', M.lift move weight bias x H = .ok (out, Hc) ∧
      M.lift move' weight bias x' H' = .ok (out', Hc.map (O2.leftApplyAngle g)) ∧
      MovedOutput LatticeSym.ax2 σ (O2.det g) bias N k.outC n (outDims ax S') (outDims ax S) out out' := by
  obtain ⟨K, hK, hL, hMK, hMp⟩ := build_ok hM
  have hg0 : 0 < k.groups := Int.natCast_pos.1 (groups_pos hgeo hL)
  have hks : kernelDims ax = [k.kernelSize, k.kernelSize] := hgeo.kernel.symm
  rw [liftingE2_size hK, ← hks] at hL
  
  obtain ⟨K', h1, h2⟩ := (KernelE2.C57_E2 k hk hm g hc σ hg).1 hg0
  rw [hK] at h1
  cases h1
  obtain ⟨b1, b2, b3⟩ := liftingE2_args hK
  obtain ⟨out, out', x1, y1, z⟩ := lifting_equivariant hgeo hL hσ hS hsym h2 b1 b2 (by rw [b3, hks]) weight
    (by rw [b1, b2, b3]; exact hw) bias hb N n x x' Hc hn hpos hx
  refine ⟨out, out', ?_, ?_, z⟩
  · rw [← x1, eq_permute hHc hn, ← hMp, ← hMK]; rfl
  · rw [← y1, eq_permute hHc' hn, ← hMp, ← hMK]; rfl

/-- `GConvE2`. -/
theorem C66_E2_group_partial (k : KernelArgs O2.Elt SizeArg) (c : ConvOpts) (hk : 2 ≤ k.kernelSize) {m p}
    (hm : SpatialModes k.spatialMode k.spatialPad m p)
    (wr wf : ℝ) (hr : KernelE2.Ready k wr wf)
    {M : Module O2.Elt 2} (hM : fullE2 k c = .ok M) {mode : F.CPad} {ax : List Axis}
    (hgeo : HasGeometry (argsE2 k c) mode ax)
    {σ : LatticeSym 2} {S' S : List ℕ} (hσ : LatticeSym.Matches LatticeSym.ax2 σ S' S)
    (hS : GeomOk mode ax S) (hsym : SymmetricGeometry 2 ax S) (g : O2.Elt) (hc : g.1 = 1 ∨ g.1 = -1) (hg : g.1 • SO2.angleToMatrix g.2 = σ.matrix)
    (weight : Tensor ℝ) (hw : weight.shape = [KernelE2.nRot k + KernelE2.nRef k, k.outC, k.inC / k.groups, k.kernelSize, k.kernelSize])
    (bias : Option (Tensor ℝ)) (hb : BiasShape bias k.outC 2) (N mi n : ℕ) (x x' : Tensor ℝ)
    (inH : Tensor (O2.Elt)) (hin : inH.shape = [mi])
    (H H' : Option (Tensor (O2.Elt))) (move move' : O2.Elt → O2.Elt) (Hc : Tensor (O2.Elt))
    (hHc : Hc = if c.permute then (H.getD M.kernel.gridH).map move else H.getD M.kernel.gridH)
    (hHc' : Hc.map (O2.leftApplyAngle g) = if c.permute then (H'.getD M.kernel.gridH).map move' else H'.getD M.kernel.gridH) (hn : Hc.shape = [n])
    (hp : ∀ h < n, ∀ i < mi, KernelE2.Pair k (Hc.get [h]) (inH.get [i]))
    (hx : MovedTensor LatticeSym.ax2 σ [N, k.inC, mi] S' S x x') :
    ∃ out out', M.groupE move weight bias x inH H = .ok (out, Hc) ∧
      M.groupE move' weight bias x' (inH.map (O2.leftApplyAngle g)) H' = .ok (out', Hc.map (O2.leftApplyAngle g)) ∧
      MovedOutput LatticeSym.ax2 σ (O2.det g) bias N k.outC n (outDims ax S') (outDims ax S) out out' := by
  obtain ⟨K, hK, hL, hMK, hMp⟩ := build_ok hM
  have hks : kernelDims ax = [k.kernelSize, k.kernelSize] := hgeo.kernel.symm
  obtain ⟨b1, b2, b3, b4⟩ := fullE2_args k wr wf hr hK
  rw [b3, ← hks] at hL
  obtain ⟨K', h1, h2, -⟩ := (KernelE2.C57_E2 k hk hm g hc σ hg).2 wr wf hr
  rw [hK] at h1
  cases h1
  obtain ⟨out, out', x1, y1, z⟩ := group_equivariant hgeo hL hσ hS hsym h2 b1 b2 (by rw [b3, hks]) weight
    (by rw [b1, b2, b3, b4]; exact hw) bias hb N mi n x x' inH Hc hin hn hp hx
  refine ⟨out, out', ?_, ?_, z⟩
  · rw [← x1, eq_permute hHc hn, ← hMp, ← hMK]; rfl
  · rw [← y1, eq_permute hHc' hn, ← hMp, ← hMK]; rfl

/-- `GSeparableConvE2` with as many input as output group elements; the geometry of both convolutions is
symmetric (`S₁` are the extents between them). -/
theorem C66_E2_separable_partial (k : KernelArgs O2.Elt SizeArg) (c : ConvOpts) (hk : 2 ≤ k.kernelSize) {m p}
    (hm : SpatialModes k.spatialMode k.spatialPad m p)
    (wr wf : ℝ) (hr : KernelE2.Ready k wr wf)
    {M : Module O2.Elt 2} (hM : fullE2 k c = .ok M) {mode : F.CPad} {ax : List Axis}
    (hgeo : HasGeometry (argsE2 k c) mode ax)
    {σ : LatticeSym 2} {S' S : List ℕ} (hσ : LatticeSym.Matches LatticeSym.ax2 σ S' S) {S₁' S₁ : List ℕ}
    (hg₁ : GeomOk mode (firstAxes mode c.padding ax) S) (hsym₁ : SymmetricGeometry 2 (firstAxes mode c.padding ax) S)
    (hS₁ : outDims (firstAxes mode c.padding ax) S = S₁) (hS₁' : outDims (firstAxes mode c.padding ax) S' = S₁')
    (hS : GeomOk mode ax S₁) (hsym : SymmetricGeometry 2 ax S₁) (g : O2.Elt) (hc : g.1 = 1 ∨ g.1 = -1) (hg : g.1 • SO2.angleToMatrix g.2 = σ.matrix) (hC : 0 < k.outC)
    (weightH weight : Tensor ℝ) (hwH : weightH.shape = [KernelE2.nRot k + KernelE2.nRef k, k.outC, k.inC / k.groups])
    (hw : weight.shape = [k.outC, 1, k.kernelSize, k.kernelSize])
    (bias : Option (Tensor ℝ)) (hb : BiasShape bias k.outC 2) (N n : ℕ) (hn0 : 0 < n) (x x' : Tensor ℝ)
    (inH : Tensor (O2.Elt)) (hin : inH.shape = [n])
    (H H' : Option (Tensor (O2.Elt))) (move move' : O2.Elt → O2.Elt) (Hc : Tensor (O2.Elt))
    (hHc : Hc = if c.permute then (H.getD M.kernel.gridH).map move else H.getD M.kernel.gridH)
    (hHc' : Hc.map (O2.leftApplyAngle g) = if c.permute then (H'.getD M.kernel.gridH).map move' else H'.getD M.kernel.gridH) (hn : Hc.shape = [n])
    (hp : ∀ h < n, ∀ i < n, KernelE2.Pair k (Hc.get [h]) (inH.get [i]))
    (hx : MovedTensor LatticeSym.ax2 σ [N, k.inC, n] S' S x x') :
    ∃ out out', M.separableE move weightH weight bias x inH H = .ok (out, Hc) ∧
      M.separableE move' weightH weight bias x' (inH.map (O2.leftApplyAngle g)) H' = .ok (out', Hc.map (O2.leftApplyAngle g)) ∧
      MovedOutput LatticeSym.ax2 σ (O2.det g) bias N k.outC n (outDims ax S₁') (outDims ax S₁) out out' := by
  obtain ⟨K, hK, hL, hMK, hMp⟩ := build_ok hM
  have hks : kernelDims ax = [k.kernelSize, k.kernelSize] := hgeo.kernel.symm
  obtain ⟨b1, b2, b3, b4⟩ := fullE2_args k wr wf hr hK
  rw [b3, ← hks] at hL
  obtain ⟨K', h1, -, h2⟩ := (KernelE2.C57_E2 k hk hm g hc σ hg).2 wr wf hr
  rw [hK] at h1
  cases h1
  obtain ⟨out, out', x1, y1, z⟩ := separable_equivariant hgeo hL hσ hg₁ hsym₁ hS₁ hS₁' hS hsym h2 b1 b2 (by rw [b3, hks])
    weightH weight (by rw [b1, b2, b4]; exact hwH) (by rw [b1, b3]; exact hw) bias hb N n hC hn0 x x' inH Hc hin hn hp hx
  refine ⟨out, out', ?_, ?_, z⟩
  · rw [← x1, eq_permute hHc hn, ← hMp, ← hMK]; rfl
  · rw [← y1, eq_permute hHc' hn, ← hMp, ← hMK]; rfl

/-! ## E3 -/

theorem liftingE3_args {s : GridCache.Store (Tensor ℝ)} {opt1 opt2 : List SO3.Euler} {k : KernelArgs O3.Elt SizeArg} {K} (h : KernelE3.lifting s opt1 opt2 k = .ok K) :
    K.outC = k.outC ∧ K.inC / K.groups = k.inC / k.groups ∧ K.kernelSize = [k.kernelSize, k.kernelSize, k.kernelSize] := by
  unfold KernelE3.lifting at h
  obtain ⟨gr, hgr, h⟩ := bind_ok h
  unfold checkGroups at h
  split at h
  · cases h
  · cases h; exact ⟨rfl, rfl, rfl⟩

theorem fullE3_args (s : GridCache.Store (Tensor ℝ)) (opt1 opt2 : List SO3.Euler) (k : KernelArgs O3.Elt SizeArg) (gr : Tensor O3.Elt) (wr wf : ℝ) (hr : KernelE3.Ready s opt1 opt2 k gr wr wf) {K}
    (h : KernelE3.full s opt1 opt2 k = .ok K) :
    K.outC = k.outC ∧ K.inC / K.groups = k.inC / k.groups ∧ K.kernelSize = [k.kernelSize, k.kernelSize, k.kernelSize] ∧ K.groupKernelDim = KernelE3.nRot k + KernelE3.nRef k := by
  rw [KernelE3.full_eq hr] at h
  cases h
  exact ⟨rfl, rfl, rfl, by rfl⟩

/-- `GLiftingConvE3`: moving the input by a lattice symmetry and multiplying the group elements that are used
(`Hc`: the given or the default ones, multiplied by the random element if `permute_output_grid`) moves the
output times `det g`. -/
theorem C66_E3_partial (s : GridCache.Store (Tensor ℝ)) (opt1 opt2 : List SO3.Euler) (k : KernelArgs O3.Elt SizeArg) (c : ConvOpts) (hk : 2 ≤ k.kernelSize) {m p}
    (hm : SpatialModes k.spatialMode k.spatialPad m p)
    {M : Module O3.Elt 3} (hM : liftingE3 s opt1 opt2 k c = .ok M) {mode : F.CPad} {ax : List Axis}
    (hgeo : HasGeometry (argsE3 k c) mode ax)
    {σ : LatticeSym 3} {S' S : List ℕ} (hσ : LatticeSym.Matches LatticeSym.ax3 σ S' S)
    (hS : GeomOk mode ax S) (hsym : SymmetricGeometry 3 ax S) (g : O3.Elt) (hv : O3.Valid g) (hg : O3.coef g • O3.rot g = σ.matrix) (hpos : 0 < k.inC)
    (weight : Tensor ℝ) (hw : weight.shape = [k.outC, k.inC / k.groups, k.kernelSize, k.kernelSize, k.kernelSize])
    (bias : Option (Tensor ℝ)) (hb : BiasShape bias k.outC 3) (N n : ℕ) (x x' : Tensor ℝ)
    (H H' : Option (Tensor (O3.Elt))) (move move' : O3.Elt → O3.Elt) (Hc : Tensor (O3.Elt))
    (hHc : Hc = if c.permute then (H.getD M.kernel.gridH).map move else H.getD M.kernel.gridH)
    (hHc' : Hc.map (O3.leftApplyO3 g) = if c.permute then (H'.getD M.kernel.gridH).map move' else H'.getD M.kernel.gridH) (hn : Hc.shape = [n])
    (hx : MovedTensor LatticeSym.ax3 σ [N, k.inC] S' S x x') :
    ∃ out out', M.lift move weight bias x H = .ok (out, Hc) ∧
      M.lift move' weight bias x' H' = .ok (out', Hc.map (O3.leftApplyO3 g)) ∧
      MovedOutput LatticeSym.ax3 σ (O3.det g) bias N k.outC n (outDims ax S') (outDims ax S) out out' := by
  obtain ⟨K, hK, hL, hMK, hMp⟩ := build_ok hM
  have hg0 : 0 < k.groups := Int.natCast_pos.1 (groups_pos hgeo hL)
  have hks : kernelDims ax = [k.kernelSize, k.kernelSize, k.kernelSize] := hgeo.kernel.symm
  rw [(liftingE3_size hK).1, ← hks] at hL
  obtain ⟨gr, hgr⟩ := (liftingE3_size hK).2
  obtain ⟨K', h1, h2⟩ := (KernelE3.C57_E3 s opt1 opt2 k hk hm g hv σ hg).1 gr hg0 hgr
  rw [hK] at h1
  cases h1
  obtain ⟨b1, b2, b3⟩ := liftingE3_args hK
  obtain ⟨out, out', x1, y1, z⟩ := lifting_equivariant hgeo hL hσ hS hsym h2 b1 b2 (by rw [b3, hks]) weight
    (by rw [b1, b2, b3]; exact hw) bias hb N n x x' Hc hn hpos hx
  refine ⟨out, out', ?_, ?_, z⟩
  · rw [← x1, eq_permute hHc hn, ← hMp, ← hMK]; rfl
  · rw [← y1, eq_permute hHc' hn, ← hMp, ← hMK]; rfl

/-- `GConvE3`. -/
theorem C66_E3_group_partial (s : GridCache.Store (Tensor ℝ)) (opt1 opt2 : List SO3.Euler) (k : KernelArgs O3.Elt SizeArg) (c : ConvOpts) (hk : 2 ≤ k.kernelSize) {m p}
    (hm : SpatialModes k.spatialMode k.spatialPad m p)
    (gr : Tensor O3.Elt) (wr wf : ℝ) (hr : KernelE3.Ready s opt1 opt2 k gr wr wf)
    {M : Module O3.Elt 3} (hM : fullE3 s opt1 opt2 k c = .ok M) {mode : F.CPad} {ax : List Axis}
    (hgeo : HasGeometry (argsE3 k c) mode ax)
    {σ : LatticeSym 3} {S' S : List ℕ} (hσ : LatticeSym.Matches LatticeSym.ax3 σ S' S)
    (hS : GeomOk mode ax S) (hsym : SymmetricGeometry 3 ax S) (g : O3.Elt) (hv : O3.Valid g) (hg : O3.coef g • O3.rot g = σ.matrix)
    (weight : Tensor ℝ) (hw : weight.shape = [KernelE3.nRot k + KernelE3.nRef k, k.outC, k.inC / k.groups, k.kernelSize, k.kernelSize, k.kernelSize])
    (bias : Option (Tensor ℝ)) (hb : BiasShape bias k.outC 3) (N mi n : ℕ) (x x' : Tensor ℝ)
    (inH : Tensor (O3.Elt)) (hin : inH.shape = [mi])
    (H H' : Option (Tensor (O3.Elt))) (move move' : O3.Elt → O3.Elt) (Hc : Tensor (O3.Elt))
    (hHc : Hc = if c.permute then (H.getD M.kernel.gridH).map move else H.getD M.kernel.gridH)
    (hHc' : Hc.map (O3.leftApplyO3 g) = if c.permute then (H'.getD M.kernel.gridH).map move' else H'.getD M.kernel.gridH) (hn : Hc.shape = [n])
    (hp : ∀ h < n, ∀ i < mi, KernelE3.Pair k (Hc.get [h]) (inH.get [i]))
    (hx : MovedTensor LatticeSym.ax3 σ [N, k.inC, mi] S' S x x') :
    ∃ out out', M.groupE move weight bias x inH H = .ok (out, Hc) ∧
      M.groupE move' weight bias x' (inH.map (O3.leftApplyO3 g)) H' = .ok (out', Hc.map (O3.leftApplyO3 g)) ∧
      MovedOutput LatticeSym.ax3 σ (O3.det g) bias N k.outC n (outDims ax S') (outDims ax S) out out' := by
  obtain ⟨K, hK, hL, hMK, hMp⟩ := build_ok hM
  have hks : kernelDims ax = [k.kernelSize, k.kernelSize, k.kernelSize] := hgeo.kernel.symm
  obtain ⟨b1, b2, b3, b4⟩ := fullE3_args s opt1 opt2 k gr wr wf hr hK
  rw [b3, ← hks] at hL
  obtain ⟨K', h1, h2, -⟩ := (KernelE3.C57_E3 s opt1 opt2 k hk hm g hv σ hg).2 gr wr wf hr
  rw [hK] at h1
  cases h1
  obtain ⟨out, out', x1, y1, z⟩ := group_equivariant hgeo hL hσ hS hsym h2 b1 b2 (by rw [b3, hks]) weight
    (by rw [b1, b2, b3, b4]; exact hw) bias hb N mi n x x' inH Hc hin hn hp hx
  refine ⟨out, out', ?_, ?_, z⟩
  · rw [← x1, eq_permute hHc hn, ← hMp, ← hMK]; rfl
  · rw [← y1, eq_permute hHc' hn, ← hMp, ← hMK]; rfl

/-- `GSeparableConvE3` with as many input as output group elements; the geometry of both convolutions is
symmetric (`S₁` are the extents between them). -/
theorem C66_E3_separable_partial (s : GridCache.Store (Tensor ℝ)) (opt1 opt2 : List SO3.Euler) (k : KernelArgs O3.Elt SizeArg) (c : ConvOpts) (hk : 2 ≤ k.kernelSize) {m p}
    (hm : SpatialModes k.spatialMode k.spatialPad m p)
    (gr : Tensor O3.Elt) (wr wf : ℝ) (hr : KernelE3.Ready s opt1 opt2 k gr wr wf)
    {M : Module O3.Elt 3} (hM : fullE3 s opt1 opt2 k c = .ok M) {mode : F.CPad} {ax : List Axis}
    (hgeo : HasGeometry (argsE3 k c) mode ax)
    {σ : LatticeSym 3} {S' S : List ℕ} (hσ : LatticeSym.Matches LatticeSym.ax3 σ S' S) {S₁' S₁ : List ℕ}
    (hg₁ : GeomOk mode (firstAxes mode c.padding ax) S) (hsym₁ : SymmetricGeometry 3 (firstAxes mode c.padding ax) S)
    (hS₁ : outDims (firstAxes mode c.padding ax) S = S₁) (hS₁' : outDims (firstAxes mode c.padding ax) S' = S₁')
    (hS : GeomOk mode ax S₁) (hsym : SymmetricGeometry 3 ax S₁) (g : O3.Elt) (hv : O3.Valid g) (hg : O3.coef g • O3.rot g = σ.matrix) (hC : 0 < k.outC)
    (weightH weight : Tensor ℝ) (hwH : weightH.shape = [KernelE3.nRot k + KernelE3.nRef k, k.outC, k.inC / k.groups])
    (hw : weight.shape = [k.outC, 1, k.kernelSize, k.kernelSize, k.kernelSize])
    (bias : Option (Tensor ℝ)) (hb : BiasShape bias k.outC 3) (N n : ℕ) (hn0 : 0 < n) (x x' : Tensor ℝ)
    (inH : Tensor (O3.Elt)) (hin : inH.shape = [n])
    (H H' : Option (Tensor (O3.Elt))) (move move' : O3.Elt → O3.Elt) (Hc : Tensor (O3.Elt))
    (hHc : Hc = if c.permute then (H.getD M.kernel.gridH).map move else H.getD M.kernel.gridH)
    (hHc' : Hc.map (O3.leftApplyO3 g) = if c.permute then (H'.getD M.kernel.gridH).map move' else H'.getD M.kernel.gridH) (hn : Hc.shape = [n])
    (hp : ∀ h < n, ∀ i < n, KernelE3.Pair k (Hc.get [h]) (inH.get [i]))
    (hx : MovedTensor LatticeSym.ax3 σ [N, k.inC, n] S' S x x') :
    ∃ out out', M.separableE move weightH weight bias x inH H = .ok (out, Hc) ∧
      M.separableE move' weightH weight bias x' (inH.map (O3.leftApplyO3 g)) H' = .ok (out', Hc.map (O3.leftApplyO3 g)) ∧
      MovedOutput LatticeSym.ax3 σ (O3.det g) bias N k.outC n (outDims ax S₁') (outDims ax S₁) out out' := by
  obtain ⟨K, hK, hL, hMK, hMp⟩ := build_ok hM
  have hks : kernelDims ax = [k.kernelSize, k.kernelSize, k.kernelSize] := hgeo.kernel.symm
  obtain ⟨b1, b2, b3, b4⟩ := fullE3_args s opt1 opt2 k gr wr wf hr hK
  rw [b3, ← hks] at hL
  obtain ⟨K', h1, -, h2⟩ := (KernelE3.C57_E3 s opt1 opt2 k hk hm g hv σ hg).2 gr wr wf hr
  rw [hK] at h1
  cases h1
  obtain ⟨out, out', x1, y1, z⟩ := separable_equivariant hgeo hL hσ hg₁ hsym₁ hS₁ hS₁' hS hsym h2 b1 b2 (by rw [b3, hks])
    weightH weight (by rw [b1, b2, b4]; exact hwH) (by rw [b1, b3]; exact hw) bias hb N n hC hn0 x x' inH Hc hin hn hp hx
  refine ⟨out, out', ?_, ?_, z⟩
  · rw [← x1, eq_permute hHc hn, ← hMp, ← hMK]; rfl
  · rw [← y1, eq_permute hHc' hn, ← hMp, ← hMK]; rfl

/-! ## Concrete cases -/

/-- every multiple of a quarter turn acts as a lattice symmetry. -/
theorem quarter_turns (j : ℕ) : ∃ σ : LatticeSym 2, SO2.angleToMatrix (j * (Real.pi / 2)) = σ.matrix := by
  have h4 : ∀ j : ℕ, SO2.angleToMatrix (((j + 4 : ℕ) : ℝ) * (Real.pi / 2)) = SO2.angleToMatrix (j * (Real.pi / 2)) := by
    intro j
    have : ((j + 4 : ℕ) : ℝ) * (Real.pi / 2) = j * (Real.pi / 2) + 2 * Real.pi := by push_cast; ring
    rw [this]
    unfold SO2.angleToMatrix
    rw [Real.cos_add_two_pi, Real.sin_add_two_pi]
  have h2 : (2 : ℝ) * (Real.pi / 2) = Real.pi := by ring
  have h3 : (3 : ℝ) * (Real.pi / 2) = Real.pi / 2 + Real.pi := by ring
  induction j using Nat.strong_induction_on with
  | _ j ih =>
    by_cases hj : 4 ≤ j
    · obtain ⟨i, rfl⟩ := Nat.exists_eq_add_of_le' hj
      rw [h4]
      exact ih i (by omega)
    · have : j = 0 ∨ j = 1 ∨ j = 2 ∨ j = 3 := by omega
      rcases this with rfl | rfl | rfl | rfl
      · refine ⟨⟨1, ![false, false]⟩, ?_⟩
        ext a b
        fin_cases a <;> fin_cases b <;> simp [SO2.angleToMatrix, LatticeSym.matrix]
      · exact ⟨KernelSE2.quarter, by rw [Nat.cast_one, one_mul]; exact KernelSE2.quarter_matrix⟩
      · refine ⟨⟨1, ![true, true]⟩, ?_⟩
        rw [Nat.cast_ofNat, h2]
        ext a b
        fin_cases a <;> fin_cases b <;> simp [SO2.angleToMatrix, LatticeSym.matrix]
      · refine ⟨⟨Equiv.swap 0 1, ![false, true]⟩, ?_⟩
        rw [Nat.cast_ofNat, h3]
        ext a b
        fin_cases a <;> fin_cases b <;> simp [SO2.angleToMatrix, LatticeSym.matrix, Real.cos_add_pi, Real.sin_add_pi]

/-- layer options of the example: circular `'same'` padding. -/
def rotOpts : ConvOpts := { padding := .str "same", paddingMode := "circular", permute := false }

/-- the quarter turn takes 8 x 9 images to 9 x 8 images, and the example geometry is symmetric. -/
theorem rot_geometry (n : ℕ) : HasGeometry (argsSE2 (KernelSE2.exArgs n) rotOpts) .circular (List.replicate 2 (sameAxis 5 1)) ∧
    GeomOk .circular (List.replicate 2 (sameAxis 5 1)) [9, 8] ∧
    SymmetricGeometry 2 (List.replicate 2 (sameAxis 5 1)) [9, 8] ∧
    LatticeSym.Matches LatticeSym.ax2 KernelSE2.quarter [8, 9] [9, 8] := by
  obtain ⟨h1, -, h3, -⟩ := C59_same_geometry 2 4 6 5 1 (.int n) 2 "circular" .circular (Or.inr (Or.inr (Or.inr ⟨rfl, rfl⟩)))
    (by norm_num) (by norm_num) [9, 8] rfl (by simp [F.padAllowed])
  refine ⟨h1 rfl, h3, ⟨sameAxis 5 1, rfl, by simp [sameAxis], fun s _ => one_dvd _⟩, rfl, rfl, fun c => ?_⟩
  fin_cases c <;> rfl

/-- `GLiftingConvSE2` of the example, a quarter turn, any weights, images, group elements. -/
example (n : ℕ) (weight : Tensor ℝ) (hw : weight.shape = [6, 2, 5, 5]) (x x' : Tensor ℝ) (H : Tensor ℝ) (hH : H.shape = [7])
    (hx : MovedTensor LatticeSym.ax2 KernelSE2.quarter [3, 4] [8, 9] [9, 8] x x')
    (M : Module ℝ 2) (hM : liftingSE2 (KernelSE2.exArgs n) rotOpts = .ok M) :
    ∃ out out', M.lift id weight none x (some H) = .ok (out, H) ∧
      M.lift id weight none x' (some (H.map (SO2.leftApplyAngle (Real.pi / 2)))) =
        .ok (out', H.map (SO2.leftApplyAngle (Real.pi / 2))) ∧
      MovedTensor LatticeSym.ax2 KernelSE2.quarter [3, 6, 7] (outDims (List.replicate 2 (sameAxis 5 1)) [8, 9])
        (outDims (List.replicate 2 (sameAxis 5 1)) [9, 8]) out out' := by
  obtain ⟨h1, h2, h3, h4⟩ := rot_geometry n
  exact C64_SE2 (KernelSE2.exArgs n) rotOpts (by norm_num [KernelSE2.exArgs]) defaultModes hM h1 h4 h2 h3 (Real.pi / 2)
    KernelSE2.quarter_matrix (by norm_num [KernelSE2.exArgs]) weight (by rw [hw]; simp [KernelSE2.exArgs]) none
    (fun b hb => by cases hb) 3 7 x x' (some H) _ id id H rfl rfl hH hx

/-! ## C66 is false of the code -/

/-- one channel, kernel extent 3, default sampler. -/
def e3Args (gr : Tensor O3.Elt) : KernelArgs O3.Elt SizeArg :=
  { inC := 1, outC := 1, kernelSize := 3, groupKernelSize := .pair 1 0, gridH := some gr }

def e3Opts : ConvOpts := { permute := false }

/-- the grid that contains only the identity. -/
def idGrid : Tensor O3.Elt := ⟨[1], fun _ => O3.mk 1 1⟩

/-- a 3 x 3 x 3 image that is 1 in its centre and 0 elsewhere; it is its own mirror image. -/
noncomputable def deltaImage : Tensor ℝ := ⟨[1, 1, 3, 3, 3], fun i => if i = [0, 0, 1, 1, 1] then 1 else 0⟩

noncomputable def onesWeight : Tensor ℝ := ⟨[1, 1, 3, 3, 3], fun _ => 1⟩

theorem sumBox_single {s k : List ℕ} {f : List ℕ → ℝ} (hk : InB s k) (h : ∀ x, InB s x → x ≠ k → f x = 0) :
    sumBox s f = f k := by
  show sumIdx s f = f k
  rw [sumIdx_eq]
  refine Finset.sum_eq_single k (fun x hx hne => h x (mem_allIdx.1 (List.mem_toFinset.1 hx)) hne) (fun hn => ?_)
  exact absurd (List.mem_toFinset.2 (mem_allIdx.2 hk)) hn

theorem mirror_delta : MovedTensor LatticeSym.ax3 KernelE3.mirror [1, 1] [3, 3, 3] [3, 3, 3] deltaImage deltaImage := by
  refine ⟨rfl, rfl, fun p q hp hq => ?_⟩
  obtain ⟨i, _, rfl, hi, hq⟩ := InB_cons_left hq
  obtain ⟨j, _, rfl, hj, hq⟩ := InB_cons_left hq
  obtain ⟨k, _, rfl, hk, hq⟩ := InB_cons_left hq
  cases InB_nil_left hq
  obtain ⟨b, _, rfl, hb, hp⟩ := InB_cons_left hp
  obtain ⟨c, _, rfl, hc, hp⟩ := InB_cons_left hp
  cases InB_nil_left hp
  have : LatticeSym.move LatticeSym.ax3 KernelE3.mirror [3, 3, 3] [i, j, k] = [i, j, 2 - k] := by
    rfl
  rw [this]
  show (if [b, c, i, j, 2 - k] = [0, 0, 1, 1, 1] then (1 : ℝ) else 0) = if [b, c, i, j, k] = [0, 0, 1, 1, 1] then 1 else 0
  refine if_congr ?_ rfl rfl
  simp only [List.cons.injEq, and_true]
  omega

/-- `GLiftingConvE3` is not equivariant under reflections: for an image equal to its mirror image, the identity
and the mirror element, the two outputs (one cell each) are `1` and `-1`. -/
theorem C66_violated (s : GridCache.Store (Tensor ℝ)) (opt1 opt2 : List SO3.Euler) :
    ∃ M out out', liftingE3 s opt1 opt2 (e3Args idGrid) e3Opts = .ok M ∧
      MovedTensor LatticeSym.ax3 KernelE3.mirror [1, 1] [3, 3, 3] [3, 3, 3] deltaImage deltaImage ∧
      M.lift id onesWeight none deltaImage (some idGrid) = .ok (out, idGrid) ∧
      M.lift id onesWeight none deltaImage (some (idGrid.map (O3.leftApplyO3 KernelE3.mirrorElt))) =
        .ok (out', idGrid.map (O3.leftApplyO3 KernelE3.mirrorElt)) ∧
      out.shape = [1, 1, 1, 1, 1, 1] ∧ out'.shape = [1, 1, 1, 1, 1, 1] ∧
      out.get [0, 0, 0, 0, 0, 0] = 1 ∧ out'.get [0, 0, 0, 0, 0, 0] = -1 := by
  have ha : Accepted (argsE3 (e3Args idGrid) e3Opts) := by
    refine ⟨fun l h => ?_, (by decide : (0 : ℤ) < 1), (by decide : (1 : ℤ) ∣ (1 : ℕ)), (by decide : (1 : ℤ) ∣ (1 : ℕ)),
      fun s h => ?_, Or.inl rfl, Or.inr rfl⟩
    · have h' : GroupSize.tuple [((1 : ℕ) : ℤ), ((0 : ℕ) : ℤ)] = .tuple l := h
      cases h'; decide
    · have h' : PadArg.int 0 = .str s := h
      cases h'
  obtain ⟨L, hL⟩ := (C58_accepts _ _ _ [3, 3, 3] rfl rfl).2 ha
  have hM : liftingE3 s opt1 opt2 (e3Args idGrid) e3Opts = .ok ⟨L, KernelE3.base (e3Args idGrid) idGrid noSampler, false⟩ := by
    show (do
      let L ← init (argsE3 (e3Args idGrid) e3Opts) [3, 3, 3]
      pure (⟨L, KernelE3.base (e3Args idGrid) idGrid noSampler, false⟩ : Module O3.Elt 3)) = _
    rw [hL, ok_bind]
    rfl
  have hgeo : HasGeometry (argsE3 (e3Args idGrid) e3Opts) .zeros (List.replicate 3 ⟨3, 1, 1, 0, 0⟩) :=
    ⟨Or.inr ⟨rfl, rfl⟩, rfl, rfl, rfl, by
      intro a ha
      cases (List.mem_replicate.1 ha).2; exact ⟨rfl, rfl⟩, Or.inl ⟨rfl, rfl⟩⟩
  have hok : (⟨3, 1, 1, 0, 0⟩ : Axis).Ok .zeros 3 :=
    ⟨by norm_num, Nat.one_pos, Nat.one_pos, by unfold Axis.span; simp only; omega, rfl⟩
  have hS : GeomOk .zeros (List.replicate 3 ⟨3, 1, 1, 0, 0⟩) [3, 3, 3] := .cons hok (.cons hok (.cons hok .nil))
  have hO : outDims (List.replicate 3 ⟨3, 1, 1, 0, 0⟩) [3, 3, 3] = [1, 1, 1] := by
    simp [outDims, Axis.out, Axis.span, List.replicate]
  have hsym : SymmetricGeometry 3 (List.replicate 3 ⟨3, 1, 1, 0, 0⟩) [3, 3, 3] := ⟨_, rfl, rfl, fun s _ => one_dvd _⟩
  have hb : BiasShape none 1 3 := fun b hb => by cases hb
  have hcube : LatticeSym.Matches LatticeSym.ax3 KernelE3.mirror [3, 3, 3] [3, 3, 3] := LatticeSym.matches_cube 3
  obtain ⟨out, out', o1, o2, o3, o4, o5⟩ := C66_E3_partial s opt1 opt2 (e3Args idGrid) e3Opts (by norm_num [e3Args]) defaultModes hM hgeo
    hcube hS hsym KernelE3.mirrorElt KernelE3.mirror_spec.1 KernelE3.mirror_spec.2 (by norm_num [e3Args]) onesWeight
    (by simp [onesWeight, e3Args]) none hb 1 1 deltaImage deltaImage (some idGrid) (some (idGrid.map (O3.leftApplyO3 KernelE3.mirrorElt)))
    id id idGrid rfl rfl rfl mirror_delta
  obtain ⟨w, out1, p1, -, p3, p4⟩ := C60_E3 s opt1 opt2 (e3Args idGrid) e3Opts defaultModes hM hgeo hS (by norm_num [e3Args]) onesWeight
    (by simp [onesWeight, e3Args]) none hb 1 deltaImage rfl (some idGrid) 1 rfl id idGrid rfl
  rw [o1] at p1
  cases p1
  rw [hO] at o3 o4 o5 p3
  have hv : out.get [0, 0, 0, 0, 0, 0] = 1 := by
    rw [p3 0 0 0 [0, 0, 0] (by norm_num) (by norm_num [e3Args]) (by norm_num) (by simp)]
    have hg1 : (argsE3 (e3Args idGrid) e3Opts).inC / (argsE3 (e3Args idGrid) e3Opts).groups.toNat = 1 := by
      simp [argsE3, args3d, argsNd, e3Args]
    unfold Spec.liftingConv corr
    rw [hg1, Finset.sum_range_one]
    show sumBox [3, 3, 3] _ + 0 = 1
    rw [add_zero, sumBox_single (k := [1, 1, 1]) (by simp)]
    · dsimp only
      rw [p4 0 0 0 1 1 1 (by norm_num [e3Args]) (by norm_num) (by norm_num [e3Args]) (by norm_num [e3Args]) (by norm_num [e3Args])
        (by norm_num [e3Args])]
      have hmask : (Functional.createSphericalMaskR3 3).get [1, 1, 1] = 1 := by
        refine ((Functional.C47_R3 3).2.1 _).1 ?_
        unfold Functional.Inside
        rw [(Functional.C46_R3 3 (by omega)).2.1, Fin.sum_univ_three]
        simp [Functional.coordSpec]; norm_num
      have hcoef : O3.coef (idGrid.get [0]) = 1 := rfl
      have hrot : O3.rot (idGrid.get [0]) = 1 := O3.rot_mk 1 1
      rw [hcoef, hrot, Matrix.transpose_one, Matrix.one_mulVec, one_smul, div_one]
      have h49 := Functional.C49_R3_partial .bilinear 3 (Or.inr le_rfl) (fun r => onesWeight.get (0 :: 0 :: r)) 1 1 1
        (by norm_num) (by norm_num) (by norm_num)
      show _ * ((if true then (Functional.createSphericalMaskR3 3).get [1, 1, 1] else 1) * F.sampleAt .bilinear .border [3, 3, 3]
        (fun r => onesWeight.get (0 :: 0 :: r)) ((Functional.createGridR3 3).get [1, 1, 1])) = 1
      rw [h49, if_pos rfl, hmask]
      have : extended .zeros [3, 3, 3] (fun q => deltaImage.get (0 :: (groupStart 1 1 1 0 + 0) :: q))
          (readPos (List.replicate 3 ⟨3, 1, 1, 0, 0⟩) [0, 0, 0] [1, 1, 1]) = 1 := by
        have hr : readPos (List.replicate 3 ⟨3, 1, 1, 0, 0⟩) [0, 0, 0] [1, 1, 1] = ([1, 1, 1] : List ℕ).map Int.ofNat := by
          simp [readPos, Axis.pos, List.replicate]
        unfold extended
        rw [hr, cellAt_inside .zeros (by simp)]
        simp [deltaImage, groupStart]
      show extended .zeros [3, 3, 3] (fun q => deltaImage.get (0 :: (groupStart 1 1 1 0 + 0) :: q))
          (readPos (List.replicate 3 ⟨3, 1, 1, 0, 0⟩) [0, 0, 0] [1, 1, 1]) * (1 * 1) = 1
      rw [this]; norm_num
    · intro q hq hne
      refine mul_eq_zero_of_left ?_ _
      have hr : readPos (List.replicate 3 ⟨3, 1, 1, 0, 0⟩) [0, 0, 0] q = q.map Int.ofNat := by
        obtain ⟨i, _, rfl, hi, hq⟩ := InB_cons_left hq
        obtain ⟨j, _, rfl, hj, hq⟩ := InB_cons_left hq
        obtain ⟨k, _, rfl, hk, hq⟩ := InB_cons_left hq
        cases InB_nil_left hq
        simp [readPos, Axis.pos, List.replicate]
      unfold extended
      rw [hr, cellAt_inside .zeros hq]
      refine if_neg fun h => hne ?_
      exact (List.cons.inj (List.cons.inj h).2).2
  refine ⟨_, out, out', hM, mirror_delta, o1, o2, o3, o4, hv, ?_⟩
  have hdet : O3.det KernelE3.mirrorElt = -1 := rfl
  have h5 := o5 0 0 0 [0, 0, 0] (by norm_num) (by norm_num [e3Args]) (by norm_num) (by simp)
  have hmv : LatticeSym.move LatticeSym.ax3 KernelE3.mirror [1, 1, 1] [0, 0, 0] = [0, 0, 0] := rfl
  rw [hmv, hv, hdet] at h5
  have hb0 : biasAt none 3 0 = 0 := rfl
  rw [hb0] at h5
  linarith

end GConv.Conv

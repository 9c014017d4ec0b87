import Verif.Props.Rotation
import Verif.Spec.Reorder

/-! # C74: the order in which group elements are listed -/

namespace GConv.GroupKernel

open Tensor Spec

variable {G : Type} {d : ℕ}

/-- the sampled lifting kernel for position `h` depends only on the group element at that position. -/
def LiftingLocal (K : GroupKernel G d) : Prop :=
  ∀ (weight : Tensor ℝ) (H H' : Tensor G) (n n' : ℕ) (ρ : ℕ → ℕ),
    weight.shape = [K.outC, K.inC / K.groups] ++ K.kernelSize → Lists ρ n n' H H' →
    ∃ w w', K.liftingForward weight H = .ok w ∧ K.liftingForward weight H' = .ok w' ∧
      w.shape = [K.outC, n, K.inC / K.groups] ++ K.kernelSize ∧ w'.shape = [K.outC, n', K.inC / K.groups] ++ K.kernelSize ∧
      ∀ co h ci x, co < K.outC → h < n' → ci < K.inC / K.groups → InB K.kernelSize x →
        w'.get (co :: h :: ci :: x) = w.get (co :: ρ h :: ci :: x)

/-- the sampled group kernel for positions `o`, `i` depends only on the group elements at those positions. -/
def GroupLocal (K : GroupKernel G d) (Pair : G → G → Prop) : Prop :=
  ∀ (weight : Tensor ℝ) (inH inH' outH outH' : Tensor G) (m m' n n' : ℕ) (ρi ρo : ℕ → ℕ),
    weight.shape = [K.groupKernelDim, K.outC, K.inC / K.groups] ++ K.kernelSize →
    Lists ρi m m' inH inH' → Lists ρo n n' outH outH' →
    (∀ o < n, ∀ i < m, Pair (outH.get [o]) (inH.get [i])) →
    ∃ w w', K.forward weight inH outH = .ok w ∧ K.forward weight inH' outH' = .ok w' ∧
      w.shape = [K.outC, n, K.inC / K.groups, m] ++ K.kernelSize ∧
      w'.shape = [K.outC, n', K.inC / K.groups, m'] ++ K.kernelSize ∧
      ∀ co o ci i x, co < K.outC → o < n' → ci < K.inC / K.groups → i < m' → InB K.kernelSize x →
        w'.get (co :: o :: ci :: i :: x) = w.get (co :: ρo o :: ci :: ρi i :: x)

/-- the same for the two sampled kernels of a separable convolution (as many input as output elements). -/
def SeparableLocal (K : GroupKernel G d) (Pair : G → G → Prop) : Prop :=
  ∀ (weightH weight : Tensor ℝ) (inH inH' outH outH' : Tensor G) (n : ℕ) (ρi ρo : ℕ → ℕ),
    weightH.shape = [K.groupKernelDim, K.outC, K.inC / K.groups] → weight.shape = [K.outC, 1] ++ K.kernelSize →
    Lists ρi n n inH inH' → Lists ρo n n outH outH' →
    (∀ o < n, ∀ i < n, Pair (outH.get [o]) (inH.get [i])) →
    ∃ wH w wH' w', K.separableForward weightH weight inH outH = .ok (wH, w) ∧
      K.separableForward weightH weight inH' outH' = .ok (wH', w') ∧
      wH.shape = [K.outC, n, K.inC / K.groups, n] ++ List.replicate K.kernelSize.length 1 ∧
      w.shape = [K.outC, n, 1] ++ K.kernelSize ∧ wH'.shape = wH.shape ∧ w'.shape = w.shape ∧
      (∀ co o ci i, co < K.outC → o < n → ci < K.inC / K.groups → i < n →
        wH'.get (co :: o :: ci :: i :: List.replicate K.kernelSize.length 0) =
          wH.get (co :: ρo o :: ci :: ρi i :: List.replicate K.kernelSize.length 0)) ∧
      ∀ co o x, co < K.outC → o < n → InB K.kernelSize x → w'.get (co :: o :: 0 :: x) = w.get (co :: ρo o :: 0 :: x)

theorem liftingLocal {K : GroupKernel G d} {inv mul act det core} (hK : Lawful K inv mul act det)
    (hs : PointwiseSampler K.sampleRn K.kernelSize core) : LiftingLocal K := by
  intro weight H H' n n' ρ hw ⟨hH, hH', hρ⟩
  obtain ⟨w, a1, a2, a3⟩ := C50_lifting hK hs weight H n hw hH
  obtain ⟨w', b1, b2, b3⟩ := C50_lifting hK hs weight H' n' hw hH'
  refine ⟨w, w', a1, b1, a2, b2, fun co h ci x hco hh hci hx => ?_⟩
  rw [b3 co h ci x hco hh hci hx, a3 co _ ci x hco (hρ h hh).1 hci hx, (hρ h hh).2]

theorem groupLocal {K : GroupKernel G d} {inv mul act det core Good coreH} (hK : Lawful K inv mul act det)
    (hs : PointwiseSampler K.sampleRn K.kernelSize core) (hl : LocalCore K.kernelSize core)
    (hsH : RowwiseSampler K.sampleH K.gridH K.groupKernelDim Good coreH) (hlH : LocalChannel K.groupKernelDim coreH)
    (hpos : 0 < K.groupKernelDim) (Pair : G → G → Prop) (hP : ∀ o i, Pair o i → Good (mul (inv o) i)) :
    GroupLocal K Pair ∧ SeparableLocal K Pair := by
  constructor
  · intro weight inH inH' outH outH' m m' n n' ρi ρo hw ⟨hin, hin', hρi⟩ ⟨hout, hout', hρo⟩ hp
    have hg : ∀ o < n, ∀ i < m, Good (mul (inv (outH.get [o])) (inH.get [i])) := fun o ho i hi => hP _ _ (hp o ho i hi)
    obtain ⟨w, a1, a2, a3⟩ := C51_group hK hs hl hsH hlH hpos weight inH outH m n hw hin hout hg
    obtain ⟨w', b1, b2, b3⟩ := C51_group hK hs hl hsH hlH hpos weight inH' outH' m' n' hw hin' hout'
      (fun o ho i hi => by rw [(hρo o ho).2, (hρi i hi).2]; exact hg _ (hρo o ho).1 _ (hρi i hi).1)
    refine ⟨w, w', a1, b1, a2, b2, fun co o ci i x hco ho hci hi hx => ?_⟩
    rw [b3 co o ci i x hco ho hci hi hx, a3 co _ ci _ x hco (hρo o ho).1 hci (hρi i hi).1 hx, (hρo o ho).2, (hρi i hi).2]
  · intro weightH weight inH inH' outH outH' n ρi ρo hwH hw ⟨hin, hin', hρi⟩ ⟨hout, hout', hρo⟩ hp
    have hg : ∀ o < n, ∀ i < n, Good (mul (inv (outH.get [o])) (inH.get [i])) := fun o ho i hi => hP _ _ (hp o ho i hi)
    obtain ⟨wH, w, a1, a2, a3, a4, a5⟩ := C52_separable_partial hK hs hsH hlH hpos weightH weight inH outH n hwH hw hin hout hg
    obtain ⟨wH', w', b1, b2, b3, b4, b5⟩ := C52_separable_partial hK hs hsH hlH hpos weightH weight inH' outH' n hwH hw hin' hout'
      (fun o ho i hi => by rw [(hρo o ho).2, (hρi i hi).2]; exact hg _ (hρo o ho).1 _ (hρi i hi).1)
    refine ⟨wH, w, wH', w', a1, b1, a2, a3, b2.trans a2.symm, b3.trans a3.symm, fun co o ci i hco ho hci hi => ?_,
      fun co o x hco ho hx => ?_⟩
    · rw [b4 co o ci i hco ho hci hi, a4 co _ ci _ hco (hρo o ho).1 hci (hρi i hi).1, (hρo o ho).2, (hρi i hi).2]
    · rw [b5 co o x hco ho hx, a5 co _ x hco (hρo o ho).1 hx, (hρo o ho).2]

end GConv.GroupKernel

namespace GConv.Conv

open Tensor Spec GroupKernel

variable {G : Type} {d : ℕ}

/-- Lifting convolution with any local kernel. -/
theorem lifting_reindex {a : Args} {mode : F.CPad} {ax : List Axis} (hgeo : HasGeometry a mode ax) {L : Layer}
    (hL : init a (kernelDims ax) = .ok L) {S : List ℕ} (hg : GeomOk mode ax S)
    {K : GroupKernel G d} (hK : LiftingLocal K)
    (ho : K.outC = a.outC) (hi : K.inC / K.groups = a.inC / a.groups.toNat) (hk : K.kernelSize = kernelDims ax)
    (weight : Tensor ℝ) (hw : weight.shape = [K.outC, K.inC / K.groups] ++ K.kernelSize) (bias : Option (Tensor ℝ))
    (hb : BiasShape bias a.outC ax.length) (N n n' : ℕ) (x : Tensor ℝ) (H H' : Tensor G) (ρ : ℕ → ℕ)
    (hH : Lists ρ n n' H H') (hpos : 0 < a.inC) (hx : x.shape = N :: a.inC :: S) :
    ∃ out out', L.liftingForward K weight bias x H = .ok (out, H) ∧
      L.liftingForward K weight bias x H' = .ok (out', H') ∧
      GroupAxisReindexed ρ N a.outC n n' (outDims ax S) out out' := by
  obtain ⟨w, w', k1, k2, k3, k4, k5⟩ := hK weight H H' n n' ρ hw hH
  rw [ho, hi, hk] at k3 k4 k5
  obtain ⟨out, x1, x2, x3⟩ := C60_lifting hgeo hL hg K weight w bias N n x H hH.1 hpos k1 k3 hx hb
  obtain ⟨out', y1, y2, y3⟩ := C60_lifting hgeo hL hg K weight w' bias N n' x H' hH.2.1 hpos k2 k4 hx hb
  refine ⟨out, out', x1, y1, x2, y2, fun b co h q hb' hco hh hq => ?_⟩
  rw [y3 b co h q hb' hco hh hq, x3 b co _ q hb' hco (hH.2.2 h hh).1 hq]
  unfold Spec.liftingConv
  congr 1
  refine Finset.sum_congr rfl fun ci hci => ?_
  exact corr_congr' hg hq (fun _ _ => rfl) fun y hy => k5 co h ci y hco hh (Finset.mem_range.1 hci) hy

/-- Group convolution with any local kernel: the input group axis and `in_H` are permuted together, `out_H` is
listed differently. -/
theorem group_reindex {a : Args} {mode : F.CPad} {ax : List Axis} (hgeo : HasGeometry a mode ax) {L : Layer}
    (hL : init a (kernelDims ax) = .ok L) {S : List ℕ} (hg : GeomOk mode ax S)
    {K : GroupKernel G d} {Pair : G → G → Prop} (hK : GroupLocal K Pair)
    (ho : K.outC = a.outC) (hi : K.inC / K.groups = a.inC / a.groups.toNat) (hk : K.kernelSize = kernelDims ax)
    (weight : Tensor ℝ) (hw : weight.shape = [K.groupKernelDim, K.outC, K.inC / K.groups] ++ K.kernelSize)
    (bias : Option (Tensor ℝ)) (hb : BiasShape bias a.outC ax.length) (N m n n' : ℕ) (x x' : Tensor ℝ)
    (inH inH' outH outH' : Tensor G) (π : Equiv.Perm (Fin m)) (ρ : ℕ → ℕ)
    (hin : inH.shape = [m]) (hin' : inH'.shape = [m]) (hπ : ∀ k : Fin m, inH'.get [(k : ℕ)] = inH.get [(π k : ℕ)])
    (hout : Lists ρ n n' outH outH') (hp : ∀ o < n, ∀ i < m, Pair (outH.get [o]) (inH.get [i]))
    (hx : GroupAxisPermuted π N a.inC S x x') :
    ∃ out out', L.groupForward K weight bias x inH outH = .ok (out, outH) ∧
      L.groupForward K weight bias x' inH' outH' = .ok (out', outH') ∧
      GroupAxisReindexed ρ N a.outC n n' (outDims ax S) out out' := by
  have hl : Lists (fun k => if h : k < m then (π ⟨k, h⟩ : ℕ) else 0) m m inH inH' := by
    refine ⟨hin, hin', fun h hh => ?_⟩
    dsimp only
    rw [dif_pos hh]
    exact ⟨(π ⟨h, hh⟩).2, hπ ⟨h, hh⟩⟩
  obtain ⟨w, w', k1, k2, k3, k4, k5⟩ := hK weight inH inH' outH outH' m m n n' _ ρ hw hl hout hp
  rw [ho, hi, hk] at k3 k4 k5
  obtain ⟨out, x1, x2, x3⟩ := C61_group hgeo hL hg K weight w bias N m n x inH outH hin hout.1 k1 k3 hx.1 hb
  obtain ⟨out', y1, y2, y3⟩ := C61_group hgeo hL hg K weight w' bias N m n' x' inH' outH' hin' hout.2.1 k2 k4 hx.2.1 hb
  refine ⟨out, out', x1, y1, x2, y2, fun b co h q hb' hco hh hq => ?_⟩
  rw [y3 b co h q hb' hco hh hq, x3 b co _ q hb' hco (hout.2.2 h hh).1 hq]
  unfold Spec.groupConv
  congr 1
  refine Finset.sum_congr rfl fun ci hci => ?_
  rw [Finset.sum_range, Finset.sum_range]
  refine Fintype.sum_equiv π _ _ fun k => ?_
  refine corr_congr' hg hq (fun r hr => ?_) fun y hy => ?_
  · exact hx.2.2 b _ r k hb' (channel_lt hgeo hL hco (Finset.mem_range.1 hci)) hr
  · have := k5 co h ci k y hco hh (Finset.mem_range.1 hci) k.2 hy
    rw [dif_pos k.2] at this
    exact this

theorem ones_InB {n : ℕ} {z : List ℕ} (hz : InB (List.replicate n 1) z) : z = List.replicate n 0 := by
  refine List.eq_replicate_iff.2 ⟨by rw [hz.length]; simp, fun v hv => ?_⟩
  obtain ⟨j, hj, rfl⟩ := List.getElem_of_mem hv
  have := (InB_iff.1 hz).2 j (by rw [← hz.length]; exact hj)
  rw [List.getD_eq_getElem?_getD, List.getElem?_eq_getElem hj, replicate_getD (by rw [hz.length] at hj; simpa using hj)] at this
  simpa using this

/-- Separable convolution with any local kernel. -/
theorem separable_reindex {a : Args} {mode : F.CPad} {ax : List Axis} (hgeo : HasGeometry a mode ax) {L : Layer}
    (hL : init a (kernelDims ax) = .ok L) {S S₁ : List ℕ} (hg₁ : GeomOk mode (firstAxes mode a.padding ax) S)
    (hS₁ : outDims (firstAxes mode a.padding ax) S = S₁) (hg : GeomOk mode ax S₁)
    {K : GroupKernel G d} {Pair : G → G → Prop} (hK : SeparableLocal K Pair)
    (ho : K.outC = a.outC) (hi : K.inC / K.groups = a.inC / a.groups.toNat) (hk : K.kernelSize = kernelDims ax)
    (weightH weight : Tensor ℝ) (hwH : weightH.shape = [K.groupKernelDim, K.outC, K.inC / K.groups])
    (hw : weight.shape = [K.outC, 1] ++ K.kernelSize)
    (bias : Option (Tensor ℝ)) (hb : BiasShape bias a.outC ax.length) (N n : ℕ) (hC : 0 < a.outC) (hn : 0 < n) (x x' : Tensor ℝ)
    (inH inH' outH outH' : Tensor G) (π : Equiv.Perm (Fin n)) (ρ : ℕ → ℕ)
    (hin : inH.shape = [n]) (hin' : inH'.shape = [n]) (hπ : ∀ k : Fin n, inH'.get [(k : ℕ)] = inH.get [(π k : ℕ)])
    (hout : Lists ρ n n outH outH') (hp : ∀ o < n, ∀ i < n, Pair (outH.get [o]) (inH.get [i]))
    (hx : GroupAxisPermuted π N a.inC S x x') :
    ∃ out out', L.separableForward K weightH weight bias x inH outH = .ok (out, outH) ∧
      L.separableForward K weightH weight bias x' inH' outH' = .ok (out', outH') ∧
      GroupAxisReindexed ρ N a.outC n n (outDims ax S₁) out out' := by
  have hl : Lists (fun k => if h : k < n then (π ⟨k, h⟩ : ℕ) else 0) n n inH inH' := by
    refine ⟨hin, hin', fun h hh => ?_⟩
    dsimp only
    rw [dif_pos hh]
    exact ⟨(π ⟨h, hh⟩).2, hπ ⟨h, hh⟩⟩
  obtain ⟨wH, w, wH', w', k1, k2, k3H, k3, k4H, k4, k5, k6⟩ := hK weightH weight inH inH' outH outH' n _ ρ hwH hw hl hout hp
  rw [k3H] at k4H
  rw [k3] at k4
  have hkl : K.kernelSize.length = ax.length := by rw [hk]; simp [kernelDims]
  rw [ho, hi, hkl] at k3H k4H k5
  rw [ho, hk] at k3 k4 k6
  obtain ⟨out, x1, x2, x3⟩ := C62_formula_partial hgeo hL hg₁ hS₁ hg K weightH weight wH w bias N n n x inH outH hin hout.1
    hC hn k1 k3H k3 hx.1 hb
  obtain ⟨out', y1, y2, y3⟩ := C62_formula_partial hgeo hL hg₁ hS₁ hg K weightH weight wH' w' bias N n n x' inH' outH' hin' hout.2.1
    hC hn k2 k4H k4 hx.2.1 hb
  refine ⟨out, out', x1, y1, x2, y2, fun b co h q hb' hco hh hq => ?_⟩
  rw [y3 b co h q hb' hco hh hq, x3 b co _ q hb' hco (hout.2.2 h hh).1 hq]
  congr 1
  refine corr_congr' hg hq (fun r hr => ?_) fun y hy => k6 co h y hco hh hy
  refine Finset.sum_congr rfl fun ci hci => ?_
  rw [Finset.sum_range, Finset.sum_range]
  refine Fintype.sum_equiv π _ _ fun k => ?_
  refine corr_congr' hg₁ (by rw [hS₁]; exact hr) (fun r hr => ?_) fun y hy => ?_
  · exact hx.2.2 b _ r k hb' (channel_lt hgeo hL hco (Finset.mem_range.1 hci)) hr
  · rw [kernelDims_first] at hy
    rw [ones_InB hy]
    have := k5 co h ci k hco hh (Finset.mem_range.1 hci) k.2
    rw [dif_pos k.2] at this
    exact this

/-! ## SE2 -/

theorem liftingLocal_SE2 (k : KernelArgs (ℝ) ℕ) (hk : 0 < k.kernelSize) {m p}
    (hm : SpatialModes k.spatialMode k.spatialPad m p) {K} (hK : KernelSE2.lifting k = .ok K) : LiftingLocal K := by
  unfold KernelSE2.lifting checkGroups at hK
  split at hK
  · cases hK
  · cases hK; exact liftingLocal (KernelSE2.lawful k _) (KernelSE2.pointwise k _ hm hk)

theorem groupLocal_SE2 (k : KernelArgs (ℝ) ℕ) {m p}
    (hm : SpatialModes k.spatialMode k.spatialPad m p) (wd : ℝ) (hr : KernelSE2.Ready k wd) {K} (hK : KernelSE2.full k = .ok K) :
    GroupLocal K (fun _ _ => True) ∧ SeparableLocal K (fun _ _ => True) := by
  rw [KernelSE2.full_eq hr] at hK
  cases hK
  exact groupLocal (KernelSE2.lawful k _) (KernelSE2.pointwise k _ hm hr.kernel) (sampleAt_local m p _ rfl)
    (KernelSE2.rows hr).1 (KernelSE2.rows hr).2 hr.nonempty _ (fun _ _ _ => trivial)

/-- `GLiftingConvSE2`: `Hc` and `Hc'` are the group elements used in two calls (given or default, multiplied by
the random element if `permute_output_grid`). Listing elements differently reindexes the output. -/
theorem C74_SE2_lifting (k : KernelArgs (ℝ) ℕ) (c : ConvOpts) (hk : 0 < k.kernelSize) {m p}
    (hm : SpatialModes k.spatialMode k.spatialPad m p)
    {M : Module (ℝ) 2} (hM : liftingSE2 k c = .ok M) {mode : F.CPad} {ax : List Axis}
    (hgeo : HasGeometry (argsSE2 k c) mode ax) {S : List ℕ} (hS : GeomOk mode ax S) (hpos : 0 < k.inC)
    (weight : Tensor ℝ) (hw : weight.shape = [k.outC, k.inC / k.groups, k.kernelSize, k.kernelSize])
    (bias : Option (Tensor ℝ)) (hb : BiasShape bias k.outC 2) (N n n' : ℕ) (x : Tensor ℝ) (hx : x.shape = N :: k.inC :: S)
    (H H' : Option (Tensor (ℝ))) (move move' : ℝ → ℝ) (Hc Hc' : Tensor (ℝ))
    (hHc : Hc = if c.permute then (H.getD M.kernel.gridH).map move else H.getD M.kernel.gridH)
    (hHc' : Hc' = if c.permute then (H'.getD M.kernel.gridH).map move' else H'.getD M.kernel.gridH)
    (ρ : ℕ → ℕ) (hρ : Lists ρ n n' Hc Hc') :
    ∃ out out', M.lift move weight bias x H = .ok (out, Hc) ∧ M.lift move' weight bias x H' = .ok (out', Hc') ∧
      GroupAxisReindexed ρ N k.outC n n' (outDims ax S) out out' := by
  obtain ⟨K, hK, hL, hMK, hMp⟩ := build_ok hM
  have hks : kernelDims ax = [k.kernelSize, k.kernelSize] := hgeo.kernel.symm
  obtain ⟨b1, b2, b3⟩ := liftingSE2_args hK
  have hd : ax.length = 2 := by
    have := congrArg List.length hks
    simpa [kernelDims] using this
  rw [b3, ← hks] at hL
  obtain ⟨out, out', x1, y1, z⟩ := lifting_reindex hgeo hL hS (liftingLocal_SE2 k hk hm hK) b1 b2 (by rw [b3, hks]) weight
    (by rw [b1, b2, b3]; exact hw) bias (by rw [hd]; exact hb) N n n' x Hc Hc' ρ hρ hpos hx
  refine ⟨out, out', ?_, ?_, z⟩
  · rw [← x1, eq_permute hHc hρ.1, ← hMp, ← hMK]; rfl
  · rw [← y1, eq_permute hHc' hρ.2.1, ← hMp, ← hMK]; rfl

/-- `GConvSE2`: `in_H` and the group axis of the input in another order, the output elements `Hc` listed
as `Hc'`. -/
theorem C74_SE2_group (k : KernelArgs (ℝ) ℕ) (c : ConvOpts) {m p}
    (hm : SpatialModes k.spatialMode k.spatialPad m p)
    (wd : ℝ) (hr : KernelSE2.Ready k wd)
    {M : Module (ℝ) 2} (hM : fullSE2 k c = .ok M) {mode : F.CPad} {ax : List Axis}
    (hgeo : HasGeometry (argsSE2 k c) mode ax) {S : List ℕ} (hS : GeomOk mode ax S)
    (weight : Tensor ℝ) (hw : weight.shape = [(KernelSE2.grid k).shape.headD 0, k.outC, k.inC / k.groups, k.kernelSize, k.kernelSize])
    (bias : Option (Tensor ℝ)) (hb : BiasShape bias k.outC 2) (N mi n n' : ℕ) (x x' : Tensor ℝ)
    (inH inH' : Tensor (ℝ)) (hin : inH.shape = [mi]) (hin' : inH'.shape = [mi])
    (H H' : Option (Tensor (ℝ))) (move move' : ℝ → ℝ) (Hc Hc' : Tensor (ℝ))
    (hHc : Hc = if c.permute then (H.getD inH).map move else H.getD inH)
    (hHc' : Hc' = if c.permute then (H'.getD inH').map move' else H'.getD inH')
    (π : Equiv.Perm (Fin mi)) (ρ : ℕ → ℕ) (hπ : ∀ j : Fin mi, inH'.get [(j : ℕ)] = inH.get [(π j : ℕ)])
    (hρ : Lists ρ n n' Hc Hc')
    (hx : GroupAxisPermuted π N k.inC S x x') :
    ∃ out out', M.groupSE move weight bias x inH H = .ok (out, Hc) ∧
      M.groupSE move' weight bias x' inH' H' = .ok (out', Hc') ∧
      GroupAxisReindexed ρ N k.outC n n' (outDims ax S) out out' := by
  obtain ⟨K, hK, hL, hMK, hMp⟩ := build_ok hM
  have hks : kernelDims ax = [k.kernelSize, k.kernelSize] := hgeo.kernel.symm
  obtain ⟨b1, b2, b3, b4⟩ := fullSE2_args k wd hr hK
  have hd : ax.length = 2 := by
    have := congrArg List.length hks
    simpa [kernelDims] using this
  rw [b3, ← hks] at hL
  obtain ⟨out, out', x1, y1, z⟩ := group_reindex hgeo hL hS (groupLocal_SE2 k hm wd hr hK).1 b1 b2 (by rw [b3, hks]) weight
    (by rw [b1, b2, b3, b4]; exact hw) bias (by rw [hd]; exact hb) N mi n n' x x' inH inH' Hc Hc' π ρ hin hin' hπ hρ (fun _ _ _ _ => trivial) hx
  refine ⟨out, out', ?_, ?_, z⟩
  · rw [← x1, eq_permute hHc hρ.1, ← hMp, ← hMK]; rfl
  · rw [← y1, eq_permute hHc' hρ.2.1, ← hMp, ← hMK]; rfl

/-- `GSeparableConvSE2` (with as many input as output elements): `in_H` and the group axis of the input in another order, the output elements `Hc` listed
as `Hc'`. -/
theorem C74_SE2_separable (k : KernelArgs (ℝ) ℕ) (c : ConvOpts) {m p}
    (hm : SpatialModes k.spatialMode k.spatialPad m p)
    (wd : ℝ) (hr : KernelSE2.Ready k wd)
    {M : Module (ℝ) 2} (hM : fullSE2 k c = .ok M) {mode : F.CPad} {ax : List Axis}
    (hgeo : HasGeometry (argsSE2 k c) mode ax) {S S₁ : List ℕ} (hg₁ : GeomOk mode (firstAxes mode c.padding ax) S)
    (hS₁ : outDims (firstAxes mode c.padding ax) S = S₁) (hS : GeomOk mode ax S₁) (hC : 0 < k.outC)
    (weightH weight : Tensor ℝ) (hwH : weightH.shape = [(KernelSE2.grid k).shape.headD 0, k.outC, k.inC / k.groups])
    (hw : weight.shape = [k.outC, 1, k.kernelSize, k.kernelSize])
    (bias : Option (Tensor ℝ)) (hb : BiasShape bias k.outC 2) (N n : ℕ) (hn0 : 0 < n) (x x' : Tensor ℝ)
    (inH inH' : Tensor (ℝ)) (hin : inH.shape = [n]) (hin' : inH'.shape = [n])
    (H H' : Option (Tensor (ℝ))) (move move' : ℝ → ℝ) (Hc Hc' : Tensor (ℝ))
    (hHc : Hc = if c.permute then (H.getD inH).map move else H.getD inH)
    (hHc' : Hc' = if c.permute then (H'.getD inH').map move' else H'.getD inH')
    (π : Equiv.Perm (Fin n)) (ρ : ℕ → ℕ) (hπ : ∀ j : Fin n, inH'.get [(j : ℕ)] = inH.get [(π j : ℕ)])
    (hρ : Lists ρ n n Hc Hc')
    (hx : GroupAxisPermuted π N k.inC S x x') :
    ∃ out out', M.separableSE move weightH weight bias x inH H = .ok (out, Hc) ∧
      M.separableSE move' weightH weight bias x' inH' H' = .ok (out', Hc') ∧
      GroupAxisReindexed ρ N k.outC n n (outDims ax S₁) out out' := by
  obtain ⟨K, hK, hL, hMK, hMp⟩ := build_ok hM
  have hks : kernelDims ax = [k.kernelSize, k.kernelSize] := hgeo.kernel.symm
  obtain ⟨b1, b2, b3, b4⟩ := fullSE2_args k wd hr hK
  have hd : ax.length = 2 := by
    have := congrArg List.length hks
    simpa [kernelDims] using this
  rw [b3, ← hks] at hL
  obtain ⟨out, out', x1, y1, z⟩ := separable_reindex hgeo hL hg₁ hS₁ hS (groupLocal_SE2 k hm wd hr hK).2 b1 b2 (by rw [b3, hks])
    weightH weight (by rw [b1, b2, b4]; exact hwH) (by rw [b1, b3]; exact hw) bias (by rw [hd]; exact hb) N n hC hn0 x x' inH inH' Hc Hc' π ρ hin hin' hπ hρ (fun _ _ _ _ => trivial) hx
  refine ⟨out, out', ?_, ?_, z⟩
  · rw [← x1, eq_permute hHc hρ.1, ← hMp, ← hMK]; rfl
  · rw [← y1, eq_permute hHc' hρ.2.1, ← hMp, ← hMK]; rfl


/-! ## SE3 -/

theorem liftingLocal_SE3 (s : GridCache.Store (Tensor ℝ)) (opt : List SO3.Euler) (k : KernelArgs (SO3.Mat3) ℕ) (hk : 0 < k.kernelSize) {m p}
    (hm : SpatialModes k.spatialMode k.spatialPad m p) {K} (hK : KernelSE3.lifting s opt k = .ok K) : LiftingLocal K := by
  unfold KernelSE3.lifting at hK
  obtain ⟨gr, hgr, hK⟩ := bind_ok hK
  unfold checkGroups at hK
  split at hK
  · cases hK
  · cases hK; exact liftingLocal (KernelSE3.lawful k gr _) (KernelSE3.pointwise k gr _ hm hk)

theorem groupLocal_SE3 (s : GridCache.Store (Tensor ℝ)) (opt : List SO3.Euler) (k : KernelArgs (SO3.Mat3) ℕ) {m p}
    (hm : SpatialModes k.spatialMode k.spatialPad m p) (gr : Tensor SO3.Mat3) (wd : ℝ) (hr : KernelSE3.Ready s opt k gr wd) {K} (hK : KernelSE3.full s opt k = .ok K) :
    GroupLocal K (fun _ _ => True) ∧ SeparableLocal K (fun _ _ => True) := by
  rw [KernelSE3.full_eq hr] at hK
  cases hK
  exact groupLocal (KernelSE3.lawful k gr _) (KernelSE3.pointwise k gr _ hm hr.kernel) (sampleAt_local m p _ rfl)
    (KernelSE3.rows hr).1 (KernelSE3.rows hr).2 (KernelSE3.dim_pos hr) _ (fun _ _ _ => trivial)

/-- `GLiftingConvSE3`: `Hc` and `Hc'` are the group elements used in two calls (given or default, multiplied by
the random element if `permute_output_grid`). Listing elements differently reindexes the output. -/
theorem C74_SE3_lifting (s : GridCache.Store (Tensor ℝ)) (opt : List SO3.Euler) (k : KernelArgs (SO3.Mat3) ℕ) (c : ConvOpts) (hk : 0 < k.kernelSize) {m p}
    (hm : SpatialModes k.spatialMode k.spatialPad m p)
    {M : Module (SO3.Mat3) 3} (hM : liftingSE3 s opt k c = .ok M) {mode : F.CPad} {ax : List Axis}
    (hgeo : HasGeometry (argsSE3 k c) mode ax) {S : List ℕ} (hS : GeomOk mode ax S) (hpos : 0 < k.inC)
    (weight : Tensor ℝ) (hw : weight.shape = [k.outC, k.inC / k.groups, k.kernelSize, k.kernelSize, k.kernelSize])
    (bias : Option (Tensor ℝ)) (hb : BiasShape bias k.outC 3) (N n n' : ℕ) (x : Tensor ℝ) (hx : x.shape = N :: k.inC :: S)
    (H H' : Option (Tensor (SO3.Mat3))) (move move' : SO3.Mat3 → SO3.Mat3) (Hc Hc' : Tensor (SO3.Mat3))
    (hHc : Hc = if c.permute then (H.getD M.kernel.gridH).map move else H.getD M.kernel.gridH)
    (hHc' : Hc' = if c.permute then (H'.getD M.kernel.gridH).map move' else H'.getD M.kernel.gridH)
    (ρ : ℕ → ℕ) (hρ : Lists ρ n n' Hc Hc') :
    ∃ out out', M.lift move weight bias x H = .ok (out, Hc) ∧ M.lift move' weight bias x H' = .ok (out', Hc') ∧
      GroupAxisReindexed ρ N k.outC n n' (outDims ax S) out out' := by
  obtain ⟨K, hK, hL, hMK, hMp⟩ := build_ok hM
  have hks : kernelDims ax = [k.kernelSize, k.kernelSize, k.kernelSize] := hgeo.kernel.symm
  obtain ⟨b1, b2, b3⟩ := liftingSE3_args hK
  have hd : ax.length = 3 := by
    have := congrArg List.length hks
    simpa [kernelDims] using this
  rw [b3, ← hks] at hL
  obtain ⟨out, out', x1, y1, z⟩ := lifting_reindex hgeo hL hS (liftingLocal_SE3 s opt k hk hm hK) b1 b2 (by rw [b3, hks]) weight
    (by rw [b1, b2, b3]; exact hw) bias (by rw [hd]; exact hb) N n n' x Hc Hc' ρ hρ hpos hx
  refine ⟨out, out', ?_, ?_, z⟩
  · rw [← x1, eq_permute hHc hρ.1, ← hMp, ← hMK]; rfl
  · rw [← y1, eq_permute hHc' hρ.2.1, ← hMp, ← hMK]; rfl

/-- `GConvSE3`: `in_H` and the group axis of the input in another order, the output elements `Hc` listed
as `Hc'`. -/
theorem C74_SE3_group (s : GridCache.Store (Tensor ℝ)) (opt : List SO3.Euler) (k : KernelArgs (SO3.Mat3) ℕ) (c : ConvOpts) {m p}
    (hm : SpatialModes k.spatialMode k.spatialPad m p)
    (gr : Tensor SO3.Mat3) (wd : ℝ) (hr : KernelSE3.Ready s opt k gr wd)
    {M : Module (SO3.Mat3) 3} (hM : fullSE3 s opt k c = .ok M) {mode : F.CPad} {ax : List Axis}
    (hgeo : HasGeometry (argsSE3 k c) mode ax) {S : List ℕ} (hS : GeomOk mode ax S)
    (weight : Tensor ℝ) (hw : weight.shape = [gr.shape.headD 0, k.outC, k.inC / k.groups, k.kernelSize, k.kernelSize, k.kernelSize])
    (bias : Option (Tensor ℝ)) (hb : BiasShape bias k.outC 3) (N mi n n' : ℕ) (x x' : Tensor ℝ)
    (inH inH' : Tensor (SO3.Mat3)) (hin : inH.shape = [mi]) (hin' : inH'.shape = [mi])
    (H H' : Option (Tensor (SO3.Mat3))) (move move' : SO3.Mat3 → SO3.Mat3) (Hc Hc' : Tensor (SO3.Mat3))
    (hHc : Hc = if c.permute then (H.getD inH).map move else H.getD inH)
    (hHc' : Hc' = if c.permute then (H'.getD inH').map move' else H'.getD inH')
    (π : Equiv.Perm (Fin mi)) (ρ : ℕ → ℕ) (hπ : ∀ j : Fin mi, inH'.get [(j : ℕ)] = inH.get [(π j : ℕ)])
    (hρ : Lists ρ n n' Hc Hc')
    (hx : GroupAxisPermuted π N k.inC S x x') :
    ∃ out out', M.groupSE move weight bias x inH H = .ok (out, Hc) ∧
      M.groupSE move' weight bias x' inH' H' = .ok (out', Hc') ∧
      GroupAxisReindexed ρ N k.outC n n' (outDims ax S) out out' := by
  obtain ⟨K, hK, hL, hMK, hMp⟩ := build_ok hM
  have hks : kernelDims ax = [k.kernelSize, k.kernelSize, k.kernelSize] := hgeo.kernel.symm
  obtain ⟨b1, b2, b3, b4⟩ := fullSE3_args s opt k gr wd hr hK
  have hd : ax.length = 3 := by
    have := congrArg List.length hks
    simpa [kernelDims] using this
  rw [b3, ← hks] at hL
  obtain ⟨out, out', x1, y1, z⟩ := group_reindex hgeo hL hS (groupLocal_SE3 s opt k hm gr wd hr hK).1 b1 b2 (by rw [b3, hks]) weight
    (by rw [b1, b2, b3, b4]; exact hw) bias (by rw [hd]; exact hb) N mi n n' x x' inH inH' Hc Hc' π ρ hin hin' hπ hρ (fun _ _ _ _ => trivial) hx
  refine ⟨out, out', ?_, ?_, z⟩
  · rw [← x1, eq_permute hHc hρ.1, ← hMp, ← hMK]; rfl
  · rw [← y1, eq_permute hHc' hρ.2.1, ← hMp, ← hMK]; rfl

/-- `GSeparableConvSE3` (with as many input as output elements): `in_H` and the group axis of the input in another order, the output elements `Hc` listed
as `Hc'`. -/
theorem C74_SE3_separable (s : GridCache.Store (Tensor ℝ)) (opt : List SO3.Euler) (k : KernelArgs (SO3.Mat3) ℕ) (c : ConvOpts) {m p}
    (hm : SpatialModes k.spatialMode k.spatialPad m p)
    (gr : Tensor SO3.Mat3) (wd : ℝ) (hr : KernelSE3.Ready s opt k gr wd)
    {M : Module (SO3.Mat3) 3} (hM : fullSE3 s opt k c = .ok M) {mode : F.CPad} {ax : List Axis}
    (hgeo : HasGeometry (argsSE3 k c) mode ax) {S S₁ : List ℕ} (hg₁ : GeomOk mode (firstAxes mode c.padding ax) S)
    (hS₁ : outDims (firstAxes mode c.padding ax) S = S₁) (hS : GeomOk mode ax S₁) (hC : 0 < k.outC)
    (weightH weight : Tensor ℝ) (hwH : weightH.shape = [gr.shape.headD 0, k.outC, k.inC / k.groups])
    (hw : weight.shape = [k.outC, 1, k.kernelSize, k.kernelSize, k.kernelSize])
    (bias : Option (Tensor ℝ)) (hb : BiasShape bias k.outC 3) (N n : ℕ) (hn0 : 0 < n) (x x' : Tensor ℝ)
    (inH inH' : Tensor (SO3.Mat3)) (hin : inH.shape = [n]) (hin' : inH'.shape = [n])
    (H H' : Option (Tensor (SO3.Mat3))) (move move' : SO3.Mat3 → SO3.Mat3) (Hc Hc' : Tensor (SO3.Mat3))
    (hHc : Hc = if c.permute then (H.getD inH).map move else H.getD inH)
    (hHc' : Hc' = if c.permute then (H'.getD inH').map move' else H'.getD inH')
    (π : Equiv.Perm (Fin n)) (ρ : ℕ → ℕ) (hπ : ∀ j : Fin n, inH'.get [(j : ℕ)] = inH.get [(π j : ℕ)])
    (hρ : Lists ρ n n Hc Hc')
    (hx : GroupAxisPermuted π N k.inC S x x') :
    ∃ out out', M.separableSE move weightH weight bias x inH H = .ok (out, Hc) ∧
      M.separableSE move' weightH weight bias x' inH' H' = .ok (out', Hc') ∧
      GroupAxisReindexed ρ N k.outC n n (outDims ax S₁) out out' := by
  obtain ⟨K, hK, hL, hMK, hMp⟩ := build_ok hM
  have hks : kernelDims ax = [k.kernelSize, k.kernelSize, k.kernelSize] := hgeo.kernel.symm
  obtain ⟨b1, b2, b3, b4⟩ := fullSE3_args s opt k gr wd hr hK
  have hd : ax.length = 3 := by
    have := congrArg List.length hks
    simpa [kernelDims] using this
  rw [b3, ← hks] at hL
  obtain ⟨out, out', x1, y1, z⟩ := separable_reindex hgeo hL hg₁ hS₁ hS (groupLocal_SE3 s opt k hm gr wd hr hK).2 b1 b2 (by rw [b3, hks])
    weightH weight (by rw [b1, b2, b4]; exact hwH) (by rw [b1, b3]; exact hw) bias (by rw [hd]; exact hb) N n hC hn0 x x' inH inH' Hc Hc' π ρ hin hin' hπ hρ (fun _ _ _ _ => trivial) hx
  refine ⟨out, out', ?_, ?_, z⟩
  · rw [← x1, eq_permute hHc hρ.1, ← hMp, ← hMK]; rfl
  · rw [← y1, eq_permute hHc' hρ.2.1, ← hMp, ← hMK]; rfl


/-! ## E2 -/

theorem liftingLocal_E2 (k : KernelArgs (O2.Elt) SizeArg) (hk : 0 < k.kernelSize) {m p}
    (hm : SpatialModes k.spatialMode k.spatialPad m p) {K} (hK : KernelE2.lifting k = .ok K) : LiftingLocal K := by
  unfold KernelE2.lifting checkGroups at hK
  split at hK
  · cases hK
  · cases hK; exact liftingLocal (KernelE2.lawful k _) (KernelE2.pointwise k _ hm hk)

theorem groupLocal_E2 (k : KernelArgs (O2.Elt) SizeArg) {m p}
    (hm : SpatialModes k.spatialMode k.spatialPad m p) (wr wf : ℝ) (hr : KernelE2.Ready k wr wf) {K} (hK : KernelE2.full k = .ok K) :
    GroupLocal K (KernelE2.Pair k) ∧ SeparableLocal K (KernelE2.Pair k) := by
  rw [KernelE2.full_eq hr] at hK
  cases hK
  exact groupLocal (KernelE2.lawful k _) (KernelE2.pointwise k _ hm hr.kernel) (sampleAt_local m p _ rfl)
    (KernelE2.rows hr).1 (KernelE2.rows hr).2 hr.nonempty _ (fun _ _ h => h)

/-- `GLiftingConvE2`: `Hc` and `Hc'` are the group elements used in two calls (given or default, multiplied by
the random element if `permute_output_grid`). Listing elements differently reindexes the output. -/
theorem C74_E2_lifting (k : KernelArgs (O2.Elt) SizeArg) (c : ConvOpts) (hk : 0 < k.kernelSize) {m p}
    (hm : SpatialModes k.spatialMode k.spatialPad m p)
    {M : Module (O2.Elt) 2} (hM : liftingE2 k c = .ok M) {mode : F.CPad} {ax : List Axis}
    (hgeo : HasGeometry (argsE2 k c) mode ax) {S : List ℕ} (hS : GeomOk mode ax S) (hpos : 0 < k.inC)
    (weight : Tensor ℝ) (hw : weight.shape = [k.outC, k.inC / k.groups, k.kernelSize, k.kernelSize])
    (bias : Option (Tensor ℝ)) (hb : BiasShape bias k.outC 2) (N n n' : ℕ) (x : Tensor ℝ) (hx : x.shape = N :: k.inC :: S)
    (H H' : Option (Tensor (O2.Elt))) (move move' : O2.Elt → O2.Elt) (Hc Hc' : Tensor (O2.Elt))
    (hHc : Hc = if c.permute then (H.getD M.kernel.gridH).map move else H.getD M.kernel.gridH)
    (hHc' : Hc' = if c.permute then (H'.getD M.kernel.gridH).map move' else H'.getD M.kernel.gridH)
    (ρ : ℕ → ℕ) (hρ : Lists ρ n n' Hc Hc') :
    ∃ out out', M.lift move weight bias x H = .ok (out, Hc) ∧ M.lift move' weight bias x H' = .ok (out', Hc') ∧
      GroupAxisReindexed ρ N k.outC n n' (outDims ax S) out out' := by
  obtain ⟨K, hK, hL, hMK, hMp⟩ := build_ok hM
  have hks : kernelDims ax = [k.kernelSize, k.kernelSize] := hgeo.kernel.symm
  obtain ⟨b1, b2, b3⟩ := liftingE2_args hK
  have hd : ax.length = 2 := by
    have := congrArg List.length hks
    simpa [kernelDims] using this
  rw [b3, ← hks] at hL
  obtain ⟨out, out', x1, y1, z⟩ := lifting_reindex hgeo hL hS (liftingLocal_E2 k hk hm hK) b1 b2 (by rw [b3, hks]) weight
    (by rw [b1, b2, b3]; exact hw) bias (by rw [hd]; exact hb) N n n' x Hc Hc' ρ hρ hpos hx
  refine ⟨out, out', ?_, ?_, z⟩
  · rw [← x1, eq_permute hHc hρ.1, ← hMp, ← hMK]; rfl
  · rw [← y1, eq_permute hHc' hρ.2.1, ← hMp, ← hMK]; rfl

/-- `GConvE2`: `in_H` and the group axis of the input in another order, the output elements `Hc` listed
as `Hc'`. -/
theorem C74_E2_group (k : KernelArgs (O2.Elt) SizeArg) (c : ConvOpts) {m p}
    (hm : SpatialModes k.spatialMode k.spatialPad m p)
    (wr wf : ℝ) (hr : KernelE2.Ready k wr wf)
    {M : Module (O2.Elt) 2} (hM : fullE2 k c = .ok M) {mode : F.CPad} {ax : List Axis}
    (hgeo : HasGeometry (argsE2 k c) mode ax) {S : List ℕ} (hS : GeomOk mode ax S)
    (weight : Tensor ℝ) (hw : weight.shape = [KernelE2.nRot k + KernelE2.nRef k, k.outC, k.inC / k.groups, k.kernelSize, k.kernelSize])
    (bias : Option (Tensor ℝ)) (hb : BiasShape bias k.outC 2) (N mi n n' : ℕ) (x x' : Tensor ℝ)
    (inH inH' : Tensor (O2.Elt)) (hin : inH.shape = [mi]) (hin' : inH'.shape = [mi])
    (H H' : Option (Tensor (O2.Elt))) (move move' : O2.Elt → O2.Elt) (Hc Hc' : Tensor (O2.Elt))
    (hHc : Hc = if c.permute then (H.getD M.kernel.gridH).map move else H.getD M.kernel.gridH)
    (hHc' : Hc' = if c.permute then (H'.getD M.kernel.gridH).map move' else H'.getD M.kernel.gridH)
    (π : Equiv.Perm (Fin mi)) (ρ : ℕ → ℕ) (hπ : ∀ j : Fin mi, inH'.get [(j : ℕ)] = inH.get [(π j : ℕ)])
    (hρ : Lists ρ n n' Hc Hc')
    (hp : ∀ h < n, ∀ i < mi, KernelE2.Pair k (Hc.get [h]) (inH.get [i]))
    (hx : GroupAxisPermuted π N k.inC S x x') :
    ∃ out out', M.groupE move weight bias x inH H = .ok (out, Hc) ∧
      M.groupE move' weight bias x' inH' H' = .ok (out', Hc') ∧
      GroupAxisReindexed ρ N k.outC n n' (outDims ax S) out out' := by
  obtain ⟨K, hK, hL, hMK, hMp⟩ := build_ok hM
  have hks : kernelDims ax = [k.kernelSize, k.kernelSize] := hgeo.kernel.symm
  obtain ⟨b1, b2, b3, b4⟩ := fullE2_args k wr wf hr hK
  have hd : ax.length = 2 := by
    have := congrArg List.length hks
    simpa [kernelDims] using this
  rw [b3, ← hks] at hL
  obtain ⟨out, out', x1, y1, z⟩ := group_reindex hgeo hL hS (groupLocal_E2 k hm wr wf hr hK).1 b1 b2 (by rw [b3, hks]) weight
    (by rw [b1, b2, b3, b4]; exact hw) bias (by rw [hd]; exact hb) N mi n n' x x' inH inH' Hc Hc' π ρ hin hin' hπ hρ hp hx
  refine ⟨out, out', ?_, ?_, z⟩
  · rw [← x1, eq_permute hHc hρ.1, ← hMp, ← hMK]; rfl
  · rw [← y1, eq_permute hHc' hρ.2.1, ← hMp, ← hMK]; rfl

/-- `GSeparableConvE2` (with as many input as output elements): `in_H` and the group axis of the input in another order, the output elements `Hc` listed
as `Hc'`. -/
theorem C74_E2_separable (k : KernelArgs (O2.Elt) SizeArg) (c : ConvOpts) {m p}
    (hm : SpatialModes k.spatialMode k.spatialPad m p)
    (wr wf : ℝ) (hr : KernelE2.Ready k wr wf)
    {M : Module (O2.Elt) 2} (hM : fullE2 k c = .ok M) {mode : F.CPad} {ax : List Axis}
    (hgeo : HasGeometry (argsE2 k c) mode ax) {S S₁ : List ℕ} (hg₁ : GeomOk mode (firstAxes mode c.padding ax) S)
    (hS₁ : outDims (firstAxes mode c.padding ax) S = S₁) (hS : GeomOk mode ax S₁) (hC : 0 < k.outC)
    (weightH weight : Tensor ℝ) (hwH : weightH.shape = [KernelE2.nRot k + KernelE2.nRef k, k.outC, k.inC / k.groups])
    (hw : weight.shape = [k.outC, 1, k.kernelSize, k.kernelSize])
    (bias : Option (Tensor ℝ)) (hb : BiasShape bias k.outC 2) (N n : ℕ) (hn0 : 0 < n) (x x' : Tensor ℝ)
    (inH inH' : Tensor (O2.Elt)) (hin : inH.shape = [n]) (hin' : inH'.shape = [n])
    (H H' : Option (Tensor (O2.Elt))) (move move' : O2.Elt → O2.Elt) (Hc Hc' : Tensor (O2.Elt))
    (hHc : Hc = if c.permute then (H.getD M.kernel.gridH).map move else H.getD M.kernel.gridH)
    (hHc' : Hc' = if c.permute then (H'.getD M.kernel.gridH).map move' else H'.getD M.kernel.gridH)
    (π : Equiv.Perm (Fin n)) (ρ : ℕ → ℕ) (hπ : ∀ j : Fin n, inH'.get [(j : ℕ)] = inH.get [(π j : ℕ)])
    (hρ : Lists ρ n n Hc Hc')
    (hp : ∀ h < n, ∀ i < n, KernelE2.Pair k (Hc.get [h]) (inH.get [i]))
    (hx : GroupAxisPermuted π N k.inC S x x') :
    ∃ out out', M.separableE move weightH weight bias x inH H = .ok (out, Hc) ∧
      M.separableE move' weightH weight bias x' inH' H' = .ok (out', Hc') ∧
      GroupAxisReindexed ρ N k.outC n n (outDims ax S₁) out out' := by
  obtain ⟨K, hK, hL, hMK, hMp⟩ := build_ok hM
  have hks : kernelDims ax = [k.kernelSize, k.kernelSize] := hgeo.kernel.symm
  obtain ⟨b1, b2, b3, b4⟩ := fullE2_args k wr wf hr hK
  have hd : ax.length = 2 := by
    have := congrArg List.length hks
    simpa [kernelDims] using this
  rw [b3, ← hks] at hL
  obtain ⟨out, out', x1, y1, z⟩ := separable_reindex hgeo hL hg₁ hS₁ hS (groupLocal_E2 k hm wr wf hr hK).2 b1 b2 (by rw [b3, hks])
    weightH weight (by rw [b1, b2, b4]; exact hwH) (by rw [b1, b3]; exact hw) bias (by rw [hd]; exact hb) N n hC hn0 x x' inH inH' Hc Hc' π ρ hin hin' hπ hρ hp hx
  refine ⟨out, out', ?_, ?_, z⟩
  · rw [← x1, eq_permute hHc hρ.1, ← hMp, ← hMK]; rfl
  · rw [← y1, eq_permute hHc' hρ.2.1, ← hMp, ← hMK]; rfl


/-! ## E3 -/

theorem liftingLocal_E3 (s : GridCache.Store (Tensor ℝ)) (opt1 opt2 : List SO3.Euler) (k : KernelArgs (O3.Elt) SizeArg) (hk : 0 < k.kernelSize) {m p}
    (hm : SpatialModes k.spatialMode k.spatialPad m p) {K} (hK : KernelE3.lifting s opt1 opt2 k = .ok K) : LiftingLocal K := by
  unfold KernelE3.lifting at hK
  obtain ⟨gr, hgr, hK⟩ := bind_ok hK
  unfold checkGroups at hK
  split at hK
  · cases hK
  · cases hK; exact liftingLocal (KernelE3.lawful k gr _) (KernelE3.pointwise k gr _ hm hk)

theorem groupLocal_E3 (s : GridCache.Store (Tensor ℝ)) (opt1 opt2 : List SO3.Euler) (k : KernelArgs (O3.Elt) SizeArg) {m p}
    (hm : SpatialModes k.spatialMode k.spatialPad m p) (gr : Tensor O3.Elt) (wr wf : ℝ) (hr : KernelE3.Ready s opt1 opt2 k gr wr wf) {K} (hK : KernelE3.full s opt1 opt2 k = .ok K) :
    GroupLocal K (KernelE3.Pair k) ∧ SeparableLocal K (KernelE3.Pair k) := by
  rw [KernelE3.full_eq hr] at hK
  cases hK
  exact groupLocal (KernelE3.lawful k gr _) (KernelE3.pointwise k gr _ hm hr.kernel) (sampleAt_local m p _ rfl)
    (KernelE3.rows hr).1 (KernelE3.rows hr).2 hr.nonempty _ (fun _ _ h => h)

/-- `GLiftingConvE3`: `Hc` and `Hc'` are the group elements used in two calls (given or default, multiplied by
the random element if `permute_output_grid`). Listing elements differently reindexes the output. -/
theorem C74_E3_lifting (s : GridCache.Store (Tensor ℝ)) (opt1 opt2 : List SO3.Euler) (k : KernelArgs (O3.Elt) SizeArg) (c : ConvOpts) (hk : 0 < k.kernelSize) {m p}
    (hm : SpatialModes k.spatialMode k.spatialPad m p)
    {M : Module (O3.Elt) 3} (hM : liftingE3 s opt1 opt2 k c = .ok M) {mode : F.CPad} {ax : List Axis}
    (hgeo : HasGeometry (argsE3 k c) mode ax) {S : List ℕ} (hS : GeomOk mode ax S) (hpos : 0 < k.inC)
    (weight : Tensor ℝ) (hw : weight.shape = [k.outC, k.inC / k.groups, k.kernelSize, k.kernelSize, k.kernelSize])
    (bias : Option (Tensor ℝ)) (hb : BiasShape bias k.outC 3) (N n n' : ℕ) (x : Tensor ℝ) (hx : x.shape = N :: k.inC :: S)
    (H H' : Option (Tensor (O3.Elt))) (move move' : O3.Elt → O3.Elt) (Hc Hc' : Tensor (O3.Elt))
    (hHc : Hc = if c.permute then (H.getD M.kernel.gridH).map move else H.getD M.kernel.gridH)
    (hHc' : Hc' = if c.permute then (H'.getD M.kernel.gridH).map move' else H'.getD M.kernel.gridH)
    (ρ : ℕ → ℕ) (hρ : Lists ρ n n' Hc Hc') :
    ∃ out out', M.lift move weight bias x H = .ok (out, Hc) ∧ M.lift move' weight bias x H' = .ok (out', Hc') ∧
      GroupAxisReindexed ρ N k.outC n n' (outDims ax S) out out' := by
  obtain ⟨K, hK, hL, hMK, hMp⟩ := build_ok hM
  have hks : kernelDims ax = [k.kernelSize, k.kernelSize, k.kernelSize] := hgeo.kernel.symm
  obtain ⟨b1, b2, b3⟩ := liftingE3_args hK
  have hd : ax.length = 3 := by
    have := congrArg List.length hks
    simpa [kernelDims] using this
  rw [b3, ← hks] at hL
  obtain ⟨out, out', x1, y1, z⟩ := lifting_reindex hgeo hL hS (liftingLocal_E3 s opt1 opt2 k hk hm hK) b1 b2 (by rw [b3, hks]) weight
    (by rw [b1, b2, b3]; exact hw) bias (by rw [hd]; exact hb) N n n' x Hc Hc' ρ hρ hpos hx
  refine ⟨out, out', ?_, ?_, z⟩
  · rw [← x1, eq_permute hHc hρ.1, ← hMp, ← hMK]; rfl
  · rw [← y1, eq_permute hHc' hρ.2.1, ← hMp, ← hMK]; rfl

/-- `GConvE3`: `in_H` and the group axis of the input in another order, the output elements `Hc` listed
as `Hc'`. -/
theorem C74_E3_group (s : GridCache.Store (Tensor ℝ)) (opt1 opt2 : List SO3.Euler) (k : KernelArgs (O3.Elt) SizeArg) (c : ConvOpts) {m p}
    (hm : SpatialModes k.spatialMode k.spatialPad m p)
    (gr : Tensor O3.Elt) (wr wf : ℝ) (hr : KernelE3.Ready s opt1 opt2 k gr wr wf)
    {M : Module (O3.Elt) 3} (hM : fullE3 s opt1 opt2 k c = .ok M) {mode : F.CPad} {ax : List Axis}
    (hgeo : HasGeometry (argsE3 k c) mode ax) {S : List ℕ} (hS : GeomOk mode ax S)
    (weight : Tensor ℝ) (hw : weight.shape = [KernelE3.nRot k + KernelE3.nRef k, k.outC, k.inC / k.groups, k.kernelSize, k.kernelSize, k.kernelSize])
    (bias : Option (Tensor ℝ)) (hb : BiasShape bias k.outC 3) (N mi n n' : ℕ) (x x' : Tensor ℝ)
    (inH inH' : Tensor (O3.Elt)) (hin : inH.shape = [mi]) (hin' : inH'.shape = [mi])
    (H H' : Option (Tensor (O3.Elt))) (move move' : O3.Elt → O3.Elt) (Hc Hc' : Tensor (O3.Elt))
    (hHc : Hc = if c.permute then (H.getD M.kernel.gridH).map move else H.getD M.kernel.gridH)
    (hHc' : Hc' = if c.permute then (H'.getD M.kernel.gridH).map move' else H'.getD M.kernel.gridH)
    (π : Equiv.Perm (Fin mi)) (ρ : ℕ → ℕ) (hπ : ∀ j : Fin mi, inH'.get [(j : ℕ)] = inH.get [(π j : ℕ)])
    (hρ : Lists ρ n n' Hc Hc')
    (hp : ∀ h < n, ∀ i < mi, KernelE3.Pair k (Hc.get [h]) (inH.get [i]))
    (hx : GroupAxisPermuted π N k.inC S x x') :
    ∃ out out', M.groupE move weight bias x inH H = .ok (out, Hc) ∧
      M.groupE move' weight bias x' inH' H' = .ok (out', Hc') ∧
      GroupAxisReindexed ρ N k.outC n n' (outDims ax S) out out' := by
  obtain ⟨K, hK, hL, hMK, hMp⟩ := build_ok hM
  have hks : kernelDims ax = [k.kernelSize, k.kernelSize, k.kernelSize] := hgeo.kernel.symm
  obtain ⟨b1, b2, b3, b4⟩ := fullE3_args s opt1 opt2 k gr wr wf hr hK
  have hd : ax.length = 3 := by
    have := congrArg List.length hks
    simpa [kernelDims] using this
  rw [b3, ← hks] at hL
  obtain ⟨out, out', x1, y1, z⟩ := group_reindex hgeo hL hS (groupLocal_E3 s opt1 opt2 k hm gr wr wf hr hK).1 b1 b2 (by rw [b3, hks]) weight
    (by rw [b1, b2, b3, b4]; exact hw) bias (by rw [hd]; exact hb) N mi n n' x x' inH inH' Hc Hc' π ρ hin hin' hπ hρ hp hx
  refine ⟨out, out', ?_, ?_, z⟩
  · rw [← x1, eq_permute hHc hρ.1, ← hMp, ← hMK]; rfl
  · rw [← y1, eq_permute hHc' hρ.2.1, ← hMp, ← hMK]; rfl

/-- `GSeparableConvE3` (with as many input as output elements): `in_H` and the group axis of the input in another order, the output elements `Hc` listed
as `Hc'`. -/
theorem C74_E3_separable (s : GridCache.Store (Tensor ℝ)) (opt1 opt2 : List SO3.Euler) (k : KernelArgs (O3.Elt) SizeArg) (c : ConvOpts) {m p}
    (hm : SpatialModes k.spatialMode k.spatialPad m p)
    (gr : Tensor O3.Elt) (wr wf : ℝ) (hr : KernelE3.Ready s opt1 opt2 k gr wr wf)
    {M : Module (O3.Elt) 3} (hM : fullE3 s opt1 opt2 k c = .ok M) {mode : F.CPad} {ax : List Axis}
    (hgeo : HasGeometry (argsE3 k c) mode ax) {S S₁ : List ℕ} (hg₁ : GeomOk mode (firstAxes mode c.padding ax) S)
    (hS₁ : outDims (firstAxes mode c.padding ax) S = S₁) (hS : GeomOk mode ax S₁) (hC : 0 < k.outC)
    (weightH weight : Tensor ℝ) (hwH : weightH.shape = [KernelE3.nRot k + KernelE3.nRef k, k.outC, k.inC / k.groups])
    (hw : weight.shape = [k.outC, 1, k.kernelSize, k.kernelSize, k.kernelSize])
    (bias : Option (Tensor ℝ)) (hb : BiasShape bias k.outC 3) (N n : ℕ) (hn0 : 0 < n) (x x' : Tensor ℝ)
    (inH inH' : Tensor (O3.Elt)) (hin : inH.shape = [n]) (hin' : inH'.shape = [n])
    (H H' : Option (Tensor (O3.Elt))) (move move' : O3.Elt → O3.Elt) (Hc Hc' : Tensor (O3.Elt))
    (hHc : Hc = if c.permute then (H.getD M.kernel.gridH).map move else H.getD M.kernel.gridH)
    (hHc' : Hc' = if c.permute then (H'.getD M.kernel.gridH).map move' else H'.getD M.kernel.gridH)
    (π : Equiv.Perm (Fin n)) (ρ : ℕ → ℕ) (hπ : ∀ j : Fin n, inH'.get [(j : ℕ)] = inH.get [(π j : ℕ)])
    (hρ : Lists ρ n n Hc Hc')
    (hp : ∀ h < n, ∀ i < n, KernelE3.Pair k (Hc.get [h]) (inH.get [i]))
    (hx : GroupAxisPermuted π N k.inC S x x') :
    ∃ out out', M.separableE move weightH weight bias x inH H = .ok (out, Hc) ∧
      M.separableE move' weightH weight bias x' inH' H' = .ok (out', Hc') ∧
      GroupAxisReindexed ρ N k.outC n n (outDims ax S₁) out out' := by
  obtain ⟨K, hK, hL, hMK, hMp⟩ := build_ok hM
  have hks : kernelDims ax = [k.kernelSize, k.kernelSize, k.kernelSize] := hgeo.kernel.symm
  obtain ⟨b1, b2, b3, b4⟩ := fullE3_args s opt1 opt2 k gr wr wf hr hK
  have hd : ax.length = 3 := by
    have := congrArg List.length hks
    simpa [kernelDims] using this
  rw [b3, ← hks] at hL
  obtain ⟨out, out', x1, y1, z⟩ := separable_reindex hgeo hL hg₁ hS₁ hS (groupLocal_E3 s opt1 opt2 k hm gr wr wf hr hK).2 b1 b2 (by rw [b3, hks])
    weightH weight (by rw [b1, b2, b4]; exact hwH) (by rw [b1, b3]; exact hw) bias (by rw [hd]; exact hb) N n hC hn0 x x' inH inH' Hc Hc' π ρ hin hin' hπ hρ hp hx
  refine ⟨out, out', ?_, ?_, z⟩
  · rw [← x1, eq_permute hHc hρ.1, ← hMp, ← hMK]; rfl
  · rw [← y1, eq_permute hHc' hρ.2.1, ← hMp, ← hMK]; rfl

/-- the uniform grid of seven angles backwards, with the example module. -/
example (weight : Tensor ℝ) (hw : weight.shape = [6, 2, 5, 5]) (x : Tensor ℝ) (hx : x.shape = [3, 4, 9, 8]) (H : Tensor ℝ) (hH : H.shape = [7])
    (M : Module ℝ 2) (hM : liftingSE2 (KernelSE2.exArgs 7) rotOpts = .ok M) :
    ∃ out out', M.lift id weight none x (some H) = .ok (out, H) ∧
      M.lift id weight none x (some ⟨[7], fun i => H.get [6 - i.headD 0]⟩) = .ok (out', ⟨[7], fun i => H.get [6 - i.headD 0]⟩) ∧
      GroupAxisReindexed (fun h => 6 - h) 3 6 7 7 (outDims (List.replicate 2 (sameAxis 5 1)) [9, 8]) out out' := by
  obtain ⟨h1, h2, -, -⟩ := rot_geometry 7
  exact C74_SE2_lifting (KernelSE2.exArgs 7) rotOpts (by norm_num [KernelSE2.exArgs]) defaultModes hM h1 h2
    (by norm_num [KernelSE2.exArgs]) weight (by rw [hw]; simp [KernelSE2.exArgs]) none
    (fun b hb => by cases hb) 3 7 7 x hx (some H) _ id id H _ rfl rfl (fun h => 6 - h)
    ⟨hH, rfl, fun h hh => ⟨show 6 - h < 7 by omega, rfl⟩⟩

end GConv.Conv

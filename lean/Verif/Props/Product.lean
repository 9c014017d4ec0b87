import Verif.Spec.Product
import Verif.Props.Linear
import Verif.Props.Modules

/-! # C105: a separable layer is a full layer with product filters -/
namespace GConv

open Tensor Spec GroupKernel Linear Conv

namespace Product

variable {G : Type} {d : ℕ}

/-- a linear rowwise sampler is homogeneous. -/
theorem coreH_smul {K : GroupKernel G d} (hlin : LinearSamplers K) {KD : ℕ} {Good : G → Prop} {coreH : (ℕ → ℝ) → G → ℝ}
    (hsH : RowwiseSampler K.sampleH K.gridH KD Good coreH) {q : G} (hq : Good q) (f : ℕ → ℝ) (c : ℝ) :
    coreH (fun k => f k * c) q = coreH f q * c := by
  obtain ⟨o1, e1, s1, g1⟩ := hsH ⟨[1], fun _ => q⟩ ⟨[KD, 1], fun idx => f (idx.headD 0)⟩ 1 1 rfl rfl (fun _ _ => hq)
  obtain ⟨o2, e2, s2, g2⟩ := hsH ⟨[1], fun _ => q⟩ ⟨[KD, 1], fun idx => f (idx.headD 0) * c⟩ 1 1 rfl rfl (fun _ _ => hq)
  have := hlin.group c 0 ⟨[KD, 1], fun idx => f (idx.headD 0)⟩ ⟨[KD, 1], fun idx => f (idx.headD 0)⟩
    ⟨[KD, 1], fun idx => f (idx.headD 0) * c⟩ ⟨[1], fun _ => q⟩ K.gridH ⟨rfl, rfl, fun idx => by dsimp only; ring⟩
  rw [e1, e2] at this
  cases this with
  | ok h =>
    have h1 := g1 0 (by omega) 0 (by omega)
    have h2 := g2 0 (by omega) 0 (by omega)
    have h3 := h.2.2 [0, 0]
    dsimp only [List.headD] at h1 h2
    rw [← h1, ← h2, h3]; ring

/-- a linear pointwise sampler is homogeneous. -/
theorem core_smul {K : GroupKernel G d} (hlin : LinearSamplers K) {ks : List ℕ} {core : (List ℕ → ℝ) → (Fin d → ℝ) → ℝ}
    (hs : PointwiseSampler K.sampleRn ks core) {x : List ℕ} (hx : InB ks x) (v : Fin d → ℝ) (f : List ℕ → ℝ) (c : ℝ) :
    core (fun r => c * f r) v = c * core f v := by
  obtain ⟨o1, e1, s1, g1⟩ := hs ⟨1 :: 1 :: ks, fun idx => f (idx.drop 2)⟩ ⟨1 :: ks, fun _ => v⟩ 1 1 rfl rfl
  obtain ⟨o2, e2, s2, g2⟩ := hs ⟨1 :: 1 :: ks, fun idx => c * f (idx.drop 2)⟩ ⟨1 :: ks, fun _ => v⟩ 1 1 rfl rfl
  have := hlin.spatial c 0 ⟨1 :: 1 :: ks, fun idx => f (idx.drop 2)⟩ ⟨1 :: 1 :: ks, fun idx => f (idx.drop 2)⟩
    ⟨1 :: 1 :: ks, fun idx => c * f (idx.drop 2)⟩ ⟨1 :: ks, fun _ => v⟩ ⟨rfl, rfl, fun idx => by dsimp only; ring⟩
  rw [e1, e2] at this
  cases this with
  | ok h =>
    have h1 := g1 0 (by omega) 0 (by omega) x hx
    have h2 := g2 0 (by omega) 0 (by omega) x hx
    have h3 := h.2.2 (0 :: 0 :: x)
    dsimp only [List.drop] at h1 h2
    rw [← h1, ← h2, h3]; ring

/-- The kernel sampled from product filters is the product of the sampled group weights and spatial filters. -/
theorem kernel {K : GroupKernel G d} {inv mul act det core Good coreH} (hK : Lawful K inv mul act det) (hlin : LinearSamplers K)
    (hs : PointwiseSampler K.sampleRn K.kernelSize core) (hl : LocalCore K.kernelSize core)
    (hsH : RowwiseSampler K.sampleH K.gridH K.groupKernelDim Good coreH) (hlH : LocalChannel K.groupKernelDim coreH)
    (hpos : 0 < K.groupKernelDim) (weightH weight : Tensor ℝ) (inH outH : Tensor G) (n : ℕ)
    (hwH : weightH.shape = [K.groupKernelDim, K.outC, K.inC / K.groups])
    (hw : weight.shape = [K.outC, 1] ++ K.kernelSize)
    (hin : inH.shape = [n]) (hout : outH.shape = [n])
    (hgood : ∀ o < n, ∀ i < n, Good (mul (inv (outH.get [o])) (inH.get [i]))) :
    ∃ w wH wS, K.forward (productFilters K.outC (K.inC / K.groups) weightH weight) inH outH = .ok w ∧
      K.separableForward weightH weight inH outH = .ok (wH, wS) ∧
      w.shape = [K.outC, n, K.inC / K.groups, n] ++ K.kernelSize ∧
      wH.shape = [K.outC, n, K.inC / K.groups, n] ++ List.replicate K.kernelSize.length 1 ∧
      wS.shape = [K.outC, n, 1] ++ K.kernelSize ∧
      ∀ co o ci i x, co < K.outC → o < n → ci < K.inC / K.groups → i < n → InB K.kernelSize x →
        w.get (co :: o :: ci :: i :: x) =
          wH.get (co :: o :: ci :: i :: List.replicate K.kernelSize.length 0) * wS.get (co :: o :: 0 :: x) := by
  obtain ⟨wH, wS, e, sH, sS, gH, gS⟩ := C52_separable_partial hK hs hsH hlH hpos weightH weight inH outH n hwH hw hin hout hgood
  obtain ⟨w, e', s', g'⟩ := C51_group hK hs hl hsH hlH hpos (productFilters K.outC (K.inC / K.groups) weightH weight) inH outH n n
    (by unfold productFilters; dsimp only; rw [hwH, hw]; rfl) hin hout hgood
  refine ⟨w, wH, wS, e', e, s', sH, sS, fun co o ci i x hco ho hci hi hx => ?_⟩
  rw [g' co o ci i x hco ho hci hi hx, gH co o ci i hco ho hci hi, gS co o x hco ho hx]
  set CO := K.outC
  set CI := K.inC / K.groups
  have hflat : (storedChannel CO CI co ci).1 * CI + (storedChannel CO CI co ci).2 = ci * CO + co := by
    unfold storedChannel
    dsimp only
    rw [mul_comm]; exact Nat.div_add_mod _ _
  have hco' : ((storedChannel CO CI co ci).1 * CI + (storedChannel CO CI co ci).2) % CO = co := by
    rw [hflat, Nat.mul_comm, Nat.mul_add_mod, Nat.mod_eq_of_lt hco]
  have hin' : ∀ r, coreH (fun k => (productFilters CO CI weightH weight).get (k :: (storedChannel CO CI co ci).1 ::
      (storedChannel CO CI co ci).2 :: r)) (mul (inv (outH.get [o])) (inH.get [i])) =
      coreH (fun k => weightH.get [k, (storedChannel CO CI co ci).1, (storedChannel CO CI co ci).2])
        (mul (inv (outH.get [o])) (inH.get [i])) * weight.get (co :: 0 :: r) := by
    intro r
    rw [← coreH_smul hlin hsH (hgood o ho i hi)]
    unfold productFilters
    dsimp only
    rw [hco']
  rw [funext hin', core_smul hlin hs hx]
  ring

/-- a sum of extended signals. -/
theorem extended_sum {ι : Type} (T : Finset ι) (mode : F.CPad) (S : List ℕ) (f : ι → List ℕ → ℝ) (p : List ℤ) :
    extended mode S (fun q => ∑ i ∈ T, f i q) p = ∑ i ∈ T, extended mode S (f i) p := by
  unfold extended
  cases cellAt mode S p with
  | none => simp
  | some q => rfl

theorem extended_smul (mode : F.CPad) (S : List ℕ) (f : List ℕ → ℝ) (c : ℝ) (p : List ℤ) :
    extended mode S (fun q => f q * c) p = extended mode S f p * c := by
  unfold extended
  cases cellAt mode S p with
  | none => simp
  | some q => rfl

theorem sumBox_sum {ι : Type} (T : Finset ι) (s : List ℕ) (f : ι → List ℕ → ℝ) :
    sumBox s (fun k => ∑ i ∈ T, f i k) = ∑ i ∈ T, sumBox s (f i) := by
  unfold sumBox
  induction allIdx s with
  | nil => simp
  | cons a l ih => simp only [List.map_cons, List.sum_cons, ih, Finset.sum_add_distrib]

/-- The two formulas agree for product kernels. -/
theorem formula (a : Args) (mode : F.CPad) (ax : List Axis) (S : List ℕ) (input w wH wS : Tensor ℝ) (bias : Option (Tensor ℝ))
    (m b co h : ℕ) (o : List ℕ)
    (hp : ∀ ci < a.inC / a.groups.toNat, ∀ i < m, ∀ x, InB (kernelDims ax) x →
      w.get (co :: h :: ci :: i :: x) = wH.get (co :: h :: ci :: i :: List.replicate ax.length 0) * wS.get (co :: h :: 0 :: x)) :
    Spec.separableConv a mode ax S input wH wS bias m b co h o = Spec.groupConv a mode ax S input w bias m b co h o := by
  unfold Spec.separableConv Spec.groupConv pointwiseGroupConv corr
  congr 1
  rw [← Finset.sum_product', ← sumBox_sum]
  refine sumBox_congr fun k hk => ?_
  simp only [← Finset.sum_product' (Finset.range (a.inC / a.groups.toNat)) (Finset.range m)
    (fun ci i => input.get (b :: (groupStart a.inC a.outC a.groups.toNat co + ci) :: i :: _) * _)]
  rw [extended_sum, Finset.sum_mul]
  refine Finset.sum_congr rfl fun x hx => ?_
  obtain ⟨h1, h2⟩ := Finset.mem_product.1 hx
  rw [extended_smul, hp _ (Finset.mem_range.1 h1) _ (Finset.mem_range.1 h2) k hk]
  ring

/-- The layers agree. -/
theorem layer {a : Args} {mode : F.CPad} {ax : List Axis} (hgeo : HasGeometry a mode ax) {L : Layer}
    (hL : init a (kernelDims ax) = .ok L) {S : List ℕ} (hg : GeomOk mode ax S) (ho : AppliedOnce mode a.padding ax)
    {K : GroupKernel G d} {inv mul act det core Good coreH} (hK : Lawful K inv mul act det) (hlin : LinearSamplers K)
    (hs : PointwiseSampler K.sampleRn K.kernelSize core) (hl : LocalCore K.kernelSize core)
    (hsH : RowwiseSampler K.sampleH K.gridH K.groupKernelDim Good coreH) (hlH : LocalChannel K.groupKernelDim coreH)
    (hpos : 0 < K.groupKernelDim) (hks : K.kernelSize = kernelDims ax) (hCO : K.outC = a.outC) (hCI : K.inC / K.groups = a.inC / a.groups.toNat)
    (weightH weight : Tensor ℝ)
    (hwH : weightH.shape = [K.groupKernelDim, a.outC, a.inC / a.groups.toNat])
    (hw : weight.shape = [a.outC, 1] ++ kernelDims ax)
    (bias : Option (Tensor ℝ)) (hb : BiasShape bias a.outC ax.length) (N n : ℕ) (hn : 0 < n) (hC : 0 < a.outC) (input : Tensor ℝ)
    (hx : input.shape = N :: a.inC :: n :: S) (inH outH : Tensor G)
    (hin : inH.shape = [n]) (hout : outH.shape = [n])
    (hgood : ∀ o < n, ∀ i < n, Good (mul (inv (outH.get [o])) (inH.get [i]))) :
    ∃ out out', L.separableForward K weightH weight bias input inH outH = .ok (out, outH) ∧
      L.groupForward K (productFilters a.outC (a.inC / a.groups.toNat) weightH weight) bias input inH outH = .ok (out', outH) ∧
      SameTensor out out' := by
  have hlen : K.kernelSize.length = ax.length := by rw [hks]; simp [kernelDims]
  obtain ⟨w, wH, wS, e1, e2, s1, s2, s3, g⟩ := kernel hK hlin hs hl hsH hlH hpos weightH weight inH outH n
    (by rw [hCO, hCI]; exact hwH) (by rw [hCO, hks]; exact hw) hin hout hgood
  rw [hCO, hCI] at e1 s1 s2 g
  rw [hCO] at s3
  rw [hks] at s1 s3
  rw [hlen] at s2 g
  obtain ⟨out, o1, o2, o3⟩ := C62_once_partial hgeo hL hg ho K weightH weight wH wS bias N n n input inH outH hin hout hC hn e2
    s2 s3 hx hb
  obtain ⟨out', p1, p2, p3⟩ := C61_group hgeo hL hg K _ w bias N n n input inH outH hin hout e1 s1 hx hb
  refine ⟨out, out', o1, p1, by rw [o2, p2], fun idx hidx => ?_⟩
  rw [o2] at hidx
  obtain ⟨b, idx, rfl, hb', hidx⟩ := InB_cons_left hidx
  obtain ⟨co, idx, rfl, hco, hidx⟩ := InB_cons_left hidx
  obtain ⟨h, o, rfl, hh, hoo⟩ := InB_cons_left hidx
  rw [o3 b co h o hb' hco hh hoo, p3 b co h o hb' hco hh hoo]
  exact formula a mode ax S input w wH wS bias n b co h o fun ci hci i hi x hx => g co h ci i x hco hh hci hi (by rw [hks]; exact hx)

end Product


/-- `GSeparableConvSE2` and `GConvSE2` with the same arguments, strides 1 and no padding (or zero padding `'same'`), on as many
input as output elements: with product filters they compute the same, on every input and every grid, with or without
moved output grid. -/
theorem C105_SE2 (k : KernelArgs ℝ ℕ) (c : ConvOpts) {m p} (hm : SpatialModes k.spatialMode k.spatialPad m p)
    (wd : ℝ) (hr : KernelSE2.Ready k wd)
    {M : Module ℝ 2} (hM : fullSE2 k c = .ok M) {mode : F.CPad} {ax : List Axis}
    (hgeo : HasGeometry (argsSE2 k c) mode ax) {S : List ℕ} (hS : GeomOk mode ax S) (ho : AppliedOnce mode c.padding ax)
    (hC : 0 < k.outC) (weightH weight : Tensor ℝ)
    (hwH : weightH.shape = [(KernelSE2.grid k).shape.headD 0, k.outC, k.inC / k.groups])
    (hw : weight.shape = [k.outC, 1, k.kernelSize, k.kernelSize])
    (bias : Option (Tensor ℝ)) (hb : BiasShape bias k.outC 2) (N n : ℕ) (hn : 0 < n) (input : Tensor ℝ)
    (hx : input.shape = N :: k.inC :: n :: S) (inH : Tensor ℝ) (hin : inH.shape = [n]) (H : Option (Tensor ℝ))
    (hH : (H.getD inH).shape = [n]) (move : ℝ → ℝ) :
    ∃ out out' Hc, M.separableSE move weightH weight bias input inH H = .ok (out, Hc) ∧
      M.groupSE move (productFilters k.outC (k.inC / k.groups) weightH weight) bias input inH H = .ok (out', Hc) ∧
      SameTensor out out' := by
  obtain ⟨K, hK, hL, hMK, hMp⟩ := build_ok hM
  have hks : kernelDims ax = [k.kernelSize, k.kernelSize] := hgeo.kernel.symm
  rw [fullSE2_size hK, ← hks] at hL
  have hlen : ax.length = 2 := by
    have := congrArg List.length hks
    unfold kernelDims at this
    rwa [List.length_map] at this
  have hlin := C80_kernels_SE2 k K (Or.inr hK)
  obtain ⟨Hc, hHc⟩ : ∃ Hc, Hc = if c.permute then (H.getD inH).map move else H.getD inH := ⟨_, rfl⟩
  have hHs : Hc.shape = [n] := by rw [hHc]; cases c.permute <;> exact hH
  rw [KernelSE2.full_eq hr] at hK
  cases hK
  obtain ⟨out, out', e1, e2, e3⟩ := Product.layer hgeo hL hS ho (KernelSE2.lawful k _) hlin (KernelSE2.pointwise k _ hm hr.kernel)
    (sampleAt_local m p _ rfl) (KernelSE2.rows hr).1 (KernelSE2.rows hr).2 hr.nonempty hks.symm rfl rfl weightH weight
    hwH (by rw [hw, hks]; rfl) bias (by rw [hlen]; exact hb) N n hn hC input hx inH Hc hin hHs (fun _ _ _ _ => trivial)
  refine ⟨out, out', Hc, ?_, ?_, e3⟩
  · rw [← e1, hHc, ← hMp, ← permuteGrid_eq M.permute move (ne_nil_of_eq hH), ← hMK]
    rfl
  · rw [show (productFilters k.outC (k.inC / k.groups) weightH weight) = productFilters (argsSE2 k c).outC ((argsSE2 k c).inC / (argsSE2 k c).groups.toNat) weightH weight from rfl,
      ← e2, hHc, ← hMp, ← permuteGrid_eq M.permute move (ne_nil_of_eq hH), ← hMK]
    rfl

/-- `GSeparableConvSE3` and `GConvSE3` with the same arguments, strides 1 and no padding (or zero padding `'same'`), on as many
input as output elements: with product filters they compute the same, on every input and every grid, with or without
moved output grid. -/
theorem C105_SE3 (s : GridCache.Store (Tensor ℝ)) (opt : List SO3.Euler) (k : KernelArgs SO3.Mat3 ℕ) (c : ConvOpts) {m p} (hm : SpatialModes k.spatialMode k.spatialPad m p)
    (gr : Tensor SO3.Mat3) (wd : ℝ) (hr : KernelSE3.Ready s opt k gr wd)
    {M : Module SO3.Mat3 3} (hM : fullSE3 s opt k c = .ok M) {mode : F.CPad} {ax : List Axis}
    (hgeo : HasGeometry (argsSE3 k c) mode ax) {S : List ℕ} (hS : GeomOk mode ax S) (ho : AppliedOnce mode c.padding ax)
    (hC : 0 < k.outC) (weightH weight : Tensor ℝ)
    (hwH : weightH.shape = [gr.shape.headD 0, k.outC, k.inC / k.groups])
    (hw : weight.shape = [k.outC, 1, k.kernelSize, k.kernelSize, k.kernelSize])
    (bias : Option (Tensor ℝ)) (hb : BiasShape bias k.outC 3) (N n : ℕ) (hn : 0 < n) (input : Tensor ℝ)
    (hx : input.shape = N :: k.inC :: n :: S) (inH : Tensor SO3.Mat3) (hin : inH.shape = [n]) (H : Option (Tensor SO3.Mat3))
    (hH : (H.getD inH).shape = [n]) (move : SO3.Mat3 → SO3.Mat3) :
    ∃ out out' Hc, M.separableSE move weightH weight bias input inH H = .ok (out, Hc) ∧
      M.groupSE move (productFilters k.outC (k.inC / k.groups) weightH weight) bias input inH H = .ok (out', Hc) ∧
      SameTensor out out' := by
  obtain ⟨K, hK, hL, hMK, hMp⟩ := build_ok hM
  have hks : kernelDims ax = [k.kernelSize, k.kernelSize, k.kernelSize] := hgeo.kernel.symm
  rw [fullSE3_size hK, ← hks] at hL
  have hlen : ax.length = 3 := by
    have := congrArg List.length hks
    unfold kernelDims at this
    rwa [List.length_map] at this
  have hlin := C80_kernels_SE3 s opt k K (Or.inr hK)
  obtain ⟨Hc, hHc⟩ : ∃ Hc, Hc = if c.permute then (H.getD inH).map move else H.getD inH := ⟨_, rfl⟩
  have hHs : Hc.shape = [n] := by rw [hHc]; cases c.permute <;> exact hH
  rw [KernelSE3.full_eq hr] at hK
  cases hK
  obtain ⟨out, out', e1, e2, e3⟩ := Product.layer hgeo hL hS ho (KernelSE3.lawful k gr _) hlin (KernelSE3.pointwise k gr _ hm hr.kernel)
    (sampleAt_local m p _ rfl) (KernelSE3.rows hr).1 (KernelSE3.rows hr).2 (KernelSE3.dim_pos hr) hks.symm rfl rfl weightH weight
    (by rw [← KernelSE3.dim hr] at hwH; exact hwH) (by rw [hw, hks]; rfl) bias (by rw [hlen]; exact hb) N n hn hC input hx inH Hc hin hHs (fun _ _ _ _ => trivial)
  refine ⟨out, out', Hc, ?_, ?_, e3⟩
  · rw [← e1, hHc, ← hMp, ← permuteGrid_eq M.permute move (ne_nil_of_eq hH), ← hMK]
    rfl
  · rw [show (productFilters k.outC (k.inC / k.groups) weightH weight) = productFilters (argsSE3 k c).outC ((argsSE3 k c).inC / (argsSE3 k c).groups.toNat) weightH weight from rfl,
      ← e2, hHc, ← hMp, ← permuteGrid_eq M.permute move (ne_nil_of_eq hH), ← hMK]
    rfl

/-- `GSeparableConvE2` and `GConvE2` with the same arguments, strides 1 and no padding (or zero padding `'same'`), on as many
input as output elements: with product filters they compute the same, on every input and every grid, with or without
moved output grid. -/
theorem C105_E2 (k : KernelArgs O2.Elt SizeArg) (c : ConvOpts) {m p} (hm : SpatialModes k.spatialMode k.spatialPad m p)
    (wr wf : ℝ) (hr : KernelE2.Ready k wr wf)
    {M : Module O2.Elt 2} (hM : fullE2 k c = .ok M) {mode : F.CPad} {ax : List Axis}
    (hgeo : HasGeometry (argsE2 k c) mode ax) {S : List ℕ} (hS : GeomOk mode ax S) (ho : AppliedOnce mode c.padding ax)
    (hC : 0 < k.outC) (weightH weight : Tensor ℝ)
    (hwH : weightH.shape = [KernelE2.nRot k + KernelE2.nRef k, k.outC, k.inC / k.groups])
    (hw : weight.shape = [k.outC, 1, k.kernelSize, k.kernelSize])
    (bias : Option (Tensor ℝ)) (hb : BiasShape bias k.outC 2) (N n : ℕ) (hn : 0 < n) (input : Tensor ℝ)
    (hx : input.shape = N :: k.inC :: n :: S) (inH : Tensor O2.Elt) (hin : inH.shape = [n]) (H : Option (Tensor O2.Elt))
    (hH : (H.getD M.kernel.gridH).shape = [n]) (move : O2.Elt → O2.Elt)
    (hp : ∀ Hc, (Hc = if c.permute then (H.getD M.kernel.gridH).map move else H.getD M.kernel.gridH) →
      ∀ h < n, ∀ i < n, KernelE2.Pair k (Hc.get [h]) (inH.get [i])) :
    ∃ out out' Hc, M.separableE move weightH weight bias input inH H = .ok (out, Hc) ∧
      M.groupE move (productFilters k.outC (k.inC / k.groups) weightH weight) bias input inH H = .ok (out', Hc) ∧
      SameTensor out out' := by
  obtain ⟨K, hK, hL, hMK, hMp⟩ := build_ok hM
  have hks : kernelDims ax = [k.kernelSize, k.kernelSize] := hgeo.kernel.symm
  rw [fullE2_size hK, ← hks] at hL
  have hlen : ax.length = 2 := by
    have := congrArg List.length hks
    unfold kernelDims at this
    rwa [List.length_map] at this
  have hlin := C80_kernels_E2 k K (Or.inr hK)
  obtain ⟨Hc, hHc⟩ : ∃ Hc, Hc = if c.permute then (H.getD M.kernel.gridH).map move else H.getD M.kernel.gridH := ⟨_, rfl⟩
  have hHs : Hc.shape = [n] := by rw [hHc]; cases c.permute <;> exact hH
  rw [KernelE2.full_eq hr] at hK
  cases hK
  obtain ⟨out, out', e1, e2, e3⟩ := Product.layer hgeo hL hS ho (KernelE2.lawful k _) hlin (KernelE2.pointwise k _ hm hr.kernel)
    (sampleAt_local m p _ rfl) (KernelE2.rows hr).1 (KernelE2.rows hr).2 hr.nonempty hks.symm rfl rfl weightH weight
    hwH (by rw [hw, hks]; rfl) bias (by rw [hlen]; exact hb) N n hn hC input hx inH Hc hin hHs (hp Hc hHc)
  refine ⟨out, out', Hc, ?_, ?_, e3⟩
  · rw [← e1, hHc, ← hMp, ← permuteGrid_eq M.permute move (ne_nil_of_eq hH), ← hMK]
    rfl
  · rw [show (productFilters k.outC (k.inC / k.groups) weightH weight) = productFilters (argsE2 k c).outC ((argsE2 k c).inC / (argsE2 k c).groups.toNat) weightH weight from rfl,
      ← e2, hHc, ← hMp, ← permuteGrid_eq M.permute move (ne_nil_of_eq hH), ← hMK]
    rfl

/-- `GSeparableConvE3` and `GConvE3` with the same arguments, strides 1 and no padding (or zero padding `'same'`), on as many
input as output elements: with product filters they compute the same, on every input and every grid, with or without
moved output grid. -/
theorem C105_E3 (s : GridCache.Store (Tensor ℝ)) (opt1 opt2 : List SO3.Euler) (k : KernelArgs O3.Elt SizeArg) (c : ConvOpts) {m p} (hm : SpatialModes k.spatialMode k.spatialPad m p)
    (gr : Tensor O3.Elt) (wr wf : ℝ) (hr : KernelE3.Ready s opt1 opt2 k gr wr wf)
    {M : Module O3.Elt 3} (hM : fullE3 s opt1 opt2 k c = .ok M) {mode : F.CPad} {ax : List Axis}
    (hgeo : HasGeometry (argsE3 k c) mode ax) {S : List ℕ} (hS : GeomOk mode ax S) (ho : AppliedOnce mode c.padding ax)
    (hC : 0 < k.outC) (weightH weight : Tensor ℝ)
    (hwH : weightH.shape = [KernelE3.nRot k + KernelE3.nRef k, k.outC, k.inC / k.groups])
    (hw : weight.shape = [k.outC, 1, k.kernelSize, k.kernelSize, k.kernelSize])
    (bias : Option (Tensor ℝ)) (hb : BiasShape bias k.outC 3) (N n : ℕ) (hn : 0 < n) (input : Tensor ℝ)
    (hx : input.shape = N :: k.inC :: n :: S) (inH : Tensor O3.Elt) (hin : inH.shape = [n]) (H : Option (Tensor O3.Elt))
    (hH : (H.getD M.kernel.gridH).shape = [n]) (move : O3.Elt → O3.Elt)
    (hp : ∀ Hc, (Hc = if c.permute then (H.getD M.kernel.gridH).map move else H.getD M.kernel.gridH) →
      ∀ h < n, ∀ i < n, KernelE3.Pair k (Hc.get [h]) (inH.get [i])) :
    ∃ out out' Hc, M.separableE move weightH weight bias input inH H = .ok (out, Hc) ∧
      M.groupE move (productFilters k.outC (k.inC / k.groups) weightH weight) bias input inH H = .ok (out', Hc) ∧
      SameTensor out out' := by
  obtain ⟨K, hK, hL, hMK, hMp⟩ := build_ok hM
  have hks : kernelDims ax = [k.kernelSize, k.kernelSize, k.kernelSize] := hgeo.kernel.symm
  rw [fullE3_size hK, ← hks] at hL
  have hlen : ax.length = 3 := by
    have := congrArg List.length hks
    unfold kernelDims at this
    rwa [List.length_map] at this
  have hlin := C80_kernels_E3 s opt1 opt2 k K (Or.inr hK)
  obtain ⟨Hc, hHc⟩ : ∃ Hc, Hc = if c.permute then (H.getD M.kernel.gridH).map move else H.getD M.kernel.gridH := ⟨_, rfl⟩
  have hHs : Hc.shape = [n] := by rw [hHc]; cases c.permute <;> exact hH
  rw [KernelE3.full_eq hr] at hK
  cases hK
  obtain ⟨out, out', e1, e2, e3⟩ := Product.layer hgeo hL hS ho (KernelE3.lawful k gr _) hlin (KernelE3.pointwise k gr _ hm hr.kernel)
    (sampleAt_local m p _ rfl) (KernelE3.rows hr).1 (KernelE3.rows hr).2 hr.nonempty hks.symm rfl rfl weightH weight
    hwH (by rw [hw, hks]; rfl) bias (by rw [hlen]; exact hb) N n hn hC input hx inH Hc hin hHs (hp Hc hHc)
  refine ⟨out, out', Hc, ?_, ?_, e3⟩
  · rw [← e1, hHc, ← hMp, ← permuteGrid_eq M.permute move (ne_nil_of_eq hH), ← hMK]
    rfl
  · rw [show (productFilters k.outC (k.inC / k.groups) weightH weight) = productFilters (argsE3 k c).outC ((argsE3 k c).inC / (argsE3 k c).groups.toNat) weightH weight from rfl,
      ← e2, hHc, ← hMp, ← permuteGrid_eq M.permute move (ne_nil_of_eq hH), ← hMK]
    rfl

/-- Concrete case: rotations of the plane, kernel extent 5, channels 4 to 6 in two groups, images of 9 x 8 points, `n` group elements. -/
theorem Product.exSE2 (n : ℕ) (hn : 0 < n) (weight weightH input inH : Tensor ℝ)
    (hwH : weightH.shape = [(KernelSE2.grid (KernelSE2.exArgs n)).shape.headD 0, 6, 2])
    (hw : weight.shape = [6, 1, 5, 5]) (hx : input.shape = [3, 4, n, 9, 8]) (hin : inH.shape = [n]) :
    ∃ M out out' Hc, fullSE2 (KernelSE2.exArgs n) { permute := false } = .ok M ∧
      M.separableSE id weightH weight none input inH none = .ok (out, Hc) ∧
      M.groupSE id (productFilters 6 2 weightH weight) none input inH none = .ok (out', Hc) ∧ SameTensor out out' := by
  obtain ⟨M, hM, -⟩ := full_ex n hn { permute := false } (Or.inl rfl) rfl
  have hgeo : HasGeometry (argsSE2 (KernelSE2.exArgs n) { permute := false }) .zeros [⟨5, 1, 1, 0, 0⟩, ⟨5, 1, 1, 0, 0⟩] :=
    ⟨Or.inl ⟨rfl, rfl⟩, rfl, rfl, rfl, by
      intro a ha
      rcases List.mem_pair.1 ha with rfl | rfl <;> exact ⟨rfl, rfl⟩, Or.inl ⟨rfl, rfl⟩⟩
  have hok : ∀ (k s : ℕ), 0 < k → k ≤ s → (⟨k, 1, 1, 0, 0⟩ : Axis).Ok .zeros s := fun k s h1 h2 =>
    ⟨h1, Nat.one_pos, Nat.one_pos, by unfold Axis.span; simp only; omega, rfl⟩
  have ho : AppliedOnce .zeros (PadArg.int 0) [⟨5, 1, 1, 0, 0⟩, ⟨5, 1, 1, 0, 0⟩] := by
    intro a ha
    rcases List.mem_pair.1 ha with rfl | rfl <;> exact ⟨rfl, Or.inl ⟨rfl, rfl⟩⟩
  obtain ⟨out, out', Hc, e1, e2, e3⟩ := C105_SE2 (KernelSE2.exArgs n) { permute := false } defaultModes 1 (KernelSE2.exReady n hn) hM hgeo
    (S := [9, 8]) (List.Forall₂.cons (hok 5 9 (by norm_num) (by norm_num)) (List.Forall₂.cons (hok 5 8 (by norm_num) (by norm_num)) .nil))
    ho (by norm_num [KernelSE2.exArgs]) weightH weight (by rw [hwH]; simp [KernelSE2.exArgs]) (by rw [hw]; simp [KernelSE2.exArgs])
    none (fun b hb => by cases hb) 3 n hn input hx inH hin none hin id
  have h1 : (KernelSE2.exArgs n).outC = 6 := rfl
  have h2 : (KernelSE2.exArgs n).inC / (KernelSE2.exArgs n).groups = 2 := by norm_num [KernelSE2.exArgs]
  rw [h1, h2] at e2
  exact ⟨M, out, out', Hc, hM, e1, e2, e3⟩

end GConv

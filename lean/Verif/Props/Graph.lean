import Verif.Lemmas.Graph

/-! # C111: networks with residual and skip connections -/

namespace GConv.Branch

open Net Tensor Spec Conv GroupKernel F

variable {G : Type} {d : ℕ}

/-! ## layers that return a feature map on the group elements they are given -/

theorem keeps_act (a : Activations.Act) (H : Tensor G) : KeepsGrid (.act a : Block G d) H := by
  intro x y K h
  obtain ⟨f, -, h⟩ := bind_ok h
  cases h; rfl

theorem keeps_folded {norm : Tensor ℝ → Except PyErr (Tensor ℝ × Running)} {x y : Tensor ℝ} {H K : Tensor G} {r}
    (h : Normalization.folded norm x H = .ok ((y, K), r)) : K = H := by
  unfold Normalization.folded at h
  split at h
  · obtain ⟨_, -, h⟩ := bind_ok h
    obtain ⟨_, -, h⟩ := bind_ok h
    obtain ⟨_, -, h⟩ := bind_ok h
    cases h; rfl
  · cases h

theorem keeps_batch (a : NormArgs) (tr : Bool) (r : Running) (H : Tensor G) : KeepsGrid (.batch a tr r : Block G d) H := by
  intro x y K h
  have h : (Normalization.batch d a tr r x H).map Prod.fst = .ok (y, K) := h
  generalize e : Normalization.batch d a tr r x H = z at h
  cases z with
  | error => cases h
  | ok p =>
    obtain ⟨p, q⟩ := p
    obtain rfl : p = (y, K) := Except.ok.inj h
    exact keeps_folded e

theorem keeps_inst (a : NormArgs) (tr : Bool) (r : Running) (H : Tensor G) : KeepsGrid (.inst a tr r : Block G d) H := by
  intro x y K h
  have h : (Normalization.inst d a tr r x H).map Prod.fst = .ok (y, K) := h
  generalize e : Normalization.inst d a tr r x H = z at h
  cases z with
  | error => cases h
  | ok p =>
    obtain ⟨p, q⟩ := p
    obtain rfl : p = (y, K) := Except.ok.inj h
    exact keeps_folded e

theorem keeps_groupForward {L : Layer} {K : GroupKernel G d} {w : Tensor ℝ} {b : Option (Tensor ℝ)} {x y : Tensor ℝ} {inH outH H : Tensor G}
    (h : L.groupForward K w b x inH outH = .ok (y, H)) : H = outH := by
  unfold Layer.groupForward at h
  split at h
  · obtain ⟨_, -, h⟩ := bind_ok h
    unfold Layer.groupConv at h
    obtain ⟨_, -, h⟩ := bind_ok h
    obtain ⟨_, -, h⟩ := bind_ok h
    obtain ⟨_, -, h⟩ := bind_ok h
    obtain ⟨_, -, h⟩ := bind_ok h
    obtain ⟨_, -, h⟩ := bind_ok h
    cases h; rfl
  · cases h

theorem keeps_separableForward {L : Layer} {K : GroupKernel G d} {u w : Tensor ℝ} {b : Option (Tensor ℝ)} {x y : Tensor ℝ} {inH outH H : Tensor G}
    (h : L.separableForward K u w b x inH outH = .ok (y, H)) : H = outH := by
  unfold Layer.separableForward at h
  split at h
  · obtain ⟨_, -, h⟩ := bind_ok h
    unfold Layer.separableConv at h
    repeat' (obtain ⟨_, -, h⟩ := bind_ok h)
    cases h; rfl
  · cases h

/-- the SE(n) convolutions without `permute_output_grid`. -/
theorem keeps_SE (M : Module G d) (hp : M.permute = false) (move : G → G) (u w : Tensor ℝ) (b : Option (Tensor ℝ)) (H : Tensor G) :
    KeepsGrid (.groupSE M move w b) H ∧ KeepsGrid (.separableSE M move u w b) H := by
  have e : permuteGrid M.permute move H = H := by rw [hp]; rfl
  exact ⟨fun x y K h => (keeps_groupForward h).trans e, fun x y K h => (keeps_separableForward h).trans e⟩

/-- the E(n) convolutions without `permute_output_grid` return feature maps on their reference grid. -/
theorem keeps_E (M : Module G d) (hp : M.permute = false) (move : G → G) (u w : Tensor ℝ) (b : Option (Tensor ℝ)) :
    KeepsGrid (.groupE M move w b) M.kernel.gridH ∧ KeepsGrid (.separableE M move u w b) M.kernel.gridH := by
  have e : permuteGrid M.permute move M.kernel.gridH = M.kernel.gridH := by rw [hp]; rfl
  exact ⟨fun x y K h => (keeps_groupForward h).trans e, fun x y K h => (keeps_separableForward h).trans e⟩

/-! ## SE2 -/

/-- A lifting convolution followed by a network with residual and skip connections: the passes for an image and for the
image turned by `σ` both succeed, and the second feature map is the first one turned. -/
theorem C111_SE2 (k : KernelArgs ℝ ℕ) (c : ConvOpts) (hk : 2 ≤ k.kernelSize) {m p}
    (hm : SpatialModes k.spatialMode k.spatialPad m p)
    {M : Module ℝ 2} (hM : liftingSE2 k c = .ok M) {mode : F.CPad} {ax : List Axis}
    (hgeo : HasGeometry (argsSE2 k c) mode ax)
    (g : ℝ) {σ : LatticeSym 2} {S' S : List ℕ} (hσ : LatticeSym.Matches LatticeSym.ax2 σ S' S)
    (hS : GeomOk mode ax S) (hsym : SymmetricGeometry 2 ax S) (hg : SO2.angleToMatrix g = σ.matrix) (hpos : 0 < k.inC)
    (weight : Tensor ℝ) (hw : weight.shape = [k.outC, k.inC / k.groups, k.kernelSize, k.kernelSize])
    (bias : Option (Tensor ℝ)) (hb : BiasShape bias k.outC 2) (N n : ℕ) (x x' : Tensor ℝ)
    (H H' : Option (Tensor ℝ)) (move move' : ℝ → ℝ) (Hc Hc' : Tensor ℝ)
    (hHc : Hc = if c.permute then (H.getD M.kernel.gridH).map move else H.getD M.kernel.gridH)
    (hHc' : Hc' = if c.permute then (H'.getD M.kernel.gridH).map move' else H'.getD M.kernel.gridH)
    {π : Equiv.Perm (Fin n)} (hH : MovedGrid (SO2.leftApplyAngle g) π Hc Hc')
    (hx : MovedTensor LatticeSym.ax2 σ [N, k.inC] S' S x x')
    (hdis : Distinct n Hc') {f f' : Graph ℝ 2} {t : Sizes}
    (hwired : Wired N n (ConvSE2 g σ) Hc Hc' f f' ⟨k.outC, n, outDims ax S', outDims ax S⟩ t) :
    ∃ y y', (M.lift move weight bias x H >>= f.run) = .ok (y, Hc) ∧
      (M.lift move' weight bias x' H' >>= f'.run) = .ok (y', Hc') ∧
      MovedFeature LatticeSym.ax2 σ (SO2.leftApplyAngle g) (fun _ => True) N t.channels t.elements t.before t.after y Hc y' Hc' := by
  obtain ⟨y, y', x1, y1, z⟩ := liftSE2_feature k c hk hm hM hgeo g hσ hS hsym hg hpos weight hw bias hb N n x x' H H' move move' Hc Hc' hHc hHc' hH hx
  obtain ⟨w, w', r1, r2, r3, -⟩ := (graph_preserves (by norm_num) (fun h => convSE2_preserves hg N h) hdis hwired).2.2 z (matches_sym hσ hsym)
  exact ⟨w, w', by rw [x1, ok_bind]; exact r1, by rw [y1, ok_bind]; exact r2, r3⟩

/-- The same network with `GAvgGlobalPool` at the end gives the same result for both images, and `GMaxGlobalPool` the
same maxima. -/
theorem C111_SE2_invariant (k : KernelArgs ℝ ℕ) (c : ConvOpts) (hk : 2 ≤ k.kernelSize) {m p}
    (hm : SpatialModes k.spatialMode k.spatialPad m p)
    {M : Module ℝ 2} (hM : liftingSE2 k c = .ok M) {mode : F.CPad} {ax : List Axis}
    (hgeo : HasGeometry (argsSE2 k c) mode ax)
    (g : ℝ) {σ : LatticeSym 2} {S' S : List ℕ} (hσ : LatticeSym.Matches LatticeSym.ax2 σ S' S)
    (hS : GeomOk mode ax S) (hsym : SymmetricGeometry 2 ax S) (hg : SO2.angleToMatrix g = σ.matrix) (hpos : 0 < k.inC)
    (weight : Tensor ℝ) (hw : weight.shape = [k.outC, k.inC / k.groups, k.kernelSize, k.kernelSize])
    (bias : Option (Tensor ℝ)) (hb : BiasShape bias k.outC 2) (N n : ℕ) (x x' : Tensor ℝ)
    (H H' : Option (Tensor ℝ)) (move move' : ℝ → ℝ) (Hc Hc' : Tensor ℝ)
    (hHc : Hc = if c.permute then (H.getD M.kernel.gridH).map move else H.getD M.kernel.gridH)
    (hHc' : Hc' = if c.permute then (H'.getD M.kernel.gridH).map move' else H'.getD M.kernel.gridH)
    {π : Equiv.Perm (Fin n)} (hH : MovedGrid (SO2.leftApplyAngle g) π Hc Hc')
    (hx : MovedTensor LatticeSym.ax2 σ [N, k.inC] S' S x x')
    (hdis : Distinct n Hc') {f f' : Graph ℝ 2} {t : Sizes}
    (hwired : Wired N n (ConvSE2 g σ) Hc Hc' f f' ⟨k.outC, n, outDims ax S', outDims ax S⟩ t)
    (ht : 0 < (t.elements :: t.before).prod) :
    (∃ z z', (M.lift move weight bias x H >>= f.run >>= fun yH => Pooling.avgGlobal yH.1) = .ok (.tensor z) ∧
      (M.lift move' weight bias x' H' >>= f'.run >>= fun yH => Pooling.avgGlobal yH.1) = .ok (.tensor z') ∧
      z.shape = [N, t.channels, 1] ∧ z'.shape = [N, t.channels, 1] ∧
      ∀ b ch, b < N → ch < t.channels → z'.get [b, ch, 0] = z.get [b, ch, 0]) ∧
    (∃ v i v' i', (M.lift move weight bias x H >>= f.run >>= fun yH => Pooling.maxGlobal yH.1) = .ok (.pair v i) ∧
      (M.lift move' weight bias x' H' >>= f'.run >>= fun yH => Pooling.maxGlobal yH.1) = .ok (.pair v' i') ∧
      v.shape = [N, t.channels, 1] ∧ v'.shape = [N, t.channels, 1] ∧
      ∀ b ch, b < N → ch < t.channels → v'.get [b, ch, 0] = v.get [b, ch, 0]) := by
  obtain ⟨y, y', x1, y1, z⟩ := liftSE2_feature k c hk hm hM hgeo g hσ hS hsym hg hpos weight hw bias hb N n x x' H H' move move' Hc Hc' hHc hHc' hH hx
  obtain ⟨w, w', r1, r2, r3, r4⟩ := (graph_preserves (by norm_num) (fun h => convSE2_preserves hg N h) hdis hwired).2.2 z (matches_sym hσ hsym)
  obtain ⟨⟨u, u', a1, a2, a3⟩, v, i, v', i', c1, c2, c3⟩ := pool_feature r3 r4 ht
  rw [x1, y1, ok_bind, ok_bind, r1, r2]
  exact ⟨⟨u, u', a1, a2, a3⟩, v, i, v', i', c1, c2, c3⟩

/-- The default SO(2) grid of `n` elements has `n` different elements. -/
theorem distinct_uniform (n : ℕ) : Distinct n (Tensor.ofList (SO2.uniformGrid n)) := by
  intro i j hi hj h
  have hget : ∀ i < n, (Tensor.ofList (SO2.uniformGrid n)).get [i] = 2 * Real.pi * i / n := by
    intro i hi
    show (SO2.uniformGrid n).getD i default = _
    rw [List.getD_eq_getElem?_getD, SO2.C03_value n i hi]; rfl
  rw [hget i hi, hget j hj] at h
  have hn : (n : ℝ) ≠ 0 := by exact_mod_cast (by omega : n ≠ 0)
  have hp := Real.pi_pos.ne'
  field_simp at h
  exact_mod_cast h

/-- A residual network: lifting convolution, `x + relu(conv(x))`, then the feature maps before and after side by side
(12 channels), global average pooling, with the default grid of 4 rotations: a quarter turn of the 8 x 9 images does not
change the result. -/
example (weight weight₂ : Tensor ℝ) (hw : weight.shape = [6, 2, 5, 5]) (hw₂ : weight₂.shape = [4, 6, 3, 5, 5])
    (x x' : Tensor ℝ) (hx : MovedTensor LatticeSym.ax2 KernelSE2.quarter [3, 4] [8, 9] [9, 8] x x')
    (M M₂ : Module ℝ 2) (hM : liftingSE2 (KernelSE2.exArgs 4) rotOpts = .ok M) (hM₂ : fullSE2 (exArgs₂ 4) rotOpts = .ok M₂)
    (net : Graph ℝ 2) (hnet : net = .cat .skip (.add .skip (.seq (.layer (.groupSE M₂ id weight₂ none)) (.layer (.act .relu))))) :
    ∃ z z', (M.lift id weight none x none >>= net.run >>= fun yH => Pooling.avgGlobal yH.1) = .ok (.tensor z) ∧
      (M.lift id weight none x' none >>= net.run >>= fun yH => Pooling.avgGlobal yH.1) = .ok (.tensor z') ∧
      z.shape = [3, 12, 1] ∧ ∀ b ch, b < 3 → ch < 12 → z'.get [b, ch, 0] = z.get [b, ch, 0] := by
  obtain ⟨h1, h2, h3, h4⟩ := rot_geometry 4
  obtain ⟨π, hπ⟩ := C75_uniform_closed 4 (by norm_num) 1
  have e1 : (2 * Real.pi * (1 : ℕ) / (4 : ℕ) : ℝ) = Real.pi / 2 := by push_cast; ring
  rw [e1] at hπ
  have hgrid : M.kernel.gridH = Tensor.ofList (SO2.uniformGrid 4) := by
    obtain ⟨K, hK, -, hMK, -⟩ := build_ok hM
    rw [hMK]
    unfold KernelSE2.lifting checkGroups at hK
    split at hK
    · cases hK
    · cases hK; rfl
  have o1 : outDims (List.replicate 2 (sameAxis 5 1)) [8, 9] = [8, 9] := by simp [outDims, Axis.out, Axis.span, sameAxis]
  have o2 : outDims (List.replicate 2 (sameAxis 5 1)) [9, 8] = [9, 8] := by simp [outDims, Axis.out, Axis.span, sameAxis]
  obtain ⟨g1, -, -, -⟩ := C59_same_geometry 2 6 6 5 1 (.int 4) 2 "circular" .circular (Or.inr (Or.inr (Or.inr ⟨rfl, rfl⟩)))
    (by norm_num) (by norm_num) [9, 8] rfl (by simp [F.padAllowed])
  have hp₂ : M₂.permute = false := by
    obtain ⟨K, -, -, -, hMp⟩ := build_ok hM₂
    rw [hMp]; rfl
  have hconv : Chain 3 (ConvSE2 (Real.pi / 2) KernelSE2.quarter) [.groupSE M₂ id weight₂ none] [.groupSE M₂ id weight₂ none]
      ⟨6, 4, [8, 9], [9, 8]⟩ ⟨6, 4, outDims (List.replicate 2 (sameAxis 5 1)) [8, 9], outDims (List.replicate 2 (sameAxis 5 1)) [9, 8]⟩ :=
    .conv (ConvSE2.group (exArgs₂ 4) rotOpts (by norm_num [exArgs₂, KernelSE2.exArgs]) defaultModes 1 (exReady₂ 4 (by norm_num)) hM₂
      (g1 rfl) h2 h3 weight₂ (by rw [hw₂]; show [4, 6, 3, 5, 5] = [(SO2.uniformGrid 4).length, 6, 6 / 2, 5, 5]; rw [SO2.C03_length])
      none (fun b hb => by cases hb) id id (fun h => by cases h)) (.nil _)
  rw [o1, o2] at hconv
  have hwired : Wired 3 4 (ConvSE2 (Real.pi / 2) KernelSE2.quarter) M.kernel.gridH M.kernel.gridH net net
      ⟨6, 4, [8, 9], [9, 8]⟩ ⟨6 + 6, 4, [8, 9], [9, 8]⟩ := by
    rw [hnet]
    exact .cat (t := ⟨6, 4, [8, 9], [9, 8]⟩) (.skip _ rfl) (.add (.skip _ rfl) (.seq (.layer hconv (keeps_SE M₂ hp₂ _ weight₂ _ _ _).1 (keeps_SE M₂ hp₂ _ weight₂ _ _ _).1 rfl rfl)
      (.layer (.act .relu trivial (.nil _)) (keeps_act _ _) (keeps_act _ _) rfl rfl)))
  obtain ⟨⟨z, z', a1, a2, a4, -, a3⟩, -⟩ := C111_SE2_invariant (KernelSE2.exArgs 4) rotOpts (by norm_num [KernelSE2.exArgs]) defaultModes hM h1
    (Real.pi / 2) h4 h2 h3 KernelSE2.quarter_matrix (by norm_num [KernelSE2.exArgs]) weight (by rw [hw]; simp [KernelSE2.exArgs]) none
    (fun b hb => by cases hb) 3 4 x x' none none id id _ _ rfl rfl (π := π) (by rw [show (Option.none : Option (Tensor ℝ)).getD M.kernel.gridH = M.kernel.gridH from rfl, hgrid]; exact hπ) hx
    (by rw [show (Option.none : Option (Tensor ℝ)).getD M.kernel.gridH = M.kernel.gridH from rfl, hgrid]; exact distinct_uniform 4)
    (by rw [o1, o2]; exact hwired) (by norm_num)
  exact ⟨z, z', a1, a2, a4, a3⟩

/-! ## SE3 -/

/-- A lifting convolution followed by a network with residual and skip connections: the passes for an image and for the
image turned by `σ` both succeed, and the second feature map is the first one turned. -/
theorem C111_SE3 (s : GridCache.Store (Tensor ℝ)) (opt : List SO3.Euler) (k : KernelArgs SO3.Mat3 ℕ) (c : ConvOpts) (hk : 2 ≤ k.kernelSize) {m p}
    (hm : SpatialModes k.spatialMode k.spatialPad m p)
    {M : Module SO3.Mat3 3} (hM : liftingSE3 s opt k c = .ok M) {mode : F.CPad} {ax : List Axis}
    (hgeo : HasGeometry (argsSE3 k c) mode ax)
    {σ : LatticeSym 3} {S' S : List ℕ} (hσ : LatticeSym.Matches LatticeSym.ax3 σ S' S)
    (hS : GeomOk mode ax S) (hsym : SymmetricGeometry 3 ax S) (hg : IsRotation σ.matrix) (hpos : 0 < k.inC)
    (weight : Tensor ℝ) (hw : weight.shape = [k.outC, k.inC / k.groups, k.kernelSize, k.kernelSize, k.kernelSize])
    (bias : Option (Tensor ℝ)) (hb : BiasShape bias k.outC 3) (N n : ℕ) (x x' : Tensor ℝ)
    (H H' : Option (Tensor SO3.Mat3)) (move move' : SO3.Mat3 → SO3.Mat3) (Hc Hc' : Tensor SO3.Mat3)
    (hHc : Hc = if c.permute then (H.getD M.kernel.gridH).map move else H.getD M.kernel.gridH)
    (hHc' : Hc' = if c.permute then (H'.getD M.kernel.gridH).map move' else H'.getD M.kernel.gridH)
    {π : Equiv.Perm (Fin n)} (hH : MovedGrid (SO3.leftApplyMatrix σ.matrix) π Hc Hc')
    (hx : MovedTensor LatticeSym.ax3 σ [N, k.inC] S' S x x')
    (hdis : Distinct n Hc') {f f' : Graph SO3.Mat3 3} {t : Sizes}
    (hwired : Wired N n (ConvSE3 s opt σ) Hc Hc' f f' ⟨k.outC, n, outDims ax S', outDims ax S⟩ t) :
    ∃ y y', (M.lift move weight bias x H >>= f.run) = .ok (y, Hc) ∧
      (M.lift move' weight bias x' H' >>= f'.run) = .ok (y', Hc') ∧
      MovedFeature LatticeSym.ax3 σ (SO3.leftApplyMatrix σ.matrix) (fun _ => True) N t.channels t.elements t.before t.after y Hc y' Hc' := by
  obtain ⟨y, y', x1, y1, z⟩ := liftSE3_feature s opt k c hk hm hM hgeo hσ hS hsym hg hpos weight hw bias hb N n x x' H H' move move' Hc Hc' hHc hHc' hH hx
  obtain ⟨w, w', r1, r2, r3, -⟩ := (graph_preserves (by norm_num) (fun h => convSE3_preserves s opt hg N h) hdis hwired).2.2 z (matches_sym hσ hsym)
  exact ⟨w, w', by rw [x1, ok_bind]; exact r1, by rw [y1, ok_bind]; exact r2, r3⟩

/-- The same network with `GAvgGlobalPool` at the end gives the same result for both images, and `GMaxGlobalPool` the
same maxima. -/
theorem C111_SE3_invariant (s : GridCache.Store (Tensor ℝ)) (opt : List SO3.Euler) (k : KernelArgs SO3.Mat3 ℕ) (c : ConvOpts) (hk : 2 ≤ k.kernelSize) {m p}
    (hm : SpatialModes k.spatialMode k.spatialPad m p)
    {M : Module SO3.Mat3 3} (hM : liftingSE3 s opt k c = .ok M) {mode : F.CPad} {ax : List Axis}
    (hgeo : HasGeometry (argsSE3 k c) mode ax)
    {σ : LatticeSym 3} {S' S : List ℕ} (hσ : LatticeSym.Matches LatticeSym.ax3 σ S' S)
    (hS : GeomOk mode ax S) (hsym : SymmetricGeometry 3 ax S) (hg : IsRotation σ.matrix) (hpos : 0 < k.inC)
    (weight : Tensor ℝ) (hw : weight.shape = [k.outC, k.inC / k.groups, k.kernelSize, k.kernelSize, k.kernelSize])
    (bias : Option (Tensor ℝ)) (hb : BiasShape bias k.outC 3) (N n : ℕ) (x x' : Tensor ℝ)
    (H H' : Option (Tensor SO3.Mat3)) (move move' : SO3.Mat3 → SO3.Mat3) (Hc Hc' : Tensor SO3.Mat3)
    (hHc : Hc = if c.permute then (H.getD M.kernel.gridH).map move else H.getD M.kernel.gridH)
    (hHc' : Hc' = if c.permute then (H'.getD M.kernel.gridH).map move' else H'.getD M.kernel.gridH)
    {π : Equiv.Perm (Fin n)} (hH : MovedGrid (SO3.leftApplyMatrix σ.matrix) π Hc Hc')
    (hx : MovedTensor LatticeSym.ax3 σ [N, k.inC] S' S x x')
    (hdis : Distinct n Hc') {f f' : Graph SO3.Mat3 3} {t : Sizes}
    (hwired : Wired N n (ConvSE3 s opt σ) Hc Hc' f f' ⟨k.outC, n, outDims ax S', outDims ax S⟩ t)
    (ht : 0 < (t.elements :: t.before).prod) :
    (∃ z z', (M.lift move weight bias x H >>= f.run >>= fun yH => Pooling.avgGlobal yH.1) = .ok (.tensor z) ∧
      (M.lift move' weight bias x' H' >>= f'.run >>= fun yH => Pooling.avgGlobal yH.1) = .ok (.tensor z') ∧
      z.shape = [N, t.channels, 1] ∧ z'.shape = [N, t.channels, 1] ∧
      ∀ b ch, b < N → ch < t.channels → z'.get [b, ch, 0] = z.get [b, ch, 0]) ∧
    (∃ v i v' i', (M.lift move weight bias x H >>= f.run >>= fun yH => Pooling.maxGlobal yH.1) = .ok (.pair v i) ∧
      (M.lift move' weight bias x' H' >>= f'.run >>= fun yH => Pooling.maxGlobal yH.1) = .ok (.pair v' i') ∧
      v.shape = [N, t.channels, 1] ∧ v'.shape = [N, t.channels, 1] ∧
      ∀ b ch, b < N → ch < t.channels → v'.get [b, ch, 0] = v.get [b, ch, 0]) := by
  obtain ⟨y, y', x1, y1, z⟩ := liftSE3_feature s opt k c hk hm hM hgeo hσ hS hsym hg hpos weight hw bias hb N n x x' H H' move move' Hc Hc' hHc hHc' hH hx
  obtain ⟨w, w', r1, r2, r3, r4⟩ := (graph_preserves (by norm_num) (fun h => convSE3_preserves s opt hg N h) hdis hwired).2.2 z (matches_sym hσ hsym)
  obtain ⟨⟨u, u', a1, a2, a3⟩, v, i, v', i', c1, c2, c3⟩ := pool_feature r3 r4 ht
  rw [x1, y1, ok_bind, ok_bind, r1, r2]
  exact ⟨⟨u, u', a1, a2, a3⟩, v, i, v', i', c1, c2, c3⟩

/-! ## E2 -/

/-- A lifting convolution followed by a network with residual and skip connections: the passes for an image and for the
image turned by `σ` both succeed, and the second feature map is the first one turned. -/
theorem C111_E2 (k : KernelArgs O2.Elt SizeArg) (c : ConvOpts) (hk : 2 ≤ k.kernelSize) {m p}
    (hm : SpatialModes k.spatialMode k.spatialPad m p)
    {M : Module O2.Elt 2} (hM : liftingE2 k c = .ok M) {mode : F.CPad} {ax : List Axis}
    (hgeo : HasGeometry (argsE2 k c) mode ax)
    (g : O2.Elt) {σ : LatticeSym 2} {S' S : List ℕ} (hσ : LatticeSym.Matches LatticeSym.ax2 σ S' S)
    (hS : GeomOk mode ax S) (hsym : SymmetricGeometry 2 ax S) (h1 : g.1 = 1) (hg : g.1 • SO2.angleToMatrix g.2 = σ.matrix) (hpos : 0 < k.inC)
    (weight : Tensor ℝ) (hw : weight.shape = [k.outC, k.inC / k.groups, k.kernelSize, k.kernelSize])
    (bias : Option (Tensor ℝ)) (hb : BiasShape bias k.outC 2) (N n : ℕ) (x x' : Tensor ℝ)
    (H H' : Option (Tensor O2.Elt)) (move move' : O2.Elt → O2.Elt) (Hc Hc' : Tensor O2.Elt)
    (hHc : Hc = if c.permute then (H.getD M.kernel.gridH).map move else H.getD M.kernel.gridH)
    (hHc' : Hc' = if c.permute then (H'.getD M.kernel.gridH).map move' else H'.getD M.kernel.gridH)
    {π : Equiv.Perm (Fin n)} (hH : MovedGrid (O2.leftApplyAngle g) π Hc Hc') (hgood : ∀ i < n, (fun h : O2.Elt => h.1 = 1 ∨ h.1 = -1) (Hc.get [i]))
    (hx : MovedTensor LatticeSym.ax2 σ [N, k.inC] S' S x x')
    (hdis : Distinct n Hc') {f f' : Graph O2.Elt 2} {t : Sizes}
    (hwired : Wired N n (ConvE2 g σ) Hc Hc' f f' ⟨k.outC, n, outDims ax S', outDims ax S⟩ t) :
    ∃ y y', (M.lift move weight bias x H >>= f.run) = .ok (y, Hc) ∧
      (M.lift move' weight bias x' H' >>= f'.run) = .ok (y', Hc') ∧
      MovedFeature LatticeSym.ax2 σ (O2.leftApplyAngle g) (fun h : O2.Elt => h.1 = 1 ∨ h.1 = -1) N t.channels t.elements t.before t.after y Hc y' Hc' := by
  obtain ⟨y, y', x1, y1, z⟩ := liftE2_feature k c hk hm hM hgeo g hσ hS hsym h1 hg hpos weight hw bias hb N n x x' H H' move move' Hc Hc' hHc hHc' hH hgood hx
  obtain ⟨w, w', r1, r2, r3, -⟩ := (graph_preserves (by norm_num) (fun h => convE2_preserves h1 hg N h) hdis hwired).2.2 z (matches_sym hσ hsym)
  exact ⟨w, w', by rw [x1, ok_bind]; exact r1, by rw [y1, ok_bind]; exact r2, r3⟩

/-- The same network with `GAvgGlobalPool` at the end gives the same result for both images, and `GMaxGlobalPool` the
same maxima. -/
theorem C111_E2_invariant (k : KernelArgs O2.Elt SizeArg) (c : ConvOpts) (hk : 2 ≤ k.kernelSize) {m p}
    (hm : SpatialModes k.spatialMode k.spatialPad m p)
    {M : Module O2.Elt 2} (hM : liftingE2 k c = .ok M) {mode : F.CPad} {ax : List Axis}
    (hgeo : HasGeometry (argsE2 k c) mode ax)
    (g : O2.Elt) {σ : LatticeSym 2} {S' S : List ℕ} (hσ : LatticeSym.Matches LatticeSym.ax2 σ S' S)
    (hS : GeomOk mode ax S) (hsym : SymmetricGeometry 2 ax S) (h1 : g.1 = 1) (hg : g.1 • SO2.angleToMatrix g.2 = σ.matrix) (hpos : 0 < k.inC)
    (weight : Tensor ℝ) (hw : weight.shape = [k.outC, k.inC / k.groups, k.kernelSize, k.kernelSize])
    (bias : Option (Tensor ℝ)) (hb : BiasShape bias k.outC 2) (N n : ℕ) (x x' : Tensor ℝ)
    (H H' : Option (Tensor O2.Elt)) (move move' : O2.Elt → O2.Elt) (Hc Hc' : Tensor O2.Elt)
    (hHc : Hc = if c.permute then (H.getD M.kernel.gridH).map move else H.getD M.kernel.gridH)
    (hHc' : Hc' = if c.permute then (H'.getD M.kernel.gridH).map move' else H'.getD M.kernel.gridH)
    {π : Equiv.Perm (Fin n)} (hH : MovedGrid (O2.leftApplyAngle g) π Hc Hc') (hgood : ∀ i < n, (fun h : O2.Elt => h.1 = 1 ∨ h.1 = -1) (Hc.get [i]))
    (hx : MovedTensor LatticeSym.ax2 σ [N, k.inC] S' S x x')
    (hdis : Distinct n Hc') {f f' : Graph O2.Elt 2} {t : Sizes}
    (hwired : Wired N n (ConvE2 g σ) Hc Hc' f f' ⟨k.outC, n, outDims ax S', outDims ax S⟩ t)
    (ht : 0 < (t.elements :: t.before).prod) :
    (∃ z z', (M.lift move weight bias x H >>= f.run >>= fun yH => Pooling.avgGlobal yH.1) = .ok (.tensor z) ∧
      (M.lift move' weight bias x' H' >>= f'.run >>= fun yH => Pooling.avgGlobal yH.1) = .ok (.tensor z') ∧
      z.shape = [N, t.channels, 1] ∧ z'.shape = [N, t.channels, 1] ∧
      ∀ b ch, b < N → ch < t.channels → z'.get [b, ch, 0] = z.get [b, ch, 0]) ∧
    (∃ v i v' i', (M.lift move weight bias x H >>= f.run >>= fun yH => Pooling.maxGlobal yH.1) = .ok (.pair v i) ∧
      (M.lift move' weight bias x' H' >>= f'.run >>= fun yH => Pooling.maxGlobal yH.1) = .ok (.pair v' i') ∧
      v.shape = [N, t.channels, 1] ∧ v'.shape = [N, t.channels, 1] ∧
      ∀ b ch, b < N → ch < t.channels → v'.get [b, ch, 0] = v.get [b, ch, 0]) := by
  obtain ⟨y, y', x1, y1, z⟩ := liftE2_feature k c hk hm hM hgeo g hσ hS hsym h1 hg hpos weight hw bias hb N n x x' H H' move move' Hc Hc' hHc hHc' hH hgood hx
  obtain ⟨w, w', r1, r2, r3, r4⟩ := (graph_preserves (by norm_num) (fun h => convE2_preserves h1 hg N h) hdis hwired).2.2 z (matches_sym hσ hsym)
  obtain ⟨⟨u, u', a1, a2, a3⟩, v, i, v', i', c1, c2, c3⟩ := pool_feature r3 r4 ht
  rw [x1, y1, ok_bind, ok_bind, r1, r2]
  exact ⟨⟨u, u', a1, a2, a3⟩, v, i, v', i', c1, c2, c3⟩

/-! ## E3 -/

/-- A lifting convolution followed by a network with residual and skip connections: the passes for an image and for the
image turned by `σ` both succeed, and the second feature map is the first one turned. -/
theorem C111_E3 (s : GridCache.Store (Tensor ℝ)) (opt1 opt2 : List SO3.Euler) (k : KernelArgs O3.Elt SizeArg) (c : ConvOpts) (hk : 2 ≤ k.kernelSize) {m p}
    (hm : SpatialModes k.spatialMode k.spatialPad m p)
    {M : Module O3.Elt 3} (hM : liftingE3 s opt1 opt2 k c = .ok M) {mode : F.CPad} {ax : List Axis}
    (hgeo : HasGeometry (argsE3 k c) mode ax)
    (g : O3.Elt) {σ : LatticeSym 3} {S' S : List ℕ} (hσ : LatticeSym.Matches LatticeSym.ax3 σ S' S)
    (hS : GeomOk mode ax S) (hsym : SymmetricGeometry 3 ax S) (h1 : O3.coef g = 1) (hv : O3.Valid g) (hg : O3.coef g • O3.rot g = σ.matrix) (hpos : 0 < k.inC)
    (weight : Tensor ℝ) (hw : weight.shape = [k.outC, k.inC / k.groups, k.kernelSize, k.kernelSize, k.kernelSize])
    (bias : Option (Tensor ℝ)) (hb : BiasShape bias k.outC 3) (N n : ℕ) (x x' : Tensor ℝ)
    (H H' : Option (Tensor O3.Elt)) (move move' : O3.Elt → O3.Elt) (Hc Hc' : Tensor O3.Elt)
    (hHc : Hc = if c.permute then (H.getD M.kernel.gridH).map move else H.getD M.kernel.gridH)
    (hHc' : Hc' = if c.permute then (H'.getD M.kernel.gridH).map move' else H'.getD M.kernel.gridH)
    {π : Equiv.Perm (Fin n)} (hH : MovedGrid (O3.leftApplyO3 g) π Hc Hc') (hgood : ∀ i < n, (O3.Valid) (Hc.get [i]))
    (hx : MovedTensor LatticeSym.ax3 σ [N, k.inC] S' S x x')
    (hdis : Distinct n Hc') {f f' : Graph O3.Elt 3} {t : Sizes}
    (hwired : Wired N n (ConvE3 s opt1 opt2 g σ) Hc Hc' f f' ⟨k.outC, n, outDims ax S', outDims ax S⟩ t) :
    ∃ y y', (M.lift move weight bias x H >>= f.run) = .ok (y, Hc) ∧
      (M.lift move' weight bias x' H' >>= f'.run) = .ok (y', Hc') ∧
      MovedFeature LatticeSym.ax3 σ (O3.leftApplyO3 g) (O3.Valid) N t.channels t.elements t.before t.after y Hc y' Hc' := by
  obtain ⟨y, y', x1, y1, z⟩ := liftE3_feature s opt1 opt2 k c hk hm hM hgeo g hσ hS hsym h1 hv hg hpos weight hw bias hb N n x x' H H' move move' Hc Hc' hHc hHc' hH hgood hx
  obtain ⟨w, w', r1, r2, r3, -⟩ := (graph_preserves (by norm_num) (fun h => convE3_preserves s opt1 opt2 h1 hv hg N h) hdis hwired).2.2 z (matches_sym hσ hsym)
  exact ⟨w, w', by rw [x1, ok_bind]; exact r1, by rw [y1, ok_bind]; exact r2, r3⟩

/-- The same network with `GAvgGlobalPool` at the end gives the same result for both images, and `GMaxGlobalPool` the
same maxima. -/
theorem C111_E3_invariant (s : GridCache.Store (Tensor ℝ)) (opt1 opt2 : List SO3.Euler) (k : KernelArgs O3.Elt SizeArg) (c : ConvOpts) (hk : 2 ≤ k.kernelSize) {m p}
    (hm : SpatialModes k.spatialMode k.spatialPad m p)
    {M : Module O3.Elt 3} (hM : liftingE3 s opt1 opt2 k c = .ok M) {mode : F.CPad} {ax : List Axis}
    (hgeo : HasGeometry (argsE3 k c) mode ax)
    (g : O3.Elt) {σ : LatticeSym 3} {S' S : List ℕ} (hσ : LatticeSym.Matches LatticeSym.ax3 σ S' S)
    (hS : GeomOk mode ax S) (hsym : SymmetricGeometry 3 ax S) (h1 : O3.coef g = 1) (hv : O3.Valid g) (hg : O3.coef g • O3.rot g = σ.matrix) (hpos : 0 < k.inC)
    (weight : Tensor ℝ) (hw : weight.shape = [k.outC, k.inC / k.groups, k.kernelSize, k.kernelSize, k.kernelSize])
    (bias : Option (Tensor ℝ)) (hb : BiasShape bias k.outC 3) (N n : ℕ) (x x' : Tensor ℝ)
    (H H' : Option (Tensor O3.Elt)) (move move' : O3.Elt → O3.Elt) (Hc Hc' : Tensor O3.Elt)
    (hHc : Hc = if c.permute then (H.getD M.kernel.gridH).map move else H.getD M.kernel.gridH)
    (hHc' : Hc' = if c.permute then (H'.getD M.kernel.gridH).map move' else H'.getD M.kernel.gridH)
    {π : Equiv.Perm (Fin n)} (hH : MovedGrid (O3.leftApplyO3 g) π Hc Hc') (hgood : ∀ i < n, (O3.Valid) (Hc.get [i]))
    (hx : MovedTensor LatticeSym.ax3 σ [N, k.inC] S' S x x')
    (hdis : Distinct n Hc') {f f' : Graph O3.Elt 3} {t : Sizes}
    (hwired : Wired N n (ConvE3 s opt1 opt2 g σ) Hc Hc' f f' ⟨k.outC, n, outDims ax S', outDims ax S⟩ t)
    (ht : 0 < (t.elements :: t.before).prod) :
    (∃ z z', (M.lift move weight bias x H >>= f.run >>= fun yH => Pooling.avgGlobal yH.1) = .ok (.tensor z) ∧
      (M.lift move' weight bias x' H' >>= f'.run >>= fun yH => Pooling.avgGlobal yH.1) = .ok (.tensor z') ∧
      z.shape = [N, t.channels, 1] ∧ z'.shape = [N, t.channels, 1] ∧
      ∀ b ch, b < N → ch < t.channels → z'.get [b, ch, 0] = z.get [b, ch, 0]) ∧
    (∃ v i v' i', (M.lift move weight bias x H >>= f.run >>= fun yH => Pooling.maxGlobal yH.1) = .ok (.pair v i) ∧
      (M.lift move' weight bias x' H' >>= f'.run >>= fun yH => Pooling.maxGlobal yH.1) = .ok (.pair v' i') ∧
      v.shape = [N, t.channels, 1] ∧ v'.shape = [N, t.channels, 1] ∧
      ∀ b ch, b < N → ch < t.channels → v'.get [b, ch, 0] = v.get [b, ch, 0]) := by
  obtain ⟨y, y', x1, y1, z⟩ := liftE3_feature s opt1 opt2 k c hk hm hM hgeo g hσ hS hsym h1 hv hg hpos weight hw bias hb N n x x' H H' move move' Hc Hc' hHc hHc' hH hgood hx
  obtain ⟨w, w', r1, r2, r3, r4⟩ := (graph_preserves (by norm_num) (fun h => convE3_preserves s opt1 opt2 h1 hv hg N h) hdis hwired).2.2 z (matches_sym hσ hsym)
  obtain ⟨⟨u, u', a1, a2, a3⟩, v, i, v', i', c1, c2, c3⟩ := pool_feature r3 r4 ht
  rw [x1, y1, ok_bind, ok_bind, r1, r2]
  exact ⟨⟨u, u', a1, a2, a3⟩, v, i, v', i', c1, c2, c3⟩

end GConv.Branch

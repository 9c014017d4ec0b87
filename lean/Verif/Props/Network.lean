import Verif.Lemmas.Network
import Verif.Model.Network

/-! # C75, C67: chains of layers -/

namespace GConv.Net

open Tensor Spec Conv GroupKernel F

variable {G : Type} {d : ℕ}

/-- sizes of a feature map: channels, group elements, spatial extents in the pass with the original image (`before`) and
in the pass with the turned image (`after`). -/
structure Sizes where
  channels : ℕ
  elements : ℕ
  before : List ℕ
  after : List ℕ

/-- The chains of layers `bs` (original image) and `bs'` (turned image) are the same, layer by layer, except for the
random elements drawn by convolutions; the sizes go from `s` to `t` and every layer accepts its input. -/
inductive Chain (N : ℕ) (Conv : Block G d → Block G d → Sizes → Sizes → Prop) :
    List (Block G d) → List (Block G d) → Sizes → Sizes → Prop
  | nil (s : Sizes) : Chain N Conv [] [] s s
  | act {bs bs' s t} (a : Activations.Act) (ha : a.Ok) (h : Chain N Conv bs bs' s t) :
    Chain N Conv (.act a :: bs) (.act a :: bs') s t
  | batch {bs bs' s t} (a : NormArgs) (training : Bool) (r : Running) (hC : s.channels = a.features)
    (h1 : (N :: s.elements :: s.before).prod ≠ 1) (h : Chain N Conv bs bs' s t) :
    Chain N Conv (.batch a training r :: bs) (.batch a training r :: bs') s t
  | inst {bs bs' s t} (a : NormArgs) (training : Bool) (r : Running) (hC : s.channels = a.features)
    (h1 : (s.elements :: s.before).prod ≠ 1) (h : Chain N Conv bs bs' s t) :
    Chain N Conv (.inst a training r :: bs) (.inst a training r :: bs') s t
  | conv {b b' bs bs' s t u} (hb : Conv b b' s t) (h : Chain N Conv bs bs' t u) : Chain N Conv (b :: bs) (b' :: bs') s u

/-- the layer pair takes a turned feature map to a turned feature map. -/
def Preserves (e : Equiv.Perm (Fin d)) (σ : LatticeSym d) (left : G → G) (Good : G → Prop) (N : ℕ) (b b' : Block G d) (s t : Sizes) : Prop :=
  ∀ x H x' H', MovedFeature e σ left Good N s.channels s.elements s.before s.after x H x' H' →
    LatticeSym.Matches e σ s.before s.after →
    ∃ y K y' K', b.call x H = .ok (y, K) ∧ b'.call x' H' = .ok (y', K') ∧
      MovedFeature e σ left Good N t.channels t.elements t.before t.after y K y' K' ∧ LatticeSym.Matches e σ t.before t.after

theorem matches_sym {e : Equiv.Perm (Fin d)} {σ : LatticeSym d} {ax : List Axis} {S' S : List ℕ} (hm : LatticeSym.Matches e σ S' S)
    (hsym : SymmetricGeometry d ax S) : LatticeSym.Matches e σ (outDims ax S') (outDims ax S) := by
  obtain ⟨y, rfl, -⟩ := hsym; exact matches_out hm

theorem matches_two {e : Equiv.Perm (Fin d)} {σ : LatticeSym d} {ax₁ ax : List Axis} {S' S S₁' S₁ : List ℕ} (hm : LatticeSym.Matches e σ S' S)
    (hsym₁ : SymmetricGeometry d ax₁ S) (h : outDims ax₁ S = S₁) (h' : outDims ax₁ S' = S₁') (hsym : SymmetricGeometry d ax S₁) :
    LatticeSym.Matches e σ (outDims ax S₁') (outDims ax S₁) := by
  subst h h'
  exact matches_sym (matches_sym hm hsym₁) hsym

theorem movedGrid_permute {left move move' : G → G} {p : Bool} (hmv : p = true → ∀ h, move' (left h) = left (move h)) {n : ℕ}
    {π : Equiv.Perm (Fin n)} {H H' : Tensor G} (h : MovedGrid left π H H') :
    MovedGrid left π (permuteGrid p move H) (permuteGrid p move' H') := by
  rw [permuteGrid_eq p move (ne_nil_of_eq h.1), permuteGrid_eq p move' (ne_nil_of_eq h.2.1)]
  cases p with
  | false => exact h
  | true =>
    refine ⟨h.1, h.2.1, fun k => ?_⟩
    show move' (H'.get [(π k : ℕ)]) = left (move (H.get [(k : ℕ)]))
    rw [h.2.2 k]
    exact hmv rfl _

theorem chain_preserves (hd : 0 < d) {e : Equiv.Perm (Fin d)} {σ : LatticeSym d} {left : G → G} {Good : G → Prop} {N : ℕ}
    {Conv : Block G d → Block G d → Sizes → Sizes → Prop} (hConv : ∀ {b b' s t}, Conv b b' s t → Preserves e σ left Good N b b' s t)
    {bs bs' : List (Block G d)} {s t : Sizes} (h : Chain N Conv bs bs' s t) :
    ∀ {x H x' H'}, MovedFeature e σ left Good N s.channels s.elements s.before s.after x H x' H' →
      LatticeSym.Matches e σ s.before s.after →
      ∃ y K y' K', run bs (x, H) = .ok (y, K) ∧ run bs' (x', H') = .ok (y', K') ∧
        MovedFeature e σ left Good N t.channels t.elements t.before t.after y K y' K' ∧
        LatticeSym.Matches e σ t.before t.after := by
  induction h with
  | nil s => intro x H x' H' hx hm; exact ⟨x, H, x', H', rfl, rfl, hx, hm⟩
  | act a ha h ih =>
    intro x H x' H' hx hm
    obtain ⟨s1, s2, gi, π, hπ, hxx⟩ := hx
    obtain ⟨y, y', a1, a2, a3, a4, a5⟩ := Activations.C71_pointwise_partial a ha x x' H H'
    obtain ⟨w, K, w', K', r1, r2, r3⟩ := ih (x := y) (H := H) (x' := y') (H' := H')
      ⟨a3.trans s1, a4.trans s2, gi, π, hπ, fun b c q k hb hc hq => a5 _ _ (hxx b c q k hb hc hq)⟩ hm
    refine ⟨w, K, w', K', ?_, ?_, r3⟩
    · show (a.forward x H >>= run _) = _
      rw [a1, ok_bind]; exact r1
    · show (a.forward x' H' >>= run _) = _
      rw [a2, ok_bind]; exact r2
  | batch a tr r hC h1 h ih =>
    intro x H x' H' hx hm
    obtain ⟨s1, s2, gi, π, hπ, hxx⟩ := hx
    obtain ⟨y, y', r₁, r₂, a1, a2, a3, a4, -, a5⟩ := Normalization.C70_batch_reorder d hd a tr r x x' H H' N _ _ _ _ _ hm.1 hm.2.1 s1 s2 hC h1
      _ (movePos_bij π hm) (movePos_get hxx)
    obtain ⟨w, K, w', K', q1, q2, q3⟩ := ih (x := y) (H := H) (x' := y') (H' := H') ⟨a3, a4, gi, π, hπ, get_movePos a5⟩ hm
    refine ⟨w, K, w', K', ?_, ?_, q3⟩
    · show ((Normalization.batch d a tr r x H).map Prod.fst >>= run _) = _
      rw [a1]; exact q1
    · show ((Normalization.batch d a tr r x' H').map Prod.fst >>= run _) = _
      rw [a2]; exact q2
  | inst a tr r hC h1 h ih =>
    intro x H x' H' hx hm
    obtain ⟨s1, s2, gi, π, hπ, hxx⟩ := hx
    obtain ⟨y, y', r₁, r₂, a1, a2, a3, a4, -, a5⟩ := Normalization.C70_instance_reorder d hd a tr r x x' H H' N _ _ _ _ _ hm.1 hm.2.1 s1 s2 hC h1
      _ (movePos_bij π hm) (movePos_get hxx)
    obtain ⟨w, K, w', K', q1, q2, q3⟩ := ih (x := y) (H := H) (x' := y') (H' := H') ⟨a3, a4, gi, π, hπ, get_movePos a5⟩ hm
    refine ⟨w, K, w', K', ?_, ?_, q3⟩
    · show ((Normalization.inst d a tr r x H).map Prod.fst >>= run _) = _
      rw [a1]; exact q1
    · show ((Normalization.inst d a tr r x' H').map Prod.fst >>= run _) = _
      rw [a2]; exact q2
  | conv hb h ih =>
    intro x H x' H' hx hm
    obtain ⟨y, K, y', K', c1, c2, c3, c4⟩ := hConv hb x H x' H' hx hm
    obtain ⟨w, L, w', L', q1, q2, q3⟩ := ih c3 c4
    refine ⟨w, L, w', L', ?_, ?_, q3⟩
    · show (Block.call _ x H >>= run _) = _
      rw [c1, ok_bind]; exact q1
    · show (Block.call _ x' H' >>= run _) = _
      rw [c2, ok_bind]; exact q2

/-- the global pools of a feature map and of the turned feature map agree. -/
theorem pool_feature {e : Equiv.Perm (Fin d)} {σ : LatticeSym d} {left : G → G} {Good : G → Prop} {N C n : ℕ} {S' S : List ℕ}
    {x x' : Tensor ℝ} {H H' : Tensor G} (hx : MovedFeature e σ left Good N C n S' S x H x' H') (hm : LatticeSym.Matches e σ S' S)
    (hp : 0 < (n :: S').prod) :
    (∃ z z', Pooling.avgGlobal x = .ok (.tensor z) ∧ Pooling.avgGlobal x' = .ok (.tensor z') ∧ z.shape = [N, C, 1] ∧ z'.shape = [N, C, 1] ∧
      ∀ b c, b < N → c < C → z'.get [b, c, 0] = z.get [b, c, 0]) ∧
    (∃ v i v' i', Pooling.maxGlobal x = .ok (.pair v i) ∧ Pooling.maxGlobal x' = .ok (.pair v' i') ∧ v.shape = [N, C, 1] ∧
      v'.shape = [N, C, 1] ∧ ∀ b c, b < N → c < C → v'.get [b, c, 0] = v.get [b, c, 0]) := by
  obtain ⟨s1, s2, -, π, -, hxx⟩ := hx
  exact Pooling.C67_global x x' N C (n :: S') (n :: S) (by simp) (by simp) hp s1 s2 _ (movePos_bij π hm) (movePos_get hxx)

/-! ## SE2 -/

/-- The convolutions of the two passes: same module, same parameters, accepted input; if `permute_output_grid`, the element drawn in the second pass is the conjugated one. -/
inductive ConvSE2 (g : ℝ) (σ : LatticeSym 2) : Block ℝ 2 → Block ℝ 2 → Sizes → Sizes → Prop
  | group (k : KernelArgs ℝ ℕ) (c : ConvOpts) (hk : 2 ≤ k.kernelSize) {m p}
    (hm : SpatialModes k.spatialMode k.spatialPad m p) (wd : ℝ) (hr : KernelSE2.Ready k wd) 
    {M : Module ℝ 2} (hM : fullSE2 k c = .ok M) {mode : F.CPad} {ax : List Axis}
    (hgeo : HasGeometry (argsSE2 k c) mode ax) {S' S : List ℕ} (hS : GeomOk mode ax S) (hsym : SymmetricGeometry 2 ax S)
    (weight : Tensor ℝ) (hw : weight.shape = [(KernelSE2.grid k).shape.headD 0, k.outC, k.inC / k.groups, k.kernelSize, k.kernelSize])
    (bias : Option (Tensor ℝ)) (hb : BiasShape bias k.outC 2) {n : ℕ}
    (move move' : ℝ → ℝ) (hdraw : c.permute = true → ∀ h, move' (SO2.leftApplyAngle g h) = SO2.leftApplyAngle g (move h)) :
    ConvSE2 g σ (.groupSE M move weight bias) (.groupSE M move' weight bias)
      ⟨k.inC, n, S', S⟩ ⟨k.outC, n, outDims ax S', outDims ax S⟩
  | separable (k : KernelArgs ℝ ℕ) (c : ConvOpts) (hk : 2 ≤ k.kernelSize) {m p}
    (hm : SpatialModes k.spatialMode k.spatialPad m p) (wd : ℝ) (hr : KernelSE2.Ready k wd) 
    {M : Module ℝ 2} (hM : fullSE2 k c = .ok M) {mode : F.CPad} {ax : List Axis}
    (hgeo : HasGeometry (argsSE2 k c) mode ax) {S' S S₁' S₁ : List ℕ}
    (hg₁ : GeomOk mode (firstAxes mode c.padding ax) S) (hsym₁ : SymmetricGeometry 2 (firstAxes mode c.padding ax) S)
    (hS₁ : outDims (firstAxes mode c.padding ax) S = S₁) (hS₁' : outDims (firstAxes mode c.padding ax) S' = S₁')
    (hS : GeomOk mode ax S₁) (hsym : SymmetricGeometry 2 ax S₁) (hC : 0 < k.outC)
    (weightH weight : Tensor ℝ) (hwH : weightH.shape = [(KernelSE2.grid k).shape.headD 0, k.outC, k.inC / k.groups])
    (hw : weight.shape = [k.outC, 1, k.kernelSize, k.kernelSize])
    (bias : Option (Tensor ℝ)) (hb : BiasShape bias k.outC 2) {n : ℕ} (hn : 0 < n)
    (move move' : ℝ → ℝ) (hdraw : c.permute = true → ∀ h, move' (SO2.leftApplyAngle g h) = SO2.leftApplyAngle g (move h)) :
    ConvSE2 g σ (.separableSE M move weightH weight bias) (.separableSE M move' weightH weight bias)
      ⟨k.inC, n, S', S⟩ ⟨k.outC, n, outDims ax S₁', outDims ax S₁⟩

theorem convSE2_preserves {g : ℝ} {σ : LatticeSym 2} (hg : SO2.angleToMatrix g = σ.matrix) (N : ℕ) {b b' : Block ℝ 2} {u v : Sizes}
    (h : ConvSE2 g σ b b' u v) : Preserves LatticeSym.ax2 σ (SO2.leftApplyAngle g) (fun _ => True) N b b' u v := by
  intro x H x' H' hx hσ
  cases h with
  | group k c hk hm wd hr hM hgeo hS hsym weight hw bias hb move move' hdraw =>
    obtain ⟨K, hK, hL, hMK, hMp⟩ := build_ok hM
    have hks : kernelDims _ = [k.kernelSize, k.kernelSize] := hgeo.kernel.symm
    obtain ⟨b1, b2, b3, b4⟩ := fullSE2_args k wd hr hK
    rw [b3, ← hks] at hL
    obtain ⟨K', k1, h2, -⟩ := (KernelSE2.C57_SE2 k hk hm g σ hg).2 wd hr
    rw [hK] at k1
    cases k1
    obtain ⟨π, hπ⟩ := hx.2.2.2
    have hH := movedGrid_permute (hmv := hdraw) hπ.1
    obtain ⟨y, y', x1, y1, z⟩ := group_feature hgeo hL hσ hS hsym h2 (groupLocal_SE2 k hm wd hr hK).1 b1 b2 (by rw [b3, hks])
      weight (by rw [b1, b2, b3, b4]; exact hw) bias hb N _ _ x x' H H' (permuteGrid c.permute move H) (permuteGrid c.permute move' H')
      (fun _ _ _ _ => trivial) (fun _ _ => trivial) hx hH (fun _ _ => trivial)
    refine ⟨y, _, y', _, ?_, ?_, z, matches_sym hσ hsym⟩
    · rw [← x1, ← hMp, ← hMK]; rfl
    · rw [← y1, ← hMp, ← hMK]; rfl
  | separable k c hk hm wd hr hM hgeo hg₁ hsym₁ hS₁ hS₁' hS hsym hC weightH weight hwH hw bias hb hn move move' hdraw =>
    obtain ⟨K, hK, hL, hMK, hMp⟩ := build_ok hM
    have hks : kernelDims _ = [k.kernelSize, k.kernelSize] := hgeo.kernel.symm
    obtain ⟨b1, b2, b3, b4⟩ := fullSE2_args k wd hr hK
    rw [b3, ← hks] at hL
    obtain ⟨K', k1, -, h2⟩ := (KernelSE2.C57_SE2 k hk hm g σ hg).2 wd hr
    rw [hK] at k1
    cases k1
    obtain ⟨π, hπ⟩ := hx.2.2.2
    have hH := movedGrid_permute (hmv := hdraw) hπ.1
    obtain ⟨y, y', x1, y1, z⟩ := separable_feature hgeo hL hσ hg₁ hsym₁ hS₁ hS₁' hS hsym h2 (groupLocal_SE2 k hm wd hr hK).2 b1 b2 (by rw [b3, hks])
      weightH weight (by rw [b1, b2, b4]; exact hwH) (by rw [b1, b3]; exact hw) bias hb N _ hC hn x x' H H' (permuteGrid c.permute move H) (permuteGrid c.permute move' H')
      (fun _ _ _ _ => trivial) (fun _ _ => trivial) hx hH (fun _ _ => trivial)
    refine ⟨y, _, y', _, ?_, ?_, z, matches_two hσ hsym₁ hS₁ hS₁' hsym⟩
    · rw [← x1, ← hMp, ← hMK]; rfl
    · rw [← y1, ← hMp, ← hMK]; rfl

/-- `GLiftingConvSE2` on the turned image: when the group elements used for it are the multiplied ones in any order, the
feature map is the turned one. -/
theorem liftSE2_feature (k : KernelArgs ℝ ℕ) (c : ConvOpts) (hk : 2 ≤ k.kernelSize) {m p}
    (hm : SpatialModes k.spatialMode k.spatialPad m p)
    {M : Module ℝ 2} (hM : liftingSE2 k c = .ok M) {mode : F.CPad} {ax : List Axis}
    (hgeo : HasGeometry (argsSE2 k c) mode ax)
    (g : ℝ) {σ : LatticeSym 2} {S' S : List ℕ} (hσ : LatticeSym.Matches LatticeSym.ax2 σ S' S)
    (hS : GeomOk mode ax S) (hsym : SymmetricGeometry 2 ax S) (hg : SO2.angleToMatrix g = σ.matrix) (hpos : 0 < k.inC)
    (weight : Tensor ℝ) (hw : weight.shape = [k.outC, k.inC / k.groups, k.kernelSize, k.kernelSize])
    (bias : Option (Tensor ℝ)) (hb : BiasShape bias k.outC 2) (N n : ℕ) (x x' : Tensor ℝ)
    (H H' : Option (Tensor ℝ)) (move move' : ℝ → ℝ) (Hc Hc' : Tensor ℝ)
    (hHc : Hc = if c.permute then (H.getD M.kernel.gridH).map move else H.getD M.kernel.gridH)
    (hHc' : Hc' = if c.permute then (H'.getD M.kernel.gridH).map move' else H'.getD M.kernel.gridH)
    {π : Equiv.Perm (Fin n)} (hH : MovedGrid (SO2.leftApplyAngle g) π Hc Hc')
    (hx : MovedTensor LatticeSym.ax2 σ [N, k.inC] S' S x x') :
    ∃ y y', M.lift move weight bias x H = .ok (y, Hc) ∧ M.lift move' weight bias x' H' = .ok (y', Hc') ∧
      MovedFeature LatticeSym.ax2 σ (SO2.leftApplyAngle g) (fun _ => True) N k.outC n (outDims ax S') (outDims ax S) y Hc y' Hc' := by
  obtain ⟨K, hK, hL, hMK, hMp⟩ := build_ok hM
  have hg0 : 0 < k.groups := Int.natCast_pos.1 (groups_pos hgeo hL)
  have hks : kernelDims ax = [k.kernelSize, k.kernelSize] := hgeo.kernel.symm
  rw [liftingSE2_size hK, ← hks] at hL
  obtain ⟨K', k1, h2⟩ := (KernelSE2.C57_SE2 k hk hm g σ hg).1 hg0
  rw [hK] at k1
  cases k1
  obtain ⟨b1, b2, b3⟩ := liftingSE2_args hK
  obtain ⟨y, y', x1, y1, z⟩ := lifting_feature hgeo hL hσ hS hsym h2 (liftingLocal_SE2 k (by omega) hm hK) b1 b2 (by rw [b3, hks])
    weight (by rw [b1, b2, b3]; exact hw) bias hb N n x x' Hc Hc' hH (Good := fun _ => True) (fun _ _ => trivial) hpos hx
  refine ⟨y, y', ?_, ?_, z⟩
  · rw [← x1, eq_permute hHc hH.1, ← hMp, ← hMK]; rfl
  · rw [← y1, eq_permute hHc' hH.2.1, ← hMp, ← hMK]; rfl

/-- A lifting convolution followed by any chain of layers: the passes for an image and for the image turned by `σ` both
succeed, and the second feature map is the first one turned. `Hc` / `Hc'` are the group elements used by the lifting
convolution in the two passes. -/
theorem C75_SE2 (k : KernelArgs ℝ ℕ) (c : ConvOpts) (hk : 2 ≤ k.kernelSize) {m p}
    (hm : SpatialModes k.spatialMode k.spatialPad m p)
    {M : Module ℝ 2} (hM : liftingSE2 k c = .ok M) {mode : F.CPad} {ax : List Axis}
    (hgeo : HasGeometry (argsSE2 k c) mode ax)
    (g : ℝ) {σ : LatticeSym 2} {S' S : List ℕ} (hσ : LatticeSym.Matches LatticeSym.ax2 σ S' S)
    (hS : GeomOk mode ax S) (hsym : SymmetricGeometry 2 ax S) (hg : SO2.angleToMatrix g = σ.matrix) (hpos : 0 < k.inC)
    (weight : Tensor ℝ) (hw : weight.shape = [k.outC, k.inC / k.groups, k.kernelSize, k.kernelSize])
    (bias : Option (Tensor ℝ)) (hb : BiasShape bias k.outC 2) (N n : ℕ) (x x' : Tensor ℝ)
    (H H' : Option (Tensor ℝ)) (move move' : ℝ → ℝ) (Hc Hc' : Tensor ℝ)
    (hHc : Hc = if c.permute then (H.getD M.kernel.gridH).map move else H.getD M.kernel.gridH)
    (hHc' : Hc' = if c.permute then (H'.getD M.kernel.gridH).map move' else H'.getD M.kernel.gridH)
    {π : Equiv.Perm (Fin n)} (hH : MovedGrid (SO2.leftApplyAngle g) π Hc Hc')
    (hx : MovedTensor LatticeSym.ax2 σ [N, k.inC] S' S x x')
    {bs bs' : List (Block ℝ 2)} {t : Sizes}
    (hchain : Chain N (ConvSE2 g σ) bs bs' ⟨k.outC, n, outDims ax S', outDims ax S⟩ t) :
    ∃ y Hy y' Hy', (M.lift move weight bias x H >>= run bs) = .ok (y, Hy) ∧
      (M.lift move' weight bias x' H' >>= run bs') = .ok (y', Hy') ∧
      MovedFeature LatticeSym.ax2 σ (SO2.leftApplyAngle g) (fun _ => True) N t.channels t.elements t.before t.after y Hy y' Hy' := by
  obtain ⟨y, y', x1, y1, z⟩ := liftSE2_feature k c hk hm hM hgeo g hσ hS hsym hg hpos weight hw bias hb N n x x' H H' move move' Hc Hc' hHc hHc' hH hx
  obtain ⟨w, Hw, w', Hw', r1, r2, r3, -⟩ := chain_preserves (by norm_num) (fun h => convSE2_preserves hg N h) hchain z
    (matches_sym hσ hsym)
  exact ⟨w, Hw, w', Hw', by rw [x1, ok_bind]; exact r1, by rw [y1, ok_bind]; exact r2, r3⟩

/-- The same network with `GAvgGlobalPool` at the end gives the same result for both images, and `GMaxGlobalPool` the
same maxima. -/
theorem C75_SE2_invariant (k : KernelArgs ℝ ℕ) (c : ConvOpts) (hk : 2 ≤ k.kernelSize) {m p}
    (hm : SpatialModes k.spatialMode k.spatialPad m p)
    {M : Module ℝ 2} (hM : liftingSE2 k c = .ok M) {mode : F.CPad} {ax : List Axis}
    (hgeo : HasGeometry (argsSE2 k c) mode ax)
    (g : ℝ) {σ : LatticeSym 2} {S' S : List ℕ} (hσ : LatticeSym.Matches LatticeSym.ax2 σ S' S)
    (hS : GeomOk mode ax S) (hsym : SymmetricGeometry 2 ax S) (hg : SO2.angleToMatrix g = σ.matrix) (hpos : 0 < k.inC)
    (weight : Tensor ℝ) (hw : weight.shape = [k.outC, k.inC / k.groups, k.kernelSize, k.kernelSize])
    (bias : Option (Tensor ℝ)) (hb : BiasShape bias k.outC 2) (N n : ℕ) (x x' : Tensor ℝ)
    (H H' : Option (Tensor ℝ)) (move move' : ℝ → ℝ) (Hc Hc' : Tensor ℝ)
    (hHc : Hc = if c.permute then (H.getD M.kernel.gridH).map move else H.getD M.kernel.gridH)
    (hHc' : Hc' = if c.permute then (H'.getD M.kernel.gridH).map move' else H'.getD M.kernel.gridH)
    {π : Equiv.Perm (Fin n)} (hH : MovedGrid (SO2.leftApplyAngle g) π Hc Hc')
    (hx : MovedTensor LatticeSym.ax2 σ [N, k.inC] S' S x x')
    {bs bs' : List (Block ℝ 2)} {t : Sizes}
    (hchain : Chain N (ConvSE2 g σ) bs bs' ⟨k.outC, n, outDims ax S', outDims ax S⟩ t)
    (ht : 0 < (t.elements :: t.before).prod) :
    (∃ z z', (M.lift move weight bias x H >>= run bs >>= fun yH => Pooling.avgGlobal yH.1) = .ok (.tensor z) ∧
      (M.lift move' weight bias x' H' >>= run bs' >>= fun yH => Pooling.avgGlobal yH.1) = .ok (.tensor z') ∧
      z.shape = [N, t.channels, 1] ∧ z'.shape = [N, t.channels, 1] ∧
      ∀ b ch, b < N → ch < t.channels → z'.get [b, ch, 0] = z.get [b, ch, 0]) ∧
    (∃ v i v' i', (M.lift move weight bias x H >>= run bs >>= fun yH => Pooling.maxGlobal yH.1) = .ok (.pair v i) ∧
      (M.lift move' weight bias x' H' >>= run bs' >>= fun yH => Pooling.maxGlobal yH.1) = .ok (.pair v' i') ∧
      v.shape = [N, t.channels, 1] ∧ v'.shape = [N, t.channels, 1] ∧
      ∀ b ch, b < N → ch < t.channels → v'.get [b, ch, 0] = v.get [b, ch, 0]) := by
  obtain ⟨y, y', x1, y1, z⟩ := liftSE2_feature k c hk hm hM hgeo g hσ hS hsym hg hpos weight hw bias hb N n x x' H H' move move' Hc Hc' hHc hHc' hH hx
  obtain ⟨w, Hw, w', Hw', r1, r2, r3, r4⟩ := chain_preserves (by norm_num) (fun h => convSE2_preserves hg N h) hchain z
    (matches_sym hσ hsym)
  obtain ⟨⟨u, u', a1, a2, a3⟩, v, i, v', i', c1, c2, c3⟩ := pool_feature r3 r4 ht
  rw [x1, y1, ok_bind, ok_bind, r1, r2]
  exact ⟨⟨u, u', a1, a2, a3⟩, v, i, v', i', c1, c2, c3⟩

/-- `GLiftingConvSE2` followed by `GAvgGlobalPool` does not see the rotation. -/
theorem C67_SE2_lifting (k : KernelArgs ℝ ℕ) (c : ConvOpts) (hk : 2 ≤ k.kernelSize) {m p}
    (hm : SpatialModes k.spatialMode k.spatialPad m p)
    {M : Module ℝ 2} (hM : liftingSE2 k c = .ok M) {mode : F.CPad} {ax : List Axis}
    (hgeo : HasGeometry (argsSE2 k c) mode ax)
    (g : ℝ) {σ : LatticeSym 2} {S' S : List ℕ} (hσ : LatticeSym.Matches LatticeSym.ax2 σ S' S)
    (hS : GeomOk mode ax S) (hsym : SymmetricGeometry 2 ax S) (hg : SO2.angleToMatrix g = σ.matrix) (hpos : 0 < k.inC)
    (weight : Tensor ℝ) (hw : weight.shape = [k.outC, k.inC / k.groups, k.kernelSize, k.kernelSize])
    (bias : Option (Tensor ℝ)) (hb : BiasShape bias k.outC 2) (N n : ℕ) (x x' : Tensor ℝ)
    (H H' : Option (Tensor ℝ)) (move move' : ℝ → ℝ) (Hc Hc' : Tensor ℝ)
    (hHc : Hc = if c.permute then (H.getD M.kernel.gridH).map move else H.getD M.kernel.gridH)
    (hHc' : Hc' = if c.permute then (H'.getD M.kernel.gridH).map move' else H'.getD M.kernel.gridH)
    {π : Equiv.Perm (Fin n)} (hH : MovedGrid (SO2.leftApplyAngle g) π Hc Hc')
    (hx : MovedTensor LatticeSym.ax2 σ [N, k.inC] S' S x x')
    (ht : 0 < (n :: outDims ax S').prod) :
    ∃ z z', (M.lift move weight bias x H >>= fun yH => Pooling.avgGlobal yH.1) = .ok (.tensor z) ∧
      (M.lift move' weight bias x' H' >>= fun yH => Pooling.avgGlobal yH.1) = .ok (.tensor z') ∧
      z.shape = [N, k.outC, 1] ∧ z'.shape = [N, k.outC, 1] ∧
      ∀ b ch, b < N → ch < k.outC → z'.get [b, ch, 0] = z.get [b, ch, 0] := by
  obtain ⟨y, y', x1, y1, z⟩ := liftSE2_feature k c hk hm hM hgeo g hσ hS hsym hg hpos weight hw bias hb N n x x' H H' move move' Hc Hc' hHc hHc' hH hx
  obtain ⟨⟨u, u', a1, a2, a3⟩, -⟩ := pool_feature z (matches_sym hσ hsym) ht
  rw [x1, y1, ok_bind, ok_bind]
  exact ⟨u, u', a1, a2, a3⟩


/-! ## SE3 -/

/-- The convolutions of the two passes: same module, same parameters, accepted input; if `permute_output_grid`, the element drawn in the second pass is the conjugated one. -/
inductive ConvSE3 (s : GridCache.Store (Tensor ℝ)) (opt : List SO3.Euler) (σ : LatticeSym 3) : Block SO3.Mat3 3 → Block SO3.Mat3 3 → Sizes → Sizes → Prop
  | group (k : KernelArgs SO3.Mat3 ℕ) (c : ConvOpts) (hk : 2 ≤ k.kernelSize) {m p}
    (hm : SpatialModes k.spatialMode k.spatialPad m p) (gr : Tensor SO3.Mat3) (wd : ℝ) (hr : KernelSE3.Ready s opt k gr wd) 
    {M : Module SO3.Mat3 3} (hM : fullSE3 s opt k c = .ok M) {mode : F.CPad} {ax : List Axis}
    (hgeo : HasGeometry (argsSE3 k c) mode ax) {S' S : List ℕ} (hS : GeomOk mode ax S) (hsym : SymmetricGeometry 3 ax S)
    (weight : Tensor ℝ) (hw : weight.shape = [gr.shape.headD 0, k.outC, k.inC / k.groups, k.kernelSize, k.kernelSize, k.kernelSize])
    (bias : Option (Tensor ℝ)) (hb : BiasShape bias k.outC 3) {n : ℕ}
    (move move' : SO3.Mat3 → SO3.Mat3) (hdraw : c.permute = true → ∀ h, move' (SO3.leftApplyMatrix σ.matrix h) = SO3.leftApplyMatrix σ.matrix (move h)) :
    ConvSE3 s opt σ (.groupSE M move weight bias) (.groupSE M move' weight bias)
      ⟨k.inC, n, S', S⟩ ⟨k.outC, n, outDims ax S', outDims ax S⟩
  | separable (k : KernelArgs SO3.Mat3 ℕ) (c : ConvOpts) (hk : 2 ≤ k.kernelSize) {m p}
    (hm : SpatialModes k.spatialMode k.spatialPad m p) (gr : Tensor SO3.Mat3) (wd : ℝ) (hr : KernelSE3.Ready s opt k gr wd) 
    {M : Module SO3.Mat3 3} (hM : fullSE3 s opt k c = .ok M) {mode : F.CPad} {ax : List Axis}
    (hgeo : HasGeometry (argsSE3 k c) mode ax) {S' S S₁' S₁ : List ℕ}
    (hg₁ : GeomOk mode (firstAxes mode c.padding ax) S) (hsym₁ : SymmetricGeometry 3 (firstAxes mode c.padding ax) S)
    (hS₁ : outDims (firstAxes mode c.padding ax) S = S₁) (hS₁' : outDims (firstAxes mode c.padding ax) S' = S₁')
    (hS : GeomOk mode ax S₁) (hsym : SymmetricGeometry 3 ax S₁) (hC : 0 < k.outC)
    (weightH weight : Tensor ℝ) (hwH : weightH.shape = [gr.shape.headD 0, k.outC, k.inC / k.groups])
    (hw : weight.shape = [k.outC, 1, k.kernelSize, k.kernelSize, k.kernelSize])
    (bias : Option (Tensor ℝ)) (hb : BiasShape bias k.outC 3) {n : ℕ} (hn : 0 < n)
    (move move' : SO3.Mat3 → SO3.Mat3) (hdraw : c.permute = true → ∀ h, move' (SO3.leftApplyMatrix σ.matrix h) = SO3.leftApplyMatrix σ.matrix (move h)) :
    ConvSE3 s opt σ (.separableSE M move weightH weight bias) (.separableSE M move' weightH weight bias)
      ⟨k.inC, n, S', S⟩ ⟨k.outC, n, outDims ax S₁', outDims ax S₁⟩

theorem convSE3_preserves (s : GridCache.Store (Tensor ℝ)) (opt : List SO3.Euler) {σ : LatticeSym 3} (hg : IsRotation σ.matrix) (N : ℕ) {b b' : Block SO3.Mat3 3} {u v : Sizes}
    (h : ConvSE3 s opt σ b b' u v) : Preserves LatticeSym.ax3 σ (SO3.leftApplyMatrix σ.matrix) (fun _ => True) N b b' u v := by
  intro x H x' H' hx hσ
  cases h with
  | group k c hk hm gr wd hr hM hgeo hS hsym weight hw bias hb move move' hdraw =>
    obtain ⟨K, hK, hL, hMK, hMp⟩ := build_ok hM
    have hks : kernelDims _ = [k.kernelSize, k.kernelSize, k.kernelSize] := hgeo.kernel.symm
    obtain ⟨b1, b2, b3, b4⟩ := fullSE3_args s opt k gr wd hr hK
    rw [b3, ← hks] at hL
    obtain ⟨K', k1, h2, -⟩ := (KernelSE3.C57_SE3 s opt k hk hm σ hg).2 gr wd hr
    rw [hK] at k1
    cases k1
    obtain ⟨π, hπ⟩ := hx.2.2.2
    have hH := movedGrid_permute (hmv := hdraw) hπ.1
    obtain ⟨y, y', x1, y1, z⟩ := group_feature hgeo hL hσ hS hsym h2 (groupLocal_SE3 s opt k hm gr wd hr hK).1 b1 b2 (by rw [b3, hks])
      weight (by rw [b1, b2, b3, b4]; exact hw) bias hb N _ _ x x' H H' (permuteGrid c.permute move H) (permuteGrid c.permute move' H')
      (fun _ _ _ _ => trivial) (fun _ _ => trivial) hx hH (fun _ _ => trivial)
    refine ⟨y, _, y', _, ?_, ?_, z, matches_sym hσ hsym⟩
    · rw [← x1, ← hMp, ← hMK]; rfl
    · rw [← y1, ← hMp, ← hMK]; rfl
  | separable k c hk hm gr wd hr hM hgeo hg₁ hsym₁ hS₁ hS₁' hS hsym hC weightH weight hwH hw bias hb hn move move' hdraw =>
    obtain ⟨K, hK, hL, hMK, hMp⟩ := build_ok hM
    have hks : kernelDims _ = [k.kernelSize, k.kernelSize, k.kernelSize] := hgeo.kernel.symm
    obtain ⟨b1, b2, b3, b4⟩ := fullSE3_args s opt k gr wd hr hK
    rw [b3, ← hks] at hL
    obtain ⟨K', k1, -, h2⟩ := (KernelSE3.C57_SE3 s opt k hk hm σ hg).2 gr wd hr
    rw [hK] at k1
    cases k1
    obtain ⟨π, hπ⟩ := hx.2.2.2
    have hH := movedGrid_permute (hmv := hdraw) hπ.1
    obtain ⟨y, y', x1, y1, z⟩ := separable_feature hgeo hL hσ hg₁ hsym₁ hS₁ hS₁' hS hsym h2 (groupLocal_SE3 s opt k hm gr wd hr hK).2 b1 b2 (by rw [b3, hks])
      weightH weight (by rw [b1, b2, b4]; exact hwH) (by rw [b1, b3]; exact hw) bias hb N _ hC hn x x' H H' (permuteGrid c.permute move H) (permuteGrid c.permute move' H')
      (fun _ _ _ _ => trivial) (fun _ _ => trivial) hx hH (fun _ _ => trivial)
    refine ⟨y, _, y', _, ?_, ?_, z, matches_two hσ hsym₁ hS₁ hS₁' hsym⟩
    · rw [← x1, ← hMp, ← hMK]; rfl
    · rw [← y1, ← hMp, ← hMK]; rfl

/-- `GLiftingConvSE3` on the turned image: when the group elements used for it are the multiplied ones in any order, the
feature map is the turned one. -/
theorem liftSE3_feature (s : GridCache.Store (Tensor ℝ)) (opt : List SO3.Euler) (k : KernelArgs SO3.Mat3 ℕ) (c : ConvOpts) (hk : 2 ≤ k.kernelSize) {m p}
    (hm : SpatialModes k.spatialMode k.spatialPad m p)
    {M : Module SO3.Mat3 3} (hM : liftingSE3 s opt k c = .ok M) {mode : F.CPad} {ax : List Axis}
    (hgeo : HasGeometry (argsSE3 k c) mode ax)
    {σ : LatticeSym 3} {S' S : List ℕ} (hσ : LatticeSym.Matches LatticeSym.ax3 σ S' S)
    (hS : GeomOk mode ax S) (hsym : SymmetricGeometry 3 ax S) (hg : IsRotation σ.matrix) (hpos : 0 < k.inC)
    (weight : Tensor ℝ) (hw : weight.shape = [k.outC, k.inC / k.groups, k.kernelSize, k.kernelSize, k.kernelSize])
    (bias : Option (Tensor ℝ)) (hb : BiasShape bias k.outC 3) (N n : ℕ) (x x' : Tensor ℝ)
    (H H' : Option (Tensor SO3.Mat3)) (move move' : SO3.Mat3 → SO3.Mat3) (Hc Hc' : Tensor SO3.Mat3)
    (hHc : Hc = if c.permute then (H.getD M.kernel.gridH).map move else H.getD M.kernel.gridH)
    (hHc' : Hc' = if c.permute then (H'.getD M.kernel.gridH).map move' else H'.getD M.kernel.gridH)
    {π : Equiv.Perm (Fin n)} (hH : MovedGrid (SO3.leftApplyMatrix σ.matrix) π Hc Hc')
    (hx : MovedTensor LatticeSym.ax3 σ [N, k.inC] S' S x x') :
    ∃ y y', M.lift move weight bias x H = .ok (y, Hc) ∧ M.lift move' weight bias x' H' = .ok (y', Hc') ∧
      MovedFeature LatticeSym.ax3 σ (SO3.leftApplyMatrix σ.matrix) (fun _ => True) N k.outC n (outDims ax S') (outDims ax S) y Hc y' Hc' := by
  obtain ⟨K, hK, hL, hMK, hMp⟩ := build_ok hM
  have hg0 : 0 < k.groups := Int.natCast_pos.1 (groups_pos hgeo hL)
  have hks : kernelDims ax = [k.kernelSize, k.kernelSize, k.kernelSize] := hgeo.kernel.symm
  rw [(liftingSE3_size hK).1, ← hks] at hL
  obtain ⟨gr, hgr⟩ := (liftingSE3_size hK).2
  obtain ⟨K', k1, h2⟩ := (KernelSE3.C57_SE3 s opt k hk hm σ hg).1 gr hg0 hgr
  rw [hK] at k1
  cases k1
  obtain ⟨b1, b2, b3⟩ := liftingSE3_args hK
  obtain ⟨y, y', x1, y1, z⟩ := lifting_feature hgeo hL hσ hS hsym h2 (liftingLocal_SE3 s opt k (by omega) hm hK) b1 b2 (by rw [b3, hks])
    weight (by rw [b1, b2, b3]; exact hw) bias hb N n x x' Hc Hc' hH (Good := fun _ => True) (fun _ _ => trivial) hpos hx
  refine ⟨y, y', ?_, ?_, z⟩
  · rw [← x1, eq_permute hHc hH.1, ← hMp, ← hMK]; rfl
  · rw [← y1, eq_permute hHc' hH.2.1, ← hMp, ← hMK]; rfl

/-- A lifting convolution followed by any chain of layers: the passes for an image and for the image turned by `σ` both
succeed, and the second feature map is the first one turned. `Hc` / `Hc'` are the group elements used by the lifting
convolution in the two passes. -/
theorem C75_SE3 (s : GridCache.Store (Tensor ℝ)) (opt : List SO3.Euler) (k : KernelArgs SO3.Mat3 ℕ) (c : ConvOpts) (hk : 2 ≤ k.kernelSize) {m p}
    (hm : SpatialModes k.spatialMode k.spatialPad m p)
    {M : Module SO3.Mat3 3} (hM : liftingSE3 s opt k c = .ok M) {mode : F.CPad} {ax : List Axis}
    (hgeo : HasGeometry (argsSE3 k c) mode ax)
    {σ : LatticeSym 3} {S' S : List ℕ} (hσ : LatticeSym.Matches LatticeSym.ax3 σ S' S)
    (hS : GeomOk mode ax S) (hsym : SymmetricGeometry 3 ax S) (hg : IsRotation σ.matrix) (hpos : 0 < k.inC)
    (weight : Tensor ℝ) (hw : weight.shape = [k.outC, k.inC / k.groups, k.kernelSize, k.kernelSize, k.kernelSize])
    (bias : Option (Tensor ℝ)) (hb : BiasShape bias k.outC 3) (N n : ℕ) (x x' : Tensor ℝ)
    (H H' : Option (Tensor SO3.Mat3)) (move move' : SO3.Mat3 → SO3.Mat3) (Hc Hc' : Tensor SO3.Mat3)
    (hHc : Hc = if c.permute then (H.getD M.kernel.gridH).map move else H.getD M.kernel.gridH)
    (hHc' : Hc' = if c.permute then (H'.getD M.kernel.gridH).map move' else H'.getD M.kernel.gridH)
    {π : Equiv.Perm (Fin n)} (hH : MovedGrid (SO3.leftApplyMatrix σ.matrix) π Hc Hc')
    (hx : MovedTensor LatticeSym.ax3 σ [N, k.inC] S' S x x')
    {bs bs' : List (Block SO3.Mat3 3)} {t : Sizes}
    (hchain : Chain N (ConvSE3 s opt σ) bs bs' ⟨k.outC, n, outDims ax S', outDims ax S⟩ t) :
    ∃ y Hy y' Hy', (M.lift move weight bias x H >>= run bs) = .ok (y, Hy) ∧
      (M.lift move' weight bias x' H' >>= run bs') = .ok (y', Hy') ∧
      MovedFeature LatticeSym.ax3 σ (SO3.leftApplyMatrix σ.matrix) (fun _ => True) N t.channels t.elements t.before t.after y Hy y' Hy' := by
  obtain ⟨y, y', x1, y1, z⟩ := liftSE3_feature s opt k c hk hm hM hgeo hσ hS hsym hg hpos weight hw bias hb N n x x' H H' move move' Hc Hc' hHc hHc' hH hx
  obtain ⟨w, Hw, w', Hw', r1, r2, r3, -⟩ := chain_preserves (by norm_num) (fun h => convSE3_preserves s opt hg N h) hchain z
    (matches_sym hσ hsym)
  exact ⟨w, Hw, w', Hw', by rw [x1, ok_bind]; exact r1, by rw [y1, ok_bind]; exact r2, r3⟩

/-- The same network with `GAvgGlobalPool` at the end gives the same result for both images, and `GMaxGlobalPool` the
same maxima. -/
theorem C75_SE3_invariant (s : GridCache.Store (Tensor ℝ)) (opt : List SO3.Euler) (k : KernelArgs SO3.Mat3 ℕ) (c : ConvOpts) (hk : 2 ≤ k.kernelSize) {m p}
    (hm : SpatialModes k.spatialMode k.spatialPad m p)
    {M : Module SO3.Mat3 3} (hM : liftingSE3 s opt k c = .ok M) {mode : F.CPad} {ax : List Axis}
    (hgeo : HasGeometry (argsSE3 k c) mode ax)
    {σ : LatticeSym 3} {S' S : List ℕ} (hσ : LatticeSym.Matches LatticeSym.ax3 σ S' S)
    (hS : GeomOk mode ax S) (hsym : SymmetricGeometry 3 ax S) (hg : IsRotation σ.matrix) (hpos : 0 < k.inC)
    (weight : Tensor ℝ) (hw : weight.shape = [k.outC, k.inC / k.groups, k.kernelSize, k.kernelSize, k.kernelSize])
    (bias : Option (Tensor ℝ)) (hb : BiasShape bias k.outC 3) (N n : ℕ) (x x' : Tensor ℝ)
    (H H' : Option (Tensor SO3.Mat3)) (move move' : SO3.Mat3 → SO3.Mat3) (Hc Hc' : Tensor SO3.Mat3)
    (hHc : Hc = if c.permute then (H.getD M.kernel.gridH).map move else H.getD M.kernel.gridH)
    (hHc' : Hc' = if c.permute then (H'.getD M.kernel.gridH).map move' else H'.getD M.kernel.gridH)
    {π : Equiv.Perm (Fin n)} (hH : MovedGrid (SO3.leftApplyMatrix σ.matrix) π Hc Hc')
    (hx : MovedTensor LatticeSym.ax3 σ [N, k.inC] S' S x x')
    {bs bs' : List (Block SO3.Mat3 3)} {t : Sizes}
    (hchain : Chain N (ConvSE3 s opt σ) bs bs' ⟨k.outC, n, outDims ax S', outDims ax S⟩ t)
    (ht : 0 < (t.elements :: t.before).prod) :
    (∃ z z', (M.lift move weight bias x H >>= run bs >>= fun yH => Pooling.avgGlobal yH.1) = .ok (.tensor z) ∧
      (M.lift move' weight bias x' H' >>= run bs' >>= fun yH => Pooling.avgGlobal yH.1) = .ok (.tensor z') ∧
      z.shape = [N, t.channels, 1] ∧ z'.shape = [N, t.channels, 1] ∧
      ∀ b ch, b < N → ch < t.channels → z'.get [b, ch, 0] = z.get [b, ch, 0]) ∧
    (∃ v i v' i', (M.lift move weight bias x H >>= run bs >>= fun yH => Pooling.maxGlobal yH.1) = .ok (.pair v i) ∧
      (M.lift move' weight bias x' H' >>= run bs' >>= fun yH => Pooling.maxGlobal yH.1) = .ok (.pair v' i') ∧
      v.shape = [N, t.channels, 1] ∧ v'.shape = [N, t.channels, 1] ∧
      ∀ b ch, b < N → ch < t.channels → v'.get [b, ch, 0] = v.get [b, ch, 0]) := by
  obtain ⟨y, y', x1, y1, z⟩ := liftSE3_feature s opt k c hk hm hM hgeo hσ hS hsym hg hpos weight hw bias hb N n x x' H H' move move' Hc Hc' hHc hHc' hH hx
  obtain ⟨w, Hw, w', Hw', r1, r2, r3, r4⟩ := chain_preserves (by norm_num) (fun h => convSE3_preserves s opt hg N h) hchain z
    (matches_sym hσ hsym)
  obtain ⟨⟨u, u', a1, a2, a3⟩, v, i, v', i', c1, c2, c3⟩ := pool_feature r3 r4 ht
  rw [x1, y1, ok_bind, ok_bind, r1, r2]
  exact ⟨⟨u, u', a1, a2, a3⟩, v, i, v', i', c1, c2, c3⟩

/-- `GLiftingConvSE3` followed by `GAvgGlobalPool` does not see the rotation. -/
theorem C67_SE3_lifting (s : GridCache.Store (Tensor ℝ)) (opt : List SO3.Euler) (k : KernelArgs SO3.Mat3 ℕ) (c : ConvOpts) (hk : 2 ≤ k.kernelSize) {m p}
    (hm : SpatialModes k.spatialMode k.spatialPad m p)
    {M : Module SO3.Mat3 3} (hM : liftingSE3 s opt k c = .ok M) {mode : F.CPad} {ax : List Axis}
    (hgeo : HasGeometry (argsSE3 k c) mode ax)
    {σ : LatticeSym 3} {S' S : List ℕ} (hσ : LatticeSym.Matches LatticeSym.ax3 σ S' S)
    (hS : GeomOk mode ax S) (hsym : SymmetricGeometry 3 ax S) (hg : IsRotation σ.matrix) (hpos : 0 < k.inC)
    (weight : Tensor ℝ) (hw : weight.shape = [k.outC, k.inC / k.groups, k.kernelSize, k.kernelSize, k.kernelSize])
    (bias : Option (Tensor ℝ)) (hb : BiasShape bias k.outC 3) (N n : ℕ) (x x' : Tensor ℝ)
    (H H' : Option (Tensor SO3.Mat3)) (move move' : SO3.Mat3 → SO3.Mat3) (Hc Hc' : Tensor SO3.Mat3)
    (hHc : Hc = if c.permute then (H.getD M.kernel.gridH).map move else H.getD M.kernel.gridH)
    (hHc' : Hc' = if c.permute then (H'.getD M.kernel.gridH).map move' else H'.getD M.kernel.gridH)
    {π : Equiv.Perm (Fin n)} (hH : MovedGrid (SO3.leftApplyMatrix σ.matrix) π Hc Hc')
    (hx : MovedTensor LatticeSym.ax3 σ [N, k.inC] S' S x x')
    (ht : 0 < (n :: outDims ax S').prod) :
    ∃ z z', (M.lift move weight bias x H >>= fun yH => Pooling.avgGlobal yH.1) = .ok (.tensor z) ∧
      (M.lift move' weight bias x' H' >>= fun yH => Pooling.avgGlobal yH.1) = .ok (.tensor z') ∧
      z.shape = [N, k.outC, 1] ∧ z'.shape = [N, k.outC, 1] ∧
      ∀ b ch, b < N → ch < k.outC → z'.get [b, ch, 0] = z.get [b, ch, 0] := by
  obtain ⟨y, y', x1, y1, z⟩ := liftSE3_feature s opt k c hk hm hM hgeo hσ hS hsym hg hpos weight hw bias hb N n x x' H H' move move' Hc Hc' hHc hHc' hH hx
  obtain ⟨⟨u, u', a1, a2, a3⟩, -⟩ := pool_feature z (matches_sym hσ hsym) ht
  rw [x1, y1, ok_bind, ok_bind]
  exact ⟨u, u', a1, a2, a3⟩


/-! ## E2 -/

/-- The convolutions of the two passes: same module, same parameters, accepted input; the kernel's reference grid (multiplied by the random element if `permute_output_grid`) is moved to the one of the
second pass by left multiplication. -/
inductive ConvE2 (g : O2.Elt) (σ : LatticeSym 2) : Block O2.Elt 2 → Block O2.Elt 2 → Sizes → Sizes → Prop
  | group (k : KernelArgs O2.Elt SizeArg) (c : ConvOpts) (hk : 2 ≤ k.kernelSize) {m p}
    (hm : SpatialModes k.spatialMode k.spatialPad m p) (wr wf : ℝ) (hr : KernelE2.Ready k wr wf) (hnR : KernelE2.nRot k ≠ 0) (hnF : KernelE2.nRef k ≠ 0)
    {M : Module O2.Elt 2} (hM : fullE2 k c = .ok M) {mode : F.CPad} {ax : List Axis}
    (hgeo : HasGeometry (argsE2 k c) mode ax) {S' S : List ℕ} (hS : GeomOk mode ax S) (hsym : SymmetricGeometry 2 ax S)
    (weight : Tensor ℝ) (hw : weight.shape = [KernelE2.nRot k + KernelE2.nRef k, k.outC, k.inC / k.groups, k.kernelSize, k.kernelSize])
    (bias : Option (Tensor ℝ)) (hb : BiasShape bias k.outC 2) {n no : ℕ}
    (move move' : O2.Elt → O2.Elt) {Hc Hc' : Tensor O2.Elt}
    (hHc : Hc = if c.permute then M.kernel.gridH.map move else M.kernel.gridH)
    (hHc' : Hc' = if c.permute then M.kernel.gridH.map move' else M.kernel.gridH)
    {π : Equiv.Perm (Fin no)} (hH : MovedGrid (O2.leftApplyAngle g) π Hc Hc') (hgood : ∀ i < no, (fun h : O2.Elt => h.1 = 1 ∨ h.1 = -1) (Hc.get [i])) :
    ConvE2 g σ (.groupE M move weight bias) (.groupE M move' weight bias)
      ⟨k.inC, n, S', S⟩ ⟨k.outC, no, outDims ax S', outDims ax S⟩
  | separable (k : KernelArgs O2.Elt SizeArg) (c : ConvOpts) (hk : 2 ≤ k.kernelSize) {m p}
    (hm : SpatialModes k.spatialMode k.spatialPad m p) (wr wf : ℝ) (hr : KernelE2.Ready k wr wf) (hnR : KernelE2.nRot k ≠ 0) (hnF : KernelE2.nRef k ≠ 0)
    {M : Module O2.Elt 2} (hM : fullE2 k c = .ok M) {mode : F.CPad} {ax : List Axis}
    (hgeo : HasGeometry (argsE2 k c) mode ax) {S' S S₁' S₁ : List ℕ}
    (hg₁ : GeomOk mode (firstAxes mode c.padding ax) S) (hsym₁ : SymmetricGeometry 2 (firstAxes mode c.padding ax) S)
    (hS₁ : outDims (firstAxes mode c.padding ax) S = S₁) (hS₁' : outDims (firstAxes mode c.padding ax) S' = S₁')
    (hS : GeomOk mode ax S₁) (hsym : SymmetricGeometry 2 ax S₁) (hC : 0 < k.outC)
    (weightH weight : Tensor ℝ) (hwH : weightH.shape = [KernelE2.nRot k + KernelE2.nRef k, k.outC, k.inC / k.groups])
    (hw : weight.shape = [k.outC, 1, k.kernelSize, k.kernelSize])
    (bias : Option (Tensor ℝ)) (hb : BiasShape bias k.outC 2) {n : ℕ} (hn : 0 < n)
    (move move' : O2.Elt → O2.Elt) {Hc Hc' : Tensor O2.Elt}
    (hHc : Hc = if c.permute then M.kernel.gridH.map move else M.kernel.gridH)
    (hHc' : Hc' = if c.permute then M.kernel.gridH.map move' else M.kernel.gridH)
    {π : Equiv.Perm (Fin n)} (hH : MovedGrid (O2.leftApplyAngle g) π Hc Hc') (hgood : ∀ i < n, (fun h : O2.Elt => h.1 = 1 ∨ h.1 = -1) (Hc.get [i])) :
    ConvE2 g σ (.separableE M move weightH weight bias) (.separableE M move' weightH weight bias)
      ⟨k.inC, n, S', S⟩ ⟨k.outC, n, outDims ax S₁', outDims ax S₁⟩

theorem good_left_E2 {g : O2.Elt} (h1 : g.1 = 1) (o : O2.Elt) (ho : o.1 = 1 ∨ o.1 = -1) :
    (O2.leftApplyAngle g o).1 = 1 ∨ (O2.leftApplyAngle g o).1 = -1 := by
  show g.1 * o.1 = 1 ∨ g.1 * o.1 = -1
  rw [h1, one_mul]; exact ho

theorem convE2_preserves {g : O2.Elt} {σ : LatticeSym 2} (h1 : g.1 = 1) (hg : g.1 • SO2.angleToMatrix g.2 = σ.matrix) (N : ℕ) {b b' : Block O2.Elt 2} {u v : Sizes}
    (h : ConvE2 g σ b b' u v) : Preserves LatticeSym.ax2 σ (O2.leftApplyAngle g) (fun h : O2.Elt => h.1 = 1 ∨ h.1 = -1) N b b' u v := by
  intro x H x' H' hx hσ
  cases h with
  | group k c hk hm wr wf hr hnR hnF hM hgeo hS hsym weight hw bias hb move move' hHc hHc' hH hgood =>
    obtain ⟨K, hK, hL, hMK, hMp⟩ := build_ok hM
    have hks : kernelDims _ = [k.kernelSize, k.kernelSize] := hgeo.kernel.symm
    obtain ⟨b1, b2, b3, b4⟩ := fullE2_args k wr wf hr hK
    rw [b3, ← hks] at hL
    obtain ⟨K', k1, h2, -⟩ := (KernelE2.C57_E2 k hk hm g (Or.inl h1) σ hg).2 wr wf hr
    rw [hK] at k1
    cases k1
    rw [show O2.det g = 1 from h1] at h2
    obtain ⟨y, y', x1, y1, z⟩ := group_feature hgeo hL hσ hS hsym h2 (groupLocal_E2 k hm wr wf hr hK).1 b1 b2 (by rw [b3, hks])
      weight (by rw [b1, b2, b3, b4]; exact hw) bias hb N _ _ x x' H H' (_) (_)
      (KernelE2.pair_of_valid k hnR hnF) (good_left_E2 h1) hx hH hgood
    refine ⟨y, _, y', _, ?_, ?_, z, matches_sym hσ hsym⟩
    · rw [← x1, eq_permute hHc hH.1, ← hMp, ← hMK]; rfl
    · rw [← y1, eq_permute hHc' hH.2.1, ← hMp, ← hMK]; rfl
  | separable k c hk hm wr wf hr hnR hnF hM hgeo hg₁ hsym₁ hS₁ hS₁' hS hsym hC weightH weight hwH hw bias hb hn move move' hHc hHc' hH hgood =>
    obtain ⟨K, hK, hL, hMK, hMp⟩ := build_ok hM
    have hks : kernelDims _ = [k.kernelSize, k.kernelSize] := hgeo.kernel.symm
    obtain ⟨b1, b2, b3, b4⟩ := fullE2_args k wr wf hr hK
    rw [b3, ← hks] at hL
    obtain ⟨K', k1, -, h2⟩ := (KernelE2.C57_E2 k hk hm g (Or.inl h1) σ hg).2 wr wf hr
    rw [hK] at k1
    cases k1
    rw [show O2.det g = 1 from h1] at h2
    obtain ⟨y, y', x1, y1, z⟩ := separable_feature hgeo hL hσ hg₁ hsym₁ hS₁ hS₁' hS hsym h2 (groupLocal_E2 k hm wr wf hr hK).2 b1 b2 (by rw [b3, hks])
      weightH weight (by rw [b1, b2, b4]; exact hwH) (by rw [b1, b3]; exact hw) bias hb N _ hC hn x x' H H' (_) (_)
      (KernelE2.pair_of_valid k hnR hnF) (good_left_E2 h1) hx hH hgood
    refine ⟨y, _, y', _, ?_, ?_, z, matches_two hσ hsym₁ hS₁ hS₁' hsym⟩
    · rw [← x1, eq_permute hHc hH.1, ← hMp, ← hMK]; rfl
    · rw [← y1, eq_permute hHc' hH.2.1, ← hMp, ← hMK]; rfl

/-- `GLiftingConvE2` on the turned image: when the group elements used for it are the multiplied ones in any order, the
feature map is the turned one. -/
theorem liftE2_feature (k : KernelArgs O2.Elt SizeArg) (c : ConvOpts) (hk : 2 ≤ k.kernelSize) {m p}
    (hm : SpatialModes k.spatialMode k.spatialPad m p)
    {M : Module O2.Elt 2} (hM : liftingE2 k c = .ok M) {mode : F.CPad} {ax : List Axis}
    (hgeo : HasGeometry (argsE2 k c) mode ax)
    (g : O2.Elt) {σ : LatticeSym 2} {S' S : List ℕ} (hσ : LatticeSym.Matches LatticeSym.ax2 σ S' S)
    (hS : GeomOk mode ax S) (hsym : SymmetricGeometry 2 ax S) (h1 : g.1 = 1) (hg : g.1 • SO2.angleToMatrix g.2 = σ.matrix) (hpos : 0 < k.inC)
    (weight : Tensor ℝ) (hw : weight.shape = [k.outC, k.inC / k.groups, k.kernelSize, k.kernelSize])
    (bias : Option (Tensor ℝ)) (hb : BiasShape bias k.outC 2) (N n : ℕ) (x x' : Tensor ℝ)
    (H H' : Option (Tensor O2.Elt)) (move move' : O2.Elt → O2.Elt) (Hc Hc' : Tensor O2.Elt)
    (hHc : Hc = if c.permute then (H.getD M.kernel.gridH).map move else H.getD M.kernel.gridH)
    (hHc' : Hc' = if c.permute then (H'.getD M.kernel.gridH).map move' else H'.getD M.kernel.gridH)
    {π : Equiv.Perm (Fin n)} (hH : MovedGrid (O2.leftApplyAngle g) π Hc Hc') (hgood : ∀ i < n, (fun h : O2.Elt => h.1 = 1 ∨ h.1 = -1) (Hc.get [i]))
    (hx : MovedTensor LatticeSym.ax2 σ [N, k.inC] S' S x x') :
    ∃ y y', M.lift move weight bias x H = .ok (y, Hc) ∧ M.lift move' weight bias x' H' = .ok (y', Hc') ∧
      MovedFeature LatticeSym.ax2 σ (O2.leftApplyAngle g) (fun h : O2.Elt => h.1 = 1 ∨ h.1 = -1) N k.outC n (outDims ax S') (outDims ax S) y Hc y' Hc' := by
  obtain ⟨K, hK, hL, hMK, hMp⟩ := build_ok hM
  have hg0 : 0 < k.groups := Int.natCast_pos.1 (groups_pos hgeo hL)
  have hks : kernelDims ax = [k.kernelSize, k.kernelSize] := hgeo.kernel.symm
  rw [liftingE2_size hK, ← hks] at hL
  obtain ⟨K', k1, h2⟩ := (KernelE2.C57_E2 k hk hm g (Or.inl h1) σ hg).1 hg0
  rw [hK] at k1
  cases k1
  rw [show O2.det g = 1 from h1] at h2
  obtain ⟨b1, b2, b3⟩ := liftingE2_args hK
  obtain ⟨y, y', x1, y1, z⟩ := lifting_feature hgeo hL hσ hS hsym h2 (liftingLocal_E2 k (by omega) hm hK) b1 b2 (by rw [b3, hks])
    weight (by rw [b1, b2, b3]; exact hw) bias hb N n x x' Hc Hc' hH (Good := fun h : O2.Elt => h.1 = 1 ∨ h.1 = -1) hgood hpos hx
  refine ⟨y, y', ?_, ?_, z⟩
  · rw [← x1, eq_permute hHc hH.1, ← hMp, ← hMK]; rfl
  · rw [← y1, eq_permute hHc' hH.2.1, ← hMp, ← hMK]; rfl

/-- A lifting convolution followed by any chain of layers: the passes for an image and for the image turned by `σ` both
succeed, and the second feature map is the first one turned. `Hc` / `Hc'` are the group elements used by the lifting
convolution in the two passes. -/
theorem C75_E2 (k : KernelArgs O2.Elt SizeArg) (c : ConvOpts) (hk : 2 ≤ k.kernelSize) {m p}
    (hm : SpatialModes k.spatialMode k.spatialPad m p)
    {M : Module O2.Elt 2} (hM : liftingE2 k c = .ok M) {mode : F.CPad} {ax : List Axis}
    (hgeo : HasGeometry (argsE2 k c) mode ax)
    (g : O2.Elt) {σ : LatticeSym 2} {S' S : List ℕ} (hσ : LatticeSym.Matches LatticeSym.ax2 σ S' S)
    (hS : GeomOk mode ax S) (hsym : SymmetricGeometry 2 ax S) (h1 : g.1 = 1) (hg : g.1 • SO2.angleToMatrix g.2 = σ.matrix) (hpos : 0 < k.inC)
    (weight : Tensor ℝ) (hw : weight.shape = [k.outC, k.inC / k.groups, k.kernelSize, k.kernelSize])
    (bias : Option (Tensor ℝ)) (hb : BiasShape bias k.outC 2) (N n : ℕ) (x x' : Tensor ℝ)
    (H H' : Option (Tensor O2.Elt)) (move move' : O2.Elt → O2.Elt) (Hc Hc' : Tensor O2.Elt)
    (hHc : Hc = if c.permute then (H.getD M.kernel.gridH).map move else H.getD M.kernel.gridH)
    (hHc' : Hc' = if c.permute then (H'.getD M.kernel.gridH).map move' else H'.getD M.kernel.gridH)
    {π : Equiv.Perm (Fin n)} (hH : MovedGrid (O2.leftApplyAngle g) π Hc Hc') (hgood : ∀ i < n, (fun h : O2.Elt => h.1 = 1 ∨ h.1 = -1) (Hc.get [i]))
    (hx : MovedTensor LatticeSym.ax2 σ [N, k.inC] S' S x x')
    {bs bs' : List (Block O2.Elt 2)} {t : Sizes}
    (hchain : Chain N (ConvE2 g σ) bs bs' ⟨k.outC, n, outDims ax S', outDims ax S⟩ t) :
    ∃ y Hy y' Hy', (M.lift move weight bias x H >>= run bs) = .ok (y, Hy) ∧
      (M.lift move' weight bias x' H' >>= run bs') = .ok (y', Hy') ∧
      MovedFeature LatticeSym.ax2 σ (O2.leftApplyAngle g) (fun h : O2.Elt => h.1 = 1 ∨ h.1 = -1) N t.channels t.elements t.before t.after y Hy y' Hy' := by
  obtain ⟨y, y', x1, y1, z⟩ := liftE2_feature k c hk hm hM hgeo g hσ hS hsym h1 hg hpos weight hw bias hb N n x x' H H' move move' Hc Hc' hHc hHc' hH hgood hx
  obtain ⟨w, Hw, w', Hw', r1, r2, r3, -⟩ := chain_preserves (by norm_num) (fun h => convE2_preserves h1 hg N h) hchain z
    (matches_sym hσ hsym)
  exact ⟨w, Hw, w', Hw', by rw [x1, ok_bind]; exact r1, by rw [y1, ok_bind]; exact r2, r3⟩

/-- The same network with `GAvgGlobalPool` at the end gives the same result for both images, and `GMaxGlobalPool` the
same maxima. -/
theorem C75_E2_invariant (k : KernelArgs O2.Elt SizeArg) (c : ConvOpts) (hk : 2 ≤ k.kernelSize) {m p}
    (hm : SpatialModes k.spatialMode k.spatialPad m p)
    {M : Module O2.Elt 2} (hM : liftingE2 k c = .ok M) {mode : F.CPad} {ax : List Axis}
    (hgeo : HasGeometry (argsE2 k c) mode ax)
    (g : O2.Elt) {σ : LatticeSym 2} {S' S : List ℕ} (hσ : LatticeSym.Matches LatticeSym.ax2 σ S' S)
    (hS : GeomOk mode ax S) (hsym : SymmetricGeometry 2 ax S) (h1 : g.1 = 1) (hg : g.1 • SO2.angleToMatrix g.2 = σ.matrix) (hpos : 0 < k.inC)
    (weight : Tensor ℝ) (hw : weight.shape = [k.outC, k.inC / k.groups, k.kernelSize, k.kernelSize])
    (bias : Option (Tensor ℝ)) (hb : BiasShape bias k.outC 2) (N n : ℕ) (x x' : Tensor ℝ)
    (H H' : Option (Tensor O2.Elt)) (move move' : O2.Elt → O2.Elt) (Hc Hc' : Tensor O2.Elt)
    (hHc : Hc = if c.permute then (H.getD M.kernel.gridH).map move else H.getD M.kernel.gridH)
    (hHc' : Hc' = if c.permute then (H'.getD M.kernel.gridH).map move' else H'.getD M.kernel.gridH)
    {π : Equiv.Perm (Fin n)} (hH : MovedGrid (O2.leftApplyAngle g) π Hc Hc') (hgood : ∀ i < n, (fun h : O2.Elt => h.1 = 1 ∨ h.1 = -1) (Hc.get [i]))
    (hx : MovedTensor LatticeSym.ax2 σ [N, k.inC] S' S x x')
    {bs bs' : List (Block O2.Elt 2)} {t : Sizes}
    (hchain : Chain N (ConvE2 g σ) bs bs' ⟨k.outC, n, outDims ax S', outDims ax S⟩ t)
    (ht : 0 < (t.elements :: t.before).prod) :
    (∃ z z', (M.lift move weight bias x H >>= run bs >>= fun yH => Pooling.avgGlobal yH.1) = .ok (.tensor z) ∧
      (M.lift move' weight bias x' H' >>= run bs' >>= fun yH => Pooling.avgGlobal yH.1) = .ok (.tensor z') ∧
      z.shape = [N, t.channels, 1] ∧ z'.shape = [N, t.channels, 1] ∧
      ∀ b ch, b < N → ch < t.channels → z'.get [b, ch, 0] = z.get [b, ch, 0]) ∧
    (∃ v i v' i', (M.lift move weight bias x H >>= run bs >>= fun yH => Pooling.maxGlobal yH.1) = .ok (.pair v i) ∧
      (M.lift move' weight bias x' H' >>= run bs' >>= fun yH => Pooling.maxGlobal yH.1) = .ok (.pair v' i') ∧
      v.shape = [N, t.channels, 1] ∧ v'.shape = [N, t.channels, 1] ∧
      ∀ b ch, b < N → ch < t.channels → v'.get [b, ch, 0] = v.get [b, ch, 0]) := by
  obtain ⟨y, y', x1, y1, z⟩ := liftE2_feature k c hk hm hM hgeo g hσ hS hsym h1 hg hpos weight hw bias hb N n x x' H H' move move' Hc Hc' hHc hHc' hH hgood hx
  obtain ⟨w, Hw, w', Hw', r1, r2, r3, r4⟩ := chain_preserves (by norm_num) (fun h => convE2_preserves h1 hg N h) hchain z
    (matches_sym hσ hsym)
  obtain ⟨⟨u, u', a1, a2, a3⟩, v, i, v', i', c1, c2, c3⟩ := pool_feature r3 r4 ht
  rw [x1, y1, ok_bind, ok_bind, r1, r2]
  exact ⟨⟨u, u', a1, a2, a3⟩, v, i, v', i', c1, c2, c3⟩

/-- `GLiftingConvE2` followed by `GAvgGlobalPool` does not see the rotation. -/
theorem C67_E2_lifting (k : KernelArgs O2.Elt SizeArg) (c : ConvOpts) (hk : 2 ≤ k.kernelSize) {m p}
    (hm : SpatialModes k.spatialMode k.spatialPad m p)
    {M : Module O2.Elt 2} (hM : liftingE2 k c = .ok M) {mode : F.CPad} {ax : List Axis}
    (hgeo : HasGeometry (argsE2 k c) mode ax)
    (g : O2.Elt) {σ : LatticeSym 2} {S' S : List ℕ} (hσ : LatticeSym.Matches LatticeSym.ax2 σ S' S)
    (hS : GeomOk mode ax S) (hsym : SymmetricGeometry 2 ax S) (h1 : g.1 = 1) (hg : g.1 • SO2.angleToMatrix g.2 = σ.matrix) (hpos : 0 < k.inC)
    (weight : Tensor ℝ) (hw : weight.shape = [k.outC, k.inC / k.groups, k.kernelSize, k.kernelSize])
    (bias : Option (Tensor ℝ)) (hb : BiasShape bias k.outC 2) (N n : ℕ) (x x' : Tensor ℝ)
    (H H' : Option (Tensor O2.Elt)) (move move' : O2.Elt → O2.Elt) (Hc Hc' : Tensor O2.Elt)
    (hHc : Hc = if c.permute then (H.getD M.kernel.gridH).map move else H.getD M.kernel.gridH)
    (hHc' : Hc' = if c.permute then (H'.getD M.kernel.gridH).map move' else H'.getD M.kernel.gridH)
    {π : Equiv.Perm (Fin n)} (hH : MovedGrid (O2.leftApplyAngle g) π Hc Hc') (hgood : ∀ i < n, (fun h : O2.Elt => h.1 = 1 ∨ h.1 = -1) (Hc.get [i]))
    (hx : MovedTensor LatticeSym.ax2 σ [N, k.inC] S' S x x')
    (ht : 0 < (n :: outDims ax S').prod) :
    ∃ z z', (M.lift move weight bias x H >>= fun yH => Pooling.avgGlobal yH.1) = .ok (.tensor z) ∧
      (M.lift move' weight bias x' H' >>= fun yH => Pooling.avgGlobal yH.1) = .ok (.tensor z') ∧
      z.shape = [N, k.outC, 1] ∧ z'.shape = [N, k.outC, 1] ∧
      ∀ b ch, b < N → ch < k.outC → z'.get [b, ch, 0] = z.get [b, ch, 0] := by
  obtain ⟨y, y', x1, y1, z⟩ := liftE2_feature k c hk hm hM hgeo g hσ hS hsym h1 hg hpos weight hw bias hb N n x x' H H' move move' Hc Hc' hHc hHc' hH hgood hx
  obtain ⟨⟨u, u', a1, a2, a3⟩, -⟩ := pool_feature z (matches_sym hσ hsym) ht
  rw [x1, y1, ok_bind, ok_bind]
  exact ⟨u, u', a1, a2, a3⟩


/-! ## E3 -/

/-- The convolutions of the two passes: same module, same parameters, accepted input; the kernel's reference grid (multiplied by the random element if `permute_output_grid`) is moved to the one of the
second pass by left multiplication. -/
inductive ConvE3 (s : GridCache.Store (Tensor ℝ)) (opt1 opt2 : List SO3.Euler) (g : O3.Elt) (σ : LatticeSym 3) : Block O3.Elt 3 → Block O3.Elt 3 → Sizes → Sizes → Prop
  | group (k : KernelArgs O3.Elt SizeArg) (c : ConvOpts) (hk : 2 ≤ k.kernelSize) {m p}
    (hm : SpatialModes k.spatialMode k.spatialPad m p) (gr : Tensor O3.Elt) (wr wf : ℝ) (hr : KernelE3.Ready s opt1 opt2 k gr wr wf) (hnR : KernelE3.nRot k ≠ 0) (hnF : KernelE3.nRef k ≠ 0)
    {M : Module O3.Elt 3} (hM : fullE3 s opt1 opt2 k c = .ok M) {mode : F.CPad} {ax : List Axis}
    (hgeo : HasGeometry (argsE3 k c) mode ax) {S' S : List ℕ} (hS : GeomOk mode ax S) (hsym : SymmetricGeometry 3 ax S)
    (weight : Tensor ℝ) (hw : weight.shape = [KernelE3.nRot k + KernelE3.nRef k, k.outC, k.inC / k.groups, k.kernelSize, k.kernelSize, k.kernelSize])
    (bias : Option (Tensor ℝ)) (hb : BiasShape bias k.outC 3) {n no : ℕ}
    (move move' : O3.Elt → O3.Elt) {Hc Hc' : Tensor O3.Elt}
    (hHc : Hc = if c.permute then M.kernel.gridH.map move else M.kernel.gridH)
    (hHc' : Hc' = if c.permute then M.kernel.gridH.map move' else M.kernel.gridH)
    {π : Equiv.Perm (Fin no)} (hH : MovedGrid (O3.leftApplyO3 g) π Hc Hc') (hgood : ∀ i < no, (O3.Valid) (Hc.get [i])) :
    ConvE3 s opt1 opt2 g σ (.groupE M move weight bias) (.groupE M move' weight bias)
      ⟨k.inC, n, S', S⟩ ⟨k.outC, no, outDims ax S', outDims ax S⟩
  | separable (k : KernelArgs O3.Elt SizeArg) (c : ConvOpts) (hk : 2 ≤ k.kernelSize) {m p}
    (hm : SpatialModes k.spatialMode k.spatialPad m p) (gr : Tensor O3.Elt) (wr wf : ℝ) (hr : KernelE3.Ready s opt1 opt2 k gr wr wf) (hnR : KernelE3.nRot k ≠ 0) (hnF : KernelE3.nRef k ≠ 0)
    {M : Module O3.Elt 3} (hM : fullE3 s opt1 opt2 k c = .ok M) {mode : F.CPad} {ax : List Axis}
    (hgeo : HasGeometry (argsE3 k c) mode ax) {S' S S₁' S₁ : List ℕ}
    (hg₁ : GeomOk mode (firstAxes mode c.padding ax) S) (hsym₁ : SymmetricGeometry 3 (firstAxes mode c.padding ax) S)
    (hS₁ : outDims (firstAxes mode c.padding ax) S = S₁) (hS₁' : outDims (firstAxes mode c.padding ax) S' = S₁')
    (hS : GeomOk mode ax S₁) (hsym : SymmetricGeometry 3 ax S₁) (hC : 0 < k.outC)
    (weightH weight : Tensor ℝ) (hwH : weightH.shape = [KernelE3.nRot k + KernelE3.nRef k, k.outC, k.inC / k.groups])
    (hw : weight.shape = [k.outC, 1, k.kernelSize, k.kernelSize, k.kernelSize])
    (bias : Option (Tensor ℝ)) (hb : BiasShape bias k.outC 3) {n : ℕ} (hn : 0 < n)
    (move move' : O3.Elt → O3.Elt) {Hc Hc' : Tensor O3.Elt}
    (hHc : Hc = if c.permute then M.kernel.gridH.map move else M.kernel.gridH)
    (hHc' : Hc' = if c.permute then M.kernel.gridH.map move' else M.kernel.gridH)
    {π : Equiv.Perm (Fin n)} (hH : MovedGrid (O3.leftApplyO3 g) π Hc Hc') (hgood : ∀ i < n, (O3.Valid) (Hc.get [i])) :
    ConvE3 s opt1 opt2 g σ (.separableE M move weightH weight bias) (.separableE M move' weightH weight bias)
      ⟨k.inC, n, S', S⟩ ⟨k.outC, n, outDims ax S₁', outDims ax S₁⟩

theorem good_left_E3 {g : O3.Elt} (hv : O3.Valid g) (o : O3.Elt) (ho : O3.Valid o) : O3.Valid (O3.leftApplyO3 g o) := by
  refine ⟨?_, ?_⟩
  · show O3.coef g * O3.coef o = 1 ∨ O3.coef g * O3.coef o = -1
    rcases hv.1 with h | h <;> rcases ho.1 with h' | h' <;> rw [h, h'] <;> norm_num
  · unfold O3.leftApplyO3
    rw [O3.rot_mk]
    refine ⟨?_, by rw [Matrix.det_mul, hv.2.2, ho.2.2, one_mul]⟩
    rw [Matrix.transpose_mul, Matrix.mul_assoc, ← Matrix.mul_assoc (O3.rot g).transpose, hv.2.1, Matrix.one_mul, ho.2.1]

theorem convE3_preserves (s : GridCache.Store (Tensor ℝ)) (opt1 opt2 : List SO3.Euler) {g : O3.Elt} {σ : LatticeSym 3} (h1 : O3.coef g = 1) (hv : O3.Valid g) (hg : O3.coef g • O3.rot g = σ.matrix) (N : ℕ) {b b' : Block O3.Elt 3} {u v : Sizes}
    (h : ConvE3 s opt1 opt2 g σ b b' u v) : Preserves LatticeSym.ax3 σ (O3.leftApplyO3 g) (O3.Valid) N b b' u v := by
  intro x H x' H' hx hσ
  cases h with
  | group k c hk hm gr wr wf hr hnR hnF hM hgeo hS hsym weight hw bias hb move move' hHc hHc' hH hgood =>
    obtain ⟨K, hK, hL, hMK, hMp⟩ := build_ok hM
    have hks : kernelDims _ = [k.kernelSize, k.kernelSize, k.kernelSize] := hgeo.kernel.symm
    obtain ⟨b1, b2, b3, b4⟩ := fullE3_args s opt1 opt2 k gr wr wf hr hK
    rw [b3, ← hks] at hL
    obtain ⟨K', k1, h2, -⟩ := (KernelE3.C57_E3 s opt1 opt2 k hk hm g hv σ hg).2 gr wr wf hr
    rw [hK] at k1
    cases k1
    rw [show O3.det g = 1 from h1] at h2
    obtain ⟨y, y', x1, y1, z⟩ := group_feature hgeo hL hσ hS hsym h2 (groupLocal_E3 s opt1 opt2 k hm gr wr wf hr hK).1 b1 b2 (by rw [b3, hks])
      weight (by rw [b1, b2, b3, b4]; exact hw) bias hb N _ _ x x' H H' (_) (_)
      (KernelE3.pair_of_valid k hnR hnF) (good_left_E3 hv) hx hH hgood
    refine ⟨y, _, y', _, ?_, ?_, z, matches_sym hσ hsym⟩
    · rw [← x1, eq_permute hHc hH.1, ← hMp, ← hMK]; rfl
    · rw [← y1, eq_permute hHc' hH.2.1, ← hMp, ← hMK]; rfl
  | separable k c hk hm gr wr wf hr hnR hnF hM hgeo hg₁ hsym₁ hS₁ hS₁' hS hsym hC weightH weight hwH hw bias hb hn move move' hHc hHc' hH hgood =>
    obtain ⟨K, hK, hL, hMK, hMp⟩ := build_ok hM
    have hks : kernelDims _ = [k.kernelSize, k.kernelSize, k.kernelSize] := hgeo.kernel.symm
    obtain ⟨b1, b2, b3, b4⟩ := fullE3_args s opt1 opt2 k gr wr wf hr hK
    rw [b3, ← hks] at hL
    obtain ⟨K', k1, -, h2⟩ := (KernelE3.C57_E3 s opt1 opt2 k hk hm g hv σ hg).2 gr wr wf hr
    rw [hK] at k1
    cases k1
    rw [show O3.det g = 1 from h1] at h2
    obtain ⟨y, y', x1, y1, z⟩ := separable_feature hgeo hL hσ hg₁ hsym₁ hS₁ hS₁' hS hsym h2 (groupLocal_E3 s opt1 opt2 k hm gr wr wf hr hK).2 b1 b2 (by rw [b3, hks])
      weightH weight (by rw [b1, b2, b4]; exact hwH) (by rw [b1, b3]; exact hw) bias hb N _ hC hn x x' H H' (_) (_)
      (KernelE3.pair_of_valid k hnR hnF) (good_left_E3 hv) hx hH hgood
    refine ⟨y, _, y', _, ?_, ?_, z, matches_two hσ hsym₁ hS₁ hS₁' hsym⟩
    · rw [← x1, eq_permute hHc hH.1, ← hMp, ← hMK]; rfl
    · rw [← y1, eq_permute hHc' hH.2.1, ← hMp, ← hMK]; rfl

/-- `GLiftingConvE3` on the turned image: when the group elements used for it are the multiplied ones in any order, the
feature map is the turned one. -/
theorem liftE3_feature (s : GridCache.Store (Tensor ℝ)) (opt1 opt2 : List SO3.Euler) (k : KernelArgs O3.Elt SizeArg) (c : ConvOpts) (hk : 2 ≤ k.kernelSize) {m p}
    (hm : SpatialModes k.spatialMode k.spatialPad m p)
    {M : Module O3.Elt 3} (hM : liftingE3 s opt1 opt2 k c = .ok M) {mode : F.CPad} {ax : List Axis}
    (hgeo : HasGeometry (argsE3 k c) mode ax)
    (g : O3.Elt) {σ : LatticeSym 3} {S' S : List ℕ} (hσ : LatticeSym.Matches LatticeSym.ax3 σ S' S)
    (hS : GeomOk mode ax S) (hsym : SymmetricGeometry 3 ax S) (h1 : O3.coef g = 1) (hv : O3.Valid g) (hg : O3.coef g • O3.rot g = σ.matrix) (hpos : 0 < k.inC)
    (weight : Tensor ℝ) (hw : weight.shape = [k.outC, k.inC / k.groups, k.kernelSize, k.kernelSize, k.kernelSize])
    (bias : Option (Tensor ℝ)) (hb : BiasShape bias k.outC 3) (N n : ℕ) (x x' : Tensor ℝ)
    (H H' : Option (Tensor O3.Elt)) (move move' : O3.Elt → O3.Elt) (Hc Hc' : Tensor O3.Elt)
    (hHc : Hc = if c.permute then (H.getD M.kernel.gridH).map move else H.getD M.kernel.gridH)
    (hHc' : Hc' = if c.permute then (H'.getD M.kernel.gridH).map move' else H'.getD M.kernel.gridH)
    {π : Equiv.Perm (Fin n)} (hH : MovedGrid (O3.leftApplyO3 g) π Hc Hc') (hgood : ∀ i < n, (O3.Valid) (Hc.get [i]))
    (hx : MovedTensor LatticeSym.ax3 σ [N, k.inC] S' S x x') :
    ∃ y y', M.lift move weight bias x H = .ok (y, Hc) ∧ M.lift move' weight bias x' H' = .ok (y', Hc') ∧
      MovedFeature LatticeSym.ax3 σ (O3.leftApplyO3 g) (O3.Valid) N k.outC n (outDims ax S') (outDims ax S) y Hc y' Hc' := by
  obtain ⟨K, hK, hL, hMK, hMp⟩ := build_ok hM
  have hg0 : 0 < k.groups := Int.natCast_pos.1 (groups_pos hgeo hL)
  have hks : kernelDims ax = [k.kernelSize, k.kernelSize, k.kernelSize] := hgeo.kernel.symm
  rw [(liftingE3_size hK).1, ← hks] at hL
  obtain ⟨gr, hgr⟩ := (liftingE3_size hK).2
  obtain ⟨K', k1, h2⟩ := (KernelE3.C57_E3 s opt1 opt2 k hk hm g hv σ hg).1 gr hg0 hgr
  rw [hK] at k1
  cases k1
  rw [show O3.det g = 1 from h1] at h2
  obtain ⟨b1, b2, b3⟩ := liftingE3_args hK
  obtain ⟨y, y', x1, y1, z⟩ := lifting_feature hgeo hL hσ hS hsym h2 (liftingLocal_E3 s opt1 opt2 k (by omega) hm hK) b1 b2 (by rw [b3, hks])
    weight (by rw [b1, b2, b3]; exact hw) bias hb N n x x' Hc Hc' hH (Good := O3.Valid) hgood hpos hx
  refine ⟨y, y', ?_, ?_, z⟩
  · rw [← x1, eq_permute hHc hH.1, ← hMp, ← hMK]; rfl
  · rw [← y1, eq_permute hHc' hH.2.1, ← hMp, ← hMK]; rfl

/-- A lifting convolution followed by any chain of layers: the passes for an image and for the image turned by `σ` both
succeed, and the second feature map is the first one turned. `Hc` / `Hc'` are the group elements used by the lifting
convolution in the two passes. -/
theorem C75_E3 (s : GridCache.Store (Tensor ℝ)) (opt1 opt2 : List SO3.Euler) (k : KernelArgs O3.Elt SizeArg) (c : ConvOpts) (hk : 2 ≤ k.kernelSize) {m p}
    (hm : SpatialModes k.spatialMode k.spatialPad m p)
    {M : Module O3.Elt 3} (hM : liftingE3 s opt1 opt2 k c = .ok M) {mode : F.CPad} {ax : List Axis}
    (hgeo : HasGeometry (argsE3 k c) mode ax)
    (g : O3.Elt) {σ : LatticeSym 3} {S' S : List ℕ} (hσ : LatticeSym.Matches LatticeSym.ax3 σ S' S)
    (hS : GeomOk mode ax S) (hsym : SymmetricGeometry 3 ax S) (h1 : O3.coef g = 1) (hv : O3.Valid g) (hg : O3.coef g • O3.rot g = σ.matrix) (hpos : 0 < k.inC)
    (weight : Tensor ℝ) (hw : weight.shape = [k.outC, k.inC / k.groups, k.kernelSize, k.kernelSize, k.kernelSize])
    (bias : Option (Tensor ℝ)) (hb : BiasShape bias k.outC 3) (N n : ℕ) (x x' : Tensor ℝ)
    (H H' : Option (Tensor O3.Elt)) (move move' : O3.Elt → O3.Elt) (Hc Hc' : Tensor O3.Elt)
    (hHc : Hc = if c.permute then (H.getD M.kernel.gridH).map move else H.getD M.kernel.gridH)
    (hHc' : Hc' = if c.permute then (H'.getD M.kernel.gridH).map move' else H'.getD M.kernel.gridH)
    {π : Equiv.Perm (Fin n)} (hH : MovedGrid (O3.leftApplyO3 g) π Hc Hc') (hgood : ∀ i < n, (O3.Valid) (Hc.get [i]))
    (hx : MovedTensor LatticeSym.ax3 σ [N, k.inC] S' S x x')
    {bs bs' : List (Block O3.Elt 3)} {t : Sizes}
    (hchain : Chain N (ConvE3 s opt1 opt2 g σ) bs bs' ⟨k.outC, n, outDims ax S', outDims ax S⟩ t) :
    ∃ y Hy y' Hy', (M.lift move weight bias x H >>= run bs) = .ok (y, Hy) ∧
      (M.lift move' weight bias x' H' >>= run bs') = .ok (y', Hy') ∧
      MovedFeature LatticeSym.ax3 σ (O3.leftApplyO3 g) (O3.Valid) N t.channels t.elements t.before t.after y Hy y' Hy' := by
  obtain ⟨y, y', x1, y1, z⟩ := liftE3_feature s opt1 opt2 k c hk hm hM hgeo g hσ hS hsym h1 hv hg hpos weight hw bias hb N n x x' H H' move move' Hc Hc' hHc hHc' hH hgood hx
  obtain ⟨w, Hw, w', Hw', r1, r2, r3, -⟩ := chain_preserves (by norm_num) (fun h => convE3_preserves s opt1 opt2 h1 hv hg N h) hchain z
    (matches_sym hσ hsym)
  exact ⟨w, Hw, w', Hw', by rw [x1, ok_bind]; exact r1, by rw [y1, ok_bind]; exact r2, r3⟩

/-- The same network with `GAvgGlobalPool` at the end gives the same result for both images, and `GMaxGlobalPool` the
same maxima. -/
theorem C75_E3_invariant (s : GridCache.Store (Tensor ℝ)) (opt1 opt2 : List SO3.Euler) (k : KernelArgs O3.Elt SizeArg) (c : ConvOpts) (hk : 2 ≤ k.kernelSize) {m p}
    (hm : SpatialModes k.spatialMode k.spatialPad m p)
    {M : Module O3.Elt 3} (hM : liftingE3 s opt1 opt2 k c = .ok M) {mode : F.CPad} {ax : List Axis}
    (hgeo : HasGeometry (argsE3 k c) mode ax)
    (g : O3.Elt) {σ : LatticeSym 3} {S' S : List ℕ} (hσ : LatticeSym.Matches LatticeSym.ax3 σ S' S)
    (hS : GeomOk mode ax S) (hsym : SymmetricGeometry 3 ax S) (h1 : O3.coef g = 1) (hv : O3.Valid g) (hg : O3.coef g • O3.rot g = σ.matrix) (hpos : 0 < k.inC)
    (weight : Tensor ℝ) (hw : weight.shape = [k.outC, k.inC / k.groups, k.kernelSize, k.kernelSize, k.kernelSize])
    (bias : Option (Tensor ℝ)) (hb : BiasShape bias k.outC 3) (N n : ℕ) (x x' : Tensor ℝ)
    (H H' : Option (Tensor O3.Elt)) (move move' : O3.Elt → O3.Elt) (Hc Hc' : Tensor O3.Elt)
    (hHc : Hc = if c.permute then (H.getD M.kernel.gridH).map move else H.getD M.kernel.gridH)
    (hHc' : Hc' = if c.permute then (H'.getD M.kernel.gridH).map move' else H'.getD M.kernel.gridH)
    {π : Equiv.Perm (Fin n)} (hH : MovedGrid (O3.leftApplyO3 g) π Hc Hc') (hgood : ∀ i < n, (O3.Valid) (Hc.get [i]))
    (hx : MovedTensor LatticeSym.ax3 σ [N, k.inC] S' S x x')
    {bs bs' : List (Block O3.Elt 3)} {t : Sizes}
    (hchain : Chain N (ConvE3 s opt1 opt2 g σ) bs bs' ⟨k.outC, n, outDims ax S', outDims ax S⟩ t)
    (ht : 0 < (t.elements :: t.before).prod) :
    (∃ z z', (M.lift move weight bias x H >>= run bs >>= fun yH => Pooling.avgGlobal yH.1) = .ok (.tensor z) ∧
      (M.lift move' weight bias x' H' >>= run bs' >>= fun yH => Pooling.avgGlobal yH.1) = .ok (.tensor z') ∧
      z.shape = [N, t.channels, 1] ∧ z'.shape = [N, t.channels, 1] ∧
      ∀ b ch, b < N → ch < t.channels → z'.get [b, ch, 0] = z.get [b, ch, 0]) ∧
    (∃ v i v' i', (M.lift move weight bias x H >>= run bs >>= fun yH => Pooling.maxGlobal yH.1) = .ok (.pair v i) ∧
      (M.lift move' weight bias x' H' >>= run bs' >>= fun yH => Pooling.maxGlobal yH.1) = .ok (.pair v' i') ∧
      v.shape = [N, t.channels, 1] ∧ v'.shape = [N, t.channels, 1] ∧
      ∀ b ch, b < N → ch < t.channels → v'.get [b, ch, 0] = v.get [b, ch, 0]) := by
  obtain ⟨y, y', x1, y1, z⟩ := liftE3_feature s opt1 opt2 k c hk hm hM hgeo g hσ hS hsym h1 hv hg hpos weight hw bias hb N n x x' H H' move move' Hc Hc' hHc hHc' hH hgood hx
  obtain ⟨w, Hw, w', Hw', r1, r2, r3, r4⟩ := chain_preserves (by norm_num) (fun h => convE3_preserves s opt1 opt2 h1 hv hg N h) hchain z
    (matches_sym hσ hsym)
  obtain ⟨⟨u, u', a1, a2, a3⟩, v, i, v', i', c1, c2, c3⟩ := pool_feature r3 r4 ht
  rw [x1, y1, ok_bind, ok_bind, r1, r2]
  exact ⟨⟨u, u', a1, a2, a3⟩, v, i, v', i', c1, c2, c3⟩

/-- `GLiftingConvE3` followed by `GAvgGlobalPool` does not see the rotation. -/
theorem C67_E3_lifting (s : GridCache.Store (Tensor ℝ)) (opt1 opt2 : List SO3.Euler) (k : KernelArgs O3.Elt SizeArg) (c : ConvOpts) (hk : 2 ≤ k.kernelSize) {m p}
    (hm : SpatialModes k.spatialMode k.spatialPad m p)
    {M : Module O3.Elt 3} (hM : liftingE3 s opt1 opt2 k c = .ok M) {mode : F.CPad} {ax : List Axis}
    (hgeo : HasGeometry (argsE3 k c) mode ax)
    (g : O3.Elt) {σ : LatticeSym 3} {S' S : List ℕ} (hσ : LatticeSym.Matches LatticeSym.ax3 σ S' S)
    (hS : GeomOk mode ax S) (hsym : SymmetricGeometry 3 ax S) (h1 : O3.coef g = 1) (hv : O3.Valid g) (hg : O3.coef g • O3.rot g = σ.matrix) (hpos : 0 < k.inC)
    (weight : Tensor ℝ) (hw : weight.shape = [k.outC, k.inC / k.groups, k.kernelSize, k.kernelSize, k.kernelSize])
    (bias : Option (Tensor ℝ)) (hb : BiasShape bias k.outC 3) (N n : ℕ) (x x' : Tensor ℝ)
    (H H' : Option (Tensor O3.Elt)) (move move' : O3.Elt → O3.Elt) (Hc Hc' : Tensor O3.Elt)
    (hHc : Hc = if c.permute then (H.getD M.kernel.gridH).map move else H.getD M.kernel.gridH)
    (hHc' : Hc' = if c.permute then (H'.getD M.kernel.gridH).map move' else H'.getD M.kernel.gridH)
    {π : Equiv.Perm (Fin n)} (hH : MovedGrid (O3.leftApplyO3 g) π Hc Hc') (hgood : ∀ i < n, (O3.Valid) (Hc.get [i]))
    (hx : MovedTensor LatticeSym.ax3 σ [N, k.inC] S' S x x')
    (ht : 0 < (n :: outDims ax S').prod) :
    ∃ z z', (M.lift move weight bias x H >>= fun yH => Pooling.avgGlobal yH.1) = .ok (.tensor z) ∧
      (M.lift move' weight bias x' H' >>= fun yH => Pooling.avgGlobal yH.1) = .ok (.tensor z') ∧
      z.shape = [N, k.outC, 1] ∧ z'.shape = [N, k.outC, 1] ∧
      ∀ b ch, b < N → ch < k.outC → z'.get [b, ch, 0] = z.get [b, ch, 0] := by
  obtain ⟨y, y', x1, y1, z⟩ := liftE3_feature s opt1 opt2 k c hk hm hM hgeo g hσ hS hsym h1 hv hg hpos weight hw bias hb N n x x' H H' move move' Hc Hc' hHc hHc' hH hgood hx
  obtain ⟨⟨u, u', a1, a2, a3⟩, -⟩ := pool_feature z (matches_sym hσ hsym) ht
  rw [x1, y1, ok_bind, ok_bind]
  exact ⟨u, u', a1, a2, a3⟩

/-! ## Closed grids, conjugated draws, a concrete network -/

/-- The default SO(2) grid of `n` elements is closed under each of its own elements: with `permute_output_grid=False` a
layer uses it for both passes. For `n = 4 m` this covers all quarter turns. -/
theorem C75_uniform_closed (n : ℕ) (hn : 0 < n) (j : ℕ) :
    ClosedGrid (SO2.leftApplyAngle (2 * Real.pi * j / n)) n (Tensor.ofList (SO2.uniformGrid n)) := by
  haveI : NeZero n := ⟨by omega⟩
  have hl := SO2.C03_length n
  have hget : ∀ i < n, (Tensor.ofList (SO2.uniformGrid n)).get [i] = 2 * Real.pi * i / n := by
    intro i hi
    show (SO2.uniformGrid n).getD i default = _
    rw [List.getD_eq_getElem?_getD, SO2.C03_value n i hi]; rfl
  refine ⟨Equiv.addRight (Fin.ofNat n j), by show [_] = _; rw [hl], by show [_] = _; rw [hl], fun i => ?_⟩
  rw [hget _ (Fin.isLt _), hget _ i.2]
  have hv : ((Equiv.addRight (Fin.ofNat n j)) i : ℕ) = (i + j) % n := by
    rw [Equiv.coe_addRight, Fin.val_add, Fin.val_ofNat, Nat.add_mod_mod]
  rw [hv]
  have hp := two_pi_pos'
  have hn' : (0 : ℝ) < n := by exact_mod_cast hn
  unfold SO2.leftApplyAngle
  have hlt : (((i + j) % n : ℕ) : ℝ) < n := by exact_mod_cast Nat.mod_lt _ hn
  refine EqMod.eq_of_range hp (EqMod.trans ?_ (pyMod_eqMod _ _).symm) (by positivity) ?_ (pyMod_nonneg hp) (pyMod_lt hp)
  · have hq : ((i : ℕ) : ℝ) + j = n * (((i + j) / n : ℕ) : ℝ) + (((i + j) % n : ℕ) : ℝ) := by
      exact_mod_cast (Nat.div_add_mod (i + j) n).symm
    generalize (i + j) / n = q at hq
    refine ⟨-(q : ℤ), ?_⟩
    rw [Int.cast_neg, Int.cast_natCast]
    field_simp
    linear_combination (-1 : ℝ) * hq
  · rw [div_lt_iff₀ hn']
    exact mul_lt_mul_of_pos_left hlt hp

/-- With `permute_output_grid=True` in SE(2), drawing the same random angle in both passes is what the theorems ask for
(rotations of the plane commute). -/
theorem C75_draw_SE2 (g r h : ℝ) : SO2.leftApplyAngle r (SO2.leftApplyAngle g h) = SO2.leftApplyAngle g (SO2.leftApplyAngle r h) := by
  unfold SO2.leftApplyAngle
  refine (pyMod_eq_iff two_pi_pos').2 ?_
  have h1 := (EqMod.refl (2 * Real.pi) r).add (pyMod_eqMod (g + h) (2 * Real.pi))
  have h2 := (EqMod.refl (2 * Real.pi) g).add (pyMod_eqMod (r + h) (2 * Real.pi))
  refine h1.trans (EqMod.trans ?_ h2.symm)
  rw [show r + (g + h) = g + (r + h) by ring]
  exact EqMod.refl _ _

/-- In SE(3) it is the conjugated element `g r gᵀ`, which is again a rotation. -/
theorem C75_draw_SE3 (g r h : SO3.Mat3) (hg : IsRotation g) (hr : IsRotation r) :
    IsRotation (g * r * g.transpose) ∧
    SO3.leftApplyMatrix (g * r * g.transpose) (SO3.leftApplyMatrix g h) = SO3.leftApplyMatrix g (SO3.leftApplyMatrix r h) := by
  have hg' : g * g.transpose = 1 := mul_eq_one_comm.1 hg.1
  refine ⟨⟨?_, ?_⟩, ?_⟩
  · rw [Matrix.transpose_mul, Matrix.transpose_mul, Matrix.transpose_transpose]
    calc g * (r.transpose * g.transpose) * (g * r * g.transpose)
        = g * (r.transpose * (g.transpose * g) * r) * g.transpose := by simp only [Matrix.mul_assoc]
      _ = 1 := by rw [hg.1, Matrix.mul_one, hr.1, Matrix.mul_one, hg']
  · rw [Matrix.det_mul, Matrix.det_mul, Matrix.det_transpose, hg.2, hr.2]; norm_num
  · unfold SO3.leftApplyMatrix
    calc g * r * g.transpose * (g * h) = g * (r * ((g.transpose * g) * h)) := by simp only [Matrix.mul_assoc]
      _ = _ := by rw [hg.1, Matrix.one_mul]

/-- arguments of the second convolution of the example. -/
def exArgs₂ (n : ℕ) : KernelArgs ℝ ℕ := { KernelSE2.exArgs n with inC := 6 }

theorem exReady₂ (n : ℕ) (hn : 0 < n) : KernelSE2.Ready (exArgs₂ n) 1 := by
  obtain ⟨a, b, c, d, e⟩ := KernelSE2.exReady n hn
  exact ⟨a, b, c, d, e⟩

/-- batch normalisation with 6 channels, in training mode. -/
noncomputable def exNorm : NormArgs := ⟨6, 1 / 100000, some (1 / 10), true, true, fun _ => 1, fun _ => 0⟩

/-- Lifting convolution, ReLU, batch normalisation in training mode, separable convolution, global average pooling with
the default grid of 4 rotations: a quarter turn of the 8 x 9 images does not change the result (the separable convolution
pads twice, its output has 12 x 13 cells). All parameters and images are arbitrary. -/
example (weight weightH weight₂ : Tensor ℝ) (hw : weight.shape = [6, 2, 5, 5]) (hwH : weightH.shape = [4, 6, 3])
    (hw₂ : weight₂.shape = [6, 1, 5, 5]) (r : Running) (x x' : Tensor ℝ)
    (hx : MovedTensor LatticeSym.ax2 KernelSE2.quarter [3, 4] [8, 9] [9, 8] x x')
    (M M₂ : Module ℝ 2) (hM : liftingSE2 (KernelSE2.exArgs 4) rotOpts = .ok M) (hM₂ : fullSE2 (exArgs₂ 4) rotOpts = .ok M₂) :
    ∃ z z', (M.lift id weight none x none >>= run [.act .relu, .batch exNorm true r, .separableSE M₂ id weightH weight₂ none] >>=
        fun yH => Pooling.avgGlobal yH.1) = .ok (.tensor z) ∧
      (M.lift id weight none x' none >>= run [.act .relu, .batch exNorm true r, .separableSE M₂ id weightH weight₂ none] >>=
        fun yH => Pooling.avgGlobal yH.1) = .ok (.tensor z') ∧
      ∀ b ch, b < 3 → ch < 6 → z'.get [b, ch, 0] = z.get [b, ch, 0] := by
  obtain ⟨h1, h2, h3, h4⟩ := rot_geometry 4
  obtain ⟨π, hπ⟩ := C75_uniform_closed 4 (by norm_num) 1
  have e1 : (2 * Real.pi * (1 : ℕ) / (4 : ℕ) : ℝ) = Real.pi / 2 := by push_cast; ring
  rw [e1] at hπ
  have hgrid : M.kernel.gridH = Tensor.ofList (SO2.uniformGrid 4) := by
    obtain ⟨K, hK, -, hMK, -⟩ := build_ok hM
    rw [hMK]
    unfold KernelSE2.lifting checkGroups at hK
    split at hK
    · cases hK
    · cases hK; rfl
  have o1 : outDims (List.replicate 2 (sameAxis 5 1)) [8, 9] = [8, 9] := by simp [outDims, Axis.out, Axis.span, sameAxis]
  have o2 : outDims (List.replicate 2 (sameAxis 5 1)) [9, 8] = [9, 8] := by simp [outDims, Axis.out, Axis.span, sameAxis]
  have f : firstAxes .circular (.str "same") (List.replicate 2 (sameAxis 5 1)) = List.replicate 2 ⟨1, 1, 1, 2, 2⟩ := by
    simp [firstAxes, firstAxis, sameAxis]
  have f1 : outDims (List.replicate 2 ⟨1, 1, 1, 2, 2⟩) [8, 9] = [12, 13] := by simp [outDims, Axis.out, Axis.span]
  have f2 : outDims (List.replicate 2 ⟨1, 1, 1, 2, 2⟩) [9, 8] = [13, 12] := by simp [outDims, Axis.out, Axis.span]
  obtain ⟨g1, -, g2, -⟩ := C59_same_geometry 2 6 6 5 1 (.int 4) 2 "circular" .circular (Or.inr (Or.inr (Or.inr ⟨rfl, rfl⟩)))
    (by norm_num) (by norm_num) [13, 12] rfl (by simp [F.padAllowed])
  have g3 : GeomOk .circular (List.replicate 2 ⟨1, 1, 1, 2, 2⟩) [9, 8] :=
    .cons ⟨by norm_num, by norm_num, by norm_num, by simp [Axis.span], rfl⟩
      (.cons ⟨by norm_num, by norm_num, by norm_num, by simp [Axis.span], rfl⟩ .nil)
  have hchain : Chain 3 (ConvSE2 (Real.pi / 2) KernelSE2.quarter)
      [.act .relu, .batch exNorm true r, .separableSE M₂ id weightH weight₂ none]
      [.act .relu, .batch exNorm true r, .separableSE M₂ id weightH weight₂ none]
      ⟨6, 4, [8, 9], [9, 8]⟩ ⟨6, 4, outDims (List.replicate 2 (sameAxis 5 1)) [12, 13], outDims (List.replicate 2 (sameAxis 5 1)) [13, 12]⟩ := by
    refine .act _ trivial (.batch _ _ _ rfl (by norm_num) (.conv ?_ (.nil _)))
    exact ConvSE2.separable (exArgs₂ 4) rotOpts (by norm_num [exArgs₂, KernelSE2.exArgs]) defaultModes 1 (exReady₂ 4 (by norm_num)) hM₂
      (g1 rfl) (S' := [8, 9]) (S := [9, 8]) (by rw [show rotOpts.padding = .str "same" from rfl, f]; exact g3)
      ⟨⟨1, 1, 1, 2, 2⟩, f, rfl, fun s _ => one_dvd _⟩
      (by rw [show rotOpts.padding = .str "same" from rfl, f, f2]) (by rw [show rotOpts.padding = .str "same" from rfl, f, f1])
      g2 ⟨sameAxis 5 1, rfl, by simp [sameAxis], fun s _ => one_dvd _⟩
      (by norm_num [exArgs₂, KernelSE2.exArgs]) weightH weight₂
      (by rw [hwH]; show [4, 6, 3] = [(SO2.uniformGrid 4).length, 6, 6 / 2]; rw [SO2.C03_length])
      (by rw [hw₂]; simp [exArgs₂, KernelSE2.exArgs]) none (fun b hb => by cases hb) (by norm_num) id id
      (fun h => by cases h)
  obtain ⟨⟨z, z', a1, a2, -, -, a3⟩, -⟩ := C75_SE2_invariant (KernelSE2.exArgs 4) rotOpts (by norm_num [KernelSE2.exArgs]) defaultModes hM h1
    (Real.pi / 2) h4 h2 h3 KernelSE2.quarter_matrix (by norm_num [KernelSE2.exArgs]) weight (by rw [hw]; simp [KernelSE2.exArgs]) none
    (fun b hb => by cases hb) 3 4 x x' none none id id _ _ rfl rfl (π := π) (by rw [show (Option.none : Option (Tensor ℝ)).getD M.kernel.gridH = M.kernel.gridH from rfl, hgrid]; exact hπ) hx
    (by rw [o1, o2]; exact hchain) (by simp [outDims, Axis.out, Axis.span, sameAxis])
  exact ⟨z, z', a1, a2, a3⟩

end GConv.Net

import Verif.Lemmas.Training

/-! # C110: training on turned images -/

namespace GConv.Net

open Tensor Spec Conv GroupKernel F

theorem bias_like {v v' : Option (Tensor ℝ)} {C n : ℕ} (h : v'.map Tensor.shape = v.map Tensor.shape) (hb : BiasShape v C n) :
    BiasShape v' C n := by
  intro b hb'
  subst hb'
  cases v with
  | none => cases h
  | some b₀ =>
    have : b.shape = b₀.shape := Option.some.inj h
    rw [this]
    exact hb b₀ rfl

/-! ## SE2 -/

theorem transfersSE2 (g : ℝ) (σ : LatticeSym 2) : Transfers (ConvSE2 g σ) where
  like := by
    intro b b₁ m m' s t hb h
    cases hb with
    | act a => exact h
    | batch a w v tr r r' => simp only [Block.draw] at h; cases h
    | inst a w v tr r r' => simp only [Block.draw] at h; cases h
    | groupSE M a a' w w' v v' hw hv =>
      simp only [Block.draw] at h ⊢
      cases h with
      | group k c hk hm wd hr hM hgeo hS hsym weight hw₀ bias hb move move' hdraw =>
        exact .group k c hk hm wd hr hM hgeo hS hsym _ (hw.trans hw₀) _ (bias_like hv hb) _ _ hdraw
    | separableSE M a a' u u' w w' v v' hu hw hv =>
      simp only [Block.draw] at h ⊢
      cases h with
      | separable k c hk hm wd hr hM hgeo hg₁ hsym₁ hS₁ hS₁' hS hsym hC weightH weight hwH hw₀ bias hb hn move move' hdraw =>
        exact .separable k c hk hm wd hr hM hgeo hg₁ hsym₁ hS₁ hS₁' hS hsym hC _ _ (hu.trans hwH) (hw.trans hw₀) _ (bias_like hv hb) hn _ _ hdraw
    | groupE M a a' w w' v v' hw hv => simp only [Block.draw] at h; cases h
    | separableE M a a' u u' w w' v v' hu hw hv => simp only [Block.draw] at h; cases h
  pass := by
    intro b b' s t h
    cases h <;> exact ⟨fun x H => rfl, fun x H => rfl, rfl⟩

/-- The batches `b` and `b'` hold the same images, in `b'` turned by the rotation `g`, a lattice symmetry `σ`, that maps
the group elements used in the first pass to the ones used in the second. The network accepts them. -/
structure TurnedSE2 (k : KernelArgs ℝ ℕ) (c : ConvOpts) (M : Module ℝ 2) (mode : F.CPad) (ax : List Axis) (N C : ℕ)
    (s₀ : Weights ℝ 2) (b b' : Batch ℝ) : Prop where
  turned : ∃ (g : ℝ) (σ : LatticeSym 2) (S' S : List ℕ) (n : ℕ) (π : Equiv.Perm (Fin n)) (t : Sizes),
    SO2.angleToMatrix g = σ.matrix ∧ LatticeSym.Matches LatticeSym.ax2 σ S' S ∧ GeomOk mode ax S ∧ SymmetricGeometry 2 ax S ∧
    MovedGrid (SO2.leftApplyAngle g) π (if c.permute then M.kernel.gridH.map b.first else M.kernel.gridH)
      (if c.permute then M.kernel.gridH.map b'.first else M.kernel.gridH) ∧
    MovedTensor LatticeSym.ax2 σ [N, k.inC] S' S b.images b'.images ∧
    Chain N (ConvSE2 g σ) (s₀.ready b) (s₀.ready b') ⟨k.outC, n, outDims ax S', outDims ax S⟩ t ∧
    t.channels = C ∧ 0 < (t.elements :: t.before).prod

/-- Two trainings of the same network from the same parameters with the same optimizer, one on images, the other on these
images turned by rotations (a different one for every batch), go through the same parameters and running statistics. -/
theorem C110_SE2 (k : KernelArgs ℝ ℕ) (c : ConvOpts) (hk : 2 ≤ k.kernelSize) {m p} (hm : SpatialModes k.spatialMode k.spatialPad m p)
    {M : Module ℝ 2} (hM : liftingSE2 k c = .ok M) {mode : F.CPad} {ax : List Axis} (hgeo : HasGeometry (argsSE2 k c) mode ax)
    (hpos : 0 < k.inC) {N C : ℕ} {Memory : Type} (opt : Optimizer ℝ 2 N C Memory) (s₀ : Weights ℝ 2)
    (hw : s₀.weight.shape = [k.outC, k.inC / k.groups, k.kernelSize, k.kernelSize]) (hb : BiasShape s₀.bias k.outC 2)
    {bs bs' : List (Batch ℝ)} (h : List.Forall₂ (TurnedSE2 k c M mode ax N C s₀) bs bs') (start : ℕ) (memory : Memory) :
    ∃ final, train M opt start bs memory s₀ = .ok final ∧ train M opt start bs' memory s₀ = .ok final := by
  have hs : List.Forall₂ (Step M N C s₀) bs bs' := by
    refine h.imp fun b b' ⟨g, σ, S', S, n, π, t, hg, hσ, hS, hsym, hH, hx, hchain, hC, ht⟩ => ?_
    refine step_of (by norm_num) (fun h => convSE2_preserves hg N h) (transfersSE2 g σ) (fun s hs => ?_) (matches_sym hσ hsym) hchain hC ht
    obtain ⟨y, y', a1, a2, a3⟩ := liftSE2_feature k c hk hm hM hgeo g hσ hS hsym hg hpos s.weight (hs.1.trans hw) s.bias
      (bias_like hs.2.1 hb) N n b.images b'.images none none b.first b'.first _ _ rfl rfl hH hx
    exact ⟨y, _, y', _, a1, a2, a3⟩
  obtain ⟨r, r1, r2, -⟩ := train_step opt hs start memory s₀ (Weights.Like.refl s₀)
  exact ⟨r, r1, r2⟩

/-- The network of the example of C75 (lifting convolution, ReLU, batch normalisation in training mode, separable
convolution, global average pooling, 4 rotations), trained on any sequence of batches of three 8 x 9 images, and on the
same images turned by a quarter turn: the same parameters, whatever the optimizer does with the features. -/
example (weight weightH weight₂ : Tensor ℝ) (hw : weight.shape = [6, 2, 5, 5]) (hwH : weightH.shape = [4, 6, 3])
    (hw₂ : weight₂.shape = [6, 1, 5, 5]) (r : Running) (images : List (Tensor ℝ × Tensor ℝ))
    (hx : ∀ q ∈ images, MovedTensor LatticeSym.ax2 KernelSE2.quarter [3, 4] [8, 9] [9, 8] q.1 q.2)
    (M M₂ : Module ℝ 2) (hM : liftingSE2 (KernelSE2.exArgs 4) rotOpts = .ok M) (hM₂ : fullSE2 (exArgs₂ 4) rotOpts = .ok M₂)
    {Memory : Type} (opt : Optimizer ℝ 2 3 6 Memory) (memory : Memory) :
    ∃ final, train M opt 0 (images.map fun q => ⟨q.1, id, fun _ => id⟩) memory
        ⟨weight, none, [.act .relu, .batch exNorm true r, .separableSE M₂ id weightH weight₂ none]⟩ = .ok final ∧
      train M opt 0 (images.map fun q => ⟨q.2, id, fun _ => id⟩) memory
        ⟨weight, none, [.act .relu, .batch exNorm true r, .separableSE M₂ id weightH weight₂ none]⟩ = .ok final := by
  obtain ⟨h1, h2, h3, h4⟩ := rot_geometry 4
  obtain ⟨π, hπ⟩ := C75_uniform_closed 4 (by norm_num) 1
  have e1 : (2 * Real.pi * (1 : ℕ) / (4 : ℕ) : ℝ) = Real.pi / 2 := by push_cast; ring
  rw [e1] at hπ
  have hgrid : M.kernel.gridH = Tensor.ofList (SO2.uniformGrid 4) := by
    obtain ⟨K, hK, -, hMK, -⟩ := build_ok hM
    rw [hMK]
    unfold KernelSE2.lifting checkGroups at hK
    split at hK
    · cases hK
    · cases hK; rfl
  have o1 : outDims (List.replicate 2 (sameAxis 5 1)) [8, 9] = [8, 9] := by simp [outDims, Axis.out, Axis.span, sameAxis]
  have o2 : outDims (List.replicate 2 (sameAxis 5 1)) [9, 8] = [9, 8] := by simp [outDims, Axis.out, Axis.span, sameAxis]
  have f : firstAxes .circular (.str "same") (List.replicate 2 (sameAxis 5 1)) = List.replicate 2 ⟨1, 1, 1, 2, 2⟩ := by
    simp [firstAxes, firstAxis, sameAxis]
  have f1 : outDims (List.replicate 2 ⟨1, 1, 1, 2, 2⟩) [8, 9] = [12, 13] := by simp [outDims, Axis.out, Axis.span]
  have f2 : outDims (List.replicate 2 ⟨1, 1, 1, 2, 2⟩) [9, 8] = [13, 12] := by simp [outDims, Axis.out, Axis.span]
  obtain ⟨g1, -, g2, -⟩ := C59_same_geometry 2 6 6 5 1 (.int 4) 2 "circular" .circular (Or.inr (Or.inr (Or.inr ⟨rfl, rfl⟩)))
    (by norm_num) (by norm_num) [13, 12] rfl (by simp [F.padAllowed])
  have g3 : GeomOk .circular (List.replicate 2 ⟨1, 1, 1, 2, 2⟩) [9, 8] :=
    .cons ⟨by norm_num, by norm_num, by norm_num, by simp [Axis.span], rfl⟩
      (.cons ⟨by norm_num, by norm_num, by norm_num, by simp [Axis.span], rfl⟩ .nil)
  have hchain : Chain 3 (ConvSE2 (Real.pi / 2) KernelSE2.quarter)
      [.act .relu, .batch exNorm true r, .separableSE M₂ id weightH weight₂ none]
      [.act .relu, .batch exNorm true r, .separableSE M₂ id weightH weight₂ none]
      ⟨6, 4, [8, 9], [9, 8]⟩ ⟨6, 4, outDims (List.replicate 2 (sameAxis 5 1)) [12, 13], outDims (List.replicate 2 (sameAxis 5 1)) [13, 12]⟩ := by
    refine .act _ trivial (.batch _ _ _ rfl (by norm_num) (.conv ?_ (.nil _)))
    exact ConvSE2.separable (exArgs₂ 4) rotOpts (by norm_num [exArgs₂, KernelSE2.exArgs]) defaultModes 1 (exReady₂ 4 (by norm_num)) hM₂
      (g1 rfl) (S' := [8, 9]) (S := [9, 8]) (by rw [show rotOpts.padding = .str "same" from rfl, f]; exact g3)
      ⟨⟨1, 1, 1, 2, 2⟩, f, rfl, fun s _ => one_dvd _⟩
      (by rw [show rotOpts.padding = .str "same" from rfl, f, f2]) (by rw [show rotOpts.padding = .str "same" from rfl, f, f1])
      g2 ⟨sameAxis 5 1, rfl, by simp [sameAxis], fun s _ => one_dvd _⟩
      (by norm_num [exArgs₂, KernelSE2.exArgs]) weightH weight₂
      (by rw [hwH]; show [4, 6, 3] = [(SO2.uniformGrid 4).length, 6, 6 / 2]; rw [SO2.C03_length])
      (by rw [hw₂]; simp [exArgs₂, KernelSE2.exArgs]) none (fun b hb => by cases hb) (by norm_num) id id
      (fun h => by cases h)
  refine C110_SE2 (KernelSE2.exArgs 4) rotOpts (by norm_num [KernelSE2.exArgs]) defaultModes hM h1 (by norm_num [KernelSE2.exArgs]) opt _
    (by show weight.shape = _; rw [hw]; simp [KernelSE2.exArgs]) (fun b hb => by cases hb) (List.forall₂_map_left_iff.2 (List.forall₂_map_right_iff.2 (List.forall₂_same.2 fun q hq => ?_))) 0 memory
  exact ⟨Real.pi / 2, KernelSE2.quarter, [8, 9], [9, 8], 4, π, _, KernelSE2.quarter_matrix, h4, h2, h3, by rw [hgrid]; exact hπ, hx q hq,
    by rw [o1, o2]; exact hchain, rfl, by simp [outDims, Axis.out, Axis.span, sameAxis]⟩

/-! ## SE3 -/

theorem transfersSE3 (s : GridCache.Store (Tensor ℝ)) (gopt : List SO3.Euler) (σ : LatticeSym 3) : Transfers (ConvSE3 s gopt σ) where
  like := by
    intro b b₁ m m' u t hb h
    cases hb with
    | act a => exact h
    | batch a w v tr r r' => simp only [Block.draw] at h; cases h
    | inst a w v tr r r' => simp only [Block.draw] at h; cases h
    | groupSE M a a' w w' v v' hw hv =>
      simp only [Block.draw] at h ⊢
      cases h with
      | group k c hk hm gr wd hr hM hgeo hS hsym weight hw₀ bias hb move move' hdraw =>
        exact .group k c hk hm gr wd hr hM hgeo hS hsym _ (hw.trans hw₀) _ (bias_like hv hb) _ _ hdraw
    | separableSE M a a' u u' w w' v v' hu hw hv =>
      simp only [Block.draw] at h ⊢
      cases h with
      | separable k c hk hm gr wd hr hM hgeo hg₁ hsym₁ hS₁ hS₁' hS hsym hC weightH weight hwH hw₀ bias hb hn move move' hdraw =>
        exact .separable k c hk hm gr wd hr hM hgeo hg₁ hsym₁ hS₁ hS₁' hS hsym hC _ _ (hu.trans hwH) (hw.trans hw₀) _ (bias_like hv hb) hn _ _ hdraw
    | groupE M a a' w w' v v' hw hv => simp only [Block.draw] at h; cases h
    | separableE M a a' u u' w w' v v' hu hw hv => simp only [Block.draw] at h; cases h
  pass := by
    intro b b' u t h
    cases h <;> exact ⟨fun x H => rfl, fun x H => rfl, rfl⟩

/-- The batches `b` and `b'` hold the same images, in `b'` turned by the rotation `σ.matrix`, a lattice symmetry `σ`, that maps
the group elements used in the first pass to the ones used in the second. The network accepts them. -/
structure TurnedSE3 (s : GridCache.Store (Tensor ℝ)) (gopt : List SO3.Euler) (k : KernelArgs SO3.Mat3 ℕ) (c : ConvOpts) (M : Module SO3.Mat3 3) (mode : F.CPad) (ax : List Axis) (N C : ℕ)
    (s₀ : Weights SO3.Mat3 3) (b b' : Batch SO3.Mat3) : Prop where
  turned : ∃ (σ : LatticeSym 3) (S' S : List ℕ) (n : ℕ) (π : Equiv.Perm (Fin n)) (t : Sizes),
    IsRotation σ.matrix ∧ LatticeSym.Matches LatticeSym.ax3 σ S' S ∧ GeomOk mode ax S ∧ SymmetricGeometry 3 ax S ∧
    MovedGrid (SO3.leftApplyMatrix σ.matrix) π (if c.permute then M.kernel.gridH.map b.first else M.kernel.gridH)
      (if c.permute then M.kernel.gridH.map b'.first else M.kernel.gridH) ∧
    MovedTensor LatticeSym.ax3 σ [N, k.inC] S' S b.images b'.images ∧
    Chain N (ConvSE3 s gopt σ) (s₀.ready b) (s₀.ready b') ⟨k.outC, n, outDims ax S', outDims ax S⟩ t ∧
    t.channels = C ∧ 0 < (t.elements :: t.before).prod

/-- Two trainings of the same network from the same parameters with the same optimizer, one on images, the other on these
images turned by rotations (a different one for every batch), go through the same parameters and running statistics. -/
theorem C110_SE3 (s : GridCache.Store (Tensor ℝ)) (gopt : List SO3.Euler) (k : KernelArgs SO3.Mat3 ℕ) (c : ConvOpts) (hk : 2 ≤ k.kernelSize) {m p} (hm : SpatialModes k.spatialMode k.spatialPad m p)
    {M : Module SO3.Mat3 3} (hM : liftingSE3 s gopt k c = .ok M) {mode : F.CPad} {ax : List Axis} (hgeo : HasGeometry (argsSE3 k c) mode ax)
    (hpos : 0 < k.inC) {N C : ℕ} {Memory : Type} (opt : Optimizer SO3.Mat3 3 N C Memory) (s₀ : Weights SO3.Mat3 3)
    (hw : s₀.weight.shape = [k.outC, k.inC / k.groups, k.kernelSize, k.kernelSize, k.kernelSize]) (hb : BiasShape s₀.bias k.outC 3)
    {bs bs' : List (Batch SO3.Mat3)} (h : List.Forall₂ (TurnedSE3 s gopt k c M mode ax N C s₀) bs bs') (start : ℕ) (memory : Memory) :
    ∃ final, train M opt start bs memory s₀ = .ok final ∧ train M opt start bs' memory s₀ = .ok final := by
  have hs : List.Forall₂ (Step M N C s₀) bs bs' := by
    refine h.imp fun b b' ⟨σ, S', S, n, π, t, hg, hσ, hS, hsym, hH, hx, hchain, hC, ht⟩ => ?_
    refine step_of (by norm_num) (fun h => convSE3_preserves s gopt hg N h) (transfersSE3 s gopt σ) (fun v hs => ?_) (matches_sym hσ hsym) hchain hC ht
    obtain ⟨y, y', a1, a2, a3⟩ := liftSE3_feature s gopt k c hk hm hM hgeo hσ hS hsym hg hpos v.weight (hs.1.trans hw) v.bias
      (bias_like hs.2.1 hb) N n b.images b'.images none none b.first b'.first _ _ rfl rfl hH hx
    exact ⟨y, _, y', _, a1, a2, a3⟩
  obtain ⟨r, r1, r2, -⟩ := train_step opt hs start memory s₀ (Weights.Like.refl s₀)
  exact ⟨r, r1, r2⟩

/-! ## E2 -/

theorem transfersE2 (g : O2.Elt) (σ : LatticeSym 2) : Transfers (ConvE2 g σ) where
  like := by
    intro b b₁ m m' s t hb h
    cases hb with
    | act a => exact h
    | batch a w v tr r r' => simp only [Block.draw] at h; cases h
    | inst a w v tr r r' => simp only [Block.draw] at h; cases h
    | groupSE M a a' w w' v v' hw hv => simp only [Block.draw] at h; cases h
    | separableSE M a a' u u' w w' v v' hu hw hv => simp only [Block.draw] at h; cases h
    | groupE M a a' w w' v v' hw hv =>
      simp only [Block.draw] at h ⊢
      cases h with
      | group k c hk hm wr wf hr hnR hnF hM hgeo hS hsym weight hw₀ bias hb move move' hHc hHc' hH hgood =>
        exact .group k c hk hm wr wf hr hnR hnF hM hgeo hS hsym _ (hw.trans hw₀) _ (bias_like hv hb) _ _ hHc hHc' hH hgood
    | separableE M a a' u u' w w' v v' hu hw hv =>
      simp only [Block.draw] at h ⊢
      cases h with
      | separable k c hk hm wr wf hr hnR hnF hM hgeo hg₁ hsym₁ hS₁ hS₁' hS hsym hC weightH weight hwH hw₀ bias hb hn move move' hHc hHc' hH hgood =>
        exact .separable k c hk hm wr wf hr hnR hnF hM hgeo hg₁ hsym₁ hS₁ hS₁' hS hsym hC _ _ (hu.trans hwH) (hw.trans hw₀) _ (bias_like hv hb) hn _ _ hHc hHc' hH hgood
  pass := by
    intro b b' s t h
    cases h <;> exact ⟨fun x H => rfl, fun x H => rfl, rfl⟩

/-- The batches `b` and `b'` hold the same images, in `b'` turned by the rotation `g` (coefficient 1), a lattice symmetry `σ`, that maps
the group elements used in the first pass to the ones used in the second. The network accepts them. -/
structure TurnedE2 (k : KernelArgs O2.Elt SizeArg) (c : ConvOpts) (M : Module O2.Elt 2) (mode : F.CPad) (ax : List Axis) (N C : ℕ)
    (s₀ : Weights O2.Elt 2) (b b' : Batch O2.Elt) : Prop where
  turned : ∃ (g : O2.Elt) (σ : LatticeSym 2) (S' S : List ℕ) (n : ℕ) (π : Equiv.Perm (Fin n)) (t : Sizes),
    g.1 = 1 ∧ g.1 • SO2.angleToMatrix g.2 = σ.matrix ∧ LatticeSym.Matches LatticeSym.ax2 σ S' S ∧ GeomOk mode ax S ∧ SymmetricGeometry 2 ax S ∧
    MovedGrid (O2.leftApplyAngle g) π (if c.permute then M.kernel.gridH.map b.first else M.kernel.gridH)
      (if c.permute then M.kernel.gridH.map b'.first else M.kernel.gridH) ∧
    (∀ i < n, (fun h : O2.Elt => h.1 = 1 ∨ h.1 = -1) ((if c.permute then M.kernel.gridH.map b.first else M.kernel.gridH).get [i])) ∧
    MovedTensor LatticeSym.ax2 σ [N, k.inC] S' S b.images b'.images ∧
    Chain N (ConvE2 g σ) (s₀.ready b) (s₀.ready b') ⟨k.outC, n, outDims ax S', outDims ax S⟩ t ∧
    t.channels = C ∧ 0 < (t.elements :: t.before).prod

/-- Two trainings of the same network from the same parameters with the same optimizer, one on images, the other on these
images turned by rotations (a different one for every batch), go through the same parameters and running statistics. -/
theorem C110_E2 (k : KernelArgs O2.Elt SizeArg) (c : ConvOpts) (hk : 2 ≤ k.kernelSize) {m p} (hm : SpatialModes k.spatialMode k.spatialPad m p)
    {M : Module O2.Elt 2} (hM : liftingE2 k c = .ok M) {mode : F.CPad} {ax : List Axis} (hgeo : HasGeometry (argsE2 k c) mode ax)
    (hpos : 0 < k.inC) {N C : ℕ} {Memory : Type} (opt : Optimizer O2.Elt 2 N C Memory) (s₀ : Weights O2.Elt 2)
    (hw : s₀.weight.shape = [k.outC, k.inC / k.groups, k.kernelSize, k.kernelSize]) (hb : BiasShape s₀.bias k.outC 2)
    {bs bs' : List (Batch O2.Elt)} (h : List.Forall₂ (TurnedE2 k c M mode ax N C s₀) bs bs') (start : ℕ) (memory : Memory) :
    ∃ final, train M opt start bs memory s₀ = .ok final ∧ train M opt start bs' memory s₀ = .ok final := by
  have hs : List.Forall₂ (Step M N C s₀) bs bs' := by
    refine h.imp fun b b' ⟨g, σ, S', S, n, π, t, h1, hg, hσ, hS, hsym, hH, hgood, hx, hchain, hC, ht⟩ => ?_
    refine step_of (by norm_num) (fun h => convE2_preserves h1 hg N h) (transfersE2 g σ) (fun s hs => ?_) (matches_sym hσ hsym) hchain hC ht
    obtain ⟨y, y', a1, a2, a3⟩ := liftE2_feature k c hk hm hM hgeo g hσ hS hsym h1 hg hpos s.weight (hs.1.trans hw) s.bias
      (bias_like hs.2.1 hb) N n b.images b'.images none none b.first b'.first _ _ rfl rfl hH hgood hx
    exact ⟨y, _, y', _, a1, a2, a3⟩
  obtain ⟨r, r1, r2, -⟩ := train_step opt hs start memory s₀ (Weights.Like.refl s₀)
  exact ⟨r, r1, r2⟩

/-! ## E3 -/

theorem transfersE3 (s : GridCache.Store (Tensor ℝ)) (opt1 opt2 : List SO3.Euler) (g : O3.Elt) (σ : LatticeSym 3) : Transfers (ConvE3 s opt1 opt2 g σ) where
  like := by
    intro b b₁ m m' u t hb h
    cases hb with
    | act a => exact h
    | batch a w v tr r r' => simp only [Block.draw] at h; cases h
    | inst a w v tr r r' => simp only [Block.draw] at h; cases h
    | groupSE M a a' w w' v v' hw hv => simp only [Block.draw] at h; cases h
    | separableSE M a a' u u' w w' v v' hu hw hv => simp only [Block.draw] at h; cases h
    | groupE M a a' w w' v v' hw hv =>
      simp only [Block.draw] at h ⊢
      cases h with
      | group k c hk hm gr wr wf hr hnR hnF hM hgeo hS hsym weight hw₀ bias hb move move' hHc hHc' hH hgood =>
        exact .group k c hk hm gr wr wf hr hnR hnF hM hgeo hS hsym _ (hw.trans hw₀) _ (bias_like hv hb) _ _ hHc hHc' hH hgood
    | separableE M a a' u u' w w' v v' hu hw hv =>
      simp only [Block.draw] at h ⊢
      cases h with
      | separable k c hk hm gr wr wf hr hnR hnF hM hgeo hg₁ hsym₁ hS₁ hS₁' hS hsym hC weightH weight hwH hw₀ bias hb hn move move' hHc hHc' hH hgood =>
        exact .separable k c hk hm gr wr wf hr hnR hnF hM hgeo hg₁ hsym₁ hS₁ hS₁' hS hsym hC _ _ (hu.trans hwH) (hw.trans hw₀) _ (bias_like hv hb) hn _ _ hHc hHc' hH hgood
  pass := by
    intro b b' u t h
    cases h <;> exact ⟨fun x H => rfl, fun x H => rfl, rfl⟩

/-- The batches `b` and `b'` hold the same images, in `b'` turned by the rotation `g` (coefficient 1), a lattice symmetry `σ`, that maps
the group elements used in the first pass to the ones used in the second. The network accepts them. -/
structure TurnedE3 (s : GridCache.Store (Tensor ℝ)) (opt1 opt2 : List SO3.Euler) (k : KernelArgs O3.Elt SizeArg) (c : ConvOpts) (M : Module O3.Elt 3) (mode : F.CPad) (ax : List Axis) (N C : ℕ)
    (s₀ : Weights O3.Elt 3) (b b' : Batch O3.Elt) : Prop where
  turned : ∃ (g : O3.Elt) (σ : LatticeSym 3) (S' S : List ℕ) (n : ℕ) (π : Equiv.Perm (Fin n)) (t : Sizes),
    O3.coef g = 1 ∧ O3.Valid g ∧ O3.coef g • O3.rot g = σ.matrix ∧ LatticeSym.Matches LatticeSym.ax3 σ S' S ∧ GeomOk mode ax S ∧ SymmetricGeometry 3 ax S ∧
    MovedGrid (O3.leftApplyO3 g) π (if c.permute then M.kernel.gridH.map b.first else M.kernel.gridH)
      (if c.permute then M.kernel.gridH.map b'.first else M.kernel.gridH) ∧
    (∀ i < n, O3.Valid ((if c.permute then M.kernel.gridH.map b.first else M.kernel.gridH).get [i])) ∧
    MovedTensor LatticeSym.ax3 σ [N, k.inC] S' S b.images b'.images ∧
    Chain N (ConvE3 s opt1 opt2 g σ) (s₀.ready b) (s₀.ready b') ⟨k.outC, n, outDims ax S', outDims ax S⟩ t ∧
    t.channels = C ∧ 0 < (t.elements :: t.before).prod

/-- Two trainings of the same network from the same parameters with the same optimizer, one on images, the other on these
images turned by rotations (a different one for every batch), go through the same parameters and running statistics. -/
theorem C110_E3 (s : GridCache.Store (Tensor ℝ)) (opt1 opt2 : List SO3.Euler) (k : KernelArgs O3.Elt SizeArg) (c : ConvOpts) (hk : 2 ≤ k.kernelSize) {m p} (hm : SpatialModes k.spatialMode k.spatialPad m p)
    {M : Module O3.Elt 3} (hM : liftingE3 s opt1 opt2 k c = .ok M) {mode : F.CPad} {ax : List Axis} (hgeo : HasGeometry (argsE3 k c) mode ax)
    (hpos : 0 < k.inC) {N C : ℕ} {Memory : Type} (opt : Optimizer O3.Elt 3 N C Memory) (s₀ : Weights O3.Elt 3)
    (hw : s₀.weight.shape = [k.outC, k.inC / k.groups, k.kernelSize, k.kernelSize, k.kernelSize]) (hb : BiasShape s₀.bias k.outC 3)
    {bs bs' : List (Batch O3.Elt)} (h : List.Forall₂ (TurnedE3 s opt1 opt2 k c M mode ax N C s₀) bs bs') (start : ℕ) (memory : Memory) :
    ∃ final, train M opt start bs memory s₀ = .ok final ∧ train M opt start bs' memory s₀ = .ok final := by
  have hs : List.Forall₂ (Step M N C s₀) bs bs' := by
    refine h.imp fun b b' ⟨g, σ, S', S, n, π, t, h1, hva, hg, hσ, hS, hsym, hH, hgood, hx, hchain, hC, ht⟩ => ?_
    refine step_of (by norm_num) (fun h => convE3_preserves s opt1 opt2 h1 hva hg N h) (transfersE3 s opt1 opt2 g σ) (fun v hs => ?_) (matches_sym hσ hsym) hchain hC ht
    obtain ⟨y, y', a1, a2, a3⟩ := liftE3_feature s opt1 opt2 k c hk hm hM hgeo g hσ hS hsym h1 hva hg hpos v.weight (hs.1.trans hw) v.bias
      (bias_like hs.2.1 hb) N n b.images b'.images none none b.first b'.first _ _ rfl rfl hH hgood hx
    exact ⟨y, _, y', _, a1, a2, a3⟩
  obtain ⟨r, r1, r2, -⟩ := train_step opt hs start memory s₀ (Weights.Like.refl s₀)
  exact ⟨r, r1, r2⟩

end GConv.Net

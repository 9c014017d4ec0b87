import Verif.Lemmas.Linear
import Verif.Props.Separable

/-! # C80: outputs are linear in the parameters; C73 without side conditions

For every kernel whose samplers are linear in the sampled signal, in particular for all premade ones, and for every
configuration, input and grid. -/

namespace GConv.Linear

open Tensor Spec

variable {α β : ℝ} {x y z : Tensor ℝ} {G : Type} {d : ℕ}

/-- the samplers given to a kernel are linear in the signal (errors do not depend on the values). -/
structure LinearSamplers (K : GroupKernel G d) : Prop where
  spatial : ∀ (α β : ℝ) (x y z : Tensor ℝ) grid, IsComb α β x y z →
    Outcomes (IsComb α β) (K.sampleRn x grid) (K.sampleRn y grid) (K.sampleRn z grid)
  group : ∀ (α β : ℝ) (x y z : Tensor ℝ) q grid, IsComb α β x y z →
    Outcomes (IsComb α β) (K.sampleH q x grid) (K.sampleH q y grid) (K.sampleH q z grid)

theorem applyMask (K : GroupKernel G d) (h : IsComb α β x y z) :
    Outcomes (IsComb α β) (K.applyMask x) (K.applyMask y) (K.applyMask z) := by
  unfold GroupKernel.applyMask
  split
  · exact .ok h
  · exact bzip_mul _ h

theorem divDet (K : GroupKernel G d) (H : Tensor G) (nd : ℕ) (h : IsComb α β x y z) :
    Outcomes (IsComb α β) (K.divDet x H nd) (K.divDet y H nd) (K.divDet z H nd) := by
  unfold GroupKernel.divDet
  split
  · exact .ok h
  · exact Outcomes.same _ fun _ => bzip_div _ h

theorem liftingForward {K : GroupKernel G d} (hK : LinearSamplers K) (H : Tensor G) (h : IsComb α β x y z) :
    Outcomes (IsComb α β) (K.liftingForward x H) (K.liftingForward y H) (K.liftingForward z H) := by
  unfold GroupKernel.liftingForward
  dsimp only
  rw [h.1, h.2.1]
  refine Outcomes.bind (hK.spatial _ _ _ _ _ _ (repeatInterleave0 h _)) fun _ _ _ h => ?_
  refine Outcomes.bind (view h _) fun _ _ _ h => ?_
  refine Outcomes.bind (applyMask K h) fun _ _ _ h => ?_
  exact divDet K _ _ h

theorem subgroupWeights {K : GroupKernel G d} (hK : LinearSamplers K) (inH outH : Tensor G) (dims : List ℕ)
    (h : IsComb α β x y z) :
    Outcomes (IsComb α β) (K.subgroupWeights x inH outH dims) (K.subgroupWeights y inH outH dims)
      (K.subgroupWeights z inH outH dims) := by
  unfold GroupKernel.subgroupWeights
  dsimp only
  refine Outcomes.same _ fun q => ?_
  refine Outcomes.bind (viewInfer h _ _) fun _ _ _ h => ?_
  refine Outcomes.bind (hK.group _ _ _ _ _ _ _ h) fun _ _ _ h => ?_
  refine Outcomes.bind (view h _) fun _ _ _ h => ?_
  exact .ok (transpose (transpose h _ _) _ _)

theorem forward {K : GroupKernel G d} (hK : LinearSamplers K) (inH outH : Tensor G) (h : IsComb α β x y z) :
    Outcomes (IsComb α β) (K.forward x inH outH) (K.forward y inH outH) (K.forward z inH outH) := by
  unfold GroupKernel.forward
  dsimp only
  rw [h.1, h.2.1]
  refine Outcomes.same _ fun q => ?_
  refine Outcomes.bind (viewInfer h _ _) fun _ _ _ h => ?_
  refine Outcomes.bind (hK.group _ _ _ _ _ _ _ h) fun _ _ _ h => ?_
  refine Outcomes.bind (view h _) fun _ _ _ h => ?_
  refine Outcomes.bind (hK.spatial _ _ _ _ _ _ h) fun _ _ _ h => ?_
  refine Outcomes.bind (view h _) fun _ _ _ h => ?_
  refine Outcomes.bind (applyMask K (transpose (transpose h _ _) _ _)) fun _ _ _ h => ?_
  exact divDet K _ _ h

/-- the two weights of a separable kernel; one of them is varied. -/
theorem separableForward_H {K : GroupKernel G d} (hK : LinearSamplers K) (w : Tensor ℝ) (inH outH : Tensor G)
    (h : IsComb α β x y z) :
    Outcomes (fun a b c => IsComb α β a.1 b.1 c.1 ∧ a.2 = c.2 ∧ b.2 = c.2) (K.separableForward x w inH outH)
      (K.separableForward y w inH outH) (K.separableForward z w inH outH) := by
  unfold GroupKernel.separableForward
  dsimp only
  refine Outcomes.bind (subgroupWeights hK _ _ _ h) fun _ _ _ h => ?_
  refine Outcomes.same _ fun _ => Outcomes.same _ fun _ => Outcomes.same _ fun _ => Outcomes.same _ fun _ => ?_
  exact .ok ⟨h, rfl, rfl⟩

theorem separableForward_w {K : GroupKernel G d} (hK : LinearSamplers K) (wH : Tensor ℝ) (inH outH : Tensor G)
    (h : IsComb α β x y z) :
    Outcomes (fun a b c => IsComb α β a.2 b.2 c.2 ∧ a.1 = c.1 ∧ b.1 = c.1) (K.separableForward wH x inH outH)
      (K.separableForward wH y inH outH) (K.separableForward wH z inH outH) := by
  unfold GroupKernel.separableForward
  dsimp only
  refine Outcomes.same _ fun _ => ?_
  refine Outcomes.bind (hK.spatial _ _ _ _ _ _ (repeatInterleave0 h _)) fun _ _ _ h => ?_
  refine Outcomes.bind (view h _) fun _ _ _ h => ?_
  refine Outcomes.bind (applyMask K h) fun _ _ _ h => ?_
  refine Outcomes.bind (divDet K _ _ h) fun _ _ _ h => ?_
  exact .ok ⟨h, rfl, rfl⟩

theorem finish {b₁ b₂ b₃ : Option (Tensor ℝ)} (hb : IsCombOpt α β b₁ b₂ b₃) (N C n : ℕ) (H : Tensor G)
    (h : IsComb α β x y z) :
    Outcomes (CombLayer α β) (do let v ← x.view (N :: C :: n :: x.shape.drop 2); let v ← Conv.Layer.addBias v b₁; return (v, H))
      (do let v ← y.view (N :: C :: n :: y.shape.drop 2); let v ← Conv.Layer.addBias v b₂; return (v, H))
      (do let v ← z.view (N :: C :: n :: z.shape.drop 2); let v ← Conv.Layer.addBias v b₃; return (v, H)) := by
  rw [h.1, h.2.1]
  refine Outcomes.bind (view h _) fun _ _ _ h => ?_
  refine Outcomes.bind (addBias h hb) fun _ _ _ h => ?_
  exact .ok ⟨h, rfl, rfl⟩

section layers
variable (L : Conv.Layer) {K : GroupKernel G d} (hK : LinearSamplers K) {b₁ b₂ b₃ : Option (Tensor ℝ)}
  (hb : IsCombOpt α β b₁ b₂ b₃) (input : Tensor ℝ)
include hK hb

/-- lifting layers are linear in weight and bias together. -/
theorem C80_lifting (H : Tensor G) (h : IsComb α β x y z) :
    Outcomes (CombLayer α β) (L.liftingForward K x b₁ input H) (L.liftingForward K y b₂ input H)
      (L.liftingForward K z b₃ input H) := by
  unfold Conv.Layer.liftingForward
  split
  · exact .error _
  · refine Outcomes.bind (liftingForward hK _ h) fun _ _ _ h => ?_
    unfold Conv.Layer.liftingConv
    refine Outcomes.bind (viewInfer h _ _) fun _ _ _ h => ?_
    refine Outcomes.bind (convForward_weight L _ _ h) fun _ _ _ h => ?_
    exact finish hb _ _ _ _ h

theorem groupConv_weight (N : ℕ) (dims : List ℕ) (inH outH : Tensor G) (h : IsComb α β x y z) :
    Outcomes (CombLayer α β) (L.groupConv x b₁ N dims input inH outH) (L.groupConv y b₂ N dims input inH outH)
      (L.groupConv z b₃ N dims input inH outH) := by
  unfold Conv.Layer.groupConv
  refine Outcomes.same _ fun _ => ?_
  refine Outcomes.bind (view h _) fun _ _ _ h => ?_
  refine Outcomes.bind (convForward_weight L _ _ h) fun _ _ _ h => ?_
  exact finish hb _ _ _ _ h

/-- group layers are linear in weight and bias together. -/
theorem C80_group (inH outH : Tensor G) (h : IsComb α β x y z) :
    Outcomes (CombLayer α β) (L.groupForward K x b₁ input inH outH) (L.groupForward K y b₂ input inH outH)
      (L.groupForward K z b₃ input inH outH) := by
  unfold Conv.Layer.groupForward
  split
  · exact Outcomes.bind (forward hK _ _ h) fun _ _ _ h => groupConv_weight L hK hb _ _ _ _ _ h
  · exact .error _

/-- layers that convolve over the group only are linear in weight and bias together. -/
theorem C80_subgroup (inH outH : Tensor G) (h : IsComb α β x y z) :
    Outcomes (CombLayer α β) (L.subgroupForward K x b₁ input inH outH) (L.subgroupForward K y b₂ input inH outH)
      (L.subgroupForward K z b₃ input inH outH) := by
  unfold Conv.Layer.subgroupForward
  split
  · exact Outcomes.bind (subgroupWeights hK _ _ _ h) fun _ _ _ h => groupConv_weight L hK hb _ _ _ _ _ h
  · exact .error _

/-- separable layers, with the spatial weight fixed, are linear in the group weight and the bias together. -/
theorem C80_separable_H (w : Tensor ℝ) (inH outH : Tensor G) (h : IsComb α β x y z) :
    Outcomes (CombLayer α β) (L.separableForward K x w b₁ input inH outH) (L.separableForward K y w b₂ input inH outH)
      (L.separableForward K z w b₃ input inH outH) := by
  unfold Conv.Layer.separableForward
  split
  · refine Outcomes.bind (separableForward_H hK _ _ _ h) fun p q r h => ?_
    obtain ⟨h, h2, h2'⟩ := h
    unfold Conv.Layer.separableConv
    rw [h2, h2', h.1, h.2.1]
    refine Outcomes.same _ fun _ => ?_
    refine Outcomes.bind (view h _) fun _ _ _ h => ?_
    refine Outcomes.bind (convForward_weight L _ _ h) fun _ _ _ h => ?_
    refine Outcomes.same _ fun _ => ?_
    refine Outcomes.bind (convForward_input L _ _ h) fun _ _ _ h => ?_
    exact finish hb _ _ _ _ h
  · exact .error _

/-- separable layers, with the group weight fixed, are linear in the spatial weight and the bias together. -/
theorem C80_separable_w (wH : Tensor ℝ) (inH outH : Tensor G) (h : IsComb α β x y z) :
    Outcomes (CombLayer α β) (L.separableForward K wH x b₁ input inH outH) (L.separableForward K wH y b₂ input inH outH)
      (L.separableForward K wH z b₃ input inH outH) := by
  unfold Conv.Layer.separableForward
  split
  · refine Outcomes.bind (separableForward_w hK _ _ _ h) fun p q r h => ?_
    obtain ⟨h, h2, h2'⟩ := h
    unfold Conv.Layer.separableConv
    rw [h2, h2']
    refine Outcomes.same _ fun _ => Outcomes.same _ fun _ => Outcomes.same _ fun _ => ?_
    refine Outcomes.bind (view h _) fun _ _ _ h => ?_
    refine Outcomes.bind (convForward_weight L _ _ h) fun _ _ _ h => ?_
    exact finish hb _ _ _ _ h
  · exact .error _

end layers

/-! ## the premade kernels -/

theorem spatial_lin (m p : String) : ∀ (α β : ℝ) (x y z : Tensor ℝ) (grid : Tensor (Fin d → ℝ)), IsComb α β x y z →
    Outcomes (IsComb α β) (F.gridSample m p x grid) (F.gridSample m p y grid) (F.gridSample m p z grid) :=
  fun _ _ _ _ _ grid h => gridSample m p grid h

theorem checkGroups_ok {g : ℕ} {K K' : GroupKernel G d} (h : checkGroups g K' = .ok K) : K = K' := by
  unfold checkGroups at h
  split at h
  · cases h
  · cases h; rfl

theorem bind_ok {A B : Type} {e : Except PyErr A} {f : A → Except PyErr B} {b : B} (h : (e >>= f) = .ok b) :
    ∃ a, e = .ok a ∧ f a = .ok b := by
  cases e with
  | error e => cases h
  | ok a => exact ⟨a, rfl, h⟩

/-- every SE(2) kernel that can be constructed has linear samplers. -/
theorem C80_kernels_SE2 (a : KernelArgs ℝ ℕ) (K : GroupKernel ℝ 2)
    (h : KernelSE2.lifting a = .ok K ∨ KernelSE2.full a = .ok K) : LinearSamplers K := by
  rcases h with h | h
  · cases checkGroups_ok h
    exact ⟨spatial_lin _ _, fun _ _ _ _ _ _ _ _ => .error _⟩
  · obtain ⟨w, -, h⟩ := bind_ok h
    cases checkGroups_ok h
    exact ⟨spatial_lin _ _, fun _ _ _ _ _ q g h => so2Sample q g _ _ h⟩

/-- every SE(3) kernel that can be constructed has linear samplers. -/
theorem C80_kernels_SE3 (s : GridCache.Store (Tensor ℝ)) (opt : List SO3.Euler) (a : KernelArgs SO3.Mat3 ℕ)
    (K : GroupKernel SO3.Mat3 3) (h : KernelSE3.lifting s opt a = .ok K ∨ KernelSE3.full s opt a = .ok K) :
    LinearSamplers K := by
  rcases h with h | h
  · obtain ⟨g, -, h⟩ := bind_ok h
    cases checkGroups_ok h
    exact ⟨spatial_lin _ _, fun _ _ _ _ _ _ _ _ => .error _⟩
  · obtain ⟨g, -, h⟩ := bind_ok h
    obtain ⟨w, -, h⟩ := bind_ok h
    cases checkGroups_ok h
    refine ⟨spatial_lin _ _, fun α β x y z q g h => ?_⟩
    show Outcomes (IsComb α β) (KernelSE3.sampler _ _ q x g) (KernelSE3.sampler _ _ q y g) (KernelSE3.sampler _ _ q z g)
    unfold KernelSE3.sampler
    split
    · exact .error _
    · exact so3QuatSample _ _ _ _ h

/-- every E(2) kernel that can be constructed has linear samplers. -/
theorem C80_kernels_E2 (a : KernelArgs O2.Elt SizeArg) (K : GroupKernel O2.Elt 2)
    (h : KernelE2.lifting a = .ok K ∨ KernelE2.full a = .ok K) : LinearSamplers K := by
  rcases h with h | h
  · cases checkGroups_ok h
    exact ⟨spatial_lin _ _, fun _ _ _ _ _ _ _ _ => .error _⟩
  · obtain ⟨w, -, h⟩ := bind_ok h
    obtain ⟨w', -, h⟩ := bind_ok h
    cases checkGroups_ok h
    exact ⟨spatial_lin _ _, fun _ _ _ _ _ q g h => cosetSample Prod.fst Prod.snd (fun w g s sg => SO2.gridSample g s sg a.groupMode w) (fun w q g _ _ _ h => so2Sample q g _ w h) q g _ _ _ _ h⟩

/-- every E(3) kernel that can be constructed has linear samplers. -/
theorem C80_kernels_E3 (s : GridCache.Store (Tensor ℝ)) (opt1 opt2 : List SO3.Euler) (a : KernelArgs O3.Elt SizeArg)
    (K : GroupKernel O3.Elt 3) (h : KernelE3.lifting s opt1 opt2 a = .ok K ∨ KernelE3.full s opt1 opt2 a = .ok K) :
    LinearSamplers K := by
  rcases h with h | h
  · obtain ⟨g, -, h⟩ := bind_ok h
    cases checkGroups_ok h
    exact ⟨spatial_lin _ _, fun _ _ _ _ _ _ _ _ => .error _⟩
  · obtain ⟨g, -, h⟩ := bind_ok h
    obtain ⟨w, -, h⟩ := bind_ok h
    obtain ⟨w', -, h⟩ := bind_ok h
    cases checkGroups_ok h
    exact ⟨spatial_lin _ _, fun _ _ _ _ _ q g h => cosetSample O3.coef O3.rot (fun w g s sg => SO3.gridSample g s sg a.groupMode w) (fun w q g _ _ _ h => so3QuatSample _ _ _ _ h) q g _ _ _ _ h⟩

/-- every SO(3) subgroup kernel that can be constructed has linear samplers. -/
theorem C80_kernels_SO3 (inC outC groups : ℕ) (mode : String) (width : ℝ) (quats : Tensor SO3.Quat)
    (K : GroupKernel SO3.Mat3 0) (h : KernelSO3.subgroup inC outC groups mode width quats = .ok K) :
    LinearSamplers K := by
  obtain ⟨w, -, h⟩ := bind_ok h
  cases checkGroups_ok h
  exact ⟨fun _ _ _ _ _ _ _ => .error _, fun _ _ _ _ _ q g h => so3QuatSample _ _ _ _ h⟩

/-! ## C73 for every configuration -/

/-- lifting layers are linear in the input and the bias together, for every kernel and configuration. -/
theorem C73_any_lifting (L : Conv.Layer) (K : GroupKernel G d) {b₁ b₂ b₃ : Option (Tensor ℝ)}
    (hb : IsCombOpt α β b₁ b₂ b₃) (w : Tensor ℝ) (H : Tensor G) (h : IsComb α β x y z) :
    Outcomes (CombLayer α β) (L.liftingForward K w b₁ x H) (L.liftingForward K w b₂ y H)
      (L.liftingForward K w b₃ z H) := by
  unfold Conv.Layer.liftingForward
  rw [h.1, h.2.1]
  split
  · exact .error _
  · refine Outcomes.same _ fun _ => ?_
    unfold Conv.Layer.liftingConv
    refine Outcomes.same _ fun _ => ?_
    refine Outcomes.bind (convForward_input L _ _ h) fun _ _ _ h => ?_
    exact finish hb _ _ _ _ h

theorem groupConv_input (L : Conv.Layer) {b₁ b₂ b₃ : Option (Tensor ℝ)} (hb : IsCombOpt α β b₁ b₂ b₃) (w : Tensor ℝ)
    (N : ℕ) (dims : List ℕ) (inH outH : Tensor G) (h : IsComb α β x y z) :
    Outcomes (CombLayer α β) (L.groupConv w b₁ N dims x inH outH) (L.groupConv w b₂ N dims y inH outH)
      (L.groupConv w b₃ N dims z inH outH) := by
  unfold Conv.Layer.groupConv
  refine Outcomes.bind (view h _) fun _ _ _ h => ?_
  refine Outcomes.same _ fun _ => ?_
  refine Outcomes.bind (convForward_input L _ _ h) fun _ _ _ h => ?_
  exact finish hb _ _ _ _ h

/-- group layers are linear in the input and the bias together, for every kernel and configuration. -/
theorem C73_any_group (L : Conv.Layer) (K : GroupKernel G d) {b₁ b₂ b₃ : Option (Tensor ℝ)}
    (hb : IsCombOpt α β b₁ b₂ b₃) (w : Tensor ℝ) (inH outH : Tensor G) (h : IsComb α β x y z) :
    Outcomes (CombLayer α β) (L.groupForward K w b₁ x inH outH) (L.groupForward K w b₂ y inH outH)
      (L.groupForward K w b₃ z inH outH) := by
  unfold Conv.Layer.groupForward
  rw [h.1, h.2.1]
  split
  · exact Outcomes.same _ fun _ => groupConv_input L hb _ _ _ _ _ h
  · exact .error _

/-- separable layers are linear in the input and the bias together, for every kernel and configuration. -/
theorem C73_any_separable (L : Conv.Layer) (K : GroupKernel G d) {b₁ b₂ b₃ : Option (Tensor ℝ)}
    (hb : IsCombOpt α β b₁ b₂ b₃) (wH w : Tensor ℝ) (inH outH : Tensor G) (h : IsComb α β x y z) :
    Outcomes (CombLayer α β) (L.separableForward K wH w b₁ x inH outH) (L.separableForward K wH w b₂ y inH outH)
      (L.separableForward K wH w b₃ z inH outH) := by
  unfold Conv.Layer.separableForward
  rw [h.1, h.2.1]
  split
  · refine Outcomes.same _ fun _ => ?_
    unfold Conv.Layer.separableConv
    refine Outcomes.bind (view h _) fun _ _ _ h => ?_
    refine Outcomes.same _ fun _ => ?_
    refine Outcomes.bind (convForward_input L _ _ h) fun _ _ _ h => ?_
    refine Outcomes.same _ fun _ => ?_
    refine Outcomes.bind (convForward_input L _ _ h) fun _ _ _ h => ?_
    exact finish hb _ _ _ _ h
  · exact .error _

/-! ## modules

The forward methods of the premade modules choose the output grid and call the layer. -/

/-- a premade convolution module: linear in weight and bias, for every draw of the grid permutation. -/
theorem C80_module (M : Conv.Module G d) (hK : LinearSamplers M.kernel) (move : G → G) {b₁ b₂ b₃ : Option (Tensor ℝ)}
    (hb : IsCombOpt α β b₁ b₂ b₃) (input : Tensor ℝ) (inH : Tensor G) (outH : Option (Tensor G))
    (h : IsComb α β x y z) (w : Tensor ℝ) :
    Outcomes (CombLayer α β) (M.lift move x b₁ input outH) (M.lift move y b₂ input outH) (M.lift move z b₃ input outH) ∧
    Outcomes (CombLayer α β) (M.groupSE move x b₁ input inH outH) (M.groupSE move y b₂ input inH outH)
      (M.groupSE move z b₃ input inH outH) ∧
    Outcomes (CombLayer α β) (M.groupE move x b₁ input inH outH) (M.groupE move y b₂ input inH outH)
      (M.groupE move z b₃ input inH outH) ∧
    Outcomes (CombLayer α β) (M.separableSE move x w b₁ input inH outH) (M.separableSE move y w b₂ input inH outH)
      (M.separableSE move z w b₃ input inH outH) ∧
    Outcomes (CombLayer α β) (M.separableE move x w b₁ input inH outH) (M.separableE move y w b₂ input inH outH)
      (M.separableE move z w b₃ input inH outH) ∧
    Outcomes (CombLayer α β) (M.separableSE move w x b₁ input inH outH) (M.separableSE move w y b₂ input inH outH)
      (M.separableSE move w z b₃ input inH outH) ∧
    Outcomes (CombLayer α β) (M.separableE move w x b₁ input inH outH) (M.separableE move w y b₂ input inH outH)
      (M.separableE move w z b₃ input inH outH) :=
  ⟨C80_lifting M.layer hK hb input _ h, C80_group M.layer hK hb input _ _ h, C80_group M.layer hK hb input _ _ h,
    C80_separable_H M.layer hK hb input _ _ _ h, C80_separable_H M.layer hK hb input _ _ _ h,
    C80_separable_w M.layer hK hb input _ _ _ h, C80_separable_w M.layer hK hb input _ _ _ h⟩

/-- a premade convolution module: linear in input and bias, for every draw of the grid permutation. -/
theorem C73_any_module (M : Conv.Module G d) (move : G → G) {b₁ b₂ b₃ : Option (Tensor ℝ)}
    (hb : IsCombOpt α β b₁ b₂ b₃) (w wH : Tensor ℝ) (inH : Tensor G) (outH : Option (Tensor G)) (h : IsComb α β x y z) :
    Outcomes (CombLayer α β) (M.lift move w b₁ x outH) (M.lift move w b₂ y outH) (M.lift move w b₃ z outH) ∧
    Outcomes (CombLayer α β) (M.groupSE move w b₁ x inH outH) (M.groupSE move w b₂ y inH outH)
      (M.groupSE move w b₃ z inH outH) ∧
    Outcomes (CombLayer α β) (M.groupE move w b₁ x inH outH) (M.groupE move w b₂ y inH outH)
      (M.groupE move w b₃ z inH outH) ∧
    Outcomes (CombLayer α β) (M.separableSE move wH w b₁ x inH outH) (M.separableSE move wH w b₂ y inH outH)
      (M.separableSE move wH w b₃ z inH outH) ∧
    Outcomes (CombLayer α β) (M.separableE move wH w b₁ x inH outH) (M.separableE move wH w b₂ y inH outH)
      (M.separableE move wH w b₃ z inH outH) :=
  ⟨C73_any_lifting M.layer M.kernel hb w _ h, C73_any_group M.layer M.kernel hb w _ _ h,
    C73_any_group M.layer M.kernel hb w _ _ h, C73_any_separable M.layer M.kernel hb wH w _ _ h,
    C73_any_separable M.layer M.kernel hb wH w _ _ h⟩

/-! ## a case that succeeds -/

/-- `GConvSE2` on 9 x 8 images with kernel extent 5 and padding 1: the calls succeed for all three weights. -/
example (n : ℕ) (hn : 0 < n) (w₁ w₂ input inH : Tensor ℝ)
    (h₁ : w₁.shape = [(KernelSE2.grid (KernelSE2.exArgs n)).shape.headD 0, 6, 2, 5, 5]) (h₂ : w₂.shape = w₁.shape)
    (hx : input.shape = [3, 4, n, 9, 8]) (hin : inH.shape = [n]) :
    ∃ M out₁ out₂ out₃, Conv.fullSE2 (KernelSE2.exArgs n) Conv.padOpts = .ok M ∧
      M.groupSE id w₁ none input inH none = .ok (out₁, inH) ∧
      M.groupSE id w₂ none input inH none = .ok (out₂, inH) ∧
      M.groupSE id ⟨w₁.shape, fun i => 2 * w₁.get i + (-3) * w₂.get i⟩ none input inH none = .ok (out₃, inH) ∧
      IsComb 2 (-3) out₁ out₂ out₃ := by
  obtain ⟨M, out₁, -, hM, o₁, -⟩ := Conv.C62_violated_padding n hn w₁ ⟨_, 0⟩ ⟨_, 0⟩ input inH h₁ rfl rfl hx hin
  obtain ⟨K, hK, -⟩ := bind_ok hM
  have hc : IsComb 2 (-3) w₁ w₂ ⟨w₁.shape, fun i => 2 * w₁.get i + (-3) * w₂.get i⟩ := ⟨rfl, h₂, fun _ => rfl⟩
  have hMK : LinearSamplers M.kernel := by
    obtain ⟨K, hK, hM⟩ := bind_ok hM
    obtain ⟨L, -, hM⟩ := bind_ok hM
    cases hM
    exact C80_kernels_SE2 _ _ (Or.inr hK)
  have := (C80_module M hMK id (b₁ := none) .none input inH none hc w₁).2.1
  rw [o₁] at this
  generalize e2 : M.groupSE id w₂ none input inH none = r2 at this
  generalize e3 : M.groupSE id ⟨w₁.shape, fun i => 2 * w₁.get i + (-3) * w₂.get i⟩ none input inH none = r3 at this
  cases this with
  | @ok _ p2 p3 h =>
    obtain ⟨a, b⟩ := p2
    obtain ⟨a', b'⟩ := p3
    obtain ⟨h, hb, hb'⟩ := h
    cases hb
    cases hb'
    exact ⟨M, out₁, a, a', hM, o₁, e2, e3, h⟩

end GConv.Linear

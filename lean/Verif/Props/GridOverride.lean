import Verif.Props.DefaultSampling

/-! # A given reference grid and `group_kernel_size` (C89)

"grid_H: … If provided, will overwrite given group_kernel_size." -/

namespace GConv

open Tensor Spec GroupKernel

/-- SE(2): with a given `grid_H` of `L` angles the argument `group_kernel_size` has no effect whatever and the kernel has `L`
group elements. -/
theorem C89_SE2_partial (a : KernelArgs ℝ ℕ) (g : Tensor ℝ) (L : ℕ) (hg : a.gridH = some g) (hL : g.shape = [L]) (n : ℕ) :
    KernelSE2.full { a with groupKernelSize := n } = KernelSE2.full a ∧
    KernelSE2.lifting { a with groupKernelSize := n } = KernelSE2.lifting a ∧
    (∀ K, KernelSE2.full a = .ok K ∨ KernelSE2.lifting a = .ok K → K.groupKernelSize = [L] ∧ K.gridH = g) := by
  have hgr : ∀ n, KernelSE2.grid { a with groupKernelSize := n } = g := by
    intro n; unfold KernelSE2.grid; dsimp only; rw [hg]; rfl
  have hga : KernelSE2.grid a = g := hgr a.groupKernelSize
  have hb : ∀ s, KernelSE2.base { a with groupKernelSize := n } s = KernelSE2.base a s := by
    intro s; unfold KernelSE2.base; rw [hgr, hga]
  refine ⟨?_, ?_, ?_⟩
  · unfold KernelSE2.full
    rw [hgr, hga]
    simp only [hb]
  · unfold KernelSE2.lifting
    rw [hb]
  · rintro K (h | h)
    · obtain ⟨s, rfl⟩ := KernelSE2.full_base h
      exact ⟨by show [(KernelSE2.grid a).shape.headD 0] = _; rw [hga, hL]; rfl, hga⟩
    · unfold KernelSE2.lifting checkGroups at h
      by_cases h0 : a.groups = 0
      · rw [if_pos h0] at h; cases h
      · rw [if_neg h0] at h; cases h
        exact ⟨by show [(KernelSE2.grid a).shape.headD 0] = _; rw [hga, hL]; rfl, hga⟩

/-- SE(3): the same; in particular the grid cache and the random optimised grid are not used. -/
theorem C89_SE3_partial (s s' opt opt') (a : KernelArgs SO3.Mat3 ℕ) (g : Tensor SO3.Mat3) (L : ℕ) (hg : a.gridH = some g) (hL : g.shape = [L])
    (n : ℕ) :
    KernelSE3.full s' opt' { a with groupKernelSize := n } = KernelSE3.full s opt a ∧
    KernelSE3.lifting s' opt' { a with groupKernelSize := n } = KernelSE3.lifting s opt a ∧
    (∀ K, KernelSE3.full s opt a = .ok K ∨ KernelSE3.lifting s opt a = .ok K → K.groupKernelSize = [L] ∧ K.gridH = g) := by
  have hgr : ∀ s opt n, KernelSE3.grid s opt { a with groupKernelSize := n } = .ok g := by
    intro s opt n; unfold KernelSE3.grid; dsimp only; rw [hg]
  have hga : ∀ s opt, KernelSE3.grid s opt a = .ok g := fun s opt => hgr s opt a.groupKernelSize
  refine ⟨?_, ?_, ?_⟩
  · unfold KernelSE3.full
    rw [hgr, hga]
    rfl
  · unfold KernelSE3.lifting
    rw [hgr, hga]
    rfl
  · rintro K (h | h)
    · unfold KernelSE3.full at h
      rw [hga, ok_bind] at h
      cases hd : defaultWidth a.rotWidth (KernelSE3.nearest g) with
      | error e => rw [hd] at h; cases h
      | ok w =>
        rw [hd, ok_bind] at h
        unfold checkGroups at h
        by_cases h0 : a.groups = 0
        · rw [if_pos h0] at h; cases h
        · rw [if_neg h0] at h; cases h
          exact ⟨by show [g.shape.headD 3] = _; rw [hL]; rfl, rfl⟩
    · unfold KernelSE3.lifting checkGroups at h
      rw [hga, ok_bind] at h
      by_cases h0 : a.groups = 0
      · rw [if_pos h0] at h; cases h
      · rw [if_neg h0] at h; cases h
        exact ⟨by show [g.shape.headD 3] = _; rw [hL]; rfl, rfl⟩

/-- sampling a coset with the wrong number of stored values fails. -/
theorem cosetSample_mismatch {G Q : Type} (coef : G → ℝ) (rot : G → Q) (samp : ℝ → Tensor Q → Tensor ℝ → Tensor Q → Except PyErr (Tensor ℝ))
    (hbad : ∀ w q sig g, sig.shape.headD 0 ≠ g.shape.headD 0 → ∀ out, samp w q sig g ≠ .ok out)
    (q : Tensor G) (sig : Tensor ℝ) (gr : Tensor G) (n m L S : ℕ) (wr wf : ℝ) (hs : sig.shape = [n + m, S]) (hL : gr.shape = [L])
    (hm : m ≠ 0) (hne : L ≠ n + m) (out : Tensor ℝ) : cosetSample coef rot samp q sig gr n m wr wf ≠ .ok out := by
  intro h
  unfold cosetSample at h
  dsimp only at h
  rw [if_pos hm] at h
  generalize (whereIdx _ fun i => decide (coef (q.get [i]) = 1)) = r1 at h
  generalize (whereIdx _ fun i => decide (coef (q.get [i]) = -1)) = r2 at h
  generalize (if n ≠ 0 then _ else _ : Except PyErr (Tensor ℝ)) = A at h
  cases A with
  | error e => cases h
  | ok A =>
    rw [ok_bind] at h
    cases e2 : (q.map rot).index0 r2 with
    | error e => rw [e2] at h; cases h
    | ok q2 =>
      rw [e2] at h
      cases e3 : samp wf q2 (sig.drop0 n) ((gr.drop0 n).map rot) with
      | error e =>
        have : ((Except.ok q2 : Except PyErr (Tensor Q)) >>= fun q => samp wf q (sig.drop0 n) ((gr.drop0 n).map rot)) = .error e := by
          rw [ok_bind, e3]
        rw [this] at h
        cases h
      | ok o =>
        refine hbad wf q2 _ _ ?_ o e3
        show (sig.drop0 n).shape.headD 0 ≠ ((gr.drop0 n).map rot).shape.headD 0
        simp [drop0, slice0, hs, hL, Tensor.map]
        omega

theorem SO2.rbf_mismatch (w : ℝ) (q : Tensor ℝ) (sig : Tensor ℝ) (g : Tensor ℝ) (h : sig.shape.headD 0 ≠ g.shape.headD 0) (out) :
    SO2.gridSample q sig g "rbf" w ≠ .ok out := by
  unfold SO2.gridSample Interp.interpolateRBF
  rw [if_pos rfl]
  dsimp only
  rw [if_pos (Or.inl h)]
  exact fun h => by cases h

theorem SO3.rbf_mismatch (w : ℝ) (q : Tensor SO3.Mat3) (sig : Tensor ℝ) (g : Tensor SO3.Mat3) (h : sig.shape.headD 0 ≠ g.shape.headD 0) (out) :
    SO3.gridSample q sig g "rbf" w ≠ .ok out := by
  unfold SO3.gridSample SO3.gridSampleQuat Interp.interpolateRBF
  rw [if_neg (by decide), if_pos rfl]
  dsimp only
  rw [if_pos (Or.inl (show sig.shape.headD 0 ≠ (g.map SO3.matrixToQuat).shape.headD 0 from h))]
  exact fun h => by cases h

/-- a kernel whose group sampler never succeeds cannot be evaluated. -/
theorem forward_fails {G : Type} {d : ℕ} (K : GroupKernel G d) (CO CI : ℕ) (ks : List ℕ) (hpos : 0 < K.groupKernelDim)
    (hbad : ∀ q (sig : Tensor ℝ) S, sig.shape = [K.groupKernelDim, S] → ∀ out, K.sampleH q sig K.gridH ≠ .ok out)
    (weight : Tensor ℝ) (inH outH : Tensor G) (hw : weight.shape = K.groupKernelDim :: CO :: CI :: ks) (out : Tensor ℝ) :
    K.forward weight inH outH ≠ .ok out := by
  intro h
  unfold forward at h
  dsimp only at h
  cases e1 : (K.leftApplyToH (K.inverseH outH) inH).viewInfer [] [] with
  | error e => rw [e1] at h; cases h
  | ok q =>
    rw [e1, ok_bind] at h
    cases e2 : weight.viewInfer [K.groupKernelDim] [] with
    | error e => rw [e2] at h; cases h
    | ok sig =>
      rw [e2, ok_bind] at h
      have hsig : sig.shape = [K.groupKernelDim, (CO :: CI :: ks).prod] := by
        rw [viewInfer_rows weight K.groupKernelDim (CO :: CI :: ks) hw hpos] at e2
        cases e2
        rfl
      cases e3 : K.sampleH q sig K.gridH with
      | error e => rw [e3] at h; cases h
      | ok o => exact hbad q _ _ hsig o e3

/-- E(2): a given grid does not replace `group_kernel_size`.  The kernel has `(n, m)` group elements as given by
`group_kernel_size` whatever grid is passed, and if the grid has not exactly `n + m` elements no evaluation in the default
sampling mode succeeds. -/
theorem C89_violated_E2 (a : KernelArgs O2.Elt SizeArg) (g : Tensor O2.Elt) (L : ℕ) (hg : a.gridH = some g) (hL : g.shape = [L])
    {n m : ℕ} (hs : sizePair a.groupKernelSize = (n, m)) (K : GroupKernel O2.Elt 2) (hK : KernelE2.full a = .ok K) :
    K.groupKernelSize = [n, m] ∧ K.gridH = g ∧
    (a.groupMode = "rbf" → m ≠ 0 → L ≠ n + m → ∀ (weight : Tensor ℝ) (inH outH : Tensor O2.Elt),
      weight.shape = [n + m, a.outC, a.inC / a.groups, a.kernelSize, a.kernelSize] →
      ∀ out, K.forward weight inH outH ≠ .ok out) := by
  have hga : KernelE2.grid a = g := by unfold KernelE2.grid; rw [hg]; rfl
  unfold KernelE2.full at hK
  dsimp only at hK
  rw [hs] at hK
  generalize defaultWidth a.rotWidth _ = r1 at hK
  generalize defaultWidth a.refWidth _ = r2 at hK
  cases r1 with
  | error e => cases hK
  | ok wr =>
    cases r2 with
    | error e => cases hK
    | ok wf =>
      rw [ok_bind, ok_bind] at hK
      unfold checkGroups at hK
      by_cases h0 : a.groups = 0
      · rw [if_pos h0] at hK; cases hK
      · rw [if_neg h0] at hK; cases hK
        refine ⟨by show [_, _] = _; rw [hs], hga, ?_⟩
        intro hmode hm hne weight inH outH hw out
        have hdim : (KernelE2.base a fun q sig g => O2.gridSample q sig g n m a.groupMode wr wf).groupKernelDim = n + m := by
          show [(sizePair a.groupKernelSize).1, (sizePair a.groupKernelSize).2].sum = _
          rw [hs]; simp
        refine forward_fails _ a.outC (a.inC / a.groups) [a.kernelSize, a.kernelSize] (by rw [hdim]; omega) ?_ weight inH outH
          (by rw [hdim]; exact hw) out
        intro q sig S hsig o ho
        rw [hdim] at hsig
        have : cosetSample Prod.fst Prod.snd (fun w g s sg => SO2.gridSample g s sg a.groupMode w) q sig (KernelE2.grid a) n m wr wf = .ok o := ho
        rw [hga, hmode] at this
        exact cosetSample_mismatch _ _ _ (fun w q sig g h => SO2.rbf_mismatch w q sig g h) q sig g n m L S wr wf hsig hL hm hne o this

/-- E(3): the same. -/
theorem C89_violated_E3 (s opt1 opt2) (a : KernelArgs O3.Elt SizeArg) (g : Tensor O3.Elt) (L : ℕ) (hg : a.gridH = some g) (hL : g.shape = [L])
    {n m : ℕ} (hs : sizePair a.groupKernelSize = (n, m)) (K : GroupKernel O3.Elt 3) (hK : KernelE3.full s opt1 opt2 a = .ok K) :
    K.groupKernelSize = [n, m] ∧ K.gridH = g ∧
    (a.groupMode = "rbf" → m ≠ 0 → L ≠ n + m → ∀ (weight : Tensor ℝ) (inH outH : Tensor O3.Elt),
      weight.shape = [n + m, a.outC, a.inC / a.groups, a.kernelSize, a.kernelSize, a.kernelSize] →
      ∀ out, K.forward weight inH outH ≠ .ok out) := by
  have hga : KernelE3.grid s opt1 opt2 a = .ok g := by unfold KernelE3.grid; rw [hg]
  unfold KernelE3.full at hK
  dsimp only at hK
  rw [hs, hga, ok_bind] at hK
  generalize defaultWidth a.rotWidth _ = r1 at hK
  generalize defaultWidth a.refWidth _ = r2 at hK
  cases r1 with
  | error e => cases hK
  | ok wr =>
    cases r2 with
    | error e => cases hK
    | ok wf =>
      rw [ok_bind, ok_bind] at hK
      unfold checkGroups at hK
      by_cases h0 : a.groups = 0
      · rw [if_pos h0] at hK; cases hK
      · rw [if_neg h0] at hK; cases hK
        refine ⟨by show [_, _] = _; rw [hs], rfl, ?_⟩
        intro hmode hm hne weight inH outH hw out
        have hdim : (KernelE3.base a g fun q sig g => O3.gridSample q sig g n m a.groupMode wr wf).groupKernelDim = n + m := by
          show [(sizePair a.groupKernelSize).1, (sizePair a.groupKernelSize).2].sum = _
          rw [hs]; simp
        refine forward_fails _ a.outC (a.inC / a.groups) [a.kernelSize, a.kernelSize, a.kernelSize] (by rw [hdim]; omega) ?_ weight inH outH
          (by rw [hdim]; exact hw) out
        intro q sig S hsig o ho
        rw [hdim] at hsig
        have : cosetSample O3.coef O3.rot (fun w g s sg => SO3.gridSample g s sg a.groupMode w) q sig g n m wr wf = .ok o := ho
        rw [hmode] at this
        exact cosetSample_mismatch _ _ _ (fun w q sig g h => SO3.rbf_mismatch w q sig g h) q sig g n m L S wr wf hsig hL hm hne o this

/-- A case: the default `group_kernel_size=(4, 4)` and a given grid of eight rotations and eight reflections. -/
example : ∃ K, KernelE2.full { inC := 3, outC := 8, kernelSize := 5, groupKernelSize := .pair 4 4, gridH := some (Tensor.ofList (O2.uniformGrid 8 8)) } = .ok K ∧
    ∀ weight inH outH, weight.shape = [8, 8, 3, 5, 5] → ∀ out, K.forward weight inH outH ≠ .ok out := by
  have hl : (O2.uniformGrid 8 8).length = 16 := by simp [O2.uniformGrid, SO2.C03_length]
  set a : KernelArgs O2.Elt SizeArg := { inC := 3, outC := 8, kernelSize := 5, groupKernelSize := .pair 4 4, gridH := some (Tensor.ofList (O2.uniformGrid 8 8)) } with ha
  have hel : (elems (KernelE2.grid a)).length = 16 := by
    rw [elems_length]
    show [(O2.uniformGrid 8 8).length].headD 0 = 16
    rw [hl]; rfl
  have e : ∃ K, KernelE2.full a = .ok K := by
    unfold KernelE2.full
    dsimp only
    rw [show sizePair a.groupKernelSize = (4, 4) from rfl]
    dsimp only
    rw [show defaultWidth a.rotWidth _ = _ from so2_default _ (by
        intro h
        have := congrArg List.length h
        rw [List.length_map, List.length_take, hel] at this
        simp at this), ok_bind,
      show defaultWidth a.refWidth _ = _ from so2_default _ (by
        intro h
        have := congrArg List.length h
        rw [List.length_map, List.length_drop, hel] at this
        simp at this), ok_bind]
    exact ⟨_, if_neg (by norm_num [ha])⟩
  obtain ⟨K, hK⟩ := e
  refine ⟨K, hK, ?_⟩
  obtain ⟨-, -, h⟩ := C89_violated_E2 a (Tensor.ofList (O2.uniformGrid 8 8)) 16 rfl (by show [_] = _; rw [hl]) (n := 4) (m := 4) rfl K hK
  exact fun weight inH outH hw out => h rfl (by norm_num) (by norm_num) weight inH outH (by rw [hw]; simp [ha]) out

end GConv

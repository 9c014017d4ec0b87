import Verif.Spec.Blocks
import Verif.Lemmas.Blocks
import Verif.Props.Separable
import Verif.Props.Batch
import Verif.Props.Usable

/-! # C108: channel groups do not mix -/

namespace GConv.Blocks

open Tensor Spec Batch Conv

variable {G : Type} {d j n : ℕ} {x x' : Tensor ℝ} {bias : Option (Tensor ℝ)} {S : List ℕ} {N : ℕ} (L : Conv.Layer) (K : GroupKernel G d)

/-- lifting layers. -/
theorem C108_lifting (hi : L.groups ∣ L.inC) (ho : L.groups ∣ L.outC) (hb : BiasShape bias L.outC L.nd) (w : Tensor ℝ) (H : Tensor G)
    (hs : x.shape = N :: L.inC :: S) (hS : S.length = L.nd) (h : SameBlock L.inC L.groups j x x') :
    Outcomes2 (SameBlockMaps L.outC L.groups j) (L.liftingForward K w bias x H) (L.liftingForward K w bias x' H) := by
  obtain ⟨N', S', e1, e2, hv⟩ := h
  rw [hs] at e1
  cases e1
  unfold Conv.Layer.liftingForward
  rw [hs, e2]
  refine Outcomes2.same _ fun w => ?_
  unfold Conv.Layer.liftingConv
  refine Outcomes2.same _ fun w => ?_
  refine Outcomes2.bind (convForward (P := fun c => blockOf L.inC L.groups c = j) (P' := fun Cout c => blockOf Cout L.groups c = j) L
    ⟨S, hS, hs, e2, fun b c q hb hc hP hq => hv b c q hb hc hq hP⟩ rfl fun Cout Cg K _ hC hg hd co hco hp => block_read hC hg co hco hp) ?_
  rintro y y' ⟨Cout, -, hd, hg, hy⟩
  exact finish H hg ho hd hb hy

/-- layers on group feature maps, after the kernels have been sampled. -/
theorem groupConv (hi : L.groups ∣ L.inC) (ho : L.groups ∣ L.outC) (hb : BiasShape bias L.outC L.nd) (w : Tensor ℝ) {inH : Tensor G} (outH : Tensor G)
    (hH : inH.shape = [n]) (hs : x.shape = N :: L.inC :: n :: S) (hS : S.length = L.nd) (h : SameBlock L.inC L.groups j x x') :
    Outcomes2 (SameBlockMaps L.outC L.groups j) (L.groupConv w bias N S x inH outH) (L.groupConv w bias N S x' inH outH) := by
  unfold Conv.Layer.groupConv
  rw [hH]
  refine Outcomes2.bind (merge hi hs h) fun y y' hy => ?_
  refine Outcomes2.same _ fun w => ?_
  rw [hS] at hy
  refine Outcomes2.bind (convForward (P' := fun Cout c => blockOf Cout L.groups c = j) L hy rfl
    fun Cout Cg K _ hC hg hd co hco hp => block_read hC hg co hco hp) ?_
  rintro y y' ⟨Cout, -, hd, hg, hy⟩
  exact finish outH hg ho hd hb hy

/-- group layers. -/
theorem C108_group (hi : L.groups ∣ L.inC) (ho : L.groups ∣ L.outC) (hb : BiasShape bias L.outC L.nd) (w : Tensor ℝ) {inH : Tensor G} (outH : Tensor G)
    (hH : inH.shape = [n]) (hs : x.shape = N :: L.inC :: n :: S) (hS : S.length = L.nd) (h : SameBlock L.inC L.groups j x x') :
    Outcomes2 (SameBlockMaps L.outC L.groups j) (L.groupForward K w bias x inH outH) (L.groupForward K w bias x' inH outH) := by
  have e2 : x'.shape = N :: L.inC :: n :: S := by
    obtain ⟨N', S', e1, e2, -⟩ := h
    rw [hs] at e1
    cases e1
    exact e2
  unfold Conv.Layer.groupForward
  rw [hs, e2]
  exact Outcomes2.same _ fun w => groupConv L hi ho hb w outH hH hs hS h

/-- layers that convolve over the group only. -/
theorem C108_subgroup (hi : L.groups ∣ L.inC) (ho : L.groups ∣ L.outC) (hb : BiasShape bias L.outC L.nd) (w : Tensor ℝ) {inH : Tensor G} (outH : Tensor G)
    (hH : inH.shape = [n]) (hs : x.shape = N :: L.inC :: n :: S) (hS : S.length = L.nd) (h : SameBlock L.inC L.groups j x x') :
    Outcomes2 (SameBlockMaps L.outC L.groups j) (L.subgroupForward K w bias x inH outH) (L.subgroupForward K w bias x' inH outH) := by
  have e2 : x'.shape = N :: L.inC :: n :: S := by
    obtain ⟨N', S', e1, e2, -⟩ := h
    rw [hs] at e1
    cases e1
    exact e2
  unfold Conv.Layer.subgroupForward
  rw [hs, e2]
  exact Outcomes2.same _ fun w => groupConv L hi ho hb w outH hH hs hS h

/-- separable layers: the second convolution treats every channel and group element separately. -/
theorem C108_separable (hi : L.groups ∣ L.inC) (ho : L.groups ∣ L.outC) (hb : BiasShape bias L.outC L.nd) (wH w : Tensor ℝ) {inH : Tensor G}
    (outH : Tensor G) (hH : inH.shape = [n]) (hs : x.shape = N :: L.inC :: n :: S) (hS : S.length = L.nd) (h : SameBlock L.inC L.groups j x x') :
    Outcomes2 (SameBlockMaps L.outC L.groups j) (L.separableForward K wH w bias x inH outH) (L.separableForward K wH w bias x' inH outH) := by
  have e2 : x'.shape = N :: L.inC :: n :: S := by
    obtain ⟨N', S', e1, e2, -⟩ := h
    rw [hs] at e1
    cases e1
    exact e2
  unfold Conv.Layer.separableForward
  rw [hs, e2]
  refine Outcomes2.same _ fun ww => ?_
  unfold Conv.Layer.separableConv
  rw [hH]
  refine Outcomes2.bind (merge hi hs h) fun y y' hy => ?_
  rw [hS] at hy
  cases hv : ww.1.view (L.outC * outH.shape.headD 0 :: (L.inC / L.groups) * [n].headD 0 :: ww.1.shape.drop 4) with
  | error e => exact .error e
  | ok wH' =>
    have hw : wH'.shape = L.outC * outH.shape.headD 0 :: (L.inC / L.groups) * [n].headD 0 :: ww.1.shape.drop 4 := by
      unfold Tensor.view at hv
      split at hv
      · cases hv; rfl
      · cases hv
    rw [ok_bind, ok_bind]
    refine Outcomes2.bind (convForward (P' := fun Cout c => blockOf Cout L.groups c = j) L hy rfl
      fun Cout Cg K _ hC hg hd co hco hp => block_read hC hg co hco hp) ?_
    rintro y y' ⟨Cout, hC0, hd, hg, hy⟩
    rw [hw] at hC0
    cases hC0
    cases hv2 : ww.2.view (L.outC * outH.shape.headD 0 :: 1 :: L.kernelSize) with
    | error e => exact .error e
    | ok w' =>
      have hw2 : w'.shape = L.outC * outH.shape.headD 0 :: 1 :: L.kernelSize := by
        unfold Tensor.view at hv2
        split at hv2
        · cases hv2; rfl
        · cases hv2
      rw [ok_bind, ok_bind]
      refine Outcomes2.bind (convForward (P' := fun Cout c => blockOf Cout L.groups c = j) L hy rfl
        fun Cout Cg K hsh hC hg hd co hco hp => ?_) ?_
      · rw [hw2] at hsh
        cases hsh
        intro ci hci
        rw [Nat.div_self hg, Nat.div_one, show ci = 0 by omega, Nat.mul_one, Nat.add_zero]
        exact hp
      · rintro y y' ⟨Cout, hC1, -, -, hy⟩
        rw [hw2] at hC1
        cases hC1
        exact finish outH hg ho hd hb hy

/-! ## the premade layers -/

/-- what the constructors say about the channels of a layer. -/
def Divided (nd inC outC groups : ℕ) (M : Module G d) : Prop :=
  M.layer.nd = nd ∧ M.layer.inC = inC ∧ M.layer.outC = outC ∧ M.layer.groups = groups ∧ groups ∣ inC ∧ groups ∣ outC

theorem divided {kernel : Except PyErr (GroupKernel G d)} {a : Args} {st dil : List ℕ} {p : Bool} {M : Module G d} (h : build kernel a p = .ok M)
    (hst : a.stride = .tuple st) (hdil : a.dilation = .tuple dil) {g nd : ℕ} (hg : a.groups = g) (hnd : M.layer.nd = nd) :
    Divided nd a.inC a.outC g M := by
  obtain ⟨K, -, hL, -, -⟩ := build_ok h
  obtain ⟨h1, h2, h3, -, -, -, -, h4, h5, -⟩ := C58_layer a st dil _ hst hdil _ hL
  have h6 : M.layer.groups = g := by
    rw [hg] at h3
    exact_mod_cast h3
  rw [h6, h1] at h4
  rw [h6, h2] at h5
  exact ⟨hnd, h1, h2, h6, h4, h5⟩

/-- all premade layers divide their channels as asked for. -/
theorem C108_modules (c : ConvOpts) (s : GridCache.Store (Tensor ℝ)) (opt opt' : List SO3.Euler) :
    (∀ k M, liftingSE2 k c = .ok M ∨ fullSE2 k c = .ok M → Divided 2 k.inC k.outC k.groups M) ∧
    (∀ k M, liftingSE3 s opt k c = .ok M ∨ fullSE3 s opt k c = .ok M → Divided 3 k.inC k.outC k.groups M) ∧
    (∀ k M, liftingE2 k c = .ok M ∨ fullE2 k c = .ok M → Divided 2 k.inC k.outC k.groups M) ∧
    (∀ k M, liftingE3 s opt opt' k c = .ok M ∨ fullE3 s opt opt' k c = .ok M → Divided 3 k.inC k.outC k.groups M) := by
  obtain ⟨h1, h2, h3, h4⟩ := C81_modules c s opt opt'
  refine ⟨fun k M h => ?_, fun k M h => ?_, fun k M h => ?_, fun k M h => ?_⟩
  · have := h1 k M h
    rcases h with h | h <;> exact divided h rfl rfl rfl this
  · have := h2 k M h
    rcases h with h | h <;> exact divided h rfl rfl rfl this
  · have := h3 k M h
    rcases h with h | h <;> exact divided h rfl rfl rfl this
  · have := h4 k M h
    rcases h with h | h <;> exact divided h rfl rfl rfl this

section forward
variable {nd inC outC g : ℕ} {M : Module G d} (hM : Divided nd inC outC g M) (move : G → G) (hb : BiasShape bias outC nd) (hS : S.length = nd)
include hM hb hS

/-- lifting layers. -/
theorem C108_forward_lifting (w : Tensor ℝ) (H : Option (Tensor G)) (hs : x.shape = N :: inC :: S) (h : SameBlock inC g j x x') :
    Outcomes2 (SameBlockMaps outC g j) (M.lift move w bias x H) (M.lift move w bias x' H) := by
  obtain ⟨rfl, rfl, rfl, rfl, hi, ho⟩ := hM
  exact C108_lifting M.layer M.kernel hi ho hb w _ hs hS h

variable (hs : x.shape = N :: inC :: n :: S) {inH : Tensor G} (hH : inH.shape = [n]) (h : SameBlock inC g j x x') (outH : Option (Tensor G))
include hs hH h

/-- `GConvSE2`, `GConvSE3`. -/
theorem C108_forward_groupSE (w : Tensor ℝ) :
    Outcomes2 (SameBlockMaps outC g j) (M.groupSE move w bias x inH outH) (M.groupSE move w bias x' inH outH) := by
  obtain ⟨rfl, rfl, rfl, rfl, hi, ho⟩ := hM
  exact C108_group M.layer M.kernel hi ho hb w _ hH hs hS h

/-- `GConvE2`, `GConvE3`. -/
theorem C108_forward_groupE (w : Tensor ℝ) :
    Outcomes2 (SameBlockMaps outC g j) (M.groupE move w bias x inH outH) (M.groupE move w bias x' inH outH) := by
  obtain ⟨rfl, rfl, rfl, rfl, hi, ho⟩ := hM
  exact C108_group M.layer M.kernel hi ho hb w _ hH hs hS h

/-- `GSeparableConvSE2`, `GSeparableConvSE3`. -/
theorem C108_forward_separableSE (wH w : Tensor ℝ) :
    Outcomes2 (SameBlockMaps outC g j) (M.separableSE move wH w bias x inH outH) (M.separableSE move wH w bias x' inH outH) := by
  obtain ⟨rfl, rfl, rfl, rfl, hi, ho⟩ := hM
  exact C108_separable M.layer M.kernel hi ho hb wH w _ hH hs hS h

/-- `GSeparableConvE2`, `GSeparableConvE3`. -/
theorem C108_forward_separableE (wH w : Tensor ℝ) :
    Outcomes2 (SameBlockMaps outC g j) (M.separableE move wH w bias x inH outH) (M.separableE move wH w bias x' inH outH) := by
  obtain ⟨rfl, rfl, rfl, rfl, hi, ho⟩ := hM
  exact C108_separable M.layer M.kernel hi ho hb wH w _ hH hs hS h

end forward

/-! ## a case that succeeds -/

/-- `GConvSE2(4, 6, 3, 8, groups=2, padding="same")`: the second half of the input channels is changed everywhere, the first three output
channels stay the same. -/
example (weight input other inH : Tensor ℝ) (u : ℝ) (hw : weight.shape = [8, 6, 2, 3, 3]) (hx : input.shape = [3, 4, 8, 28, 28]) (hin : inH.shape = [8]) :
    ∃ M, fullSE2 { inC := 4, outC := 6, kernelSize := 3, groupKernelSize := 8, groups := 2 } testOpts = .ok M ∧
      ∃ r r', M.groupSE (moveSE2 u) weight none input inH none = .ok r ∧
        M.groupSE (moveSE2 u) weight none ⟨input.shape, fun i => if i.getD 1 0 < 2 then input.get i else other.get i⟩ inH none = .ok r' ∧
        r.1.shape = [3, 6, 8, 28, 28] ∧ ∀ b c i p q, b < 3 → c < 3 → i < 8 → p < 28 → q < 28 → r.1.get [b, c, i, p, q] = r'.1.get [b, c, i, p, q] := by
  obtain ⟨f2, o2, -⟩ := fits_tests (nd := 2) 4 6 (by norm_num) (by norm_num)
  have f2 : Fits 2 4 6 2 3 testOpts .zeros (List.replicate 2 ⟨3, 1, 1, 1, 1⟩) (List.replicate 2 28) :=
    ⟨f2.input, f2.output, ⟨by norm_num, by norm_num, by norm_num⟩, f2.geometry, f2.unit, f2.extents⟩
  obtain ⟨M, hM, h⟩ := C107_group_SE2 { inC := 4, outC := 6, kernelSize := 3, groupKernelSize := 8, groups := 2 } testOpts defaultModes rfl
    (Or.inl rfl) rfl (by norm_num) (by norm_num) f2
  refine ⟨M, hM, ?_⟩
  obtain ⟨out, Hc, e1, e2, -⟩ := h weight none 3 8 8 input inH none u hw (fun b h => by cases h) hx hin hin
  have hD := (C108_modules testOpts SO3.initialStore [] []).1 _ _ (Or.inr hM)
  have hD : Divided 2 4 6 2 M := hD
  have hB := C108_forward_groupSE (bias := none) (j := 0) (x' := ⟨input.shape, fun i => if i.getD 1 0 < 2 then input.get i else other.get i⟩) hD
    (moveSE2 u) (fun b h => by cases h) (S := [28, 28]) rfl hx hin
    ⟨3, [8, 28, 28], hx, hx, fun b c q _ hc _ hj => by
      have : c < 2 := by
        unfold blockOf at hj
        omega
      show _ = if c < 2 then _ else _
      rw [if_pos this]⟩ none weight
  rw [e1] at hB
  generalize hr : M.groupSE (moveSE2 u) weight none (⟨input.shape, fun i => if i.getD 1 0 < 2 then input.get i else other.get i⟩ : Tensor ℝ) inH none = r' at hB
  cases hB with
  | @ok _ r' hB =>
    obtain ⟨⟨N, S, s1, s2, hv⟩, -⟩ := hB
    have e2 : out.shape = [3, 6, 8, 28, 28] := by rw [e2, o2]; rfl
    refine ⟨_, r', e1, rfl, e2, fun b c i p q hb hc hi hp hq => ?_⟩
    dsimp only at s1 hv
    rw [e2] at s1
    cases s1
    refine hv _ _ _ hb (by omega) (InB_cons.2 ⟨hi, InB_cons.2 ⟨hp, InB_cons.2 ⟨hq, .nil⟩⟩⟩) ?_
    unfold blockOf
    omega

end GConv.Blocks

import Verif.Props.KernelInstances
import Verif.Model.GConv

/-! # Results depend on the group elements, not on the angles that represent them (C90) -/

namespace GConv

open Tensor Spec GroupKernel

/-- grids of angles that agree up to full turns. -/
def SameAngles (H H' : Tensor ℝ) : Prop := H.shape = H'.shape ∧ ∀ idx, EqMod (2 * Real.pi) (H.get idx) (H'.get idx)

/-- grids of O(2) elements with the same coefficients and angles that agree up to full turns. -/
def SameO2 (H H' : Tensor O2.Elt) : Prop :=
  H.shape = H'.shape ∧ ∀ idx, (H.get idx).1 = (H'.get idx).1 ∧ EqMod (2 * Real.pi) (H.get idx).2 (H'.get idx).2

section
variable {G : Type} {d : ℕ}

/-- everything the kernels compute from the grids is the same. -/
structure SameProducts (K : GroupKernel G d) (inH outH inH' outH' : Tensor G) : Prop where
  shapeIn : inH.shape = inH'.shape
  shapeOut : outH.shape = outH'.shape
  relative : K.leftApplyToH (K.inverseH outH) inH = K.leftApplyToH (K.inverseH outH') inH'
  moved : K.leftApplyToRn (K.inverseH outH) K.gridRn = K.leftApplyToRn (K.inverseH outH') K.gridRn
  det : ∀ f, K.detH = some f → f outH = f outH'

variable {K : GroupKernel G d} {inH outH inH' outH' : Tensor G}

theorem SameProducts.divDet (h : SameProducts K inH outH inH' outH') (w : Tensor ℝ) (nd : ℕ) : K.divDet w outH nd = K.divDet w outH' nd := by
  unfold GroupKernel.divDet
  cases e : K.detH with
  | none => rfl
  | some f =>
    dsimp only
    rw [h.det f e]

theorem SameProducts.full (h : SameProducts K inH outH inH' outH') (weight : Tensor ℝ) :
    K.forward weight inH outH = K.forward weight inH' outH' := by
  unfold forward
  dsimp only
  rw [h.shapeIn, h.shapeOut, h.relative, h.moved]
  simp only [h.divDet]

theorem SameProducts.subgroup (h : SameProducts K inH outH inH' outH') (weight : Tensor ℝ) (dims : List ℕ) :
    K.subgroupWeights weight inH outH dims = K.subgroupWeights weight inH' outH' dims := by
  unfold subgroupWeights
  dsimp only
  rw [h.shapeIn, h.shapeOut, h.relative]

theorem SameProducts.separable (h : SameProducts K inH outH inH' outH') (weightH weight : Tensor ℝ) :
    K.separableForward weightH weight inH outH = K.separableForward weightH weight inH' outH' := by
  unfold separableForward
  dsimp only
  rw [h.shapeOut, h.moved]
  simp only [h.divDet, h.subgroup]

theorem SameProducts.lifting (h : SameProducts K inH outH inH' outH') (weight : Tensor ℝ) :
    K.liftingForward weight outH = K.liftingForward weight outH' := by
  unfold liftingForward
  dsimp only
  rw [h.shapeOut, h.moved]
  simp only [h.divDet]

/-- what a user sees: kernels and layers return the same tensors (or raise the same errors). -/
structure SameResults (K : GroupKernel G d) (inH outH inH' outH' : Tensor G) : Prop where
  kernel : ∀ weight, K.forward weight inH outH = K.forward weight inH' outH'
  separableKernel : ∀ weightH weight, K.separableForward weightH weight inH outH = K.separableForward weightH weight inH' outH'
  liftingKernel : ∀ weight, K.liftingForward weight outH = K.liftingForward weight outH'
  conv : ∀ (L : Conv.Layer) weight bias input,
    (L.groupForward K weight bias input inH outH).map Prod.fst = (L.groupForward K weight bias input inH' outH').map Prod.fst
  separableConv : ∀ (L : Conv.Layer) weightH weight bias input,
    (L.separableForward K weightH weight bias input inH outH).map Prod.fst =
      (L.separableForward K weightH weight bias input inH' outH').map Prod.fst
  liftingConv : ∀ (L : Conv.Layer) weight bias input,
    (L.liftingForward K weight bias input outH).map Prod.fst = (L.liftingForward K weight bias input outH').map Prod.fst

theorem map_bind_fst {α β : Type} (x : Except PyErr α) (f g : α → Except PyErr (β × Tensor G))
    (h : ∀ a, (f a).map Prod.fst = (g a).map Prod.fst) : (x >>= f).map Prod.fst = (x >>= g).map Prod.fst := by
  cases x with
  | error e => rfl
  | ok a => exact h a

theorem SameProducts.results (h : SameProducts K inH outH inH' outH') : SameResults K inH outH inH' outH' where
  kernel := h.full
  separableKernel := h.separable
  liftingKernel := h.lifting
  conv L weight bias input := by
    unfold Conv.Layer.groupForward
    generalize input.shape = s
    rcases s with - | ⟨N, - | ⟨c, - | ⟨g, ds⟩⟩⟩
    · rfl
    · rfl
    · rfl
    dsimp only
    rw [h.full]
    apply map_bind_fst
    intro w
    unfold Conv.Layer.groupConv
    dsimp only
    rw [h.shapeIn, h.shapeOut]
    iterate 5
      apply map_bind_fst
      intro _
    rfl
  separableConv L weightH weight bias input := by
    unfold Conv.Layer.separableForward
    generalize input.shape = s
    rcases s with - | ⟨N, - | ⟨c, - | ⟨g, ds⟩⟩⟩
    · rfl
    · rfl
    · rfl
    dsimp only
    rw [h.separable]
    apply map_bind_fst
    intro w
    unfold Conv.Layer.separableConv
    dsimp only
    rw [h.shapeIn, h.shapeOut]
    iterate 7
      apply map_bind_fst
      intro _
    rfl
  liftingConv L weight bias input := by
    unfold Conv.Layer.liftingForward
    generalize input.shape = s
    rcases s with - | ⟨N, ds⟩
    · rfl
    dsimp only
    rw [h.lifting]
    apply map_bind_fst
    intro w
    unfold Conv.Layer.liftingConv
    rw [h.shapeOut]
    iterate 4
      apply map_bind_fst
      intro _
    rfl

end

theorem angleToMatrix_eqMod {a b : ℝ} (h : EqMod (2 * Real.pi) a b) : SO2.angleToMatrix a = SO2.angleToMatrix b := by
  unfold SO2.angleToMatrix
  rw [cos_of_eqMod h, sin_of_eqMod h]

theorem eqMod_neg {m a b : ℝ} (h : EqMod m a b) : EqMod m (-a) (-b) := by
  obtain ⟨k, hk⟩ := h
  exact ⟨-k, by rw [hk]; push_cast; ring⟩

theorem eqMod_add {m a b c e : ℝ} (h : EqMod m a b) (h' : EqMod m c e) : EqMod m (a + c) (b + e) := by
  obtain ⟨k, hk⟩ := h
  obtain ⟨l, hl⟩ := h'
  exact ⟨k + l, by rw [hk, hl]; push_cast; ring⟩

theorem pairwise_ext {α β γ : Type} {f : α → β → γ} {A A' : Tensor α} {B B' : Tensor β} (hA : A.shape = A'.shape) (hB : B.shape = B'.shape)
    (h : ∀ i j, f (A.get i) (B.get j) = f (A'.get i) (B'.get j)) : pairwise f A B = pairwise f A' B' := by
  unfold pairwise
  rw [hA, hB]
  congr 1
  funext idx
  cases idx with
  | nil => exact h _ _
  | cons n r => exact h _ _

theorem SE2_products (a : KernelArgs ℝ ℕ) (s) {inH outH inH' outH' : Tensor ℝ} (hin : SameAngles inH inH') (hout : SameAngles outH outH') :
    SameProducts (KernelSE2.base a s) inH outH inH' outH' where
  shapeIn := hin.1
  shapeOut := hout.1
  relative := by
    show pairwise (fun a b => pyMod (a + b) (2 * Real.pi)) (outH.map SO2.inverseAngle) inH =
      pairwise (fun a b => pyMod (a + b) (2 * Real.pi)) (outH'.map SO2.inverseAngle) inH'
    refine pairwise_ext hout.1 hin.1 fun i j => ?_
    show pyMod (-outH.get i + inH.get j) _ = pyMod (-outH'.get i + inH'.get j) _
    rw [pyMod_eq_iff (by positivity)]
    exact eqMod_add (eqMod_neg (hout.2 i)) (hin.2 j)
  moved := by
    show pairwise _ _ _ = pairwise _ _ _
    refine pairwise_ext hout.1 rfl fun i j => ?_
    show (SO2.angleToMatrix (-outH.get i)).mulVec _ = (SO2.angleToMatrix (-outH'.get i)).mulVec _
    rw [angleToMatrix_eqMod (eqMod_neg (hout.2 i))]
  det := fun f h => by cases h

/-- SE(2): all kernels and layers return the same tensors for angles that differ by full turns. -/
theorem C90_SE2_partial (a : KernelArgs ℝ ℕ) (K : GroupKernel ℝ 2) (hK : KernelSE2.full a = .ok K ∨ KernelSE2.lifting a = .ok K)
    (inH outH inH' outH' : Tensor ℝ) (hin : SameAngles inH inH') (hout : SameAngles outH outH') : SameResults K inH outH inH' outH' := by
  rcases hK with h | h
  · obtain ⟨s, rfl⟩ := KernelSE2.full_base h
    exact (SE2_products a s hin hout).results
  · unfold KernelSE2.lifting checkGroups at h
    by_cases h0 : a.groups = 0
    · rw [if_pos h0] at h; cases h
    · rw [if_neg h0] at h; cases h
      exact (SE2_products a _ hin hout).results

theorem E2_products (a : KernelArgs O2.Elt SizeArg) (s) {inH outH inH' outH' : Tensor O2.Elt} (hin : SameO2 inH inH') (hout : SameO2 outH outH') :
    SameProducts (KernelE2.base a s) inH outH inH' outH' where
  shapeIn := hin.1
  shapeOut := hout.1
  relative := by
    show pairwise (fun a b : O2.Elt => (a.1 * b.1, pyMod (a.2 + b.2) (2 * Real.pi))) (outH.map O2.inverse) inH =
      pairwise (fun a b : O2.Elt => (a.1 * b.1, pyMod (a.2 + b.2) (2 * Real.pi))) (outH'.map O2.inverse) inH'
    refine pairwise_ext hout.1 hin.1 fun i j => ?_
    show ((outH.get i).1 * (inH.get j).1, pyMod ((outH.get i).2 * (-1) + (inH.get j).2) _) =
      ((outH'.get i).1 * (inH'.get j).1, pyMod ((outH'.get i).2 * (-1) + (inH'.get j).2) _)
    rw [(hout.2 i).1, (hin.2 j).1, Prod.mk.injEq, mul_neg_one, mul_neg_one, pyMod_eq_iff (by positivity)]
    exact ⟨rfl, eqMod_add (eqMod_neg (hout.2 i).2) (hin.2 j).2⟩
  moved := by
    have e := (KernelE2.lawful a s).leftApplyToRn
    rw [e, e]
    refine pairwise_ext hout.1 rfl fun i j => ?_
    show (outH.get i).1 • (SO2.angleToMatrix ((outH.get i).2 * (-1))).mulVec _ = (outH'.get i).1 • (SO2.angleToMatrix ((outH'.get i).2 * (-1))).mulVec _
    rw [mul_neg_one, mul_neg_one, (hout.2 i).1, angleToMatrix_eqMod (eqMod_neg (hout.2 i).2)]
  det := by
    intro f h
    cases h
    show (⟨outH.shape, fun idx => (outH.get idx).1⟩ : Tensor ℝ) = ⟨outH'.shape, fun idx => (outH'.get idx).1⟩
    rw [hout.1]
    congr 1
    funext idx
    exact (hout.2 idx).1

/-- E(2): the same for angles that differ by full turns, with equal coefficients. -/
theorem C90_E2_partial (a : KernelArgs O2.Elt SizeArg) (K : GroupKernel O2.Elt 2) (hK : KernelE2.full a = .ok K ∨ KernelE2.lifting a = .ok K)
    (inH outH inH' outH' : Tensor O2.Elt) (hin : SameO2 inH inH') (hout : SameO2 outH outH') : SameResults K inH outH inH' outH' := by
  rcases hK with h | h
  · obtain ⟨s, rfl⟩ := KernelE2.full_base h
    exact (E2_products a s hin hout).results
  · unfold KernelE2.lifting checkGroups at h
    by_cases h0 : a.groups = 0
    · rw [if_pos h0] at h; cases h
    · rw [if_neg h0] at h; cases h
      exact (E2_products a _ hin hout).results

/-- E(2): `(-1, t)` and `(1, t + π)` are the same transformation of the plane, but their slices of the lifting kernel are
negatives of each other. -/
theorem C90_violated_E2 (a : KernelArgs O2.Elt SizeArg) (hg : 0 < a.groups) (hk : 0 < a.kernelSize) {m p}
    (hm : SpatialModes a.spatialMode a.spatialPad m p) (weight : Tensor ℝ) (t : ℝ)
    (hw : weight.shape = [a.outC, a.inC / a.groups, a.kernelSize, a.kernelSize]) :
    (∀ v : Tensor (Fin 2 → ℝ), (O2.leftApplyToR2 ⟨[1], fun _ => (-1, t)⟩ v).get = (O2.leftApplyToR2 ⟨[1], fun _ => (1, t + Real.pi)⟩ v).get) ∧
    ∃ K out out', KernelE2.lifting a = .ok K ∧ K.liftingForward weight ⟨[1], fun _ => (-1, t)⟩ = .ok out ∧
      K.liftingForward weight ⟨[1], fun _ => (1, t + Real.pi)⟩ = .ok out' ∧
      ∀ co ci x y, co < a.outC → ci < a.inC / a.groups → x < a.kernelSize → y < a.kernelSize →
        out.get [co, 0, ci, x, y] = - out'.get [co, 0, ci, x, y] := by
  have hneg : ∀ u : ℝ, SO2.angleToMatrix (u + Real.pi) = - SO2.angleToMatrix u := by
    intro u
    unfold SO2.angleToMatrix
    rw [Real.cos_add_pi, Real.sin_add_pi]
    ext i j; fin_cases i <;> fin_cases j <;> simp
  have hneg' : ∀ u : ℝ, SO2.angleToMatrix (-(u + Real.pi)) = - SO2.angleToMatrix (-u) := by
    intro u
    rw [show -(u + Real.pi) = (-u + Real.pi) - 2 * Real.pi by ring, ← hneg]
    exact angleToMatrix_eqMod ⟨-1, by push_cast; ring⟩
  constructor
  · intro v
    funext idx
    cases idx with
    | nil =>
      show (-1 : ℝ) • (SO2.angleToMatrix t).mulVec _ = (1 : ℝ) • (SO2.angleToMatrix (t + Real.pi)).mulVec _
      rw [hneg, Matrix.neg_mulVec, neg_smul, one_smul, one_smul]
    | cons n r =>
      show (-1 : ℝ) • (SO2.angleToMatrix t).mulVec _ = (1 : ℝ) • (SO2.angleToMatrix (t + Real.pi)).mulVec _
      rw [hneg, Matrix.neg_mulVec, neg_smul, one_smul, one_smul]
  · obtain ⟨K, out, e, e1, -, g⟩ := KernelE2.C50_E2 a hg hk hm weight ⟨[1], fun _ => (-1, t)⟩ 1 hw rfl
    obtain ⟨K', out', e', e1', -, g'⟩ := KernelE2.C50_E2 a hg hk hm weight ⟨[1], fun _ => (1, t + Real.pi)⟩ 1 hw rfl
    rw [e] at e'
    cases e'
    refine ⟨K, out, out', e, e1, e1', fun co ci x y h1 h2 h3 h4 => ?_⟩
    rw [g co 0 ci x y h1 (by norm_num) h2 h3 h4, g' co 0 ci x y h1 (by norm_num) h2 h3 h4]
    dsimp only
    rw [hneg', Matrix.neg_mulVec, neg_smul, one_smul, one_smul, div_one, div_neg, div_one]

/-- A case: the four angles of the default SE(2) grid, each moved by a different number of turns. -/
example (a : KernelArgs ℝ ℕ) (K : GroupKernel ℝ 2) (hK : KernelSE2.full a = .ok K) (weight : Tensor ℝ) :
    K.forward weight (Tensor.ofList (SO2.uniformGrid 4)) (Tensor.ofList (SO2.uniformGrid 4)) =
      K.forward weight (Tensor.ofList (SO2.uniformGrid 4))
        ⟨[(SO2.uniformGrid 4).length], fun idx => (Tensor.ofList (SO2.uniformGrid 4)).get idx + (idx.headD 0 : ℤ) * (2 * Real.pi)⟩ :=
  (C90_SE2_partial a K (Or.inl hK) (Tensor.ofList (SO2.uniformGrid 4)) (Tensor.ofList (SO2.uniformGrid 4)) (Tensor.ofList (SO2.uniformGrid 4))
    ⟨[(SO2.uniformGrid 4).length], fun idx => (Tensor.ofList (SO2.uniformGrid 4)).get idx + (idx.headD 0 : ℤ) * (2 * Real.pi)⟩
    ⟨rfl, fun _ => ⟨0, by simp⟩⟩ ⟨rfl, fun idx => ⟨-(idx.headD 0 : ℤ), by push_cast; ring⟩⟩).kernel weight

end GConv

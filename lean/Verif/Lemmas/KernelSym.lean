import Verif.Props.Kernel
import Verif.Props.Functional
import Verif.Props.O2
import Verif.Props.O3
import Verif.Lemmas.Sampling
import Verif.Lemmas.Lattice

/-! # Kernels of the premade classes: callables act element by element, and behave well under
left multiplication by a group element -/

namespace GConv.GroupKernel

open Tensor Spec

variable {G : Type} {d : ℕ}

/-- Left multiplication by `g` cancels in `(g a)⁻¹ (g b)` and in `(g h)⁻¹ (g v)`; the determinant is
multiplicative. -/
structure Cancels (inv : G → G) (mul : G → G → G) (act : G → (Fin d → ℝ) → (Fin d → ℝ))
    (det : Option (G → ℝ)) (g : G) : Prop where
  group : ∀ a b, mul (inv (mul g a)) (mul g b) = mul (inv a) b
  space : ∀ h v, act (inv (mul g h)) (act g v) = act (inv h) v
  det : ∀ h, detAt det (mul g h) = detAt det g * detAt det h

/-- `σ` moves the spatial grid and fixes the mask of `K`; `g` acts on vectors as `σ`. -/
structure MovesGrid (K : GroupKernel G d) (act : G → (Fin d → ℝ) → (Fin d → ℝ))
    (ax : Equiv.Perm (Fin d)) (σ : LatticeSym d) (g : G) : Prop where
  cube : ∃ s, K.kernelSize = List.replicate d s
  grid : ∀ x, InB K.kernelSize x →
    K.gridRn.get (LatticeSym.move ax σ K.kernelSize x) = act g (K.gridRn.get x)
  mask : ∀ x, InB K.kernelSize x →
    maskAt K.mask (LatticeSym.move ax σ K.kernelSize x) = maskAt K.mask x

theorem MovesGrid.inB {K : GroupKernel G d} {act ax σ g} (h : MovesGrid K act ax σ g) {x : List ℕ}
    (hx : InB K.kernelSize x) : InB K.kernelSize (LatticeSym.move ax σ K.kernelSize x) := by
  obtain ⟨s, hs⟩ := h.cube
  rw [hs] at hx ⊢
  exact LatticeSym.move_InB (LatticeSym.matches_cube s) hx

theorem pairwise_cancel {inv : G → G} {mul : G → G → G} {g : G}
    (h : ∀ a b, mul (inv (mul g a)) (mul g b) = mul (inv a) b) (A B : Tensor G) :
    pairwise mul ((A.map (mul g)).map inv) (B.map (mul g)) = pairwise mul (A.map inv) B := by
  unfold pairwise Tensor.map
  dsimp only
  congr 1
  funext idx
  cases idx with
  | nil => exact h _ _
  | cons n r => exact h _ _

/-- the sampled group weights depend on relative elements only. -/
theorem subgroupWeights_cancel {K : GroupKernel G d} {inv mul act det} (hK : Lawful K inv mul act det)
    {g : G} (hc : Cancels inv mul act det g) (w : Tensor ℝ) (inH outH : Tensor G) (dims : List ℕ) :
    K.subgroupWeights w (inH.map (mul g)) (outH.map (mul g)) dims = K.subgroupWeights w inH outH dims := by
  unfold subgroupWeights
  dsimp only
  rw [hK.inverseH, hK.inverseH, hK.leftApplyToH, hK.leftApplyToH, pairwise_cancel hc.group]
  rfl

theorem lifting_move {K : GroupKernel G d} {inv mul act det core ax σ g} (hK : Lawful K inv mul act det)
    (hs : PointwiseSampler K.sampleRn K.kernelSize core) (hc : Cancels inv mul act det g)
    (hm : MovesGrid K act ax σ g)
    (weight : Tensor ℝ) (H : Tensor G) (n : ℕ)
    (hw : weight.shape = [K.outC, K.inC / K.groups] ++ K.kernelSize) (hH : H.shape = [n]) :
    ∃ out out', K.liftingForward weight H = .ok out ∧ K.liftingForward weight (H.map (mul g)) = .ok out' ∧
      out.shape = [K.outC, n, K.inC / K.groups] ++ K.kernelSize ∧ out'.shape = out.shape ∧
      ∀ co h ci x, co < K.outC → h < n → ci < K.inC / K.groups → InB K.kernelSize x →
        out'.get (co :: h :: ci :: LatticeSym.move ax σ K.kernelSize x) =
          out.get (co :: h :: ci :: x) / detAt det g := by
  obtain ⟨out, e1, s1, g1⟩ := C50_lifting hK hs weight H n hw hH
  obtain ⟨out', e2, s2, g2⟩ := C50_lifting hK hs weight (H.map (mul g)) n hw hH
  refine ⟨out, out', e1, e2, s1, s2.trans s1.symm, ?_⟩
  intro co h ci x hco hh hci hx
  rw [g1 co h ci x hco hh hci hx, g2 co h ci _ hco hh hci (hm.inB hx)]
  have : (H.map (mul g)).get [h] = mul g (H.get [h]) := rfl
  rw [this, hm.grid x hx, hm.mask x hx, hc.space, hc.det, div_div, mul_comm (detAt det g)]

theorem forward_move {K : GroupKernel G d} {inv mul act det core Good coreH ax σ g}
    (hK : Lawful K inv mul act det)
    (hs : PointwiseSampler K.sampleRn K.kernelSize core) (hl : LocalCore K.kernelSize core)
    (hsH : RowwiseSampler K.sampleH K.gridH K.groupKernelDim Good coreH) (hlH : LocalChannel K.groupKernelDim coreH)
    (hpos : 0 < K.groupKernelDim) (hc : Cancels inv mul act det g) (hm : MovesGrid K act ax σ g)
    (weight : Tensor ℝ) (inH outH : Tensor G) (nIn nOut : ℕ)
    (hw : weight.shape = [K.groupKernelDim, K.outC, K.inC / K.groups] ++ K.kernelSize)
    (hin : inH.shape = [nIn]) (hout : outH.shape = [nOut])
    (hgood : ∀ o < nOut, ∀ i < nIn, Good (mul (inv (outH.get [o])) (inH.get [i]))) :
    ∃ out out', K.forward weight inH outH = .ok out ∧
      K.forward weight (inH.map (mul g)) (outH.map (mul g)) = .ok out' ∧
      out.shape = [K.outC, nOut, K.inC / K.groups, nIn] ++ K.kernelSize ∧ out'.shape = out.shape ∧
      ∀ co o ci i x, co < K.outC → o < nOut → ci < K.inC / K.groups → i < nIn → InB K.kernelSize x →
        out'.get (co :: o :: ci :: i :: LatticeSym.move ax σ K.kernelSize x) =
          out.get (co :: o :: ci :: i :: x) / detAt det g := by
  obtain ⟨out, e1, s1, g1⟩ := C51_group hK hs hl hsH hlH hpos weight inH outH nIn nOut hw hin hout hgood
  obtain ⟨out', e2, s2, g2⟩ := C51_group hK hs hl hsH hlH hpos weight (inH.map (mul g)) (outH.map (mul g))
    nIn nOut hw hin hout (fun o ho i hi => by
      show Good (mul (inv (mul g (outH.get [o]))) (mul g (inH.get [i])))
      rw [hc.group]; exact hgood o ho i hi)
  refine ⟨out, out', e1, e2, s1, s2.trans s1.symm, ?_⟩
  intro co o ci i x hco ho hci hi hx
  rw [g1 co o ci i x hco ho hci hi hx, g2 co o ci i _ hco ho hci hi (hm.inB hx)]
  have h1 : (inH.map (mul g)).get [i] = mul g (inH.get [i]) := rfl
  have h2 : (outH.map (mul g)).get [o] = mul g (outH.get [o]) := rfl
  rw [h1, h2, hm.grid x hx, hm.mask x hx, hc.space, hc.group, hc.det, div_div, mul_comm (detAt det g)]

theorem separable_move {K : GroupKernel G d} {inv mul act det core Good coreH ax σ g}
    (hK : Lawful K inv mul act det)
    (hs : PointwiseSampler K.sampleRn K.kernelSize core)
    (hsH : RowwiseSampler K.sampleH K.gridH K.groupKernelDim Good coreH) (hlH : LocalChannel K.groupKernelDim coreH)
    (hpos : 0 < K.groupKernelDim) (hc : Cancels inv mul act det g) (hm : MovesGrid K act ax σ g)
    (weightH weight : Tensor ℝ) (inH outH : Tensor G) (n : ℕ)
    (hwH : weightH.shape = [K.groupKernelDim, K.outC, K.inC / K.groups])
    (hw : weight.shape = [K.outC, 1] ++ K.kernelSize)
    (hin : inH.shape = [n]) (hout : outH.shape = [n])
    (hgood : ∀ o < n, ∀ i < n, Good (mul (inv (outH.get [o])) (inH.get [i]))) :
    ∃ wH w w', K.separableForward weightH weight inH outH = .ok (wH, w) ∧
      K.separableForward weightH weight (inH.map (mul g)) (outH.map (mul g)) = .ok (wH, w') ∧
      wH.shape = [K.outC, n, K.inC / K.groups, n] ++ List.replicate K.kernelSize.length 1 ∧
      w.shape = [K.outC, n, 1] ++ K.kernelSize ∧ w'.shape = w.shape ∧
      ∀ co o x, co < K.outC → o < n → InB K.kernelSize x →
        w'.get (co :: o :: 0 :: LatticeSym.move ax σ K.kernelSize x) =
          w.get (co :: o :: 0 :: x) / detAt det g := by
  obtain ⟨wH, w, e1, s1, t1, -, g1⟩ := C52_separable_partial hK hs hsH hlH hpos weightH weight inH outH n hwH hw hin hout hgood
  obtain ⟨wH', w', e2, s2, t2, -, g2⟩ := C52_separable_partial hK hs hsH hlH hpos weightH weight (inH.map (mul g)) (outH.map (mul g))
    n hwH hw hin hout (fun o ho i hi => by
      show Good (mul (inv (mul g (outH.get [o]))) (mul g (inH.get [i])))
      rw [hc.group]; exact hgood o ho i hi)
  have hsame : wH' = wH := by
    have h1 := subgroupWeights_cancel hK hc weightH inH outH (List.replicate K.kernelSize.length 1)
    unfold separableForward at e1 e2
    dsimp only at e1 e2
    rw [h1] at e2
    cases hq : K.subgroupWeights weightH inH outH (List.replicate K.kernelSize.length 1) with
    | error e => rw [hq] at e1; cases e1
    | ok q =>
      rw [hq, ok_bind] at e1 e2
      have key : ∀ {X : Except PyErr (Tensor ℝ)} {F : Tensor ℝ → Except PyErr (Tensor ℝ × Tensor ℝ)} {r},
          (X >>= F) = .ok r → (∀ t r, F t = .ok r → r.1 = q) → r.1 = q := by
        intro X F r h1 h2
        cases X with
        | error e => cases h1
        | ok t => exact h2 t r h1
      have fin : ∀ {F : Except PyErr (Tensor ℝ)} {r : Tensor ℝ × Tensor ℝ},
          (F >>= fun w => pure (q, w)) = .ok r → r.1 = q := by
        intro F r h
        cases F with
        | error e => cases h
        | ok t => cases h; rfl
      have a1 : wH = q := key e1 fun t r h => key h fun t r h => key h fun t r h => fin h
      have a2 : wH' = q := key e2 fun t r h => key h fun t r h => key h fun t r h => fin h
      rw [a1, a2]
  subst hsame
  refine ⟨wH', w, w', e1, e2, s1, t1, t2.trans t1.symm, ?_⟩
  intro co o x hco ho hx
  rw [g1 co o x hco ho hx, g2 co o _ hco ho (hm.inB hx)]
  have h2 : (outH.map (mul g)).get [o] = mul g (outH.get [o]) := rfl
  rw [h2, hm.grid x hx, hm.mask x hx, hc.space, hc.det, div_div, mul_comm (detAt det g)]

end GConv.GroupKernel

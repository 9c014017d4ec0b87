import Verif.Props.Rounding

/-! # C115 for E(2) and E(3)

As in C66, the outputs without the bias are multiplied by the determinant of the group element. -/

namespace GConv.Rounding

open Tensor Spec Conv GroupKernel

variable {u : ℝ}

theorem scaled_within {d : ℕ} {e : Equiv.Perm (Fin d)} {σ : LatticeSym d} {c : ℝ} (hc : |c| = 1) {bias : Option (Tensor ℝ)} {N C n : ℕ}
    {O' O : List ℕ} {ε : ℝ} {out out' fl fl' : Tensor ℝ} (hO : LatticeSym.Matches e σ O' O)
    (h : MovedOutput e σ c bias N C n O' O out out') (h1 : Within ε fl out) (h2 : Within ε fl' out') :
    ScaledWithin (2 * ε) e σ c bias N C n O' O fl fl' := fun b co i o hb hco hi ho => by
  have e1 := h1.2 (b :: co :: i :: o) (by rw [h1.1, h.1]; exact InB_cons.2 ⟨hb, InB_cons.2 ⟨hco, InB_cons.2 ⟨hi, ho⟩⟩⟩)
  have e2 := h2.2 (b :: co :: i :: σ.move e O o) (by
    rw [h2.1, h.2.1]; exact InB_cons.2 ⟨hb, InB_cons.2 ⟨hco, InB_cons.2 ⟨hi, LatticeSym.move_InB hO ho⟩⟩⟩)
  have e3 := h.2.2 b co i o hb hco hi ho
  have e4 : (fl'.get (b :: co :: i :: σ.move e O o) - biasAt bias d co) - c * (fl.get (b :: co :: i :: o) - biasAt bias d co) =
      (fl'.get (b :: co :: i :: σ.move e O o) - out'.get (b :: co :: i :: σ.move e O o)) -
        c * (fl.get (b :: co :: i :: o) - out.get (b :: co :: i :: o)) := by linear_combination e3
  rw [e4]
  refine (abs_sub _ _).trans ?_
  rw [abs_mul, hc, one_mul]
  linarith

section moves
variable {G : Type} {d : ℕ} {a : Args} {mode : F.CPad} {ax : List Axis} {L : Layer} {e : Equiv.Perm (Fin d)} {σ : LatticeSym d} {S' S : List ℕ}
  {c : ℝ}

theorem lifting_scales (hgeo : HasGeometry a mode ax) (hL : init a (kernelDims ax) = .ok L)
    (hm : LatticeSym.Matches e σ S' S) (hg : GeomOk mode ax S) (hsym : SymmetricGeometry d ax S)
    {K : GroupKernel G d} {left : G → G} (hK : LiftingMoves K left e σ c) (hc : |c| = 1)
    (ho : K.outC = a.outC) (hi : K.inC / K.groups = a.inC / a.groups.toNat) (hk : K.kernelSize = kernelDims ax)
    (weight : Tensor ℝ) (hw : weight.shape = [K.outC, K.inC / K.groups] ++ K.kernelSize) (bias : Option (Tensor ℝ))
    (hb : BiasShape bias a.outC d) (N n : ℕ) (x x' : Tensor ℝ) (H : Tensor G) (hH : H.shape = [n]) (hpos : 0 < a.inC)
    (hx : MovedTensor e σ [N, a.inC] S' S x x') (hu : 0 ≤ u) {B : ℝ} (hB : 0 ≤ B) (W β η : ℝ) :
    ∃ w w' out out', K.liftingForward weight H = .ok w ∧ K.liftingForward weight (H.map left) = .ok w' ∧
      L.liftingForward K weight bias x H = .ok (out, H) ∧
      L.liftingForward K weight bias x' (H.map left) = .ok (out', H.map left) ∧
      ∀ fl fl', LiftingRun u B W β η a mode ax S' x w bias N n fl → LiftingRun u B W β η a mode ax S x' w' bias N n fl' →
        Within (roundingError u (a.inC / a.groups.toNat * (kernelDims ax).prod) B W β η) fl out ∧
        Within (roundingError u (a.inC / a.groups.toNat * (kernelDims ax).prod) B W β η) fl' out' ∧
        ScaledWithin (2 * roundingError u (a.inC / a.groups.toNat * (kernelDims ax).prod) B W β η) e σ c bias N a.outC n
          (outDims ax S') (outDims ax S) fl fl' := by
  obtain ⟨w, w', k1, k2, k3, k4, -⟩ := hK weight H n hw hH
  have hg' := geomOk_matches hm hsym hg
  have hd : ax.length = d := by obtain ⟨y, rfl, -⟩ := hsym; simp
  rw [ho, hi, hk] at k3
  have hmo : LatticeSym.Matches e σ (outDims ax S') (outDims ax S) := by
    obtain ⟨y, rfl, -⟩ := hsym; exact matches_out hm
  obtain ⟨out, out', x1, y1, z⟩ := lifting_equivariant hgeo hL hm hg hsym hK ho hi hk weight hw bias hb N n x x' H hH hpos hx
  obtain ⟨_, o1, o2⟩ := C115_lifting (B := B) (W := W) (β := β) (η := η) hgeo hL hg' hu hB K weight H hH hpos k1 k3 hx.1 (by rw [hd]; exact hb)
  obtain ⟨_, p1, p2⟩ := C115_lifting (B := B) (W := W) (β := β) (η := η) hgeo hL hg hu hB K weight (H.map left) (n := n) hH hpos k2
    (by rw [k4, k3]; rfl) hx.2.1 (by rw [hd]; exact hb)
  rw [x1] at o1
  cases o1
  rw [y1] at p1
  cases p1
  exact ⟨w, w', out, out', k1, k2, x1, y1, fun fl fl' h h' =>
    ⟨o2 fl h, p2 fl' h', scaled_within hc hmo z (o2 fl h) (p2 fl' h')⟩⟩

theorem group_scales (hgeo : HasGeometry a mode ax) (hL : init a (kernelDims ax) = .ok L)
    (hm : LatticeSym.Matches e σ S' S) (hg : GeomOk mode ax S) (hsym : SymmetricGeometry d ax S)
    {K : GroupKernel G d} {left : G → G} {Pair : G → G → Prop} (hK : GroupMoves K left e σ c Pair) (hc : |c| = 1)
    (ho : K.outC = a.outC) (hi : K.inC / K.groups = a.inC / a.groups.toNat) (hk : K.kernelSize = kernelDims ax)
    (weight : Tensor ℝ) (hw : weight.shape = [K.groupKernelDim, K.outC, K.inC / K.groups] ++ K.kernelSize)
    (bias : Option (Tensor ℝ)) (hb : BiasShape bias a.outC d) (N mi n : ℕ) (x x' : Tensor ℝ) (inH outH : Tensor G)
    (hin : inH.shape = [mi]) (hout : outH.shape = [n]) (hp : ∀ o < n, ∀ i < mi, Pair (outH.get [o]) (inH.get [i]))
    (hx : MovedTensor e σ [N, a.inC, mi] S' S x x') (hu : 0 ≤ u) {B : ℝ} (hB : 0 ≤ B) (W β η : ℝ) :
    ∃ w w' out out', K.forward weight inH outH = .ok w ∧ K.forward weight (inH.map left) (outH.map left) = .ok w' ∧
      L.groupForward K weight bias x inH outH = .ok (out, outH) ∧
      L.groupForward K weight bias x' (inH.map left) (outH.map left) = .ok (out', outH.map left) ∧
      ∀ fl fl', GroupRun u B W β η a mode ax S' x w bias N mi n fl → GroupRun u B W β η a mode ax S x' w' bias N mi n fl' →
        Within (roundingError u (a.inC / a.groups.toNat * mi * (kernelDims ax).prod) B W β η) fl out ∧
        Within (roundingError u (a.inC / a.groups.toNat * mi * (kernelDims ax).prod) B W β η) fl' out' ∧
        ScaledWithin (2 * roundingError u (a.inC / a.groups.toNat * mi * (kernelDims ax).prod) B W β η) e σ c bias N a.outC n
          (outDims ax S') (outDims ax S) fl fl' := by
  obtain ⟨w, w', k1, k2, k3, k4, -⟩ := hK weight inH outH mi n hw hin hout hp
  have hg' := geomOk_matches hm hsym hg
  have hd : ax.length = d := by obtain ⟨y, rfl, -⟩ := hsym; simp
  rw [ho, hi, hk] at k3
  have hmo : LatticeSym.Matches e σ (outDims ax S') (outDims ax S) := by
    obtain ⟨y, rfl, -⟩ := hsym; exact matches_out hm
  obtain ⟨out, out', x1, y1, z⟩ := group_equivariant hgeo hL hm hg hsym hK ho hi hk weight hw bias hb N mi n x x' inH outH hin hout hp hx
  obtain ⟨_, o1, o2⟩ := C115_group (B := B) (W := W) (β := β) (η := η) hgeo hL hg' hu hB K weight inH outH hin hout k1 k3 hx.1
    (by rw [hd]; exact hb)
  obtain ⟨_, p1, p2⟩ := C115_group (B := B) (W := W) (β := β) (η := η) hgeo hL hg hu hB K weight (inH.map left) (outH.map left)
    (m := mi) (n := n) hin hout k2 (by rw [k4, k3]; rfl) hx.2.1 (by rw [hd]; exact hb)
  rw [x1] at o1
  cases o1
  rw [y1] at p1
  cases p1
  exact ⟨w, w', out, out', k1, k2, x1, y1, fun fl fl' h h' =>
    ⟨o2 fl h, p2 fl' h', scaled_within hc hmo z (o2 fl h) (p2 fl' h')⟩⟩

end moves

/-- `GLiftingConvE2` in floating point: both outputs are within `roundingError` of the modelled ones; moving the input by a lattice symmetry
moves the computed output, times `det g`, up to twice that. -/
theorem C115_E2 (k : KernelArgs O2.Elt SizeArg) (c : ConvOpts) (hk : 2 ≤ k.kernelSize) {m p}
    (hm : SpatialModes k.spatialMode k.spatialPad m p)
    {M : Module O2.Elt 2} (hM : liftingE2 k c = .ok M) {mode : F.CPad} {ax : List Axis}
    (hgeo : HasGeometry (argsE2 k c) mode ax)
    {σ : LatticeSym 2} {S' S : List ℕ} (hσ : LatticeSym.Matches LatticeSym.ax2 σ S' S)
    (hS : GeomOk mode ax S) (hsym : SymmetricGeometry 2 ax S) (g : O2.Elt) (hc : g.1 = 1 ∨ g.1 = -1) (hg : g.1 • SO2.angleToMatrix g.2 = σ.matrix) (hpos : 0 < k.inC)
    (weight : Tensor ℝ) (hw : weight.shape = [k.outC, k.inC / k.groups, k.kernelSize, k.kernelSize])
    (bias : Option (Tensor ℝ)) (hb : BiasShape bias k.outC 2) (N n : ℕ) (x x' : Tensor ℝ)
    (H H' : Option (Tensor (O2.Elt))) (move move' : O2.Elt → O2.Elt) (Hc : Tensor (O2.Elt))
    (hHc : Hc = if c.permute then (H.getD M.kernel.gridH).map move else H.getD M.kernel.gridH)
    (hHc' : Hc.map (O2.leftApplyAngle g) = if c.permute then (H'.getD M.kernel.gridH).map move' else H'.getD M.kernel.gridH) (hn : Hc.shape = [n])
    (hx : MovedTensor LatticeSym.ax2 σ [N, k.inC] S' S x x') {u B : ℝ} (hu : 0 ≤ u) (hB : 0 ≤ B) (W β η : ℝ) :
    ∃ w w' out out', M.kernel.liftingForward weight Hc = .ok w ∧
      M.kernel.liftingForward weight (Hc.map (O2.leftApplyAngle g)) = .ok w' ∧
      M.lift move weight bias x H = .ok (out, Hc) ∧
      M.lift move' weight bias x' H' = .ok (out', Hc.map (O2.leftApplyAngle g)) ∧
      ∀ fl fl', LiftingRun u B W β η (argsE2 k c) mode ax S' x w bias N n fl →
        LiftingRun u B W β η (argsE2 k c) mode ax S x' w' bias N n fl' →
        Within (roundingError u (k.inC / k.groups * k.kernelSize ^ 2) B W β η) fl out ∧ Within (roundingError u (k.inC / k.groups * k.kernelSize ^ 2) B W β η) fl' out' ∧
        ScaledWithin (2 * roundingError u (k.inC / k.groups * k.kernelSize ^ 2) B W β η) LatticeSym.ax2 σ (O2.det g) bias N k.outC n
          (outDims ax S') (outDims ax S) fl fl' := by
  obtain ⟨K, hK, hL, hMK, hMp⟩ := build_ok hM
  have hg0 : 0 < k.groups := Int.natCast_pos.1 (groups_pos hgeo hL)
  have hks : kernelDims ax = [k.kernelSize, k.kernelSize] := hgeo.kernel.symm
  have hprod : (kernelDims ax).prod = k.kernelSize ^ 2 := by rw [hks]; simp [pow_succ]
  have hdet : |O2.det g| = 1 := by rcases hc with h | h <;> simp [O2.det, h]
  rw [liftingE2_size hK, ← hks] at hL
  
  obtain ⟨K', h1, h2⟩ := (KernelE2.C57_E2 k hk hm g hc σ hg).1 hg0
  rw [hK] at h1
  cases h1
  obtain ⟨b1, b2, b3⟩ := liftingE2_args hK
  obtain ⟨w, w', out, out', e1, e2, x1, y1, z⟩ := lifting_scales hgeo hL hσ hS hsym h2 hdet b1 b2 (by rw [b3, hks]) weight
    (by rw [b1, b2, b3]; exact hw) bias hb N n x x' Hc hn hpos hx hu hB W β η
  rw [hprod] at z
  refine ⟨w, w', out, out', by rw [hMK]; exact e1, by rw [hMK]; exact e2, ?_, ?_, z⟩
  · rw [← x1, eq_permute hHc hn, ← hMp, ← hMK]; rfl
  · rw [← y1, eq_permute hHc' hn, ← hMp, ← hMK]; rfl

/-- `GConvE2` in floating point: both outputs are within `roundingError` of the modelled ones; moving the input by a lattice symmetry
moves the computed output, times `det g`, up to twice that. -/
theorem C115_E2_group (k : KernelArgs O2.Elt SizeArg) (c : ConvOpts) (hk : 2 ≤ k.kernelSize) {m p}
    (hm : SpatialModes k.spatialMode k.spatialPad m p)
    (wr wf : ℝ) (hr : KernelE2.Ready k wr wf)
    {M : Module O2.Elt 2} (hM : fullE2 k c = .ok M) {mode : F.CPad} {ax : List Axis}
    (hgeo : HasGeometry (argsE2 k c) mode ax)
    {σ : LatticeSym 2} {S' S : List ℕ} (hσ : LatticeSym.Matches LatticeSym.ax2 σ S' S)
    (hS : GeomOk mode ax S) (hsym : SymmetricGeometry 2 ax S) (g : O2.Elt) (hc : g.1 = 1 ∨ g.1 = -1) (hg : g.1 • SO2.angleToMatrix g.2 = σ.matrix)
    (weight : Tensor ℝ) (hw : weight.shape = [KernelE2.nRot k + KernelE2.nRef k, k.outC, k.inC / k.groups, k.kernelSize, k.kernelSize])
    (bias : Option (Tensor ℝ)) (hb : BiasShape bias k.outC 2) (N mi n : ℕ) (x x' : Tensor ℝ)
    (inH : Tensor (O2.Elt)) (hin : inH.shape = [mi])
    (H H' : Option (Tensor (O2.Elt))) (move move' : O2.Elt → O2.Elt) (Hc : Tensor (O2.Elt))
    (hHc : Hc = if c.permute then (H.getD M.kernel.gridH).map move else H.getD M.kernel.gridH)
    (hHc' : Hc.map (O2.leftApplyAngle g) = if c.permute then (H'.getD M.kernel.gridH).map move' else H'.getD M.kernel.gridH) (hn : Hc.shape = [n])
    (hp : ∀ h < n, ∀ i < mi, KernelE2.Pair k (Hc.get [h]) (inH.get [i]))
    (hx : MovedTensor LatticeSym.ax2 σ [N, k.inC, mi] S' S x x') {u B : ℝ} (hu : 0 ≤ u) (hB : 0 ≤ B) (W β η : ℝ) :
    ∃ w w' out out', M.kernel.forward weight inH Hc = .ok w ∧
      M.kernel.forward weight (inH.map (O2.leftApplyAngle g)) (Hc.map (O2.leftApplyAngle g)) = .ok w' ∧
      M.groupE move weight bias x inH H = .ok (out, Hc) ∧
      M.groupE move' weight bias x' (inH.map (O2.leftApplyAngle g)) H' = .ok (out', Hc.map (O2.leftApplyAngle g)) ∧
      ∀ fl fl', GroupRun u B W β η (argsE2 k c) mode ax S' x w bias N mi n fl →
        GroupRun u B W β η (argsE2 k c) mode ax S x' w' bias N mi n fl' →
        Within (roundingError u (k.inC / k.groups * mi * k.kernelSize ^ 2) B W β η) fl out ∧ Within (roundingError u (k.inC / k.groups * mi * k.kernelSize ^ 2) B W β η) fl' out' ∧
        ScaledWithin (2 * roundingError u (k.inC / k.groups * mi * k.kernelSize ^ 2) B W β η) LatticeSym.ax2 σ (O2.det g) bias N k.outC n
          (outDims ax S') (outDims ax S) fl fl' := by
  obtain ⟨K, hK, hL, hMK, hMp⟩ := build_ok hM
  have hks : kernelDims ax = [k.kernelSize, k.kernelSize] := hgeo.kernel.symm
  have hprod : (kernelDims ax).prod = k.kernelSize ^ 2 := by rw [hks]; simp [pow_succ]
  have hdet : |O2.det g| = 1 := by rcases hc with h | h <;> simp [O2.det, h]
  obtain ⟨b1, b2, b3, b4⟩ := fullE2_args k wr wf hr hK
  rw [b3, ← hks] at hL
  obtain ⟨K', h1, h2, -⟩ := (KernelE2.C57_E2 k hk hm g hc σ hg).2 wr wf hr
  rw [hK] at h1
  cases h1
  obtain ⟨w, w', out, out', e1, e2, x1, y1, z⟩ := group_scales hgeo hL hσ hS hsym h2 hdet b1 b2 (by rw [b3, hks]) weight
    (by rw [b1, b2, b3, b4]; exact hw) bias hb N mi n x x' inH Hc hin hn hp hx hu hB W β η
  rw [hprod] at z
  refine ⟨w, w', out, out', by rw [hMK]; exact e1, by rw [hMK]; exact e2, ?_, ?_, z⟩
  · rw [← x1, eq_permute hHc hn, ← hMp, ← hMK]; rfl
  · rw [← y1, eq_permute hHc' hn, ← hMp, ← hMK]; rfl

/-- `GLiftingConvE3` in floating point: both outputs are within `roundingError` of the modelled ones; moving the input by a lattice symmetry
moves the computed output, times `det g`, up to twice that. -/
theorem C115_E3 (s : GridCache.Store (Tensor ℝ)) (opt1 opt2 : List SO3.Euler) (k : KernelArgs O3.Elt SizeArg) (c : ConvOpts) (hk : 2 ≤ k.kernelSize) {m p}
    (hm : SpatialModes k.spatialMode k.spatialPad m p)
    {M : Module O3.Elt 3} (hM : liftingE3 s opt1 opt2 k c = .ok M) {mode : F.CPad} {ax : List Axis}
    (hgeo : HasGeometry (argsE3 k c) mode ax)
    {σ : LatticeSym 3} {S' S : List ℕ} (hσ : LatticeSym.Matches LatticeSym.ax3 σ S' S)
    (hS : GeomOk mode ax S) (hsym : SymmetricGeometry 3 ax S) (g : O3.Elt) (hv : O3.Valid g) (hg : O3.coef g • O3.rot g = σ.matrix) (hpos : 0 < k.inC)
    (weight : Tensor ℝ) (hw : weight.shape = [k.outC, k.inC / k.groups, k.kernelSize, k.kernelSize, k.kernelSize])
    (bias : Option (Tensor ℝ)) (hb : BiasShape bias k.outC 3) (N n : ℕ) (x x' : Tensor ℝ)
    (H H' : Option (Tensor (O3.Elt))) (move move' : O3.Elt → O3.Elt) (Hc : Tensor (O3.Elt))
    (hHc : Hc = if c.permute then (H.getD M.kernel.gridH).map move else H.getD M.kernel.gridH)
    (hHc' : Hc.map (O3.leftApplyO3 g) = if c.permute then (H'.getD M.kernel.gridH).map move' else H'.getD M.kernel.gridH) (hn : Hc.shape = [n])
    (hx : MovedTensor LatticeSym.ax3 σ [N, k.inC] S' S x x') {u B : ℝ} (hu : 0 ≤ u) (hB : 0 ≤ B) (W β η : ℝ) :
    ∃ w w' out out', M.kernel.liftingForward weight Hc = .ok w ∧
      M.kernel.liftingForward weight (Hc.map (O3.leftApplyO3 g)) = .ok w' ∧
      M.lift move weight bias x H = .ok (out, Hc) ∧
      M.lift move' weight bias x' H' = .ok (out', Hc.map (O3.leftApplyO3 g)) ∧
      ∀ fl fl', LiftingRun u B W β η (argsE3 k c) mode ax S' x w bias N n fl →
        LiftingRun u B W β η (argsE3 k c) mode ax S x' w' bias N n fl' →
        Within (roundingError u (k.inC / k.groups * k.kernelSize ^ 3) B W β η) fl out ∧ Within (roundingError u (k.inC / k.groups * k.kernelSize ^ 3) B W β η) fl' out' ∧
        ScaledWithin (2 * roundingError u (k.inC / k.groups * k.kernelSize ^ 3) B W β η) LatticeSym.ax3 σ (O3.det g) bias N k.outC n
          (outDims ax S') (outDims ax S) fl fl' := by
  obtain ⟨K, hK, hL, hMK, hMp⟩ := build_ok hM
  have hg0 : 0 < k.groups := Int.natCast_pos.1 (groups_pos hgeo hL)
  have hks : kernelDims ax = [k.kernelSize, k.kernelSize, k.kernelSize] := hgeo.kernel.symm
  have hprod : (kernelDims ax).prod = k.kernelSize ^ 3 := by rw [hks]; simp [pow_succ, Nat.mul_assoc]
  have hdet : |O3.det g| = 1 := by rcases hv.1 with h | h <;> simp [O3.det, h]
  rw [(liftingE3_size hK).1, ← hks] at hL
  obtain ⟨gr, hgr⟩ := (liftingE3_size hK).2
  obtain ⟨K', h1, h2⟩ := (KernelE3.C57_E3 s opt1 opt2 k hk hm g hv σ hg).1 gr hg0 hgr
  rw [hK] at h1
  cases h1
  obtain ⟨b1, b2, b3⟩ := liftingE3_args hK
  obtain ⟨w, w', out, out', e1, e2, x1, y1, z⟩ := lifting_scales hgeo hL hσ hS hsym h2 hdet b1 b2 (by rw [b3, hks]) weight
    (by rw [b1, b2, b3]; exact hw) bias hb N n x x' Hc hn hpos hx hu hB W β η
  rw [hprod] at z
  refine ⟨w, w', out, out', by rw [hMK]; exact e1, by rw [hMK]; exact e2, ?_, ?_, z⟩
  · rw [← x1, eq_permute hHc hn, ← hMp, ← hMK]; rfl
  · rw [← y1, eq_permute hHc' hn, ← hMp, ← hMK]; rfl

/-- `GConvE3` in floating point: both outputs are within `roundingError` of the modelled ones; moving the input by a lattice symmetry
moves the computed output, times `det g`, up to twice that. -/
theorem C115_E3_group (s : GridCache.Store (Tensor ℝ)) (opt1 opt2 : List SO3.Euler) (k : KernelArgs O3.Elt SizeArg) (c : ConvOpts) (hk : 2 ≤ k.kernelSize) {m p}
    (hm : SpatialModes k.spatialMode k.spatialPad m p)
    (gr : Tensor O3.Elt) (wr wf : ℝ) (hr : KernelE3.Ready s opt1 opt2 k gr wr wf)
    {M : Module O3.Elt 3} (hM : fullE3 s opt1 opt2 k c = .ok M) {mode : F.CPad} {ax : List Axis}
    (hgeo : HasGeometry (argsE3 k c) mode ax)
    {σ : LatticeSym 3} {S' S : List ℕ} (hσ : LatticeSym.Matches LatticeSym.ax3 σ S' S)
    (hS : GeomOk mode ax S) (hsym : SymmetricGeometry 3 ax S) (g : O3.Elt) (hv : O3.Valid g) (hg : O3.coef g • O3.rot g = σ.matrix)
    (weight : Tensor ℝ) (hw : weight.shape = [KernelE3.nRot k + KernelE3.nRef k, k.outC, k.inC / k.groups, k.kernelSize, k.kernelSize, k.kernelSize])
    (bias : Option (Tensor ℝ)) (hb : BiasShape bias k.outC 3) (N mi n : ℕ) (x x' : Tensor ℝ)
    (inH : Tensor (O3.Elt)) (hin : inH.shape = [mi])
    (H H' : Option (Tensor (O3.Elt))) (move move' : O3.Elt → O3.Elt) (Hc : Tensor (O3.Elt))
    (hHc : Hc = if c.permute then (H.getD M.kernel.gridH).map move else H.getD M.kernel.gridH)
    (hHc' : Hc.map (O3.leftApplyO3 g) = if c.permute then (H'.getD M.kernel.gridH).map move' else H'.getD M.kernel.gridH) (hn : Hc.shape = [n])
    (hp : ∀ h < n, ∀ i < mi, KernelE3.Pair k (Hc.get [h]) (inH.get [i]))
    (hx : MovedTensor LatticeSym.ax3 σ [N, k.inC, mi] S' S x x') {u B : ℝ} (hu : 0 ≤ u) (hB : 0 ≤ B) (W β η : ℝ) :
    ∃ w w' out out', M.kernel.forward weight inH Hc = .ok w ∧
      M.kernel.forward weight (inH.map (O3.leftApplyO3 g)) (Hc.map (O3.leftApplyO3 g)) = .ok w' ∧
      M.groupE move weight bias x inH H = .ok (out, Hc) ∧
      M.groupE move' weight bias x' (inH.map (O3.leftApplyO3 g)) H' = .ok (out', Hc.map (O3.leftApplyO3 g)) ∧
      ∀ fl fl', GroupRun u B W β η (argsE3 k c) mode ax S' x w bias N mi n fl →
        GroupRun u B W β η (argsE3 k c) mode ax S x' w' bias N mi n fl' →
        Within (roundingError u (k.inC / k.groups * mi * k.kernelSize ^ 3) B W β η) fl out ∧ Within (roundingError u (k.inC / k.groups * mi * k.kernelSize ^ 3) B W β η) fl' out' ∧
        ScaledWithin (2 * roundingError u (k.inC / k.groups * mi * k.kernelSize ^ 3) B W β η) LatticeSym.ax3 σ (O3.det g) bias N k.outC n
          (outDims ax S') (outDims ax S) fl fl' := by
  obtain ⟨K, hK, hL, hMK, hMp⟩ := build_ok hM
  have hks : kernelDims ax = [k.kernelSize, k.kernelSize, k.kernelSize] := hgeo.kernel.symm
  have hprod : (kernelDims ax).prod = k.kernelSize ^ 3 := by rw [hks]; simp [pow_succ, Nat.mul_assoc]
  have hdet : |O3.det g| = 1 := by rcases hv.1 with h | h <;> simp [O3.det, h]
  obtain ⟨b1, b2, b3, b4⟩ := fullE3_args s opt1 opt2 k gr wr wf hr hK
  rw [b3, ← hks] at hL
  obtain ⟨K', h1, h2, -⟩ := (KernelE3.C57_E3 s opt1 opt2 k hk hm g hv σ hg).2 gr wr wf hr
  rw [hK] at h1
  cases h1
  obtain ⟨w, w', out, out', e1, e2, x1, y1, z⟩ := group_scales hgeo hL hσ hS hsym h2 hdet b1 b2 (by rw [b3, hks]) weight
    (by rw [b1, b2, b3, b4]; exact hw) bias hb N mi n x x' inH Hc hin hn hp hx hu hB W β η
  rw [hprod] at z
  refine ⟨w, w', out, out', by rw [hMK]; exact e1, by rw [hMK]; exact e2, ?_, ?_, z⟩
  · rw [← x1, eq_permute hHc hn, ← hMp, ← hMK]; rfl
  · rw [← y1, eq_permute hHc' hn, ← hMp, ← hMK]; rfl

/-- `GLiftingConvE2` on 9 x 8 images in float32 and the element `(-1, 0)`, which acts as the half turn with determinant -1: the computed
features of the turned images are the turned features with the opposite sign, up to 1/3000. -/
example (n : ℕ) (x x' : Tensor ℝ) (hx : MovedTensor LatticeSym.ax2 KernelE2.half [3, 4] [9, 8] [9, 8] x x')
    (weight : Tensor ℝ) (hw : weight.shape = [6, 2, 5, 5]) (H : Tensor O2.Elt) (hH : H.shape = [7])
    (M : Module O2.Elt 2) (hM : liftingE2 (KernelE2.exArgs n) rotOpts = .ok M) :
    ∃ w w', M.kernel.liftingForward weight H = .ok w ∧
      M.kernel.liftingForward weight (H.map (O2.leftApplyAngle (-1, 0))) = .ok w' ∧
      ∀ fl fl', LiftingRun (2⁻¹ ^ 24) 1 1 0 (2⁻¹ ^ 24) (argsE2 (KernelE2.exArgs n) rotOpts) .circular
          (List.replicate 2 (sameAxis 5 1)) [9, 8] x w none 3 7 fl →
        LiftingRun (2⁻¹ ^ 24) 1 1 0 (2⁻¹ ^ 24) (argsE2 (KernelE2.exArgs n) rotOpts) .circular
          (List.replicate 2 (sameAxis 5 1)) [9, 8] x' w' none 3 7 fl' →
        ScaledWithin (1 / 3000) LatticeSym.ax2 KernelE2.half (-1) none 3 6 7 (outDims (List.replicate 2 (sameAxis 5 1)) [9, 8])
          (outDims (List.replicate 2 (sameAxis 5 1)) [9, 8]) fl fl' := by
  obtain ⟨h1, h2, h3, -⟩ := rot_geometry n
  have h4 : LatticeSym.Matches LatticeSym.ax2 KernelE2.half [9, 8] [9, 8] := ⟨rfl, rfl, fun c => by fin_cases c <;> rfl⟩
  obtain ⟨w, w', out, out', k1, k2, -, -, z⟩ := C115_E2 (KernelE2.exArgs n) rotOpts (by norm_num [KernelE2.exArgs]) defaultModes hM h1 h4
    h2 h3 (-1, 0) (Or.inr rfl) KernelE2.half_matrix (by norm_num [KernelE2.exArgs]) weight (by rw [hw]; simp [KernelE2.exArgs]) none
    (fun b hb => by cases hb) 3 7 x x' (some H) (some (H.map (O2.leftApplyAngle (-1, 0)))) id id H rfl rfl hH hx (u := 2⁻¹ ^ 24) (B := 1)
    (by norm_num) zero_le_one 1 0 (2⁻¹ ^ 24)
  refine ⟨w, w', k1, k2, fun fl fl' r r' b co h o hb hco hh ho => ((z fl fl' r r').2.2 b co h o hb hco hh ho).trans ?_⟩
  unfold roundingError
  norm_num [KernelE2.exArgs]

end GConv.Rounding

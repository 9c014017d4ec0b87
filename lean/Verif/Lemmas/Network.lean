import Verif.Props.Reorder
import Verif.Props.Pooling
import Verif.Props.Normalization
import Verif.Props.Activations
import Verif.Spec.Network

/-! # Layers on turned feature maps -/

namespace GConv.Conv

open Tensor Spec GroupKernel

variable {G : Type} {d : ℕ}

theorem movedGrid_lists {left : G → G} {n : ℕ} {π : Equiv.Perm (Fin n)} {H H' : Tensor G} (h : MovedGrid left π H H') :
    Lists (fun k => if h : k < n then (π.symm ⟨k, h⟩ : ℕ) else 0) n n (H.map left) H' := by
  refine ⟨h.1, h.2.1, fun k hk => ?_⟩
  dsimp only
  rw [dif_pos hk]
  refine ⟨(π.symm ⟨k, hk⟩).2, ?_⟩
  have := h.2.2 (π.symm ⟨k, hk⟩)
  rw [Equiv.apply_symm_apply] at this
  exact this

/-- combine a movement (to the order of `H`) with a reindexing. -/
theorem movedFeature_of {e : Equiv.Perm (Fin d)} {σ : LatticeSym d} {left : G → G} {Good : G → Prop} {N C n : ℕ} {T' T : List ℕ}
    (hT : LatticeSym.Matches e σ T' T)
    {y z y' : Tensor ℝ} {H H' : Tensor G} {π : Equiv.Perm (Fin n)} (hgood : ∀ k < n, Good (H.get [k]))
    (hH : MovedGrid left π H H') (h1 : MovedTensor e σ [N, C, n] T' T y z)
    (h2 : GroupAxisReindexed (fun k => if h : k < n then (π.symm ⟨k, h⟩ : ℕ) else 0) N C n n T z y') :
    MovedFeature e σ left Good N C n T' T y H y' H' := by
  refine ⟨h1.1, h2.2.1, hgood, π, hH, fun b c q k hb hc hq => ?_⟩
  have e1 := h2.2.2 b c (π k) (σ.move e T q) hb hc (π k).2 (LatticeSym.move_InB hT hq)
  dsimp only at e1
  rw [dif_pos (π k).2] at e1
  have e2 := h1.2.2 [b, c, k] q (by simp [hb, hc]) hq
  rw [e1, Fin.eta, Equiv.symm_apply_apply]
  exact e2

theorem lifting_feature {a : Args} {mode : F.CPad} {ax : List Axis} (hgeo : HasGeometry a mode ax) {L : Layer}
    (hL : init a (kernelDims ax) = .ok L) {e : Equiv.Perm (Fin d)} {σ : LatticeSym d} {S' S : List ℕ}
    (hm : LatticeSym.Matches e σ S' S) (hg : GeomOk mode ax S) (hsym : SymmetricGeometry d ax S)
    {K : GroupKernel G d} {left : G → G} (hK : LiftingMoves K left e σ 1) (hloc : LiftingLocal K)
    (ho : K.outC = a.outC) (hi : K.inC / K.groups = a.inC / a.groups.toNat) (hk : K.kernelSize = kernelDims ax)
    (weight : Tensor ℝ) (hw : weight.shape = [K.outC, K.inC / K.groups] ++ K.kernelSize) (bias : Option (Tensor ℝ))
    (hb : BiasShape bias a.outC d) (N n : ℕ) (x x' : Tensor ℝ) (H H' : Tensor G) {π : Equiv.Perm (Fin n)}
    (hH : MovedGrid left π H H') {Good : G → Prop} (hgood : ∀ k < n, Good (H.get [k])) (hpos : 0 < a.inC)
    (hx : MovedTensor e σ [N, a.inC] S' S x x') :
    ∃ y y', L.liftingForward K weight bias x H = .ok (y, H) ∧ L.liftingForward K weight bias x' H' = .ok (y', H') ∧
      MovedFeature e σ left Good N a.outC n (outDims ax S') (outDims ax S) y H y' H' := by
  have hd : ax.length = d := by obtain ⟨y, rfl, -⟩ := hsym; simp
  have hmo : LatticeSym.Matches e σ (outDims ax S') (outDims ax S) := by
    obtain ⟨y, rfl, -⟩ := hsym; exact matches_out hm
  obtain ⟨y, z, a1, a2, a3⟩ := lifting_equivariant hgeo hL hm hg hsym hK ho hi hk weight hw bias hb N n x x' H hH.1 hpos hx
  obtain ⟨z', y', b1, b2, b3⟩ := lifting_reindex hgeo hL hg hloc ho hi hk weight hw bias (by rw [hd]; exact hb) N n n x'
    (H.map left) H' _ (movedGrid_lists hH) hpos hx.2.1
  rw [a2] at b1
  cases b1
  exact ⟨y, y', a1, b2, movedFeature_of hmo hgood hH (movedOutput_one a3) b3⟩

/-- the input of the turned call with its group axis in the order of the original call. -/
def unpermute {n : ℕ} (π : Equiv.Perm (Fin n)) (x : Tensor ℝ) : Tensor ℝ :=
  ⟨x.shape, fun i => x.get (i.getD 0 0 :: i.getD 1 0 :: (if h : i.getD 2 0 < n then (π ⟨i.getD 2 0, h⟩ : ℕ) else 0) :: i.drop 3)⟩

theorem unpermute_spec {e : Equiv.Perm (Fin d)} {σ : LatticeSym d} {left : G → G} {n : ℕ} (π : Equiv.Perm (Fin n)) {N C : ℕ} {S' S : List ℕ}
    {x x' : Tensor ℝ} {H H' : Tensor G} (hx : x.shape = N :: C :: n :: S') (hx' : x'.shape = N :: C :: n :: S)
    (hH : MovedGrid left π H H')
    (h : ∀ b c q (k : Fin n), b < N → c < C → InB S' q →
        x'.get (b :: c :: (π k : ℕ) :: σ.move e S q) = x.get (b :: c :: (k : ℕ) :: q)) :
    MovedTensor e σ [N, C, n] S' S x (unpermute π x') ∧ GroupAxisPermuted π.symm N C S (unpermute π x') x' ∧
      ∀ k : Fin n, H'.get [(k : ℕ)] = (H.map left).get [(π.symm k : ℕ)] := by
  refine ⟨⟨hx, hx', fun p q hp hq => ?_⟩, ⟨hx', hx', fun b c q k hb hc hq => ?_⟩, fun k => ?_⟩
  · obtain ⟨b, _, rfl, hb, hp⟩ := InB_cons_left hp
    obtain ⟨c, _, rfl, hc, hp⟩ := InB_cons_left hp
    obtain ⟨k, _, rfl, hk, hp⟩ := InB_cons_left hp
    cases InB_nil_left hp
    have := h b c q ⟨k, hk⟩ hb hc hq
    show x'.get (b :: c :: (if h : k < n then (π ⟨k, h⟩ : ℕ) else 0) :: σ.move e S q) = _
    rw [dif_pos hk]
    exact this
  · show _ = x'.get (b :: c :: (if h : (π.symm k : ℕ) < n then (π ⟨(π.symm k : ℕ), h⟩ : ℕ) else 0) :: q)
    rw [dif_pos (π.symm k).2, Fin.eta, Equiv.apply_symm_apply]
  · have := hH.2.2 (π.symm k)
    rw [Equiv.apply_symm_apply] at this
    exact this

theorem group_feature {a : Args} {mode : F.CPad} {ax : List Axis} (hgeo : HasGeometry a mode ax) {L : Layer}
    (hL : init a (kernelDims ax) = .ok L) {e : Equiv.Perm (Fin d)} {σ : LatticeSym d} {S' S : List ℕ}
    (hm : LatticeSym.Matches e σ S' S) (hg : GeomOk mode ax S) (hsym : SymmetricGeometry d ax S)
    {K : GroupKernel G d} {left : G → G} {Pair : G → G → Prop} (hK : GroupMoves K left e σ 1 Pair) (hloc : GroupLocal K Pair)
    (ho : K.outC = a.outC) (hi : K.inC / K.groups = a.inC / a.groups.toNat) (hk : K.kernelSize = kernelDims ax)
    (weight : Tensor ℝ) (hw : weight.shape = [K.groupKernelDim, K.outC, K.inC / K.groups] ++ K.kernelSize)
    (bias : Option (Tensor ℝ)) (hb : BiasShape bias a.outC d) (N m n : ℕ) (x x' : Tensor ℝ) (inH inH' H H' : Tensor G)
    {Good : G → Prop} (hp : ∀ o i, Good o → Good i → Pair o i) (hleft : ∀ o, Good o → Good (left o))
    (hx : MovedFeature e σ left Good N a.inC m S' S x inH x' inH')
    {π : Equiv.Perm (Fin n)} (hH : MovedGrid left π H H') (hgood : ∀ k < n, Good (H.get [k])) :
    ∃ y y', L.groupForward K weight bias x inH H = .ok (y, H) ∧ L.groupForward K weight bias x' inH' H' = .ok (y', H') ∧
      MovedFeature e σ left Good N a.outC n (outDims ax S') (outDims ax S) y H y' H' := by
  have hd : ax.length = d := by obtain ⟨y, rfl, -⟩ := hsym; simp
  have hmo : LatticeSym.Matches e σ (outDims ax S') (outDims ax S) := by
    obtain ⟨y, rfl, -⟩ := hsym; exact matches_out hm
  obtain ⟨s1, s2, gi, πi, hgi, hxx⟩ := hx
  obtain ⟨u1, u2, u3⟩ := unpermute_spec πi s1 s2 hgi hxx
  obtain ⟨y, z, a1, a2, a3⟩ := group_equivariant hgeo hL hm hg hsym hK ho hi hk weight hw bias hb N m n x (unpermute πi x') inH H
    hgi.1 hH.1 (fun o ho i hi => hp _ _ (hgood o ho) (gi i hi)) u1
  obtain ⟨z', y', b1, b2, b3⟩ := group_reindex hgeo hL hg hloc ho hi hk weight hw bias (by rw [hd]; exact hb) N m n n
    (unpermute πi x') x' (inH.map left) inH' (H.map left) H' πi.symm _ hgi.1 hgi.2.1 u3 (movedGrid_lists hH)
    (fun o ho i hi => hp _ _ (hleft _ (hgood o ho)) (hleft _ (gi i hi))) u2
  rw [a2] at b1
  cases b1
  exact ⟨y, y', a1, b2, movedFeature_of hmo hgood hH (movedOutput_one a3) b3⟩

theorem separable_feature {a : Args} {mode : F.CPad} {ax : List Axis} (hgeo : HasGeometry a mode ax) {L : Layer}
    (hL : init a (kernelDims ax) = .ok L) {e : Equiv.Perm (Fin d)} {σ : LatticeSym d} {S' S S₁' S₁ : List ℕ}
    (hm : LatticeSym.Matches e σ S' S) (hg₁ : GeomOk mode (firstAxes mode a.padding ax) S)
    (hsym₁ : SymmetricGeometry d (firstAxes mode a.padding ax) S)
    (hS₁ : outDims (firstAxes mode a.padding ax) S = S₁) (hS₁' : outDims (firstAxes mode a.padding ax) S' = S₁')
    (hg : GeomOk mode ax S₁) (hsym : SymmetricGeometry d ax S₁)
    {K : GroupKernel G d} {left : G → G} {Pair : G → G → Prop} (hK : SeparableMoves K left e σ 1 Pair) (hloc : SeparableLocal K Pair)
    (ho : K.outC = a.outC) (hi : K.inC / K.groups = a.inC / a.groups.toNat) (hk : K.kernelSize = kernelDims ax)
    (weightH weight : Tensor ℝ) (hwH : weightH.shape = [K.groupKernelDim, K.outC, K.inC / K.groups])
    (hw : weight.shape = [K.outC, 1] ++ K.kernelSize)
    (bias : Option (Tensor ℝ)) (hb : BiasShape bias a.outC d) (N n : ℕ) (hC : 0 < a.outC) (hn : 0 < n) (x x' : Tensor ℝ)
    (inH inH' H H' : Tensor G)
    {Good : G → Prop} (hp : ∀ o i, Good o → Good i → Pair o i) (hleft : ∀ o, Good o → Good (left o))
    (hx : MovedFeature e σ left Good N a.inC n S' S x inH x' inH')
    {π : Equiv.Perm (Fin n)} (hH : MovedGrid left π H H') (hgood : ∀ k < n, Good (H.get [k])) :
    ∃ y y', L.separableForward K weightH weight bias x inH H = .ok (y, H) ∧
      L.separableForward K weightH weight bias x' inH' H' = .ok (y', H') ∧
      MovedFeature e σ left Good N a.outC n (outDims ax S₁') (outDims ax S₁) y H y' H' := by
  have hd : ax.length = d := by obtain ⟨y, rfl, -⟩ := hsym; simp
  have hm₁ : LatticeSym.Matches e σ S₁' S₁ := by
    obtain ⟨y, hy, -⟩ := hsym₁
    rw [← hS₁, ← hS₁', hy]; exact matches_out hm
  have hmo : LatticeSym.Matches e σ (outDims ax S₁') (outDims ax S₁) := by
    obtain ⟨y, rfl, -⟩ := hsym; exact matches_out hm₁
  obtain ⟨s1, s2, gi, πi, hgi, hxx⟩ := hx
  obtain ⟨u1, u2, u3⟩ := unpermute_spec πi s1 s2 hgi hxx
  obtain ⟨y, z, a1, a2, a3⟩ := separable_equivariant hgeo hL hm hg₁ hsym₁ hS₁ hS₁' hg hsym hK ho hi hk weightH weight hwH hw bias hb N n
    hC hn x (unpermute πi x') inH H hgi.1 hH.1 (fun o ho i hi => hp _ _ (hgood o ho) (gi i hi)) u1
  obtain ⟨z', y', b1, b2, b3⟩ := separable_reindex hgeo hL hg₁ hS₁ hg hloc ho hi hk weightH weight hwH hw bias (by rw [hd]; exact hb) N n
    hC hn (unpermute πi x') x' (inH.map left) inH' (H.map left) H' πi.symm _ hgi.1 hgi.2.1 u3 (movedGrid_lists hH)
    (fun o ho i hi => hp _ _ (hleft _ (hgood o ho)) (hleft _ (gi i hi))) u2
  rw [a2] at b1
  cases b1
  exact ⟨y, y', a1, b2, movedFeature_of hmo hgood hH (movedOutput_one a3) b3⟩

/-- group positions and cells, moved together. -/
def movePos {n : ℕ} (e : Equiv.Perm (Fin d)) (σ : LatticeSym d) (π : Equiv.Perm (Fin n)) (S : List ℕ) (i : List ℕ) : List ℕ :=
  (if h : i.headD 0 < n then (π ⟨i.headD 0, h⟩ : ℕ) else 0) :: σ.move e S i.tail

theorem movePos_bij {n : ℕ} {e : Equiv.Perm (Fin d)} {σ : LatticeSym d} (π : Equiv.Perm (Fin n)) {S' S : List ℕ}
    (hm : LatticeSym.Matches e σ S' S) : BoxBijection (n :: S') (n :: S) (movePos e σ π S) := by
  refine ⟨fun i hi => ?_, fun i j hi hj h => ?_, fun j hj => ?_⟩
  · obtain ⟨k, q, rfl, hk, hq⟩ := InB_cons_left hi
    unfold movePos
    rw [List.headD_cons, dif_pos hk]
    exact InB_cons.2 ⟨(π ⟨k, hk⟩).2, LatticeSym.move_InB hm hq⟩
  · obtain ⟨k, q, rfl, hk, hq⟩ := InB_cons_left hi
    obtain ⟨k', q', rfl, hk', hq'⟩ := InB_cons_left hj
    unfold movePos at h
    rw [List.headD_cons, List.headD_cons, dif_pos hk, dif_pos hk'] at h
    obtain ⟨h1, h2⟩ := List.cons.inj h
    have e1 := π.injective (Fin.ext h1)
    have e2 : q = q' := by
      have := congrArg (LatticeSym.move e σ.inv S') h2
      dsimp only [List.tail_cons] at this
      rw [LatticeSym.move_inv hm hq, LatticeSym.move_inv hm hq'] at this
      exact this
    rw [e2, (Fin.mk.inj e1)]
  · obtain ⟨k, q, rfl, hk, hq⟩ := InB_cons_left hj
    refine ⟨(π.symm ⟨k, hk⟩ : ℕ) :: σ.inv.move e S' q,
      InB_cons.2 ⟨(π.symm ⟨k, hk⟩).2, LatticeSym.move_InB (LatticeSym.inv_Matches hm) hq⟩, ?_⟩
    unfold movePos
    rw [List.headD_cons, dif_pos (π.symm ⟨k, hk⟩).2, Fin.eta, Equiv.apply_symm_apply, List.tail_cons, LatticeSym.move_inv' hm hq]

theorem movePos_get {n N C : ℕ} {e : Equiv.Perm (Fin d)} {σ : LatticeSym d} {π : Equiv.Perm (Fin n)} {S' S : List ℕ} {x x' : Tensor ℝ}
    (h : ∀ b c q (k : Fin n), b < N → c < C → InB S' q →
        x'.get (b :: c :: (π k : ℕ) :: σ.move e S q) = x.get (b :: c :: (k : ℕ) :: q)) :
    ∀ b c i, b < N → c < C → InB (n :: S') i → x'.get (b :: c :: movePos e σ π S i) = x.get (b :: c :: i) := by
  intro b c i hb hc hi
  obtain ⟨k, q, rfl, hk, hq⟩ := InB_cons_left hi
  unfold movePos
  rw [List.headD_cons, dif_pos hk]
  exact h b c q ⟨k, hk⟩ hb hc hq

theorem get_movePos {n N C : ℕ} {e : Equiv.Perm (Fin d)} {σ : LatticeSym d} {π : Equiv.Perm (Fin n)} {S' S : List ℕ} {x x' : Tensor ℝ}
    (h : ∀ b c i, b < N → c < C → InB (n :: S') i → x'.get (b :: c :: movePos e σ π S i) = x.get (b :: c :: i)) :
    ∀ b c q (k : Fin n), b < N → c < C → InB S' q →
        x'.get (b :: c :: (π k : ℕ) :: σ.move e S q) = x.get (b :: c :: (k : ℕ) :: q) := by
  intro b c q k hb hc hq
  have := h b c (k :: q) hb hc (InB_cons.2 ⟨k.2, hq⟩)
  unfold movePos at this
  rw [List.headD_cons, dif_pos k.2] at this
  exact this

end GConv.Conv

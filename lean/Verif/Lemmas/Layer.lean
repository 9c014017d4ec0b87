import Verif.Props.ConvInit

/-! # The padded convolution a layer performs -/

namespace GConv.Conv

open Tensor Spec

/-- The layer `L`, applied to a weight with the kernel extents of `ax`, has the geometry `ax`. -/
structure LayerGeom (L : Layer) (mode : F.CPad) (ax : List Axis) : Prop where
  rank : L.nd = ax.length
  rank1 : ax.length ≠ 1
  stride : L.stride = .tuple (ax.map Axis.stride)
  dilation : L.dilation = .tuple (ax.map Axis.dil)
  modeName : PadModeName L.paddingMode mode
  zeros : mode = .zeros → PadsAs L.padding ax ∧ (L.padding = .str "same" → ∀ a ∈ ax, a.stride = 1)
  other : mode ≠ .zeros → (F.pairs L.revPad).reverse = pads ax

theorem layerGeom_of_init {a : Args} {mode : F.CPad} {ax : List Axis} (hg : HasGeometry a mode ax) {L : Layer}
    (h : init a (kernelDims ax) = .ok L) : LayerGeom L mode ax := by
  have hrev := revPad_of_geometry hg h
  have ha := (C58_accepts a _ _ _ hg.stride hg.dilation).1 ⟨L, h⟩
  obtain ⟨nd, rev, hnd, hr, e⟩ := init_accepted a _ _ (kernelDims ax) hg.stride hg.dilation ha
  rw [e] at h; cases h
  have hnd' : nd = ax.length := by
    rcases hg.rank with ⟨h1, h2⟩ | ⟨h1, h2⟩ <;> rcases hnd with ⟨h3, h4⟩ | ⟨h3, h4⟩
    · omega
    · rw [h1] at h3; exact absurd h3 (by decide)
    · rw [h1] at h3; exact absurd h3 (by decide)
    · omega
  refine ⟨hnd', by rcases hg.rank with ⟨-, h⟩ | ⟨-, h⟩ <;> omega, hg.stride, hg.dilation, hg.mode, fun _ => ⟨?_, ?_⟩,
    fun _ => hrev⟩
  · show PadsAs (storedPadding nd a.padding) ax
    have hP := hg.padding
    cases hpd : a.padding with
    | str s => rw [hpd] at hP; exact hP
    | tuple l => rw [hpd] at hP; exact hP
    | int p =>
      rw [hpd] at hP
      refine ⟨?_, ?_⟩
      · rw [hnd']
        refine (List.eq_replicate_iff.2 ⟨by simp, fun b hb => ?_⟩).symm
        obtain ⟨x, hx, rfl⟩ := List.mem_map.1 hb
        exact (hP x hx).1
      · rw [hnd']
        refine (List.eq_replicate_iff.2 ⟨by simp, fun b hb => ?_⟩).symm
        obtain ⟨x, hx, rfl⟩ := List.mem_map.1 hb
        exact (hP x hx).2
  · intro hs x hx
    have hs' : a.padding = .str "same" := by
      have hs'' : storedPadding nd a.padding = .str "same" := hs
      cases hpd : a.padding with
      | str s => rw [hpd] at hs''; exact hs''
      | tuple l => rw [hpd] at hs''; cases hs''
      | int p => rw [hpd] at hs''; cases hs''
    rcases ha.2.2.2.2.1 "same" hs' with h | ⟨-, h⟩
    · exact absurd h (by decide)
    · exact h _ hg.stride _ (List.mem_map.2 ⟨x, hx, rfl⟩)

theorem pads_tuple {ax : List Axis} {l : List ℕ} (h1 : l = ax.map Axis.left) (h2 : l = ax.map Axis.right) :
    l.map (fun p => (p, p)) = pads ax := by
  unfold pads
  apply List.ext_getElem?
  intro i
  have e1 := congrArg (·[i]?) h1
  have e2 := congrArg (·[i]?) h2
  simp only [List.getElem?_map] at e1 e2 ⊢
  rw [e1] at e2 ⊢
  cases hx : ax[i]? with
  | none => rfl
  | some x => rw [hx] at e2; simp at e2; simp [← e2]

/-- What `_conv2d_forward` / `_conv3d_forward` compute. -/
theorem convForward_spec {L : Layer} {mode : F.CPad} {ax : List Axis} (hL : LayerGeom L mode ax) {S : List ℕ}
    (hg : GeomOk mode ax S) (x w : Tensor ℝ) (N Cout Cg groups : ℕ) (hx : x.shape = N :: Cg * groups :: S)
    (hw : w.shape = Cout :: Cg :: kernelDims ax) (h0 : 0 < groups) (hd : Cout % groups = 0) :
    ∃ z, L.convForward x w groups = .ok z ∧ z.shape = N :: Cout :: outDims ax S ∧
      ∀ n co o, InB (outDims ax S) o → z.get (n :: co :: o) = ∑ ci ∈ Finset.range Cg,
        corr mode ax S (fun q => x.get (n :: (co / (Cout / groups) * Cg + ci) :: q)) (fun k => w.get (co :: ci :: k)) o := by
  rw [L.convForward_batched (by rw [hx, List.length_cons, List.length_cons, hL.rank, ← GeomOk.length hg]; omega)]
  obtain ⟨y, z, hy, hz, hys, hzs, hzv⟩ := padConv_spec hg x w N Cout Cg groups hx hw h0 hd
  have hst : Layer.dims L.nd L.stride = ax.map Axis.stride := by
    rw [hL.stride]; exact if_neg (by rw [List.length_map]; exact hL.rank1)
  have hdi : Layer.dims L.nd L.dilation = ax.map Axis.dil := by
    rw [hL.dilation]; exact if_neg (by rw [List.length_map]; exact hL.rank1)
  have hzero : ∃ z', F.conv y w (ax.map Axis.stride) (.amounts (List.replicate L.nd 0)) (ax.map Axis.dil) groups = .ok z' ∧
      z'.shape = z.shape ∧ ∀ n co o, InB (outDims ax S) o → z'.get (n :: co :: o) = z.get (n :: co :: o) := by
    obtain ⟨y', hy', hys', hyv'⟩ := zeroPad_agrees y N (Cg * groups) (padDims ax S) hys
    have hlen : (padDims ax S).length = L.nd := by
      unfold padDims; rw [List.length_zipWith, ← GeomOk.length hg, min_self, hL.rank]
    rw [hlen] at hy'
    obtain ⟨z', hz', hzs', hzv'⟩ := convValid_congr hg y y' w N _ Cout Cg groups hys (by rw [hys, hys']) hw hyv' z hz
    refine ⟨z', ?_, hzs', hzv'⟩
    unfold F.conv
    dsimp only
    rw [List.map_replicate, hy', ok_bind, hz']
  by_cases hm : mode = .zeros
  · subst hm
    have hpm : L.paddingMode = "zeros" := by
      rcases hL.modeName with ⟨h, -⟩ | ⟨-, h⟩ | ⟨-, h⟩ | ⟨-, h⟩
      · exact h
      all_goals cases h
    obtain ⟨hP, hS⟩ := hL.zeros rfl
    unfold Layer.convBatched
    rw [if_neg (not_not.2 hpm), hst, hdi]
    cases hpd : L.padding with
    | int p =>
      rw [hpd] at hP
      refine ⟨z, ?_, hzs, hzv⟩
      have : (List.replicate L.nd p).map (fun p => (p, p)) = pads ax := by
        apply pads_tuple
        · rw [hL.rank]
          refine (List.eq_replicate_iff.2 ⟨by simp, fun b hb => ?_⟩).symm
          obtain ⟨x, hx, rfl⟩ := List.mem_map.1 hb
          exact (hP x hx).1
        · rw [hL.rank]
          refine (List.eq_replicate_iff.2 ⟨by simp, fun b hb => ?_⟩).symm
          obtain ⟨x, hx, rfl⟩ := List.mem_map.1 hb
          exact (hP x hx).2
      unfold Layer.convPad
      dsimp only
      rw [ok_bind]
      unfold F.conv
      dsimp only
      rw [this, hy, ok_bind, hz]
    | tuple l =>
      rw [hpd] at hP
      obtain ⟨h1, h2⟩ := hP
      refine ⟨z, ?_, hzs, hzv⟩
      have hlen : l.length ≠ 1 := by rw [h1, List.length_map]; exact hL.rank1
      unfold Layer.convPad Layer.expand
      dsimp only
      rw [if_neg hlen, ok_bind]
      unfold F.conv
      dsimp only
      rw [pads_tuple h1 h2, hy, ok_bind, hz]
    | str s =>
      rw [hpd] at hP
      rcases hP with ⟨rfl, hP⟩ | ⟨rfl, hP⟩
      · refine ⟨z, ?_, hzs, hzv⟩
        have hones : (ax.map Axis.stride).all (· == 1) = true := by
          rw [List.all_eq_true]
          intro b hb
          obtain ⟨x, hx, rfl⟩ := List.mem_map.1 hb
          rw [hS hpd x hx]; rfl
        have hpads : List.zipWith F.samePair (w.shape.drop 2) (ax.map Axis.dil) = pads ax := by
          rw [hw]
          show List.zipWith F.samePair (kernelDims ax) (ax.map Axis.dil) = pads ax
          unfold kernelDims pads
          rw [List.zipWith_map, List.zipWith_self]
          apply List.map_congr_left
          intro x hx
          have := hP x hx
          unfold F.samePair
          rw [← this.1, ← this.2]
          simp
        unfold Layer.convPad
        dsimp only
        rw [if_pos rfl, ok_bind]
        unfold F.conv
        dsimp only
        rw [if_pos hones, hpads, hy, ok_bind, hz]
      · have hpads : pads ax = List.replicate S.length (0, 0) := by
          refine List.eq_replicate_iff.2 ⟨by unfold pads; rw [List.length_map, GeomOk.length hg], fun b hb => ?_⟩
          unfold pads at hb
          obtain ⟨x, hx, rfl⟩ := List.mem_map.1 hb
          rw [(hP x hx).1, (hP x hx).2]
        obtain ⟨y', hy', hys', hyv'⟩ := zeroPad_agrees x N (Cg * groups) S hx
        rw [← hpads, hy] at hy'
        cases hy'
        rw [hys] at hys'
        have hPS : padDims ax S = S := by simpa using hys'
        obtain ⟨z', hz', hzs', hzv'⟩ := convValid_congr hg y x w N _ Cout Cg groups hys (by rw [hx, hys, hPS]) hw
          (fun n c p hp => (hyv' n c p (hPS ▸ hp)).symm) z hz
        refine ⟨z', ?_, by rw [hzs', hzs], fun n co o ho => by rw [hzv' n co o ho, hzv n co o ho]⟩
        unfold Layer.convPad
        dsimp only
        rw [if_neg (by decide), if_pos rfl, ok_bind]
        unfold F.conv
        dsimp only
        rw [hz']
  · have hpm : L.paddingMode ≠ "zeros" ∧ Layer.padMode L.paddingMode = .ok mode := by
      rcases hL.modeName with ⟨-, h⟩ | ⟨h, h'⟩ | ⟨h, h'⟩ | ⟨h, h'⟩
      · exact absurd h hm
      all_goals
        rw [h, h']
        exact ⟨by decide, rfl⟩
    obtain ⟨z', hz', hzs', hzv'⟩ := hzero
    refine ⟨z', ?_, by rw [hzs', hzs], fun n co o ho => by rw [hzv' n co o ho, hzv n co o ho]⟩
    unfold Layer.convBatched
    rw [if_pos hpm.1, hpm.2, ok_bind, hst, hdi]
    unfold F.pad
    rw [hL.other hm, hy, ok_bind, hz']

end GConv.Conv

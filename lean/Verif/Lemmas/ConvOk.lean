import Verif.Lemmas.Layer

/-! # When the padded convolution of a layer succeeds -/

namespace GConv.Conv

open Tensor Spec

/-- the shapes a convolution accepts. -/
def ConvOk (mode : F.CPad) (ax : List Axis) (S : List ℕ) (C Cout Cg groups : ℕ) : Prop :=
  GeomOk mode ax S ∧ C = Cg * groups ∧ 0 < groups ∧ Cout % groups = 0

theorem padAxes_ok {mode : F.CPad} {x y : Tensor ℝ} {ps : List (ℕ × ℕ)} {N C : ℕ} {S : List ℕ} (hx : x.shape = N :: C :: S)
    (h : F.padAxes mode x ps = .ok y) :
    S.length = ps.length ∧ (List.zipWith (fun s lr => F.padAllowed mode s lr.1 lr.2) S ps).all id = true ∧
      y.shape = N :: C :: List.zipWith (fun s lr => s + lr.1 + lr.2) S ps := by
  unfold F.padAxes at h
  rw [hx] at h
  dsimp only at h
  split at h
  · rename_i hc
    cases h
    exact ⟨hc.1, hc.2, rfl⟩
  · cases h

theorem padAxes_error {mode : F.CPad} {x : Tensor ℝ} {ps : List (ℕ × ℕ)} {e : PyErr}
    (h : F.padAxes mode x ps = .error e) : e = .runtimeError := by
  unfold F.padAxes at h
  split at h
  · split at h
    · cases h
    · cases h; rfl
  · cases h; rfl

theorem convValid_ok {y w z : Tensor ℝ} {st dil : List ℕ} {groups N C Cout Cg : ℕ} {T K : List ℕ} (hy : y.shape = N :: C :: T)
    (hw : w.shape = Cout :: Cg :: K) (h : F.convValid y w st dil groups = .ok z) :
    T.length = K.length ∧ C = Cg * groups ∧ 0 < groups ∧ Cout % groups = 0 ∧ st.all (0 < ·) = true ∧
      dil.all (0 < ·) = true ∧ K.all (0 < ·) = true ∧ F.fits T K dil = true := by
  unfold F.convValid at h
  rw [hy, hw] at h
  dsimp only at h
  split at h
  · rename_i hc
    obtain ⟨c1, -, -, c4, c5, c6, c7, c8, c9, c10⟩ := hc
    exact ⟨c1, c4, c5, c6, c7, c8, c9, c10⟩
  · cases h

theorem convValid_error {y w : Tensor ℝ} {st dil : List ℕ} {groups : ℕ} {e : PyErr}
    (h : F.convValid y w st dil groups = .error e) : e = .runtimeError := by
  unfold F.convValid at h
  split at h
  · split at h
    · cases h
    · cases h; rfl
  · cases h; rfl

theorem geomOk_of {mode : F.CPad} : ∀ {ax : List Axis} {S : List ℕ}, S.length = (pads ax).length →
    (List.zipWith (fun s lr => F.padAllowed mode s lr.1 lr.2) S (pads ax)).all id = true →
    (ax.map Axis.stride).all (0 < ·) = true → (ax.map Axis.dil).all (0 < ·) = true →
    (kernelDims ax).all (0 < ·) = true →
    F.fits (List.zipWith (fun s lr => s + lr.1 + lr.2) S (pads ax)) (kernelDims ax) (ax.map Axis.dil) = true →
    GeomOk mode ax S
  | [], [], _, _, _, _, _, _ => .nil
  | [], _ :: _, h, _, _, _, _, _ => by simp [pads] at h
  | _ :: _, [], h, _, _, _, _, _ => by simp [pads] at h
  | a :: ax, s :: S, h1, h2, h3, h4, h5, h6 => by
    unfold pads kernelDims at *
    simp only [List.map_cons, List.zipWith_cons_cons, List.all_cons, Bool.and_eq_true, decide_eq_true_iff, F.fits] at *
    refine .cons ⟨h5.1, h3.1, h4.1, h6.1, h2.1⟩ (geomOk_of (by simpa [pads] using h1) ?_ ?_ ?_ ?_ ?_)
    · exact h2.2
    · exact h3.2
    · exact h4.2
    · exact h5.2
    · exact h6.2

theorem conv_error {x w : Tensor ℝ} {st dil : List ℕ} {p : F.ConvPad} {groups : ℕ} {e : PyErr}
    (h : F.conv x w st p dil groups = .error e) : e = .runtimeError := by
  have hb : ∀ ps, (F.padAxes .zeros x ps >>= fun y => F.convValid y w st dil groups) = .error e → e = .runtimeError := by
    intro ps h
    cases hp : F.padAxes .zeros x ps with
    | error e' => rw [hp] at h; cases h; exact padAxes_error hp
    | ok y => rw [hp, ok_bind] at h; exact convValid_error h
  unfold F.conv at h
  cases p with
  | valid => exact convValid_error h
  | same =>
    dsimp only at h
    split at h
    · exact hb _ h
    · cases h; rfl
  | amounts l => exact hb _ h

/-- all errors of the convolution are RuntimeErrors. -/
theorem convBatched_error {L : Layer} {mode : F.CPad} {ax : List Axis} (hL : LayerGeom L mode ax) {x w : Tensor ℝ}
    {groups : ℕ} {e : PyErr} (h : L.convBatched x w groups = .error e) : e = .runtimeError := by
  unfold Layer.convBatched at h
  split at h
  · cases hp : Layer.padMode L.paddingMode with
    | error e' =>
      rw [hp] at h; cases h
      unfold Layer.padMode at hp
      repeat (split at hp; · cases hp)
      cases hp; rfl
    | ok m =>
      rw [hp, ok_bind] at h
      unfold F.pad at h
      cases hq : F.padAxes m x (F.pairs L.revPad).reverse with
      | error e' => rw [hq] at h; cases h; exact padAxes_error hq
      | ok y => rw [hq, ok_bind] at h; exact conv_error h
  · cases hp : Layer.convPad L.nd L.padding with
    | error e' =>
      rw [hp] at h; cases h
      unfold Layer.convPad at hp
      split at hp
      · split at hp
        · cases hp
        · split at hp
          · cases hp
          · cases hp; rfl
      · cases hp
      · cases hp
    | ok p => rw [hp, ok_bind] at h; exact conv_error h

theorem convForward_error {L : Layer} {mode : F.CPad} {ax : List Axis} (hL : LayerGeom L mode ax) {x w : Tensor ℝ}
    {groups : ℕ} {e : PyErr} (h : L.convForward x w groups = .error e) : e = .runtimeError := by
  unfold Layer.convForward F.unbatched at h
  split at h
  · cases hq : L.convBatched ⟨1 :: x.shape, fun idx => x.get idx.tail⟩ w groups with
    | error e' =>
      dsimp only at h
      rw [hq] at h; cases h; exact convBatched_error hL hq
    | ok y =>
      dsimp only at h
      rw [hq] at h; cases h
  · exact convBatched_error hL h

theorem finish_ok {mode : F.CPad} {ax : List Axis} {x w y z : Tensor ℝ} {groups N C Cout Cg : ℕ} {S : List ℕ}
    (hw : w.shape = Cout :: Cg :: kernelDims ax) (hlen : S.length = (pads ax).length)
    (hall : (List.zipWith (fun s lr => F.padAllowed mode s lr.1 lr.2) S (pads ax)).all id = true)
    (hy : y.shape = N :: C :: List.zipWith (fun s lr => s + lr.1 + lr.2) S (pads ax))
    (h : F.convValid y w (ax.map Axis.stride) (ax.map Axis.dil) groups = .ok z) : ConvOk mode ax S C Cout Cg groups := by
  obtain ⟨-, h1, h2, h3, h4, h5, h6, h7⟩ := convValid_ok hy hw h
  exact ⟨geomOk_of hlen hall h4 h5 h6 h7, h1, h2, h3⟩

theorem zipWith_zero : ∀ (T : List ℕ) {n : ℕ}, T.length = n →
    List.zipWith (fun s (lr : ℕ × ℕ) => s + lr.1 + lr.2) T (List.replicate n (0, 0)) = T
  | [], _, rfl => rfl
  | t :: T, _, rfl => by
    rw [List.length_cons, List.replicate_succ, List.zipWith_cons_cons, zipWith_zero T rfl]
    rfl

/-- a convolution that succeeds has shapes that fit. -/
theorem convForward_ok {L : Layer} {mode : F.CPad} {ax : List Axis} (hL : LayerGeom L mode ax) {x w z : Tensor ℝ}
    {groups N C Cout Cg : ℕ} {S : List ℕ} (hlen : S.length = ax.length) (hx : x.shape = N :: C :: S) (hw : w.shape = Cout :: Cg :: kernelDims ax)
    (h : L.convForward x w groups = .ok z) : ConvOk mode ax S C Cout Cg groups := by
  rw [L.convForward_batched (by rw [hx, List.length_cons, List.length_cons, hL.rank, hlen]; omega)] at h
  have hst : Layer.dims L.nd L.stride = ax.map Axis.stride := by
    rw [hL.stride]; exact if_neg (by rw [List.length_map]; exact hL.rank1)
  have hdi : Layer.dims L.nd L.dilation = ax.map Axis.dil := by
    rw [hL.dilation]; exact if_neg (by rw [List.length_map]; exact hL.rank1)
  unfold Layer.convBatched at h
  rw [hst, hdi] at h
  by_cases hm : mode = .zeros
  · subst hm
    have hpm : L.paddingMode = "zeros" := by
      rcases hL.modeName with ⟨h, -⟩ | ⟨-, h⟩ | ⟨-, h⟩ | ⟨-, h⟩
      · exact h
      all_goals cases h
    obtain ⟨hP, hS⟩ := hL.zeros rfl
    rw [if_neg (not_not.2 hpm)] at h
    have key : ∀ ps, ps = pads ax → (F.padAxes .zeros x ps >>= fun y =>
        F.convValid y w (ax.map Axis.stride) (ax.map Axis.dil) groups) = .ok z → ConvOk .zeros ax S C Cout Cg groups := by
      intro ps hps h
      subst hps
      cases hp : F.padAxes .zeros x (pads ax) with
      | error e => rw [hp] at h; cases h
      | ok y =>
        rw [hp, ok_bind] at h
        obtain ⟨h1, h2, h3⟩ := padAxes_ok hx hp
        exact finish_ok (x := x) hw h1 h2 h3 h
    cases hpd : L.padding with
    | int p =>
      rw [hpd] at hP h
      have : (List.replicate L.nd p).map (fun p => (p, p)) = pads ax := by
        apply pads_tuple
        · rw [hL.rank]
          refine (List.eq_replicate_iff.2 ⟨by simp, fun b hb => ?_⟩).symm
          obtain ⟨x, hx, rfl⟩ := List.mem_map.1 hb
          exact (hP x hx).1
        · rw [hL.rank]
          refine (List.eq_replicate_iff.2 ⟨by simp, fun b hb => ?_⟩).symm
          obtain ⟨x, hx, rfl⟩ := List.mem_map.1 hb
          exact (hP x hx).2
      unfold Layer.convPad at h
      dsimp only at h
      rw [ok_bind] at h
      exact key _ this h
    | tuple l =>
      rw [hpd] at hP h
      obtain ⟨h1, h2⟩ := hP
      have hlen : l.length ≠ 1 := by rw [h1, List.length_map]; exact hL.rank1
      unfold Layer.convPad Layer.expand at h
      dsimp only at h
      rw [if_neg hlen, ok_bind] at h
      exact key _ (pads_tuple h1 h2) h
    | str s =>
      rw [hpd] at hP h
      rcases hP with ⟨rfl, hP⟩ | ⟨rfl, hP⟩
      · have hones : (ax.map Axis.stride).all (· == 1) = true := by
          rw [List.all_eq_true]
          intro b hb
          obtain ⟨x, hx, rfl⟩ := List.mem_map.1 hb
          rw [hS hpd x hx]; rfl
        have hpads : List.zipWith F.samePair (w.shape.drop 2) (ax.map Axis.dil) = pads ax := by
          rw [hw]
          show List.zipWith F.samePair (kernelDims ax) (ax.map Axis.dil) = pads ax
          unfold kernelDims pads
          rw [List.zipWith_map, List.zipWith_self]
          apply List.map_congr_left
          intro x hx
          have := hP x hx
          unfold F.samePair
          rw [← this.1, ← this.2]
          simp
        unfold Layer.convPad at h
        dsimp only at h
        rw [if_pos rfl, ok_bind] at h
        unfold F.conv at h
        dsimp only at h
        rw [if_pos hones] at h
        exact key _ hpads h
      · have hpads : pads ax = List.replicate ax.length (0, 0) := by
          refine List.eq_replicate_iff.2 ⟨by unfold pads; rw [List.length_map], fun b hb => ?_⟩
          unfold pads at hb
          obtain ⟨x, hx, rfl⟩ := List.mem_map.1 hb
          rw [(hP x hx).1, (hP x hx).2]
        unfold Layer.convPad at h
        dsimp only at h
        rw [if_neg (by decide), if_pos rfl, ok_bind] at h
        have h' : F.convValid x w (ax.map Axis.stride) (ax.map Axis.dil) groups = .ok z := h
        have hl : S.length = ax.length := by
          rw [(convValid_ok hx hw h').1]; simp [kernelDims]
        have hz := zipWith_zero S hl
        refine finish_ok (x := x) (N := N) hw ?_ ?_ (y := x) ?_ h'
        · rw [hpads, List.length_replicate, hl]
        · rw [List.all_eq_true]
          intro b hb
          rw [List.mem_iff_getElem] at hb
          obtain ⟨i, hi, rfl⟩ := hb
          rw [List.getElem_zipWith]
          rfl
        · rw [hpads, hz, hx]
  · have hpm : L.paddingMode ≠ "zeros" ∧ Layer.padMode L.paddingMode = .ok mode := by
      rcases hL.modeName with ⟨-, h⟩ | ⟨h, h'⟩ | ⟨h, h'⟩ | ⟨h, h'⟩
      · exact absurd h hm
      all_goals
        rw [h, h']
        exact ⟨by decide, rfl⟩
    rw [if_pos hpm.1, hpm.2, ok_bind] at h
    unfold F.pad at h
    rw [hL.other hm] at h
    cases hp : F.padAxes mode x (pads ax) with
    | error e => rw [hp] at h; cases h
    | ok y =>
      rw [hp, ok_bind] at h
      obtain ⟨h1, h2, h3⟩ := padAxes_ok hx hp
      unfold F.conv at h
      dsimp only at h
      rw [List.map_replicate] at h
      cases hq : F.padAxes .zeros y (List.replicate L.nd (0, 0)) with
      | error e => rw [hq] at h; cases h
      | ok y' =>
        rw [hq, ok_bind] at h
        obtain ⟨g1, g2, g3⟩ := padAxes_ok h3 hq
        rw [List.length_replicate] at g1
        rw [zipWith_zero _ g1] at g3
        exact finish_ok (x := x) hw h1 h2 g3 h

/-- the convolution either succeeds because its shapes fit, or raises a RuntimeError. -/
theorem convForward_cases {L : Layer} {mode : F.CPad} {ax : List Axis} (hL : LayerGeom L mode ax) (w : Tensor ℝ)
    (groups N C Cout Cg : ℕ) (S : List ℕ) (hlen : S.length = ax.length) (hw : w.shape = Cout :: Cg :: kernelDims ax) :
    ConvOk mode ax S C Cout Cg groups ∨ ∀ x : Tensor ℝ, x.shape = N :: C :: S → L.convForward x w groups = .error .runtimeError := by
  by_cases hc : ConvOk mode ax S C Cout Cg groups
  · exact Or.inl hc
  · refine Or.inr fun x hx => ?_
    cases h : L.convForward x w groups with
    | ok z => exact absurd (convForward_ok hL hlen hx hw h) hc
    | error e => rw [convForward_error hL h]

end GConv.Conv

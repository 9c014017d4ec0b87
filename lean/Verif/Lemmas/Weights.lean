import Verif.Lemmas.Batch
import Verif.Spec.Rotations

/-! # The convolution layers read the entries of their inputs and filters only -/
namespace GConv.Weights

open Tensor Spec Batch

variable {x x' w w' : Tensor ℝ} {G G' : Type} {asG : G → G'}

theorem view (h : SameEntries x x') (t : List ℕ) : Outcomes2 SameEntries (x.view t) (x'.view t) := by
  by_cases hp : x.shape.prod = t.prod
  · rw [view_ok hp, view_ok (by rw [← h.1]; exact hp)]
    refine .ok ⟨rfl, fun i hi => ?_⟩
    dsimp only
    rw [← h.1]
    exact h.2 _ (unravel_InB (by rw [hp]; exact ravel_lt hi))
  · unfold Tensor.view
    rw [if_neg hp, if_neg (by rw [← h.1]; exact hp)]
    exact .error _

theorem viewInfer (h : SameEntries x x') (t t' : List ℕ) : Outcomes2 SameEntries (x.viewInfer t t') (x'.viewInfer t t') := by
  unfold Tensor.viewInfer
  dsimp only
  rw [← h.1]
  split
  · exact .error _
  · exact view h _

theorem padAxes (mode : F.CPad) (ps : List (ℕ × ℕ)) (h : SameEntries x x') :
    Outcomes2 SameEntries (F.padAxes mode x ps) (F.padAxes mode x' ps) := by
  obtain ⟨hs, hv⟩ := h
  unfold F.padAxes
  rw [← hs]
  generalize x.shape = s at *
  rcases s with _ | ⟨N, _ | ⟨C, S⟩⟩
  · exact .error _
  · exact .error _
  dsimp only
  split
  · rename_i hc
    refine .ok ⟨rfl, fun i hi => ?_⟩
    obtain ⟨n, i, rfl, hn, hi⟩ := InB_cons_left hi
    obtain ⟨c, p, rfl, hc', hp⟩ := InB_cons_left hi
    dsimp only
    cases e : F.padIndex mode S ps p with
    | none => rfl
    | some q => exact hv _ (InB_cons.2 ⟨hn, InB_cons.2 ⟨hc', padIndex_InB hc.1 hc.2 hp e⟩⟩)
  · exact .error _

theorem convValid (st dil : List ℕ) (groups : ℕ) (h : SameEntries x x') (hw : SameEntries w w') :
    Outcomes2 SameEntries (F.convValid x w st dil groups) (F.convValid x' w' st dil groups) := by
  obtain ⟨hs, hv⟩ := h
  obtain ⟨hsw, hvw⟩ := hw
  unfold F.convValid
  rw [← hs, ← hsw]
  generalize x.shape = s at *
  generalize w.shape = ws at *
  rcases s with _ | ⟨N, _ | ⟨C, S⟩⟩
  · exact .error _
  · exact .error _
  rcases ws with _ | ⟨Cout, _ | ⟨Cg, K⟩⟩
  · exact .error _
  · exact .error _
  dsimp only
  split
  · rename_i hc
    obtain ⟨c1, c2, c3, c4, c5, c6, c7, c8, c9, c10⟩ := hc
    refine .ok ⟨rfl, fun i hi => ?_⟩
    obtain ⟨n, i, rfl, hn, hi⟩ := InB_cons_left hi
    obtain ⟨co, o, rfl, hco, ho⟩ := InB_cons_left hi
    dsimp only
    refine congrArg List.sum (List.map_congr_left fun ci hci => ?_)
    refine congrArg List.sum (List.map_congr_left fun kk hk => ?_)
    rw [mem_allIdx] at hk
    rw [hv _ (InB_cons.2 ⟨hn, InB_cons.2 ⟨by rw [c4]; exact channel_lt c6 hco (List.mem_range.1 hci),
      inPos_lt c1 c2 c3 c7 c10 c9 ho hk⟩⟩), hvw _ (InB_cons.2 ⟨hco, InB_cons.2 ⟨List.mem_range.1 hci, hk⟩⟩)]
  · exact .error _

theorem conv (st dil : List ℕ) (p : F.ConvPad) (groups : ℕ) (h : SameEntries x x') (hw : SameEntries w w') :
    Outcomes2 SameEntries (F.conv x w st p dil groups) (F.conv x' w' st p dil groups) := by
  unfold F.conv
  cases p with
  | valid => exact convValid st dil groups h hw
  | same =>
    dsimp only
    rw [← hw.1]
    split
    · exact Outcomes2.bind (padAxes _ _ h) fun _ _ h => convValid st dil groups h hw
    · exact .error _
  | amounts l => exact Outcomes2.bind (padAxes _ _ h) fun _ _ h => convValid st dil groups h hw

theorem convBatched (L : Conv.Layer) (groups : ℕ) (h : SameEntries x x') (hw : SameEntries w w') :
    Outcomes2 SameEntries (L.convBatched x w groups) (L.convBatched x' w' groups) := by
  unfold Conv.Layer.convBatched
  split
  · refine Outcomes2.same _ fun mode => ?_
    exact Outcomes2.bind (padAxes mode _ h) fun _ _ h => conv _ _ _ groups h hw
  · exact Outcomes2.same _ fun p => conv _ _ p groups h hw

theorem bind_ok {A B : Type} {e : Except PyErr A} {f : A → Except PyErr B} {b : B} (h : (e >>= f) = .ok b) :
    ∃ a, e = .ok a ∧ f a = .ok b := by
  cases e with
  | error => cases h
  | ok a => exact ⟨a, rfl, h⟩

theorem padAxes_head {mode : F.CPad} {ps : List (ℕ × ℕ)} {y : Tensor ℝ} (h : F.padAxes mode x ps = .ok y) :
    y.shape.head? = x.shape.head? := by
  unfold F.padAxes at h
  split at h
  · rename_i e
    rw [e]
    split at h
    · cases h; rfl
    · cases h
  · cases h

theorem convValid_head {st dil : List ℕ} {groups : ℕ} {y : Tensor ℝ} (h : F.convValid x w st dil groups = .ok y) :
    y.shape.head? = x.shape.head? := by
  unfold F.convValid at h
  split at h
  · rename_i e _
    rw [e]
    split at h
    · cases h; rfl
    · cases h
  · cases h

theorem conv_head {st dil : List ℕ} {p : F.ConvPad} {groups : ℕ} {y : Tensor ℝ} (h : F.conv x w st p dil groups = .ok y) :
    y.shape.head? = x.shape.head? := by
  unfold F.conv at h
  split at h
  · exact convValid_head h
  · split at h
    · obtain ⟨y, hy, h⟩ := bind_ok h
      exact (convValid_head h).trans (padAxes_head hy)
    · cases h
  · obtain ⟨y, hy, h⟩ := bind_ok h
    exact (convValid_head h).trans (padAxes_head hy)

theorem convBatched_head {L : Conv.Layer} {groups : ℕ} {y : Tensor ℝ} (h : L.convBatched x w groups = .ok y) :
    y.shape.head? = x.shape.head? := by
  unfold Conv.Layer.convBatched at h
  split at h
  · obtain ⟨mode, -, h⟩ := bind_ok h
    obtain ⟨z, hz, h⟩ := bind_ok h
    exact (conv_head h).trans (padAxes_head hz)
  · obtain ⟨p, -, h⟩ := bind_ok h
    exact conv_head h

theorem convForward (L : Conv.Layer) (groups : ℕ) (h : SameEntries x x') (hw : SameEntries w w') :
    Outcomes2 SameEntries (L.convForward x w groups) (L.convForward x' w' groups) := by
  unfold Conv.Layer.convForward F.unbatched
  rw [← h.1]
  split
  · have h1 : SameEntries (⟨1 :: x.shape, fun idx => x.get idx.tail⟩ : Tensor ℝ) ⟨1 :: x.shape, fun idx => x'.get idx.tail⟩ := by
      refine ⟨rfl, fun i hi => ?_⟩
      obtain ⟨n, i, rfl, -, hi⟩ := InB_cons_left hi
      exact h.2 i hi
    have h2 := convBatched L groups h1 hw
    have h3 : ∀ y, L.convBatched ⟨1 :: x.shape, fun idx => x.get idx.tail⟩ w groups = .ok y → ∃ t, y.shape = 1 :: t := by
      intro y hy
      have := convBatched_head hy
      dsimp only [List.head?_cons] at this
      cases e : y.shape with
      | nil => rw [e] at this; cases this
      | cons a t => rw [e] at this; cases this; exact ⟨t, rfl⟩
    show Outcomes2 SameEntries (L.convBatched ⟨1 :: x.shape, fun idx => x.get idx.tail⟩ w groups >>= _)
      (L.convBatched ⟨1 :: x.shape, fun idx => x'.get idx.tail⟩ w' groups >>= _)
    revert h2 h3
    generalize L.convBatched _ w groups = a
    generalize L.convBatched _ w' groups = b
    intro h2 h3
    cases h2 with
    | error e => exact .error _
    | ok h =>
      obtain ⟨t, ht⟩ := h3 _ rfl
      refine .ok ⟨by rw [h.1], fun i hi => h.2 _ ?_⟩
      dsimp only at hi
      rw [ht] at hi ⊢
      exact InB_cons.2 ⟨Nat.one_pos, hi⟩
  · exact convBatched L groups h hw

/-! ## broadcasting -/

theorem bcastRev_left : ∀ {a b s i : List ℕ}, bcastRev a b = some s → InB s i →
    InB a (List.zipWith (fun n i => if n = 1 then 0 else i) a i)
  | [], _, _, _, _, _ => by simp
  | n :: a, [], s, i, h, hi => by
    cases h
    obtain ⟨j, i, rfl, hj, hi⟩ := InB_cons_left hi
    refine InB_cons.2 ⟨by dsimp only; split <;> omega, ?_⟩
    exact bcastRev_left (b := []) (by cases a <;> rfl) hi
  | n :: a, m :: b, s, i, h, hi => by
    unfold bcastRev at h
    cases e : bcastRev a b with
    | none => rw [e] at h; simp at h
    | some t =>
      rw [e] at h
      have : ∃ k, s = k :: t ∧ (n = 1 ∨ k = n) := by
        split at h
        · cases h; exact ⟨_, rfl, Or.inr rfl⟩
        · split at h
          · cases h; exact ⟨_, rfl, Or.inl (by assumption)⟩
          · split at h
            · cases h; exact ⟨_, rfl, Or.inr rfl⟩
            · cases h
      obtain ⟨k, rfl, hk⟩ := this
      obtain ⟨j, i, rfl, hj, hi⟩ := InB_cons_left hi
      refine InB_cons.2 ⟨?_, bcastRev_left e hi⟩
      rcases hk with rfl | rfl
      · simp
      · dsimp only; split <;> omega

theorem InB_reverse {s i : List ℕ} (h : InB s i) : InB s.reverse i.reverse := by
  unfold InB at *
  exact List.rel_reverse h

theorem bidx_left {a b s i : List ℕ} (h : bcastShape a b = some s) (hi : InB s i) : InB a (bidx a i) := by
  unfold bcastShape at h
  cases e : bcastRev a.reverse b.reverse with
  | none => rw [e] at h; cases h
  | some t =>
    rw [e] at h
    cases h
    have h1 := InB_reverse hi
    rw [List.reverse_reverse] at h1
    have h2 := bcastRev_left e h1
    have h3 := InB_reverse h2
    have hl : a.length ≤ i.length := by
      have := h2.length
      rw [List.length_zipWith, List.length_reverse, List.length_reverse] at this
      omega
    rw [List.reverse_reverse] at h3
    unfold bidx
    have e : List.zipWith (fun n i => if n = 1 then 0 else i) a (i.drop (i.length - a.length)) =
        (List.zipWith (fun n i => if n = 1 then 0 else i) a.reverse i.reverse).reverse := by
      conv_rhs => rw [show i = i.take (i.length - a.length) ++ i.drop (i.length - a.length) from (List.take_append_drop _ _).symm,
        List.reverse_append]
      have hd : (i.drop (i.length - a.length)).length = a.length := by rw [List.length_drop]; omega
      have : List.zipWith (fun n i => if n = 1 then 0 else i) a.reverse
          ((i.drop (i.length - a.length)).reverse ++ (i.take (i.length - a.length)).reverse) =
          List.zipWith (fun n i => if n = 1 then 0 else i) a.reverse (i.drop (i.length - a.length)).reverse := by
        have hz := List.zipWith_append (f := fun n i => if n = 1 then 0 else i) (l₁ := a.reverse) (l₁' := ([] : List ℕ))
          (l₂ := (i.drop (i.length - a.length)).reverse) (l₂' := (i.take (i.length - a.length)).reverse)
          (by rw [List.length_reverse, List.length_reverse, hd])
        rw [List.append_nil, List.zipWith_nil_left, List.append_nil] at hz
        exact hz
      rw [this, ← List.reverse_zipWith hd.symm, List.reverse_reverse]
    rw [e]
    exact h3

theorem addBias (bias : Option (Tensor ℝ)) (h : SameEntries x x') :
    Outcomes2 SameEntries (Conv.Layer.addBias x bias) (Conv.Layer.addBias x' bias) := by
  unfold Conv.Layer.addBias
  cases bias with
  | none => exact .ok h
  | some b =>
    dsimp only
    unfold bzip
    rw [← h.1]
    cases e : bcastShape x.shape b.shape with
    | none => exact .error _
    | some s =>
      refine .ok ⟨rfl, fun i hi => ?_⟩
      dsimp only
      rw [h.2 _ (bidx_left e hi)]

/-! ## layers whose grids correspond -/

theorem finish (H : Tensor G) (N C : ℕ) (bias : Option (Tensor ℝ)) (h : SameEntries x x') :
    Outcomes2 (SameMaps asG)
      (do let v ← x.view (N :: C :: H.shape.headD 0 :: x.shape.drop 2); let v ← Conv.Layer.addBias v bias; return (v, H))
      (do let v ← x'.view (N :: C :: (H.map asG).shape.headD 0 :: x'.shape.drop 2); let v ← Conv.Layer.addBias v bias; return (v, H.map asG)) := by
  rw [← h.1]
  exact Outcomes2.bind (view h _) fun _ _ h => Outcomes2.bind (addBias bias h) fun _ _ h => .ok ⟨h, rfl⟩

theorem liftingConv (L : Conv.Layer) (bias : Option (Tensor ℝ)) (N : ℕ) (input : Tensor ℝ) (H : Tensor G) (hw : SameEntries w w') :
    Outcomes2 (SameMaps asG) (L.liftingConv w bias N input H) (L.liftingConv w' bias N input (H.map asG)) := by
  unfold Conv.Layer.liftingConv
  refine Outcomes2.bind (viewInfer hw _ _) fun _ _ hw => ?_
  refine Outcomes2.bind (convForward L _ ⟨rfl, fun _ _ => rfl⟩ hw) fun _ _ h => ?_
  exact finish H _ _ bias h

theorem groupConv (L : Conv.Layer) (bias : Option (Tensor ℝ)) (N : ℕ) (D : List ℕ) (input : Tensor ℝ) (inH outH : Tensor G) (hw : SameEntries w w') :
    Outcomes2 (SameMaps asG) (L.groupConv w bias N D input inH outH) (L.groupConv w' bias N D input (inH.map asG) (outH.map asG)) := by
  unfold Conv.Layer.groupConv
  refine Outcomes2.bind (view ⟨rfl, fun _ _ => rfl⟩ _) fun _ _ h => ?_
  refine Outcomes2.bind (view hw _) fun _ _ hw => ?_
  refine Outcomes2.bind (convForward L _ h hw) fun _ _ h => ?_
  exact finish outH _ _ bias h

theorem separableConv (L : Conv.Layer) {wH wH' : Tensor ℝ} (bias : Option (Tensor ℝ)) (N : ℕ) (D : List ℕ) (input : Tensor ℝ) (inH outH : Tensor G)
    (hwH : SameEntries wH wH') (hw : SameEntries w w') :
    Outcomes2 (SameMaps asG) (L.separableConv wH w bias N D input inH outH) (L.separableConv wH' w' bias N D input (inH.map asG) (outH.map asG)) := by
  unfold Conv.Layer.separableConv
  refine Outcomes2.bind (view ⟨rfl, fun _ _ => rfl⟩ _) fun _ _ h => ?_
  rw [← hwH.1]
  refine Outcomes2.bind (view hwH _) fun _ _ hwH => ?_
  refine Outcomes2.bind (convForward L _ h hwH) fun _ _ h => ?_
  refine Outcomes2.bind (view hw _) fun _ _ hw => ?_
  refine Outcomes2.bind (convForward L _ h hw) fun _ _ h => ?_
  exact finish outH _ _ bias h

end GConv.Weights

import Verif.Lemmas.Batch
import Verif.Props.Separable
import Verif.Model.Pooling

/-! # C81: samples of a batch are processed independently

For every kernel and configuration (also those for which the call raises): running a layer, a pooling module or a
whole network in evaluation mode on a batch put together from samples of another batch gives the corresponding samples
of the result. In particular every sample can be processed alone, and reordering a batch reorders the results. -/

namespace GConv.Batch

open Tensor Spec

variable {r : ℕ → ℕ} {N N' k nd : ℕ} {x y : Tensor ℝ} {G : Type} {d : ℕ}

section layers
variable (L : Conv.Layer) (hL : L.nd = nd) (K : GroupKernel G d) {bias : Option (Tensor ℝ)} (hb : BiasShape bias L.outC nd)
include hL hb

/-- lifting layers, inputs `(N, C, *S)` with `nd` spatial axes. -/
theorem C81_lifting (w : Tensor ℝ) (H : Tensor G) (h : Picks r N N' (nd + 1) x y) :
    Outcomes2 (PicksLayer r N N' (nd + 2)) (L.liftingForward K w bias x H) (L.liftingForward K w bias y H) := by
  obtain ⟨s, hs, hx, hy, -⟩ := h.samples
  unfold Conv.Layer.liftingForward
  rw [hx, hy]
  refine Outcomes2.same _ fun w => ?_
  unfold Conv.Layer.liftingConv
  refine Outcomes2.same _ fun w => ?_
  exact Outcomes2.bind (convForward L w _ (by omega) h) fun _ _ h => finish hb H h

theorem groupConv (w : Tensor ℝ) {S : List ℕ} (hS : S.length = nd) (inH outH : Tensor G) (h : Picks r N N' k x y) :
    Outcomes2 (PicksLayer r N N' (nd + 2)) (L.groupConv w bias N S x inH outH) (L.groupConv w bias N' S y inH outH) := by
  unfold Conv.Layer.groupConv
  refine Outcomes2.bind (view h _) fun _ _ h => ?_
  refine Outcomes2.same _ fun w => ?_
  refine Outcomes2.bind (convForward L w _ (by simp only [List.length_cons]; omega) h) fun _ _ h => ?_
  rw [List.length_cons, hS] at h
  exact finish hb outH h

/-- group layers, inputs `(N, C, |H|, *S)` with `nd` spatial axes. -/
theorem C81_group (w : Tensor ℝ) (inH outH : Tensor G) (h : Picks r N N' (nd + 2) x y) :
    Outcomes2 (PicksLayer r N N' (nd + 2)) (L.groupForward K w bias x inH outH) (L.groupForward K w bias y inH outH) := by
  obtain ⟨s, hs, hx, hy, -⟩ := h.samples
  unfold Conv.Layer.groupForward
  rw [hx, hy]
  rcases s with _ | ⟨C, _ | ⟨n, S⟩⟩
  · cases hs
  · simp at hs
  · exact Outcomes2.same _ fun w => groupConv L hL hb w (by simpa using hs) _ _ h

/-- layers that convolve over the group only. -/
theorem C81_subgroup (w : Tensor ℝ) (inH outH : Tensor G) (h : Picks r N N' (nd + 2) x y) :
    Outcomes2 (PicksLayer r N N' (nd + 2)) (L.subgroupForward K w bias x inH outH)
      (L.subgroupForward K w bias y inH outH) := by
  obtain ⟨s, hs, hx, hy, -⟩ := h.samples
  unfold Conv.Layer.subgroupForward
  rw [hx, hy]
  rcases s with _ | ⟨C, _ | ⟨n, S⟩⟩
  · cases hs
  · simp at hs
  · exact Outcomes2.same _ fun w => groupConv L hL hb w (by simpa using hs) _ _ h

/-- separable layers. -/
theorem C81_separable (wH w : Tensor ℝ) (inH outH : Tensor G) (h : Picks r N N' (nd + 2) x y) :
    Outcomes2 (PicksLayer r N N' (nd + 2)) (L.separableForward K wH w bias x inH outH)
      (L.separableForward K wH w bias y inH outH) := by
  obtain ⟨s, hs, hx, hy, -⟩ := h.samples
  unfold Conv.Layer.separableForward
  rw [hx, hy]
  rcases s with _ | ⟨C, _ | ⟨n, S⟩⟩
  · cases hs
  · simp at hs
  · refine Outcomes2.same _ fun w => ?_
    unfold Conv.Layer.separableConv
    refine Outcomes2.bind (view h _) fun _ _ h => ?_
    refine Outcomes2.same _ fun _ => ?_
    refine Outcomes2.bind (convForward L _ _ (by simp only [List.length_cons] at hs ⊢; omega) h) fun _ _ h => ?_
    refine Outcomes2.same _ fun _ => ?_
    refine Outcomes2.bind (convForward L _ _ (by simp only [List.length_cons] at hs ⊢; omega) h) fun _ _ h => ?_
    have hl : S.length = nd := by simpa using hs
    rw [List.length_cons, hl] at h
    exact finish hb outH h

end layers

/-! ## activations, normalisation, pooling -/

/-- activations. -/
theorem C81_act (a : Activations.Act) (H : Tensor G) (h : Picks r N N' k x y) :
    Outcomes2 (PicksLayer r N N' k) (a.forward x H) (a.forward y H) := by
  unfold Activations.Act.forward
  refine Outcomes2.same _ fun f => .ok ⟨?_, rfl⟩
  obtain ⟨s, hs, hx, hy, hv⟩ := h.samples
  exact ⟨h.pos, h.lt, s, hs, hx, hy, fun b q hb hq => congrArg f (hv b q hb hq)⟩

/-- the result of a normalisation layer, without the module's state. -/
theorem folded {norm : Tensor ℝ → Except PyErr (Tensor ℝ × F.Running)}
    (hn : ∀ x y, Picks r N N' (nd + 1) x y →
      Outcomes2 (fun a b => Picks r N N' (nd + 1) a.1 b.1) (norm x) (norm y)) (H : Tensor G)
    (h : Picks r N N' (nd + 2) x y) (hd : 0 < nd) :
    Outcomes2 (PicksLayer r N N' (nd + 2)) ((Normalization.folded norm x H).map Prod.fst)
      ((Normalization.folded norm y H).map Prod.fst) := by
  obtain ⟨s, hs, hx, hy, -⟩ := h.samples
  unfold Normalization.folded
  rw [hx, hy]
  rcases s with _ | ⟨C, _ | ⟨n, _ | ⟨Z, S⟩⟩⟩
  · cases hs
  · simp at hs
  · simp at hs; omega
  · have hl : S.length + 1 = nd := by simpa using hs
    dsimp only
    have hv := view h (C :: n * Z :: S)
    generalize x.view (N :: C :: n * Z :: S) = v at hv
    generalize y.view (N' :: C :: n * Z :: S) = v' at hv
    cases hv with
    | error e => exact .error e
    | @ok a b h =>
      rw [ok_bind, ok_bind]
      have : (C :: n * Z :: S).length = nd + 1 := by simp; omega
      rw [this] at h
      have hv := hn _ _ h
      generalize norm a = v at hv
      generalize norm b = v' at hv
      cases hv with
      | error e => exact .error e
      | @ok a b h =>
        rw [ok_bind, ok_bind]
        have hv := view h (C :: n :: Z :: S)
        generalize a.1.view (N :: C :: n :: Z :: S) = v at hv
        generalize b.1.view (N' :: C :: n :: Z :: S) = v' at hv
        cases hv with
        | error e => exact .error e
        | ok h =>
          have : (C :: n :: Z :: S).length = nd + 2 := by simp; omega
          rw [this] at h
          exact .ok ⟨h, rfl⟩

/-- batch normalisation in evaluation mode with tracked statistics. -/
theorem C81_batch_norm_eval (hd : 0 < d) (a : F.NormArgs) (ha : a.track = true) (s : F.Running) (H : Tensor G)
    (h : Picks r N N' (d + 2) x y) :
    Outcomes2 (PicksLayer r N N' (d + 2)) ((Normalization.batch d a false s x H).map Prod.fst)
      ((Normalization.batch d a false s y H).map Prod.fst) := by
  refine folded (fun x y h => ?_) H h hd
  obtain ⟨t, ht, hx, hy, hv⟩ := h.samples
  unfold F.batchNorm
  rw [hx, hy]
  rcases t with _ | ⟨C, S⟩
  · exact .error _
  · dsimp only
    simp only [ha, not_true_eq_false, or_self, Bool.false_eq_true, if_false]
    split
    · exact .error _
    split
    · exact .error _
    refine .ok ⟨h.pos, h.lt, _, ht, rfl, rfl, fun b q hb hq => ?_⟩
    obtain ⟨c, q, rfl, hc, hq⟩ := InB_cons_left hq
    dsimp only
    rw [hv b _ hb (InB_cons.2 ⟨hc, hq⟩)]
    rfl

theorem boxMean_congr {s : List ℕ} {f g : List ℕ → ℝ} (h : ∀ q, InB s q → f q = g q) : F.boxMean s f = F.boxMean s g := by
  unfold F.boxMean F.total
  rw [List.map_congr_left fun q hq => h q (mem_allIdx.1 hq)]

theorem boxVar_congr {s : List ℕ} {f g : List ℕ → ℝ} (h : ∀ q, InB s q → f q = g q) : F.boxVar s f = F.boxVar s g := by
  unfold F.boxVar F.total
  rw [boxMean_congr h, List.map_congr_left fun q hq => by rw [h q (mem_allIdx.1 hq)]]

/-- instance normalisation, in training and in evaluation mode. -/
theorem C81_instance_norm (hd : 0 < d) (a : F.NormArgs) (t : Bool) (s : F.Running) (H : Tensor G)
    (h : Picks r N N' (d + 2) x y) :
    Outcomes2 (PicksLayer r N N' (d + 2)) ((Normalization.inst d a t s x H).map Prod.fst)
      ((Normalization.inst d a t s y H).map Prod.fst) := by
  refine folded (fun x y h => ?_) H h hd
  obtain ⟨S, hS, hx, hy, hv⟩ := h.samples
  unfold F.instanceNorm
  rw [hx, hy, List.length_cons, List.length_cons, if_neg (by omega), if_neg (by omega)]
  unfold F.instanceNormBatched
  rw [hx, hy]
  rcases S with _ | ⟨C, S⟩
  · exact .error _
  dsimp only
  split
  · exact .error _
  split
  · exact .error _
  split
  · split
    · exact .error _
    split
    · exact .error _
    refine .ok ⟨h.pos, h.lt, _, hS, rfl, rfl, fun b q hb hq => ?_⟩
    obtain ⟨c, q, rfl, hc, hq⟩ := InB_cons_left hq
    have e : ∀ q, InB S q → F.instChannel y b c q = F.instChannel x (r b) c q := fun q hq =>
      hv b _ hb (InB_cons.2 ⟨hc, hq⟩)
    show F.standardise a.eps (F.boxMean S (F.instChannel y b c)) (F.boxVar S (F.instChannel y b c)) (a.scale c)
      (a.shift c) (y.get (b :: c :: q)) = F.standardise a.eps (F.boxMean S (F.instChannel x (r b) c))
      (F.boxVar S (F.instChannel x (r b) c)) (a.scale c) (a.shift c) (x.get (r b :: c :: q))
    rw [boxMean_congr e, boxVar_congr e, hv b _ hb (InB_cons.2 ⟨hc, hq⟩)]
  · split
    · exact .error _
    refine .ok ⟨h.pos, h.lt, _, hS, rfl, rfl, fun b q hb hq => ?_⟩
    obtain ⟨c, q, rfl, hc, hq⟩ := InB_cons_left hq
    dsimp only
    rw [hv b _ hb (InB_cons.2 ⟨hc, hq⟩)]
    rfl

/-- layer normalisation over axes of the samples. -/
theorem C81_layer_norm (shape : List ℕ) (hs : shape.length ≤ k) (eps : ℝ) (weight bias : List ℕ → ℝ) (H : Tensor G)
    (h : Picks r N N' k x y) :
    Outcomes2 (PicksLayer r N N' k) (Normalization.layer shape eps weight bias x H)
      (Normalization.layer shape eps weight bias y H) := by
  unfold Normalization.layer
  refine Outcomes2.bind (R := Picks r N N' k) ?_ fun _ _ h => .ok ⟨h, rfl⟩
  obtain ⟨S, hS, hx, hy, hv⟩ := h.samples
  unfold F.layerNorm
  dsimp only
  obtain ⟨l, hl⟩ : ∃ l, (N :: S).length - shape.length = l + 1 := ⟨k - shape.length, by simp; omega⟩
  have hl' : (N' :: S).length - shape.length = l + 1 := hl
  rw [hx, hy, hl, hl', List.drop_succ_cons, List.drop_succ_cons]
  by_cases e : S.drop l = shape
  · rw [if_pos e, if_pos e]
    refine .ok ⟨h.pos, h.lt, _, hS, rfl, rfl, fun b q hb hq => ?_⟩
    dsimp only
    have hq' : InB (S.take l ++ S.drop l) (q.take l ++ q.drop l) := by rwa [List.take_append_drop, List.take_append_drop]
    have e' : ∀ p, InB shape p → y.get ((b :: q).take (l + 1) ++ p) = x.get ((r b :: q).take (l + 1) ++ p) := fun p hp => by
      rw [List.take_succ_cons, List.take_succ_cons, List.cons_append, List.cons_append]
      refine hv b _ hb ?_
      have : InB (S.take l) (q.take l) := by
        unfold InB at hq ⊢
        exact List.forall₂_take l hq
      have := this.append (show InB (S.drop l) p by rw [e]; exact hp)
      rwa [List.take_append_drop] at this
    rw [boxMean_congr e', boxVar_congr e', hv b _ hb hq]
    rfl
  · rw [if_neg e, if_neg e]; exact .error _

/-- two results of group or global pools: of the same kind, the values correspond. -/
inductive PicksResult (r : ℕ → ℕ) (N N' k : ℕ) : Pooling.Result → Pooling.Result → Prop
  | tensor {a b} : Picks r N N' k a b → PicksResult r N N' k (.tensor a) (.tensor b)
  | pair {a b i j} : Picks r N N' k a b → PicksResult r N N' k (.pair a i) (.pair b j)

theorem flattenFrom (a : ℕ) (h : Picks r N N' k x y) :
    Outcomes2 (Picks r N N' (min a k + 1)) (x.flattenFrom (a + 1)) (y.flattenFrom (a + 1)) := by
  obtain ⟨S, hS, hx, hy, -⟩ := h.samples
  unfold Tensor.flattenFrom
  rw [hx, hy, List.length_cons, List.length_cons, List.take_succ_cons, List.take_succ_cons, List.drop_succ_cons,
    List.drop_succ_cons]
  by_cases e : a + 1 < S.length + 1
  · rw [if_pos e, if_pos e]
    have := view h (S.take a ++ [(S.drop a).prod])
    rw [List.length_append, List.length_take, hS, List.length_singleton] at this
    exact this
  · rw [if_neg e, if_neg e]; exact .error _

theorem along (a : ℕ) {S : List ℕ} (ha : a < S.length) (hx : x.shape = N :: S) (hy : y.shape = N' :: S)
    (hv : ∀ b q, b < N' → InB S q → y.get (b :: q) = x.get (r b :: q)) {b : ℕ} {q : List ℕ} (hb : b < N')
    (hq : InB (S.eraseIdx a) q) : y.along (a + 1) (b :: q) = x.along (a + 1) (r b :: q) := by
  unfold Tensor.along
  rw [hx, hy, List.getD_cons_succ, List.getD_cons_succ]
  refine List.map_congr_left fun i hi => ?_
  rw [List.take_succ_cons, List.take_succ_cons, List.drop_succ_cons, List.drop_succ_cons, List.cons_append,
    List.cons_append, List.cons_append, List.cons_append]
  refine hv b _ hb ?_
  rw [List.mem_range] at hi
  rw [List.eraseIdx_eq_take_drop_succ] at hq
  have h1 : InB (S.take a) (q.take a) := by
    have := List.forall₂_take a hq
    rwa [List.take_append_of_le_length (by rw [List.length_take]; omega), List.take_take, min_self] at this
  have h2 : InB (S.drop (a + 1)) (q.drop a) := by
    have := List.forall₂_drop a hq
    rwa [List.drop_append_of_le_length (by rw [List.length_take]; omega), List.drop_take, Nat.sub_self, List.take_zero,
      List.nil_append] at this
  have h3 : InB [S.getD a 0] [i] := InB_cons.2 ⟨hi, InB_nil_nil⟩
  have := (h1.append h3).append h2
  have e : S.take a ++ [S.getD a 0] ++ S.drop (a + 1) = S := by
    have : S.getD a 0 = S[a] := by rw [List.getD_eq_getElem?_getD, List.getElem?_eq_getElem ha]; rfl
    rw [List.append_assoc, List.singleton_append, this, List.getElem_cons_drop, List.take_append_drop]
  rwa [e] at this

theorem meanDim {a : ℕ} (ha : a < k) (h : Picks r N N' k x y) :
    Outcomes2 (Picks r N N' (k - 1)) (x.meanDim (a + 1)) (y.meanDim (a + 1)) := by
  obtain ⟨S, hS, hx, hy, hv⟩ := h.samples
  have ha' : a < S.length := by rw [hS]; exact ha
  have hl : a + 1 < (N :: S).length := by rw [List.length_cons]; omega
  have hl' : a + 1 < (N' :: S).length := hl
  unfold Tensor.meanDim
  rw [if_pos (by rw [hx]; exact hl), if_pos (by rw [hy]; exact hl')]
  refine .ok ⟨h.pos, h.lt, S.eraseIdx a, by rw [List.length_eraseIdx_of_lt ha', hS], by dsimp only; rw [hx]; rfl,
    by dsimp only; rw [hy]; rfl, fun b q hb hq => ?_⟩
  dsimp only
  rw [along a ha' hx hy hv hb hq, hx, hy]
  rfl

theorem maxDim {a : ℕ} (ha : a < k) (h : Picks r N N' k x y) :
    Outcomes2 (fun p q => Picks r N N' (k - 1) p.1 q.1) (x.maxDim (a + 1)) (y.maxDim (a + 1)) := by
  obtain ⟨S, hS, hx, hy, hv⟩ := h.samples
  have ha' : a < S.length := by rw [hS]; exact ha
  unfold Tensor.maxDim
  rw [hx, hy, List.getD_cons_succ, List.getD_cons_succ]
  by_cases e : 0 < S.getD a 0
  · rw [if_pos e, if_pos e]
    refine .ok ⟨h.pos, h.lt, S.eraseIdx a, by rw [List.length_eraseIdx_of_lt ha', hS], rfl, rfl, fun b q hb hq => ?_⟩
    dsimp only
    rw [along a ha' hx hy hv hb hq]
  · rw [if_neg e, if_neg e]; exact .error _

theorem keepLast (h : Picks r N N' k x y) : Picks r N N' (k + 1) x.keepLast y.keepLast := by
  obtain ⟨S, hS, hx, hy, hv⟩ := h.samples
  refine ⟨h.pos, h.lt, S ++ [1], by simp [hS], by simp [Tensor.keepLast, hx], by simp [Tensor.keepLast, hy],
    fun b q hb hq => ?_⟩
  obtain ⟨q, i, rfl, hq', hi⟩ := InB_append_left hq
  obtain ⟨i, u, rfl, -, hu⟩ := InB_cons_left hi
  cases InB_nil_left hu
  unfold Tensor.keepLast
  dsimp only
  rw [← List.cons_append, ← List.cons_append, List.dropLast_concat, List.dropLast_concat]
  exact hv b q hb hq'

/-- `GAvgGroupPool` -/
theorem C81_avg_group (h : Picks r N N' (k + 2) x y) :
    Outcomes2 (PicksResult r N N' (k + 1)) (Pooling.avgGroup x) (Pooling.avgGroup y) := by
  unfold Pooling.avgGroup
  exact Outcomes2.bind (meanDim (a := 1) (by omega) h) fun _ _ h => .ok (.tensor h)

/-- `GMaxGroupPool` -/
theorem C81_max_group (h : Picks r N N' (k + 2) x y) :
    Outcomes2 (PicksResult r N N' (k + 1)) (Pooling.maxGroup x) (Pooling.maxGroup y) := by
  unfold Pooling.maxGroup
  exact Outcomes2.bind (maxDim (a := 1) (by omega) h) fun _ _ h => .ok (.pair h)

/-- `GAvgGlobalPool` -/
theorem C81_avg_global (h : Picks r N N' (k + 2) x y) :
    Outcomes2 (PicksResult r N N' 2) (Pooling.avgGlobal x) (Pooling.avgGlobal y) := by
  unfold Pooling.avgGlobal
  refine Outcomes2.bind (flattenFrom 1 h) fun _ _ h => ?_
  have e : min 1 (k + 2) + 1 = 2 := by omega
  rw [e] at h
  exact Outcomes2.bind (meanDim (a := 1) (by omega) h) fun _ _ h => .ok (.tensor (keepLast h))

/-- `GMaxGlobalPool` -/
theorem C81_max_global (h : Picks r N N' (k + 2) x y) :
    Outcomes2 (PicksResult r N N' 2) (Pooling.maxGlobal x) (Pooling.maxGlobal y) := by
  unfold Pooling.maxGlobal
  refine Outcomes2.bind (flattenFrom 1 h) fun _ _ h => ?_
  have e : min 1 (k + 2) + 1 = 2 := by omega
  rw [e] at h
  exact Outcomes2.bind (maxDim (a := 1) (by omega) h) fun _ _ h => .ok (.pair (keepLast h))

theorem windows_InB : ∀ {S : List ℕ} {ws : List (List ℕ)} {q : List ℕ}, List.Forall₂ (fun w s => ∀ j ∈ w, j < s) ws S →
    q ∈ F.windows ws → InB S q
  | [], _, q, .nil, hq => by
    unfold F.windows at hq
    rw [List.mem_singleton] at hq
    subst hq; exact InB_nil_nil
  | s :: S, w :: ws, q, .cons h1 h2, hq => by
    unfold F.windows at hq
    obtain ⟨i, hi, hq⟩ := List.mem_flatMap.1 hq
    obtain ⟨q, hq', rfl⟩ := List.mem_map.1 hq
    exact InB_cons.2 ⟨h1 i hi, windows_InB h2 hq'⟩

theorem pool_windows {A : Type} (win : A → ℕ → ℕ → List ℕ) (hw : ∀ a s o, ∀ j ∈ win a s o, j < s) :
    ∀ {ax : List A} {S o : List ℕ}, ax.length = S.length → o.length = S.length →
      List.Forall₂ (fun w s => ∀ j ∈ w, j < s)
        (List.zipWith (fun (f : ℕ → List ℕ) i => f i) (List.zipWith (fun a s => win a s) ax S) o) S
  | [], [], [], _, _ => .nil
  | a :: ax, s :: S, o :: os, h1, h2 =>
    .cons (hw a s o) (pool_windows win hw (by simpa using h1) (by simpa using h2))

theorem cells_InB (p : F.Pool) {S o q : List ℕ} (hp : p.rank = S.length) (ho : o.length = S.length)
    (hq : q ∈ p.cells S o) : InB S q := by
  have h1 : ∀ (a : F.PoolAxis) (s o : ℕ), ∀ j ∈ a.window s o, j < s := by
    intro a s o j hj
    unfold F.PoolAxis.window at hj
    obtain ⟨i, -, hi⟩ := List.mem_filterMap.1 hj
    split at hi
    · cases hi; omega
    · cases hi
  have h2 : ∀ (n s o : ℕ), ∀ j ∈ F.adaptiveWindow s n o, j < s := by
    intro n s o j hj
    unfold F.adaptiveWindow at hj
    exact List.mem_range.1 (List.mem_filter.1 hj).1
  have e : ∀ out : List ℕ, List.zipWith F.adaptiveWindow S out = List.zipWith (fun a s => F.adaptiveWindow s a) out S := fun out => by
    rw [List.zipWith_comm]
  cases p with
  | max ax => exact windows_InB (pool_windows (fun (a : F.PoolAxis) s => a.window s) h1 hp ho) hq
  | avg ax => exact windows_InB (pool_windows (fun (a : F.PoolAxis) s => a.window s) h1 hp ho) hq
  | adaptiveMax out =>
    unfold F.Pool.cells at hq; dsimp only at hq
    rw [e] at hq
    exact windows_InB (pool_windows (fun a s => F.adaptiveWindow s a) h2 hp ho) hq
  | adaptiveAvg out =>
    unfold F.Pool.cells at hq; dsimp only at hq
    rw [e] at hq
    exact windows_InB (pool_windows (fun a s => F.adaptiveWindow s a) h2 hp ho) hq

theorem value_congr (p : F.Pool) {S o : List ℕ} {f g : List ℕ → ℝ} (hp : p.rank = S.length) (ho : o.length = S.length)
    (h : ∀ q, InB S q → f q = g q) : p.value S o f = p.value S o g := by
  have : (p.cells S o).map f = (p.cells S o).map g := List.map_congr_left fun q hq => h q (cells_InB p hp ho hq)
  unfold F.Pool.value
  dsimp only
  rw [this]

theorem mapM_length {l : List (Option ℕ)} {o : List ℕ} (h : l.mapM id = some o) : o.length = l.length := by
  induction l generalizing o with
  | nil => cases h; rfl
  | cons a l ih =>
    rw [List.mapM_cons] at h
    cases a with
    | none => cases h
    | some a =>
      cases e : l.mapM id with
      | none => rw [e] at h; cases h
      | some o' =>
        rw [e] at h
        cases h
        rw [List.length_cons, List.length_cons, ih e]

theorem outDims_len (p : F.Pool) {S O : List ℕ} (hp : p.rank = S.length) (h : p.outDims S = some O) : O.length = S.length := by
  cases p with
  | max ax => rw [mapM_length h, List.length_zipWith]; simp only [F.Pool.rank] at hp; omega
  | avg ax => rw [mapM_length h, List.length_zipWith]; simp only [F.Pool.rank] at hp; omega
  | adaptiveMax out => unfold F.Pool.outDims at h; dsimp only at h; split at h <;> cases h; exact hp
  | adaptiveAvg out => unfold F.Pool.outDims at h; dsimp only at h; split at h <;> cases h; exact hp

theorem poolApply (p : F.Pool) (h : Picks r N N' k x y) : Outcomes2 (Picks r N N' k) (p.apply x) (p.apply y) := by
  obtain ⟨S, hS, hx, hy, hv⟩ := h.samples
  unfold F.Pool.apply
  dsimp only
  rw [hx, hy, List.length_cons, List.length_cons]
  by_cases e : S.length + 1 = p.rank + 1 ∨ S.length + 1 = p.rank + 2
  · obtain ⟨l, hl, hl'⟩ : ∃ l, S.length + 1 - p.rank = l + 1 ∧ l ≤ 1 := ⟨S.length - p.rank, by omega, by omega⟩
    have hpr : p.rank = (S.drop l).length := by rw [List.length_drop]; omega
    rw [hl, List.drop_succ_cons, List.drop_succ_cons, List.take_succ_cons, List.take_succ_cons, Nat.add_sub_cancel]
    have hc : 0 < (N :: S).getD l 0 ↔ 0 < (N' :: S).getD l 0 := by
      cases l with
      | zero => exact ⟨fun _ => h.pos, fun _ => picks_pos h⟩
      | succ l => rfl
    by_cases c : 0 < (N :: S).getD l 0
    · rw [if_pos ⟨e, c⟩, if_pos ⟨e, hc.1 c⟩]
      cases hO : p.outDims (S.drop l) with
      | none => exact .error _
      | some O =>
        have hOl := outDims_len p hpr hO
        refine .ok ⟨h.pos, h.lt, S.take l ++ O, ?_, rfl, rfl, fun b q hb hq => ?_⟩
        · rw [List.length_append, List.length_take, hOl, List.length_drop, ← hS]; omega
        · obtain ⟨u, o, rfl, hu, ho⟩ := InB_append_left hq
          have hul : u.length = l := by rw [hu.length, List.length_take]; omega
          dsimp only
          rw [List.take_succ_cons, List.take_succ_cons, List.drop_succ_cons, List.drop_succ_cons, ← hul,
            List.take_left, List.drop_left]
          refine value_congr p (by rw [hul]; exact hpr) (by rw [hul, ho.length, hOl]) fun q hq => ?_
          refine hv b _ hb ?_
          have := hu.append (by rwa [hul] at hq)
          rwa [List.take_append_drop] at this
    · rw [if_neg fun h => c h.2, if_neg fun h => c (hc.2 h.2)]; exact .error _
  · rw [if_neg fun h => e h.1, if_neg fun h => e h.1]; exact .error _

/-- the spatial pooling modules. -/
theorem C81_spatial (p : F.Pool) (H : Tensor G) (h : Picks r N N' (k + 2) x y) :
    Outcomes2 (PicksLayer r N N' 2) (Pooling.spatial p x H) (Pooling.spatial p y H) := by
  obtain ⟨S, hS, hx, hy, hv⟩ := h.samples
  rcases S with _ | ⟨C, _ | ⟨n, S⟩⟩
  · cases hS
  · simp at hS
  unfold Pooling.spatial Tensor.flatten
  rw [hx, hy]
  have hl : 2 < (N :: C :: n :: S).length := by simp
  have hl' : 2 < (N' :: C :: n :: S).length := by simp
  rw [if_pos hl, if_pos hl']
  have e : (C * n :: S).length = k + 1 := by simpa using hS
  have hv := view h (C * n :: S)
  rw [e] at hv
  refine Outcomes2.bind (R := Picks r N N' (k + 1)) (by simpa using hv) fun _ _ h => ?_
  refine Outcomes2.bind (poolApply p h) fun _ _ h => ?_
  exact Outcomes2.bind (view h [C, n]) fun _ _ h => .ok ⟨h, rfl⟩

/-! ## networks -/

/-- layers that process samples independently: everything but batch normalisation with the statistics of the batch;
the biases of convolutions have the shape the constructor gives them, the layers convolve over `d` spatial axes. -/
def SampleWise : Net.Block G d → Prop
  | .act _ => True
  | .batch a training _ => training = false ∧ a.track = true
  | .inst _ _ _ => True
  | .groupSE M _ _ bias => M.layer.nd = d ∧ BiasShape bias M.layer.outC d
  | .separableSE M _ _ _ bias => M.layer.nd = d ∧ BiasShape bias M.layer.outC d
  | .groupE M _ _ bias => M.layer.nd = d ∧ BiasShape bias M.layer.outC d
  | .separableE M _ _ _ bias => M.layer.nd = d ∧ BiasShape bias M.layer.outC d

theorem block (hd : 0 < d) (b : Net.Block G d) (hb : SampleWise b) (H : Tensor G) (h : Picks r N N' (d + 2) x y) :
    Outcomes2 (PicksLayer r N N' (d + 2)) (b.call x H) (b.call y H) := by
  cases b with
  | act a => exact C81_act a H h
  | batch a t s => obtain ⟨rfl, ha⟩ := hb; exact C81_batch_norm_eval hd a ha s H h
  | inst a t s => exact C81_instance_norm hd a t s H h
  | groupSE M move w bias => exact C81_group M.layer hb.1 M.kernel hb.2 w _ _ h
  | separableSE M move wH w bias => exact C81_separable M.layer hb.1 M.kernel hb.2 wH w _ _ h
  | groupE M move w bias => exact C81_group M.layer hb.1 M.kernel hb.2 w _ _ h
  | separableE M move wH w bias => exact C81_separable M.layer hb.1 M.kernel hb.2 wH w _ _ h

/-- networks of any depth. -/
theorem C81_network (hd : 0 < d) (bs : List (Net.Block G d)) (hb : ∀ b ∈ bs, SampleWise b) (H : Tensor G)
    (h : Picks r N N' (d + 2) x y) :
    Outcomes2 (PicksLayer r N N' (d + 2)) (Net.run bs (x, H)) (Net.run bs (y, H)) := by
  induction bs generalizing x y H with
  | nil => exact .ok ⟨h, rfl⟩
  | cons b bs ih =>
    unfold Net.run
    refine Outcomes2.bind (block hd b (hb b (by simp)) H h) fun p q h => ?_
    obtain ⟨p, P⟩ := p
    obtain ⟨q, Q⟩ := q
    obtain ⟨h, e⟩ := h
    cases e
    exact ih (fun b hb' => hb b (by simp [hb'])) _ h

/-- a lifting convolution followed by layers of any kind and number and global average pooling. -/
theorem C81_classifier (hd : 0 < d) (M : Conv.Module G d) (hM : M.layer.nd = d) (move : G → G) (w : Tensor ℝ) {bias : Option (Tensor ℝ)}
    (hbias : BiasShape bias M.layer.outC d) (bs : List (Net.Block G d)) (hb : ∀ b ∈ bs, SampleWise b)
    (h : Picks r N N' (d + 1) x y) :
    Outcomes2 (PicksResult r N N' 2)
      (do let p ← M.lift move w bias x none; let q ← Net.run bs p; Pooling.avgGlobal q.1)
      (do let p ← M.lift move w bias y none; let q ← Net.run bs p; Pooling.avgGlobal q.1) := by
  refine Outcomes2.bind (C81_lifting M.layer hM M.kernel hbias w _ h) fun p q h => ?_
  obtain ⟨p, P⟩ := p
  obtain ⟨q, Q⟩ := q
  obtain ⟨h, e⟩ := h
  cases e
  exact Outcomes2.bind (C81_network hd bs hb _ h) fun _ _ h => C81_avg_global h.1

theorem nd_of_init {a : Conv.Args} {st dil ks : List ℕ} (hst : a.stride = .tuple st) (hdil : a.dilation = .tuple dil)
    {L : Conv.Layer} (h : Conv.init a ks = .ok L) : (a.convMode = "2d" ∧ L.nd = 2) ∨ (a.convMode = "3d" ∧ L.nd = 3) := by
  obtain ⟨nd, rev, h1, -, e⟩ := Conv.init_accepted a st dil ks hst hdil ((Conv.C58_accepts a st dil ks hst hdil).1 ⟨L, h⟩)
  rw [e] at h
  cases h
  exact h1

/-- The premade modules convolve over the spatial axes of their kernels, as `C81_network` asks for. -/
theorem C81_modules (c : Conv.ConvOpts) (s : GridCache.Store (Tensor ℝ)) (opt opt' : List SO3.Euler) :
    (∀ k M, Conv.liftingSE2 k c = .ok M ∨ Conv.fullSE2 k c = .ok M → M.layer.nd = 2) ∧
    (∀ k M, Conv.liftingSE3 s opt k c = .ok M ∨ Conv.fullSE3 s opt k c = .ok M → M.layer.nd = 3) ∧
    (∀ k M, Conv.liftingE2 k c = .ok M ∨ Conv.fullE2 k c = .ok M → M.layer.nd = 2) ∧
    (∀ k M, Conv.liftingE3 s opt opt' k c = .ok M ∨ Conv.fullE3 s opt opt' k c = .ok M → M.layer.nd = 3) := by
  refine ⟨fun k M h => ?_, fun k M h => ?_, fun k M h => ?_, fun k M h => ?_⟩
  · rcases h with h | h <;> (obtain ⟨K, -, hL, -, -⟩ := Conv.build_ok h; exact (nd_of_init rfl rfl hL).elim And.right fun h => absurd (show "2d" = "3d" from h.1) (by decide))
  · rcases h with h | h <;> (obtain ⟨K, -, hL, -, -⟩ := Conv.build_ok h; exact (nd_of_init rfl rfl hL).elim (fun h => absurd (show "3d" = "2d" from h.1) (by decide)) And.right)
  · rcases h with h | h <;> (obtain ⟨K, -, hL, -, -⟩ := Conv.build_ok h; exact (nd_of_init rfl rfl hL).elim And.right fun h => absurd (show "2d" = "3d" from h.1) (by decide))
  · rcases h with h | h <;> (obtain ⟨K, -, hL, -, -⟩ := Conv.build_ok h; exact (nd_of_init rfl rfl hL).elim (fun h => absurd (show "3d" = "2d" from h.1) (by decide)) And.right)

/-! ## a case that succeeds -/

/-- `GConvSE2` on three 9 x 8 images; the second image alone gives the second result. -/
example (n : ℕ) (hn : 0 < n) (w input inH : Tensor ℝ)
    (hw : w.shape = [(KernelSE2.grid (KernelSE2.exArgs n)).shape.headD 0, 6, 2, 5, 5])
    (hx : input.shape = [3, 4, n, 9, 8]) (hin : inH.shape = [n]) :
    ∃ M out out', Conv.fullSE2 (KernelSE2.exArgs n) Conv.padOpts = .ok M ∧
      M.groupSE id w none input inH none = .ok (out, inH) ∧
      M.groupSE id w none ⟨[1, 4, n, 9, 8], fun i => input.get (1 :: i.tail)⟩ inH none = .ok (out', inH) ∧
      out.shape = [3, 6, n, 7, 6] ∧
      out'.shape = [1, 6, n, 7, 6] ∧ ∀ q, InB [6, n, 7, 6] q → out'.get (0 :: q) = out.get (1 :: q) := by
  obtain ⟨M, out, -, hM, o₁, -, hs, -⟩ := Conv.C62_violated_padding n hn w ⟨_, 0⟩ ⟨_, 0⟩ input inH hw rfl rfl hx hin
  have hp : Picks (fun _ => 1) 3 1 4 input ⟨[1, 4, n, 9, 8], fun i => input.get (1 :: i.tail)⟩ :=
    ⟨Nat.one_pos, fun _ _ => by norm_num, _, rfl, hx, rfl, fun _ _ _ _ => rfl⟩
  have := C81_group M.layer ((C81_modules Conv.padOpts (fun _ _ => none) [] []).1 _ M (Or.inr hM)) M.kernel (bias := none) (nd := 2) (fun _ h => by cases h) w inH
    (Conv.permuteGrid M.permute id inH) hp
  have e : ∀ x, M.layer.groupForward M.kernel w none x inH (Conv.permuteGrid M.permute id inH) =
    M.groupSE id w none x inH none := fun x => rfl
  rw [e, e, o₁] at this
  generalize e2 : M.groupSE id w none ⟨[1, 4, n, 9, 8], fun i => input.get (1 :: i.tail)⟩ inH none = r2 at this
  cases this with
  | @ok _ p2 h =>
    obtain ⟨a, b⟩ := p2
    obtain ⟨h, hb⟩ := h
    cases hb
    obtain ⟨s, -, h1, h2, hv⟩ := h.samples
    rw [hs] at h1
    cases h1
    exact ⟨M, out, a, hM, o₁, e2, hs, h2, fun q hq => hv 0 q Nat.one_pos hq⟩

end GConv.Batch

import Verif.Spec.Stability
import Verif.Lemmas.Batch
import Verif.Lemmas.Network
import Verif.Lemmas.Strided
import Verif.Lemmas.Gelu
import Mathlib.Algebra.Order.Chebyshev

/-! # C103: stability against small changes of the input -/
namespace GConv.Stability

open Tensor Spec Conv

variable {G : Type} {d : ℕ} {ε M : ℝ} {x y : Tensor ℝ}

theorem view (h : Within ε x y) (s : List ℕ) : Outcomes2 (Within ε) (x.view s) (y.view s) := by
  by_cases hp : x.shape.prod = s.prod
  · rw [view_ok hp, view_ok (h.1 ▸ hp)]
    refine .ok ⟨rfl, fun i hi => ?_⟩
    dsimp only
    rw [← h.1]
    exact h.2 _ (unravel_InB (by rw [hp]; exact ravel_lt hi))
  · rw [show x.view s = .error .runtimeError from if_neg hp, show y.view s = .error .runtimeError from if_neg (h.1 ▸ hp)]
    exact .error _

theorem bounded_view {v : Tensor ℝ} (h : Bounded M x) {s : List ℕ} (hv : x.view s = .ok v) : Bounded M v := by
  unfold Tensor.view at hv
  split at hv
  · rename_i hp
    cases hv
    exact fun i hi => h _ (unravel_InB (by rw [hp]; exact ravel_lt hi))
  · cases hv

theorem view_shape {v : Tensor ℝ} {s : List ℕ} (hv : x.view s = .ok v) : v.shape = s := by
  unfold Tensor.view at hv
  split at hv <;> cases hv
  rfl

theorem padAxes (mode : F.CPad) (ps : List (ℕ × ℕ)) (hε : 0 ≤ ε) (h : Within ε x y) :
    Outcomes2 (Within ε) (F.padAxes mode x ps) (F.padAxes mode y ps) := by
  obtain ⟨h1, h2⟩ := h
  unfold F.padAxes
  rw [← h1]
  generalize hs : x.shape = sh at h2
  rcases sh with _ | ⟨N, _ | ⟨C, S⟩⟩
  · exact .error _
  · exact .error _
  dsimp only
  split
  · rename_i hc
    refine .ok ⟨rfl, fun i hi => ?_⟩
    dsimp only at hi
    obtain ⟨b, q, rfl, hb, hq⟩ := InB_cons_left hi
    obtain ⟨c, p, rfl, hc', hp⟩ := InB_cons_left hq
    dsimp only
    cases e : F.padIndex mode S ps p with
    | none => simpa using hε
    | some q => exact h2 _ (InB_cons.2 ⟨hb, InB_cons.2 ⟨hc', Batch.padIndex_InB hc.1 hc.2 hp e⟩⟩)
  · exact .error _

theorem sum_diff {β : Type} (l : List β) (f g : β → ℝ) (c : ℝ) (h : ∀ b ∈ l, |f b - g b| ≤ c) :
    |(l.map f).sum - (l.map g).sum| ≤ l.length * c := by
  induction l with
  | nil => simp
  | cons b l ih =>
    simp only [List.map_cons, List.sum_cons, List.length_cons]
    have h1 := ih fun b hb => h b (List.mem_cons_of_mem _ hb)
    have h2 := h b List.mem_cons_self
    push_cast
    calc _ = |(f b - g b) + ((l.map f).sum - (l.map g).sum)| := by congr 1; ring
      _ ≤ |f b - g b| + |(l.map f).sum - (l.map g).sum| := abs_add_le _ _
      _ ≤ _ := by linarith

theorem convValid {w : Tensor ℝ} (st dil : List ℕ) (groups : ℕ) (hw : Bounded M w) (hε : 0 ≤ ε) (h : Within ε x y) :
    Outcomes2 (Within (((w.shape.drop 1).prod : ℕ) * M * ε)) (F.convValid x w st dil groups) (F.convValid y w st dil groups) := by
  obtain ⟨h1, h2⟩ := h
  unfold F.convValid
  rw [← h1]
  unfold Bounded at hw
  generalize hs : x.shape = sh at h2
  generalize w.shape = ws at hw
  rcases sh with _ | ⟨N, _ | ⟨C, S⟩⟩
  · exact .error _
  · exact .error _
  rcases ws with _ | ⟨Cout, _ | ⟨Cg, K⟩⟩
  · exact .error _
  · exact .error _
  dsimp only
  split
  · rename_i hc
    obtain ⟨c1, c2, c3, c4, c5, c6, c7, c8, c9, c10⟩ := hc
    refine .ok ⟨rfl, fun i hi => ?_⟩
    dsimp only at hi
    obtain ⟨b, q, rfl, hb, hq⟩ := InB_cons_left hi
    obtain ⟨co, o, rfl, hco, ho⟩ := InB_cons_left hq
    dsimp only
    refine (sum_diff _ _ _ (K.prod * (M * ε)) fun ci hci => ?_).trans ?_
    · refine (sum_diff _ _ _ (M * ε) fun kk hk => ?_).trans (by rw [allIdx_length])
      rw [mem_allIdx] at hk
      rw [← sub_mul, abs_mul, mul_comm]
      have hci := List.mem_range.1 hci
      have := hw (co :: ci :: kk) (InB_cons.2 ⟨hco, InB_cons.2 ⟨hci, hk⟩⟩)
      refine mul_le_mul this (h2 _ (InB_cons.2 ⟨hb, InB_cons.2 ⟨?_, Batch.inPos_lt c1 c2 c3 c7 c10 c9 ho hk⟩⟩)) (abs_nonneg _) ?_
      · rw [c4]; exact Batch.channel_lt c6 hco hci
      · exact (abs_nonneg _).trans this
    · rw [List.length_range]
      simp only [List.drop_one, List.tail_cons, List.prod_cons]
      push_cast
      exact le_of_eq (by ring)
  · exact .error _

theorem Within.mono {ε' : ℝ} (h : Within ε x y) (hε : ε ≤ ε') : Within ε' x y := ⟨h.1, fun i hi => (h.2 i hi).trans hε⟩

theorem conv {w : Tensor ℝ} (st dil : List ℕ) (p : F.ConvPad) (groups : ℕ) (hw : Bounded M w) (hε : 0 ≤ ε) (h : Within ε x y) :
    Outcomes2 (Within (((w.shape.drop 1).prod : ℕ) * M * ε)) (F.conv x w st p dil groups) (F.conv y w st p dil groups) := by
  unfold F.conv
  cases p with
  | valid => exact convValid st dil groups hw hε h
  | same =>
    dsimp only
    split
    · exact Batch.Outcomes2.bind (padAxes _ _ hε h) fun _ _ h => convValid st dil groups hw hε h
    · exact .error _
  | amounts l => exact Batch.Outcomes2.bind (padAxes _ _ hε h) fun _ _ h => convValid st dil groups hw hε h

theorem padAxes_head {mode ps} {u : Tensor ℝ} {N : ℕ} (hN : x.shape.head? = some N) (h : F.padAxes mode x ps = .ok u) :
    u.shape.head? = some N := by
  unfold F.padAxes at h
  split at h
  · rename_i e
    rw [e] at hN
    split at h <;> cases h
    exact hN
  · cases h

theorem convValid_head {w : Tensor ℝ} {st dil groups} {u : Tensor ℝ} {N : ℕ} (hN : x.shape.head? = some N)
    (h : F.convValid x w st dil groups = .ok u) : u.shape.head? = some N := by
  unfold F.convValid at h
  split at h
  · rename_i e _
    rw [e] at hN
    split at h <;> cases h
    exact hN
  · cases h

theorem conv_head {w : Tensor ℝ} {st dil p groups} {u : Tensor ℝ} {N : ℕ} (hN : x.shape.head? = some N)
    (h : F.conv x w st p dil groups = .ok u) : u.shape.head? = some N := by
  unfold F.conv at h
  cases p with
  | valid => exact convValid_head hN h
  | same =>
    dsimp only at h
    split at h
    · obtain ⟨z, hz, h⟩ := bind_ok h
      exact convValid_head (padAxes_head hN hz) h
    · cases h
  | amounts l =>
    obtain ⟨z, hz, h⟩ := bind_ok h
    exact convValid_head (padAxes_head hN hz) h

theorem convBatched_head (L : Layer) {w : Tensor ℝ} {groups} {u : Tensor ℝ} {N : ℕ} (hN : x.shape.head? = some N)
    (h : L.convBatched x w groups = .ok u) : u.shape.head? = some N := by
  unfold Layer.convBatched at h
  split at h
  · obtain ⟨m, hm, h⟩ := bind_ok h
    obtain ⟨z, hz, h⟩ := bind_ok h
    exact conv_head (padAxes_head hN hz) h
  · obtain ⟨p, hp, h⟩ := bind_ok h
    exact conv_head hN h

theorem convForward (L : Layer) {w : Tensor ℝ} (groups : ℕ) (hw : Bounded M w) (hε : 0 ≤ ε) (h : Within ε x y) :
    Outcomes2 (Within (((w.shape.drop 1).prod : ℕ) * M * ε)) (L.convForward x w groups) (L.convForward y w groups) := by
  have hB : ∀ {x y : Tensor ℝ}, Within ε x y →
      Outcomes2 (Within (((w.shape.drop 1).prod : ℕ) * M * ε)) (L.convBatched x w groups) (L.convBatched y w groups) := fun h => by
    unfold Layer.convBatched
    split
    · refine Batch.Outcomes2.same _ fun mode => ?_
      exact Batch.Outcomes2.bind (padAxes mode _ hε h) fun _ _ h => conv _ _ _ groups hw hε h
    · exact Batch.Outcomes2.same _ fun p => conv _ _ p groups hw hε h
  unfold Layer.convForward F.unbatched
  rw [← h.1]
  split
  · have hx : Within ε (⟨1 :: x.shape, fun idx => x.get idx.tail⟩ : Tensor ℝ) ⟨1 :: x.shape, fun idx => y.get idx.tail⟩ := by
      refine ⟨rfl, fun i hi => ?_⟩
      obtain ⟨b, q, rfl, hb, hq⟩ := InB_cons_left hi
      exact h.2 q hq
    have hu := fun u => convBatched_head (x := ⟨1 :: x.shape, fun idx => x.get idx.tail⟩) (u := u) L (w := w) (groups := groups)
      (N := 1) rfl
    have := hB hx
    dsimp only
    generalize L.convBatched ⟨1 :: x.shape, fun idx => x.get idx.tail⟩ w groups = a at this hu
    generalize L.convBatched ⟨1 :: x.shape, fun idx => y.get idx.tail⟩ w groups = b at this
    cases this with
    | error e => exact .error e
    | @ok u v huv =>
      have hu1 := hu u rfl
      refine .ok ⟨?_, fun i hi => huv.2 (0 :: i) ?_⟩
      · show u.shape.tail = v.shape.tail
        rw [huv.1]
      · dsimp only at hi
        cases hus : u.shape with
        | nil => rw [hus] at hu1; cases hu1
        | cons n t =>
          rw [hus] at hu1 hi
          cases hu1
          exact InB_cons.2 ⟨Nat.one_pos, hi⟩
  · exact hB h

/-! ## bias -/

theorem bidxR_InB : ∀ {a b s i : List ℕ}, bcastRev a b = some s → InB s i →
    InB a (List.zipWith (fun n i => if n = 1 then 0 else i) a (i.take a.length))
  | [], _, _, _, _, _ => by simpa using InB_nil_nil
  | a :: as, [], s, i, h, hi => by
    simp only [bcastRev] at h
    cases h
    obtain ⟨p, q, rfl, hp, hq⟩ := InB_cons_left hi
    simp only [List.length_cons, List.take_succ_cons, List.zipWith_cons_cons]
    refine InB_cons.2 ⟨by split <;> omega, ?_⟩
    have hl := hq.length
    rw [List.take_of_length_le (by omega)]
    have := bidx_full hq
    unfold bidx at this
    rw [hl, Nat.sub_self, List.drop_zero] at this
    rw [this]; exact hq
  | a :: as, b :: bs, s, i, h, hi => by
    have key : ∀ {c : ℕ} {r}, bcastRev as bs = some r → (c = a ∨ a = 1) → s = c :: r →
        InB (a :: as) (List.zipWith (fun n i => if n = 1 then 0 else i) (a :: as) (i.take (a :: as).length)) := by
      intro c r hr hc hs
      subst hs
      obtain ⟨p, q, rfl, hp, hq⟩ := InB_cons_left hi
      simp only [List.length_cons, List.take_succ_cons, List.zipWith_cons_cons]
      refine InB_cons.2 ⟨?_, bidxR_InB hr hq⟩
      split
      · omega
      · rcases hc with rfl | h
        · exact hp
        · contradiction
    unfold bcastRev at h
    split at h
    · obtain ⟨r, hr, e⟩ := Option.map_eq_some_iff.1 h
      exact key hr (Or.inl rfl) e.symm
    · split at h
      · obtain ⟨r, hr, e⟩ := Option.map_eq_some_iff.1 h
        exact key hr (Or.inr (by assumption)) e.symm
      · split at h
        · obtain ⟨r, hr, e⟩ := Option.map_eq_some_iff.1 h
          exact key hr (Or.inl rfl) e.symm
        · cases h

theorem bidx_InB {a b s i : List ℕ} (h : bcastShape a b = some s) (hi : InB s i) : InB a (bidx a i) := by
  obtain ⟨r, hr, rfl⟩ := Option.map_eq_some_iff.1 h
  have h1 := bidxR_InB hr (by simpa using Strided.InB_reverse hi)
  have h2 := Strided.InB_reverse h1
  rw [List.reverse_reverse] at h2
  have e : (List.zipWith (fun n i => if n = 1 then 0 else i) a.reverse (i.reverse.take a.reverse.length)).reverse = bidx a i := by
    have hl : (i.reverse.take a.reverse.length).length = a.reverse.length := by
      have := h1.length
      rw [List.length_zipWith] at this
      rw [List.length_take] at this ⊢
      omega
    rw [List.reverse_zipWith hl.symm, List.reverse_reverse, List.reverse_take, List.reverse_reverse]
    simp [bidx]
  rwa [e] at h2

theorem addBias (bias : Option (Tensor ℝ)) (h : Within ε x y) :
    Outcomes2 (Within ε) (Layer.addBias x bias) (Layer.addBias y bias) := by
  unfold Layer.addBias
  cases bias with
  | none => exact .ok h
  | some c =>
    dsimp only
    unfold bzip
    rw [← h.1]
    cases e : bcastShape x.shape c.shape with
    | none => exact .error _
    | some s =>
      refine .ok ⟨rfl, fun i hi => ?_⟩
      dsimp only
      rw [add_sub_add_right_eq_sub]
      exact h.2 _ (bidx_InB e hi)

theorem finish (N C n : ℕ) (bias : Option (Tensor ℝ)) (H : Tensor G) (h : Within ε x y) :
    Outcomes2 (WithinLayer ε) (do let v ← x.view (N :: C :: n :: x.shape.drop 2); let v ← Layer.addBias v bias; return (v, H))
      (do let v ← y.view (N :: C :: n :: y.shape.drop 2); let v ← Layer.addBias v bias; return (v, H)) := by
  rw [← h.1]
  exact Batch.Outcomes2.bind (view h _) fun _ _ h => Batch.Outcomes2.bind (addBias bias h) fun _ _ h => .ok ⟨h, rfl⟩

/-! ## the layers -/

section layers
variable (L : Layer) (K : GroupKernel G d) (bias : Option (Tensor ℝ)) (hε : 0 ≤ ε) (h : Within ε x y)
include hε h

/-- Lifting layers: inputs that differ by at most `ε` have the same outcome (result or error) up to
`(channels per group) * (kernel cells) * M * ε`, where `M` bounds the sampled kernel. -/
theorem C103_lifting (weight : Tensor ℝ) (H : Tensor G) (hw : ∀ w, K.liftingForward weight H = .ok w → Bounded M w) :
    Outcomes2 (WithinLayer (((L.inC / L.groups * L.kernelSize.prod : ℕ) : ℝ) * M * ε))
      (L.liftingForward K weight bias x H) (L.liftingForward K weight bias y H) := by
  unfold Layer.liftingForward
  rw [← h.1]
  split
  · exact .error _
  · cases hk : K.liftingForward weight H with
    | error e => exact .error e
    | ok w =>
      rw [ok_bind, ok_bind]
      unfold Layer.liftingConv
      cases hv : w.viewInfer [] (L.inC / L.groups :: L.kernelSize) with
      | error e => exact .error e
      | ok v =>
        rw [ok_bind, ok_bind]
        unfold viewInfer at hv
        dsimp only at hv
        split at hv
        · cases hv
        have hs := view_shape hv
        have hc := convForward L L.groups (bounded_view (hw w hk) hv) hε h
        rw [hs] at hc
        exact Batch.Outcomes2.bind hc fun _ _ h => finish _ _ _ _ _ h

theorem groupConv {w : Tensor ℝ} (hw : Bounded M w) (N : ℕ) (dims : List ℕ) (inH outH : Tensor G) :
    Outcomes2 (WithinLayer (((L.inC / L.groups * inH.shape.headD 0 * L.kernelSize.prod : ℕ) : ℝ) * M * ε))
      (L.groupConv w bias N dims x inH outH) (L.groupConv w bias N dims y inH outH) := by
  unfold Layer.groupConv
  refine Batch.Outcomes2.bind (view h _) fun a b h => ?_
  cases hv : w.view (L.outC * outH.shape.headD 0 :: (L.inC / L.groups) * inH.shape.headD 0 :: L.kernelSize) with
  | error e => exact .error e
  | ok v =>
    rw [ok_bind, ok_bind]
    have hs := view_shape hv
    have hc := convForward L L.groups (bounded_view hw hv) hε h
    rw [hs] at hc
    exact Batch.Outcomes2.bind hc fun _ _ h => finish _ _ _ _ _ h

/-- Group layers. -/
theorem C103_group (weight : Tensor ℝ) (inH outH : Tensor G) (hw : ∀ w, K.forward weight inH outH = .ok w → Bounded M w) :
    Outcomes2 (WithinLayer (((L.inC / L.groups * inH.shape.headD 0 * L.kernelSize.prod : ℕ) : ℝ) * M * ε))
      (L.groupForward K weight bias x inH outH) (L.groupForward K weight bias y inH outH) := by
  unfold Layer.groupForward
  rw [← h.1]
  split
  · cases hk : K.forward weight inH outH with
    | error e => exact .error e
    | ok w => exact groupConv L bias hε h (hw w hk) _ _ _ _
  · exact .error _

/-- Layers that convolve over the group only. -/
theorem C103_subgroup (weight : Tensor ℝ) (inH outH : Tensor G) (hw : ∀ w, K.subgroupForward weight inH outH = .ok w → Bounded M w) :
    Outcomes2 (WithinLayer (((L.inC / L.groups * inH.shape.headD 0 * L.kernelSize.prod : ℕ) : ℝ) * M * ε))
      (L.subgroupForward K weight bias x inH outH) (L.subgroupForward K weight bias y inH outH) := by
  unfold Layer.subgroupForward
  rw [← h.1]
  split
  · cases hk : K.subgroupForward weight inH outH with
    | error e => exact .error e
    | ok w => exact groupConv L bias hε h (hw w hk) _ _ _ _
  · exact .error _

/-- Separable layers: one factor for the convolution over the group, one for the spatial convolution; `P` is the number of
spatial cells of the group kernel (1 for the kernels of the library). -/
theorem C103_separable {M' : ℝ} {P : ℕ} (weightH weight : Tensor ℝ) (inH outH : Tensor G) (hM : 0 ≤ M)
    (hw : ∀ w, K.separableForward weightH weight inH outH = .ok w →
      Bounded M w.1 ∧ Bounded M' w.2 ∧ (w.1.shape.drop 4).prod = P) :
    Outcomes2 (WithinLayer ((L.kernelSize.prod : ℝ) * M' * (((L.inC / L.groups * inH.shape.headD 0 * P : ℕ) : ℝ) * M * ε)))
      (L.separableForward K weightH weight bias x inH outH) (L.separableForward K weightH weight bias y inH outH) := by
  unfold Layer.separableForward
  rw [← h.1]
  split
  · cases hk : K.separableForward weightH weight inH outH with
    | error e => exact .error e
    | ok w =>
      obtain ⟨w1, w2, w3⟩ := hw w hk
      rw [ok_bind, ok_bind]
      unfold Layer.separableConv
      refine Batch.Outcomes2.bind (view h _) fun a b h => ?_
      cases hv : w.1.view (L.outC * outH.shape.headD 0 :: (L.inC / L.groups) * inH.shape.headD 0 :: w.1.shape.drop 4) with
      | error e => exact .error e
      | ok v =>
        rw [ok_bind, ok_bind]
        have hc := convForward L L.groups (bounded_view w1 hv) hε h
        rw [view_shape hv] at hc
        refine Batch.Outcomes2.bind hc fun a b h => ?_
        cases hv2 : w.2.view (L.outC * outH.shape.headD 0 :: 1 :: L.kernelSize) with
        | error e => exact .error e
        | ok v2 =>
          rw [ok_bind, ok_bind]
          have hc2 := convForward L (L.outC * outH.shape.headD 0) (bounded_view w2 hv2) (by positivity) h
          rw [view_shape hv2] at hc2
          simp only [List.drop_succ_cons, List.drop_zero, List.prod_cons, w3, one_mul, ← mul_assoc] at hc2
          simp only [← mul_assoc]
          exact Batch.Outcomes2.bind hc2 fun _ _ h => finish _ _ _ _ _ h
  · exact .error _

end layers

/-! ## activations -/

theorem relu_lip (a b : ℝ) : |F.relu a - F.relu b| ≤ |a - b| := by
  unfold F.relu
  rw [max_comm 0 a, max_comm 0 b]
  exact abs_max_sub_max_le_abs a b 0

theorem leaky_lip (s a b : ℝ) : |F.leakyRelu s a - F.leakyRelu s b| ≤ max 1 |s| * |a - b| := by
  unfold F.leakyRelu
  have h1 : |a - b| = |max 0 a - max 0 b| + |min 0 a - min 0 b| := by
    rcases le_total 0 a with ha | ha <;> rcases le_total 0 b with hb | hb
    · simp [ha, hb]
    · simp only [max_eq_right ha, max_eq_left hb, min_eq_left ha, min_eq_right hb, sub_zero, zero_sub, abs_neg]
      rw [abs_of_nonneg ha, abs_of_nonpos hb, abs_of_nonneg (by linarith)]; ring
    · simp only [max_eq_right hb, max_eq_left ha, min_eq_left hb, min_eq_right ha, sub_zero, zero_sub, abs_neg]
      rw [abs_of_nonneg hb, abs_of_nonpos ha, abs_of_nonpos (by linarith)]; ring
    · simp [ha, hb]
  rw [h1]
  calc _ = |(max 0 a - max 0 b) + s * (min 0 a - min 0 b)| := by congr 1; ring
    _ ≤ |max 0 a - max 0 b| + |s * (min 0 a - min 0 b)| := abs_add_le _ _
    _ = 1 * |max 0 a - max 0 b| + |s| * |min 0 a - min 0 b| := by rw [abs_mul, one_mul]
    _ ≤ max 1 |s| * |max 0 a - max 0 b| + max 1 |s| * |min 0 a - min 0 b| := by
      gcongr
      · exact le_max_left _ _
      · exact le_max_right _ _
    _ = _ := by ring

/-- Lipschitz constant of an activation. -/
noncomputable def actGain : Activations.Act → ℝ
  | .relu => 1
  | .gelu _ => 2
  | .leaky s => max 1 |s|

theorem actGain_nonneg (a : Activations.Act) : 0 ≤ actGain a := by
  cases a <;> simp [actGain]

/-- Activations. -/
theorem C103_act (a : Activations.Act) (H : Tensor G) (h : Within ε x y) :
    Outcomes2 (WithinLayer (actGain a * ε)) (a.forward x H) (a.forward y H) := by
  have key : ∀ f : ℝ → ℝ, (∀ u v, |f u - f v| ≤ actGain a * |u - v|) → WithinLayer (actGain a * ε) (x.map f, H) (y.map f, H) := by
    intro f hf
    refine ⟨⟨h.1, fun i hi => ?_⟩, rfl⟩
    exact (hf _ _).trans (mul_le_mul_of_nonneg_left (h.2 i hi) (actGain_nonneg a))
  unfold Activations.Act.forward
  cases a with
  | relu => exact .ok (key _ fun u v => by simpa [actGain] using relu_lip u v)
  | leaky s => exact .ok (key _ fun u v => leaky_lip s u v)
  | gelu s =>
    unfold Activations.Act.fn
    dsimp only
    split
    · exact .ok (key _ fun u v => gelu_lip u v)
    · split
      · exact .ok (key _ fun u v => geluTanh_lip u v)
      · exact .error _

/-! ## normalisations -/

theorem total_eq (s : List ℕ) (f : List ℕ → ℝ) : F.total s f = ∑ i ∈ (allIdx s).toFinset, f i :=
  (List.sum_toFinset f (allIdx_nodup s)).symm

theorem mem_box {s i : List ℕ} : i ∈ (allIdx s).toFinset ↔ InB s i := by rw [List.mem_toFinset, mem_allIdx]

theorem card_box (s : List ℕ) : ((allIdx s).toFinset.card : ℝ) = (s.prod : ℝ) := by
  rw [List.toFinset_card_of_nodup (allIdx_nodup s), allIdx_length]

theorem boxMean_diff {s : List ℕ} (hs : 0 < s.prod) {f g : List ℕ → ℝ} (h : ∀ i, InB s i → |f i - g i| ≤ ε) :
    |F.boxMean s f - F.boxMean s g| ≤ ε := by
  have hp : (0 : ℝ) < s.prod := by exact_mod_cast hs
  unfold F.boxMean
  rw [← sub_div, abs_div, abs_of_pos hp, div_le_iff₀ hp, total_eq, total_eq, ← Finset.sum_sub_distrib]
  calc _ ≤ ∑ i ∈ (allIdx s).toFinset, |f i - g i| := Finset.abs_sum_le_sum_abs _ _
    _ ≤ ∑ i ∈ (allIdx s).toFinset, ε := Finset.sum_le_sum fun i hi => h i (mem_box.1 hi)
    _ = ε * s.prod := by rw [Finset.sum_const, nsmul_eq_mul, card_box, mul_comm]

/-- the standard deviation (with `eps`) of values with mean removed. -/
theorem deviation_diff {β : Type} (t : Finset β) (u v : β → ℝ) {n δ eps : ℝ} (hn : (t.card : ℝ) = n) (hn0 : 0 < n) (he : 0 < eps)
    (h : ∀ i ∈ t, |u i - v i| ≤ δ) :
    |√((∑ i ∈ t, u i ^ 2) / n + eps) - √((∑ i ∈ t, v i ^ 2) / n + eps)| ≤ δ := by
  have hS : ∀ u : β → ℝ, 0 < (∑ i ∈ t, u i ^ 2) / n + eps := fun u => by
    have : 0 ≤ ∑ i ∈ t, u i ^ 2 := Finset.sum_nonneg fun i _ => sq_nonneg _
    positivity
  set A := √((∑ i ∈ t, u i ^ 2) / n + eps) with hA
  set B := √((∑ i ∈ t, v i ^ 2) / n + eps) with hB
  have hA0 : 0 < A := Real.sqrt_pos.2 (hS u)
  have hB0 : 0 < B := Real.sqrt_pos.2 (hS v)
  have hA2 : A ^ 2 = (∑ i ∈ t, u i ^ 2) / n + eps := Real.sq_sqrt (hS u).le
  have hB2 : B ^ 2 = (∑ i ∈ t, v i ^ 2) / n + eps := Real.sq_sqrt (hS v).le
  have hmean : ∀ (w : β → ℝ) (C : ℝ), 0 < C → C ^ 2 = (∑ i ∈ t, w i ^ 2) / n + eps → (∑ i ∈ t, |w i|) / n ≤ C := by
    intro w C hC hC2
    have h1 := sq_sum_le_card_mul_sum_sq (s := t) (f := fun i => |w i|)
    rw [hn] at h1
    simp only [sq_abs] at h1
    refine abs_le_of_sq_le_sq' ?_ hC.le |>.2
    rw [hC2, div_pow, div_le_iff₀ (by positivity)]
    have : ((∑ i ∈ t, w i ^ 2) / n + eps) * n ^ 2 = n * ∑ i ∈ t, w i ^ 2 + eps * n ^ 2 := by field_simp
    rw [this]
    nlinarith [mul_pos he (pow_pos hn0 2)]
  have h1 : |A ^ 2 - B ^ 2| ≤ δ * (A + B) := by
    rw [hA2, hB2, add_sub_add_right_eq_sub, ← sub_div, ← Finset.sum_sub_distrib, abs_div, abs_of_pos hn0, div_le_iff₀ hn0]
    calc |∑ i ∈ t, (u i ^ 2 - v i ^ 2)| ≤ ∑ i ∈ t, |u i ^ 2 - v i ^ 2| := Finset.abs_sum_le_sum_abs _ _
      _ ≤ ∑ i ∈ t, δ * (|u i| + |v i|) := Finset.sum_le_sum fun i hi => by
        rw [sq_sub_sq, abs_mul, mul_comm]
        exact mul_le_mul (h i hi) (abs_add_le _ _) (abs_nonneg _) ((abs_nonneg _).trans (h i hi))
      _ = δ * ((∑ i ∈ t, |u i|) / n + (∑ i ∈ t, |v i|) / n) * n := by
        rw [← Finset.mul_sum, Finset.sum_add_distrib]; field_simp
      _ ≤ δ * (A + B) * n := by
        have hδ : 0 ≤ δ := by
          rcases t.eq_empty_or_nonempty with rfl | ⟨i, hi⟩
          · simp at hn; linarith
          · exact (abs_nonneg _).trans (h i hi)
        have := hmean u A hA0 hA2
        have := hmean v B hB0 hB2
        gcongr
  rw [sq_sub_sq, abs_mul, abs_of_pos (by linarith : 0 < A + B), mul_comm] at h1
  exact le_of_mul_le_mul_right h1 (by linarith)

/-- standardised values move by at most `2 (1 + √n) / √eps` times the change of the values. -/
theorem standardise_diff {s : List ℕ} {f g : List ℕ → ℝ} {eps : ℝ} (he : 0 < eps) (hε : 0 ≤ ε)
    (h : ∀ i, InB s i → |f i - g i| ≤ ε) {j : List ℕ} (hj : InB s j) (w b : ℝ) :
    |F.standardise eps (F.boxMean s f) (F.boxVar s f) w b (f j) - F.standardise eps (F.boxMean s g) (F.boxVar s g) w b (g j)| ≤
      |w| * (2 * (1 + √(s.prod : ℝ)) / √eps) * ε := by
  have hs : 0 < s.prod := Nat.pos_of_ne_zero fun h0 => by
    have := ravel_lt hj
    omega
  have hn0 : (0 : ℝ) < s.prod := by exact_mod_cast hs
  set n : ℝ := (s.prod : ℝ) with hn
  set u := fun i => f i - F.boxMean s f with hu
  set v := fun i => g i - F.boxMean s g with hv
  have hδ : ∀ i, InB s i → |u i - v i| ≤ 2 * ε := by
    intro i hi
    calc |u i - v i| = |(f i - g i) - (F.boxMean s f - F.boxMean s g)| := by rw [hu, hv]; congr 1; ring
      _ ≤ |f i - g i| + |F.boxMean s f - F.boxMean s g| := abs_sub _ _
      _ ≤ 2 * ε := by linarith [h i hi, boxMean_diff hs h]
  have hvar : ∀ f : List ℕ → ℝ, F.boxVar s f = (∑ i ∈ (allIdx s).toFinset, (f i - F.boxMean s f) ^ 2) / n := fun f => by
    unfold F.boxVar; rw [total_eq]
  unfold F.standardise
  rw [hvar f, hvar g, add_sub_add_right_eq_sub, ← sub_mul, abs_mul, mul_comm, mul_assoc]
  refine mul_le_mul_of_nonneg_left ?_ (abs_nonneg _)
  have hd := deviation_diff (allIdx s).toFinset u v (card_box s) hn0 he fun i hi => hδ i (mem_box.1 hi)
  set A := √((∑ i ∈ (allIdx s).toFinset, u i ^ 2) / n + eps) with hA
  set B := √((∑ i ∈ (allIdx s).toFinset, v i ^ 2) / n + eps) with hB
  have hS : ∀ u : List ℕ → ℝ, eps ≤ (∑ i ∈ (allIdx s).toFinset, u i ^ 2) / n + eps := fun u => by
    have : 0 ≤ ∑ i ∈ (allIdx s).toFinset, u i ^ 2 := Finset.sum_nonneg fun i _ => sq_nonneg _
    have : 0 ≤ (∑ i ∈ (allIdx s).toFinset, u i ^ 2) / n := by positivity
    linarith
  have hse : 0 < √eps := Real.sqrt_pos.2 he
  have hA0 : 0 < A := Real.sqrt_pos.2 (he.trans_le (hS u))
  have hBe : √eps ≤ B := Real.sqrt_le_sqrt (hS v)
  have hB0 : 0 < B := hse.trans_le hBe
  have huA : |u j| / A ≤ √n := by
    rw [div_le_iff₀ hA0, hA, ← Real.sqrt_mul hn0.le]
    refine Real.abs_le_sqrt ?_
    have h1 : u j ^ 2 ≤ ∑ i ∈ (allIdx s).toFinset, u i ^ 2 :=
      Finset.single_le_sum (f := fun i => u i ^ 2) (fun i _ => sq_nonneg _) (mem_box.2 hj)
    have : n * ((∑ i ∈ (allIdx s).toFinset, u i ^ 2) / n + eps) = ∑ i ∈ (allIdx s).toFinset, u i ^ 2 + n * eps := by field_simp
    rw [this]
    nlinarith
  show |u j / A - v j / B| ≤ _
  have e : u j / A - v j / B = (u j - v j) / B + u j / A * ((B - A) / B) := by field_simp; ring
  rw [e]
  calc _ ≤ |(u j - v j) / B| + |u j / A * ((B - A) / B)| := abs_add_le _ _
    _ = |u j - v j| / B + |u j| / A * (|A - B| / B) := by
      rw [abs_div, abs_mul, abs_div, abs_div, abs_of_pos hA0, abs_of_pos hB0, abs_sub_comm B A]
    _ ≤ 2 * ε / √eps + √n * (2 * ε / √eps) := by
      have := hδ j hj
      gcongr
    _ = _ := by field_simp

theorem evalNorm_diff {eps m v w b W p q : ℝ} (hW : 0 < v + eps ∧ |w| ≤ W * √(v + eps)) (h : |p - q| ≤ ε) :
    |F.standardise eps m v w b p - F.standardise eps m v w b q| ≤ W * ε := by
  unfold F.standardise
  rw [show (p - m) / √(v + eps) * w + b - ((q - m) / √(v + eps) * w + b) = (p - q) * (w / √(v + eps)) by ring, abs_mul, abs_div,
    abs_of_nonneg (Real.sqrt_nonneg _), mul_comm]
  have hW := (div_le_iff₀ (Real.sqrt_pos.2 hW.1)).2 hW.2
  exact mul_le_mul hW h (abs_nonneg _) ((div_nonneg (abs_nonneg _) (Real.sqrt_nonneg _)).trans hW)

theorem batchNorm_stats {nd : ℕ} {a : F.NormArgs} {t : Bool} {r : F.Running} (ht : t = true ∨ a.track = false) (he : 0 < a.eps)
    (hε : 0 ≤ ε) {W : ℝ} (hW : ∀ c < x.shape.getD 1 0, |a.scale c| ≤ W) (h : Within ε x y) :
    Outcomes2 (fun u v => u.1.shape = x.shape ∧
        Within (W * (2 * (1 + √((x.shape.eraseIdx 1).prod : ℝ)) / √a.eps) * ε) u.1 v.1)
      (F.batchNorm nd a t r x) (F.batchNorm nd a t r y) := by
  obtain ⟨h1, h2⟩ := h
  unfold F.batchNorm
  rw [← h1]
  generalize hs : x.shape = sh at h2 hW
  rcases sh with _ | ⟨N, _ | ⟨C, s⟩⟩
  · exact .error _
  · exact .error _
  dsimp only
  split
  · exact .error _
  have hc : t = true ∨ ¬ a.track = true := ht.imp_right fun h => by simp [h]
  simp only [if_pos hc]
  split
  · exact .error _
  split
  · exact .error _
  refine .ok ⟨rfl, rfl, fun i hi => ?_⟩
  dsimp only at hi
  obtain ⟨b, q, rfl, hb, hq⟩ := InB_cons_left hi
  obtain ⟨c, q, rfl, hc, hq⟩ := InB_cons_left hq
  have := standardise_diff (s := N :: s) (f := F.channel x c) (g := F.channel y c) he hε (fun i hi => by
    obtain ⟨b, q, rfl, hb, hq⟩ := InB_cons_left hi
    exact h2 _ (InB_cons.2 ⟨hb, InB_cons.2 ⟨hc, hq⟩⟩)) (j := b :: q) (InB_cons.2 ⟨hb, hq⟩) (a.scale c) (a.shift c)
  refine this.trans ?_
  have := hW c (by simpa using hc)
  exact mul_le_mul_of_nonneg_right (mul_le_mul_of_nonneg_right this (by positivity)) hε

theorem batchNorm_eval {nd : ℕ} {a : F.NormArgs} {r : F.Running} (ht : a.track = true)
    {W : ℝ} (hW : ∀ c < x.shape.getD 1 0, 0 < r.var c + a.eps ∧ |a.scale c| ≤ W * √(r.var c + a.eps)) (h : Within ε x y) :
    Outcomes2 (fun u v => u.1.shape = x.shape ∧ Within (W * ε) u.1 v.1)
      (F.batchNorm nd a false r x) (F.batchNorm nd a false r y) := by
  obtain ⟨h1, h2⟩ := h
  unfold F.batchNorm
  rw [← h1]
  generalize hs : x.shape = sh at h2 hW
  rcases sh with _ | ⟨N, _ | ⟨C, s⟩⟩
  · exact .error _
  · exact .error _
  dsimp only
  split
  · exact .error _
  have hc : ¬ (false = true ∨ ¬ a.track = true) := by simp [ht]
  simp only [if_neg hc]
  split
  · exact .error _
  refine .ok ⟨rfl, rfl, fun i hi => ?_⟩
  have hi' := hi
  dsimp only at hi
  obtain ⟨b, q, rfl, hb, hq⟩ := InB_cons_left hi
  obtain ⟨c, q, rfl, hc, hq⟩ := InB_cons_left hq
  exact evalNorm_diff (hW c (by simpa using hc)) (h2 _ hi')

theorem instBatched_stats {nd : ℕ} {a : F.NormArgs} {t : Bool} {r : F.Running} (ht : t = true ∨ a.track = false) (he : 0 < a.eps)
    (hε : 0 ≤ ε) {W : ℝ} (hW : ∀ c < x.shape.getD 1 0, |a.scale c| ≤ W) (h : Within ε x y) :
    Outcomes2 (fun u v => u.1.shape = x.shape ∧
        Within (W * (2 * (1 + √((x.shape.drop 2).prod : ℝ)) / √a.eps) * ε) u.1 v.1)
      (F.instanceNormBatched nd a t r x) (F.instanceNormBatched nd a t r y) := by
  obtain ⟨h1, h2⟩ := h
  unfold F.instanceNormBatched
  rw [← h1]
  generalize hs : x.shape = sh at h2 hW
  rcases sh with _ | ⟨N, _ | ⟨C, s⟩⟩
  · exact .error _
  · exact .error _
  dsimp only
  split
  · exact .error _
  split
  · exact .error _
  have hc : t = true ∨ ¬ a.track = true := ht.imp_right fun h => by simp [h]
  simp only [if_pos hc]
  split
  · exact .error _
  split
  · exact .error _
  refine .ok ⟨rfl, rfl, fun i hi => ?_⟩
  dsimp only at hi
  obtain ⟨b, q, rfl, hb, hq⟩ := InB_cons_left hi
  obtain ⟨c, q, rfl, hc, hq⟩ := InB_cons_left hq
  have := standardise_diff (s := s) (f := F.instChannel x b c) (g := F.instChannel y b c) he hε (fun i hi =>
    h2 _ (InB_cons.2 ⟨hb, InB_cons.2 ⟨hc, hi⟩⟩)) (j := q) hq (a.scale c) (a.shift c)
  refine this.trans ?_
  have := hW c (by simpa using hc)
  exact mul_le_mul_of_nonneg_right (mul_le_mul_of_nonneg_right this (by positivity)) hε

theorem instBatched_eval {nd : ℕ} {a : F.NormArgs} {r : F.Running} (ht : a.track = true)
    {W : ℝ} (hW : ∀ c < x.shape.getD 1 0, 0 < r.var c + a.eps ∧ |a.scale c| ≤ W * √(r.var c + a.eps)) (h : Within ε x y) :
    Outcomes2 (fun u v => u.1.shape = x.shape ∧ Within (W * ε) u.1 v.1)
      (F.instanceNormBatched nd a false r x) (F.instanceNormBatched nd a false r y) := by
  obtain ⟨h1, h2⟩ := h
  unfold F.instanceNormBatched
  rw [← h1]
  generalize hs : x.shape = sh at h2 hW
  rcases sh with _ | ⟨N, _ | ⟨C, s⟩⟩
  · exact .error _
  · exact .error _
  dsimp only
  split
  · exact .error _
  split
  · exact .error _
  have hc : ¬ (false = true ∨ ¬ a.track = true) := by simp [ht]
  simp only [if_neg hc]
  split
  · exact .error _
  refine .ok ⟨rfl, rfl, fun i hi => ?_⟩
  have hi' := hi
  dsimp only at hi
  obtain ⟨b, q, rfl, hb, hq⟩ := InB_cons_left hi
  obtain ⟨c, q, rfl, hc, hq⟩ := InB_cons_left hq
  exact evalNorm_diff (hW c (by simpa using hc)) (h2 _ hi')

/-- the common part of the normalisations. -/
theorem folded {norm : Tensor ℝ → Except PyErr (Tensor ℝ × F.Running)} {κ : ℝ} {N C n Z : ℕ} {S : List ℕ}
    (hx : x.shape = N :: C :: n :: Z :: S)
    (hn : ∀ x' y', x'.shape = N :: C :: n * Z :: S → Within ε x' y' →
      Outcomes2 (fun u v => Within (κ * ε) u.1 v.1) (norm x') (norm y')) (H : Tensor G) (h : Within ε x y) :
    Outcomes2 (WithinLayer (κ * ε)) ((Normalization.folded norm x H).map Prod.fst) ((Normalization.folded norm y H).map Prod.fst) := by
  unfold Normalization.folded
  rw [← h.1, hx]
  dsimp only
  cases hv : x.view (N :: C :: n * Z :: S) with
  | error e =>
    have := view h (N :: C :: n * Z :: S)
    rw [hv] at this
    generalize y.view (N :: C :: n * Z :: S) = w at this
    cases this
    exact .error e
  | ok v =>
    have := view h (N :: C :: n * Z :: S)
    rw [hv] at this
    generalize y.view (N :: C :: n * Z :: S) = w at this
    cases this with
    | @ok _ w hw =>
      rw [ok_bind, ok_bind]
      have := hn v w (view_shape hv) hw
      generalize norm v = p at this
      generalize norm w = q at this
      cases this with
      | error e => exact .error e
      | @ok p q hpq =>
        rw [ok_bind, ok_bind]
        have := view hpq (N :: C :: n :: Z :: S)
        generalize p.1.view _ = a at this
        generalize q.1.view _ = b at this
        cases this with
        | error e => exact .error e
        | ok h => exact .ok ⟨h, rfl⟩

/-- a batch of one without its batch axis. -/
theorem instance_of {nd : ℕ} {a : F.NormArgs} {r : F.Running} {t : Bool} {κ : ℝ} {N C : ℕ} {s : List ℕ}
    (hB : ∀ x' y' : Tensor ℝ, (x'.shape = N :: C :: s ∨ x'.shape = 1 :: N :: C :: s) → Within ε x' y' →
      Outcomes2 (fun u v => u.1.shape = x'.shape ∧ Within (κ * ε) u.1 v.1) (F.instanceNormBatched nd a t r x') (F.instanceNormBatched nd a t r y'))
    {x y : Tensor ℝ} (hx : x.shape = N :: C :: s) (h : Within ε x y) :
    Outcomes2 (fun u v => Within (κ * ε) u.1 v.1) (F.instanceNorm nd a t r x) (F.instanceNorm nd a t r y) := by
  unfold F.instanceNorm
  rw [← h.1]
  split
  · have := hB ⟨1 :: x.shape, fun idx => x.get idx.tail⟩ ⟨1 :: x.shape, fun idx => y.get idx.tail⟩ (Or.inr (by rw [hx])) ⟨rfl, fun i hi => by
      obtain ⟨b, q, rfl, hb, hq⟩ := InB_cons_left hi
      exact h.2 q hq⟩
    generalize F.instanceNormBatched nd a t r ⟨1 :: x.shape, fun idx => x.get idx.tail⟩ = p at this
    generalize F.instanceNormBatched nd a t r ⟨1 :: x.shape, fun idx => y.get idx.tail⟩ = q at this
    cases this with
    | error e => exact .error e
    | ok h => exact .ok ⟨rfl, fun i hi => h.2.2 (0 :: i) (by rw [h.1]; exact InB_cons.2 ⟨Nat.one_pos, hi⟩)⟩
  · have := hB x y (Or.inl hx) h
    generalize F.instanceNormBatched nd a t r x = p at this
    generalize F.instanceNormBatched nd a t r y = q at this
    cases this with
    | error e => exact .error e
    | ok h => exact .ok h.2

theorem instance_batched {nd : ℕ} {a : F.NormArgs} {r : F.Running} {t : Bool} {N C m : ℕ} {S : List ℕ} (hx : x.shape = N :: C :: m :: S)
    (hS : S.length + 2 ≠ nd) : F.instanceNorm nd a t r x = F.instanceNormBatched nd a t r x := by
  unfold F.instanceNorm
  rw [if_neg (by rw [hx]; simp only [List.length_cons]; omega)]

section norms
variable (nd : ℕ) (a : F.NormArgs) (r : F.Running) (H : Tensor G) {N C n Z : ℕ} {S : List ℕ} {W : ℝ}
  (hx : x.shape = N :: C :: n :: Z :: S) (h : Within ε x y)
include hx h

/-- Batch normalisation with the statistics of the batch (training mode, or no tracked statistics). -/
theorem C103_batch_norm (t : Bool) (ht : t = true ∨ a.track = false) (he : 0 < a.eps) (hε : 0 ≤ ε) (hW : ∀ c < C, |a.scale c| ≤ W) :
    Outcomes2 (WithinLayer (W * (2 * (1 + √((N * (n * Z * S.prod) : ℕ) : ℝ)) / √a.eps) * ε))
      ((Normalization.batch nd a t r x H).map Prod.fst) ((Normalization.batch nd a t r y H).map Prod.fst) := by
  refine folded hx (fun x' y' hx' h' => ?_) H h
  have := batchNorm_stats (nd := nd) (r := r) ht he hε (W := W) (by rw [hx']; exact hW) h'
  rw [hx'] at this
  generalize F.batchNorm nd a t r x' = p at this
  generalize F.batchNorm nd a t r y' = q at this
  cases this with
  | error e => exact .error e
  | ok h => exact .ok h.2

/-- Batch normalisation in evaluation mode. -/
theorem C103_batch_norm_eval (ht : a.track = true) (hW : ∀ c < C, 0 < r.var c + a.eps ∧ |a.scale c| ≤ W * √(r.var c + a.eps)) :
    Outcomes2 (WithinLayer (W * ε))
      ((Normalization.batch nd a false r x H).map Prod.fst) ((Normalization.batch nd a false r y H).map Prod.fst) := by
  refine folded hx (fun x' y' hx' h' => ?_) H h
  have := batchNorm_eval (nd := nd) (r := r) ht (W := W) (by rw [hx']; exact hW) h'
  generalize F.batchNorm nd a false r x' = p at this
  generalize F.batchNorm nd a false r y' = q at this
  cases this with
  | error e => exact .error e
  | ok h => exact .ok h.2

/-- Instance normalisation of batches with the statistics of the feature maps. -/
theorem C103_instance_norm (hS : S.length + 2 ≠ nd) (t : Bool) (ht : t = true ∨ a.track = false) (he : 0 < a.eps) (hε : 0 ≤ ε)
    (hW : ∀ c < C, |a.scale c| ≤ W) :
    Outcomes2 (WithinLayer (W * (2 * (1 + √((n * Z * S.prod : ℕ) : ℝ)) / √a.eps) * ε))
      ((Normalization.inst nd a t r x H).map Prod.fst) ((Normalization.inst nd a t r y H).map Prod.fst) := by
  refine folded hx (fun x' y' hx' h' => ?_) H h
  have := instBatched_stats (nd := nd) (r := r) ht he hε (W := W) (by rw [hx']; exact hW) h'
  rw [← instance_batched hx' hS, ← instance_batched (h'.1 ▸ hx') hS, hx'] at this
  generalize F.instanceNorm nd a t r x' = p at this
  generalize F.instanceNorm nd a t r y' = q at this
  cases this with
  | error e => exact .error e
  | ok h => exact .ok h.2

/-- Instance normalisation of batches in evaluation mode with tracked statistics. -/
theorem C103_instance_norm_eval (hS : S.length + 2 ≠ nd) (ht : a.track = true)
    (hW : ∀ c < C, 0 < r.var c + a.eps ∧ |a.scale c| ≤ W * √(r.var c + a.eps)) :
    Outcomes2 (WithinLayer (W * ε))
      ((Normalization.inst nd a false r x H).map Prod.fst) ((Normalization.inst nd a false r y H).map Prod.fst) := by
  refine folded hx (fun x' y' hx' h' => ?_) H h
  have := instBatched_eval (nd := nd) (r := r) ht (W := W) (by rw [hx']; exact hW) h'
  rw [← instance_batched hx' hS, ← instance_batched (h'.1 ▸ hx') hS] at this
  generalize F.instanceNorm nd a false r x' = p at this
  generalize F.instanceNorm nd a false r y' = q at this
  cases this with
  | error e => exact .error e
  | ok h => exact .ok h.2

end norms


end GConv.Stability

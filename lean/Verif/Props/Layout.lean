import Verif.Spec.Layout
import Verif.Model.Layout
import Verif.Lemmas.Strided
import Verif.Props.Batch

/-! # C102: memory layout

Transposed, sliced, expanded and channels-last tensors have the same entries in other places of the storage. The convolutions
do not depend on the layout; batch and instance normalisation raise for some layouts. -/
namespace GConv.Layout

open Tensor Spec Strided Conv

variable {G : Type} {d : ℕ} {α : Type}

theorem zip_reverse' {s st : List ℕ} (h : st.length = s.length) : (s.zip st.reverse).reverse = s.reverse.zip st := by
  rw [List.zip_eq_zipWith, List.zip_eq_zipWith, List.reverse_zipWith (by simp [h]), List.reverse_reverse]

theorem shape_zip {s st : List ℕ} {o : ℕ} {f : ℕ → α} (h : st.length = s.length) : (⟨s.zip st, o, f⟩ : Strided α).shape = s :=
  sizes_zip h

theorem sizes_reverse (a : List (ℕ × ℕ)) : sizes a.reverse = (sizes a).reverse := List.map_reverse

theorem describes_of_compat {x : Strided α} {s st : List ℕ} (hp : x.shape.prod = s.prod) (hl : st.length = s.length)
    (h : Compat x.axes.reverse (s.reverse.zip st)) : Describes x s st.reverse := by
  refine ⟨by simp [hl], fun i hi => ?_⟩
  have hlt : ravel s i < x.shape.prod := by rw [hp]; exact ravel_lt hi
  have hu := unravel_InB hlt
  have hxl : (unravel x.shape (ravel s i)).length = x.axes.length := by rw [hu.length]; simp [Strided.shape]
  rw [off_reverse (by rw [hi.length, List.length_zip]; simp [hl]), zip_reverse' hl, off_reverse hxl]
  refine (h _ _ ?_ ?_ ?_).symm
  · rw [sizes_reverse]; exact InB_reverse hu
  · rw [sizes_zip (by simp [hl])]; exact InB_reverse hi
  · rw [sizes_reverse, sizes_zip (by simp [hl]), ← ravel_reverse hi.length]
    have := ravel_unravel hlt
    rw [ravel_reverse hu.length] at this
    exact this

theorem compat_of_describes {x : Strided α} {s st : List ℕ}
    (h : Describes x s st) : Compat x.axes.reverse (s.reverse.zip st.reverse) := by
  intro i j hi hj e
  rw [sizes_zip (by simp [h.1])] at hj e
  rw [sizes_reverse] at hi e
  have hi' : InB x.shape i.reverse := by
    have := InB_reverse hi
    rw [List.reverse_reverse] at this
    exact this
  have hj' : InB s j.reverse := by simpa using InB_reverse hj
  have := h.2 j.reverse hj'
  rw [ravel_reverse hj'.length, List.reverse_reverse, ← e] at this
  have e2 : ravR (sizes x.axes).reverse i = ravel x.shape i.reverse := by
    rw [ravel_reverse hi'.length, List.reverse_reverse]; rfl
  rw [e2, unravel_ravel hi'] at this
  rw [off_reverse (a := s.zip st) (by rw [hj'.length, List.length_zip, h.1, min_self]), List.reverse_reverse] at this
  have hz := zip_reverse' (s := s) (st := st.reverse) (by simp [h.1])
  rw [List.reverse_reverse] at hz
  rw [hz] at this
  rw [this, off_reverse (a := x.axes) (by rw [hi'.length]; simp [Strided.shape]), List.reverse_reverse]

theorem packed_length (k : ℕ) (vs : List ℕ) : (packed k vs).length = vs.length := by
  induction vs generalizing k with
  | nil => rfl
  | cons v vs ih => simp [packed, ih]

theorem computeStride_describes {x : Strided α} {s st : List ℕ} (hp : x.shape.prod = s.prod)
    (h : computeStride x.axes.reverse s.reverse = some st) : Describes x s st.reverse := by
  unfold computeStride at h
  split at h
  · rename_i hx
    cases h
    have hx' : x.axes = [] := by simpa using hx
    refine ⟨by simp, fun i hi => ?_⟩
    have hs : s.prod = 1 := by rw [← hp]; simp [Strided.shape, hx']
    have hz : i = List.replicate i.length 0 := by
      clear hp
      induction hi with
      | nil => rfl
      | @cons i v is vs h1 h2 ih =>
        rw [List.prod_cons] at hs
        have hv : v = 1 := Nat.eq_one_of_mul_eq_one_right hs
        have h3 : vs.prod = 1 := Nat.eq_one_of_mul_eq_one_left hs
        rw [List.length_cons, List.replicate_succ, ← ih h3]
        congr 1; omega
    rw [hz, off_zero, hx']
    cases unravel x.shape (ravel s (List.replicate i.length 0)) <;> rfl
  · rename_i a as hx
    split at h
    · rename_i h0
      cases h
      refine ⟨by simp [packed_length], fun i hi => ?_⟩
      exfalso
      have : x.shape.prod = 0 := by
        rw [← h0]
        show _ = (sizes x.axes.reverse).prod
        rw [sizes_reverse, List.prod_reverse]; rfl
      have := ravel_lt hi
      omega
    · obtain ⟨h1, h2⟩ := chunks_sound (a :: as) 1 a.2 s.reverse st [] rfl
        (by intro i hi; cases InB_nil_left hi; simp [off, ravR]) (Or.inr (by simp)) (by rw [← hx]; exact h)
      rw [List.nil_append, ← hx] at h2
      exact describes_of_compat hp (by simpa using h1) h2

/-- `view` succeeds exactly if the number of entries is right and some strides describe the new shape; it shows the entries in
row-major order. -/
theorem C102_view (x : Strided α) (s : List ℕ) :
    ((∃ y, x.view s = .ok y) ↔ x.shape.prod = s.prod ∧ (s.prod = 0 ∨ ∃ st, Describes x s st)) ∧
    (∀ y, x.view s = .ok y → y.shape = s ∧
      ∀ i, InB s i → y.tensor.get i = x.tensor.get (unravel x.shape (ravel s i))) ∧
    ∀ e, x.view s = .error e → e = .runtimeError := by
  unfold Strided.view
  by_cases hp : x.shape.prod = s.prod
  · rw [if_neg (by push Not; exact hp)]
    cases hc : computeStride x.axes.reverse s.reverse with
    | some st =>
      have hd := computeStride_describes hp hc
      refine ⟨⟨fun _ => ⟨hp, Or.inr ⟨_, hd⟩⟩, fun _ => ⟨_, rfl⟩⟩, fun y hy => ?_, fun e he => by cases he⟩
      cases hy
      refine ⟨shape_zip hd.1, fun i hi => ?_⟩
      show x.data (x.offset + off (s.zip st.reverse) i) = x.data (x.offset + off x.axes _)
      rw [hd.2 i hi]
    | none =>
      refine ⟨⟨fun h => (by obtain ⟨y, hy⟩ := h; cases hy), fun h => ?_⟩, fun y hy => (by cases hy), fun e he => by cases he; rfl⟩
      obtain ⟨-, h⟩ := h
      exfalso
      unfold computeStride at hc
      split at hc
      · cases hc
      · rename_i a as hx
        split at hc
        · cases hc
        · rename_i h0
          have h0' : s.prod ≠ 0 := by
            intro h1
            apply h0
            rw [h1] at hp
            rw [← hp]
            show (sizes x.axes.reverse).prod = _
            rw [sizes_reverse, List.prod_reverse]; rfl
          rcases h with h | ⟨st, hd⟩
          · exact h0' h
          · have hpr : (sizes (a :: as)).prod = s.reverse.prod := by
              rw [← hx, sizes_reverse, List.prod_reverse, List.prod_reverse]; exact hp
            obtain ⟨st', hs'⟩ := chunks_complete (a :: as) (by simp) 1 a.2 s.reverse st.reverse [] rfl
              (by intro i hi; cases InB_nil_left hi; simp [off, ravR]) (Or.inr (by simp))
              (by rw [List.prod_reverse]; omega) hpr (by simp [hd.1])
              (by rw [List.nil_append, ← hx]; exact compat_of_describes hd)
            rw [hx, hs'] at hc; cases hc
  · rw [if_pos hp]
    exact ⟨⟨fun h => (by obtain ⟨y, hy⟩ := h; cases hy), fun h => absurd h.1 hp⟩, fun y hy => (by cases hy), fun e he => by cases he; rfl⟩

theorem off_packed {vs : List ℕ} {i : List ℕ} (hi : InB vs i) (k : ℕ) : off (vs.zip (packed k vs)) i = k * ravR vs i := by
  induction hi generalizing k with
  | nil => simp [off, ravR]
  | @cons i v is vs h1 h2 ih =>
    simp only [packed, List.zip_cons_cons, off, ravR]
    rw [ih, Nat.max_eq_left (by omega)]
    ring

theorem off_rows {s i : List ℕ} (hi : InB s i) : off (s.zip (packed 1 s.reverse).reverse) i = ravel s i := by
  rw [off_reverse (by rw [hi.length, List.length_zip]; simp [packed_length]), zip_reverse' (by simp [packed_length]),
    off_packed (InB_reverse hi), one_mul, ravel_reverse hi.length]

/-- A new tensor shows its entries and can be viewed in every shape with the right number of entries. -/
theorem C102_new (t : Tensor α) :
    Shows (Strided.new t) t ∧ ∀ s, t.shape.prod = s.prod → ∃ y, (Strided.new t).view s = .ok y := by
  have hsh : (Strided.new t).shape = t.shape := shape_zip (by simp [packed_length])
  refine ⟨⟨hsh, fun i hi => ?_⟩, fun s hs => ?_⟩
  · show t.get (unravel t.shape (0 + off (t.shape.zip _) i)) = _
    rw [zero_add, off_rows hi, unravel_ravel hi]
  · refine ((C102_view _ s).1).2 ⟨by rw [hsh]; exact hs, Or.inr ⟨(packed 1 s.reverse).reverse, by simp [packed_length], fun i hi => ?_⟩⟩
    have hlt : ravel s i < t.shape.prod := by rw [hs]; exact ravel_lt hi
    rw [off_rows hi, hsh]
    show _ = off (t.shape.zip _) _
    rw [off_rows (unravel_InB hlt), ravel_unravel hlt]

/-- `reshape` (and `flatten`) never depends on the layout: it succeeds exactly if the number of entries is right. -/
theorem C102_reshape (x : Strided α) (s : List ℕ) :
    (x.shape.prod = s.prod → ∃ y, x.reshape s = .ok y ∧ y.shape = s ∧
      ∀ i, InB s i → y.tensor.get i = x.tensor.get (unravel x.shape (ravel s i))) ∧
    (x.shape.prod ≠ s.prod → x.reshape s = .error .runtimeError) := by
  refine ⟨fun hp => ?_, fun hp => ?_⟩
  · cases hv : x.view s with
    | ok y =>
      refine ⟨y, ?_, ((C102_view x s).2.1 y hv)⟩
      unfold Strided.reshape; rw [hv]
    | error e =>
      obtain ⟨⟨hs1, hs2⟩, hn⟩ := C102_new x.tensor
      obtain ⟨y, hy⟩ := hn s hp
      obtain ⟨g1, g2⟩ := (C102_view _ s).2.1 y hy
      refine ⟨y, ?_, g1, fun i hi => ?_⟩
      · unfold Strided.reshape; rw [hv]; exact hy
      · rw [g2 i hi, hs1]
        exact hs2 _ (unravel_InB (by show _ < x.shape.prod; rw [hp]; exact ravel_lt hi))
  · have hv : x.view s = .error .runtimeError := if_pos hp
    unfold Strided.reshape
    rw [hv]
    have hsh : (Strided.new x.tensor).shape = x.shape := (C102_new x.tensor).1.1
    exact if_pos (by rw [hsh]; exact hp)

/-- Splitting an axis is possible in every layout (this is what the layers do with the result of a convolution, and what the
O(3) operations do with the rows `(9,)` of their grids). -/
theorem C102_split (x : Strided α) (A O : List ℕ) (c c' : ℕ) (hx : x.shape = A ++ c * c' :: O) :
    ∃ y, x.view (A ++ c :: c' :: O) = .ok y := by
  refine ((C102_view _ _).1).2 ⟨by rw [hx]; simp [mul_assoc], Or.inr ?_⟩
  obtain ⟨xa, xb, xo, hax, hal, hol⟩ : ∃ xa xb xo, x.axes = xa ++ xb :: xo ∧ sizes xa = A ∧ xb.1 = c * c' ∧ sizes xo = O := by
    unfold Strided.shape at hx
    obtain ⟨xa, l, h1, h2, h3⟩ := List.map_eq_append_iff.1 hx
    obtain ⟨xb, xo, rfl, h4, h5⟩ := List.map_eq_cons_iff.1 h3
    exact ⟨xa, xb, xo, h1, h2, h4, h5⟩
  refine ⟨xa.map Prod.snd ++ c' * xb.2 :: xb.2 :: xo.map Prod.snd, by simp [← hal, ← hol.2], fun i hi => ?_⟩
  obtain ⟨i1, i2, rfl, h1, h2⟩ := InB_append_left hi
  obtain ⟨p, t, rfl, hp, ht⟩ := InB_cons_left h2
  obtain ⟨q, o, rfl, hq, ho⟩ := InB_cons_left ht
  have hlt : p * c' + q < c * c' := by
    calc p * c' + q < p * c' + c' := by omega
      _ = (p + 1) * c' := by ring
      _ ≤ c * c' := Nat.mul_le_mul_right _ hp
  have hi' : InB (A ++ c * c' :: O) (i1 ++ (p * c' + q) :: o) := h1.append (InB_cons.2 ⟨hlt, ho⟩)
  have hr : ravel (A ++ c :: c' :: O) (i1 ++ p :: q :: o) = ravel (A ++ c * c' :: O) (i1 ++ (p * c' + q) :: o) := by
    rw [ravel_append h1.length, ravel_append h1.length]
    simp only [ravel, List.prod_cons]
    ring
  rw [hr, hx, unravel_ravel hi', hax]
  have hz : (A ++ c :: c' :: O).zip (xa.map Prod.snd ++ c' * xb.2 :: xb.2 :: xo.map Prod.snd) =
      xa ++ (c, c' * xb.2) :: (c', xb.2) :: xo := by
    rw [← hal, ← hol.2, List.zip_append (by simp)]
    simp only [List.zip_cons_cons]
    rw [show ∀ l : List (ℕ × ℕ), (sizes l).zip (l.map Prod.snd) = l from fun l => (List.zip_of_prod rfl rfl).symm,
      show ∀ l : List (ℕ × ℕ), (sizes l).zip (l.map Prod.snd) = l from fun l => (List.zip_of_prod rfl rfl).symm]
  have hl1 : i1.length = xa.length := by rw [h1.length, ← hal]; simp
  rw [hz, off_append _ _ hl1, off_append _ _ hl1]
  simp only [off]
  ring

/-! ## the convolutions -/

theorem picks_of_same {N : ℕ} {s : List ℕ} {x y : Tensor ℝ} (hN : 0 < N) (hx : x.shape = N :: s) (h : SameEntries x y) :
    Picks id N N s.length x y :=
  ⟨hN, fun _ hb => hb, s, rfl, hx, by rw [← h.1, hx], fun b q hb hq => h.2 (b :: q) (by rw [hx]; exact InB_cons.2 ⟨hb, hq⟩)⟩

theorem same_of_picks {N k : ℕ} {x y : Tensor ℝ} (h : Picks id N N k x y) : SameEntries x y := by
  obtain ⟨s, -, hx, hy, hv⟩ := h.samples
  refine ⟨by rw [hx, hy], fun i hi => ?_⟩
  rw [hx] at hi
  obtain ⟨b, q, rfl, hb, hq⟩ := InB_cons_left hi
  exact hv b q hb hq

theorem SameEntries.refl (x : Tensor ℝ) : SameEntries x x := ⟨rfl, fun _ _ => rfl⟩

theorem same_of_shows {x : Strided ℝ} {t : Tensor ℝ} (h : Shows x t) : SameEntries t x.tensor := ⟨h.1.symm, h.2⟩

/-- the end of every `forward`: the result of the convolution, in any layout, is split and the bias is added. -/
theorem finish {lay : Tensor ℝ → Strided ℝ} (hlay : IsLayout lay) {N k C n : ℕ} {bias : Option (Tensor ℝ)}
    (hb : BiasShape bias C k) (H : Tensor G) {x x' : Tensor ℝ} (h : Picks id N N (k + 1) x x') :
    Outcomes2 SameLayer (do let v ← x.view (N :: C :: n :: x.shape.drop 2); let v ← Layer.addBias v bias; return (v, H))
      (do let v ← (lay x').view (N :: C :: n :: x'.shape.drop 2); let v ← Layer.addBias v.tensor bias; return (v, H)) := by
  obtain ⟨s, hs, hx, hx', -⟩ := h.samples
  obtain ⟨c, O, rfl⟩ : ∃ c O, s = c :: O := by
    cases s with
    | nil => simp at hs
    | cons c O => exact ⟨c, O, rfl⟩
  rw [hx, hx']
  show Outcomes2 SameLayer (x.view (N :: C :: n :: O) >>= _) ((lay x').view (N :: C :: n :: O) >>= _)
  obtain ⟨l1, l2⟩ := hlay x'
  rw [hx'] at l1 l2
  by_cases hp : (N :: c :: O).prod = (N :: C :: n :: O).prod
  · obtain ⟨y, hy⟩ : ∃ y, (lay x').view (N :: C :: n :: O) = .ok y := by
      by_cases h0 : O.prod = 0
      · exact ((C102_view _ _).1).2 ⟨by rw [l1]; exact hp, Or.inl (by simp [h0])⟩
      · have hc : c = C * n := by
          simp only [List.prod_cons] at hp
          have h1 := Nat.eq_of_mul_eq_mul_left h.pos hp
          rw [← mul_assoc] at h1
          exact Nat.eq_of_mul_eq_mul_right (Nat.pos_of_ne_zero h0) h1
        exact C102_split (lay x') [N] O C n (by rw [l1, hc]; rfl)
    rw [hy, view_ok (by rw [hx]; exact hp), ok_bind, ok_bind]
    obtain ⟨g1, g2⟩ := (C102_view _ _).2.1 y hy
    have hsame : SameEntries x x' := same_of_picks h
    have hv : SameEntries (⟨N :: C :: n :: O, fun idx => x.get (unravel x.shape (ravel (N :: C :: n :: O) idx))⟩ : Tensor ℝ) y.tensor := by
      refine ⟨g1.symm, fun i hi => ?_⟩
      have hu : InB (N :: c :: O) (unravel (N :: c :: O) (ravel (N :: C :: n :: O) i)) :=
        unravel_InB (by rw [hp]; exact ravel_lt hi)
      dsimp only
      rw [g2 i hi, l1, l2 _ hu, hsame.2 _ (by rw [hx]; exact hu), hx]
    have hpk := picks_of_same (s := C :: n :: O) h.pos rfl hv
    refine Batch.Outcomes2.bind (Batch.addBias (C := C) (n := n) (S := O) (by
      have : O.length = k := by simpa using hs
      rw [this]; exact hb) hpk rfl g1) fun a b hab => .ok ⟨same_of_picks hab, rfl⟩
  · rw [show (lay x').view (N :: C :: n :: O) = .error .runtimeError from if_pos (by rw [l1]; exact hp),
      show x.view (N :: C :: n :: O) = .error .runtimeError from if_neg (by rw [hx]; exact hp)]
    exact .error _

theorem reshape_same (x : Strided ℝ) {N : ℕ} (hN : 0 < N) (t : List ℕ) :
    Outcomes2 (fun a b => Picks id N N t.length a b.tensor) (x.tensor.view (N :: t)) (x.reshape (N :: t)) := by
  by_cases hp : x.shape.prod = (N :: t).prod
  · obtain ⟨y, h1, h2, h3⟩ := (C102_reshape x _).1 hp
    rw [h1, view_ok (t := x.tensor) hp]
    exact .ok (picks_of_same hN rfl ⟨h2.symm, h3⟩)
  · rw [(C102_reshape x _).2 hp, show x.tensor.view (N :: t) = .error .runtimeError from if_neg hp]
    exact .error _

section layers
variable {lay : Tensor ℝ → Strided ℝ} (hlay : IsLayout lay) (L : Layer) {K : GroupKernel G d} {bias : Option (Tensor ℝ)}
  (hb : BiasShape bias L.outC L.nd) {N : ℕ} (hN : 0 < N) (input : Strided ℝ)
include hlay hb hN

/-- Lifting layers: the outcome (result or error) depends on the entries of the batch only, not on its layout or on the
layout torch's convolution chooses. -/
theorem C102_lifting_partial (weight : Tensor ℝ) (H : Tensor G) (hx : ∃ s, input.shape = N :: s ∧ s.length = L.nd + 1) :
    Outcomes2 SameLayer (L.liftingForward K weight bias input.tensor H) (lifting lay L K weight bias input H) := by
  obtain ⟨s, hx, hs⟩ := hx
  unfold Layer.liftingForward lifting
  rw [show input.tensor.shape = input.shape from rfl, hx]
  refine Batch.Outcomes2.same _ fun w => ?_
  unfold Layer.liftingConv
  refine Batch.Outcomes2.same _ fun w => ?_
  refine Batch.Outcomes2.bind (Batch.convForward L w L.groups (k := s.length) (by omega)
    (picks_of_same hN hx (SameEntries.refl input.tensor))) fun a b hab => ?_
  rw [hs] at hab
  exact finish hlay hb H hab

/-- Group layers. -/
theorem C102_group_partial (weight : Tensor ℝ) (inH outH : Tensor G)
    (hx : ∃ C m S, input.shape = N :: C :: m :: S ∧ S.length = L.nd) :
    Outcomes2 SameLayer (L.groupForward K weight bias input.tensor inH outH) (group lay L K weight bias input inH outH) := by
  obtain ⟨C, m, S, hx, hs⟩ := hx
  unfold Layer.groupForward group
  rw [show input.tensor.shape = input.shape from rfl, hx]
  refine Batch.Outcomes2.same _ fun w => ?_
  unfold Layer.groupConv
  refine Batch.Outcomes2.bind (reshape_same input hN _) fun a b hab => ?_
  refine Batch.Outcomes2.same _ fun w => ?_
  refine Batch.Outcomes2.bind (Batch.convForward L w L.groups (by simp only [List.length_cons]; omega) hab) fun a b hab => ?_
  rw [List.length_cons, hs] at hab
  exact finish hlay hb outH hab

/-- Separable layers. -/
theorem C102_separable_partial {lay₁ : Tensor ℝ → Strided ℝ} (hlay₁ : IsLayout lay₁) (weightH weight : Tensor ℝ) (inH outH : Tensor G)
    (hx : ∃ C m S, input.shape = N :: C :: m :: S ∧ S.length = L.nd) :
    Outcomes2 SameLayer (L.separableForward K weightH weight bias input.tensor inH outH)
      (separable lay₁ lay L K weightH weight bias input inH outH) := by
  obtain ⟨C, m, S, hx, hs⟩ := hx
  unfold Layer.separableForward separable
  rw [show input.tensor.shape = input.shape from rfl, hx]
  refine Batch.Outcomes2.same _ fun w => ?_
  unfold Layer.separableConv
  refine Batch.Outcomes2.bind (reshape_same input hN _) fun a b hab => ?_
  refine Batch.Outcomes2.same _ fun wH => ?_
  refine Batch.Outcomes2.bind (Batch.convForward L wH L.groups (by simp only [List.length_cons]; omega) hab) fun a b hab => ?_
  refine Batch.Outcomes2.same _ fun w => ?_
  rw [List.length_cons, hs] at hab
  have hab' : Picks id N N (L.nd + 1) a (lay₁ b).tensor := by
    obtain ⟨s, h1, h2, -, -⟩ := hab.samples
    have h3 := same_of_picks hab
    have h4 := same_of_shows (hlay₁ b)
    have := picks_of_same hN h2 (y := (lay₁ b).tensor) ⟨h3.1.trans h4.1, fun i hi => by
      rw [h4.2 i (by rw [← h3.1]; exact hi), h3.2 i hi]⟩
    rwa [h1] at this
  refine Batch.Outcomes2.bind (Batch.convForward L w _ (by omega) hab') fun a b hab => ?_
  exact finish hlay hb outH hab

end layers

/-! ## the normalisations -/

theorem boxVarUnbiased_congr {s : List ℕ} {f g : List ℕ → ℝ} (h : ∀ q, InB s q → f q = g q) :
    F.boxVarUnbiased s f = F.boxVarUnbiased s g := by
  unfold F.boxVarUnbiased F.total
  rw [Batch.boxMean_congr h, List.map_congr_left fun q hq => by rw [h q (mem_allIdx.1 hq)]]

/-- results of the base classes. -/
def SameStats (n : ℕ) (s : List ℕ) (x y : Tensor ℝ × F.Running) : Prop :=
  x.1.shape = s ∧ SameEntries x.1 y.1 ∧ x.2.count = y.2.count ∧ (∀ c < n, x.2.mean c = y.2.mean c) ∧ ∀ c < n, x.2.var c = y.2.var c

theorem batchNorm_same (nd : ℕ) (a : F.NormArgs) (t : Bool) (r : F.Running) {x y : Tensor ℝ} (h : SameEntries x y) :
    Outcomes2 (SameStats a.features x.shape) (F.batchNorm nd a t r x) (F.batchNorm nd a t r y) := by
  obtain ⟨h1, h2⟩ := h
  unfold F.batchNorm
  rw [← h1]
  generalize hs : x.shape = sh at h2
  rcases sh with _ | ⟨N, _ | ⟨C, s⟩⟩
  · exact .error _
  · exact .error _
  dsimp only
  split
  · exact .error _
  split
  · split
    · exact .error _
    split
    · exact .error _
    rename_i hC
    have e : ∀ c < C, ∀ q, InB (N :: s) q → F.channel x c q = F.channel y c q := by
      intro c hc q hq
      obtain ⟨b, q, rfl, hb, hq⟩ := InB_cons_left hq
      exact (h2 _ (InB_cons.2 ⟨hb, InB_cons.2 ⟨hc, hq⟩⟩)).symm
    refine .ok ⟨rfl, ⟨rfl, fun i hi => ?_⟩, ?_, fun c hc => ?_, fun c hc => ?_⟩
    · have hi' := hi
      dsimp only at hi
      obtain ⟨b, q, rfl, hb, hq⟩ := InB_cons_left hi
      obtain ⟨c, q, rfl, hc, hq⟩ := InB_cons_left hq
      show F.standardise a.eps (F.boxMean (N :: s) (F.channel y c)) (F.boxVar (N :: s) (F.channel y c)) (a.scale c) (a.shift c)
        (y.get (b :: c :: q)) = F.standardise a.eps (F.boxMean (N :: s) (F.channel x c)) (F.boxVar (N :: s) (F.channel x c)) (a.scale c)
        (a.shift c) (x.get (b :: c :: q))
      rw [h2 _ hi', Batch.boxMean_congr (e c hc), Batch.boxVar_congr (e c hc)]
    · dsimp only; split <;> rfl
    · dsimp only
      split
      · rename_i ht
        have hc' : c < C := by
          by_contra h
          exact hC ⟨Or.inr ht.2, by omega⟩
        simp only [F.Running.update]
        rw [Batch.boxMean_congr (e c hc')]
      · rfl
    · dsimp only
      split
      · rename_i ht
        have hc' : c < C := by
          by_contra h
          exact hC ⟨Or.inr ht.2, by omega⟩
        simp only [F.Running.update]
        rw [boxVarUnbiased_congr (e c hc')]
      · rfl
  · split
    · exact .error _
    refine .ok ⟨rfl, ⟨rfl, fun i hi => ?_⟩, rfl, fun _ _ => rfl, fun _ _ => rfl⟩
    dsimp only
    rw [h2 i hi]

theorem instanceNormBatched_same (nd : ℕ) (a : F.NormArgs) (t : Bool) (r : F.Running) {x y : Tensor ℝ} (h : SameEntries x y) :
    Outcomes2 (SameStats a.features x.shape) (F.instanceNormBatched nd a t r x) (F.instanceNormBatched nd a t r y) := by
  obtain ⟨h1, h2⟩ := h
  unfold F.instanceNormBatched
  rw [← h1]
  generalize hs : x.shape = sh at h2
  rcases sh with _ | ⟨N, _ | ⟨C, s⟩⟩
  · exact .error _
  · exact .error _
  dsimp only
  split
  · exact .error _
  split
  · exact .error _
  split
  · split
    · exact .error _
    split
    · exact .error _
    rename_i hC
    have e : ∀ b < N, ∀ c < C, ∀ q, InB s q → F.instChannel x b c q = F.instChannel y b c q := by
      intro b hb c hc q hq
      exact (h2 _ (InB_cons.2 ⟨hb, InB_cons.2 ⟨hc, hq⟩⟩)).symm
    refine .ok ⟨rfl, ⟨rfl, fun i hi => ?_⟩, ?_, fun c hc => ?_, fun c hc => ?_⟩
    · have hi' := hi
      dsimp only at hi
      obtain ⟨b, q, rfl, hb, hq⟩ := InB_cons_left hi
      obtain ⟨c, q, rfl, hc, hq⟩ := InB_cons_left hq
      show F.standardise a.eps (F.boxMean s (F.instChannel y b c)) (F.boxVar s (F.instChannel y b c)) (a.scale c) (a.shift c)
        (y.get (b :: c :: q)) = F.standardise a.eps (F.boxMean s (F.instChannel x b c)) (F.boxVar s (F.instChannel x b c)) (a.scale c)
        (a.shift c) (x.get (b :: c :: q))
      rw [h2 _ hi', Batch.boxMean_congr (e b hb c hc), Batch.boxVar_congr (e b hb c hc)]
    · dsimp only; split <;> rfl
    · dsimp only
      split
      · rename_i ht
        have hc' : c < C := by
          by_contra h
          exact hC ⟨ht.2, by omega⟩
        simp only [F.Running.update]
        rw [Batch.boxMean_congr fun i hi => ?_]
        obtain ⟨b, q, rfl, hb, hq⟩ := InB_cons_left hi
        exact Batch.boxMean_congr (e b hb c hc')
      · rfl
    · dsimp only
      split
      · rename_i ht
        have hc' : c < C := by
          by_contra h
          exact hC ⟨ht.2, by omega⟩
        simp only [F.Running.update]
        rw [Batch.boxMean_congr fun i hi => ?_]
        obtain ⟨b, q, rfl, hb, hq⟩ := InB_cons_left hi
        exact boxVarUnbiased_congr (e b hb c hc')
      · rfl
  · split
    · exact .error _
    refine .ok ⟨rfl, ⟨rfl, fun i hi => ?_⟩, rfl, fun _ _ => rfl, fun _ _ => rfl⟩
    dsimp only
    rw [h2 i hi]

theorem instanceNorm_same (nd : ℕ) (a : F.NormArgs) (t : Bool) (r : F.Running) {x y : Tensor ℝ} (h : SameEntries x y) :
    Outcomes2 (SameStats a.features x.shape) (F.instanceNorm nd a t r x) (F.instanceNorm nd a t r y) := by
  unfold F.instanceNorm
  rw [← h.1]
  split
  · refine Batch.Outcomes2.bind (instanceNormBatched_same nd a t r (x := ⟨1 :: x.shape, fun idx => x.get idx.tail⟩)
      (y := ⟨1 :: x.shape, fun idx => y.get idx.tail⟩) ⟨rfl, fun i hi => ?_⟩) fun u v huv => ?_
    · obtain ⟨b, q, rfl, hb, hq⟩ := InB_cons_left hi
      exact h.2 q hq
    · obtain ⟨g1, ⟨g2, g3⟩, g4⟩ := huv
      exact .ok ⟨rfl, ⟨rfl, fun i hi => g3 (0 :: i) (by rw [g1]; exact InB_cons.2 ⟨Nat.one_pos, hi⟩)⟩, g4⟩
  · exact instanceNormBatched_same nd a t r h

/-- merging two axes is possible exactly if they can be counted through with one stride. -/
theorem C102_merge (x : Strided α) {A O : List (ℕ × ℕ)} {h st Z st' : ℕ} (hx : x.axes = A ++ (h, st) :: (Z, st') :: O)
    (h0 : x.shape.prod ≠ 0) :
    (∃ y, x.view (sizes A ++ h * Z :: sizes O) = .ok y) ↔ Foldable h st Z st' := by
  have hsh : x.shape = sizes A ++ h :: Z :: sizes O := by simp [Strided.shape, hx]
  have hr : ∀ {i1 o : List ℕ} {p q : ℕ}, InB (sizes A) i1 → ravel (sizes A ++ h :: Z :: sizes O) (i1 ++ p :: q :: o) =
      ravel (sizes A ++ h * Z :: sizes O) (i1 ++ (p * Z + q) :: o) := by
    intro i1 o p q h1
    rw [ravel_append h1.length, ravel_append h1.length]
    simp only [ravel, List.prod_cons]
    ring
  have hprod : x.shape.prod = (sizes A ++ h * Z :: sizes O).prod := by rw [hsh]; simp [mul_assoc]
  have hZ : 0 < Z := Nat.pos_of_ne_zero fun h => h0 (by rw [hsh, h]; simp)
  have hh : 0 < h := Nat.pos_of_ne_zero fun h => h0 (by rw [hsh, h]; simp)
  have hzip : ∀ (stA stO : List ℕ) (s : ℕ), stA.length = A.length → stO.length = O.length →
      (sizes A ++ h * Z :: sizes O).zip (stA ++ s :: stO) = (sizes A).zip stA ++ (h * Z, s) :: (sizes O).zip stO := by
    intro stA stO s h1 h2
    rw [List.zip_append (by simp [h1])]
    rfl
  rw [(C102_view x _).1]
  constructor
  · rintro ⟨-, h1 | ⟨sts, hl, hd⟩⟩
    · rw [hprod] at h0; exact absurd h1 h0
    · by_contra hf
      unfold Foldable at hf
      push Not at hf
      obtain ⟨f1, f2, f3⟩ := hf
      obtain ⟨stA, s, stO, rfl, hA, hO⟩ : ∃ stA s stO, sts = stA ++ s :: stO ∧ stA.length = A.length ∧ stO.length = O.length := by
        have hl' : sts.length = A.length + (O.length + 1) := by rw [hl]; simp
        obtain ⟨stA, l, rfl, h3, h4⟩ : ∃ a l, sts = a ++ l ∧ a.length = A.length ∧ l.length = O.length + 1 :=
          ⟨sts.take A.length, sts.drop A.length, (List.take_append_drop _ _).symm, by simp; omega, by simp; omega⟩
        cases l with
        | nil => simp at h4
        | cons s stO => exact ⟨stA, s, stO, rfl, h3, by simpa using h4⟩
      have hzero : ∀ (L : List (ℕ × ℕ)), (sizes L).prod ≠ 0 → InB (sizes L) (List.replicate L.length 0) := by
        intro L hL
        induction L with
        | nil => exact .nil
        | cons a L ih =>
          simp only [List.map_cons, List.prod_cons] at hL
          rw [List.length_cons, List.replicate_succ]
          exact InB_cons.2 ⟨Nat.pos_of_ne_zero (left_ne_zero_of_mul hL), ih (right_ne_zero_of_mul hL)⟩
      have hAO : (sizes A).prod ≠ 0 ∧ (sizes O).prod ≠ 0 := by
        rw [hsh] at h0
        simp only [List.prod_append, List.prod_cons] at h0
        exact ⟨left_ne_zero_of_mul h0, right_ne_zero_of_mul (right_ne_zero_of_mul (right_ne_zero_of_mul h0))⟩
      have key : ∀ p q, p < h → q < Z → (p * Z + q) * s = p * st + q * st' := by
        intro p q hp hq
        have hlt : p * Z + q < h * Z := by
          calc p * Z + q < (p + 1) * Z := by rw [Nat.succ_mul]; omega
            _ ≤ h * Z := Nat.mul_le_mul_right _ hp
        have h1 := hzero A hAO.1
        have h2 := hzero O hAO.2
        have hi : InB (sizes A ++ h * Z :: sizes O) (List.replicate A.length 0 ++ (p * Z + q) :: List.replicate O.length 0) :=
          h1.append (InB_cons.2 ⟨hlt, h2⟩)
        have := hd _ hi
        rw [← hr h1, hsh, unravel_ravel (h1.append (InB_cons.2 ⟨hp, InB_cons.2 ⟨hq, h2⟩⟩)), hx, hzip _ _ _ hA hO,
          off_append _ _ (by simp [hA]), off_append _ _ (by simp)] at this
        simp only [off, off_zero] at this
        omega
      have k1 := key 0 1 (by omega) (by omega)
      have k2 := key 1 0 (by omega) (by omega)
      apply f3
      simp at k1 k2
      rw [← k1, k2]
  · intro hf
    refine ⟨hprod, Or.inr ?_⟩
    obtain ⟨s, hs⟩ : ∃ s, ∀ p q, p < h → q < Z → (p * Z + q) * s = p * st + q * st' := by
      rcases hf with hf | hf | hf
      · refine ⟨st', fun p q hp hq => ?_⟩
        have : p = 0 := by omega
        subst this; simp
      · refine ⟨st, fun p q hp hq => ?_⟩
        have : q = 0 := by omega
        have : Z = 1 := by omega
        subst this; simp [*]
      · exact ⟨st', fun p q hp hq => by rw [hf]; ring⟩
    refine ⟨A.map Prod.snd ++ s :: O.map Prod.snd, by simp, fun i hi => ?_⟩
    obtain ⟨i1, i2, rfl, h1, h2⟩ := InB_append_left hi
    obtain ⟨k, o, rfl, hk, ho⟩ := InB_cons_left h2
    have hp : k / Z < h := Nat.div_lt_of_lt_mul (by rw [mul_comm]; exact hk)
    have hq : k % Z < Z := Nat.mod_lt _ hZ
    have hkk : k = k / Z * Z + k % Z := by rw [mul_comm]; exact (Nat.div_add_mod k Z).symm
    rw [show ravel (sizes A ++ h * Z :: sizes O) (i1 ++ k :: o) = ravel (sizes A ++ h :: Z :: sizes O) (i1 ++ (k / Z) :: (k % Z) :: o) by
      rw [hr h1, ← hkk], hsh, unravel_ravel (h1.append (InB_cons.2 ⟨hp, InB_cons.2 ⟨hq, ho⟩⟩)), hx, hzip _ _ _ (by simp) (by simp),
      off_append _ _ (by rw [h1.length]; simp), off_append _ _ (by rw [h1.length]; simp)]
    have hz : ∀ l : List (ℕ × ℕ), (sizes l).zip (l.map Prod.snd) = l := fun l => (List.zip_of_prod rfl rfl).symm
    rw [hz, hz]
    simp only [off]
    have := hs _ _ hp hq
    rw [← hkk] at this
    rw [this]
    ring

/-- the common part of the normalisations. -/
theorem folded_same {lay : Tensor ℝ → Strided ℝ} (hlay : IsLayout lay) {n : ℕ}
    {norm : Tensor ℝ → Except PyErr (Tensor ℝ × F.Running)}
    (hn : ∀ {x y}, SameEntries x y → Outcomes2 (SameStats n x.shape) (norm x) (norm y)) (x : Strided ℝ) (H : Tensor G)
    {a b : ℕ × ℕ} {h st Z st' : ℕ} {O : List (ℕ × ℕ)} (hx : x.axes = a :: b :: (h, st) :: (Z, st') :: O) :
    (Foldable h st Z st' ∨ x.shape.prod = 0 →
      Outcomes2 (SameNorm n) (Normalization.folded norm x.tensor H) (folded lay norm x H)) ∧
    (¬ Foldable h st Z st' → x.shape.prod ≠ 0 → folded lay norm x H = .error .runtimeError) := by
  have hsh : x.shape = a.1 :: b.1 :: h :: Z :: sizes O := by simp [Strided.shape, hx]
  have hm := C102_merge x (A := [a, b]) (O := O) (by rw [hx]; rfl)
  rw [show sizes [a, b] ++ h * Z :: sizes O = a.1 :: b.1 :: h * Z :: sizes O from rfl] at hm
  have hprod : x.shape.prod = (a.1 :: b.1 :: h * Z :: sizes O).prod := by rw [hsh]; simp [mul_assoc]
  constructor
  · intro hf
    obtain ⟨y, hy⟩ : ∃ y, x.view (a.1 :: b.1 :: h * Z :: sizes O) = .ok y := by
      by_cases h0 : x.shape.prod = 0
      · exact (C102_view _ _).1.2 ⟨hprod, Or.inl (hprod ▸ h0)⟩
      · exact (hm h0).2 (hf.resolve_right h0)
    obtain ⟨g1, g2⟩ := (C102_view _ _).2.1 y hy
    unfold Normalization.folded folded
    rw [show x.tensor.shape = x.shape from rfl, hsh]
    dsimp only
    rw [hy, view_ok (t := x.tensor) hprod, ok_bind, ok_bind]
    refine Batch.Outcomes2.bind (hn (y := y.tensor) ⟨g1.symm, g2⟩) fun u v huv => ?_
    obtain ⟨k1, k2, k3⟩ := huv
    dsimp only at k1
    have hv : v.1.shape = [a.1, b.1] ++ h * Z :: sizes O := by rw [← k2.1, k1]; rfl
    obtain ⟨l1, l2⟩ := hlay v.1
    obtain ⟨z, hz⟩ := C102_split (lay v.1) [a.1, b.1] (sizes O) h Z (by rw [l1, hv])
    obtain ⟨m1, m2⟩ := (C102_view _ _).2.1 z hz
    have hz' : (lay v.1).view (a.1 :: b.1 :: h :: Z :: sizes O) = .ok z := hz
    have hpu : u.1.shape.prod = (a.1 :: b.1 :: h :: Z :: sizes O).prod := by rw [k1, ← hprod, hsh]
    rw [hz', view_ok hpu, ok_bind, ok_bind]
    refine .ok ⟨⟨⟨m1.symm, fun i hi => ?_⟩, rfl⟩, k3.1, k3.2.1, k3.2.2⟩
    have hu : InB u.1.shape (unravel u.1.shape (ravel (a.1 :: b.1 :: h :: Z :: sizes O) i)) :=
      unravel_InB (by rw [hpu]; exact ravel_lt hi)
    dsimp only
    rw [m2 i hi, l1, l2 _ (by rw [← k2.1]; exact hu), ← k2.1]
    exact k2.2 _ hu
  · intro hf h0
    unfold folded
    rw [hsh]
    dsimp only
    cases hv : x.view (a.1 :: b.1 :: h * Z :: sizes O) with
    | ok y => exact absurd ((hm h0).1 ⟨y, hv⟩) hf
    | error e => rw [(C102_view _ _).2.2 e hv]; rfl

section norms
variable {lay : Tensor ℝ → Strided ℝ} (hlay : IsLayout lay) (nd : ℕ) (args : F.NormArgs) (training : Bool) (r : F.Running)
  (x : Strided ℝ) (H : Tensor G) {a b : ℕ × ℕ} {h st Z st' : ℕ} {O : List (ℕ × ℕ)}
  (hx : x.axes = a :: b :: (h, st) :: (Z, st') :: O)
include hlay hx

/-- Batch normalisation: same results, errors and running statistics, if the group axis and the first spatial axis can be
counted through with one stride. -/
theorem C102_batch_norm_partial (hf : Foldable h st Z st') :
    Outcomes2 (SameNorm args.features) (Normalization.batch nd args training r x.tensor H) (batch lay nd args training r x H) :=
  (folded_same hlay (batchNorm_same nd args training r) x H hx).1 (Or.inl hf)

/-- Instance normalisation. -/
theorem C102_instance_norm_partial (hf : Foldable h st Z st') :
    Outcomes2 (SameNorm args.features) (Normalization.inst nd args training r x.tensor H) (inst lay nd args training r x H) :=
  (folded_same hlay (instanceNorm_same nd args training r) x H hx).1 (Or.inl hf)

/-- Otherwise they raise, although the same entries in row-major order are accepted (`C102_rows`). -/
theorem C102_norm_violated (hf : ¬ Foldable h st Z st') (h0 : x.shape.prod ≠ 0) :
    batch lay nd args training r x H = .error .runtimeError ∧ inst lay nd args training r x H = .error .runtimeError :=
  ⟨(folded_same hlay (batchNorm_same nd args training r) x H hx).2 hf h0,
    (folded_same hlay (instanceNorm_same nd args training r) x H hx).2 hf h0⟩

end norms

/-- Row-major tensors are accepted: the group axis and the first spatial axis of a new tensor always fold. -/
theorem C102_rows (t : Tensor ℝ) {N C h Z : ℕ} {O : List ℕ} (ht : t.shape = N :: C :: h :: Z :: O) :
    ∃ a b st st' o, (Strided.new t).axes = a :: b :: (h, st) :: (Z, st') :: o ∧ Foldable h st Z st' := by
  have key : ∀ (vs : List ℕ) (k : ℕ), ∃ st, packed k (vs ++ [Z, h, C, N]) =
      packed k vs ++ [st, st * max Z 1, st * max Z 1 * max h 1, st * max Z 1 * max h 1 * max C 1] := by
    intro vs
    induction vs with
    | nil => exact fun k => ⟨k, rfl⟩
    | cons v vs ih =>
      intro k
      obtain ⟨st, hst⟩ := ih (k * max v 1)
      exact ⟨st, by rw [List.cons_append, packed, hst]; rfl⟩
  obtain ⟨st, hst⟩ := key O.reverse 1
  have hax : (Strided.new t).axes = (N, st * max Z 1 * max h 1 * max C 1) :: (C, st * max Z 1 * max h 1) :: (h, st * max Z 1) ::
      (Z, st) :: O.zip (packed 1 O.reverse).reverse := by
    show t.shape.zip (packed 1 t.shape.reverse).reverse = _
    rw [ht, show (N :: C :: h :: Z :: O).reverse = O.reverse ++ [Z, h, C, N] by simp, hst]
    simp
  refine ⟨_, _, _, _, _, hax, ?_⟩
  by_cases hz : Z ≤ 1
  · exact Or.inr (Or.inl hz)
  · refine Or.inr (Or.inr ?_)
    rw [Nat.max_eq_left (by omega), mul_comm]

/-- Feature maps with the last two axes exchanged (`x.transpose(-1, -2)`; also `torch.rot90`, which exchanges two axes of a
flipped copy): batch and instance normalisation raise unless there is one group element, or one row, or one column. -/
theorem C102_transposed_violated {lay : Tensor ℝ → Strided ℝ} (hlay : IsLayout lay) (nd : ℕ) (args : F.NormArgs) (training : Bool)
    (r : F.Running) (H : Tensor G) {N C n Z W : ℕ} (hN : 0 < N) (hC : 0 < C) (hn : 2 ≤ n) (hZ : 2 ≤ Z) (hW : 2 ≤ W)
    (f : ℕ → ℝ) (o : ℕ) :
    let x : Strided ℝ := ⟨[(N, C * n * W * Z), (C, n * W * Z), (n, W * Z), (Z, 1), (W, Z)], o, f⟩
    batch lay nd args training r x H = .error .runtimeError ∧ inst lay nd args training r x H = .error .runtimeError ∧
    (nd = 2 → args.features = C → ∃ y z, batch lay nd args training r (Strided.new x.tensor) H = .ok y ∧
      inst lay nd args training r (Strided.new x.tensor) H = .ok z) := by
  intro x
  have hsh : x.shape = [N, C, n, Z, W] := rfl
  have hpos : x.shape.prod ≠ 0 := by
    rw [hsh]
    simp only [List.prod_cons, List.prod_nil]
    positivity
  have hf : ¬ Foldable n (W * Z) Z 1 := by
    unfold Foldable
    push Not
    refine ⟨by omega, by omega, ?_⟩
    rw [mul_one]
    nlinarith
  obtain ⟨h1, h2⟩ := C102_norm_violated hlay nd args training r x H rfl hf hpos
  refine ⟨h1, h2, ?_⟩
  rintro rfl hC'
  obtain ⟨a, b, st, st', l, hax, hfold⟩ := C102_rows x.tensor (N := N) (C := C) (h := n) (Z := Z) (O := [W]) hsh
  have hb := C102_batch_norm_partial hlay 2 args training r _ H hax hfold
  have hi := C102_instance_norm_partial hlay 2 args training r _ H hax hfold
  have hns : (Strided.new x.tensor).tensor.shape = [N, C, n, Z, W] := (C102_new x.tensor).1.1
  have hnz : 1 < n * Z * W := by
    calc 1 < 2 * 2 * 2 := by norm_num
      _ ≤ n * Z * W := Nat.mul_le_mul (Nat.mul_le_mul hn hZ) hW
  have kb : ∃ y, Normalization.batch 2 args training r (Strided.new x.tensor).tensor H = .ok y := by
    unfold Normalization.batch Normalization.folded
    rw [hns]
    dsimp only
    rw [view_ok (by rw [hns]; simp [mul_assoc]), ok_bind]
    unfold F.batchNorm
    dsimp only
    rw [if_neg (by simp)]
    have h3 : ¬ (N * [n * Z, W].prod = 1) := by
      simp only [List.prod_cons, List.prod_nil, mul_one]
      intro h
      have := Nat.eq_one_of_mul_eq_one_left h
      omega
    by_cases ht : training = true ∨ ¬ args.track = true
    · rw [if_pos ht, if_neg h3, if_neg (by rintro ⟨-, h⟩; exact h hC'.symm), ok_bind, view_ok (by simp [mul_assoc]), ok_bind]
      exact ⟨_, rfl⟩
    · rw [if_neg ht, if_neg (by rw [hC']; simp), ok_bind, view_ok (by simp [mul_assoc]), ok_bind]
      exact ⟨_, rfl⟩
  have ki : ∃ y, Normalization.inst 2 args training r (Strided.new x.tensor).tensor H = .ok y := by
    unfold Normalization.inst Normalization.folded
    rw [hns]
    dsimp only
    rw [view_ok (by rw [hns]; simp [mul_assoc]), ok_bind]
    unfold F.instanceNorm
    dsimp only
    rw [if_neg (by simp)]
    unfold F.instanceNormBatched
    dsimp only
    have h3 : ¬ ([n * Z, W].prod = 1) := by
      simp only [List.prod_cons, List.prod_nil, mul_one]
      omega
    rw [if_neg (by simp), if_neg (by rintro ⟨-, h⟩; exact h hC'.symm)]
    by_cases ht : training = true ∨ ¬ args.track = true
    · rw [if_pos ht, if_neg h3, if_neg (by rintro ⟨-, h⟩; exact h hC'.symm), ok_bind, view_ok (by simp [mul_assoc]), ok_bind]
      exact ⟨_, rfl⟩
    · rw [if_neg ht, if_neg (by rw [hC']; simp), ok_bind, view_ok (by simp [mul_assoc]), ok_bind]
      exact ⟨_, rfl⟩
  obtain ⟨y, hy⟩ := kb
  obtain ⟨z, hz⟩ := ki
  rw [hy] at hb
  rw [hz] at hi
  generalize batch lay 2 args training r (Strided.new x.tensor) H = u at hb ⊢
  generalize inst lay 2 args training r (Strided.new x.tensor) H = v at hi ⊢
  cases hb
  cases hi
  exact ⟨_, _, rfl, rfl⟩

/-- Channels-last images: torch's convolution stores its result channels-last too; after the layer has split the channels into
features and group elements, batch and instance normalisation raise (no bias, so that the layer returns this view). -/
theorem C102_channels_last_violated {lay : Tensor ℝ → Strided ℝ} (hlay : IsLayout lay) (nd : ℕ) (args : F.NormArgs) (training : Bool)
    (r : F.Running) (H : Tensor G) {N C n Z W : ℕ} (hN : 0 < N) (hC : 0 < C) (hn : 2 ≤ n) (hZ : 2 ≤ Z) (hW : 0 < W)
    (f : ℕ → ℝ) (o : ℕ) :
    ∃ x, (⟨[(N, Z * W * (C * n)), (C * n, 1), (Z, W * (C * n)), (W, C * n)], o, f⟩ : Strided ℝ).view [N, C, n, Z, W] = .ok x ∧
      batch lay nd args training r x H = .error .runtimeError ∧ inst lay nd args training r x H = .error .runtimeError := by
  obtain ⟨x, hx⟩ := C102_split (⟨[(N, Z * W * (C * n)), (C * n, 1), (Z, W * (C * n)), (W, C * n)], o, f⟩ : Strided ℝ) [N] [Z, W] C n rfl
  refine ⟨x, hx, ?_⟩
  have hx' : (⟨[(N, Z * W * (C * n)), (C * n, 1), (Z, W * (C * n)), (W, C * n)], o, f⟩ : Strided ℝ).view [N, C, n, Z, W] = .ok x := hx
  unfold Strided.view at hx'
  have hprod : (⟨[(N, Z * W * (C * n)), (C * n, 1), (Z, W * (C * n)), (W, C * n)], o, f⟩ : Strided ℝ).shape.prod = [N, C, n, Z, W].prod := by
    simp [Strided.shape, mul_assoc]
  rw [if_neg (by push Not; exact hprod)] at hx'
  split at hx'
  · cases hx'
  rename_i sts hc
  have hd := computeStride_describes hprod hc
  cases hx'
  generalize sts.reverse = st at hd
  obtain ⟨h1, h2⟩ := hd
  rcases st with _ | ⟨s0, _ | ⟨s1, _ | ⟨s2, _ | ⟨s3, _ | ⟨s4, _ | ⟨s5, l⟩⟩⟩⟩⟩⟩ <;> simp at h1
  have g2 := h2 [0, 0, 1, 0, 0] (by
    repeat first | exact .nil | refine InB_cons.2 ⟨by omega, ?_⟩)
  have g3 := h2 [0, 0, 0, 1, 0] (by
    repeat first | exact .nil | refine InB_cons.2 ⟨by omega, ?_⟩)
  have hcn : 1 < C * n := by nlinarith
  have i1 : InB [N, C * n, Z, W] [0, 1, 0, 0] := by
    repeat first | exact .nil | refine InB_cons.2 ⟨by omega, ?_⟩
  have i2 : InB [N, C * n, Z, W] [0, 0, 1, 0] := by
    repeat first | exact .nil | refine InB_cons.2 ⟨by omega, ?_⟩
  have e1 : ravel [N, C, n, Z, W] [0, 0, 1, 0, 0] = ravel [N, C * n, Z, W] [0, 1, 0, 0] := by simp [ravel]
  have e2 : ravel [N, C, n, Z, W] [0, 0, 0, 1, 0] = ravel [N, C * n, Z, W] [0, 0, 1, 0] := by simp [ravel]
  rw [e1, show (⟨[(N, Z * W * (C * n)), (C * n, 1), (Z, W * (C * n)), (W, C * n)], o, f⟩ : Strided ℝ).shape = [N, C * n, Z, W] from rfl,
    unravel_ravel i1] at g2
  rw [e2, show (⟨[(N, Z * W * (C * n)), (C * n, 1), (Z, W * (C * n)), (W, C * n)], o, f⟩ : Strided ℝ).shape = [N, C * n, Z, W] from rfl,
    unravel_ravel i2] at g3
  simp [off] at g2 g3
  subst g2 g3
  refine C102_norm_violated hlay nd args training r _ H rfl ?_ ?_
  · unfold Foldable
    push Not
    refine ⟨by omega, by omega, ?_⟩
    have h5 : 0 < W * (C * n) := by positivity
    have : 2 * 1 ≤ Z * (W * (C * n)) := Nat.mul_le_mul hZ h5
    omega
  · simp [Strided.shape]
    omega

/-! A batch of two 3×4 feature maps with 3 channels and 5 group elements, with the last axes exchanged. -/
example (args : F.NormArgs) (r : F.Running) (H : Tensor G) (f : ℕ → ℝ) :
    batch Strided.new 2 args true r (⟨[(2, 180), (3, 60), (5, 12), (3, 1), (4, 3)], 0, f⟩ : Strided ℝ) H = .error .runtimeError :=
  (C102_transposed_violated (fun t => (C102_new t).1) 2 args true r H (N := 2) (C := 3) (n := 5) (Z := 3) (W := 4) (by decide) (by decide)
    (by decide) (by decide) (by decide) f 0).1

/-! The same map is accepted by the group convolutions, with the result of the row-major map. -/
example (L : Layer) (hL : L.nd = 2) (K : GroupKernel G d) (weight : Tensor ℝ) (f : ℕ → ℝ) (inH outH : Tensor G) :
    Outcomes2 SameLayer
      (L.groupForward K weight none (⟨[(2, 180), (3, 60), (5, 12), (3, 1), (4, 3)], 0, f⟩ : Strided ℝ).tensor inH outH)
      (group Strided.new L K weight none ⟨[(2, 180), (3, 60), (5, 12), (3, 1), (4, 3)], 0, f⟩ inH outH) :=
  C102_group_partial (fun t => (C102_new t).1) L (fun b hb => by cases hb) (N := 2) (by decide) _ weight inH outH ⟨3, 5, [3, 4], rfl, by rw [hL]; rfl⟩

end GConv.Layout

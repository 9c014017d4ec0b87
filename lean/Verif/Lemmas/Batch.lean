import Verif.Spec.Batch
import Verif.Lemmas.Tensor
import Verif.Lemmas.Conv
import Verif.Model.Network
import Verif.Spec.Layer

/-! # All operations of the layers act on every sample separately -/

namespace GConv.Batch

open Tensor Spec

variable {r : ℕ → ℕ} {N N' k : ℕ} {x y : Tensor ℝ}

theorem Outcomes2.bind {A B A' B' : Type} {R : A → A' → Prop} {S : B → B' → Prop} {e₁ : Except PyErr A}
    {e₂ : Except PyErr A'} {f₁ : A → Except PyErr B} {f₂ : A' → Except PyErr B'} (h : Outcomes2 R e₁ e₂)
    (hf : ∀ a b, R a b → Outcomes2 S (f₁ a) (f₂ b)) : Outcomes2 S (e₁ >>= f₁) (e₂ >>= f₂) := by
  cases h with
  | error e => exact .error e
  | ok h => exact hf _ _ h

theorem Outcomes2.same {A B B' : Type} {S : B → B' → Prop} (e : Except PyErr A)
    {f₁ : A → Except PyErr B} {f₂ : A → Except PyErr B'} (hf : ∀ a, Outcomes2 S (f₁ a) (f₂ a)) :
    Outcomes2 S (e >>= f₁) (e >>= f₂) := by
  cases e with
  | error e => exact .error e
  | ok a => exact hf a

theorem unravel_cons {N : ℕ} {s t q : List ℕ} {b : ℕ} (hst : s.prod = t.prod) (hq : InB t q) :
    unravel (N :: s) (ravel (N :: t) (b :: q)) = b :: unravel s (ravel t q) := by
  have hlt := ravel_lt hq
  simp only [unravel, ravel, hst]
  have hp : 0 < t.prod := by omega
  rw [Nat.add_comm, Nat.add_mul_div_right _ _ hp, Nat.div_eq_of_lt hlt, Nat.zero_add, Nat.add_mul_mod_self_right,
    Nat.mod_eq_of_lt hlt]

theorem picks_pos (h : Picks r N N' k x y) : 0 < N := lt_of_le_of_lt (Nat.zero_le _) (h.lt 0 h.pos)

theorem view (h : Picks r N N' k x y) (t : List ℕ) :
    Outcomes2 (Picks r N N' t.length) (x.view (N :: t)) (y.view (N' :: t)) := by
  obtain ⟨s, hs, hx, hy, hv⟩ := h.samples
  unfold Tensor.view
  rw [hx, hy, List.prod_cons, List.prod_cons, List.prod_cons, List.prod_cons]
  by_cases e : s.prod = t.prod
  · rw [if_pos (by rw [e]), if_pos (by rw [e])]
    refine .ok ⟨h.pos, h.lt, t, rfl, rfl, rfl, fun b q hb hq => ?_⟩
    dsimp only
    rw [unravel_cons e hq, unravel_cons e hq]
    exact hv _ _ hb (unravel_InB (by rw [e]; exact ravel_lt hq))
  · rw [if_neg, if_neg]
    · exact .error _
    · exact fun h' => e (Nat.eq_of_mul_eq_mul_left h.pos h')
    · exact fun h' => e (Nat.eq_of_mul_eq_mul_left (picks_pos h) h')

/-! ## padding and convolution -/

theorem padIdx_lt {mode : F.CPad} {s l r p j : ℕ} (h : F.padAllowed mode s l r = true) (hp : p < s + l + r)
    (hj : F.padIdx mode s ((p : ℤ) - l) = some j) : j < s := by
  cases mode <;> simp only [F.padAllowed, F.padIdx] at h hj
  · split at hj
    · cases hj; omega
    · cases hj
  · simp at h
    cases hj
    split
    · omega
    · split <;> omega
  · simp at h
    cases hj
    omega
  · simp at h
    cases hj
    have hs : 0 < s := by omega
    have h1 := Int.emod_nonneg ((p : ℤ) - l) (show (s : ℤ) ≠ 0 by omega)
    have h2 := Int.emod_lt_of_pos ((p : ℤ) - l) (show (0 : ℤ) < s by omega)
    omega

theorem padIndex_InB {mode : F.CPad} : ∀ {S : List ℕ} {ps : List (ℕ × ℕ)} {p q : List ℕ}, S.length = ps.length →
    (List.zipWith (fun s lr => F.padAllowed mode s lr.1 lr.2) S ps).all id = true →
    InB (List.zipWith (fun s lr => s + lr.1 + lr.2) S ps) p → F.padIndex mode S ps p = some q → InB S q
  | [], [], _, _, _, _, hp, hq => by
    cases InB_nil_left hp
    cases hq
    exact InB_nil_nil
  | s :: S, lr :: ps, p, q, hl, ha, hp, hq => by
    rw [List.zipWith_cons_cons] at hp ha
    obtain ⟨i, p, rfl, hi, hp⟩ := InB_cons_left hp
    rw [List.all_cons, Bool.and_eq_true] at ha
    unfold F.padIndex at hq
    split at hq
    · rename_i j js hj hjs
      cases hq
      exact InB_cons.2 ⟨padIdx_lt ha.1 hi hj, padIndex_InB (by simpa using hl) ha.2 hp hjs⟩
    · cases hq

theorem padAxes (mode : F.CPad) (ps : List (ℕ × ℕ)) (h : Picks r N N' k x y) :
    Outcomes2 (Picks r N N' k) (F.padAxes mode x ps) (F.padAxes mode y ps) := by
  obtain ⟨s, hs, hx, hy, hv⟩ := h.samples
  unfold F.padAxes
  rw [hx, hy]
  cases s with
  | nil => exact .error _
  | cons C S =>
    dsimp only
    split
    · rename_i hc
      refine .ok ⟨h.pos, h.lt, _, ?_, rfl, rfl, fun b q hb hq => ?_⟩
      · rw [← hs]; simp [hc.1]
      · obtain ⟨c, p, rfl, hc', hp⟩ := InB_cons_left hq
        dsimp only
        cases e : F.padIndex mode S ps p with
        | none => rfl
        | some q => exact hv _ _ hb (InB_cons.2 ⟨hc', padIndex_InB hc.1 hc.2 hp e⟩)
    · exact .error _

theorem inPos_lt : ∀ {S K st dil o k : List ℕ}, S.length = K.length → st.length = K.length → dil.length = K.length →
    st.all (0 < ·) = true → F.fits S K dil = true → K.all (0 < ·) = true →
    InB (F.outSizes S K st dil) o → InB K k → InB S (F.inPos st dil o k)
  | [], [], [], [], _, _, _, _, _, _, _, _, ho, hk => by
    cases InB_nil_left hk
    cases InB_nil_left ho
    exact InB_nil_nil
  | s :: S, n :: K, st :: sts, dil :: dils, o, k, h1, h2, h3, h4, h5, h6, ho, hk => by
    unfold F.outSizes at ho
    obtain ⟨o, os, rfl, ho, hos⟩ := InB_cons_left ho
    obtain ⟨k, ks, rfl, hk, hks⟩ := InB_cons_left hk
    unfold F.fits at h5
    rw [Bool.and_eq_true, decide_eq_true_iff] at h5
    rw [List.all_cons, Bool.and_eq_true, decide_eq_true_iff] at h4 h6
    unfold F.inPos
    refine InB_cons.2 ⟨?_, inPos_lt (by simpa using h1) (by simpa using h2) (by simpa using h3) h4.2 h5.2 h6.2 hos hks⟩
    unfold F.outSize at ho
    have a1 : o * st ≤ s - (dil * (n - 1) + 1) := by
      have : o ≤ (s - (dil * (n - 1) + 1)) / st := by omega
      calc o * st ≤ (s - (dil * (n - 1) + 1)) / st * st := Nat.mul_le_mul_right _ this
        _ ≤ _ := Nat.div_mul_le_self _ _
    have a2 : k * dil ≤ dil * (n - 1) := by
      rw [Nat.mul_comm]; exact Nat.mul_le_mul_left _ (by omega)
    have := h5.1
    omega

theorem outSizes_length : ∀ {S K st dil : List ℕ}, S.length = K.length → st.length = K.length → dil.length = K.length →
    (F.outSizes S K st dil).length = S.length
  | [], [], [], [], _, _, _ => rfl
  | _ :: _, _ :: _, _ :: _, _ :: _, h1, h2, h3 => by
    unfold F.outSizes
    rw [List.length_cons, List.length_cons, outSizes_length (by simpa using h1) (by simpa using h2) (by simpa using h3)]

theorem channel_lt {Cout Cg groups co ci : ℕ} (h : Cout % groups = 0) (hco : co < Cout) (hci : ci < Cg) :
    co / (Cout / groups) * Cg + ci < Cg * groups := by
  obtain ⟨m, rfl⟩ := Nat.dvd_of_mod_eq_zero h
  have hg : 0 < groups := Nat.pos_of_ne_zero (by rintro rfl; simp at hco)
  rw [Nat.mul_div_cancel_left _ hg]
  have : co / m < groups := Nat.div_lt_of_lt_mul (by rwa [Nat.mul_comm] )
  nlinarith

theorem convValid (w : Tensor ℝ) (st dil : List ℕ) (groups : ℕ) (h : Picks r N N' k x y) :
    Outcomes2 (Picks r N N' k) (F.convValid x w st dil groups) (F.convValid y w st dil groups) := by
  obtain ⟨s, hs, hx, hy, hv⟩ := h.samples
  unfold F.convValid
  rw [hx, hy]
  cases s with
  | nil => exact .error _
  | cons C S =>
    generalize w.shape = ws
    rcases ws with _ | ⟨Cout, _ | ⟨Cg, K⟩⟩
    · exact .error _
    · exact .error _
    dsimp only
    split
    · rename_i hc
      obtain ⟨c1, c2, c3, c4, c5, c6, c7, c8, c9, c10⟩ := hc
      refine .ok ⟨h.pos, h.lt, _, ?_, rfl, rfl, fun b q hb hq => ?_⟩
      · rw [← hs, List.length_cons, List.length_cons, outSizes_length c1 c2 c3]
      · obtain ⟨co, o, rfl, hco, ho⟩ := InB_cons_left hq
        dsimp only
        refine congrArg List.sum (List.map_congr_left fun ci hci => ?_)
        refine congrArg List.sum (List.map_congr_left fun kk hk => ?_)
        rw [mem_allIdx] at hk
        rw [hv _ _ hb (InB_cons.2 ⟨by rw [c4]; exact channel_lt c6 hco (List.mem_range.1 hci),
          inPos_lt c1 c2 c3 c7 c10 c9 ho hk⟩)]
    · exact .error _

theorem conv (w : Tensor ℝ) (st dil : List ℕ) (p : F.ConvPad) (groups : ℕ) (h : Picks r N N' k x y) :
    Outcomes2 (Picks r N N' k) (F.conv x w st p dil groups) (F.conv y w st p dil groups) := by
  unfold F.conv
  cases p with
  | valid => exact convValid w st dil groups h
  | same =>
    dsimp only
    split
    · exact Outcomes2.bind (padAxes _ _ h) fun _ _ h => convValid w st dil groups h
    · exact .error _
  | amounts l => exact Outcomes2.bind (padAxes _ _ h) fun _ _ h => convValid w st dil groups h

theorem convForward (L : Conv.Layer) (w : Tensor ℝ) (groups : ℕ) (hL : k ≠ L.nd) (h : Picks r N N' k x y) :
    Outcomes2 (Picks r N N' k) (L.convForward x w groups) (L.convForward y w groups) := by
  obtain ⟨s, hs, hx, hy, -⟩ := h.samples
  rw [L.convForward_batched (by rw [hx, List.length_cons]; omega), L.convForward_batched (by rw [hy, List.length_cons]; omega)]
  unfold Conv.Layer.convBatched
  split
  · refine Outcomes2.same _ fun mode => ?_
    exact Outcomes2.bind (padAxes mode _ h) fun _ _ h => conv w _ _ _ groups h
  · exact Outcomes2.same _ fun p => conv w _ _ p groups h

theorem addBias {C n : ℕ} {S : List ℕ} {bias : Option (Tensor ℝ)} (hb : BiasShape bias C S.length)
    (h : Picks r N N' k x y) (hx : x.shape = N :: C :: n :: S) (hy : y.shape = N' :: C :: n :: S) :
    Outcomes2 (Picks r N N' k) (Conv.Layer.addBias x bias) (Conv.Layer.addBias y bias) := by
  unfold Conv.Layer.addBias
  cases bias with
  | none => exact .ok h
  | some c =>
    have hc := hb c rfl
    have hi : BInto c.shape (C :: n :: S) := by
      rw [hc]
      exact List.Forall₂.cons (Or.inl rfl) (BInto.ones (n :: S))
    dsimp only
    rw [bzip_left (p := [N]) (q := C :: n :: S) hx rfl hi, bzip_left (p := [N']) (q := C :: n :: S) hy rfl hi]
    obtain ⟨s, hs, hx', hy', hv⟩ := h.samples
    rw [hx] at hx'
    cases hx'
    refine .ok ⟨h.pos, h.lt, _, hs, rfl, rfl, fun b q hb hq => ?_⟩
    dsimp only
    rw [hx, hy, bidx_full (s := N' :: C :: n :: S) (InB_cons.2 ⟨hb, hq⟩),
      bidx_full (s := N :: C :: n :: S) (InB_cons.2 ⟨h.lt b hb, hq⟩), hv b q hb hq]
    have e : ∀ b : ℕ, bidx c.shape (b :: q) = bidx c.shape q := fun b => by
      have hl : q.length = c.shape.length := by rw [hq.length, hc]; simp
      have := bidx_append (r := c.shape) (u := [b]) hl
      have h2 := bidx_append (r := c.shape) (u := []) hl
      simp only [List.singleton_append, List.nil_append] at this h2
      rw [this, h2]
    rw [e, e]

/-- the end of all layers: the view to group positions and the bias. -/
theorem finish {G : Type} {nd C n : ℕ} {bias : Option (Tensor ℝ)} (hb : BiasShape bias C nd) (H : Tensor G)
    (h : Picks r N N' (nd + 1) x y) :
    Outcomes2 (PicksLayer r N N' (nd + 2)) (do let v ← x.view (N :: C :: n :: x.shape.drop 2); let v ← Conv.Layer.addBias v bias; return (v, H))
      (do let v ← y.view (N' :: C :: n :: y.shape.drop 2); let v ← Conv.Layer.addBias v bias; return (v, H)) := by
  have hS : x.shape.drop 2 = y.shape.drop 2 := by
    obtain ⟨s, hs, hx, hy, -⟩ := h.samples
    rw [hx, hy]; rfl
  have hl : (y.shape.drop 2).length = nd := by
    obtain ⟨s, hs, hx, hy, -⟩ := h.samples
    rw [hy, List.length_drop, List.length_cons, hs]; rfl
  rw [hS]
  have hv := view h (C :: n :: y.shape.drop 2)
  generalize e1 : x.view (N :: C :: n :: y.shape.drop 2) = v1 at hv
  generalize e2 : y.view (N' :: C :: n :: y.shape.drop 2) = v2 at hv
  cases hv with
  | error e => exact .error e
  | @ok a b h =>
    have ha : a.shape = N :: C :: n :: y.shape.drop 2 := by
      unfold Tensor.view at e1; split at e1 <;> cases e1; rfl
    have hb' : b.shape = N' :: C :: n :: y.shape.drop 2 := by
      unfold Tensor.view at e2; split at e2 <;> cases e2; rfl
    rw [ok_bind, ok_bind]
    refine Outcomes2.bind (addBias (by rw [hl]; exact hb) h ha hb') fun _ _ h => ?_
    refine .ok ⟨?_, rfl⟩
    have : (C :: n :: y.shape.drop 2).length = nd + 2 := by rw [List.length_cons, List.length_cons, hl]
    rwa [this] at h

end GConv.Batch

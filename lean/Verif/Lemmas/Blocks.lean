import Verif.Lemmas.Weights
import Verif.Spec.Blocks
import Verif.Props.ConvForward

/-! # Grouped convolutions keep blocks of channels apart -/
namespace GConv.Blocks

open Tensor Spec Batch

variable {x x' w : Tensor ℝ} {N C k g j : ℕ}

/-- agreement on the channels with `P`. -/
def Agree (P : ℕ → Prop) (N C k : ℕ) (x x' : Tensor ℝ) : Prop :=
  ∃ S, S.length = k ∧ x.shape = N :: C :: S ∧ x'.shape = N :: C :: S ∧
    ∀ b c q, b < N → c < C → P c → InB S q → x.get (b :: c :: q) = x'.get (b :: c :: q)

variable {P : ℕ → Prop}

theorem padAxes (mode : F.CPad) (ps : List (ℕ × ℕ)) (h : Agree P N C k x x') :
    Outcomes2 (Agree P N C k) (F.padAxes mode x ps) (F.padAxes mode x' ps) := by
  obtain ⟨S, hk, hs, hs', hv⟩ := h
  unfold F.padAxes
  rw [hs, hs']
  dsimp only
  split
  · rename_i hc
    refine .ok ⟨_, by rw [← hk]; simp [hc.1], rfl, rfl, fun b c q hb hcC hP hq => ?_⟩
    dsimp only
    cases e : F.padIndex mode S ps q with
    | none => rfl
    | some r => exact hv _ _ _ hb hcC hP (padIndex_InB hc.1 hc.2 hq e)
  · exact .error _

/-- what a convolution with filters of shape `(Cout, Cg, *K)` gives. -/
def Result (P' : ℕ → ℕ → Prop) (w : Tensor ℝ) (N k g : ℕ) (y y' : Tensor ℝ) : Prop :=
  ∃ Cout, w.shape.head? = some Cout ∧ Cout % g = 0 ∧ 0 < g ∧ Agree (P' Cout) N Cout k y y'

theorem convValid (st dil : List ℕ) (h : Agree P N C k x x') {P' : ℕ → ℕ → Prop}
    (hP : ∀ Cout Cg K, w.shape = Cout :: Cg :: K → C = Cg * g → 0 < g → Cout % g = 0 → ∀ co < Cout, P' Cout co → ∀ ci < Cg, P (co / (Cout / g) * Cg + ci)) :
    Outcomes2 (Result P' w N k g) (F.convValid x w st dil g) (F.convValid x' w st dil g) := by
  obtain ⟨S, hk, hs, hs', hv⟩ := h
  unfold F.convValid
  unfold Result
  rw [hs, hs']
  generalize w.shape = ws at *
  rcases ws with _ | ⟨Cout, _ | ⟨Cg, K⟩⟩
  · exact .error _
  · exact .error _
  dsimp only
  split
  · rename_i hc
    obtain ⟨c1, c2, c3, c4, c5, c6, c7, c8, c9, c10⟩ := hc
    refine .ok ⟨Cout, rfl, c6, c5, _, by rw [← hk, outSizes_length c1 c2 c3], rfl, rfl, fun b co o hb hco hPc ho => ?_⟩
    dsimp only
    refine congrArg List.sum (List.map_congr_left fun ci hci => ?_)
    refine congrArg List.sum (List.map_congr_left fun kk hk => ?_)
    rw [mem_allIdx] at hk
    rw [hv _ _ _ hb (by rw [c4]; exact channel_lt c6 hco (List.mem_range.1 hci))
      (hP _ _ _ rfl c4 c5 c6 co hco hPc ci (List.mem_range.1 hci)) (inPos_lt c1 c2 c3 c7 c10 c9 ho hk)]
  · exact .error _

theorem conv (st dil : List ℕ) (p : F.ConvPad) (h : Agree P N C k x x') {P' : ℕ → ℕ → Prop}
    (hP : ∀ Cout Cg K, w.shape = Cout :: Cg :: K → C = Cg * g → 0 < g → Cout % g = 0 → ∀ co < Cout, P' Cout co → ∀ ci < Cg, P (co / (Cout / g) * Cg + ci)) :
    Outcomes2 (Result P' w N k g) (F.conv x w st p dil g) (F.conv x' w st p dil g) := by
  unfold F.conv
  cases p with
  | valid => exact convValid st dil h hP
  | same =>
    dsimp only
    split
    · exact Outcomes2.bind (padAxes _ _ h) fun _ _ h => convValid st dil h hP
    · exact .error _
  | amounts l => exact Outcomes2.bind (padAxes _ _ h) fun _ _ h => convValid st dil h hP

theorem convForward (L : Conv.Layer) (h : Agree P N C k x x') (hl : k = L.nd) {P' : ℕ → ℕ → Prop}
    (hP : ∀ Cout Cg K, w.shape = Cout :: Cg :: K → C = Cg * g → 0 < g → Cout % g = 0 → ∀ co < Cout, P' Cout co → ∀ ci < Cg, P (co / (Cout / g) * Cg + ci)) :
    Outcomes2 (Result P' w N k g) (L.convForward x w g) (L.convForward x' w g) := by
  obtain ⟨S, hS, hs, hs', hv⟩ := h
  rw [L.convForward_batched (by rw [hs, List.length_cons, List.length_cons]; omega),
    L.convForward_batched (by rw [hs', List.length_cons, List.length_cons]; omega)]
  have h : Agree P N C k x x' := ⟨S, hS, hs, hs', hv⟩
  unfold Conv.Layer.convBatched
  split
  · refine Outcomes2.same _ fun mode => ?_
    exact Outcomes2.bind (padAxes mode _ h) fun _ _ h => conv _ _ _ h hP
  · exact Outcomes2.same _ fun p => conv _ _ p h hP

/-- the filters of a block read the input channels of the block. -/
theorem block_read {Cout Cg C : ℕ} (hC : C = Cg * g) (hg : 0 < g) : ∀ co < Cout, blockOf Cout g co = j →
    ∀ ci < Cg, blockOf C g (co / (Cout / g) * Cg + ci) = j := by
  intro co _ h ci hci
  unfold blockOf at *
  rw [hC, Nat.mul_div_cancel _ hg, h, Nat.mul_comm, Nat.mul_add_div (by omega), Nat.div_eq_of_lt hci, Nat.add_zero]

/-- merging the channel and the group axis. -/
theorem merge {n : ℕ} {S : List ℕ} (hg : g ∣ C) (hs : x.shape = N :: C :: n :: S) (h : SameBlock C g j x x') :
    Outcomes2 (Agree (fun c => blockOf (C * n) g c = j) N (C * n) S.length) (x.view (N :: C * n :: S)) (x'.view (N :: C * n :: S)) := by
  obtain ⟨N', S', e1, e2, hv⟩ := h
  rw [hs] at e1
  cases e1
  obtain ⟨y, h1, h2, h3⟩ := Conv.view_merge hs
  obtain ⟨y', h1', h2', h3'⟩ := Conv.view_merge e2
  rw [h1, h1']
  refine .ok ⟨S, rfl, h2, h2', fun b c q hb hc hP hq => ?_⟩
  have hn : 0 < n := Nat.pos_of_ne_zero fun h => by rw [h, Nat.mul_zero] at hc; omega
  have hc1 : c / n < C := Nat.div_lt_of_lt_mul (by rwa [Nat.mul_comm])
  have hc2 : c % n < n := Nat.mod_lt _ hn
  rw [show c = c / n * n + c % n from (Nat.div_add_mod' c n).symm, h3 _ _ _ _ hb hc1 hc2 hq, h3' _ _ _ _ hb hc1 hc2 hq]
  refine hv _ _ _ hb hc1 (InB_cons.2 ⟨hc2, hq⟩) ?_
  obtain ⟨m, rfl⟩ := hg
  unfold blockOf at *
  rcases Nat.eq_zero_or_pos g with rfl | hg
  · simp at hc1
  rw [Nat.mul_div_cancel_left _ hg, Nat.div_div_eq_div_mul, Nat.mul_comm]
  rwa [Nat.mul_assoc, Nat.mul_div_cancel_left _ hg] at hP

/-- splitting the channel axis again and adding the bias. -/
theorem finish {G : Type} {Cout n : ℕ} {bias : Option (Tensor ℝ)} {y y' : Tensor ℝ} (H : Tensor G) (hg : 0 < g) (hd : g ∣ C) (hdo : Cout % g = 0)
    (hb : BiasShape bias C k) (h : Agree (fun c => blockOf Cout g c = j) N Cout k y y') :
    Outcomes2 (SameBlockMaps C g j)
      (do let v ← y.view (N :: C :: n :: y.shape.drop 2); let v ← Conv.Layer.addBias v bias; return (v, H))
      (do let v ← y'.view (N :: C :: n :: y'.shape.drop 2); let v ← Conv.Layer.addBias v bias; return (v, H)) := by
  obtain ⟨S, hS, hs, hs', hv⟩ := h
  rw [hs, hs', List.drop_succ_cons, List.drop_succ_cons, List.drop_zero]
  by_cases hp : (N :: Cout :: S).prod = (N :: C :: n :: S).prod
  · rw [view_ok (by rw [hs]; exact hp), view_ok (by rw [hs']; exact hp), ok_bind, ok_bind]
    obtain ⟨z, z1, z2, z3⟩ := Conv.addBias_spec (x := ⟨N :: C :: n :: S, fun idx => y.get (unravel y.shape (ravel (N :: C :: n :: S) idx))⟩) hS rfl hb
    obtain ⟨z', z1', z2', z3'⟩ := Conv.addBias_spec (x := ⟨N :: C :: n :: S, fun idx => y'.get (unravel y'.shape (ravel (N :: C :: n :: S) idx))⟩) hS rfl hb
    rw [z1, z1', ok_bind, ok_bind]
    refine .ok ⟨⟨N, n :: S, z2, z2', fun b c q hb hc hq hP => ?_⟩, rfl⟩
    obtain ⟨i, q, rfl, hi, hq⟩ := InB_cons_left hq
    rw [z3 _ _ _ _ hb hc hi hq, z3' _ _ _ _ hb hc hi hq]
    congr 1
    have hCo : Cout = C * n := by
      have hpos : 0 < S.prod := by
        have := ravel_lt hq
        omega
      simp only [List.prod_cons, ← Nat.mul_assoc] at hp
      have h1 := Nat.eq_of_mul_eq_mul_right hpos hp
      rw [Nat.mul_assoc] at h1
      exact Nat.eq_of_mul_eq_mul_left (by omega) h1
    subst hCo
    dsimp only
    have r : ∀ t : Tensor ℝ, t.shape = N :: C * n :: S →
        t.get (unravel t.shape (ravel (N :: C :: n :: S) (b :: c :: i :: q))) = t.get (b :: (c * n + i) :: q) := by
      intro t ht
      refine Conv.view_get (by rw [ht]; exact InB_cons.2 ⟨hb, InB_cons.2 ⟨Conv.row_lt hc hi, hq⟩⟩) ?_
      rw [ht]
      simp only [ravel, List.prod_cons]
      ring
    rw [r y hs, r y' hs']
    refine hv _ _ _ hb (Conv.row_lt hc hi) ?_ hq
    obtain ⟨m, rfl⟩ := hd
    unfold blockOf at *
    rw [Nat.mul_div_cancel_left _ hg] at hP
    rw [Nat.mul_assoc, Nat.mul_div_cancel_left _ hg, Nat.mul_comm m n, ← Nat.div_div_eq_div_mul, Nat.mul_comm c n,
      Nat.mul_add_div (by omega), Nat.div_eq_of_lt hi, Nat.add_zero]
    exact hP
  · unfold Tensor.view
    rw [if_neg (by rw [hs]; exact hp), if_neg (by rw [hs']; exact hp)]
    exact .error _

end GConv.Blocks

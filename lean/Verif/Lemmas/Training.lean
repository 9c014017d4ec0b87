import Verif.Props.Network
import Verif.Model.Training

/-! # Training passes on turned images -/

namespace GConv.Net

open Tensor Spec Conv GroupKernel F

variable {G : Type} {d : ℕ}

theorem Block.Like.refl (b : Block G d) : b.Like b := by
  cases b with
  | act a => exact .act a
  | batch a t r => exact Block.Like.batch a a.weight a.bias t r r
  | inst a t r => exact Block.Like.inst a a.weight a.bias t r r
  | groupSE M m w v => exact .groupSE _ _ _ _ _ _ _ rfl rfl
  | separableSE M m u w v => exact .separableSE _ _ _ _ _ _ _ _ _ rfl rfl rfl
  | groupE M m w v => exact .groupE _ _ _ _ _ _ _ rfl rfl
  | separableE M m u w v => exact .separableE _ _ _ _ _ _ _ _ _ rfl rfl rfl

theorem Block.Like.trans {a b c : Block G d} (h : a.Like b) (h' : b.Like c) : a.Like c := by
  cases h with
  | act a => exact h'
  | batch a w v t r r' => cases h' with | batch _ w' v' _ _ r'' => exact Block.Like.batch a w' v' t r r''
  | inst a w v t r r' => cases h' with | inst _ w' v' _ _ r'' => exact Block.Like.inst a w' v' t r r''
  | groupSE M m m' w w' v v' h hv =>
    cases h' with | groupSE _ _ _ _ _ _ _ h₂ hv₂ => exact .groupSE _ _ _ _ _ _ _ (h₂.trans h) (hv₂.trans hv)
  | separableSE M m m' u u' w w' v v' hu h hv =>
    cases h' with
    | separableSE _ _ _ _ _ _ _ _ _ hu₂ h₂ hv₂ => exact .separableSE _ _ _ _ _ _ _ _ _ (hu₂.trans hu) (h₂.trans h) (hv₂.trans hv)
  | groupE M m m' w w' v v' h hv =>
    cases h' with | groupE _ _ _ _ _ _ _ h₂ hv₂ => exact .groupE _ _ _ _ _ _ _ (h₂.trans h) (hv₂.trans hv)
  | separableE M m m' u u' w w' v v' hu h hv =>
    cases h' with
    | separableE _ _ _ _ _ _ _ _ _ hu₂ h₂ hv₂ => exact .separableE _ _ _ _ _ _ _ _ _ (hu₂.trans hu) (h₂.trans h) (hv₂.trans hv)

theorem Block.Like.draw (b : Block G d) (m : G → G) : b.Like (b.draw m) := by
  cases b with
  | act a => exact .act a
  | batch a t r => exact Block.Like.batch a a.weight a.bias t r r
  | inst a t r => exact Block.Like.inst a a.weight a.bias t r r
  | groupSE M m w v => exact .groupSE _ _ _ _ _ _ _ rfl rfl
  | separableSE M m u w v => exact .separableSE _ _ _ _ _ _ _ _ _ rfl rfl rfl
  | groupE M m w v => exact .groupE _ _ _ _ _ _ _ rfl rfl
  | separableE M m u w v => exact .separableE _ _ _ _ _ _ _ _ _ rfl rfl rfl

theorem Block.pass_like {b b' : Block G d} {x H y} (h : b.pass x H = .ok (y, b')) : b.Like b' := by
  cases b with
  | batch a t r =>
    obtain ⟨z, -, h⟩ := bind_ok h
    cases h
    exact Block.Like.batch a a.weight a.bias t r _
  | inst a t r =>
    obtain ⟨z, -, h⟩ := bind_ok h
    cases h
    exact Block.Like.inst a a.weight a.bias t r _
  | act a => obtain ⟨z, -, h⟩ := bind_ok h; cases h; exact Block.Like.refl _
  | groupSE M m w v => obtain ⟨z, -, h⟩ := bind_ok h; cases h; exact Block.Like.refl _
  | separableSE M m u w v => obtain ⟨z, -, h⟩ := bind_ok h; cases h; exact Block.Like.refl _
  | groupE M m w v => obtain ⟨z, -, h⟩ := bind_ok h; cases h; exact Block.Like.refl _
  | separableE M m u w v => obtain ⟨z, -, h⟩ := bind_ok h; cases h; exact Block.Like.refl _

theorem pass_like : ∀ {bs : List (Block G d)} {xH y ls}, pass bs xH = .ok (y, ls) → List.Forall₂ Block.Like bs ls
  | [], _, _, _, h => by cases h; exact .nil
  | b :: bs, xH, y, ls, h => by
    obtain ⟨p, hp, h⟩ := bind_ok h
    obtain ⟨q, hq, h⟩ := bind_ok h
    cases h
    exact .cons (Block.pass_like hp) (pass_like hq)

theorem like_refl (l : List (Block G d)) : List.Forall₂ Block.Like l l := by
  induction l with
  | nil => exact .nil
  | cons b l ih => exact .cons (Block.Like.refl b) ih

theorem like_trans {a b c : List (Block G d)} (h : List.Forall₂ Block.Like a b) (h' : List.Forall₂ Block.Like b c) :
    List.Forall₂ Block.Like a c := by
  induction h generalizing c with
  | nil => exact h'
  | cons h₁ _ ih => cases h' with | cons h₂ h₃ => exact .cons (h₁.trans h₂) (ih h₃)

theorem like_drawnBy (l : List (Block G d)) : ∀ (m : ℕ → G → G), List.Forall₂ Block.Like l (drawnBy m l) := by
  induction l with
  | nil => exact fun _ => .nil
  | cons b l ih => exact fun m => .cons (Block.Like.draw b _) (ih _)

theorem like_draw_id (l : List (Block G d)) : List.Forall₂ Block.Like l (l.map (Block.draw id)) := by
  induction l with
  | nil => exact .nil
  | cons b l ih => exact .cons (Block.Like.draw b _) ih

theorem Weights.Like.trans {a b c : Weights G d} (h : a.Like b) (h' : b.Like c) : a.Like c :=
  ⟨h'.1.trans h.1, h'.2.1.trans h.2.1, like_trans h.2.2 h'.2.2⟩

theorem Weights.Like.refl (a : Weights G d) : a.Like a := ⟨rfl, rfl, like_refl _⟩

theorem after_like {M : Module G d} {s : Weights G d} {b : Batch G} {y ls} (h : forward M s b = .ok (y, ls)) : s.Like (s.after ls) := by
  obtain ⟨z, -, h⟩ := bind_ok h
  exact ⟨rfl, rfl, like_trans (like_drawnBy _ _) (like_trans (pass_like h) (like_draw_id _))⟩

/-- the parts of `Chain` that only concern the kinds of the layers. -/
structure Transfers (Conv : Block G d → Block G d → Sizes → Sizes → Prop) : Prop where
  like : ∀ {b b₁ m m' s t}, Block.Like b b₁ → Conv (b.draw m) (b.draw m') s t → Conv (b₁.draw m) (b₁.draw m') s t
  pass : ∀ {b b' s t}, Conv b b' s t → (∀ x H, b.pass x H = (b.call x H).map fun y => (y, b)) ∧
    (∀ x H, b'.pass x H = (b'.call x H).map fun y => (y, b')) ∧ b.draw id = b'.draw id

theorem chain_like {N : ℕ} {Conv : Block G d → Block G d → Sizes → Sizes → Prop} (hc : Transfers Conv) {l l₁ : List (Block G d)}
    (h : List.Forall₂ Block.Like l l₁) : ∀ {m m' : ℕ → G → G} {s t : Sizes}, Chain N Conv (drawnBy m l) (drawnBy m' l) s t →
      Chain N Conv (drawnBy m l₁) (drawnBy m' l₁) s t := by
  induction h with
  | nil => exact fun h => h
  | @cons b b₁ l l₁ hb _ ih =>
    intro m m' s t hch
    have conv : ∀ {u}, Conv (b.draw (m 0)) (b.draw (m' 0)) s u →
        Chain N Conv (drawnBy (fun i => m (i + 1)) l) (drawnBy (fun i => m' (i + 1)) l) u t →
        Chain N Conv (drawnBy m (b₁ :: l₁)) (drawnBy m' (b₁ :: l₁)) s t :=
      fun h1 h2 => .conv (hc.like hb h1) (ih h2)
    simp only [drawnBy] at hch
    cases hb with
    | act a =>
      simp only [Block.draw] at hch
      cases hch with
      | act _ ha h => exact .act a ha (ih h)
      | conv h1 h2 => exact conv h1 h2
    | batch a w v tr r r' =>
      simp only [Block.draw] at hch
      cases hch with
      | batch _ _ _ hC h1 h => exact .batch _ _ _ hC h1 (ih h)
      | conv h1 h2 => exact conv h1 h2
    | inst a w v tr r r' =>
      simp only [Block.draw] at hch
      cases hch with
      | inst _ _ _ hC h1 h => exact .inst _ _ _ hC h1 (ih h)
      | conv h1 h2 => exact conv h1 h2
    | groupSE M a a' w w' v v' hw hv =>
      simp only [Block.draw] at hch
      cases hch with | conv h1 h2 => exact conv h1 h2
    | separableSE M a a' u u' w w' v v' hu hw hv =>
      simp only [Block.draw] at hch
      cases hch with | conv h1 h2 => exact conv h1 h2
    | groupE M a a' w w' v v' hw hv =>
      simp only [Block.draw] at hch
      cases hch with | conv h1 h2 => exact conv h1 h2
    | separableE M a a' u u' w w' v v' hu hw hv =>
      simp only [Block.draw] at hch
      cases hch with | conv h1 h2 => exact conv h1 h2

theorem upto_eq {C : ℕ} {r r' : Running} (h : Normalization.SameState C r r') : r.upto C = r'.upto C := by
  obtain ⟨h1, h2⟩ := h
  unfold Running.upto
  rw [h1]
  congr 1 <;> funext c <;> by_cases hc : c < C <;> simp only [if_pos, if_neg, hc, not_false_eq_true]
  · exact (h2 c hc).1
  · exact (h2 c hc).2

theorem pass_cons {b b₁ : Block G d} {bs ls : List (Block G d)} {x H y z} (h : b.pass x H = .ok (y, b₁)) (h' : pass bs y = .ok (z, ls)) :
    pass (b :: bs) (x, H) = .ok (z, b₁ :: ls) := by
  unfold pass
  dsimp only
  rw [h, ok_bind]
  dsimp only
  rw [h']; rfl

theorem pass_act {a : Activations.Act} {x : Tensor ℝ} {H : Tensor G} {y} (h : a.forward x H = .ok y) :
    (Block.act a : Block G d).pass x H = .ok (y, .act a) := by
  show (a.forward x H >>= fun y => Except.ok (y, Block.act a)) = _
  rw [h]; rfl

theorem pass_batch {a : NormArgs} {tr r} {x : Tensor ℝ} {H : Tensor G} {y r₁} (h : Normalization.batch d a tr r x H = .ok (y, r₁)) :
    (Block.batch a tr r : Block G d).pass x H = .ok (y, .batch a tr (r₁.upto a.features)) := by
  show (Normalization.batch d a tr r x H >>= fun y => Except.ok (y.1, Block.batch a tr (y.2.upto a.features))) = _
  rw [h]; rfl

theorem pass_inst {a : NormArgs} {tr r} {x : Tensor ℝ} {H : Tensor G} {y r₁} (h : Normalization.inst d a tr r x H = .ok (y, r₁)) :
    (Block.inst a tr r : Block G d).pass x H = .ok (y, .inst a tr (r₁.upto a.features)) := by
  show (Normalization.inst d a tr r x H >>= fun y => Except.ok (y.1, Block.inst a tr (y.2.upto a.features))) = _
  rw [h]; rfl

theorem chain_pass (hd : 0 < d) {e : Equiv.Perm (Fin d)} {σ : LatticeSym d} {left : G → G} {Good : G → Prop} {N : ℕ}
    {Conv : Block G d → Block G d → Sizes → Sizes → Prop} (hConv : ∀ {b b' s t}, Conv b b' s t → Preserves e σ left Good N b b' s t)
    (htr : Transfers Conv) {bs bs' : List (Block G d)} {s t : Sizes} (h : Chain N Conv bs bs' s t) :
    ∀ {x H x' H'}, MovedFeature e σ left Good N s.channels s.elements s.before s.after x H x' H' →
      LatticeSym.Matches e σ s.before s.after →
      ∃ y K y' K' ls ls', pass bs (x, H) = .ok ((y, K), ls) ∧ pass bs' (x', H') = .ok ((y', K'), ls') ∧
        ls.map (Block.draw id) = ls'.map (Block.draw id) ∧
        MovedFeature e σ left Good N t.channels t.elements t.before t.after y K y' K' ∧
        LatticeSym.Matches e σ t.before t.after := by
  induction h with
  | nil s => intro x H x' H' hx hm; exact ⟨x, H, x', H', [], [], rfl, rfl, rfl, hx, hm⟩
  | act a ha h ih =>
    intro x H x' H' hx hm
    obtain ⟨s1, s2, gi, π, hπ, hxx⟩ := hx
    obtain ⟨y, y', a1, a2, a3, a4, a5⟩ := Activations.C71_pointwise_partial a ha x x' H H'
    obtain ⟨w, K, w', K', ls, ls', r1, r2, rl, r3⟩ := ih (x := y) (H := H) (x' := y') (H' := H')
      ⟨a3.trans s1, a4.trans s2, gi, π, hπ, fun b c q k hb hc hq => a5 _ _ (hxx b c q k hb hc hq)⟩ hm
    refine ⟨w, K, w', K', .act a :: ls, .act a :: ls', ?_, ?_, ?_, r3⟩
    · exact pass_cons (pass_act a1) r1
    · exact pass_cons (pass_act a2) r2
    · rw [List.map_cons, List.map_cons, rl]
  | batch a tr r hC h1 h ih =>
    intro x H x' H' hx hm
    obtain ⟨s1, s2, gi, π, hπ, hxx⟩ := hx
    obtain ⟨y, y', r₁, r₂, a1, a2, a3, a4, as, a5⟩ := Normalization.C70_batch_reorder d hd a tr r x x' H H' N _ _ _ _ _ hm.1 hm.2.1 s1 s2 hC h1
      _ (movePos_bij π hm) (movePos_get hxx)
    rw [hC] at as
    obtain ⟨w, K, w', K', ls, ls', q1, q2, ql, q3⟩ := ih (x := y) (H := H) (x' := y') (H' := H') ⟨a3, a4, gi, π, hπ, get_movePos a5⟩ hm
    refine ⟨w, K, w', K', .batch a tr (r₁.upto a.features) :: ls, .batch a tr (r₂.upto a.features) :: ls', ?_, ?_, ?_, q3⟩
    · exact pass_cons (pass_batch a1) q1
    · exact pass_cons (pass_batch a2) q2
    · rw [List.map_cons, List.map_cons, ql, upto_eq as]
  | inst a tr r hC h1 h ih =>
    intro x H x' H' hx hm
    obtain ⟨s1, s2, gi, π, hπ, hxx⟩ := hx
    obtain ⟨y, y', r₁, r₂, a1, a2, a3, a4, as, a5⟩ := Normalization.C70_instance_reorder d hd a tr r x x' H H' N _ _ _ _ _ hm.1 hm.2.1 s1 s2 hC h1
      _ (movePos_bij π hm) (movePos_get hxx)
    rw [hC] at as
    obtain ⟨w, K, w', K', ls, ls', q1, q2, ql, q3⟩ := ih (x := y) (H := H) (x' := y') (H' := H') ⟨a3, a4, gi, π, hπ, get_movePos a5⟩ hm
    refine ⟨w, K, w', K', .inst a tr (r₁.upto a.features) :: ls, .inst a tr (r₂.upto a.features) :: ls', ?_, ?_, ?_, q3⟩
    · exact pass_cons (pass_inst a1) q1
    · exact pass_cons (pass_inst a2) q2
    · rw [List.map_cons, List.map_cons, ql, upto_eq as]
  | @conv b b' bs bs' s t u hb h ih =>
    intro x H x' H' hx hm
    obtain ⟨y, K, y', K', c1, c2, c3, c4⟩ := hConv hb x H x' H' hx hm
    obtain ⟨p1, p2, p3⟩ := htr.pass hb
    obtain ⟨w, L, w', L', ls, ls', q1, q2, ql, q3⟩ := ih c3 c4
    refine ⟨w, L, w', L', b :: ls, b' :: ls', ?_, ?_, ?_, q3⟩
    · exact pass_cons (by rw [p1, c1]; rfl) q1
    · exact pass_cons (by rw [p2, c2]; rfl) q2
    · rw [List.map_cons, List.map_cons, ql, p3]

/-- the batches `b` and `b'` cannot be told apart by networks of the architecture `s₀`. -/
def Step (M : Module G d) (N C : ℕ) (s₀ : Weights G d) (b b' : Batch G) : Prop :=
  ∀ s, s₀.Like s → (∃ y ls y' ls', forward M s b = .ok (y, ls) ∧ forward M s b' = .ok (y', ls') ∧ s.after ls = s.after ls') ∧
    ∃ f, features M N C s b = .ok f ∧ features M N C s b' = .ok f

theorem train_step {M : Module G d} {N C : ℕ} {Memory : Type} (opt : Optimizer G d N C Memory) {s₀ : Weights G d}
    {bs bs' : List (Batch G)} (h : List.Forall₂ (Step M N C s₀) bs bs') :
    ∀ (t : ℕ) (m : Memory) (s : Weights G d), s₀.Like s →
      ∃ r, train M opt t bs m s = .ok r ∧ train M opt t bs' m s = .ok r ∧ s₀.Like r.2 := by
  induction h with
  | nil => intro t m s hs; exact ⟨(m, s), rfl, rfl, hs⟩
  | @cons b b' bs bs' hb _ ih =>
    intro t m s hs
    obtain ⟨⟨y, ls, y', ls', e1, e2, e3⟩, -⟩ := hb s hs
    have hs₁ := hs.trans (after_like e1)
    have hf : (fun s' : {s' : Weights G d // (s.after ls).Like s'} => features M N C s'.1 b) = fun s' => features M N C s'.1 b' := by
      funext s'
      obtain ⟨-, f, f1, f2⟩ := hb s'.1 (hs₁.trans s'.2)
      rw [f1, f2]
    obtain ⟨r, r1, r2, r3⟩ := ih (t + 1) (opt t m (s.after ls) (fun s' => features M N C s'.1 b)).1
      (opt t m (s.after ls) (fun s' => features M N C s'.1 b)).2.1 (hs₁.trans (opt t m (s.after ls) (fun s' => features M N C s'.1 b)).2.2)
    refine ⟨r, ?_, ?_, r3⟩
    · unfold train
      rw [e1, ok_bind]
      exact r1
    · unfold train
      rw [e2, ok_bind]
      dsimp only
      rw [← e3, ← hf]
      exact r2

/-- what the theorems about networks give for one batch. -/
theorem step_of (hd : 0 < d) {M : Module G d} {N C : ℕ} {s₀ : Weights G d} {b b' : Batch G}
    {e : Equiv.Perm (Fin d)} {σ : LatticeSym d} {left : G → G} {Good : G → Prop}
    {Conv : Block G d → Block G d → Sizes → Sizes → Prop} (hConv : ∀ {b b' s t}, Conv b b' s t → Preserves e σ left Good N b b' s t)
    (htr : Transfers Conv) {u t : Sizes}
    (hlift : ∀ s : Weights G d, s₀.Like s → ∃ y H y' H', M.lift b.first s.weight s.bias b.images none = .ok (y, H) ∧
      M.lift b'.first s.weight s.bias b'.images none = .ok (y', H') ∧
      MovedFeature e σ left Good N u.channels u.elements u.before u.after y H y' H')
    (hm : LatticeSym.Matches e σ u.before u.after)
    (hchain : Chain N Conv (s₀.ready b) (s₀.ready b') u t) (hC : t.channels = C) (ht : 0 < (t.elements :: t.before).prod) :
    Step M N C s₀ b b' := by
  intro s hs
  obtain ⟨y, H, y', H', a1, a2, a3⟩ := hlift s hs
  obtain ⟨w, K, w', K', ls, ls', p1, p2, p3, p4, p5⟩ := chain_pass hd hConv htr (chain_like htr hs.2.2 hchain) a3 hm
  have f1 : forward M s b = .ok ((w, K), ls) := by
    unfold forward
    rw [a1, ok_bind]
    exact p1
  have f2 : forward M s b' = .ok ((w', K'), ls') := by
    unfold forward
    rw [a2, ok_bind]
    exact p2
  refine ⟨⟨_, ls, _, ls', f1, f2, by unfold Weights.after; rw [p3]⟩, ?_⟩
  obtain ⟨⟨z, z', z1, z2, sz, sz', z3⟩, -⟩ := pool_feature p4 p5 ht
  rw [hC] at sz sz'
  have hv : ∀ u : Tensor ℝ, u.shape = [N, C, 1] → ∃ v : Tensor ℝ, u.view [N, C] = .ok v ∧
      ∀ (i : Fin N) (c : Fin C), v.get [(i : ℕ), (c : ℕ)] = u.get [(i : ℕ), (c : ℕ), 0] := fun u hu => by
    refine ⟨_, view_ok (by rw [hu]; simp), fun i c => ?_⟩
    dsimp only
    have e : ravel [N, C] [(i : ℕ), (c : ℕ)] = ravel [N, C, 1] [(i : ℕ), (c : ℕ), 0] := by simp [ravel]
    rw [hu, e, unravel_ravel (InB_cons.2 ⟨i.2, InB_cons.2 ⟨c.2, InB_cons.2 ⟨Nat.one_pos, InB_nil_nil⟩⟩⟩)]
  obtain ⟨v, v1, v2⟩ := hv z sz
  obtain ⟨v', w1, w2⟩ := hv z' sz'
  refine ⟨fun i c => v.get [(i : ℕ), (c : ℕ)], ?_, ?_⟩
  · unfold features avgPooled
    rw [f1, ok_bind, z1]
    show (z.view [N, C] >>= fun u => _) = _
    rw [v1]; rfl
  · unfold features avgPooled
    rw [f2, ok_bind, z2]
    show (z'.view [N, C] >>= fun u => _) = _
    rw [w1]
    show Except.ok (fun (i : Fin N) (c : Fin C) => v'.get [(i : ℕ), (c : ℕ)]) = _
    congr 1
    funext i c
    rw [v2, w2]
    exact z3 i c i.2 (by rw [hC]; exact c.2)

end GConv.Net

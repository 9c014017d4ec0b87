import Verif.Props.Network
import Verif.Model.Graph

/-! # Turned feature maps in networks with branches -/

namespace GConv.Branch

open Net Tensor Spec Conv GroupKernel F

variable {G : Type} {d : ℕ}

/-- on the group elements `H` the layer returns a feature map on `H`. -/
def KeepsGrid (b : Block G d) (H : Tensor G) : Prop := ∀ x y K, b.call x H = .ok (y, K) → K = H

/-- the `n` listed group elements are pairwise different. -/
def Distinct (n : ℕ) (H : Tensor G) : Prop := ∀ i j, i < n → j < n → H.get [i] = H.get [j] → i = j

/-- The networks `f` (original image) and `f'` (turned image) are the same, layer by layer, except for the random elements
drawn by convolutions; every layer accepts its input and returns a feature map on the `n` group elements it is given
(`H`, `H'`). -/
inductive Wired (N n : ℕ) (Conv : Block G d → Block G d → Sizes → Sizes → Prop) (H H' : Tensor G) :
    Graph G d → Graph G d → Sizes → Sizes → Prop
  | skip (s : Sizes) (hn : s.elements = n) : Wired N n Conv H H' .skip .skip s s
  | layer {b b' s t} (h : Chain N Conv [b] [b'] s t) (hk : KeepsGrid b H) (hk' : KeepsGrid b' H') (hs : s.elements = n)
    (ht : t.elements = n) : Wired N n Conv H H' (.layer b) (.layer b') s t
  | seq {f f' g g' s t u} (hf : Wired N n Conv H H' f f' s t) (hg : Wired N n Conv H H' g g' t u) :
    Wired N n Conv H H' (.seq f g) (.seq f' g') s u
  | add {f f' g g' s t} (hf : Wired N n Conv H H' f f' s t) (hg : Wired N n Conv H H' g g' s t) :
    Wired N n Conv H H' (.add f g) (.add f' g') s t
  | cat {f f' g g' s t C} (hf : Wired N n Conv H H' f f' s t) (hg : Wired N n Conv H H' g g' s ⟨C, t.elements, t.before, t.after⟩) :
    Wired N n Conv H H' (.cat f g) (.cat f' g') s ⟨t.channels + C, t.elements, t.before, t.after⟩

theorem movedGrid_unique {left : G → G} {n : ℕ} {π ρ : Equiv.Perm (Fin n)} {H H' : Tensor G} (hd : Distinct n H')
    (h : MovedGrid left π H H') (h' : MovedGrid left ρ H H') : π = ρ := by
  refine Equiv.ext fun k => Fin.ext (hd _ _ (π k).2 (ρ k).2 ?_)
  rw [h.2.2 k, h'.2.2 k]

theorem addMaps_ok {x y : Tensor ℝ} (h : x.shape = y.shape) : addMaps x y = .ok ⟨x.shape, fun i => x.get i + y.get i⟩ := by
  unfold addMaps
  rw [if_pos h]

theorem catMaps_ok {x y : Tensor ℝ} {N C C' : ℕ} {s : List ℕ} (h : x.shape = N :: C :: s) (h' : y.shape = N :: C' :: s) :
    catMaps x y = .ok ⟨N :: (C + C') :: s, fun i => if i.getD 1 0 < C then x.get i else y.get (i.set 1 (i.getD 1 0 - C))⟩ := by
  unfold catMaps
  rw [h, h']
  dsimp only
  rw [if_pos ⟨rfl, rfl⟩]

theorem graph_preserves (hd : 0 < d) {e : Equiv.Perm (Fin d)} {σ : LatticeSym d} {left : G → G} {Good : G → Prop} {N n : ℕ}
    {Conv : Block G d → Block G d → Sizes → Sizes → Prop} (hConv : ∀ {b b' s t}, Conv b b' s t → Preserves e σ left Good N b b' s t)
    {H H' : Tensor G} (hdis : Distinct n H') {f f' : Graph G d} {s t : Sizes} (h : Wired N n Conv H H' f f' s t) :
    s.elements = n ∧ t.elements = n ∧
    ∀ {x x'}, MovedFeature e σ left Good N s.channels s.elements s.before s.after x H x' H' →
      LatticeSym.Matches e σ s.before s.after →
      ∃ y y', f.run (x, H) = .ok (y, H) ∧ f'.run (x', H') = .ok (y', H') ∧
        MovedFeature e σ left Good N t.channels t.elements t.before t.after y H y' H' ∧
        LatticeSym.Matches e σ t.before t.after := by
  induction h with
  | skip s hn => exact ⟨hn, hn, fun {x x'} hx hm => ⟨x, x', rfl, rfl, hx, hm⟩⟩
  | @layer b b' s t h hk hk' hs ht =>
    refine ⟨hs, ht, fun {x x'} hx hm => ?_⟩
    obtain ⟨y, K, y', K', a1, a2, a3, a4⟩ := chain_preserves hd hConv h hx hm
    obtain ⟨⟨y₁, K₁⟩, e1, a1⟩ := bind_ok a1
    obtain ⟨⟨y₂, K₂⟩, e2, a2⟩ := bind_ok a2
    cases a1
    cases a2
    have q1 := hk _ _ _ e1
    have q2 := hk' _ _ _ e2
    subst q1 q2
    exact ⟨y, y', e1, e2, a3, a4⟩
  | seq _ _ ihf ihg =>
    obtain ⟨f1, f2, f3⟩ := ihf
    obtain ⟨g1, g2, g3⟩ := ihg
    refine ⟨f1, g2, fun {x x'} hx hm => ?_⟩
    obtain ⟨y, y', a1, a2, a3, a4⟩ := f3 hx hm
    obtain ⟨z, z', b1, b2, b3⟩ := g3 a3 a4
    refine ⟨z, z', ?_, ?_, b3⟩
    · unfold Graph.run; rw [a1]; exact b1
    · unfold Graph.run; rw [a2]; exact b2
  | @add f f' g g' s t _ _ ihf ihg =>
    obtain ⟨f1, f2, f3⟩ := ihf
    obtain ⟨-, -, g3⟩ := ihg
    refine ⟨f1, f2, fun {x x'} hx hm => ?_⟩
    obtain ⟨y, y', a1, a2, a3, a4⟩ := f3 hx hm
    obtain ⟨z, z', b1, b2, b3, -⟩ := g3 hx hm
    obtain ⟨s1, s2, gi, π, hπ, hy⟩ := a3
    obtain ⟨t1, t2, -, ρ, hρ, hz⟩ := b3
    rw [← f2] at hdis
    obtain rfl := movedGrid_unique hdis hπ hρ
    refine ⟨⟨y.shape, fun i => y.get i + z.get i⟩, ⟨y'.shape, fun i => y'.get i + z'.get i⟩, ?_, ?_, ⟨s1, s2, gi, π, hπ, ?_⟩, a4⟩
    · unfold Graph.run
      rw [a1, ok_bind, b1, ok_bind]
      dsimp only
      rw [addMaps_ok (s1.trans t1.symm)]; rfl
    · unfold Graph.run
      rw [a2, ok_bind, b2, ok_bind]
      dsimp only
      rw [addMaps_ok (s2.trans t2.symm)]; rfl
    · intro b c q k hb hc hq
      show y'.get _ + z'.get _ = y.get _ + z.get _
      rw [hy b c q k hb hc hq, hz b c q k hb hc hq]
  | @cat f f' g g' s t C _ _ ihf ihg =>
    obtain ⟨f1, f2, f3⟩ := ihf
    obtain ⟨-, -, g3⟩ := ihg
    refine ⟨f1, f2, fun {x x'} hx hm => ?_⟩
    obtain ⟨y, y', a1, a2, a3, a4⟩ := f3 hx hm
    obtain ⟨z, z', b1, b2, b3, -⟩ := g3 hx hm
    obtain ⟨s1, s2, gi, π, hπ, hy⟩ := a3
    obtain ⟨t1, t2, -, ρ, hρ, hz⟩ := b3
    dsimp only at ρ hρ hz t1 t2
    rw [← f2] at hdis
    obtain rfl := movedGrid_unique hdis hπ hρ
    refine ⟨⟨N :: (t.channels + C) :: t.elements :: t.before, fun i => if i.getD 1 0 < t.channels then y.get i else z.get (i.set 1 (i.getD 1 0 - t.channels))⟩,
      ⟨N :: (t.channels + C) :: t.elements :: t.after, fun i => if i.getD 1 0 < t.channels then y'.get i else z'.get (i.set 1 (i.getD 1 0 - t.channels))⟩,
      ?_, ?_, ⟨rfl, rfl, gi, π, hπ, ?_⟩, a4⟩
    · unfold Graph.run
      rw [a1, ok_bind, b1, ok_bind]
      dsimp only
      rw [catMaps_ok s1 t1]; rfl
    · unfold Graph.run
      rw [a2, ok_bind, b2, ok_bind]
      dsimp only
      rw [catMaps_ok s2 t2]; rfl
    · intro b c q k hb hc hq
      by_cases hcc : c < t.channels
      · show (if c < t.channels then y'.get _ else _) = (if c < t.channels then y.get _ else _)
        rw [if_pos hcc, if_pos hcc]
        exact hy b c q k hb hcc hq
      · show (if c < t.channels then _ else z'.get (b :: (c - t.channels) :: (π k : ℕ) :: σ.move e t.after q)) =
          (if c < t.channels then _ else z.get (b :: (c - t.channels) :: (k : ℕ) :: q))
        rw [if_neg hcc, if_neg hcc]
        have hc' : c < t.channels + C := hc
        exact hz b (c - t.channels) q k hb (by omega) hq

end GConv.Branch

import Verif.Spec.Layer
import Verif.Lemmas.Conv

/-! # C58, C59: construction of the convolution layers -/

namespace GConv.Conv

open Tensor Spec

/-- The configurations the constructor should accept. -/
def Accepted (a : Args) : Prop :=
  (∀ l, a.groupKernelSize = .tuple l → (∀ i ∈ l, 0 ≤ i) ∧ 0 < l.sum) ∧
  0 < a.groups ∧ a.groups ∣ a.inC ∧ a.groups ∣ a.outC ∧
  (∀ s, a.padding = .str s → s = "valid" ∨ (s = "same" ∧ ∀ l, a.stride = .tuple l → ∀ x ∈ l, x = 1)) ∧
  (a.paddingMode = "zeros" ∨ a.paddingMode = "reflect" ∨ a.paddingMode = "replicate" ∨ a.paddingMode = "circular") ∧
  (a.convMode = "2d" ∨ a.convMode = "3d")

theorem raiseIf_bind {α : Type} (c : Prop) [Decidable c] (e : PyErr) (f : Unit → Except PyErr α) :
    (raiseIf c e >>= f) = if c then .error e else f () := by
  unfold raiseIf; split <;> rfl

theorem badGroupSize_iff (g : GroupSize) :
    badGroupSize g = false ↔ ∀ l, g = .tuple l → (∀ i ∈ l, 0 ≤ i) ∧ 0 < l.sum := by
  cases g with
  | int n => simp [badGroupSize]
  | tuple l => simp [badGroupSize]

theorem checkPadding_ok (p : PadArg) (st : List ℕ) :
    checkPadding p (.tuple st) = .ok () ↔
      ∀ s, p = .str s → s = "valid" ∨ (s = "same" ∧ ∀ l, Dims.tuple st = .tuple l → ∀ x ∈ l, x = 1) := by
  cases p with
  | int n => simp [checkPadding]
  | tuple l => simp [checkPadding]
  | str s =>
    unfold checkPadding
    by_cases h1 : s = "same"
    · subst h1
      dsimp only
      rw [if_neg (by simp), if_pos rfl]
      unfold raiseIf
      by_cases h : st.any (· ≠ 1) = true
      · rw [if_pos h]
        constructor
        · intro h; cases h
        · intro h'
          obtain ⟨x, hx, hne⟩ := List.any_eq_true.1 h
          rcases h' "same" rfl with e | ⟨-, e⟩
          · exact absurd e (by decide)
          · exact absurd (e st rfl x hx) (by simpa using hne)
      · rw [if_neg h]
        simp only [true_iff]
        intro s hs
        cases hs
        refine Or.inr ⟨rfl, fun l hl x hx => ?_⟩
        cases hl
        by_contra hne
        exact h (List.any_eq_true.2 ⟨x, hx, by simpa using hne⟩)
    · by_cases h2 : s = "valid"
      · subst h2
        dsimp only
        rw [if_neg (by simp), if_neg h1]
        simp only [true_iff]
        intro s hs; cases hs; exact Or.inl rfl
      · dsimp only
        rw [if_pos ⟨h1, h2⟩]
        constructor
        · intro h; cases h
        · intro h
          rcases h s rfl with e | ⟨e, -⟩
          · exact absurd e h2
          · exact absurd e h1

theorem checkPadding_err (p : PadArg) (st : List ℕ) (h : checkPadding p (.tuple st) ≠ .ok ()) :
    checkPadding p (.tuple st) = .error .valueError := by
  unfold checkPadding raiseIf at *
  cases p with
  | int n => exact absurd rfl h
  | tuple l => exact absurd rfl h
  | str s =>
    dsimp only at *
    split at h
    · rename_i h'; rw [if_pos h']
    · rename_i h'; rw [if_neg h']
      split at h
      · rename_i h2; rw [if_pos h2]
        split at h
        · rename_i h3; rw [if_pos h3]
        · exact absurd rfl h
      · exact absurd rfl h

theorem reversedPadding_ok (nd : ℕ) (p : PadArg) (dil ks : List ℕ) :
    ∃ r, reversedPadding (storedPadding nd p) (.tuple dil) ks = .ok r := by
  cases p with
  | int n => exact ⟨_, rfl⟩
  | tuple l => exact ⟨_, rfl⟩
  | str s =>
    by_cases h : s = "same"
    · exact ⟨_, if_pos h⟩
    · exact ⟨_, if_neg h⟩

/-- the layer an accepted configuration gives. -/
def layer (a : Args) (nd : ℕ) (rev : List ℕ) : Layer :=
  { inC := a.inC, outC := a.outC, kernelSize := a.kernelSize, groups := a.groups.toNat,
    stride := a.stride, padding := storedPadding nd a.padding, dilation := a.dilation,
    paddingMode := a.paddingMode, nd := nd, revPad := rev }

theorem init_accepted (a : Args) (st dil ks : List ℕ) (hst : a.stride = .tuple st) (hdil : a.dilation = .tuple dil)
    (h : Accepted a) :
    ∃ nd rev, ((a.convMode = "2d" ∧ nd = 2) ∨ (a.convMode = "3d" ∧ nd = 3)) ∧
      reversedPadding (storedPadding nd a.padding) a.dilation ks = .ok rev ∧
      init a ks = .ok (layer a nd rev) := by
  obtain ⟨h1, h2, h3, h4, h5, h6, h7⟩ := h
  have e1 := (badGroupSize_iff a.groupKernelSize).2 h1
  have e5 : checkPadding a.padding a.stride = .ok () := by
    rw [hst]; refine (checkPadding_ok a.padding st).2 ?_; rw [← hst]; exact h5
  have e6 : ¬ (a.paddingMode ∉ ["zeros", "reflect", "replicate", "circular"]) := by
    rw [not_not]; simp only [List.mem_cons, List.not_mem_nil, or_false]; exact h6
  unfold init
  simp only [raiseIf_bind]
  rw [if_neg (by rw [e1]; simp), if_neg (by omega), if_neg (by rw [not_not]; exact Int.emod_eq_zero_of_dvd h3),
    if_neg (by rw [not_not]; exact Int.emod_eq_zero_of_dvd h4), e5, ok_bind, if_neg e6]
  rcases h7 with h7 | h7
  · obtain ⟨r, hr⟩ := reversedPadding_ok 2 a.padding dil ks
    refine ⟨2, r, Or.inl ⟨h7, rfl⟩, by rw [hdil]; exact hr, ?_⟩
    rw [if_pos h7, ok_bind]
    rw [hdil, hr, ok_bind, ← hdil]
    rfl
  · obtain ⟨r, hr⟩ := reversedPadding_ok 3 a.padding dil ks
    refine ⟨3, r, Or.inr ⟨h7, rfl⟩, by rw [hdil]; exact hr, ?_⟩
    rw [if_neg (by rw [h7]; decide), if_pos h7, ok_bind]
    rw [hdil, hr, ok_bind, ← hdil]
    rfl

/-- Every configuration that is not acceptable raises ValueError. -/
theorem C58_rejects (a : Args) (st ks : List ℕ) (hst : a.stride = .tuple st)
    (h : ¬ Accepted a) : init a ks = .error .valueError := by
  unfold init
  simp only [raiseIf_bind]
  by_cases e1 : badGroupSize a.groupKernelSize = true
  · rw [if_pos e1]
  rw [if_neg e1]
  by_cases e2 : a.groups ≤ 0
  · rw [if_pos e2]
  rw [if_neg e2]
  by_cases e3 : (a.inC : ℤ) % a.groups = 0
  swap
  · rw [if_pos e3]
  rw [if_neg (by rw [not_not]; exact e3)]
  by_cases e4 : (a.outC : ℤ) % a.groups = 0
  swap
  · rw [if_pos e4]
  rw [if_neg (by rw [not_not]; exact e4)]
  by_cases e5 : checkPadding a.padding a.stride = .ok ()
  swap
  · rw [hst] at e5 ⊢; rw [checkPadding_err _ _ e5]; rfl
  rw [e5, ok_bind]
  by_cases e6 : a.paddingMode ∉ ["zeros", "reflect", "replicate", "circular"]
  · rw [if_pos e6]
  rw [if_neg e6]
  by_cases e7 : a.convMode = "2d" ∨ a.convMode = "3d"
  swap
  · rw [if_neg (fun h => e7 (Or.inl h)), if_neg (fun h => e7 (Or.inr h))]; rfl
  refine absurd ⟨(badGroupSize_iff _).1 (by simpa using e1), by omega, Int.dvd_of_emod_eq_zero e3,
    Int.dvd_of_emod_eq_zero e4, ?_, ?_, e7⟩ h
  swap
  · rw [not_not] at e6; simpa only [List.mem_cons, List.not_mem_nil, or_false] using e6
  rw [hst] at e5 ⊢
  exact (checkPadding_ok _ _).1 e5

/-- The constructor accepts exactly the acceptable configurations (strides and dilations are tuples, as
passed by the 2d and 3d classes). -/
theorem C58_accepts (a : Args) (st dil ks : List ℕ) (hst : a.stride = .tuple st) (hdil : a.dilation = .tuple dil) :
    (∃ L, init a ks = .ok L) ↔ Accepted a := by
  constructor
  · rintro ⟨L, hL⟩
    by_contra h
    rw [C58_rejects a st ks hst h] at hL
    cases hL
  · intro h
    obtain ⟨nd, rev, -, -, e⟩ := init_accepted a st dil ks hst hdil h
    exact ⟨_, e⟩

/-- The stored attributes are the arguments. -/
theorem C58_layer (a : Args) (st dil ks : List ℕ) (hst : a.stride = .tuple st) (hdil : a.dilation = .tuple dil) (L : Layer)
    (h : init a ks = .ok L) :
    L.inC = a.inC ∧ L.outC = a.outC ∧ (L.groups : ℤ) = a.groups ∧ L.kernelSize = a.kernelSize ∧
      L.stride = a.stride ∧ L.dilation = a.dilation ∧ L.paddingMode = a.paddingMode ∧
      L.groups ∣ L.inC ∧ L.groups ∣ L.outC ∧ 0 < L.groups := by
  have ha := (C58_accepts a st dil ks hst hdil).1 ⟨L, h⟩
  obtain ⟨nd, rev, -, -, e⟩ := init_accepted a st dil ks hst hdil ha
  rw [e] at h
  cases h
  obtain ⟨-, h2, h3, h4, -⟩ := ha
  have hg : ((a.groups.toNat : ℕ) : ℤ) = a.groups := Int.toNat_of_nonneg (by omega)
  refine ⟨rfl, rfl, hg, rfl, rfl, rfl, rfl, ?_, ?_, ?_⟩
  · show a.groups.toNat ∣ a.inC; rw [← Int.natCast_dvd_natCast, hg]; exact h3
  · show a.groups.toNat ∣ a.outC; rw [← Int.natCast_dvd_natCast, hg]; exact h4
  · show 0 < a.groups.toNat; omega

/-- Calling the base class directly with the default integer stride and `padding='same'` raises TypeError
(the string itself is fine). -/
theorem C58_integer_stride (a : Args) (n : ℕ) (ks : List ℕ) (hst : a.stride = .int n) (hp : a.padding = .str "same")
    (h1 : badGroupSize a.groupKernelSize = false) (h2 : 0 < a.groups) (h3 : a.groups ∣ a.inC) (h4 : a.groups ∣ a.outC) :
    init a ks = .error .typeError := by
  unfold init
  simp only [raiseIf_bind]
  rw [if_neg (by rw [h1]; simp), if_neg (by omega), if_neg (by rw [not_not]; exact Int.emod_eq_zero_of_dvd h3),
    if_neg (by rw [not_not]; exact Int.emod_eq_zero_of_dvd h4), hst, hp]
  rfl

/-- an accepted and a rejected configuration. -/
def exArgs (p : PadArg) (st : ℕ) : Args := args2d 4 6 3 (.tuple [4, 4]) 2 st p 2 "circular"

example : Accepted (exArgs (.str "same") 1) := by
  refine ⟨fun l h => ?_, by decide, by decide, by decide, fun s h => ?_, by simp [exArgs, args2d, argsNd], by simp [exArgs, args2d, argsNd]⟩
  · cases h; simp
  · cases h
    refine Or.inr ⟨rfl, fun l h x hx => ?_⟩
    cases h
    exact (List.mem_replicate.1 hx).2

example : ¬ Accepted (exArgs (.str "same") 2) := by
  rintro ⟨-, -, -, -, h, -⟩
  rcases h "same" rfl with h | ⟨-, h⟩
  · exact absurd h (by decide)
  · exact absurd (h [2, 2] rfl 2 (by simp)) (by norm_num)

/-! ## C59 -/

theorem samePadLoop_spec : ∀ (dil ks acc : List ℕ), dil.length = ks.length → 2 * ks.length ≤ acc.length →
    (samePadLoop dil ks acc).length = acc.length ∧
    (samePadLoop dil ks acc).drop (2 * ks.length) = acc.drop (2 * ks.length) ∧
    (F.pairs ((samePadLoop dil ks acc).take (2 * ks.length))).reverse = List.zipWith F.samePair ks dil
  | [], [], acc, _, _ => by simp [samePadLoop, F.pairs]
  | d :: ds, k :: ks, acc, h1, h2 => by
    have h2' : 2 * ks.length + 2 ≤ acc.length := by simpa [Nat.mul_add] using h2
    obtain ⟨i1, i2, i3⟩ := samePadLoop_spec ds ks
      ((acc.set (2 * ks.length) (d * (k - 1) / 2)).set (2 * ks.length + 1) (d * (k - 1) - d * (k - 1) / 2))
      (by simpa using h1) (by simp; omega)
    have e : samePadLoop (d :: ds) (k :: ks) acc = samePadLoop ds ks
      ((acc.set (2 * ks.length) (d * (k - 1) / 2)).set (2 * ks.length + 1) (d * (k - 1) - d * (k - 1) / 2)) := rfl
    rw [e]
    generalize hr : samePadLoop ds ks
      ((acc.set (2 * ks.length) (d * (k - 1) / 2)).set (2 * ks.length + 1) (d * (k - 1) - d * (k - 1) / 2)) = r at *
    have hl : r.length = acc.length := by rw [i1]; simp
    have hget : ∀ j, r[2 * ks.length + j]? =
        ((acc.set (2 * ks.length) (d * (k - 1) / 2)).set (2 * ks.length + 1) (d * (k - 1) - d * (k - 1) / 2))[2 * ks.length + j]? := by
      intro j; rw [← List.getElem?_drop, i2, List.getElem?_drop]
    have g0 : r[2 * ks.length]? = some (d * (k - 1) / 2) := by
      have := hget 0
      rw [Nat.add_zero] at this
      rw [this, List.getElem?_set_ne (by omega), List.getElem?_set_self (by omega)]
    have g1 : r[2 * ks.length + 1]? = some (d * (k - 1) - d * (k - 1) / 2) := by
      rw [hget 1, List.getElem?_set_self (by simp; omega)]
    refine ⟨hl, ?_, ?_⟩
    · apply List.ext_getElem?
      intro j
      rw [List.getElem?_drop, List.getElem?_drop]
      have := hget (2 + j)
      simp only [List.length_cons]
      rw [show 2 * (ks.length + 1) + j = 2 * ks.length + (2 + j) by ring, this, List.getElem?_set_ne (by omega),
        List.getElem?_set_ne (by omega)]
    · have ht : r.take (2 * (ks.length + 1)) = r.take (2 * ks.length) ++ [d * (k - 1) / 2, d * (k - 1) - d * (k - 1) / 2] := by
        rw [show 2 * (ks.length + 1) = 2 * ks.length + 1 + 1 by ring, List.take_add_one, List.take_add_one, g0, g1]
        simp
      have hp : ∀ (n : ℕ) (l : List ℕ), l.length = 2 * n → ∀ x y, F.pairs (l ++ [x, y]) = F.pairs l ++ [(x, y)] := by
        intro n
        induction n with
        | zero => intro l hl x y; rw [List.length_eq_zero_iff.1 (by omega : l.length = 0)]; rfl
        | succ n ih =>
          intro l hl x y
          match l, hl with
          | a :: b :: l, hl =>
            have hl' : l.length = 2 * n := by simp at hl; omega
            simp only [List.cons_append, F.pairs, ih l hl' x y]
      simp only [List.length_cons]
      rw [ht, hp ks.length _ (by rw [List.length_take, hl]; omega), List.reverse_append]
      simp only [List.reverse_cons, List.reverse_nil, List.nil_append, List.singleton_append, List.zipWith_cons_cons]
      rw [i3]
      rfl
  | [], _ :: _, _, h, _ => by simp at h
  | _ :: _, [], _, h, _ => by simp at h

theorem pairs_reverseRepeat (l : List ℕ) : (F.pairs (reverseRepeatTwice l)).reverse = l.map fun p => (p, p) := by
  have h : ∀ l : List ℕ, F.pairs (l.flatMap fun x => [x, x]) = l.map fun p => (p, p) := by
    intro l
    induction l with
    | nil => rfl
    | cons a l ih => simp only [List.flatMap_cons, List.cons_append, List.nil_append, F.pairs, ih, List.map_cons]
  unfold reverseRepeatTwice
  rw [h, ← List.map_reverse, List.reverse_reverse]

theorem pairs_zeros (n : ℕ) : (F.pairs (List.replicate (2 * n) 0)).reverse = List.replicate n (0, 0) := by
  have h : ∀ n : ℕ, F.pairs (List.replicate (2 * n) 0) = List.replicate n (0, 0) := by
    intro n
    induction n with
    | zero => rfl
    | succ n ih => simp only [Nat.mul_add, Nat.mul_one, List.replicate_succ, F.pairs, ih]
  rw [h, List.reverse_replicate]

/-- `padding='same'`: the stored list, read the way `F.pad` reads it (pairs, last axis first), pads
`dilation * (k - 1)` cells per axis, half of them rounded down on the left. -/
theorem C59_same_pairs (a : Args) (st dil : List ℕ) (hst : a.stride = .tuple st) (hdil : a.dilation = .tuple dil)
    (hp : a.padding = .str "same") (hl : dil.length = a.kernelSize.length) (L : Layer) (h : init a a.kernelSize = .ok L) :
    L.revPad.length = 2 * a.kernelSize.length ∧
    (F.pairs L.revPad).reverse = List.zipWith (fun k d => (d * (k - 1) / 2, d * (k - 1) - d * (k - 1) / 2)) a.kernelSize dil := by
  have ha := (C58_accepts a st dil _ hst hdil).1 ⟨L, h⟩
  obtain ⟨nd, rev, -, hr, e⟩ := init_accepted a st dil a.kernelSize hst hdil ha
  rw [e] at h; cases h
  rw [hp, hdil] at hr
  have hr' : samePadLoop dil a.kernelSize (List.replicate (2 * a.kernelSize.length) 0) = rev := by
    have : reversedPadding (storedPadding nd (.str "same")) (.tuple dil) a.kernelSize =
      .ok (samePadLoop dil a.kernelSize (List.replicate (2 * a.kernelSize.length) 0)) := rfl
    rw [this] at hr; cases hr; rfl
  obtain ⟨h1, -, h3⟩ := samePadLoop_spec dil a.kernelSize (List.replicate (2 * a.kernelSize.length) 0) hl (by simp)
  rw [hr'] at h1 h3
  rw [List.length_replicate] at h1
  show rev.length = _ ∧ (F.pairs rev).reverse = _
  refine ⟨h1, ?_⟩
  rw [← h1, List.take_length] at h3
  exact h3

/-- What a layer with the geometry `ax` stores. -/
theorem revPad_of_geometry {a : Args} {mode : F.CPad} {ax : List Axis} (hg : HasGeometry a mode ax) {L : Layer}
    (h : init a (kernelDims ax) = .ok L) : (F.pairs L.revPad).reverse = pads ax := by
  have ha := (C58_accepts a _ _ _ hg.stride hg.dilation).1 ⟨L, h⟩
  obtain ⟨nd, rev, hnd, hr, e⟩ := init_accepted a _ _ (kernelDims ax) hg.stride hg.dilation ha
  rw [e] at h; cases h
  show (F.pairs rev).reverse = _
  have hP := hg.padding
  have hnd' : nd = ax.length := by
    rcases hg.rank with ⟨h1, h2⟩ | ⟨h1, h2⟩ <;> rcases hnd with ⟨h3, h4⟩ | ⟨h3, h4⟩
    · omega
    · rw [h1] at h3; exact absurd h3 (by decide)
    · rw [h1] at h3; exact absurd h3 (by decide)
    · omega
  rw [hg.dilation] at hr
  unfold PadsAs at hP
  cases hpd : a.padding with
  | int p =>
    rw [hpd] at hP hr
    cases hr
    rw [pairs_reverseRepeat, hnd', List.map_replicate]
    refine (List.eq_replicate_iff.2 ⟨by simp [pads], fun b hb => ?_⟩).symm
    unfold pads at hb
    obtain ⟨x, hx, rfl⟩ := List.mem_map.1 hb
    rw [(hP x hx).1, (hP x hx).2]
  | tuple l =>
    rw [hpd] at hP hr
    cases hr
    rw [pairs_reverseRepeat]
    obtain ⟨h1, h2⟩ := hP
    unfold pads
    apply List.ext_getElem?
    intro i
    have e1 := congrArg (·[i]?) h1
    have e2 := congrArg (·[i]?) h2
    simp only [List.getElem?_map] at e1 e2 ⊢
    rw [e1] at e2 ⊢
    cases hx : ax[i]? with
    | none => rfl
    | some x => rw [hx] at e2; simp at e2; simp [← e2]
  | str s =>
    rw [hpd] at hP hr
    rcases hP with ⟨rfl, hP⟩ | ⟨rfl, hP⟩
    · have hr' : samePadLoop (ax.map Axis.dil) (kernelDims ax) (List.replicate (2 * (kernelDims ax).length) 0) = rev := by
        have : reversedPadding (storedPadding nd (.str "same")) (.tuple (ax.map Axis.dil)) (kernelDims ax) =
          .ok (samePadLoop (ax.map Axis.dil) (kernelDims ax) (List.replicate (2 * (kernelDims ax).length) 0)) := rfl
        rw [this] at hr; cases hr; rfl
      obtain ⟨h1, -, h3⟩ := samePadLoop_spec (ax.map Axis.dil) (kernelDims ax) (List.replicate (2 * (kernelDims ax).length) 0)
        (by simp [kernelDims]) (by simp)
      rw [hr'] at h1 h3
      rw [List.length_replicate] at h1
      rw [← h1, List.take_length] at h3
      rw [h3]
      unfold kernelDims pads
      rw [List.zipWith_map, List.zipWith_self]
      apply List.map_congr_left
      intro x hx
      have := hP x hx
      unfold F.samePair
      rw [← this.1, ← this.2]
      simp
    · have hr' : rev = List.replicate (2 * (kernelDims ax).length) 0 := by
        have : reversedPadding (storedPadding nd (.str "valid")) (.tuple (ax.map Axis.dil)) (kernelDims ax) =
          .ok (List.replicate (2 * (kernelDims ax).length) 0) := rfl
        rw [this] at hr; cases hr; rfl
      rw [hr', pairs_zeros]
      refine (List.eq_replicate_iff.2 ⟨by simp [pads, kernelDims], fun b hb => ?_⟩).symm
      unfold pads at hb
      obtain ⟨x, hx, rfl⟩ := List.mem_map.1 hb
      rw [(hP x hx).1, (hP x hx).2]

end GConv.Conv

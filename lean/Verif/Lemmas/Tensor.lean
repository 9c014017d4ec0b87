import Verif.Torch.Tensor
import Mathlib.Algebra.BigOperators.Group.Finset.Basic
import Mathlib.Data.List.Forall2

/-! Helper lemmas about row-major tensors. -/

namespace GConv

theorem ok_bind {α β : Type} (a : α) (f : α → Except PyErr β) :
    ((Except.ok a : Except PyErr α) >>= f) = f a := rfl

theorem pure_ok {α : Type} (a : α) : (pure a : Except PyErr α) = Except.ok a := rfl

theorem error_bind {α β : Type} (e : PyErr) (f : α → Except PyErr β) :
    ((Except.error e : Except PyErr α) >>= f) = Except.error e := rfl

end GConv

namespace GConv.Tensor

theorem InB.length {s idx : List ℕ} (h : InB s idx) : idx.length = s.length := h.length_eq

@[simp] theorem InB_nil_nil : InB [] [] := List.Forall₂.nil

@[simp] theorem InB_cons {s i : ℕ} {ss is : List ℕ} : InB (s :: ss) (i :: is) ↔ i < s ∧ InB ss is :=
  List.forall₂_cons

theorem InB_cons_left {s : ℕ} {ss idx : List ℕ} (h : InB (s :: ss) idx) :
    ∃ i is, idx = i :: is ∧ i < s ∧ InB ss is := by
  cases h with
  | cons h1 h2 => exact ⟨_, _, rfl, h1, h2⟩

theorem InB_nil_left {idx : List ℕ} (h : InB [] idx) : idx = [] := by cases h; rfl

theorem InB.append {s t a b : List ℕ} (h : InB s a) (h' : InB t b) : InB (s ++ t) (a ++ b) := by
  induction h with
  | nil => exact h'
  | cons h1 _ ih => exact List.Forall₂.cons h1 ih

theorem InB_append_left {s t idx : List ℕ} (h : InB (s ++ t) idx) :
    ∃ a b, idx = a ++ b ∧ InB s a ∧ InB t b := by
  induction s generalizing idx with
  | nil => exact ⟨[], idx, rfl, InB_nil_nil, h⟩
  | cons x s ih =>
    obtain ⟨i, is, rfl, h1, h2⟩ := InB_cons_left h
    obtain ⟨a, b, rfl, h3, h4⟩ := ih h2
    exact ⟨i :: a, b, rfl, by simp [h1, h3], h4⟩

theorem ravel_lt {s idx : List ℕ} (h : InB s idx) : ravel s idx < s.prod := by
  induction h with
  | nil => simp [ravel]
  | @cons i n is ss h1 _ ih =>
    simp only [ravel, List.prod_cons]
    calc i * ss.prod + ravel ss is < i * ss.prod + ss.prod := by omega
      _ = (i + 1) * ss.prod := by ring
      _ ≤ n * ss.prod := Nat.mul_le_mul_right _ h1

theorem unravel_ravel {s idx : List ℕ} (h : InB s idx) : unravel s (ravel s idx) = idx := by
  induction h with
  | nil => rfl
  | @cons i n is ss h1 h2 ih =>
    have hlt := ravel_lt h2
    simp only [ravel, unravel]
    rw [Nat.add_comm, Nat.add_mul_div_right _ _ (by omega), Nat.div_eq_of_lt hlt,
      Nat.add_mul_mod_self_right, Nat.mod_eq_of_lt hlt, ih, Nat.zero_add]

theorem unravel_InB {s : List ℕ} {n : ℕ} (h : n < s.prod) : InB s (unravel s n) := by
  induction s generalizing n with
  | nil => exact InB_nil_nil
  | cons x ss ih =>
    simp only [unravel, InB_cons]
    rw [List.prod_cons] at h
    have hp : 0 < ss.prod := by
      rcases Nat.eq_zero_or_pos ss.prod with h0 | h0
      · rw [h0] at h; omega
      · exact h0
    exact ⟨Nat.div_lt_of_lt_mul (by rwa [Nat.mul_comm]), ih (Nat.mod_lt _ hp)⟩

theorem ravel_unravel {s : List ℕ} {n : ℕ} (h : n < s.prod) : ravel s (unravel s n) = n := by
  induction s generalizing n with
  | nil => simp only [List.prod_nil] at h; simp [ravel, unravel]; omega
  | cons x ss ih =>
    rw [List.prod_cons] at h
    have hp : 0 < ss.prod := by
      rcases Nat.eq_zero_or_pos ss.prod with h0 | h0
      · rw [h0] at h; omega
      · exact h0
    simp only [unravel, ravel]
    rw [ih (Nat.mod_lt _ hp)]
    exact Nat.div_add_mod' n ss.prod

theorem ravel_append {A a s x : List ℕ} (h : a.length = A.length) :
    ravel (A ++ s) (a ++ x) = ravel A a * s.prod + ravel s x := by
  induction A generalizing a with
  | nil => cases a with
    | nil => simp [ravel]
    | cons => simp at h
  | cons n A ih => cases a with
    | nil => simp at h
    | cons i a =>
      simp only [List.cons_append, ravel, List.prod_append]
      rw [ih (by simpa using h)]; ring

theorem unravel_append {A s : List ℕ} {n m : ℕ} (hn : n < A.prod) (hm : m < s.prod) :
    unravel (A ++ s) (n * s.prod + m) = unravel A n ++ unravel s m := by
  have hp : 0 < s.prod := by omega
  induction A generalizing n with
  | nil =>
    have : n = 0 := by simpa using hn
    subst this; simp [unravel]
  | cons k A ih =>
    rw [List.prod_cons] at hn
    have hA : 0 < A.prod := by
      rcases Nat.eq_zero_or_pos A.prod with h0 | h0
      · rw [h0] at hn; omega
      · exact h0
    simp only [List.cons_append, unravel, List.prod_append]
    have h1 : (n * s.prod + m) / (A.prod * s.prod) = n / A.prod := by
      rw [Nat.mul_comm A.prod, ← Nat.div_div_eq_div_mul, Nat.add_comm, Nat.add_mul_div_right _ _ hp,
        Nat.div_eq_of_lt hm, Nat.zero_add]
    have h2 : (n * s.prod + m) % (A.prod * s.prod) = (n % A.prod) * s.prod + m := by
      rw [Nat.mul_comm A.prod, Nat.mod_mul]
      have e1 : (n * s.prod + m) % s.prod = m := by
        rw [Nat.add_comm, Nat.add_mul_mod_self_right, Nat.mod_eq_of_lt hm]
      have e2 : (n * s.prod + m) / s.prod = n := by
        rw [Nat.add_comm, Nat.add_mul_div_right _ _ hp, Nat.div_eq_of_lt hm, Nat.zero_add]
      rw [e1, e2]; ring
    rw [h1, h2, ih (Nat.mod_lt _ hA)]

/-- reading a view whose shapes share the suffix `s`: the view acts on the prefix only. -/
theorem view_suffix {α : Type*} {t : Tensor α} {A B s b x : List ℕ} (ht : t.shape = A ++ s)
    (hAB : A.prod = B.prod) (hb : InB B b) (hx : InB s x) :
    t.get (unravel t.shape (ravel (B ++ s) (b ++ x))) = t.get (unravel A (ravel B b) ++ x) := by
  rw [ht, ravel_append hb.length, unravel_append (by rw [hAB]; exact ravel_lt hb) (ravel_lt hx),
    unravel_ravel hx]

theorem view_ok {α : Type*} {t : Tensor α} {s : List ℕ} (h : t.shape.prod = s.prod) :
    t.view s = .ok ⟨s, fun idx => t.get (unravel t.shape (ravel s idx))⟩ := by
  unfold view; rw [if_pos h]

theorem mem_allIdx {s idx : List ℕ} : idx ∈ allIdx s ↔ InB s idx := by
  induction s generalizing idx with
  | nil =>
    simp only [allIdx, List.mem_singleton]
    exact ⟨fun h => h ▸ InB_nil_nil, fun h => InB_nil_left h⟩
  | cons n ss ih =>
    simp only [allIdx, List.mem_flatMap, List.mem_range, List.mem_map]
    constructor
    · rintro ⟨i, hi, is, his, rfl⟩
      exact InB_cons.2 ⟨hi, ih.1 his⟩
    · intro h
      obtain ⟨i, is, rfl, h1, h2⟩ := InB_cons_left h
      exact ⟨i, h1, is, ih.2 h2, rfl⟩

theorem allIdx_nodup (s : List ℕ) : (allIdx s).Nodup := by
  induction s with
  | nil => simp [allIdx]
  | cons n ss ih =>
    simp only [allIdx]
    rw [List.nodup_flatMap]
    refine ⟨fun i _ => ih.map (fun a b h => by simpa using h), ?_⟩
    apply (List.nodup_range (n := n)).imp
    intro i j hij
    simp only [Function.onFun, List.disjoint_iff_ne, List.mem_map]
    rintro _ ⟨a, _, rfl⟩ _ ⟨b, _, rfl⟩ h
    exact hij (by simpa using congrArg (List.headD · 0) h)

theorem allIdx_length (s : List ℕ) : (allIdx s).length = s.prod := by
  induction s with
  | nil => simp [allIdx]
  | cons n ss ih => simp [allIdx, List.length_flatMap, ih]

/-- sum over all indices of a shape. -/
def sumIdx {M : Type*} [AddCommMonoid M] (s : List ℕ) (f : List ℕ → M) : M :=
  ((allIdx s).map f).sum

section
variable {M : Type*} [AddCommMonoid M]

theorem sumIdx_eq (s : List ℕ) (f : List ℕ → M) : sumIdx s f = ∑ x ∈ (allIdx s).toFinset, f x := by
  unfold sumIdx
  rw [List.sum_toFinset _ (allIdx_nodup s)]

theorem sumIdx_congr {s : List ℕ} {f g : List ℕ → M} (h : ∀ x, InB s x → f x = g x) :
    sumIdx s f = sumIdx s g := by
  rw [sumIdx_eq, sumIdx_eq]
  apply Finset.sum_congr rfl
  intro x hx
  exact h x (mem_allIdx.1 (List.mem_toFinset.1 hx))

/-- change of variables along a bijection between the indices of two shapes. -/
theorem sumIdx_bij {s t : List ℕ} {f g : List ℕ → M} (φ ψ : List ℕ → List ℕ)
    (h1 : ∀ x, InB s x → InB t (φ x)) (h2 : ∀ x, InB t x → InB s (ψ x))
    (h3 : ∀ x, InB s x → ψ (φ x) = x) (h4 : ∀ x, InB t x → φ (ψ x) = x)
    (h : ∀ x, InB s x → f x = g (φ x)) : sumIdx s f = sumIdx t g := by
  rw [sumIdx_eq, sumIdx_eq]
  apply Finset.sum_nbij' φ ψ
  · intro x hx; exact List.mem_toFinset.2 (mem_allIdx.2 (h1 x (mem_allIdx.1 (List.mem_toFinset.1 hx))))
  · intro x hx; exact List.mem_toFinset.2 (mem_allIdx.2 (h2 x (mem_allIdx.1 (List.mem_toFinset.1 hx))))
  · intro x hx; exact h3 x (mem_allIdx.1 (List.mem_toFinset.1 hx))
  · intro x hx; exact h4 x (mem_allIdx.1 (List.mem_toFinset.1 hx))
  · intro x hx; exact h x (mem_allIdx.1 (List.mem_toFinset.1 hx))

theorem sumIdx_add (s : List ℕ) (f g : List ℕ → M) :
    sumIdx s (fun x => f x + g x) = sumIdx s f + sumIdx s g := by
  simp only [sumIdx_eq, Finset.sum_add_distrib]

theorem sumIdx_cons (n : ℕ) (s : List ℕ) (f : List ℕ → M) :
    sumIdx (n :: s) f = ∑ i ∈ Finset.range n, sumIdx s (fun x => f (i :: x)) := by
  unfold sumIdx
  simp only [allIdx]
  induction n with
  | zero => simp
  | succ n ih =>
    rw [List.range_succ, List.flatMap_append, List.map_append, List.sum_append, ih,
      Finset.sum_range_succ]
    simp [List.map_map, Function.comp_def]

end

/-! ## Broadcasting -/

/-- every extent of the smaller shape equals the matching extent or is one. -/
def BInto (r q : List ℕ) : Prop := List.Forall₂ (fun b a => b = a ∨ b = 1) r q

theorem bcastRev_into {r l : List ℕ} (l2 : List ℕ) (h : BInto r l) :
    bcastRev (l ++ l2) r = some (l ++ l2) ∧ bcastRev r (l ++ l2) = some (l ++ l2) := by
  induction h with
  | nil => constructor
           · cases l2 <;> simp [bcastRev]
           · simp [bcastRev]
  | @cons b a r l h1 _ ih =>
    constructor
    · simp only [List.cons_append, bcastRev, ih.1]
      rcases h1 with rfl | rfl
      · simp
      · by_cases ha : a = 1 <;> simp [ha]
    · simp only [List.cons_append, bcastRev, ih.2]
      rcases h1 with rfl | rfl
      · simp
      · by_cases ha : a = 1
        · simp [ha]
        · have : ¬ (1 = a) := fun h => ha h.symm
          simp [this]

theorem BInto.reverse {r q : List ℕ} (h : BInto r q) : BInto r.reverse q.reverse := by
  unfold BInto at *
  exact List.rel_reverse h

theorem bcastShape_left {p q r : List ℕ} (h : BInto r q) : bcastShape (p ++ q) r = some (p ++ q) := by
  unfold bcastShape
  rw [List.reverse_append, (bcastRev_into _ h.reverse).1]
  simp

theorem bcastShape_right {p q r : List ℕ} (h : BInto r q) : bcastShape r (p ++ q) = some (p ++ q) := by
  unfold bcastShape
  rw [List.reverse_append, (bcastRev_into _ h.reverse).2]
  simp

theorem BInto.refl (q : List ℕ) : BInto q q := by
  induction q with
  | nil => exact List.Forall₂.nil
  | cons a q ih => exact List.Forall₂.cons (Or.inl rfl) ih

theorem BInto.ones (q : List ℕ) : BInto (List.replicate q.length 1) q := by
  induction q with
  | nil => exact List.Forall₂.nil
  | cons a q ih => exact List.Forall₂.cons (Or.inr rfl) ih

theorem bidx_append {r u v : List ℕ} (h : v.length = r.length) :
    bidx r (u ++ v) = List.zipWith (fun n i => if n = 1 then 0 else i) r v := by
  unfold bidx
  congr 1
  rw [List.length_append, h, Nat.add_sub_cancel]
  simp

theorem zip_self {s x : List ℕ} (h : InB s x) :
    List.zipWith (fun n i => if n = 1 then 0 else i) s x = x := by
  induction h with
  | nil => rfl
  | @cons i n is ss h1 _ ih =>
    simp only [List.zipWith_cons_cons, ih]
    congr 1
    by_cases hn : n = 1
    · rw [if_pos hn]; omega
    · rw [if_neg hn]

theorem zip_ones (m : ℕ) (x : List ℕ) (h : x.length = m) :
    List.zipWith (fun n i => if n = 1 then 0 else i) (List.replicate m 1) x = List.replicate m 0 := by
  induction m generalizing x with
  | zero => simp
  | succ m ih => cases x with
    | nil => simp at h
    | cons i x => simp [List.replicate_succ, ih x (by simpa using h)]

theorem bidx_self {p s u x : List ℕ} (hu : u.length = p.length) (h : InB s x) :
    bidx s (u ++ x) = x := by
  rw [bidx_append h.length, zip_self h]

theorem bidx_full {s x : List ℕ} (h : InB s x) : bidx s x = x := by
  have := bidx_append (r := s) (u := []) h.length
  rw [List.nil_append] at this
  rw [this, zip_self h]

theorem bzip_left {α β γ : Type} {f : α → β → γ} {a : Tensor α} {b : Tensor β} {p q r : List ℕ}
    (ha : a.shape = p ++ q) (hb : b.shape = r) (h : BInto r q) :
    bzip f a b = .ok ⟨p ++ q, fun idx => f (a.get (bidx a.shape idx)) (b.get (bidx b.shape idx))⟩ := by
  unfold bzip
  simp only [ha, hb, bcastShape_left h]

theorem bzip_right {α β γ : Type} {f : α → β → γ} {a : Tensor α} {b : Tensor β} {p q r : List ℕ}
    (ha : a.shape = r) (hb : b.shape = p ++ q) (h : BInto r q) :
    bzip f a b = .ok ⟨p ++ q, fun idx => f (a.get (bidx a.shape idx)) (b.get (bidx b.shape idx))⟩ := by
  unfold bzip
  simp only [ha, hb, bcastShape_right h]

/-! ## indices as functions of the axis -/

theorem InB_iff {s idx : List ℕ} :
    InB s idx ↔ idx.length = s.length ∧ ∀ a < s.length, idx.getD a 0 < s.getD a 0 := by
  constructor
  · intro h
    refine ⟨h.length, ?_⟩
    induction h with
    | nil => intro a ha; simp at ha
    | cons h1 _ ih =>
      intro a ha
      cases a with
      | zero => simpa using h1
      | succ a => simpa using ih a (by simpa using ha)
  · rintro ⟨h1, h2⟩
    induction s generalizing idx with
    | nil => cases idx with
      | nil => exact InB_nil_nil
      | cons => simp at h1
    | cons n s ih => cases idx with
      | nil => simp at h1
      | cons i idx =>
        refine InB_cons.2 ⟨by simpa using h2 0 (by simp), ih (by simpa using h1) ?_⟩
        intro a ha
        simpa using h2 (a + 1) (by simpa using ha)

theorem list_ext_getD {l l' : List ℕ} (h : l.length = l'.length)
    (h' : ∀ a < l.length, l.getD a 0 = l'.getD a 0) : l = l' := by
  apply List.ext_getElem h
  intro a h1 h2
  have := h' a h1
  simpa [h1, h2] using this

end GConv.Tensor

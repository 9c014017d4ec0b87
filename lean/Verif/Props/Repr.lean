import Verif.Model.Repr
import Verif.Props.ConvInit

/-! # C98: the printed description of a layer

`print(layer)` shows the text of `extra_repr`.  It can be computed for every layer the public constructors accept, and
it determines the configuration. -/

namespace GConv.Conv

open Tensor

/-! ## Reading numbers and tuples back -/

/-- `x` is empty or does not begin with a digit. -/
def NoDigit (x : List Char) : Prop := ∀ c ∈ x.head?, c.isDigit = false

theorem digits_split {a b x y : List Char} (ha : ∀ c ∈ a, c.isDigit = true) (hb : ∀ c ∈ b, c.isDigit = true) (hx : NoDigit x)
    (hy : NoDigit y) (h : a ++ x = b ++ y) : a = b ∧ x = y := by
  induction a generalizing b with
  | nil =>
    cases b with
    | nil => exact ⟨rfl, h⟩
    | cons c b =>
      rw [List.nil_append, List.cons_append] at h
      have := hx c (by rw [h]; rfl)
      rw [hb c (by simp)] at this
      cases this
  | cons c a ih =>
    cases b with
    | nil =>
      rw [List.nil_append, List.cons_append] at h
      have := hy c (by rw [← h]; rfl)
      rw [ha c (by simp)] at this
      cases this
    | cons c' b =>
      rw [List.cons_append, List.cons_append] at h
      obtain ⟨h1, h2⟩ := List.cons.inj h
      obtain ⟨i1, i2⟩ := ih (fun d hd => ha d (by simp [hd])) (fun d hd => hb d (by simp [hd])) h2
      exact ⟨by rw [h1, i1], i2⟩

theorem reprNat_toList (n : ℕ) : (reprNat n).toList = Nat.toDigits 10 n := Nat.toList_repr

theorem digit_mem {n : ℕ} {c : Char} (h : c ∈ Nat.toDigits 10 n) : c.isDigit = true :=
  Nat.isDigit_of_mem_toDigits (by norm_num) (by norm_num) h

theorem nat_split {m n : ℕ} {x y : List Char} (hx : NoDigit x) (hy : NoDigit y)
    (h : (reprNat m).toList ++ x = (reprNat n).toList ++ y) : m = n ∧ x = y := by
  rw [reprNat_toList, reprNat_toList] at h
  obtain ⟨h1, h2⟩ := digits_split (fun _ => digit_mem) (fun _ => digit_mem) hx hy h
  refine ⟨?_, h2⟩
  rw [← Nat.ofDigitChars_ten_toDigits (n := m), h1, Nat.ofDigitChars_ten_toDigits]

/-- the first character of a number is a digit. -/
theorem nat_head (n : ℕ) : ∃ c t, (reprNat n).toList = c :: t ∧ c.isDigit = true := by
  rw [reprNat_toList]
  cases h : Nat.toDigits 10 n with
  | nil => exact absurd h Nat.toDigits_ne_nil
  | cons c t => exact ⟨c, t, rfl, digit_mem (n := n) (by rw [h]; simp)⟩

theorem int_head (n : ℤ) : ∃ c t, (reprInt n).toList = c :: t ∧ (c.isDigit = true ∨ c = '-') := by
  cases n with
  | ofNat n =>
    obtain ⟨c, t, h1, h2⟩ := nat_head n
    exact ⟨c, t, h1, Or.inl h2⟩
  | negSucc n =>
    refine ⟨'-', (reprNat (n + 1)).toList, ?_, Or.inr rfl⟩
    show ("-" ++ reprNat (n + 1)).toList = _
    rw [String.toList_append]
    rfl

theorem int_split {m n : ℤ} {x y : List Char} (hx : NoDigit x) (hy : NoDigit y)
    (h : (reprInt m).toList ++ x = (reprInt n).toList ++ y) : m = n ∧ x = y := by
  have neg : ∀ k : ℕ, (reprInt (.negSucc k)).toList = '-' :: (reprNat (k + 1)).toList := by
    intro k
    show ("-" ++ reprNat (k + 1)).toList = _
    rw [String.toList_append]
    rfl
  cases m with
  | ofNat m =>
    cases n with
    | ofNat n =>
      obtain ⟨h1, h2⟩ := nat_split hx hy h
      exact ⟨by rw [h1], h2⟩
    | negSucc n =>
      obtain ⟨c, t, h1, h2⟩ := nat_head m
      rw [neg] at h
      rw [show (reprInt (.ofNat m)).toList = c :: t from h1] at h
      rw [(List.cons.inj h).1] at h2
      exact absurd h2 (by decide)
  | negSucc m =>
    cases n with
    | ofNat n =>
      obtain ⟨c, t, h1, h2⟩ := nat_head n
      rw [neg] at h
      rw [show (reprInt (.ofNat n)).toList = c :: t from h1] at h
      rw [← (List.cons.inj h).1] at h2
      exact absurd h2 (by decide)
    | negSucc n =>
      rw [neg, neg] at h
      obtain ⟨h1, h2⟩ := nat_split hx hy (List.cons.inj h).2
      refine ⟨?_, h2⟩
      rw [show m = n by omega]

/-- a way of writing values that can be read back when no digit follows. -/
structure Readable {α : Type} (f : α → String) : Prop where
  split : ∀ {a b : α} {x y : List Char}, NoDigit x → NoDigit y → (f a).toList ++ x = (f b).toList ++ y → a = b ∧ x = y
  head : ∀ a, ∃ c t, (f a).toList = c :: t ∧ (c.isDigit = true ∨ c = '-')

theorem readable_nat : Readable reprNat :=
  ⟨nat_split, fun n => by obtain ⟨c, t, h1, h2⟩ := nat_head n; exact ⟨c, t, h1, Or.inl h2⟩⟩

theorem readable_int : Readable reprInt := ⟨int_split, int_head⟩

/-- the inside of a tuple with at least two elements. -/
theorem intercalate_cons (a b : String) (l : List String) :
    (", ".intercalate (a :: b :: l)).toList = a.toList ++ ", ".toList ++ (", ".intercalate (b :: l)).toList := by
  rw [String.intercalate_cons_cons, String.toList_append, String.toList_append]

theorem noDigit_cons {c : Char} {t : List Char} (h : c.isDigit = false) : NoDigit (c :: t) := by
  intro d hd
  cases hd
  exact h

section
variable {α : Type} {f : α → String}

theorem inner_split (hf : Readable f) : ∀ (l l' : List α) (a a' : α) (x y : List Char),
    (", ".intercalate ((a :: l).map f)).toList ++ ')' :: x = (", ".intercalate ((a' :: l').map f)).toList ++ ')' :: y →
      a :: l = a' :: l' ∧ x = y := by
  have one : ∀ b : α, (", ".intercalate ([b].map f)).toList = (f b).toList := fun b => by
    rw [List.map_cons, List.map_nil, String.intercalate_singleton]
  have two : ∀ (b c : α) (l : List α), (", ".intercalate ((b :: c :: l).map f)).toList =
      (f b).toList ++ ',' :: ' ' :: (", ".intercalate ((c :: l).map f)).toList := fun b c l => by
    rw [List.map_cons, List.map_cons, intercalate_cons, List.append_assoc]
    rfl
  intro l
  induction l with
  | nil =>
    intro l' a a' x y h
    cases l' with
    | nil =>
      rw [one, one] at h
      obtain ⟨h1, h2⟩ := hf.split (noDigit_cons (by decide)) (noDigit_cons (by decide)) h
      exact ⟨by rw [h1], (List.cons.inj h2).2⟩
    | cons b' l' =>
      rw [one, two, List.append_assoc] at h
      obtain ⟨h1, h2⟩ := hf.split (noDigit_cons (by decide)) (noDigit_cons (by decide)) h
      exact absurd (List.cons.inj h2).1 (by decide)
  | cons b l ih =>
    intro l' a a' x y h
    cases l' with
    | nil =>
      rw [one, two, List.append_assoc] at h
      obtain ⟨h1, h2⟩ := hf.split (noDigit_cons (by decide)) (noDigit_cons (by decide)) h
      exact absurd (List.cons.inj h2).1 (by decide)
    | cons b' l' =>
      rw [two, two, List.append_assoc, List.append_assoc] at h
      obtain ⟨h1, h2⟩ := hf.split (noDigit_cons (by decide)) (noDigit_cons (by decide)) h
      obtain ⟨h3, h4⟩ := ih l' b b' x y (List.cons.inj (List.cons.inj h2).2).2
      exact ⟨by rw [h1, h3], h4⟩

/-- the text of a tuple after the opening bracket. -/
theorem tuple_nil : (reprTuple ([] : List String)).toList = ['(', ')'] := rfl

theorem tuple_one (a : String) : (reprTuple [a]).toList = '(' :: (a.toList ++ [',', ')']) := by
  show ("(" ++ a ++ ",)").toList = _
  rw [String.toList_append, String.toList_append]
  rfl

theorem tuple_two (a b : String) (l : List String) :
    (reprTuple (a :: b :: l)).toList = '(' :: (a.toList ++ ',' :: ' ' :: ((", ".intercalate (b :: l)).toList ++ [')'])) := by
  show ("(" ++ a ++ ", " ++ ", ".intercalate (b :: l) ++ ")").toList = _
  rw [String.toList_append, String.toList_append, String.toList_append, String.toList_append, List.append_assoc, List.append_assoc,
    List.append_assoc]
  rfl

/-- A tuple can be read back, whatever follows. -/
theorem tuple_split (hf : Readable f) {l l' : List α} {x y : List Char}
    (h : (reprTuple (l.map f)).toList ++ x = (reprTuple (l'.map f)).toList ++ y) : l = l' ∧ x = y := by
  have nd : ∀ t, NoDigit (',' :: t) := fun t => noDigit_cons (by decide)
  have bad : ∀ (a : α) (t u : List Char), ')' :: t ≠ (f a).toList ++ u := by
    intro a t u e
    obtain ⟨c, v, h1, h2⟩ := hf.head a
    rw [h1] at e
    rw [← (List.cons.inj e).1] at h2
    exact absurd h2 (by decide)
  rcases l with _ | ⟨a, _ | ⟨b, l⟩⟩
  · rcases l' with _ | ⟨a', _ | ⟨b', l'⟩⟩
    · exact ⟨rfl, by simpa using h⟩
    · rw [List.map_nil, List.map_cons, List.map_nil, tuple_nil, tuple_one, List.cons_append, List.cons_append, List.cons_append, List.append_assoc] at h
      exact absurd (List.cons.inj h).2 (bad a' _ _)
    · rw [List.map_nil, List.map_cons, List.map_cons, tuple_nil, tuple_two, List.cons_append, List.cons_append, List.cons_append, List.append_assoc] at h
      exact absurd (List.cons.inj h).2 (bad a' _ _)
  · rcases l' with _ | ⟨a', _ | ⟨b', l'⟩⟩
    · rw [List.map_nil, List.map_cons, List.map_nil, tuple_nil, tuple_one, List.cons_append, List.cons_append, List.cons_append, List.append_assoc] at h
      exact absurd (List.cons.inj h).2.symm (bad a _ _)
    · simp only [List.map_cons, List.map_nil] at h
      rw [tuple_one, tuple_one, List.cons_append, List.cons_append, List.append_assoc, List.append_assoc] at h
      obtain ⟨h1, h2⟩ := hf.split (nd _) (nd _) (List.cons.inj h).2
      exact ⟨by rw [h1], (List.cons.inj (List.cons.inj h2).2).2⟩
    · simp only [List.map_cons, List.map_nil] at h
      rw [tuple_one, tuple_two, List.cons_append, List.cons_append, List.append_assoc, List.append_assoc] at h
      obtain ⟨h1, h2⟩ := hf.split (nd _) (nd _) (List.cons.inj h).2
      exact absurd (List.cons.inj (List.cons.inj h2).2).1 (by decide)
  · rcases l' with _ | ⟨a', _ | ⟨b', l'⟩⟩
    · rw [List.map_nil, List.map_cons, List.map_cons, tuple_nil, tuple_two, List.cons_append, List.cons_append, List.cons_append, List.append_assoc] at h
      exact absurd (List.cons.inj h).2.symm (bad a _ _)
    · simp only [List.map_cons, List.map_nil] at h
      rw [tuple_one, tuple_two, List.cons_append, List.cons_append, List.append_assoc, List.append_assoc] at h
      obtain ⟨h1, h2⟩ := hf.split (nd _) (nd _) (List.cons.inj h).2
      exact absurd (List.cons.inj (List.cons.inj h2).2).1 (by decide)
    · simp only [List.map_cons] at h
      rw [tuple_two, tuple_two, List.cons_append, List.cons_append, List.append_assoc, List.append_assoc] at h
      obtain ⟨h1, h2⟩ := hf.split (nd _) (nd _) (List.cons.inj h).2
      have h3 := (List.cons.inj (List.cons.inj h2).2).2
      change (_ ++ _) ++ x = (_ ++ _) ++ y at h3
      rw [List.append_assoc, List.append_assoc] at h3
      obtain ⟨h4, h5⟩ := inner_split hf l l' b b' x y h3
      exact ⟨by rw [h1, h4], h5⟩

end

/-! ## The options after the stride -/

/-- `R` is a sequence of options: each of the keys `ks`, in this order, is either left out or followed by something. -/
inductive Options : List (List Char) → List Char → Prop
  | nil : Options [] []
  | skip {k ks R} : Options ks R → Options (k :: ks) R
  | take {k ks R} (u : List Char) : Options ks R → Options (k :: ks) (k ++ (u ++ R))

/-- neither of the two texts begins with the other. -/
def Apart (a b : List Char) : Prop := ¬ a <+: b ∧ ¬ b <+: a

theorem Options.not_prefix {ks : List (List Char)} {R key : List Char} (h : Options ks R) (hk : key ≠ []) (hks : ∀ k ∈ ks, Apart key k) :
    ¬ key <+: R := by
  induction h with
  | nil => exact fun e => hk (List.prefix_nil.1 e)
  | skip _ ih => exact ih fun k hk => hks k (by simp [hk])
  | @take k ks R u _ _ =>
    intro e
    rcases List.prefix_or_prefix_of_prefix e (List.prefix_append k (u ++ R)) with h | h
    · exact (hks k (by simp)).1 h
    · exact (hks k (by simp)).2 h

theorem Options.noDigit {ks : List (List Char)} {R : List Char} (h : Options ks R) (hks : ∀ k ∈ ks, k.head? = some ',') : NoDigit R := by
  induction h with
  | nil => intro c hc; cases hc
  | skip _ ih => exact ih fun k hk => hks k (by simp [hk])
  | @take k ks R u _ _ =>
    have hk := hks k (by simp)
    cases k with
    | nil => cases hk
    | cons c t =>
      cases hk
      exact noDigit_cons (by decide)

/-- an option can be read back when the rest does not begin with its key. -/
theorem option_split {key P P' R R' : List Char} {body body' : List Char} {shown shown' : Prop} [Decidable shown] [Decidable shown']
    (hP : P = if shown then key ++ body else []) (hP' : P' = if shown' then key ++ body' else [])
    (hR : ¬ key <+: R) (hR' : ¬ key <+: R') (h : P ++ R = P' ++ R') :
    (shown ∧ shown' ∧ body ++ R = body' ++ R') ∨ (¬ shown ∧ ¬ shown' ∧ R = R') := by
  by_cases hs : shown
  · by_cases hs' : shown'
    · rw [hP, hP', if_pos hs, if_pos hs', List.append_assoc, List.append_assoc] at h
      exact Or.inl ⟨hs, hs', List.append_cancel_left h⟩
    · rw [hP, hP', if_pos hs, if_neg hs', List.append_assoc, List.nil_append] at h
      exact absurd ⟨_, h⟩ hR'
  · by_cases hs' : shown'
    · rw [hP, hP', if_neg hs, if_pos hs', List.append_assoc, List.nil_append] at h
      exact absurd ⟨_, h.symm⟩ hR
    · rw [hP, hP', if_neg hs, if_neg hs', List.nil_append, List.nil_append] at h
      exact Or.inr ⟨hs, hs', h⟩

theorem dims_split {d d' : Dims} {x y : List Char} (hx : NoDigit x) (hy : NoDigit y) (h : d.repr.toList ++ x = d'.repr.toList ++ y) :
    d = d' ∧ x = y := by
  have bad : ∀ (n : ℕ) (l : List ℕ) (x y : List Char), (reprNat n).toList ++ x ≠ (reprTuple (l.map reprNat)).toList ++ y := by
    intro n l x y e
    obtain ⟨c, t, h1, h2⟩ := nat_head n
    rw [h1] at e
    have : ∃ t, (reprTuple (l.map reprNat)).toList = '(' :: t := by
      rcases l with _ | ⟨a, _ | ⟨b, l⟩⟩
      · exact ⟨_, rfl⟩
      · exact ⟨_, tuple_one _⟩
      · exact ⟨_, tuple_two _ _ _⟩
    obtain ⟨u, hu⟩ := this
    rw [hu] at e
    rw [(List.cons.inj e).1] at h2
    exact absurd h2 (by decide)
  cases d with
  | int n =>
    cases d' with
    | int n' => obtain ⟨h1, h2⟩ := nat_split hx hy h; exact ⟨by rw [h1], h2⟩
    | tuple l' => exact absurd h (bad _ _ _ _)
  | tuple l =>
    cases d' with
    | int n' => exact absurd h.symm (bad _ _ _ _)
    | tuple l' => obtain ⟨h1, h2⟩ := tuple_split readable_nat h; exact ⟨by rw [h1], h2⟩

theorem gks_split {d d' : GroupSize} {x y : List Char} (hx : NoDigit x) (hy : NoDigit y) (h : d.repr.toList ++ x = d'.repr.toList ++ y) :
    d = d' ∧ x = y := by
  have bad : ∀ (n : ℤ) (l : List ℤ) (x y : List Char), (reprInt n).toList ++ x ≠ (reprTuple (l.map reprInt)).toList ++ y := by
    intro n l x y e
    obtain ⟨c, t, h1, h2⟩ := int_head n
    rw [h1] at e
    have : ∃ t, (reprTuple (l.map reprInt)).toList = '(' :: t := by
      rcases l with _ | ⟨a, _ | ⟨b, l⟩⟩
      · exact ⟨_, rfl⟩
      · exact ⟨_, tuple_one _⟩
      · exact ⟨_, tuple_two _ _ _⟩
    obtain ⟨u, hu⟩ := this
    rw [hu] at e
    rw [(List.cons.inj e).1] at h2
    exact absurd h2 (by decide)
  cases d with
  | int n =>
    cases d' with
    | int n' => obtain ⟨h1, h2⟩ := int_split hx hy h; exact ⟨by rw [h1], h2⟩
    | tuple l' => exact absurd h (bad _ _ _ _)
  | tuple l =>
    cases d' with
    | int n' => exact absurd h.symm (bad _ _ _ _)
    | tuple l' => obtain ⟨h1, h2⟩ := tuple_split readable_int h; exact ⟨by rw [h1], h2⟩

/-- a padding the constructor stores. -/
def Stored : PadArg → Prop
  | .str s => s = "same" ∨ s = "valid"
  | .int _ => False
  | .tuple _ => True

theorem pad_split {d d' : PadArg} {x y : List Char} (hd : Stored d) (hd' : Stored d') (h : d.repr.toList ++ x = d'.repr.toList ++ y) :
    d = d' ∧ x = y := by
  have bad : ∀ (s : String) (l : List ℕ) (x y : List Char), s = "same" ∨ s = "valid" → s.toList ++ x ≠ (reprTuple (l.map reprNat)).toList ++ y := by
    intro s l x y hs e
    have : ∃ t, (reprTuple (l.map reprNat)).toList = '(' :: t := by
      rcases l with _ | ⟨a, _ | ⟨b, l⟩⟩
      · exact ⟨_, rfl⟩
      · exact ⟨_, tuple_one _⟩
      · exact ⟨_, tuple_two _ _ _⟩
    obtain ⟨u, hu⟩ := this
    rw [hu] at e
    rcases hs with rfl | rfl
    · exact absurd (List.cons.inj e).1 (by decide)
    · exact absurd (List.cons.inj e).1 (by decide)
  cases d with
  | int n => exact hd.elim
  | str s =>
    cases d' with
    | int n' => exact hd'.elim
    | tuple l' => exact absurd h (bad _ _ _ _ hd)
    | str s' =>
      change s.toList ++ x = s'.toList ++ y at h
      rcases hd with rfl | rfl
      · rcases hd' with rfl | rfl
        · exact ⟨rfl, List.append_cancel_left h⟩
        · exact absurd (List.cons.inj h).1 (by decide)
      · rcases hd' with rfl | rfl
        · exact absurd (List.cons.inj h).1 (by decide)
        · exact ⟨rfl, List.append_cancel_left h⟩
  | tuple l =>
    cases d' with
    | int n' => exact hd'.elim
    | str s' => exact absurd h.symm (bad _ _ _ _ hd')
    | tuple l' => obtain ⟨h1, h2⟩ := tuple_split readable_nat h; exact ⟨by rw [h1], h2⟩

/-- all entries of a padding are zero: it is not shown. -/
def ZeroPad : PadArg → Prop
  | .tuple l => ∀ p ∈ l, p = 0
  | _ => False

/-- all entries of a dilation are one: it is not shown. -/
def UnitDil : Dims → Prop
  | .tuple l => ∀ p ∈ l, p = 1
  | .int _ => False

theorem replicate_iff {l : List ℕ} {n : ℕ} : l = List.replicate l.length n ↔ ∀ p ∈ l, p = n :=
  ⟨fun h => by rw [h]; exact fun p hp => List.eq_of_mem_replicate hp, fun h => List.eq_replicate_of_mem h⟩

open Classical in
theorem paddingPart_ok {p : PadArg} (hp : Stored p) :
    ∃ t, paddingPart p = .ok t ∧ t.toList = if ¬ ZeroPad p then ", padding=".toList ++ p.repr.toList else [] := by
  cases p with
  | int n => exact hp.elim
  | str s =>
    refine ⟨_, rfl, ?_⟩
    have : ¬ ZeroPad (.str s) := fun h => h
    rw [if_pos this, String.toList_append]
  | tuple l =>
    refine ⟨_, rfl, ?_⟩
    by_cases h : ZeroPad (.tuple l)
    · rw [if_neg (not_not.2 (replicate_iff.2 h)), if_neg (not_not.2 h)]
      rfl
    · rw [if_pos (fun e => h (replicate_iff.1 e)), if_pos h, String.toList_append]

open Classical in
theorem dilationPart_ok (l : List ℕ) :
    ∃ t, dilationPart (.tuple l) = .ok t ∧ t.toList = if ¬ UnitDil (.tuple l) then ", dilation=".toList ++ (Dims.tuple l).repr.toList else [] := by
  refine ⟨_, rfl, ?_⟩
  by_cases h : UnitDil (.tuple l)
  · rw [if_neg (not_not.2 (replicate_iff.2 h)), if_neg (not_not.2 h)]
    rfl
  · rw [if_pos (fun e => h (replicate_iff.1 e)), if_pos h, String.toList_append]

open Classical in
/-- the parts of the text. -/
theorem extraRepr_ok (L : Layer) (g : GroupSize) (b : Bool) (hp : Stored L.padding) (dil : List ℕ) (hd : L.dilation = .tuple dil) :
    ∃ s P D G B M, L.extraRepr g b = .ok s ∧
      s.toList = (reprNat L.inC).toList ++ (", ".toList ++ ((reprNat L.outC).toList ++ (", kernel_size=".toList ++
        ((Dims.tuple L.kernelSize).repr.toList ++ (", group_kernel_size=".toList ++ (g.repr.toList ++ (", stride=".toList ++
          (L.stride.repr.toList ++ (P ++ (D ++ (G ++ (B ++ M)))))))))))) ∧
      (P = if ¬ ZeroPad L.padding then ", padding=".toList ++ L.padding.repr.toList else []) ∧
      (D = if ¬ UnitDil L.dilation then ", dilation=".toList ++ L.dilation.repr.toList else []) ∧
      (G = if L.groups ≠ 1 then ", groups=".toList ++ (reprNat L.groups).toList else []) ∧
      (B = if b = false then ", bias=False".toList ++ [] else []) ∧
      (M = if L.paddingMode ≠ "zeros" then ", padding_mode=".toList ++ L.paddingMode.toList else []) := by
  obtain ⟨tp, p1, p2⟩ := paddingPart_ok hp
  obtain ⟨td, d1, d2⟩ := dilationPart_ok dil
  have e1 : (if L.groups ≠ 1 then ", groups=" ++ reprNat L.groups else "").toList =
      if L.groups ≠ 1 then ", groups=".toList ++ (reprNat L.groups).toList else [] := by
    split
    · rw [String.toList_append]
    · rfl
  have e2 : (if b then "" else ", bias=False").toList = if b = false then ", bias=False".toList ++ [] else [] := by
    cases b
    · rfl
    · rfl
  have e3 : (if L.paddingMode ≠ "zeros" then ", padding_mode=" ++ L.paddingMode else "").toList =
      if L.paddingMode ≠ "zeros" then ", padding_mode=".toList ++ L.paddingMode.toList else [] := by
    split
    · rw [String.toList_append]
    · rfl
  have e : L.extraRepr g b = .ok (reprNat L.inC ++ ", " ++ reprNat L.outC ++ ", kernel_size=" ++ (Dims.tuple L.kernelSize).repr ++
      ", group_kernel_size=" ++ g.repr ++ ", stride=" ++ L.stride.repr ++ tp ++ td ++
      (if L.groups ≠ 1 then ", groups=" ++ reprNat L.groups else "") ++ (if b then "" else ", bias=False") ++
      (if L.paddingMode ≠ "zeros" then ", padding_mode=" ++ L.paddingMode else "")) := by
    unfold Layer.extraRepr
    dsimp only
    rw [p1, ok_bind, hd, d1, ok_bind]
    rfl
  rw [← hd] at d2
  refine ⟨_, _, _, _, _, _, e, ?_, p2, d2, e1, e2, e3⟩
  simp only [String.toList_append, List.append_assoc]

theorem lit_noDigit (t : List Char) (s : String) (h : s.toList.head? = some ',') : NoDigit (s.toList ++ t) := by
  cases hs : s.toList with
  | nil => rw [hs] at h; cases h
  | cons c u =>
    rw [hs] at h
    cases h
    exact noDigit_cons (by decide)

/-- options form a sequence of options. -/
theorem Options.cons {k : String} {ks : List (List Char)} {P body R : List Char} {shown : Prop} [Decidable shown]
    (hP : P = if shown then k.toList ++ body else [])
    (hR : Options ks R) : Options (k.toList :: ks) (P ++ R) := by
  by_cases h : shown
  · rw [hP, if_pos h, List.append_assoc]
    exact hR.take body
  · rw [hP, if_neg h, List.nil_append]
    exact hR.skip

open Classical in
/-- Two layers with the same text. -/
theorem extraRepr_inj (L L' : Layer) (g g' : GroupSize) (b b' : Bool) (hp : Stored L.padding) (hp' : Stored L'.padding)
    (dil dil' : List ℕ) (hd : L.dilation = .tuple dil) (hd' : L'.dilation = .tuple dil') (s : String)
    (h : L.extraRepr g b = .ok s) (h' : L'.extraRepr g' b' = .ok s) :
    L.inC = L'.inC ∧ L.outC = L'.outC ∧ L.kernelSize = L'.kernelSize ∧ g = g' ∧ L.stride = L'.stride ∧ L.groups = L'.groups ∧
      b = b' ∧ L.paddingMode = L'.paddingMode ∧ (L.padding = L'.padding ∨ ZeroPad L.padding ∧ ZeroPad L'.padding) ∧
      (L.dilation = L'.dilation ∨ UnitDil L.dilation ∧ UnitDil L'.dilation) := by
  obtain ⟨t, P, D, G, B, M, e, et, eP, eD, eG, eB, eM⟩ := extraRepr_ok L g b hp dil hd
  obtain ⟨t', P', D', G', B', M', e', et', eP', eD', eG', eB', eM'⟩ := extraRepr_ok L' g' b' hp' dil' hd'
  rw [h] at e
  rw [h'] at e'
  cases e
  cases e'
  rw [et] at et'
  -- sequences of options
  have oM : Options [", padding_mode=".toList] M := by
    have := Options.cons eM Options.nil
    rwa [List.append_nil] at this
  have oM' : Options [", padding_mode=".toList] M' := by
    have := Options.cons eM' Options.nil
    rwa [List.append_nil] at this
  have oB := Options.cons eB oM
  have oB' := Options.cons eB' oM'
  have oG := Options.cons eG oB
  have oG' := Options.cons eG' oB'
  have oD := Options.cons eD oG
  have oD' := Options.cons eD' oG'
  have oP := Options.cons eP oD
  have oP' := Options.cons eP' oD'
  have nP := oP.noDigit (by decide)
  have nP' := oP'.noDigit (by decide)
  have nD := oD.noDigit (by decide)
  have nD' := oD'.noDigit (by decide)
  have nG := oG.noDigit (by decide)
  have nG' := oG'.noDigit (by decide)
  have nB := oB.noDigit (by decide)
  have nB' := oB'.noDigit (by decide)
  -- the fixed part
  obtain ⟨r1, et'⟩ := nat_split (lit_noDigit _ _ rfl) (lit_noDigit _ _ rfl) et'
  obtain ⟨r2, et'⟩ := nat_split (lit_noDigit _ _ rfl) (lit_noDigit _ _ rfl) (List.append_cancel_left et')
  obtain ⟨r3, et'⟩ := dims_split (lit_noDigit _ _ rfl) (lit_noDigit _ _ rfl) (List.append_cancel_left et')
  obtain ⟨r4, et'⟩ := gks_split (lit_noDigit _ _ rfl) (lit_noDigit _ _ rfl) (List.append_cancel_left et')
  obtain ⟨r5, et'⟩ := dims_split nP nP' (List.append_cancel_left et')
  -- the options
  have q1 : (L.padding = L'.padding ∨ ZeroPad L.padding ∧ ZeroPad L'.padding) ∧ D ++ (G ++ (B ++ M)) = D' ++ (G' ++ (B' ++ M')) := by
    rcases option_split eP eP' (oD.not_prefix (by decide) (by unfold Apart; decide)) (oD'.not_prefix (by decide) (by unfold Apart; decide)) et' with
      ⟨-, -, h⟩ | ⟨a1, a2, h⟩
    · obtain ⟨i1, i2⟩ := pad_split hp hp' h
      exact ⟨Or.inl i1, i2⟩
    · exact ⟨Or.inr ⟨not_not.1 a1, not_not.1 a2⟩, h⟩
  obtain ⟨q1, et'⟩ := q1
  have q2 : (L.dilation = L'.dilation ∨ UnitDil L.dilation ∧ UnitDil L'.dilation) ∧ G ++ (B ++ M) = G' ++ (B' ++ M') := by
    rcases option_split eD eD' (oG.not_prefix (by decide) (by unfold Apart; decide)) (oG'.not_prefix (by decide) (by unfold Apart; decide)) et' with
      ⟨-, -, h⟩ | ⟨a1, a2, h⟩
    · obtain ⟨i1, i2⟩ := dims_split nG nG' h
      exact ⟨Or.inl i1, i2⟩
    · exact ⟨Or.inr ⟨not_not.1 a1, not_not.1 a2⟩, h⟩
  obtain ⟨q2, et'⟩ := q2
  have q3 : L.groups = L'.groups ∧ B ++ M = B' ++ M' := by
    rcases option_split eG eG' (oB.not_prefix (by decide) (by unfold Apart; decide)) (oB'.not_prefix (by decide) (by unfold Apart; decide)) et' with
      ⟨-, -, h⟩ | ⟨a1, a2, h⟩
    · exact nat_split nB nB' h
    · exact ⟨by rw [not_not.1 a1, not_not.1 a2], h⟩
  obtain ⟨q3, et'⟩ := q3
  have q4 : b = b' ∧ M = M' := by
    rcases option_split eB eB' (oM.not_prefix (by decide) (by unfold Apart; decide)) (oM'.not_prefix (by decide) (by unfold Apart; decide)) et' with
      ⟨a1, a2, h⟩ | ⟨a1, a2, h⟩
    · exact ⟨by rw [a1, a2], h⟩
    · refine ⟨?_, h⟩
      rw [Bool.not_eq_false] at a1 a2
      rw [a1, a2]
  obtain ⟨q4, et'⟩ := q4
  have q5 : L.paddingMode = L'.paddingMode := by
    have hn : ¬ ", padding_mode=".toList <+: [] := by decide
    rcases option_split eM eM' hn hn (by rw [et']) with ⟨-, -, h⟩ | ⟨a1, a2, -⟩
    · rw [List.append_nil, List.append_nil] at h
      exact String.toList_inj.1 h
    · rw [not_not.1 a1, not_not.1 a2]
  exact ⟨r1, r2, Dims.tuple.inj r3, r4, r5, q3, q4, q5, q1, q2⟩


/-! ## C98 -/

theorem init_stored (a : Args) (st dil ks : List ℕ) (hst : a.stride = .tuple st) (hdil : a.dilation = .tuple dil) (L : Layer)
    (h : init a ks = .ok L) :
    Stored L.padding ∧ ∃ nd, (a.convMode = "2d" ∧ nd = 2 ∨ a.convMode = "3d" ∧ nd = 3) ∧ L.padding = storedPadding nd a.padding := by
  have ha := (C58_accepts a st dil ks hst hdil).1 ⟨L, h⟩
  obtain ⟨nd, rev, hnd, -, e⟩ := init_accepted a st dil ks hst hdil ha
  rw [e] at h
  cases h
  refine ⟨?_, nd, hnd, rfl⟩
  show Stored (storedPadding nd a.padding)
  cases hp : a.padding with
  | int p => trivial
  | tuple l => trivial
  | str s =>
    rcases ha.2.2.2.2.1 s hp with e | ⟨e, -⟩
    · exact Or.inr e
    · exact Or.inl e

/-- Every layer a constructor accepts with tuples for stride and dilation (as the public 2d and 3d classes pass them) can
be printed. -/
theorem C98_prints (a : Args) (st dil ks : List ℕ) (hst : a.stride = .tuple st) (hdil : a.dilation = .tuple dil) (L : Layer)
    (h : init a ks = .ok L) (bias : Bool) : ∃ s, L.extraRepr a.groupKernelSize bias = .ok s := by
  obtain ⟨hp, -⟩ := init_stored a st dil ks hst hdil L h
  obtain ⟨-, -, -, -, -, hd, -⟩ := C58_layer a st dil ks hst hdil L h
  obtain ⟨s, P, D, G, B, M, e, -⟩ := extraRepr_ok L a.groupKernelSize bias hp dil (hd.trans hdil)
  exact ⟨s, e⟩

/-- Two layers with the same printed description have the same configuration: channels, kernel sizes, groups, stride,
padding mode, presence of a bias; the same padding unless both are all zeros and the same dilation unless both are all
ones. -/
theorem C98_determines (a a' : Args) (st dil ks st' dil' ks' : List ℕ) (hst : a.stride = .tuple st) (hdil : a.dilation = .tuple dil)
    (hst' : a'.stride = .tuple st') (hdil' : a'.dilation = .tuple dil') (L L' : Layer) (h : init a ks = .ok L) (h' : init a' ks' = .ok L')
    (bias bias' : Bool) (s : String) (e : L.extraRepr a.groupKernelSize bias = .ok s) (e' : L'.extraRepr a'.groupKernelSize bias' = .ok s) :
    a.inC = a'.inC ∧ a.outC = a'.outC ∧ a.kernelSize = a'.kernelSize ∧ a.groupKernelSize = a'.groupKernelSize ∧ st = st' ∧
      a.groups = a'.groups ∧ bias = bias' ∧ a.paddingMode = a'.paddingMode ∧
      (L.padding = L'.padding ∨ (∃ l l', L.padding = .tuple l ∧ L'.padding = .tuple l' ∧ (∀ p ∈ l, p = 0) ∧ ∀ p ∈ l', p = 0)) ∧
      (dil = dil' ∨ (∀ p ∈ dil, p = 1) ∧ ∀ p ∈ dil', p = 1) := by
  obtain ⟨hp, -⟩ := init_stored a st dil ks hst hdil L h
  obtain ⟨hp', -⟩ := init_stored a' st' dil' ks' hst' hdil' L' h'
  obtain ⟨f1, f2, f3, f4, f5, f6, f7, -⟩ := C58_layer a st dil ks hst hdil L h
  obtain ⟨f1', f2', f3', f4', f5', f6', f7', -⟩ := C58_layer a' st' dil' ks' hst' hdil' L' h'
  obtain ⟨r1, r2, r3, r4, r5, r6, r7, r8, r9, r10⟩ := extraRepr_inj L L' _ _ bias bias' hp hp' dil dil' (f6.trans hdil) (f6'.trans hdil') s e e'
  refine ⟨by rw [← f1, ← f1', r1], by rw [← f2, ← f2', r2], by rw [← f4, ← f4', r3], r4, ?_, by rw [← f3, ← f3', r6], r7,
    by rw [← f7, ← f7', r8], ?_, ?_⟩
  · rw [f5, f5', hst, hst'] at r5
    exact Dims.tuple.inj r5
  · rcases r9 with h | ⟨h1, h2⟩
    · exact Or.inl h
    · right
      cases hl : L.padding with
      | int p => rw [hl] at h1; exact h1.elim
      | str p => rw [hl] at h1; exact h1.elim
      | tuple l =>
        cases hl' : L'.padding with
        | int p => rw [hl'] at h2; exact h2.elim
        | str p => rw [hl'] at h2; exact h2.elim
        | tuple l' =>
          rw [hl] at h1
          rw [hl'] at h2
          exact ⟨l, l', rfl, rfl, h1, h2⟩
  · rw [f6, f6', hdil, hdil'] at r10
    rcases r10 with h | ⟨h1, h2⟩
    · exact Or.inl (Dims.tuple.inj h)
    · exact Or.inr ⟨h1, h2⟩

/-- what a `padding` argument stands for: a string, or the amounts along the `nd` axes. -/
def padMeaning (nd : ℕ) : PadArg → String ⊕ List ℕ
  | .str s => .inl s
  | .int p => .inr (List.replicate nd p)
  | .tuple l => .inr l

/-- The public 2d and 3d classes: two constructor calls whose layers are printed alike have the same arguments, the same
dimension and paddings that stand for the same amounts. -/
theorem C98_public (cm cm' : String) (nd nd' : ℕ) (hcm : cm = "2d" ∧ nd = 2 ∨ cm = "3d" ∧ nd = 3) (hcm' : cm' = "2d" ∧ nd' = 2 ∨ cm' = "3d" ∧ nd' = 3)
    (inC outC k inC' outC' k' : ℕ) (gks gks' : GroupSize) (groups groups' : ℤ) (stride stride' : ℕ) (padding padding' : PadArg)
    (dilation dilation' : ℕ) (mode mode' : String) (ks ks' : List ℕ) (L L' : Layer)
    (h : init (argsNd cm nd inC outC k gks groups stride padding dilation mode) ks = .ok L)
    (h' : init (argsNd cm' nd' inC' outC' k' gks' groups' stride' padding' dilation' mode') ks' = .ok L')
    (bias bias' : Bool) (s : String) (e : L.extraRepr gks bias = .ok s) (e' : L'.extraRepr gks' bias' = .ok s) :
    nd = nd' ∧ inC = inC' ∧ outC = outC' ∧ k = k' ∧ gks = gks' ∧ groups = groups' ∧ stride = stride' ∧ dilation = dilation' ∧
      mode = mode' ∧ bias = bias' ∧
      (padMeaning nd padding = padMeaning nd' padding' ∨
        (∃ l l', padMeaning nd padding = .inr l ∧ padMeaning nd' padding' = .inr l' ∧ (∀ p ∈ l, p = 0) ∧ ∀ p ∈ l', p = 0)) := by
  have stored : ∀ {cm nd inC outC k gks groups stride padding dilation mode ks} {L : Layer}, (cm = "2d" ∧ nd = 2 ∨ cm = "3d" ∧ nd = 3) →
      init (argsNd cm nd inC outC k gks groups stride padding dilation mode) ks = .ok L → L.padding = storedPadding nd padding := by
    intro cm nd inC outC k gks groups stride padding dilation mode ks L hcm h
    obtain ⟨-, m, hm, e⟩ := init_stored _ (List.replicate nd stride) (List.replicate nd dilation) ks rfl rfl L h
    change cm = "2d" ∧ m = 2 ∨ cm = "3d" ∧ m = 3 at hm
    have : m = nd := by
      rcases hm with ⟨a1, a2⟩ | ⟨a1, a2⟩ <;> rcases hcm with ⟨b1, b2⟩ | ⟨b1, b2⟩
      · rw [a2, b2]
      · exact absurd (a1.symm.trans b1) (by decide)
      · exact absurd (a1.symm.trans b1) (by decide)
      · rw [a2, b2]
    rw [e, this]
    rfl
  have pad := stored hcm h
  have pad' := stored hcm' h'
  obtain ⟨r1, r2, r3, r4, r5, r6, r7, r8, r9, r10⟩ := C98_determines _ _ (List.replicate nd stride) (List.replicate nd dilation) ks
    (List.replicate nd' stride') (List.replicate nd' dilation') ks' rfl rfl rfl rfl L L' h h' bias bias' s e e'
  change List.replicate nd k = List.replicate nd' k' at r3
  have hpos : 0 < nd := by rcases hcm with ⟨-, h⟩ | ⟨-, h⟩ <;> omega
  have hnd : nd = nd' := by simpa using congrArg List.length r3
  subst hnd
  have mem : ∀ x y : ℕ, List.replicate nd x = List.replicate nd y → x = y := by
    intro x y hxy
    have : x ∈ List.replicate nd y := by rw [← hxy]; exact List.mem_replicate.2 ⟨by omega, rfl⟩
    exact List.eq_of_mem_replicate this
  refine ⟨rfl, r1, r2, mem _ _ r3, r4, r6, mem _ _ r5, ?_, r8, r7, ?_⟩
  · rcases r10 with h | ⟨h1, h2⟩
    · exact mem _ _ h
    · rw [h1 dilation (List.mem_replicate.2 ⟨by omega, rfl⟩), h2 dilation' (List.mem_replicate.2 ⟨by omega, rfl⟩)]
  · have meaning : ∀ p, padMeaning nd p = padMeaning nd (storedPadding nd p) := fun p => by cases p <;> rfl
    rw [meaning padding, meaning padding', ← pad, ← pad']
    rcases r9 with h | ⟨l, l', h1, h2, h3, h4⟩
    · exact Or.inl (by rw [h])
    · exact Or.inr ⟨l, l', by rw [h1]; rfl, by rw [h2]; rfl, h3, h4⟩

/-- The base classes take an integer `dilation` (it is their default): such a layer can be built and used but printing it
raises TypeError. -/
theorem C98_integer_dilation (L : Layer) (g : GroupSize) (bias : Bool) (n : ℕ) (hd : L.dilation = .int n) (hp : Stored L.padding) :
    L.extraRepr g bias = .error .typeError := by
  obtain ⟨t, p1, -⟩ := paddingPart_ok hp
  unfold Layer.extraRepr
  dsimp only
  rw [p1, ok_bind, hd]
  rfl

/-- two layers and their descriptions. -/
example : ∃ L, init (args2d 3 8 5 (.int 4) 1 1 (.str "same") 1 "zeros") [5, 5] = .ok L ∧
    L.extraRepr (.int 4) false =
      .ok "3, 8, kernel_size=(5, 5), group_kernel_size=4, stride=(1, 1), padding=same, bias=False" := ⟨_, rfl, by decide⟩

set_option maxRecDepth 10000 in
example : ∃ L, init (args3d 4 6 3 (.tuple [1, 12]) 2 2 (.int 1) 3 "circular") [3, 3, 3] = .ok L ∧
    L.extraRepr (.tuple [1, 12]) true =
      .ok "4, 6, kernel_size=(3, 3, 3), group_kernel_size=(1, 12), stride=(2, 2, 2), padding=(1, 1, 1), dilation=(3, 3, 3), groups=2, padding_mode=circular" :=
  ⟨_, rfl, by decide⟩

/-- `GConvNd(3, 8, (5, 5), 4, kernel, conv_mode="2d")` with the default dilation. -/
example : ∃ L, init { inC := 3, outC := 8, kernelSize := [5, 5], groupKernelSize := .int 4, convMode := "2d" } [5, 5] = .ok L ∧
    L.extraRepr (.int 4) false = .error .typeError := ⟨_, rfl, rfl⟩

end GConv.Conv

namespace GConv.GroupKernel

/-- The description of a kernel shows whether it has a mask. -/
theorem C98_mask {G G' : Type} {d d' : ℕ} (K : GroupKernel G d) (K' : GroupKernel G' d') (kwH kwRn kwH' kwRn' : Option String)
    (h : K.extraRepr kwH kwRn = K'.extraRepr kwH' kwRn') : (∃ m, K.mask = some m) ↔ ∃ m, K'.mask = some m := by
  have key : ∀ (b b' : Bool) (x y x' y' : String),
      "mask=" ++ (if b then "True" else "False") ++ x ++ y = "mask=" ++ (if b' then "True" else "False") ++ x' ++ y' → b = b' := by
    intro b b' x y x' y' e
    have e := congrArg String.toList e
    simp only [String.toList_append, List.append_assoc] at e
    have e := List.append_cancel_left e
    cases b <;> cases b'
    · rfl
    · exact absurd (List.cons.inj e).1 (by decide)
    · exact absurd (List.cons.inj e).1 (by decide)
    · rfl
  have e := key _ _ _ _ _ _ h
  rw [← Option.isSome_iff_exists, ← Option.isSome_iff_exists, e]

end GConv.GroupKernel

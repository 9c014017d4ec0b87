import Verif.Torch.Strided
import Verif.Lemmas.Tensor

/-! Which views of a strided tensor torch permits: exactly those that some strides can describe. -/
namespace GConv.Strided

open Tensor

/-- position of an index when the first axis runs fastest. -/
def ravR : List ℕ → List ℕ → ℕ
  | v :: vs, i :: is => i + v * ravR vs is
  | _, _ => 0

abbrev sizes (l : List (ℕ × ℕ)) : List ℕ := l.map Prod.fst

theorem ravR_append {A a : List ℕ} (s x : List ℕ) (h : a.length = A.length) :
    ravR (A ++ s) (a ++ x) = ravR A a + A.prod * ravR s x := by
  induction A generalizing a with
  | nil =>
    obtain rfl : a = [] := List.length_eq_zero_iff.1 h
    simp [ravR]
  | cons v A ih =>
    obtain ⟨i, a, rfl⟩ : ∃ i t, a = i :: t := by
      cases a with
      | nil => simp at h
      | cons i t => exact ⟨i, t, rfl⟩
    simp only [List.cons_append, ravR, List.prod_cons]
    rw [ih (by simpa using h)]
    ring

theorem off_append {A : List (ℕ × ℕ)} {a : List ℕ} (s : List (ℕ × ℕ)) (x : List ℕ) (h : a.length = A.length) :
    off (A ++ s) (a ++ x) = off A a + off s x := by
  induction A generalizing a with
  | nil =>
    obtain rfl : a = [] := List.length_eq_zero_iff.1 h
    simp [off]
  | cons v A ih =>
    obtain ⟨i, a, rfl⟩ : ∃ i t, a = i :: t := by
      cases a with
      | nil => simp at h
      | cons i t => exact ⟨i, t, rfl⟩
    simp only [List.cons_append, off]
    rw [ih (by simpa using h)]
    ring

theorem ravR_lt {s i : List ℕ} (h : InB s i) : ravR s i < s.prod := by
  induction h with
  | nil => simp [ravR]
  | @cons i v is vs h1 h2 ih =>
    simp only [ravR, List.prod_cons]
    calc i + v * ravR vs is < v + v * ravR vs is := by omega
      _ = v * (ravR vs is + 1) := by ring
      _ ≤ v * vs.prod := Nat.mul_le_mul_left _ ih

theorem ravel_reverse {s i : List ℕ} (h : i.length = s.length) : ravel s i = ravR s.reverse i.reverse := by
  induction s generalizing i with
  | nil =>
    obtain rfl : i = [] := List.length_eq_zero_iff.1 h
    rfl
  | cons v s ih =>
    obtain ⟨k, i, rfl⟩ : ∃ k t, i = k :: t := by
      cases i with
      | nil => simp at h
      | cons k t => exact ⟨k, t, rfl⟩
    have hl : i.length = s.length := by simpa using h
    rw [List.reverse_cons, List.reverse_cons, ravR_append _ _ (by simp [hl]), ← ih hl, ravel, List.prod_reverse]
    simp only [ravR]
    ring

theorem off_reverse {a : List (ℕ × ℕ)} {i : List ℕ} (h : i.length = a.length) : off a i = off a.reverse i.reverse := by
  induction a generalizing i with
  | nil =>
    obtain rfl : i = [] := List.length_eq_zero_iff.1 h
    rfl
  | cons v s ih =>
    obtain ⟨k, i, rfl⟩ : ∃ k t, i = k :: t := by
      cases i with
      | nil => simp at h
      | cons k t => exact ⟨k, t, rfl⟩
    have hl : i.length = s.length := by simpa using h
    rw [List.reverse_cons, List.reverse_cons, off_append _ _ (by simp [hl]), ← ih hl]
    simp only [off]
    ring

theorem InB_reverse {s i : List ℕ} (h : InB s i) : InB s.reverse i.reverse := List.rel_reverse h

theorem exists_ravR {s : List ℕ} {n : ℕ} (h : n < s.prod) : ∃ i, InB s i ∧ ravR s i = n := by
  have h' : n < s.reverse.prod := by rwa [List.prod_reverse]
  refine ⟨(unravel s.reverse n).reverse, ?_, ?_⟩
  · simpa using InB_reverse (unravel_InB h')
  · have := ravel_unravel h'
    rw [ravel_reverse (unravel_InB h').length] at this
    simpa using this

theorem zero_InB {s : List ℕ} (h : 0 < s.prod) : InB s (List.replicate s.length 0) := by
  induction s with
  | nil => exact InB_nil_nil
  | cons v s ih =>
    rw [List.prod_cons] at h
    exact InB_cons.2 ⟨Nat.pos_of_mul_pos_right h |> fun _ => Nat.pos_of_ne_zero (by rintro rfl; simp at h),
      ih (Nat.pos_of_ne_zero (by intro h0; rw [h0] at h; simp at h))⟩

theorem ravR_zero (s : List ℕ) (n : ℕ) : ravR s (List.replicate n 0) = 0 := by
  induction s generalizing n with
  | nil => cases n <;> rfl
  | cons v s ih => cases n with
    | zero => rfl
    | succ n => simp only [List.replicate_succ, ravR, ih]; ring

theorem off_zero (s : List (ℕ × ℕ)) (n : ℕ) : off s (List.replicate n 0) = 0 := by
  induction s generalizing n with
  | nil => cases n <;> rfl
  | cons v s ih => cases n with
    | zero => rfl
    | succ n => simp only [List.replicate_succ, off, ih]; ring

/-- two windows onto one storage show the same entries in the same order. -/
def Compat (a b : List (ℕ × ℕ)) : Prop :=
  ∀ i j, InB (sizes a) i → InB (sizes b) j → ravR (sizes a) i = ravR (sizes b) j → off a i = off b j

/-- a chunk: consecutive entries at distance `base`. -/
def Even (base : ℕ) (a : List (ℕ × ℕ)) : Prop := ∀ i, InB (sizes a) i → off a i = base * ravR (sizes a) i

theorem sizes_append (a b : List (ℕ × ℕ)) : sizes (a ++ b) = sizes a ++ sizes b := List.map_append

theorem sizes_zip {vs ss : List ℕ} (h : ss.length = vs.length) : sizes (vs.zip ss) = vs :=
  List.map_fst_zip (by omega)

theorem Even.snoc {base : ℕ} {acc : List (ℕ × ℕ)} {a : ℕ × ℕ} (h : Even base acc)
    (ha : a.1 = 1 ∨ a.2 = (sizes acc).prod * base) : Even base (acc ++ [a]) := by
  intro i hi
  rw [sizes_append] at hi
  obtain ⟨i1, i2, rfl, h1, h2⟩ := InB_append_left hi
  obtain ⟨k, t, rfl, hk, ht⟩ := InB_cons_left h2
  cases InB_nil_left ht
  have hl : i1.length = (sizes acc).length := h1.length
  rw [off_append _ _ (by rw [hl]; simp), sizes_append, ravR_append _ _ hl, h i1 h1]
  simp only [off, sizes, List.map_cons, List.map_nil, ravR]
  rcases ha with ha | ha
  · have : k = 0 := by
      have : k < a.1 := hk
      omega
    rw [this]; ring
  · rw [ha]; ring

theorem eat_spec {base tn : ℕ} (vn : ℕ) (vs : List ℕ) :
    ∃ pre, vs = pre ++ (eat base tn vn vs).2.2 ∧ (eat base tn vn vs).1.length = pre.length ∧
      (eat base tn vn vs).2.1 = vn * pre.prod ∧
      (∀ i, InB pre i → off (pre.zip (eat base tn vn vs).1) i = vn * base * ravR pre i) ∧
      ((eat base tn vn vs).2.2 = [] ∨ tn ≤ (eat base tn vn vs).2.1 ∧ (eat base tn vn vs).2.2.headD 1 ≠ 1) := by
  induction vs generalizing vn with
  | nil =>
    refine ⟨[], rfl, rfl, by simp [eat], ?_, Or.inl rfl⟩
    intro i hi
    cases InB_nil_left hi
    simp [off, ravR]
  | cons v vs ih =>
    by_cases hc : vn < tn ∨ v = 1
    · have he : eat base tn vn (v :: vs) =
          (vn * base :: (eat base tn (vn * v) vs).1, (eat base tn (vn * v) vs).2) := if_pos hc
      obtain ⟨pre, h1, h2, h3, h4, h5⟩ := ih (vn * v)
      rw [he]
      refine ⟨v :: pre, ?_, ?_, ?_, ?_, h5⟩
      · show v :: vs = v :: (pre ++ _)
        exact congrArg (v :: ·) h1
      · simp [h2]
      · dsimp only; rw [h3, List.prod_cons]; ring
      · intro i hi
        obtain ⟨k, t, rfl, hk, ht⟩ := InB_cons_left hi
        simp only [List.zip_cons_cons, off, ravR]
        rw [h4 t ht]; ring
    · have he : eat base tn vn (v :: vs) = ([], vn, v :: vs) := if_neg hc
      rw [he]
      push Not at hc
      refine ⟨[], rfl, rfl, by simp, ?_, Or.inr ⟨hc.1, hc.2⟩⟩
      intro i hi
      cases InB_nil_left hi
      simp [off, ravR]

theorem eat_over {base tn : ℕ} (vn : ℕ) (vs : List ℕ) (hvn : vn ≤ tn) (h : tn < (eat base tn vn vs).2.1) :
    ∃ p v q, vs = p ++ v :: q ∧ vn * p.prod < tn ∧ tn < vn * p.prod * v := by
  induction vs generalizing vn with
  | nil => exact absurd h (by show ¬ tn < vn; omega)
  | cons v vs ih =>
    by_cases hc : vn < tn ∨ v = 1
    · have he : (eat base tn vn (v :: vs)).2.1 = (eat base tn (vn * v) vs).2.1 := by
        unfold eat
        rw [if_pos hc]
        cases vs <;> rfl
      rw [he] at h
      by_cases h2 : vn * v ≤ tn
      · obtain ⟨p, w, q, e, g1, g2⟩ := ih (vn * v) h2 h
        exact ⟨v :: p, w, q, by rw [e]; rfl, by rw [List.prod_cons, ← mul_assoc]; exact g1,
          by rw [List.prod_cons, ← mul_assoc]; exact g2⟩
      · refine ⟨[], v, vs, rfl, ?_, ?_⟩
        · simp only [List.prod_nil, mul_one]
          rcases hc with hc | hc
          · exact hc
          · rw [hc] at h2; omega
        · simp only [List.prod_nil, mul_one]; omega
    · have he : (eat base tn vn (v :: vs)).2.1 = vn := by
        have : eat base tn vn (v :: vs) = ([], vn, v :: vs) := if_neg hc
        rw [this]
      rw [he] at h; omega

/-- windows joined at a common boundary. -/
theorem Compat.append {a a' b b' : List (ℕ × ℕ)} (hp : (sizes a).prod = (sizes b).prod) (h1 : Compat a b) (h2 : Compat a' b') :
    Compat (a ++ a') (b ++ b') := by
  intro i j hi hj e
  rw [sizes_append] at hi hj e
  rw [sizes_append] at e
  obtain ⟨i1, i2, rfl, i3, i4⟩ := InB_append_left hi
  obtain ⟨j1, j2, rfl, j3, j4⟩ := InB_append_left hj
  rw [ravR_append _ _ i3.length, ravR_append _ _ j3.length, hp] at e
  have hi := ravR_lt i3
  have hj := ravR_lt j3
  rw [hp] at hi
  have e1 : ravR (sizes a) i1 = ravR (sizes b) j1 := by
    have := congrArg (· % (sizes b).prod) e
    simpa only [Nat.add_mul_mod_self_left, Nat.mod_eq_of_lt hi, Nat.mod_eq_of_lt hj] using this
  have e2 : ravR (sizes a') i2 = ravR (sizes b') j2 := by
    rw [e1] at e
    exact Nat.eq_of_mul_eq_mul_left (by omega) (Nat.add_left_cancel e)
  rw [off_append _ _ (by rw [i3.length]; simp), off_append _ _ (by rw [j3.length]; simp), h1 _ _ i3 j3 e1, h2 _ _ i4 j4 e2]

theorem chunks_sound (old : List (ℕ × ℕ)) : ∀ (tn base : ℕ) (vs st : List ℕ) (acc : List (ℕ × ℕ)), (sizes acc).prod = tn →
    Even base acc → ((old.headD (1, 1)).1 = 1 ∨ (old.headD (1, 1)).2 = tn * base) → chunks tn base old vs = some st →
    st.length = vs.length ∧ Compat (acc ++ old) (vs.zip st) := by
  induction old with
  | nil => intro tn base vs st acc _ _ _ h; cases h
  | cons a as ih =>
    intro tn base vs st acc hp he ha h
    have hA : Even base (acc ++ [a]) := he.snoc (by rw [hp]; exact ha)
    have hAp : (sizes (acc ++ [a])).prod = tn * a.1 := by simp [sizes, ← hp]
    obtain ⟨pre, e1, e2, e3, e4, e5⟩ := eat_spec (base := base) (tn := tn * a.1) 1 vs
    have hzip : sizes (pre.zip (eat base (tn * a.1) 1 vs).1) = pre := sizes_zip e2
    have hpc : pre.prod = tn * a.1 → Compat (acc ++ [a]) (pre.zip (eat base (tn * a.1) 1 vs).1) := by
      intro _ i j hi hj e
      rw [hzip] at hj e
      rw [hA i hi, e4 j hj, e, one_mul]
    cases as with
    | nil =>
      unfold chunks at h
      dsimp only at h
      split at h
      · rename_i hc
        cases h
        rw [hc.2, List.append_nil] at e1
        have hl : (eat base (tn * a.1) 1 vs).1.length = vs.length := by rw [e2, ← e1]
        refine ⟨hl, ?_⟩
        have := hpc (by rw [← hc.1, e3, one_mul])
        rwa [← e1] at this
      · cases h
    | cons b as =>
      unfold chunks at h
      split at h
      · dsimp only at h
        split at h
        · rename_i hb hc
          obtain ⟨st', hs, rfl⟩ := Option.map_eq_some_iff.1 h
          have hpp : pre.prod = tn * a.1 := by rw [← hc, e3, one_mul]
          obtain ⟨r1, r2⟩ := ih 1 b.2 _ st' [] rfl (by intro i hi; cases InB_nil_left hi; simp [off, ravR])
            (Or.inr (by simp)) hs
          rw [List.nil_append] at r2
          have hvs : vs.zip ((eat base (tn * a.1) 1 vs).1 ++ st') =
              pre.zip (eat base (tn * a.1) 1 vs).1 ++ (eat base (tn * a.1) 1 vs).2.2.zip st' := by
            generalize (eat base (tn * a.1) 1 vs).1 = ss at e2 ⊢
            conv_lhs => rw [e1]
            exact List.zip_append e2.symm
          refine ⟨?_, ?_⟩
          · conv_rhs => rw [e1]
            rw [List.length_append, List.length_append, e2, r1]
          · rw [hvs, show acc ++ a :: b :: as = (acc ++ [a]) ++ b :: as by simp]
            exact Compat.append (by rw [hzip, hpp, hAp]) (hpc hpp) r2
        · cases h
      · rename_i hb
        push Not at hb
        have := ih (tn * a.1) base vs st (acc ++ [a]) hAp hA (by
          show b.1 = 1 ∨ b.2 = _
          by_cases h1 : b.1 = 1
          · exact Or.inl h1
          · exact Or.inr (hb h1)) h
        rwa [List.append_assoc] at this

theorem chunks_complete (old : List (ℕ × ℕ)) (hne : old ≠ []) : ∀ (tn base : ℕ) (vs st : List ℕ) (acc : List (ℕ × ℕ)),
    (sizes acc).prod = tn → Even base acc → ((old.headD (1, 1)).1 = 1 ∨ (old.headD (1, 1)).2 = tn * base) →
    0 < vs.prod → (sizes (acc ++ old)).prod = vs.prod → st.length = vs.length → Compat (acc ++ old) (vs.zip st) →
    ∃ st', chunks tn base old vs = some st' := by
  induction old with
  | nil => exact absurd rfl hne
  | cons a as ih =>
    intro tn base vs st acc hp he ha hvp hpp hst hc
    have hA : Even base (acc ++ [a]) := he.snoc (by rw [hp]; exact ha)
    have hAp : (sizes (acc ++ [a])).prod = tn * a.1 := by simp [sizes, ← hp]
    obtain ⟨pre, e1, e2, e3, e4, e5⟩ := eat_spec (base := base) (tn := tn * a.1) 1 vs
    rw [one_mul] at e3
    have hvp' : pre.prod * (eat base (tn * a.1) 1 vs).2.2.prod = vs.prod := by
      conv_rhs => rw [e1]
      rw [List.prod_append]
    have hpre : 0 < pre.prod := Nat.pos_of_ne_zero (by intro h0; rw [h0, zero_mul] at hvp'; omega)
    cases as with
    | nil =>
      rw [hAp] at hpp
      have hrest : (eat base (tn * a.1) 1 vs).2.2 = [] := by
        rcases e5 with h | ⟨h, h'⟩
        · exact h
        · exfalso
          rw [e3, hpp, ← hvp'] at h
          have h1 : (eat base (tn * a.1) 1 vs).2.2.prod = 1 := by
            have h2 : (eat base (tn * a.1) 1 vs).2.2.prod ≤ 1 := by
              by_contra h2
              push Not at h2
              have := Nat.mul_lt_mul_of_pos_left h2 hpre
              omega
            have h3 : (eat base (tn * a.1) 1 vs).2.2.prod ≠ 0 := by
              intro h0; rw [h0, mul_zero] at hvp'; omega
            omega
          cases hr : (eat base (tn * a.1) 1 vs).2.2 with
          | nil => rw [hr] at h'; exact h' rfl
          | cons v q =>
            rw [hr] at h1 h'
            rw [List.prod_cons] at h1
            exact h' (Nat.eq_one_of_mul_eq_one_right h1)
      refine ⟨(eat base (tn * a.1) 1 vs).1, ?_⟩
      unfold chunks
      dsimp only
      refine if_pos ⟨?_, hrest⟩
      rw [e3, hpp, ← hvp', hrest, List.prod_nil, mul_one]
    | cons b as =>
      have hsplit : acc ++ a :: b :: as = (acc ++ [a]) ++ b :: as := by simp
      rw [hsplit] at hpp hc
      by_cases hb : b.1 ≠ 1 ∧ b.2 ≠ tn * a.1 * base
      · have htot : tn * a.1 * (b.1 * (sizes as).prod) = vs.prod := by
          rw [← hpp, sizes_append, List.prod_append, hAp]
          simp [sizes]
        have hb0 : 0 < b.1 := Nat.pos_of_ne_zero (by intro h0; rw [h0] at htot; simp at htot; omega)
        have ht0 : 0 < tn * a.1 := Nat.pos_of_ne_zero (by intro h0; rw [h0] at htot; simp at htot; omega)
        have has0 : 0 < (sizes as).prod := Nat.pos_of_ne_zero (by intro h0; rw [h0] at htot; simp at htot; omega)
        have hge : tn * a.1 ≤ (eat base (tn * a.1) 1 vs).2.1 := by
          rcases e5 with h | ⟨h, -⟩
          · rw [e3]
            rw [h, List.prod_nil, mul_one] at hvp'
            rw [hvp', ← htot]
            exact Nat.le_mul_of_pos_right _ (Nat.mul_pos hb0 has0)
          · exact h
        have heq : (eat base (tn * a.1) 1 vs).2.1 = tn * a.1 := by
          by_contra hne'
          obtain ⟨p, v, q, hvs, o1, o2⟩ := eat_over (base := base) (tn := tn * a.1) 1 vs ht0 (by omega)
          rw [one_mul] at o1 o2
          apply hb.2
          -- the strides of the candidate
          have hsl : st.length = p.length + (1 + q.length) := by rw [hst, hvs]; simp; omega
          obtain ⟨sp, sv, sq, rfl, hspl, hsql⟩ : ∃ sp sv sq, st = sp ++ sv :: sq ∧ sp.length = p.length ∧ sq.length = q.length := by
            refine ⟨st.take p.length, (st.drop p.length).headD 0, (st.drop p.length).tail, ?_, ?_, ?_⟩
            · have hl : (st.drop p.length).length = 1 + q.length := by rw [List.length_drop, hsl]; omega
              cases hd : st.drop p.length with
              | nil => rw [hd] at hl; simp at hl; omega
              | cons x y =>
                show st = st.take p.length ++ x :: y
                rw [← hd, List.take_append_drop]
            · rw [List.length_take, hsl]; omega
            · rw [List.length_tail, List.length_drop, hsl]; omega
          have hz : vs.zip (sp ++ sv :: sq) = p.zip sp ++ (v, sv) :: q.zip sq := by
            rw [hvs, List.zip_append hspl.symm]; rfl
          rw [hz] at hc
          have hszp : sizes (p.zip sp) = p := sizes_zip hspl
          have hszq : sizes (q.zip sq) = q := sizes_zip hsql
          have hsz : sizes (p.zip sp ++ (v, sv) :: q.zip sq) = p ++ v :: q := by
            rw [sizes_append, hszp]
            show p ++ v :: sizes (q.zip sq) = _
            rw [hszq]
          have hpq : p.prod * (v * q.prod) = vs.prod := by rw [hvs, List.prod_append, List.prod_cons]
          have hp0 : 0 < p.prod := Nat.pos_of_ne_zero (by intro h0; rw [h0] at hpq; simp at hpq; omega)
          have hq0 : 0 < q.prod := Nat.pos_of_ne_zero (by intro h0; rw [h0] at hpq; simp at hpq; omega)
          have hbas0 : 0 < (sizes (b :: as)).prod := by
            show 0 < (b.1 :: sizes as).prod
            rw [List.prod_cons]; exact Nat.mul_pos hb0 has0
          -- positions inside the chunk
          have hin : ∀ r, r < tn * a.1 → ∀ j, InB (p ++ v :: q) j → ravR (p ++ v :: q) j = r →
              off (p.zip sp ++ (v, sv) :: q.zip sq) j = base * r := by
            intro r hr j hj hjr
            obtain ⟨i, hi, hir⟩ := exists_ravR (s := sizes (acc ++ [a])) (n := r) (by rw [hAp]; exact hr)
            have h1 := hc (i ++ List.replicate (sizes (b :: as)).length 0) j
              (by rw [sizes_append]; exact hi.append (zero_InB hbas0)) (by rw [hsz]; exact hj)
              (by rw [sizes_append, ravR_append _ _ hi.length, ravR_zero, hir, hsz, hjr]; simp)
            rw [← h1, off_append _ _ (by rw [hi.length]; simp), off_zero, hA i hi, hir, add_zero]
          have hlow : ∀ r k, r < p.prod → k < v → ∃ x, InB p x ∧ ravR p x = r ∧
              InB (p ++ v :: q) (x ++ k :: List.replicate q.length 0) ∧
              ravR (p ++ v :: q) (x ++ k :: List.replicate q.length 0) = r + p.prod * k ∧
              off (p.zip sp ++ (v, sv) :: q.zip sq) (x ++ k :: List.replicate q.length 0) = off (p.zip sp) x + k * sv := by
            intro r k hr hk
            obtain ⟨x, hx, hxr⟩ := exists_ravR hr
            refine ⟨x, hx, hxr, hx.append (InB_cons.2 ⟨hk, zero_InB hq0⟩), ?_, ?_⟩
            · rw [ravR_append _ _ hx.length, hxr]
              simp only [ravR, ravR_zero]; ring
            · rw [off_append _ _ (by rw [hx.length, List.length_zip, hspl, min_self])]
              simp only [off, off_zero]; ring
          have hv1 : 1 < v := by
            by_contra h1
            push Not at h1
            have : p.prod * v ≤ p.prod := by
              calc p.prod * v ≤ p.prod * 1 := Nat.mul_le_mul_left _ h1
                _ = p.prod := mul_one _
            omega
          have hsv : sv = base * p.prod := by
            obtain ⟨x, hx, hxr, k1, k2, k3⟩ := hlow 0 1 hp0 hv1
            have h1 := hin p.prod o1 _ k1 (by rw [k2]; ring)
            obtain ⟨y, hy, hyr, m1, m2, m3⟩ := hlow 0 0 hp0 (by omega)
            have h2 := hin 0 ht0 _ m1 (by rw [m2]; ring)
            have hxy : off (p.zip sp) x = 0 := by
              -- both are the zero index
              have hx' := hin 0 ht0 (x ++ 0 :: List.replicate q.length 0) (hx.append (InB_cons.2 ⟨by omega, zero_InB hq0⟩))
                (by rw [ravR_append _ _ hx.length, hxr]; simp only [ravR, ravR_zero]; ring)
              rw [off_append _ _ (by rw [hx.length, List.length_zip, hspl, min_self])] at hx'
              simp only [off, off_zero] at hx'
              omega
            rw [k3, hxy] at h1
            omega
          -- the entry after the chunk
          have hq1 : tn * a.1 / p.prod < v := Nat.div_lt_of_lt_mul o2
          obtain ⟨x, hx, hxr, k1, k2, k3⟩ := hlow (tn * a.1 % p.prod) (tn * a.1 / p.prod) (Nat.mod_lt _ hp0) hq1
          have hxo : off (p.zip sp) x = base * (tn * a.1 % p.prod) := by
            have hx' := hin (tn * a.1 % p.prod) (lt_trans (Nat.mod_lt _ hp0) o1) (x ++ 0 :: List.replicate q.length 0)
              (hx.append (InB_cons.2 ⟨by omega, zero_InB hq0⟩))
              (by rw [ravR_append _ _ hx.length, hxr]; simp only [ravR, ravR_zero]; ring)
            rw [off_append _ _ (by rw [hx.length, List.length_zip, hspl, min_self])] at hx'
            simp only [off, off_zero] at hx'
            omega
          have h1 := hc (List.replicate (sizes (acc ++ [a])).length 0 ++ 1 :: List.replicate (sizes as).length 0)
            (x ++ tn * a.1 / p.prod :: List.replicate q.length 0)
            (by
              rw [sizes_append]
              exact (zero_InB (by rw [hAp]; exact ht0)).append
                (InB_cons.2 ⟨by have := hb.1; omega, zero_InB has0⟩))
            (by rw [hsz]; exact k1)
            (by
              rw [hsz, k2, sizes_append, ravR_append _ _ (by simp), ravR_zero, hAp]
              show 0 + tn * a.1 * (1 + b.1 * ravR (sizes as) _) = _
              rw [ravR_zero, Nat.mod_add_div]; ring)
          rw [off_append _ _ (by simp), off_zero, k3, hxo, hsv] at h1
          simp only [off, off_zero] at h1
          have h2 := Nat.mod_add_div (tn * a.1) p.prod
          calc b.2 = 0 + (1 * b.2 + 0) := by ring
            _ = base * (tn * a.1 % p.prod) + tn * a.1 / p.prod * (base * p.prod) := h1
            _ = base * (tn * a.1 % p.prod + p.prod * (tn * a.1 / p.prod)) := by ring
            _ = tn * a.1 * base := by rw [h2]; ring
        -- the remaining axes
        have hppr : pre.prod = tn * a.1 := by rw [← e3]; exact heq
        set rest := (eat base (tn * a.1) 1 vs).2.2 with hrest
        have hvl : vs.length = pre.length + rest.length := by
          conv_lhs => rw [e1]
          rw [List.length_append]
        have hstz : vs.zip st = pre.zip (st.take pre.length) ++ rest.zip (st.drop pre.length) := by
          conv_lhs => rw [e1, ← List.take_append_drop pre.length st]
          exact List.zip_append (by rw [List.length_take, hst, hvl]; omega)
        have htl : (st.take pre.length).length = pre.length := by rw [List.length_take, hst, hvl]; omega
        have hdl : (st.drop pre.length).length = rest.length := by rw [List.length_drop, hst, hvl]; omega
        rw [hstz] at hc
        have hrp : (sizes (b :: as)).prod = rest.prod := by
          have h1 : tn * a.1 * (sizes (b :: as)).prod = tn * a.1 * rest.prod := by
            show tn * a.1 * (b.1 :: sizes as).prod = _
            rw [List.prod_cons, htot, ← hvp', hppr]
          exact Nat.eq_of_mul_eq_mul_left ht0 h1
        have hr0 : 0 < rest.prod := Nat.pos_of_ne_zero (by intro h0; rw [h0, mul_zero] at hvp'; omega)
        obtain ⟨st', hs'⟩ := ih (by simp) 1 b.2 rest (st.drop pre.length) [] rfl
          (by intro i hi; cases InB_nil_left hi; simp [off, ravR]) (Or.inr (by simp)) hr0
          (by rw [List.nil_append]; exact hrp) hdl (by
            rw [List.nil_append]
            intro i j hi hj e
            have h1 := hc (List.replicate (sizes (acc ++ [a])).length 0 ++ i) (List.replicate pre.length 0 ++ j)
              (by rw [sizes_append]; exact (zero_InB (by rw [hAp]; exact ht0)).append hi)
              (by rw [sizes_append, sizes_zip htl]; exact (zero_InB hpre).append hj)
              (by
                rw [sizes_append (acc ++ [a]) (b :: as), sizes_append (pre.zip _), sizes_zip htl, ravR_append _ _ (by simp),
                  ravR_append _ _ (by simp), ravR_zero, ravR_zero, hAp, hppr, e])
            rwa [off_append _ _ (by simp), off_append _ _ (by rw [List.length_zip, htl]; simp), off_zero, off_zero, zero_add,
              zero_add] at h1)
        refine ⟨(eat base (tn * a.1) 1 vs).1 ++ st', ?_⟩
        unfold chunks
        rw [if_pos hb]
        dsimp only
        rw [if_pos heq, ← hrest, hs']
        rfl
      · push Not at hb
        obtain ⟨st', hs'⟩ := ih (by simp) (tn * a.1) base vs st (acc ++ [a]) hAp hA (by
          show b.1 = 1 ∨ b.2 = _
          by_cases h1 : b.1 = 1
          · exact Or.inl h1
          · exact Or.inr (hb h1)) hvp hpp hst hc
        refine ⟨st', ?_⟩
        unfold chunks
        rw [if_neg (by push Not; exact hb)]
        exact hs'

end GConv.Strided

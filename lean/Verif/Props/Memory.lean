import Verif.Model.Memory
import Verif.Props.GridCache
import Verif.Props.GridTables

/-! # C85: layers do not share state

A *reachable* world is `run start h` for a history `h`.  `contents w i` are the values of the tensors of layer `i`, the
buffer `grid_H` first. -/

namespace GConv.Memory

open GridCache

/-! ## bookkeeping of identities -/

/-- the tensor object `a` is held by the grid cache. -/
def Mem.Cached (m : Mem) (a : Addr) : Prop := ∃ t p d n, m.cache t p = some d ∧ d n = some a

namespace Mem

theorem allocs_spec (m : Mem) (ts : List (Tensor ℝ)) :
    (m.allocs ts).1 = List.range' m.next ts.length ∧ (m.allocs ts).2.next = m.next + ts.length ∧
      (m.allocs ts).2.cache = m.cache ∧ (∀ a < m.next, (m.allocs ts).2.cell a = m.cell a) ∧
      (m.allocs ts).1.map (m.allocs ts).2.cell = ts := by
  induction ts generalizing m with
  | nil => exact ⟨rfl, rfl, rfl, fun _ _ => rfl, rfl⟩
  | cons t ts ih =>
    obtain ⟨h1, h2, h3, h4, h5⟩ := ih (m.alloc t).2
    have e1 : (m.allocs (t :: ts)).1 = m.next :: ((m.alloc t).2.allocs ts).1 := rfl
    have e2 : (m.allocs (t :: ts)).2 = ((m.alloc t).2.allocs ts).2 := rfl
    rw [e1, e2]
    refine ⟨?_, ?_, h3, fun a ha => ?_, ?_⟩
    · rw [h1]; rfl
    · rw [h2]; show m.next + 1 + ts.length = m.next + (ts.length + 1); omega
    · rw [h4 a (show a < m.next + 1 by omega)]
      exact Function.update_of_ne (by omega) _ _
    · rw [List.map_cons, h5, h4 m.next (show m.next < m.next + 1 by omega)]
      congr 1
      exact Function.update_self ..

theorem copyInto_cell (m : Mem) (a : Addr) (t : Tensor ℝ) (b : Addr) (h : b ≠ a) : (m.copyInto a t).cell b = m.cell b := by
  unfold copyInto
  split_ifs
  · exact Function.update_of_ne h _ _
  · rfl

theorem copyInto_same (m : Mem) (a : Addr) (t : Tensor ℝ) :
    (m.copyInto a t).next = m.next ∧ (m.copyInto a t).cache = m.cache := by
  unfold copyInto
  split_ifs <;> exact ⟨rfl, rfl⟩

theorem load_cell (m : Mem) (as : List Addr) (ts : List (Tensor ℝ)) (b : Addr) (h : b ∉ as) :
    (m.load as ts).cell b = m.cell b := by
  induction as generalizing m ts with
  | nil => rfl
  | cons a as ih =>
    cases ts with
    | nil => rfl
    | cons t ts =>
      show ((m.copyInto a t).load as ts).cell b = _
      rw [ih _ _ fun hb => h (List.mem_cons_of_mem _ hb), copyInto_cell]
      exact fun e => h (e ▸ List.mem_cons_self)

theorem load_same (m : Mem) (as : List Addr) (ts : List (Tensor ℝ)) :
    (m.load as ts).next = m.next ∧ (m.load as ts).cache = m.cache := by
  induction as generalizing m ts with
  | nil => exact ⟨rfl, rfl⟩
  | cons a as ih =>
    cases ts with
    | nil => exact ⟨rfl, rfl⟩
    | cons t ts =>
      obtain ⟨h1, h2⟩ := ih (m.copyInto a t) ts
      obtain ⟨c1, c2⟩ := copyInto_same m a t
      exact ⟨h1.trans c1, h2.trans c2⟩

/-- which tensors a call of `uniform_grid` can return, enter into the cache, and leave untouched. -/
structure Grows (m m' : Mem) : Prop where
  next : m.next ≤ m'.next
  cell : ∀ a < m.next, m'.cell a = m.cell a
  cached : ∀ a, m'.Cached a → m.Cached a ∨ (m.next ≤ a ∧ a < m'.next)
  kept : ∀ a, m.Cached a → m'.Cached a

theorem Grows.refl (m : Mem) : Grows m m := ⟨le_rfl, fun _ _ => rfl, fun _ h => Or.inl h, fun _ h => h⟩

theorem Grows.trans {m m' m'' : Mem} (h : Grows m m') (h' : Grows m' m'') : Grows m m'' where
  next := h.next.trans h'.next
  cell a ha := (h'.cell a (lt_of_lt_of_le ha h.next)).trans (h.cell a ha)
  cached a ha := by
    rcases h'.cached a ha with h1 | ⟨h1, h2⟩
    · rcases h.cached a h1 with h3 | ⟨h3, h4⟩
      · exact Or.inl h3
      · exact Or.inr ⟨h3, lt_of_lt_of_le h4 h'.next⟩
    · exact Or.inr ⟨h.next.trans h1, h2⟩
  kept a ha := h'.kept a (h.kept a ha)

theorem grows_alloc (m : Mem) (t : Tensor ℝ) : Grows m (m.alloc t).2 where
  next := Nat.le_succ _
  cell a ha := Function.update_of_ne (by omega) _ _
  cached a h := Or.inl h
  kept a h := h

theorem grows_allocs (m : Mem) (ts : List (Tensor ℝ)) : Grows m (m.allocs ts).2 := by
  obtain ⟨-, h2, h3, h4, -⟩ := allocs_spec m ts
  refine ⟨by rw [h2]; omega, h4, fun a h => Or.inl ?_, fun a h => ?_⟩ <;> unfold Cached at * <;> rw [h3] at * <;> exact h

theorem cached_of_load {m : Mem} {n : ℕ} {t p : String} {a : Addr} (h : loadGrid m.cache n t p = .ok a) : m.Cached a := by
  unfold loadGrid at h
  split at h
  · cases h
  · rename_i d hd
    split at h
    · cases h
    · rename_i g hg
      cases h
      exact ⟨_, _, d, n, hd, hg⟩

theorem cached_setItem {m : Mem} {c : Store Addr} {t p : String} {n : ℕ} {g : Addr}
    (h : setItem m.cache t p n g = .ok c) :
    ∀ a, ({ m with cache := c } : Mem).Cached a → m.Cached a ∨ a = g := by
  rintro a ⟨t', p', d', n', h1, h2⟩
  unfold setItem at h
  split at h
  · cases h
  · rename_i d hd
    cases h
    dsimp only at h1
    split at h1
    · rename_i hc
      cases h1
      dsimp only at h2
      split at h2
      · cases h2; exact Or.inr rfl
      · exact Or.inl ⟨_, _, _, n', hd, h2⟩
    · exact Or.inl ⟨t', p', d', n', h1, h2⟩

theorem kept_setItem {m : Mem} {c : Store Addr} {t p : String} {n : ℕ} {g : Addr}
    (h : setItem m.cache t p n g = .ok c) (hn : ∀ d, m.cache t p = some d → d n = none) :
    ∀ a, m.Cached a → ({ m with cache := c } : Mem).Cached a := by
  rintro a ⟨t', p', d', n', h1, h2⟩
  unfold setItem at h
  split at h
  · cases h
  · rename_i d hd
    cases h
    by_cases hc : t' = t ∧ p' = p
    · obtain ⟨rfl, rfl⟩ := hc
      rw [hd] at h1
      cases h1
      refine ⟨t', p', _, n', if_pos ⟨rfl, rfl⟩, ?_⟩
      have : n' ≠ n := by rintro rfl; rw [hn _ hd] at h2; cases h2
      rw [if_neg this]; exact h2
    · exact ⟨t', p', d', n', (if_neg hc).trans h1, h2⟩

/-- `save_grid` without `overwrite`. -/
theorem saveGrid_cases {m : Mem} {c : Store Addr} {rows : Addr → ℕ} {g : Addr} {t p : String}
    (h : saveGrid rows m.cache g t p false = .ok c) :
    (∀ a, ({ m with cache := c } : Mem).Cached a → m.Cached a ∨ a = g) ∧
      ∀ a, m.Cached a → ({ m with cache := c } : Mem).Cached a := by
  unfold saveGrid at h
  simp only [Bool.not_false, if_true] at h
  split at h
  · cases h; exact ⟨fun a ha => Or.inl ha, fun a ha => ha⟩
  · rename_i e he
    refine ⟨cached_setItem h, kept_setItem h fun d hd => ?_⟩
    unfold loadGrid at he
    rw [hd] at he
    dsimp only at he
    split at he
    · assumption
    · cases he

theorem uniformGrid_spec (m : Mem) (hW : ∀ a, m.Cached a → a < m.next) (size : ℕ) (param : String)
    (opt : List SO3.Euler) (c : Bool) :
    Grows m (m.uniformGrid size param opt c).2 ∧
      ∀ a, (m.uniformGrid size param opt c).1 = .ok a →
        (m.Cached a ∧ size ≠ 0 ∧ loadGrid m.cache size "so3" param = .ok a) ∨
          (m.next ≤ a ∧ a < (m.uniformGrid size param opt c).2.next ∧
            ¬ (m.uniformGrid size param opt c).2.Cached a ∧
            (size = 0 ∨ ∃ e, loadGrid m.cache size "so3" param = .error e)) := by
  have fresh : ∀ (m₁ : Mem) (t : Tensor ℝ), Grows m m₁ → (∀ a, m₁.Cached a → a < m₁.next) →
      ∀ a, (m₁.alloc t).1 = a → m.next ≤ a ∧ a < (m₁.alloc t).2.next ∧ ¬ (m₁.alloc t).2.Cached a := by
    rintro m₁ t hg hw a rfl
    exact ⟨hg.next, Nat.lt_succ_self _, fun hc => absurd (hw _ hc) (lt_irrefl _)⟩
  unfold uniformGrid
  by_cases h0 : size = 0
  · rw [if_pos h0]
    refine ⟨grows_alloc _ _, fun a ha => Or.inr ?_⟩
    obtain ⟨h1, h2, h3⟩ := fresh m ⟨[0], fun _ => 0⟩ (Grows.refl m) hW a (Except.ok.inj ha)
    exact ⟨h1, h2, h3, Or.inl h0⟩
  rw [if_neg h0]
  cases hl : loadGrid m.cache size "so3" param with
  | ok b =>
    refine ⟨Grows.refl m, fun a ha => Or.inl ?_⟩
    cases ha
    exact ⟨cached_of_load hl, h0, rfl⟩
  | error e =>
    dsimp only
    cases hp : SO3.paramFn param.toLower with
    | none => exact ⟨Grows.refl m, fun a ha => by cases ha⟩
    | some f =>
      dsimp only
      cases c with
      | false =>
        simp only [Bool.false_eq_true, if_false]
        refine ⟨grows_alloc _ _, fun a ha => Or.inr ?_⟩
        obtain ⟨h1, h2, h3⟩ := fresh m (f opt) (Grows.refl m) hW a (Except.ok.inj ha)
        exact ⟨h1, h2, h3, Or.inr ⟨e, rfl⟩⟩
      | true =>
        simp only [if_true]
        have hg1 := grows_alloc m (SO3.eulerTensor opt)
        cases hs : saveGrid (fun a => SO3.rows0 ((m.alloc (SO3.eulerTensor opt)).2.cell a))
            (m.alloc (SO3.eulerTensor opt)).2.cache (m.alloc (SO3.eulerTensor opt)).1 "so3" param.toLower false with
        | error e' => exact ⟨hg1, fun a ha => by cases ha⟩
        | ok c' =>
          dsimp only
          obtain ⟨s1, s2⟩ := saveGrid_cases (m := (m.alloc (SO3.eulerTensor opt)).2) hs
          have hg2 : Grows m { (m.alloc (SO3.eulerTensor opt)).2 with cache := c' } := by
            refine ⟨hg1.next, hg1.cell, fun a ha => ?_, fun a ha => s2 a ha⟩
            rcases s1 a ha with h | h
            · exact Or.inl h
            · right; rw [h]; exact ⟨le_rfl, Nat.lt_succ_self _⟩
          have hw2 : ∀ a, ({ (m.alloc (SO3.eulerTensor opt)).2 with cache := c' } : Mem).Cached a → a < m.next + 1 := by
            intro a ha
            rcases s1 a ha with h | h
            · exact Nat.lt_succ_of_lt (hW a h)
            · rw [h]; exact Nat.lt_succ_self _
          refine ⟨hg2.trans (grows_alloc _ _), fun a ha => Or.inr ?_⟩
          obtain ⟨h1, h2, h3⟩ := fresh _ (f opt) hg2 hw2 a (Except.ok.inj ha)
          exact ⟨h1, h2, h3, Or.inr ⟨e, rfl⟩⟩

end Mem

namespace World

/-- the tensor `a` is held by layer `i` and by nobody else: not by the cache, the user or another layer. -/
structure Owned (w : World) (i : ℕ) (a : Addr) : Prop where
  lt : a < w.mem.next
  cache : ¬ w.mem.Cached a
  handles : a ∉ w.handles
  layers : ∀ j l, w.layers[j]? = some l → a ∈ l → j = i

/-- every identity in use exists. -/
structure WF (w : World) : Prop where
  cached : ∀ a, w.mem.Cached a → a < w.mem.next
  handles : ∀ a ∈ w.handles, a < w.mem.next
  layers : ∀ l ∈ w.layers, ∀ a ∈ l, a < w.mem.next
  /-- the tensors of a layer but `grid_H` are its own and different. -/
  own : ∀ i l, w.layers[i]? = some l → ∃ g ps, l = g :: ps ∧ (g :: ps).Nodup ∧ ∀ a ∈ ps, w.Owned i a

/-- what one step can do to the identities. -/
structure Step (w w' : World) (op : Op) : Prop where
  next : w.mem.next ≤ w'.mem.next
  cached : ∀ a, w'.mem.Cached a → w.mem.Cached a ∨ (w.mem.next ≤ a ∧ a < w'.mem.next)
  handles : ∀ a ∈ w'.handles, a ∈ w.handles ∨ w.mem.Cached a ∨ (w.mem.next ≤ a ∧ a < w'.mem.next) ∨
    ∃ i ps, op = .expose i ∧ w.layers[i]? = some (a :: ps)
  layers : w'.layers = w.layers ∨ ∃ g ps, w'.layers = w.layers ++ [g :: ps] ∧ w'.handles = w.handles ∧
    (∀ a ∈ ps, w.mem.next ≤ a ∧ a < w'.mem.next ∧ ¬ w'.mem.Cached a) ∧ (g :: ps).Nodup ∧
    (g ∈ w.handles ∨ w.mem.Cached g ∨ (w.mem.next ≤ g ∧ g < w'.mem.next ∧ ¬ w'.mem.Cached g))
  cell : ∀ a < w.mem.next, (∀ i l st, op = .load i st → w.layers[i]? = some l → a ∉ l) →
    (∀ k t, op = .write k t → w.handles[k]? ≠ some a) → w'.mem.cell a = w.mem.cell a

theorem step_same {w w' : World} {op : Op} (h1 : w'.mem.next = w.mem.next) (h2 : w'.mem.cache = w.mem.cache)
    (h3 : w'.handles = w.handles) (h4 : w'.layers = w.layers)
    (h5 : ∀ a < w.mem.next, (∀ i l st, op = .load i st → w.layers[i]? = some l → a ∉ l) →
      (∀ k t, op = .write k t → w.handles[k]? ≠ some a) → w'.mem.cell a = w.mem.cell a) : Step w w' op where
  next := h1.ge
  cached a h := Or.inl (by unfold Mem.Cached at *; rwa [h2] at h)
  handles a h := Or.inl (h3 ▸ h)
  layers := Or.inl h4
  cell := h5

theorem gridOf_spec {w : World} (hw : w.WF) (src : Source) :
    Mem.Grows w.mem (w.gridOf src).2 ∧ (∀ a, (w.gridOf src).2.Cached a → a < (w.gridOf src).2.next) ∧
      ∀ g, (w.gridOf src).1 = .ok g → g < (w.gridOf src).2.next ∧ (g ∈ w.handles ∨ w.mem.Cached g ∨
        (w.mem.next ≤ g ∧ ¬ (w.gridOf src).2.Cached g)) := by
  have cw : ∀ m', Mem.Grows w.mem m' → ∀ a, m'.Cached a → a < m'.next := by
    intro m' hg a ha
    rcases hg.cached a ha with h | h
    · exact lt_of_lt_of_le (hw.cached a h) hg.next
    · exact h.2
  cases src with
  | given k =>
    dsimp only [gridOf]
    cases hk : w.handles[k]? with
    | none => exact ⟨.refl _, hw.cached, fun g h => by cases h⟩
    | some a =>
      refine ⟨.refl _, hw.cached, fun g h => ?_⟩
      cases h
      have := List.mem_of_getElem? hk
      exact ⟨hw.handles _ this, Or.inl this⟩
  | so3 size param opt =>
    obtain ⟨h1, h2⟩ := Mem.uniformGrid_spec w.mem hw.cached size param opt false
    refine ⟨h1, cw _ h1, fun g hg => ?_⟩
    rcases h2 g hg with ⟨h, -⟩ | ⟨h3, h4, h5, -⟩
    · exact ⟨lt_of_lt_of_le (hw.cached _ h) h1.next, Or.inr (Or.inl h)⟩
    · exact ⟨h4, Or.inr (Or.inr ⟨h3, h5⟩)⟩
  | fresh t =>
    refine ⟨Mem.grows_alloc _ _, cw _ (Mem.grows_alloc _ _), fun g hg => ?_⟩
    cases hg
    exact ⟨Nat.lt_succ_self _, Or.inr (Or.inr ⟨le_rfl, fun h => absurd (hw.cached _ h) (lt_irrefl _)⟩)⟩

theorem step_spec {w : World} (hw : w.WF) (op : Op) : Step w (w.step op) op := by
  cases op with
  | grid size param opt c =>
    obtain ⟨h1, h2⟩ := Mem.uniformGrid_spec w.mem hw.cached size param opt c
    dsimp only [World.step]
    generalize w.mem.uniformGrid size param opt c = r at h1 h2 ⊢
    obtain ⟨r, m⟩ := r
    cases r with
    | error e => exact ⟨h1.next, h1.cached, fun a ha => Or.inl ha, Or.inl rfl, fun a ha _ _ => h1.cell a ha⟩
    | ok b =>
      refine ⟨h1.next, h1.cached, fun a ha => ?_, Or.inl rfl, fun a ha _ _ => h1.cell a ha⟩
      rcases List.mem_append.1 ha with h | h
      · exact Or.inl h
      · rw [List.mem_singleton] at h
        subst h
        rcases h2 a rfl with ⟨h, -⟩ | ⟨h3, h4, -⟩
        · exact Or.inr (Or.inl h)
        · exact Or.inr (Or.inr (Or.inl ⟨h3, h4⟩))
  | tensor t =>
    have h1 := Mem.grows_alloc w.mem t
    refine ⟨h1.next, h1.cached, fun a ha => ?_, Or.inl rfl, fun a ha _ _ => h1.cell a ha⟩
    rcases List.mem_append.1 ha with h | h
    · exact Or.inl h
    · rw [List.mem_singleton] at h
      subst h
      exact Or.inr (Or.inr (Or.inl ⟨le_rfl, Nat.lt_succ_self _⟩))
  | layer src others =>
    obtain ⟨h1, h2, h3⟩ := gridOf_spec hw src
    dsimp only [World.step]
    generalize w.gridOf src = r at h1 h2 h3 ⊢
    obtain ⟨r, m⟩ := r
    cases r with
    | error e => exact ⟨h1.next, h1.cached, fun a ha => Or.inl ha, Or.inl rfl, fun a ha _ _ => h1.cell a ha⟩
    | ok g =>
      have hg := h1.trans (Mem.grows_allocs m others)
      obtain ⟨a1, a2, a3, -, -⟩ := Mem.allocs_spec m others
      have hc : ∀ a, (m.allocs others).2.Cached a → m.Cached a := fun a h => by
        unfold Mem.Cached at *; rwa [a3] at h
      obtain ⟨g1, g2⟩ := h3 g rfl
      have g1 : g < m.next := g1
      refine ⟨hg.next, hg.cached, fun a ha => Or.inl ha, Or.inr ⟨g, (m.allocs others).1, rfl, rfl, ?_, ?_, ?_⟩,
        fun a ha _ _ => hg.cell a ha⟩
      · intro a ha
        rw [a1, List.mem_range'_1] at ha
        refine ⟨h1.next.trans ha.1, by show a < (m.allocs others).2.next; rw [a2]; exact ha.2, fun h => ?_⟩
        have : a < m.next := h2 a (hc a h)
        omega
      · rw [List.nodup_cons, a1]
        refine ⟨fun h => ?_, List.nodup_range'⟩
        rw [List.mem_range'_1] at h
        omega
      · rcases g2 with h | h | ⟨h, h'⟩
        · exact Or.inl h
        · exact Or.inr (Or.inl h)
        · refine Or.inr (Or.inr ⟨h, ?_, fun hh => h' (hc g hh)⟩)
          show g < (m.allocs others).2.next
          rw [a2]; omega
  | expose i =>
    dsimp only [World.step]
    cases hl : w.layers[i]? with
    | none => exact step_same rfl rfl rfl rfl fun _ _ _ _ => rfl
    | some l =>
      cases l with
      | nil => exact step_same rfl rfl rfl rfl fun _ _ _ _ => rfl
      | cons b ps =>
        refine ⟨le_rfl, fun a ha => Or.inl ha, fun a ha => ?_, Or.inl rfl, fun _ _ _ _ => rfl⟩
        rcases List.mem_append.1 ha with h | h
        · exact Or.inl h
        · rw [List.mem_singleton] at h
          subst h
          exact Or.inr (Or.inr (Or.inr ⟨i, ps, rfl, hl⟩))
  | load i st =>
    dsimp only [World.step]
    cases hl : w.layers[i]? with
    | none => exact step_same rfl rfl rfl rfl fun _ _ _ _ => rfl
    | some l =>
      obtain ⟨h1, h2⟩ := Mem.load_same w.mem l st
      exact step_same h1 h2 rfl rfl fun a _ h _ => Mem.load_cell _ _ _ _ (h i l st rfl hl)
  | write k t =>
    dsimp only [World.step]
    cases hk : w.handles[k]? with
    | none => exact step_same rfl rfl rfl rfl fun _ _ _ _ => rfl
    | some b =>
      obtain ⟨h1, h2⟩ := Mem.copyInto_same w.mem b t
      refine step_same h1 h2 rfl rfl fun a _ _ h => Mem.copyInto_cell _ _ _ _ fun e => ?_
      exact h k t rfl (by rw [hk, e])

/-- ownership survives every step that does not hand the tensor out. -/
theorem Owned.step {w w' : World} {op : Op} {i : ℕ} {a : Addr} (h : w.Owned i a) (hs : Step w w' op)
    (he : ∀ ps, op = .expose i → w.layers[i]? ≠ some (a :: ps)) : w'.Owned i a where
  lt := lt_of_lt_of_le h.lt hs.next
  cache hc := by
    rcases hs.cached a hc with h1 | ⟨h1, -⟩
    · exact h.cache h1
    · exact absurd h.lt (not_lt.2 h1)
  handles hc := by
    rcases hs.handles a hc with h1 | h1 | ⟨h1, -⟩ | ⟨j, ps, h1, h2⟩
    · exact h.handles h1
    · exact h.cache h1
    · exact absurd h.lt (not_lt.2 h1)
    · have := h.layers j _ h2 List.mem_cons_self
      subst this
      exact he ps h1 h2
  layers j l hl ha := by
    rcases hs.layers with e | ⟨g, ps, e, -, hp, -, hg⟩
    · rw [e] at hl; exact h.layers j l hl ha
    · rw [e] at hl
      by_cases hj : j < w.layers.length
      · rw [List.getElem?_append_left hj] at hl
        exact h.layers j l hl ha
      · rw [List.getElem?_append_right (not_lt.1 hj)] at hl
        have : l = g :: ps := by
          have := List.mem_of_getElem? hl
          simpa using this
        subst this
        exfalso
        rcases List.mem_cons.1 ha with rfl | ha
        · rcases hg with h1 | h1 | ⟨h1, -⟩
          · exact h.handles h1
          · exact h.cache h1
          · exact absurd h.lt (not_lt.2 h1)
        · exact absurd h.lt (not_lt.2 (hp a ha).1)

theorem WF.step {w : World} (hw : w.WF) (op : Op) : (w.step op).WF := by
  have hs := step_spec hw op
  have lay : ∀ l ∈ w.layers, ∀ a ∈ l, a < (w.step op).mem.next := fun l hl a ha =>
    lt_of_lt_of_le (hw.layers l hl a ha) hs.next
  refine ⟨fun a ha => ?_, fun a ha => ?_, ?_, ?_⟩
  · rcases hs.cached a ha with h | h
    · exact lt_of_lt_of_le (hw.cached a h) hs.next
    · exact h.2
  · rcases hs.handles a ha with h | h | h | ⟨j, ps, -, h⟩
    · exact lt_of_lt_of_le (hw.handles a h) hs.next
    · exact lt_of_lt_of_le (hw.cached a h) hs.next
    · exact h.2
    · exact lay _ (List.mem_of_getElem? h) a List.mem_cons_self
  · rcases hs.layers with e | ⟨g, ps, e, -, hp, -, hg⟩
    · rw [e]; exact lay
    · rw [e]
      intro l hl a ha
      rcases List.mem_append.1 hl with h | h
      · exact lay l h a ha
      · rw [List.mem_singleton] at h
        subst h
        rcases List.mem_cons.1 ha with rfl | ha
        · rcases hg with h1 | h1 | h1
          · exact lt_of_lt_of_le (hw.handles a h1) hs.next
          · exact lt_of_lt_of_le (hw.cached a h1) hs.next
          · exact h1.2.1
        · exact (hp a ha).2.1
  · have old : ∀ i l, w.layers[i]? = some l → ∃ g ps, l = g :: ps ∧ (g :: ps).Nodup ∧ ∀ a ∈ ps, (w.step op).Owned i a := by
      intro i l hl
      obtain ⟨g, ps, rfl, hn, ho⟩ := hw.own i l hl
      refine ⟨g, ps, rfl, hn, fun a ha => (ho a ha).step hs fun ps' _ h => ?_⟩
      rw [hl] at h
      have := List.cons.inj (Option.some.inj h)
      rw [← this.1] at ha
      exact (List.nodup_cons.1 hn).1 ha
    rcases hs.layers with e | ⟨g, ps, e, eh, hp, hn, hg⟩
    · rw [e]; exact old
    · intro i l hl
      rw [e] at hl
      by_cases hj : i < w.layers.length
      · rw [List.getElem?_append_left hj] at hl
        exact old i l hl
      · rw [List.getElem?_append_right (not_lt.1 hj)] at hl
        have hi : i = w.layers.length := by
          have := List.getElem?_eq_some_iff.1 hl
          obtain ⟨h, -⟩ := this
          simp at h; omega
        have : l = g :: ps := by
          have := List.mem_of_getElem? hl
          simpa using this
        subst this
        refine ⟨g, ps, rfl, hn, fun a ha => ⟨(hp a ha).2.1, (hp a ha).2.2, fun h => ?_, fun j l' hl' ha' => ?_⟩⟩
        · rw [eh] at h
          exact absurd (hw.handles a h) (not_lt.2 (hp a ha).1)
        · rw [e] at hl'
          by_cases hj' : j < w.layers.length
          · rw [List.getElem?_append_left hj'] at hl'
            exact absurd (hw.layers l' (List.mem_of_getElem? hl') a ha') (not_lt.2 (hp a ha).1)
          · have := (List.getElem?_eq_some_iff.1 hl').1
            rw [List.length_append] at this
            simp at this
            omega

theorem WF.run {w : World} (hw : w.WF) (h : List Op) : (w.run h).WF := by
  induction h generalizing w with
  | nil => exact hw
  | cons op h ih => exact ih (hw.step op)

end World

/-! ## the program start -/

theorem lookup_lt {α : Type} (l : List (ℕ × α)) (n : ℕ) (v : α) (h : l.lookup n = some v) : n < keyBound l := by
  induction l with
  | nil => cases h
  | cons x l ih =>
    obtain ⟨k, u⟩ := x
    unfold keyBound at *
    simp only [List.map_cons, List.foldr_cons]
    rw [List.lookup_cons] at h
    by_cases hk : (n == k) = true
    · have : n = k := by simpa using hk
      omega
    · simp only [hk] at h
      have := ih h
      omega

theorem start_wf : start.WF := by
  refine ⟨?_, fun a ha => (List.not_mem_nil ha).elim, fun l hl => (List.not_mem_nil hl).elim,
    fun i l hl => by simp [start] at hl⟩
  rintro a ⟨t, p, d, n, h1, h2⟩
  have h1 : (if t = "so3" ∧ p = "quat" then some fun n => (SO3.cachedQuats n).map fun _ => 2 * n
        else if t = "so3" ∧ p = "matrix" then some fun n => (SO3.cachedMatrices n).map fun _ => 2 * n + 1
        else none) = some d := h1
  show a < 2 * (max (keyBound SO3.Tables.quatCache) (keyBound SO3.Tables.matrixCache)) + 2
  split_ifs at h1
  · cases h1
    cases hq : SO3.Tables.quatCache.lookup n with
    | none => simp [SO3.cachedQuats, hq] at h2
    | some v =>
      have : a = 2 * n := by simpa [SO3.cachedQuats, hq] using h2.symm
      have := lookup_lt _ _ _ hq
      omega
  · cases h1
    cases hq : SO3.Tables.matrixCache.lookup n with
    | none => simp [SO3.cachedMatrices, hq] at h2
    | some v =>
      have : a = 2 * n + 1 := by simpa [SO3.cachedMatrices, hq] using h2.symm
      have := lookup_lt _ _ _ hq
      omega

theorem reachable_wf (h : List Op) : (start.run h).WF := start_wf.run h

/-! ## values -/

/-- what `so3.uniform_grid` returns for a cached size. -/
def Mem.cachedValue (m : Mem) (n : ℕ) (param : String) : Except PyErr (Tensor ℝ) :=
  (loadGrid m.cache n "so3" param).map m.cell

/-- the cache as a dictionary of values. -/
def Mem.store (m : Mem) : Store (Tensor ℝ) := fun t p => (m.cache t p).map fun d n => (d n).map m.cell

theorem Mem.load_store (m : Mem) (n : ℕ) (t p : String) : loadGrid m.store n t p = (loadGrid m.cache n t p).map m.cell := by
  unfold loadGrid store
  cases h : m.cache t.toLower p.toLower with
  | none => rfl
  | some d =>
    dsimp only [Option.map_some]
    cases d n <;> rfl

/-- at the start the dictionary is the shipped one. -/
theorem start_store : start.mem.store = SO3.initialStore := by
  funext t p
  have e : ∀ n : ℕ, (2 * n + 1) / 2 = n := fun n => by omega
  have e' : ∀ n : ℕ, (2 * n) / 2 = n := fun n => by omega
  have m : ∀ n : ℕ, (2 * n + 1) % 2 ≠ 0 := fun n => by omega
  have m' : ∀ n : ℕ, (2 * n) % 2 = 0 := fun n => by omega
  unfold Mem.store SO3.initialStore
  simp only [start]
  by_cases h1 : t = "so3" ∧ p = "quat"
  · rw [if_pos h1, if_pos h1]
    simp only [Option.map_some]
    congr 1
    funext n
    simp only [Option.map_map]
    cases h : SO3.cachedQuats n with
    | none => rfl
    | some l => 
      simp only [Option.map_some, Function.comp, e', m', if_true, SO3.store_quat, h]
  · rw [if_neg h1, if_neg h1]
    by_cases h2 : t = "so3" ∧ p = "matrix"
    · rw [if_pos h2, if_pos h2]
      simp only [Option.map_some]
      congr 1
      funext n
      simp only [Option.map_map]
      cases h : SO3.cachedMatrices n with
      | none => rfl
      | some l =>
        simp only [Option.map_some, Function.comp, e, m, if_false, SO3.store_matrix, h]
    · rw [if_neg h2, if_neg h2]; rfl

/-- the value returned by the call with identities is the value of the functional model (`SO3.uniformGrid`, C31). -/
theorem Mem.uniformGrid_value (m : Mem) (size : ℕ) (param : String) (opt : List SO3.Euler) :
    (m.uniformGrid size param opt false).1.map (m.uniformGrid size param opt false).2.cell =
      (SO3.uniformGrid m.store size param opt false).1 := by
  unfold Mem.uniformGrid SO3.uniformGrid
  by_cases h0 : size = 0
  · rw [if_pos h0, if_pos h0]
    show Except.ok (Function.update m.cell m.next _ m.next) = _
    rw [Function.update_self]
  rw [if_neg h0, if_neg h0, Mem.load_store]
  cases loadGrid m.cache size "so3" param with
  | ok a => rfl
  | error e =>
    dsimp only [Except.map]
    cases SO3.paramFn param.toLower with
    | none => rfl
    | some f =>
      simp only [Bool.false_eq_true, if_false]
      show Except.ok (Function.update m.cell m.next _ m.next) = _
      rw [Function.update_self]

namespace World

theorem contents_of {w : World} {i : ℕ} {l : List Addr} (h : w.layers[i]? = some l) : w.contents i = l.map w.mem.cell := by
  unfold contents
  rw [List.getD_eq_getElem?_getD, h]; rfl

theorem layers_step {w : World} (hw : w.WF) (op : Op) {i : ℕ} {l : List Addr} (h : w.layers[i]? = some l) :
    (w.step op).layers[i]? = some l := by
  rcases (step_spec hw op).layers with e | ⟨g, ps, e, -⟩
  · rw [e]; exact h
  · rw [e, List.getElem?_append_left]
    · exact h
    · exact (List.getElem?_eq_some_iff.1 h).1

/-- an owned tensor only changes by `load_state_dict` on its layer. -/
theorem owned_cell {w : World} (hw : w.WF) {i : ℕ} {a : Addr} (ho : w.Owned i a) (op : Op)
    (hop : ∀ st, op ≠ .load i st) : (w.step op).mem.cell a = w.mem.cell a := by
  refine (step_spec hw op).cell a ho.lt (fun j l st he hl ha => ?_) (fun k t _ hk => ?_)
  · have := ho.layers j l hl ha
    subst this
    exact hop st he
  · exact ho.handles (List.mem_of_getElem? hk)

end World

/-! ## C85 -/

open World

/-- The parameters and the other buffers of a layer (everything but `grid_H`) only change by `load_state_dict` on that
layer: whatever happens to other layers, to tensors the user holds and to the grid cache. -/
theorem C85_parameters (h : List Op) (i : ℕ) (hi : i < (start.run h).layers.length) (op : Op)
    (hop : ∀ st, op ≠ .load i st) :
    (((start.run h).step op).contents i).tail = ((start.run h).contents i).tail := by
  have hw := reachable_wf h
  generalize start.run h = w at *
  have hl : w.layers[i]? = some w.layers[i] := List.getElem?_eq_getElem hi
  obtain ⟨g, ps, e, -, ho⟩ := hw.own i _ hl
  rw [contents_of hl, contents_of (layers_step hw op hl), e]
  simp only [List.map_cons, List.tail_cons]
  exact List.map_congr_left fun a ha => owned_cell hw (ho a ha) op hop

/-- `load_state_dict` with tensors of the right shapes gives the layer exactly these values. -/
theorem C85_load (h : List Op) (i : ℕ) (hi : i < (start.run h).layers.length) (st : List (Tensor ℝ))
    (hst : List.Forall₂ (fun old new => old.shape = new.shape) ((start.run h).contents i) st) :
    ((start.run h).step (.load i st)).contents i = st := by
  have hw := reachable_wf h
  generalize start.run h = w at *
  have hl : w.layers[i]? = some w.layers[i] := List.getElem?_eq_getElem hi
  obtain ⟨g, ps, e, hn, -⟩ := hw.own i _ hl
  rw [contents_of (layers_step hw _ hl)]
  rw [contents_of hl] at hst
  rw [← e] at hn
  have hm : (w.step (.load i st)).mem = w.mem.load w.layers[i] st := by
    dsimp only [World.step]; rw [hl]
  rw [hm]
  generalize w.layers[i] = l at *
  generalize w.mem = m at *
  clear hw hl hm e
  induction l generalizing m st with
  | nil => cases hst; rfl
  | cons a l ih =>
    cases st with
    | nil => cases hst
    | cons t st =>
      rw [List.map_cons] at hst
      obtain ⟨h1, h2⟩ := List.forall₂_cons.1 hst
      obtain ⟨n1, n2⟩ := List.nodup_cons.1 hn
      rw [List.map_cons]
      show ((m.copyInto a t).load l st).cell a :: l.map ((m.copyInto a t).load l st).cell = t :: st
      congr 1
      · rw [Mem.load_cell _ _ _ _ n1]
        unfold Mem.copyInto
        rw [if_pos h1]
        exact Function.update_self ..
      · refine ih st n2 (m.copyInto a t) ?_
        have : l.map (m.copyInto a t).cell = l.map m.cell := by
          refine List.map_congr_left fun b hb => Mem.copyInto_cell _ _ _ _ ?_
          rintro rfl; exact n1 hb
        rw [this]; exact h2

/-- the source gives the layer a `grid_H` of its own. -/
def Fresh (w : World) : Source → Prop
  | .given _ => False
  | .so3 size param _ => size = 0 ∨ ∃ e, loadGrid w.mem.cache size "so3" param = .error e
  | .fresh _ => True

theorem layer_step {w : World} {src : Source} {g : Addr} (hg : (w.gridOf src).1 = .ok g) (others : List (Tensor ℝ)) :
    w.step (.layer src others) = { w with
      mem := ((w.gridOf src).2.allocs others).2
      layers := w.layers ++ [g :: ((w.gridOf src).2.allocs others).1] } := by
  dsimp only [World.step]
  generalize w.gridOf src = r at *
  obtain ⟨r, m⟩ := r
  cases hg
  rfl

theorem fresh_grid {w : World} (hw : w.WF) {src : Source} (hf : Fresh w src) {g : Addr} (hg : (w.gridOf src).1 = .ok g) :
    w.mem.next ≤ g ∧ g < (w.gridOf src).2.next ∧ ¬ (w.gridOf src).2.Cached g := by
  cases src with
  | given k => exact hf.elim
  | so3 size param opt =>
    obtain ⟨h1, h2⟩ := Mem.uniformGrid_spec w.mem hw.cached size param opt false
    rcases h2 g hg with ⟨-, h3, h4⟩ | ⟨h3, h4, h5, -⟩
    · rcases hf with hf | ⟨e, hf⟩
      · exact absurd hf h3
      · rw [h4] at hf; cases hf
    · exact ⟨h3, h4, h5⟩
  | fresh t =>
    cases hg
    exact ⟨le_rfl, Nat.lt_succ_self _, fun h => absurd (hw.cached _ h) (lt_irrefl _)⟩

theorem fresh_owned {w : World} (hw : w.WF) {src : Source} (hf : Fresh w src) {g : Addr} (hg : (w.gridOf src).1 = .ok g)
    (others : List (Tensor ℝ)) : (w.step (.layer src others)).Owned w.layers.length g := by
  obtain ⟨h1, h2, h3⟩ := fresh_grid hw hf hg
  obtain ⟨a1, a2, a3, -, -⟩ := Mem.allocs_spec (w.gridOf src).2 others
  rw [layer_step hg]
  refine ⟨?_, ?_, ?_, ?_⟩
  · show g < ((w.gridOf src).2.allocs others).2.next
    rw [a2]; omega
  · show ¬ ((w.gridOf src).2.allocs others).2.Cached g
    unfold Mem.Cached at *
    rw [a3]; exact h3
  · exact fun h => absurd (hw.handles g h) (not_lt.2 h1)
  · intro j l hl ha
    by_cases hj : j < w.layers.length
    · rw [List.getElem?_append_left hj] at hl
      exact absurd (hw.layers l (List.mem_of_getElem? hl) g ha) (not_lt.2 h1)
    · have := (List.getElem?_eq_some_iff.1 hl).1
      rw [List.length_append] at this
      simp at this
      omega

/-- A layer whose `grid_H` is new (SE(2), E(2), E(3) layers, SO(3) and SE(3) layers of a size that is not cached) and
is not handed out is independent of everything else: nothing but `load_state_dict` on it changes it, and that changes no
other layer, no tensor held by the user and no cached grid. -/
theorem C85_private_partial (h₁ h₂ : List Op) (src : Source) (others : List (Tensor ℝ)) (hf : Fresh (start.run h₁) src)
    (hok : ∃ g, ((start.run h₁).gridOf src).1 = .ok g)
    (hex : ∀ op ∈ h₂, op ≠ .expose (start.run h₁).layers.length) (i : ℕ) (hi : i = (start.run h₁).layers.length)
    (w : World) (hw : w = ((start.run h₁).step (.layer src others)).run h₂) :
    (∀ op, (∀ st, op ≠ .load i st) → (w.step op).contents i = w.contents i) ∧
    ∀ st, (∀ j, j ≠ i → (w.step (.load i st)).contents j = w.contents j) ∧
      (w.step (.load i st)).handles.map (w.step (.load i st)).mem.cell = w.handles.map w.mem.cell ∧
      ∀ n param, (w.step (.load i st)).mem.cachedValue n param = w.mem.cachedValue n param := by
  obtain ⟨g, hg⟩ := hok
  have wf0 := reachable_wf h₁
  have wf1 := wf0.step (.layer src others)
  have own1 := fresh_owned wf0 hf hg others
  have lay1 : ((start.run h₁).step (.layer src others)).layers[i]? =
      some (g :: (((start.run h₁).gridOf src).2.allocs others).1) := by
    rw [layer_step hg, hi]
    exact List.getElem?_concat_length ..
  rw [← hi] at own1 hex
  generalize (start.run h₁).step (.layer src others) = w1 at *
  generalize (((start.run h₁).gridOf src).2.allocs others).1 = ps at *
  have key : w.WF ∧ w.Owned i g ∧ w.layers[i]? = some (g :: ps) := by
    rw [hw]; clear hw
    induction h₂ generalizing w1 with
    | nil => exact ⟨wf1, own1, lay1⟩
    | cons op h₂ ih =>
      refine ih (fun o ho => hex o (List.mem_cons_of_mem _ ho)) (w1.step op) (wf1.step op)
        (own1.step (step_spec wf1 op) fun _ he _ => hex op List.mem_cons_self he) (layers_step wf1 op lay1)
  obtain ⟨wf, own, lay⟩ := key
  obtain ⟨g', ps', e, hn, hps⟩ := wf.own i _ lay
  obtain ⟨rfl, rfl⟩ := List.cons.inj e
  have all : ∀ a ∈ g :: ps, w.Owned i a := by
    intro a ha
    rcases List.mem_cons.1 ha with rfl | ha
    · exact own
    · exact hps a ha
  refine ⟨fun op hop => ?_, fun st => ?_⟩
  · rw [contents_of lay, contents_of (layers_step wf op lay)]
    exact List.map_congr_left fun a ha => owned_cell wf (all a ha) op hop
  · have hstep : w.step (.load i st) = { w with mem := w.mem.load (g :: ps) st } := by
      dsimp only [World.step]; rw [lay]
    have hcell : ∀ a, ¬ w.Owned i a → (w.mem.load (g :: ps) st).cell a = w.mem.cell a := fun a ha =>
      Mem.load_cell _ _ _ _ fun h => ha (all a h)
    rw [hstep]
    refine ⟨fun j hj => ?_, ?_, fun n param => ?_⟩
    · by_cases hl : j < w.layers.length
      · have hlj : w.layers[j]? = some w.layers[j] := List.getElem?_eq_getElem hl
        rw [contents_of hlj, contents_of (w := { w with mem := w.mem.load (g :: ps) st }) hlj]
        exact List.map_congr_left fun a ha => hcell a fun ho => hj (ho.layers j _ hlj ha)
      · unfold contents
        have e : w.layers.getD j [] = [] := by
          rw [List.getD_eq_getElem?_getD, List.getElem?_eq_none (not_lt.1 hl)]; rfl
        show (w.layers.getD j []).map _ = (w.layers.getD j []).map _
        rw [e]; rfl
    · exact List.map_congr_left fun a ha => hcell a fun ho => ho.handles ha
    · unfold Mem.cachedValue
      rw [show ({ w with mem := w.mem.load (g :: ps) st } : World).mem.cache = w.mem.cache from
        (Mem.load_same w.mem (g :: ps) st).2]
      cases hl : loadGrid w.mem.cache n "so3" param with
      | error e => rfl
      | ok a => 
        show Except.ok _ = Except.ok _
        congr 1
        exact hcell a fun ho => ho.cache (Mem.cached_of_load hl)

/-- As long as nobody loads a state or writes in place, no tensor that exists ever changes: cached grids, layers and
tensors held by the user keep their values. -/
theorem C85_stable_partial (h₁ h₂ : List Op) (hno : ∀ op ∈ h₂, (∀ i st, op ≠ .load i st) ∧ ∀ k t, op ≠ .write k t)
    (a : Addr) (ha : a < (start.run h₁).mem.next) :
    ((start.run h₁).run h₂).mem.cell a = (start.run h₁).mem.cell a := by
  have wf := reachable_wf h₁
  generalize start.run h₁ = w at *
  induction h₂ generalizing w with
  | nil => rfl
  | cons op h₂ ih =>
    have hs := step_spec wf op
    obtain ⟨n1, n2⟩ := hno op List.mem_cons_self
    have := ih (fun o ho => hno o (List.mem_cons_of_mem _ ho)) (w.step op) (lt_of_lt_of_le ha hs.next) (wf.step op)
    refine this.trans (hs.cell a ha (fun i l st e => absurd e (n1 i st)) (fun k t e => absurd e (n2 k t)))

/-! ### cached grids are shared -/

theorem load_setItem {s c : Store Addr} {t p : String} {n : ℕ} {g : Addr} (h : setItem s t p n g = .ok c)
    (hn : ∀ d, s t p = some d → d n = none) (k : ℕ) (t' p' : String) (a : Addr) (hl : loadGrid s k t' p' = .ok a) :
    loadGrid c k t' p' = .ok a := by
  unfold setItem at h
  split at h
  · cases h
  · rename_i d hd
    cases h
    unfold loadGrid at *
    by_cases hc : t'.toLower = t ∧ p'.toLower = p
    · dsimp only
      rw [if_pos hc]
      rw [hc.1, hc.2, hd] at hl
      dsimp only at hl ⊢
      have : k ≠ n := by
        rintro rfl
        rw [hn d hd] at hl; cases hl
      rw [if_neg this]; exact hl
    · dsimp only
      rw [if_neg hc]; exact hl

theorem uniformGrid_kept (m : Mem) (size : ℕ) (param : String) (opt : List SO3.Euler) (c : Bool) (k : ℕ) (t p : String)
    (a : Addr) (hl : loadGrid m.cache k t p = .ok a) : loadGrid (m.uniformGrid size param opt c).2.cache k t p = .ok a := by
  unfold Mem.uniformGrid
  by_cases h0 : size = 0
  · rw [if_pos h0]; exact hl
  rw [if_neg h0]
  cases loadGrid m.cache size "so3" param with
  | ok b => exact hl
  | error e =>
    dsimp only
    cases SO3.paramFn param.toLower with
    | none => exact hl
    | some f =>
      cases c with
      | false => exact hl
      | true =>
        simp only [if_true]
        cases hs : saveGrid (fun a => SO3.rows0 ((m.alloc (SO3.eulerTensor opt)).2.cell a))
            (m.alloc (SO3.eulerTensor opt)).2.cache (m.alloc (SO3.eulerTensor opt)).1 "so3" param.toLower false with
        | error e' => exact hl
        | ok c' =>
          show loadGrid c' k t p = .ok a
          unfold saveGrid at hs
          simp only [Bool.not_false, if_true] at hs
          split at hs
          · cases hs; exact hl
          · rename_i e he
            refine load_setItem hs (fun d hd => ?_) k t p a hl
            unfold loadGrid at he
            rw [hd] at he
            dsimp only at he
            split at he
            · assumption
            · cases he

/-- a cached grid stays the same tensor object. -/
theorem load_kept {w : World} (op : Op) (k : ℕ) (t p : String) (a : Addr) (hl : loadGrid w.mem.cache k t p = .ok a) :
    loadGrid (w.step op).mem.cache k t p = .ok a := by
  cases op with
  | grid size param opt c =>
    have := uniformGrid_kept w.mem size param opt c k t p a hl
    dsimp only [World.step]
    generalize w.mem.uniformGrid size param opt c = r at *
    obtain ⟨r, m⟩ := r
    cases r <;> exact this
  | tensor t => exact hl
  | layer src others =>
    have : loadGrid (w.gridOf src).2.cache k t p = .ok a := by
      cases src with
      | given j => dsimp only [World.gridOf]; cases w.handles[j]? <;> exact hl
      | so3 size param opt => exact uniformGrid_kept w.mem size param opt false k t p a hl
      | fresh t => exact hl
    dsimp only [World.step]
    generalize w.gridOf src = r at *
    obtain ⟨r, m⟩ := r
    cases r with
    | error e => exact this
    | ok g =>
      show loadGrid (m.allocs others).2.cache k t p = .ok a
      rw [(Mem.allocs_spec m others).2.2.1]; exact this
  | expose i =>
    dsimp only [World.step]
    split <;> exact hl
  | load i st =>
    dsimp only [World.step]
    split
    · show loadGrid (w.mem.load _ st).cache k t p = .ok a
      rw [(Mem.load_same w.mem _ st).2]; exact hl
    · exact hl
  | write j t =>
    dsimp only [World.step]
    split
    · show loadGrid (w.mem.copyInto _ _).cache k _ p = .ok a
      rw [(Mem.copyInto_same w.mem _ _).2]; exact hl
    · exact hl

theorem load_kept_run {w : World} (h : List Op) (k : ℕ) (t p : String) (a : Addr)
    (hl : loadGrid w.mem.cache k t p = .ok a) : loadGrid (w.run h).mem.cache k t p = .ok a := by
  induction h generalizing w with
  | nil => exact hl
  | cons op h ih => exact ih (load_kept op k t p a hl)

/-- the matrix grids of sizes 1 to 24 are cached at the start and remain so. -/
theorem shipped_cached (h : List Op) (n : ℕ) (h1 : 1 ≤ n) (h2 : n ≤ 24) :
    loadGrid (start.run h).mem.cache n "so3" "matrix" = .ok (2 * n + 1) := by
  apply load_kept_run
  obtain ⟨Q, M, e1, e2, -⟩ := SO3.C32_rows n h1 h2
  unfold loadGrid
  rw [SO3.lower_so3, SO3.lower_matrix]
  have : start.mem.cache "so3" "matrix" = some fun n => (SO3.cachedMatrices n).map fun _ => 2 * n + 1 := by
    simp [start]
  rw [this]
  simp only [e2, Option.map_some]

theorem gridOf_cached {w : World} {n : ℕ} (h1 : 1 ≤ n) {a : Addr} (hl : loadGrid w.mem.cache n "so3" "matrix" = .ok a)
    (opt : List SO3.Euler) : w.gridOf (.so3 n "matrix" opt) = (.ok a, w.mem) := by
  dsimp only [World.gridOf, Mem.uniformGrid]
  rw [if_neg (by omega), hl]

/-- False of the code: two SE(3) layers of a shipped size hold the same tensor as `grid_H`, which is also the cached
one.  In every reachable world, loading a state into the first sets the grid of the second, and later calls of
`so3.uniform_grid` return the loaded values. -/
theorem C85_shared (h : List Op) (n : ℕ) (h1 : 1 ≤ n) (h2 : n ≤ 24) (opt₁ opt₂ : List SO3.Euler)
    (o₁ o₂ : List (Tensor ℝ)) (w : World)
    (hw : w = (start.run h).run [.layer (.so3 n "matrix" opt₁) o₁, .layer (.so3 n "matrix" opt₂) o₂])
    (i : ℕ) (hi : i = (start.run h).layers.length) :
    ∃ g, (w.contents i).head? = some g ∧ (w.contents (i + 1)).head? = some g ∧
      w.mem.cachedValue n "matrix" = .ok g ∧
      ∀ t : Tensor ℝ, t.shape = g.shape →
        ((w.step (.load i [t])).contents (i + 1)).head? = some t ∧
        (w.step (.load i [t])).mem.cachedValue n "matrix" = .ok t := by
  have c0 := shipped_cached h n h1 h2
  replace hw : w = ((start.run h).step (.layer (.so3 n "matrix" opt₁) o₁)).step (.layer (.so3 n "matrix" opt₂) o₂) := hw
  generalize start.run h = w0 at *
  have c1 := load_kept (.layer (.so3 n "matrix" opt₁) o₁) n "so3" "matrix" _ c0
  have g0 := gridOf_cached h1 c0 opt₁
  have g1 := gridOf_cached h1 c1 opt₂
  have l1 : (w0.step (.layer (.so3 n "matrix" opt₁) o₁)).layers[i]? =
      some ((2 * n + 1) :: (w0.mem.allocs o₁).1) := by
    rw [layer_step (by rw [g0]), hi, g0]
    exact List.getElem?_concat_length ..
  have len1 : (w0.step (.layer (.so3 n "matrix" opt₁) o₁)).layers.length = i + 1 := by
    rw [layer_step (by rw [g0]), hi]; simp
  generalize w0.step (.layer (.so3 n "matrix" opt₁) o₁) = w1 at *
  have c2 := load_kept (.layer (.so3 n "matrix" opt₂) o₂) n "so3" "matrix" _ c1
  rw [← hw] at c2
  have e2 : w.layers = w1.layers ++ [(2 * n + 1) :: (w1.mem.allocs o₂).1] := by
    rw [hw, layer_step (by rw [g1]), g1]
  have li : w.layers[i]? = some ((2 * n + 1) :: (w0.mem.allocs o₁).1) := by
    rw [e2, List.getElem?_append_left (by omega)]; exact l1
  have lj : w.layers[i + 1]? = some ((2 * n + 1) :: (w1.mem.allocs o₂).1) := by
    rw [e2, ← len1]; exact List.getElem?_concat_length ..
  clear hw e2
  refine ⟨w.mem.cell (2 * n + 1), ?_, ?_, ?_, fun t ht => ?_⟩
  · rw [contents_of li]; rfl
  · rw [contents_of lj]; rfl
  · unfold Mem.cachedValue; rw [c2]; rfl
  · have hm : w.step (.load i [t]) = { w with mem := { w.mem with cell := Function.update w.mem.cell (2 * n + 1) t } } := by
      dsimp only [World.step]
      rw [li]
      show ({ w with mem := (w.mem.copyInto (2 * n + 1) t).load _ [] } : World) = _
      have : (w.mem.copyInto (2 * n + 1) t).load (w0.mem.allocs o₁).1 [] = w.mem.copyInto (2 * n + 1) t := by
        cases (w0.mem.allocs o₁).1 <;> rfl
      rw [this]
      unfold Mem.copyInto
      rw [if_pos ht.symm]
    rw [hm]
    constructor
    · rw [contents_of (w := { w with mem := { w.mem with cell := Function.update w.mem.cell (2 * n + 1) t } }) lj]
      show some (Function.update w.mem.cell (2 * n + 1) t (2 * n + 1)) = some t
      rw [Function.update_self]
    · unfold Mem.cachedValue
      show (loadGrid w.mem.cache n "so3" "matrix").map (Function.update w.mem.cell (2 * n + 1) t) = _
      rw [c2]
      show Except.ok (Function.update w.mem.cell (2 * n + 1) t (2 * n + 1)) = Except.ok t
      rw [Function.update_self]

/-- False of the code: loading a state into one layer can change another layer. -/
theorem C85_violated : ∃ (h : List Op) (i j : ℕ) (st : List (Tensor ℝ)), i ≠ j ∧
    j < (start.run h).layers.length ∧ ((start.run h).step (.load i st)).contents j ≠ (start.run h).contents j := by
  obtain ⟨g, e1, e2, -, h⟩ := C85_shared [] 4 (by norm_num) (by norm_num) [] [] [] [] _ rfl 0 rfl
  refine ⟨[.layer (.so3 4 "matrix" []) [], .layer (.so3 4 "matrix" []) []], 0, 1, [⟨g.shape, fun idx => g.get idx + 1⟩],
    by norm_num, ?_, fun hc => ?_⟩
  · by_contra hl
    have : (start.run [.layer (.so3 4 "matrix" []) [], .layer (.so3 4 "matrix" []) []]).contents 1 = [] := by
      unfold contents
      rw [List.getD_eq_getElem?_getD, List.getElem?_eq_none (not_lt.1 hl)]; rfl
    rw [show (start.run []).run _ = start.run _ from rfl, show 0 + 1 = 1 from rfl, this] at e2
    cases e2
  · obtain ⟨h1, -⟩ := h ⟨g.shape, fun idx => g.get idx + 1⟩ rfl
    have h2 : some (⟨g.shape, fun idx => g.get idx + 1⟩ : Tensor ℝ) = some g := by
      rw [← h1, ← e2]
      exact congrArg List.head? hc
    have h3 := congrArg Tensor.get (Option.some.inj h2)
    have h4 := congrFun h3 []
    simp at h4

/-- the hypotheses of `C85_private_partial` are met by an SE(2) layer built after an SE(3) layer, followed by a load of
the latter. -/
example (t : Tensor ℝ) (st : List (Tensor ℝ)) :
    Fresh (start.run [.layer (.so3 4 "matrix" []) [t]]) (.fresh t) ∧
      (∃ g, ((start.run [.layer (.so3 4 "matrix" []) [t]]).gridOf (.fresh t)).1 = .ok g) ∧
      ∀ op ∈ [Op.load 0 st, .grid 4 "quat" [] true], op ≠ .expose (start.run [.layer (.so3 4 "matrix" []) [t]]).layers.length :=
  ⟨trivial, ⟨_, rfl⟩, by simp⟩

end GConv.Memory

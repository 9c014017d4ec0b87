import Verif.Props.GridTables

/-! # The grid cache and `so3.uniform_grid` over histories: C30, C31 -/

namespace GConv.GridCache

/-! ## C30 -/

section spec
variable {G : Type}

/-- the saves of a history that address the (case-folded) key `(t, p, n)`, oldest first, with their
`overwrite` flag. -/
def savesTo (rows : G → ℕ) (t p : String) (n : ℕ) : List (Op G) → List (G × Bool)
  | [] => []
  | .save g gt gp o :: h =>
    if gt.toLower = t ∧ gp.toLower = p ∧ rows g = n then (g, o) :: savesTo rows t p n h
    else savesTo rows t p n h
  | .load _ _ _ :: h => savesTo rows t p n h

/-- Specification of the value under a key: the last grid saved with `overwrite=True`; if there is
none, what was there initially; if there was nothing, the first grid saved. -/
def expected (init : Option G) (saves : List (G × Bool)) : Option G :=
  match (saves.filter (·.2)).getLast? with
  | some (g, _) => some g
  | none => match init with
    | some g => some g
    | none => saves.head?.map (·.1)

theorem expected_nil (init : Option G) : expected init [] = init := by
  cases init <;> rfl

theorem expected_cons (init : Option G) (g : G) (o : Bool) (l : List (G × Bool)) :
    expected init ((g, o) :: l) =
      expected (if o = true ∨ init = none then some g else init) l := by
  unfold expected
  cases o with
  | true =>
    rw [List.filter_cons_of_pos (by rfl), List.getLast?_cons]
    generalize (l.filter (·.2)).getLast? = x
    rcases x with _ | ⟨a, b⟩
    · simp
    · simp
  | false =>
    rw [List.filter_cons_of_neg (by simp)]
    generalize (l.filter (·.2)).getLast? = x
    rcases x with _ | ⟨a, b⟩
    · cases init <;> simp
    · simp

theorem step_ok (rows : G → ℕ) {s s' : Store G} {g : G} {gt gp : String} {o : Bool}
    (h : saveGrid rows s g gt gp o = .ok s') : step rows s (.save g gt gp o) = s' := by
  show (match saveGrid rows s g gt gp o with
    | .ok s' => s'
    | .error _ => s) = s'
  rw [h]

theorem step_err (rows : G → ℕ) {s : Store G} {g : G} {gt gp : String} {o : Bool} {e : PyErr}
    (h : saveGrid rows s g gt gp o = .error e) : step rows s (.save g gt gp o) = s := by
  show (match saveGrid rows s g gt gp o with
    | .ok s' => s'
    | .error _ => s) = s
  rw [h]

theorem setItem_some {s : Store G} {t p : String} {d : ℕ → Option G} (h : s t p = some d) (n : ℕ)
    (g : G) : setItem s t p n g = .ok fun t' p' =>
      if t' = t ∧ p' = p then some (fun m => if m = n then some g else d m) else s t' p' := by
  unfold setItem; rw [h]

theorem setItem_none {s : Store G} {t p : String} (h : s t p = none) (n : ℕ) (g : G) :
    setItem s t p n g = .error .keyError := by
  unfold setItem; rw [h]

theorem load_eq (s : Store G) (n : ℕ) (gt gp : String) :
    loadGrid s n gt gp =
      match (s gt.toLower gp.toLower).bind (fun d => d n) with
      | some g => .ok g
      | none => .error .keyError := by
  unfold loadGrid
  rcases s gt.toLower gp.toLower with _ | d
  · rfl
  · simp only [Option.bind_some]
    cases d n <;> rfl

/-- one step never creates a type or parameterization. -/
theorem step_unknown (rows : G → ℕ) (s : Store G) (op : Op G) (t p : String) (h : s t p = none) :
    step rows s op t p = none := by
  cases op with
  | load n gt gp => exact h
  | save g gt gp o =>
    have key : ∀ s', setItem s gt.toLower gp.toLower (rows g) g = .ok s' → s' t p = none := by
      intro s' hs
      rcases hd : s gt.toLower gp.toLower with _ | d
      · rw [setItem_none hd] at hs; cases hs
      · rw [setItem_some hd] at hs
        cases hs
        have : ¬ (t = gt.toLower ∧ p = gp.toLower) := by
          rintro ⟨rfl, rfl⟩; rw [hd] at h; cases h
        simp only [if_neg this, h]
    rcases hs : saveGrid rows s g gt gp o with e | s'
    · rw [step_err rows hs]; exact h
    · rw [step_ok rows hs]
      unfold saveGrid at hs
      split at hs
      · split at hs
        · cases hs; exact h
        · exact key s' hs
      · exact key s' hs

theorem step_known (rows : G → ℕ) (s : Store G) (op : Op G) (t p : String) (d : ℕ → Option G)
    (h : s t p = some d) :
    ∃ d', step rows s op t p = some d' ∧
      ∀ n, d' n = expected (d n) (savesTo rows t p n [op]) := by
  cases op with
  | load n gt gp => exact ⟨d, h, fun n => by simp [savesTo, expected_nil]⟩
  | save g gt gp o =>
    by_cases hk : gt.toLower = t ∧ gp.toLower = p
    · obtain ⟨rfl, rfl⟩ := hk
      have hset := setItem_some h (rows g) g
      by_cases hskip : o = false ∧ (d (rows g)).isSome
      · obtain ⟨ho, hd⟩ := hskip
        obtain ⟨g0, hg0⟩ := Option.isSome_iff_exists.1 hd
        refine ⟨d, ?_, ?_⟩
        · have : saveGrid rows s g gt gp o = .ok s := by
            unfold saveGrid
            rw [load_eq, h, ho]; simp [hg0]
          rw [step_ok rows this]; exact h
        · intro n
          by_cases hn : rows g = n
          · subst hn
            simp only [savesTo, and_self, if_true]
            rw [expected_cons, expected_nil, if_neg]
            simp [ho, hg0]
          · simp [savesTo, hn, expected_nil]
      · refine ⟨fun m => if m = rows g then some g else d m, ?_, ?_⟩
        · have : saveGrid rows s g gt gp o = setItem s gt.toLower gp.toLower (rows g) g := by
            unfold saveGrid
            cases o with
            | true => rfl
            | false =>
              have hn : d (rows g) = none := by
                simpa using hskip
              rw [load_eq, h]; simp [hn]
          rw [hset] at this
          rw [step_ok rows this]
          simp
        · intro n
          by_cases hn : rows g = n
          · subst hn
            simp only [savesTo, and_self, if_true]
            rw [expected_cons, expected_nil, if_pos]
            cases o with
            | true => simp
            | false => right; simpa using hskip
          · have hn' : ¬ (n = rows g) := fun e => hn e.symm
            simp [savesTo, hn, hn', expected_nil]
    · refine ⟨d, ?_, ?_⟩
      · have key : ∀ s', setItem s gt.toLower gp.toLower (rows g) g = .ok s' → s' t p = some d := by
          intro s' hs
          rcases hd : s gt.toLower gp.toLower with _ | d2
          · rw [setItem_none hd] at hs; cases hs
          · rw [setItem_some hd] at hs
            cases hs
            have : ¬ (t = gt.toLower ∧ p = gp.toLower) := fun e => hk ⟨e.1.symm, e.2.symm⟩
            simp only [if_neg this, h]
        rcases hs : saveGrid rows s g gt gp o with e | s'
        · rw [step_err rows hs]; exact h
        · rw [step_ok rows hs]
          unfold saveGrid at hs
          split at hs
          · split at hs
            · cases hs; exact h
            · exact key s' hs
          · exact key s' hs
      · intro n
        have : ¬ (gt.toLower = t ∧ gp.toLower = p ∧ rows g = n) := fun e => hk ⟨e.1, e.2.1⟩
        simp [savesTo, this, expected_nil]

theorem savesTo_cons (rows : G → ℕ) (t p : String) (n : ℕ) (op : Op G) (h : List (Op G)) :
    savesTo rows t p n (op :: h) = savesTo rows t p n [op] ++ savesTo rows t p n h := by
  cases op with
  | load a b c => simp [savesTo]
  | save g gt gp o =>
    simp only [savesTo]
    split_ifs <;> simp

theorem savesTo_single (rows : G → ℕ) (t p : String) (n : ℕ) (op : Op G) :
    savesTo rows t p n [op] = [] ∨ ∃ x, savesTo rows t p n [op] = [x] := by
  cases op with
  | load a b c => left; rfl
  | save g gt gp o =>
    simp only [savesTo]
    split_ifs
    · right; exact ⟨_, rfl⟩
    · left; rfl

/-- the dictionary after any history, seen through the specification. -/
theorem run_known (rows : G → ℕ) (hist : List (Op G)) (s : Store G) (t p : String)
    (d : ℕ → Option G) (h : s t p = some d) :
    ∃ d', run rows s hist t p = some d' ∧ ∀ n, d' n = expected (d n) (savesTo rows t p n hist) := by
  induction hist generalizing s d with
  | nil => exact ⟨d, h, fun n => (expected_nil _).symm⟩
  | cons op hist ih =>
    obtain ⟨d1, h1, e1⟩ := step_known rows s op t p d h
    obtain ⟨d2, h2, e2⟩ := ih (step rows s op) d1 h1
    refine ⟨d2, h2, fun n => ?_⟩
    rw [e2, e1, savesTo_cons rows t p n op hist]
    rcases savesTo_single rows t p n op with e | ⟨⟨g, o⟩, e⟩
    · rw [e, expected_nil]; rfl
    · rw [e]
      simp only [List.cons_append, List.nil_append]
      rw [expected_cons _ g o (savesTo rows t p n hist), expected_cons, expected_nil]

theorem run_unknown (rows : G → ℕ) (hist : List (Op G)) (s : Store G) (t p : String)
    (h : s t p = none) : run rows s hist t p = none := by
  induction hist generalizing s with
  | nil => exact h
  | cons op hist ih => exact ih _ (step_unknown rows s op t p h)

end spec

variable {G : Type}

/-- After every history, `load_grid` under a key whose type and parameterization exist returns the
grid the specification `expected` names, or raises KeyError when there is none. Capitalisation of the
arguments is irrelevant. -/
theorem C30_load (rows : G → ℕ) (s : Store G) (hist : List (Op G)) (n : ℕ) (gt gp : String)
    (d : ℕ → Option G) (hd : s gt.toLower gp.toLower = some d) :
    loadGrid (run rows s hist) n gt gp =
      match expected (d n) (savesTo rows gt.toLower gp.toLower n hist) with
      | some g => .ok g
      | none => .error .keyError := by
  obtain ⟨d', h', e⟩ := run_known rows hist s _ _ d hd
  rw [load_eq, h', Option.bind_some, e]

/-- Under an unknown type or parameterization every call raises KeyError, after every history, and a
save has no effect. -/
theorem C30_unknown (rows : G → ℕ) (s : Store G) (hist : List (Op G)) (n : ℕ) (gt gp : String)
    (h : s gt.toLower gp.toLower = none) (g : G) (o : Bool) :
    loadGrid (run rows s hist) n gt gp = .error .keyError ∧
    saveGrid rows (run rows s hist) g gt gp o = .error .keyError := by
  have hr := run_unknown rows hist s _ _ h
  have hl : ∀ n, loadGrid (run rows s hist) n gt gp = .error .keyError := by
    intro n; rw [load_eq, hr]; rfl
  refine ⟨hl n, ?_⟩
  unfold saveGrid
  rw [hl, setItem_none hr]
  cases o <;> rfl

/-- Write once: without `overwrite` the value of a present key never changes. -/
theorem C30_write_once (rows : G → ℕ) (s : Store G) (hist : List (Op G)) (n : ℕ) (gt gp : String)
    (g : G) (h : loadGrid s n gt gp = .ok g)
    (hno : ∀ op ∈ hist, ∀ g t p, op ≠ .save g t p true) :
    loadGrid (run rows s hist) n gt gp = .ok g := by
  rw [load_eq] at h
  rcases hd : s gt.toLower gp.toLower with _ | d
  · rw [hd] at h; cases h
  rw [hd, Option.bind_some] at h
  rcases hg : d n with _ | g'
  · rw [hg] at h; cases h
  rw [hg] at h
  cases h
  rw [C30_load rows s hist n gt gp d hd, hg]
  have : (savesTo rows gt.toLower gp.toLower n hist).filter (·.2) = [] := by
    clear hg hd d
    induction hist with
    | nil => rfl
    | cons op hist ih =>
      have ih' := ih fun o ho => hno o (by simp [ho])
      cases op with
      | load a b c => exact ih'
      | save g2 t2 p2 o2 =>
        have ho : o2 = false := by
          cases o2 with
          | false => rfl
          | true => exact absurd rfl (hno _ (by simp) g2 t2 p2)
        simp only [savesTo]
        split_ifs
        · rw [List.filter_cons_of_neg (by simp [ho])]; exact ih'
        · exact ih'
  unfold expected
  rw [this]; rfl

/-- a concrete history: two saves without overwrite, then one with; payloads are numbers, one row
each, in a dictionary that knows `("so3", "quat")` only. -/
example :
    let s : Store ℕ := fun t p => if t = "so3" ∧ p = "quat" then some (fun _ => none) else none
    let h : List (Op ℕ) := [.save 5 "so3" "quat" false, .save 6 "so3" "quat" false]
    loadGrid (run (fun _ => 1) s h) 1 "so3" "quat" = .ok 5 ∧
    loadGrid (run (fun _ => 1) s (h ++ [.save 7 "so3" "quat" true])) 1 "so3" "quat" = .ok 7 := by
  decide +kernel

end GConv.GridCache

namespace GConv.SO3

open GridCache

/-! ## C31 -/

/-- one call of `uniform_grid`: size, parameterization, what the optimiser produces, `cache_grid`. -/
structure Call where
  size : ℕ
  param : String
  opt : List Euler
  cacheGrid : Bool

/-- the dictionary after a history of calls. -/
noncomputable def runCalls (s : Store (Tensor ℝ)) (h : List Call) : Store (Tensor ℝ) :=
  h.foldl (fun s c => (uniformGrid s c.size c.param c.opt c.cacheGrid).2) s

/-- the shape a grid of the given size must have in a parameterization. -/
def paramShape (p : String) (n : ℕ) : List ℕ :=
  if p = "quat" then [n, 4] else if p = "matrix" then [n, 3, 3] else [n, 3]

theorem uniformGrid_noCache (s : Store (Tensor ℝ)) (n : ℕ) (p : String) (opt : List Euler) :
    (uniformGrid s n p opt false).2 = s := by
  unfold uniformGrid
  by_cases hn : n = 0
  · rw [if_pos hn]
  · rw [if_neg hn]
    split
    · rfl
    · split <;> rfl

theorem runCalls_noCache (s : Store (Tensor ℝ)) (h : List Call) (hc : ∀ c ∈ h, c.cacheGrid = false) :
    runCalls s h = s := by
  unfold runCalls
  induction h generalizing s with
  | nil => rfl
  | cons c h ih =>
    rw [List.foldl_cons, hc c (by simp), uniformGrid_noCache]
    exact ih s fun c hc' => hc c (by simp [hc'])

theorem lower_quat : String.toLower "quat" = "quat" := by decide +kernel
theorem lower_matrix : String.toLower "matrix" = "matrix" := by decide +kernel
theorem lower_so3 : String.toLower "so3" = "so3" := by decide +kernel

theorem paramFn_shape (p : String) (f : List Euler → Tensor ℝ) (h : paramFn p = some f)
    (opt : List Euler) : (f opt).shape = paramShape p opt.length := by
  unfold paramFn at h
  unfold paramShape
  split_ifs at h with h1 h2 h3 <;> cases h
  · simp [h1, quatTensor]
  · have : ¬ (p = "quat") := h1
    simp [h2, matrixTensor]
  · simp [h3, eulerTensor]

theorem paramFn_some (p : String) (hp : p = "quat" ∨ p = "matrix" ∨ p = "euler") :
    ∃ f, paramFn p = some f := by
  unfold paramFn
  rcases hp with rfl | rfl | rfl
  · exact ⟨_, if_pos rfl⟩
  · rw [if_neg (by decide)]; exact ⟨_, if_pos rfl⟩
  · rw [if_neg (by decide), if_neg (by decide)]; exact ⟨_, if_pos rfl⟩

theorem load_lower (s : Store (Tensor ℝ)) (n : ℕ) (p q : String) (h : p.toLower = q.toLower) :
    loadGrid s n "so3" p = loadGrid s n "so3" q := by
  unfold loadGrid; rw [h]

theorem load_initial_euler (n : ℕ) (p : String) (h1 : p.toLower ≠ "quat") (h2 : p.toLower ≠ "matrix") :
    loadGrid initialStore n "so3" p = .error .keyError := by
  unfold loadGrid
  rw [lower_so3]
  have : initialStore "so3" p.toLower = none := by
    unfold initialStore
    rw [if_neg (fun h => h1 h.2), if_neg (fun h => h2 h.2)]
  rw [this]

/-- For every history of calls that never asked for caching, a call with a known parameterization
(in any capitalisation) and positive size returns a grid of exactly that parameterization's shape
(missing: histories with `cache_grid=True`, and matrices of size 1). -/
theorem C31_no_cache_partial (h : List Call) (hc : ∀ c ∈ h, c.cacheGrid = false) (n : ℕ) (hn : 1 ≤ n)
    (p : String) (hp : p.toLower = "quat" ∨ p.toLower = "matrix" ∨ p.toLower = "euler")
    (h1 : p.toLower = "matrix" → n ≠ 1) (opt : List Euler) (ho : opt.length = n) :
    ∃ g, (uniformGrid (runCalls initialStore h) n p opt false).1 = .ok g ∧
      g.shape = paramShape p.toLower n := by
  rw [runCalls_noCache _ _ hc]
  obtain ⟨f, hf⟩ := paramFn_some _ hp
  unfold uniformGrid
  rw [if_neg (by omega)]
  have hcomp : loadGrid initialStore n "so3" p = .error .keyError →
      ∃ g, (match loadGrid initialStore n "so3" p with
        | .ok g => ((.ok g, initialStore) : Except PyErr (Tensor ℝ) × Store (Tensor ℝ))
        | .error _ => match paramFn p.toLower with
          | none => (.error .valueError, initialStore)
          | some f => if false = true then
              match saveGrid rows0 initialStore (eulerTensor opt) "so3" p.toLower false with
              | .error e => (.error e, initialStore)
              | .ok s' => (.ok (f opt), s')
            else (.ok (f opt), initialStore)).1 = .ok g ∧ g.shape = paramShape p.toLower n := by
    intro he
    rw [he, hf]
    exact ⟨f opt, rfl, by rw [paramFn_shape _ f hf, ho]⟩
  by_cases hr : n ≤ 24
  · obtain ⟨⟨gq, e1, s1⟩, hm⟩ := C32_shapes_partial n hn hr
    rcases hp with hp | hp | hp
    · rw [load_lower _ n p "quat" (by rw [hp, lower_quat]), e1]
      exact ⟨gq, rfl, by rw [s1, hp]; rfl⟩
    · obtain ⟨gm, e2, s2⟩ := hm (h1 hp)
      rw [load_lower _ n p "matrix" (by rw [hp, lower_matrix]), e2]
      exact ⟨gm, rfl, by rw [s2, hp]; rfl⟩
    · exact hcomp (load_initial_euler n p (by rw [hp]; decide) (by rw [hp]; decide))
  · obtain ⟨a1, a2⟩ := C32_absent n (by omega)
    apply hcomp
    rcases hp with hp | hp | hp
    · rw [load_lower _ n p "quat" (by rw [hp, lower_quat]), a1]
    · rw [load_lower _ n p "matrix" (by rw [hp, lower_matrix]), a2]
    · exact load_initial_euler n p (by rw [hp]; decide) (by rw [hp]; decide)

/-- Unknown parameterizations raise ValueError for every positive size (after every history without
caching; with size 0 the empty tensor is returned whatever the string). -/
theorem C31_unknown_param (h : List Call) (hc : ∀ c ∈ h, c.cacheGrid = false) (n : ℕ) (p : String)
    (hp : p.toLower ≠ "quat" ∧ p.toLower ≠ "matrix" ∧ p.toLower ≠ "euler") (opt : List Euler)
    (c : Bool) :
    (uniformGrid (runCalls initialStore h) n p opt c).1 =
      if n = 0 then .ok ⟨[0], fun _ => 0⟩ else .error .valueError := by
  rw [runCalls_noCache _ _ hc]
  unfold uniformGrid
  by_cases hn : n = 0
  · rw [if_pos hn, if_pos hn]
  · rw [if_neg hn, if_neg hn]
    rw [load_initial_euler n p hp.1 hp.2.1]
    have : paramFn p.toLower = none := by
      unfold paramFn
      rw [if_neg hp.1, if_neg hp.2.1, if_neg hp.2.2]
    rw [this]

/-- What caching does: once a grid has been computed with `cache_grid=True` for a known key, EVERY
later call for that key returns the raw Euler angles of the optimiser. -/
theorem C31_after_caching (s : Store (Tensor ℝ)) (n : ℕ) (hn : 1 ≤ n) (p : String)
    (hp : p.toLower = "quat" ∨ p.toLower = "matrix") (d : ℕ → Option (Tensor ℝ))
    (hd : s "so3" p.toLower = some d) (habs : d n = none) (hpp : p.toLower.toLower = p.toLower)
    (opt : List Euler) (ho : opt.length = n) (opt' : List Euler) (c' : Bool) :
    (uniformGrid (uniformGrid s n p opt true).2 n p opt' c').1 = .ok (eulerTensor opt) := by
  obtain ⟨f, hf⟩ := paramFn_some p.toLower (by tauto)
  have hl : loadGrid s n "so3" p = .error .keyError := by
    rw [GridCache.load_eq, lower_so3, hd, Option.bind_some, habs]
  have hrow : rows0 (eulerTensor opt) = n := by simp [rows0, eulerTensor, ho]
  have hsave : saveGrid rows0 s (eulerTensor opt) "so3" p.toLower false =
      GridCache.setItem s "so3" p.toLower n (eulerTensor opt) := by
    unfold saveGrid
    rw [hrow, lower_so3, hpp, load_lower s n p.toLower p hpp, hl]
    rfl
  have hst : (uniformGrid s n p opt true).2 "so3" p.toLower =
      some (fun m => if m = n then some (eulerTensor opt) else d m) := by
    unfold uniformGrid
    rw [if_neg (by omega), hl, hf]
    dsimp only
    rw [if_pos rfl, hsave, GridCache.setItem_some hd]
    simp
  have hl2 : loadGrid (uniformGrid s n p opt true).2 n "so3" p = .ok (eulerTensor opt) := by
    rw [GridCache.load_eq, lower_so3, hst]
    simp
  generalize (uniformGrid s n p opt true).2 = s2 at hl2
  unfold uniformGrid
  rw [if_neg (by omega), hl2]

/-- The property fails: after one caching call a request for quaternions of size 25 is answered with
a `(25, 3)` tensor. -/
theorem C31_violated :
    ¬ ∀ (h : List Call), (∀ c ∈ h, c.opt.length = c.size) → ∀ (n : ℕ), 1 ≤ n →
      ∀ (opt : List Euler), opt.length = n → ∀ g,
      (uniformGrid (runCalls initialStore h) n "quat" opt false).1 = .ok g → g.shape = [n, 4] := by
  intro hall
  have hq : initialStore "so3" (String.toLower "quat") =
      some fun n => (cachedQuats n).map quatTensor := by
    rw [lower_quat]; unfold initialStore; simp
  have h1 := C31_after_caching initialStore 25 (by norm_num) "quat" (Or.inl lower_quat) _ hq
    (by rw [(cached_none 25 (by norm_num)).1]; rfl) (by rw [lower_quat, lower_quat])
    (List.replicate 25 0) (by simp) (List.replicate 25 0) false
  have := hall [⟨25, "quat", List.replicate 25 0, true⟩] (by simp) 25 (by norm_num)
    (List.replicate 25 0) (by simp) _ h1
  simp [eulerTensor] at this

/-- Asking to cache an Euler grid raises KeyError instead of returning a grid. -/
theorem C31_cache_euler (n : ℕ) (hn : 1 ≤ n) (opt : List Euler) :
    (uniformGrid initialStore n "euler" opt true).1 = .error .keyError := by
  have hle : String.toLower "euler" = "euler" := by decide +kernel
  obtain ⟨f, hf⟩ := paramFn_some "euler" (by tauto)
  have hl : ∀ m, loadGrid initialStore m "so3" "euler" = .error .keyError := fun m =>
    load_initial_euler m "euler" (by rw [hle]; decide) (by rw [hle]; decide)
  unfold uniformGrid
  rw [if_neg (by omega), hl, hle, hf]
  have : saveGrid rows0 initialStore (eulerTensor opt) "so3" "euler" false = .error .keyError := by
    unfold saveGrid
    rw [hl, hle, lower_so3]
    have hi : initialStore "so3" "euler" = none := by unfold initialStore; simp
    rw [GridCache.setItem_none hi]; rfl
  simp only [this, if_true]

end GConv.SO3

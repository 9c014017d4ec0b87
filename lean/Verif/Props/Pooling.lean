import Verif.Model.Pooling
import Verif.Lemmas.NN
import Verif.Props.ConvForward

/-! # C67, C68, C69: pooling -/

namespace GConv.Pooling

open Tensor Spec

variable {G : Type}

/-! ## Flattening -/

theorem flattenFrom_two {α : Type} (x : Tensor α) (N C : ℕ) (s : List ℕ) (hs : s ≠ []) (hx : x.shape = N :: C :: s) :
    ∃ y, x.flattenFrom 2 = .ok y ∧ y.shape = [N, C, s.prod] ∧
      ∀ b c j, b < N → c < C → j < s.prod → y.get [b, c, j] = x.get (b :: c :: unravel s j) := by
  unfold flattenFrom
  have hl : 2 < x.shape.length := by
    rw [hx]
    cases s with
    | nil => exact absurd rfl hs
    | cons a s => simp
  rw [if_pos hl, hx]
  refine ⟨_, view_ok (by rw [hx]; simp [Nat.mul_assoc]), rfl, fun b c j hb hc hj => ?_⟩
  refine Conv.view_get (by rw [hx]; simp [hb, hc, unravel_InB hj]) ?_
  rw [hx]
  simp only [ravel, List.take_succ_cons, List.take_zero, List.cons_append, List.nil_append, List.drop_succ_cons,
    List.drop_zero, List.prod_cons, List.prod_nil, ravel_unravel hj]
  ring

/-! ## C68 -/

/-- `GAvgGlobalPool` returns the mean over group and space. -/
theorem C68_avg_global_partial (x : Tensor ℝ) (N C : ℕ) (s : List ℕ) (hs : s ≠ []) (hx : x.shape = N :: C :: s) :
    ∃ y, avgGlobal x = .ok (.tensor y) ∧ y.shape = [N, C, 1] ∧
      ∀ b c, b < N → c < C → y.get [b, c, 0] = meanOver s fun i => x.get (b :: c :: i) := by
  obtain ⟨y, e1, e2, e3⟩ := flattenFrom_two x N C s hs hx
  unfold avgGlobal
  rw [e1, ok_bind]
  unfold meanDim
  rw [if_pos (by rw [e2]; simp), ok_bind]
  refine ⟨_, rfl, by rw [e2]; rfl, fun b c hb hc => ?_⟩
  show (y.along 2 [b, c]).sum / _ = _
  have hp : y.shape.getD 2 0 = s.prod := by rw [e2]; rfl
  unfold along
  rw [hp]
  unfold meanOver
  rw [← sum_unravel s]
  congr 2
  refine List.map_congr_left fun j hj => ?_
  exact e3 b c j hb hc (List.mem_range.1 hj)

/-- `GAvgGroupPool` returns the mean over the group axis at every position. -/
theorem C68_avg_group_partial (x : Tensor ℝ) (N C n : ℕ) (S : List ℕ) (hx : x.shape = N :: C :: n :: S) :
    ∃ y, avgGroup x = .ok (.tensor y) ∧ y.shape = N :: C :: S ∧
      ∀ b c q, y.get (b :: c :: q) = (∑ h ∈ Finset.range n, x.get (b :: c :: h :: q)) / n := by
  unfold avgGroup meanDim
  rw [if_pos (by rw [hx]; simp), ok_bind]
  refine ⟨_, rfl, by rw [hx]; rfl, fun b c q => ?_⟩
  show (x.along 2 (b :: c :: q)).sum / _ = _
  have hp : x.shape.getD 2 0 = n := by rw [hx]; rfl
  unfold along
  rw [hp, ← sum_map_range]
  rfl

/-- `GMaxGroupPool` returns a pair: the maxima over the group axis and the group positions where they are
attained. -/
theorem C68_max_group_partial (x : Tensor ℝ) (N C n : ℕ) (S : List ℕ) (hx : x.shape = N :: C :: n :: S) (hn : 0 < n) :
    ∃ v i, maxGroup x = .ok (.pair v i) ∧ v.shape = N :: C :: S ∧ i.shape = N :: C :: S ∧
      ∀ b c q, IsMaxOver [n] (fun h => x.get (b :: c :: h ++ q)) (v.get (b :: c :: q)) ∧
        i.get (b :: c :: q) < n ∧ x.get (b :: c :: i.get (b :: c :: q) :: q) = v.get (b :: c :: q) := by
  have hp : x.shape.getD 2 0 = n := by rw [hx]; rfl
  unfold maxGroup maxDim
  rw [if_pos (by rw [hp]; exact hn), ok_bind]
  refine ⟨_, _, rfl, by rw [hx]; rfl, by rw [hx]; rfl, fun b c q => ?_⟩
  have ha : x.along 2 (b :: c :: q) = (List.range n).map fun h => x.get (b :: c :: h :: q) := by
    unfold along; rw [hp]; rfl
  obtain ⟨h1, h2, h3⟩ := max_range n (fun h => x.get (b :: c :: h :: q)) hn
  rw [← ha] at h1 h2 h3
  refine ⟨⟨⟨[argmax (x.along 2 (b :: c :: q))], by simp [h1], h2.symm⟩, fun j hj => ?_⟩, h1, h2.symm⟩
  obtain ⟨i, _, rfl, hi, ht⟩ := InB_cons_left hj
  cases InB_nil_left ht
  show _ ≤ (x.along 2 (b :: c :: q)).getD (argmax (x.along 2 (b :: c :: q))) 0
  rw [h2]
  exact h3 i hi

/-- `GMaxGlobalPool` returns a pair: the maxima over group and space and their flat positions. -/
theorem C68_max_global_partial (x : Tensor ℝ) (N C : ℕ) (s : List ℕ) (hs : s ≠ []) (hp : 0 < s.prod)
    (hx : x.shape = N :: C :: s) :
    ∃ v i, maxGlobal x = .ok (.pair v i) ∧ v.shape = [N, C, 1] ∧ i.shape = [N, C, 1] ∧
      ∀ b c, b < N → c < C → IsMaxOver s (fun j => x.get (b :: c :: j)) (v.get [b, c, 0]) ∧
        i.get [b, c, 0] < s.prod ∧ x.get (b :: c :: unravel s (i.get [b, c, 0])) = v.get [b, c, 0] := by
  obtain ⟨y, e1, e2, e3⟩ := flattenFrom_two x N C s hs hx
  have hq : y.shape.getD 2 0 = s.prod := by rw [e2]; rfl
  unfold maxGlobal
  rw [e1, ok_bind]
  unfold maxDim
  rw [if_pos (by rw [hq]; exact hp), ok_bind]
  refine ⟨_, _, rfl, by rw [e2]; rfl, by rw [e2]; rfl, fun b c hb hc => ?_⟩
  have ha : y.along 2 [b, c] = (List.range s.prod).map fun j => x.get (b :: c :: unravel s j) := by
    unfold along
    rw [hq]
    exact List.map_congr_left fun j hj => e3 b c j hb hc (List.mem_range.1 hj)
  obtain ⟨h1, h2, h3⟩ := max_range s.prod (fun j => x.get (b :: c :: unravel s j)) hp
  rw [← ha] at h1 h2 h3
  refine ⟨⟨⟨unravel s (argmax (y.along 2 [b, c])), unravel_InB h1, h2.symm⟩, fun i hi => ?_⟩, h1, h2.symm⟩
  show _ ≤ (y.along 2 [b, c]).getD (argmax (y.along 2 [b, c])) 0
  rw [h2]
  have := h3 (ravel s i) (ravel_lt hi)
  rwa [unravel_ravel hi] at this

/-- The max pools never return a single tensor. -/
theorem C68_violated (x t : Tensor ℝ) : maxGroup x ≠ .ok (.tensor t) ∧ maxGlobal x ≠ .ok (.tensor t) := by
  constructor
  · unfold maxGroup
    cases x.maxDim 2 with
    | error e => rw [error_bind]; exact fun h => by cases h
    | ok y => rw [ok_bind]; exact fun h => by cases h
  · unfold maxGlobal
    cases x.flattenFrom 2 with
    | error e => rw [error_bind]; exact fun h => by cases h
    | ok y =>
      rw [ok_bind]
      cases y.maxDim 2 with
      | error e => rw [error_bind]; exact fun h => by cases h
      | ok z => rw [ok_bind]; exact fun h => by cases h

/-- a concrete feature map: 2 images, 3 channels, 4 group elements, 5 x 6 cells. -/
noncomputable def exMap : Tensor ℝ := ⟨[2, 3, 4, 5, 6], fun i => (i.sum : ℝ)⟩

example : ∃ v i, maxGlobal exMap = .ok (.pair v i) ∧ v.shape = [2, 3, 1] := by
  obtain ⟨v, i, h1, h2, -⟩ := C68_max_global_partial exMap 2 3 [4, 5, 6] (by simp) (by norm_num) rfl
  exact ⟨v, i, h1, h2⟩

/-! ## C67 -/

/-- The global pools do not change when group and spatial positions are reordered in any way (also between
boxes of different extents): `x'` holds at position `φ i` what `x` holds at position `i`. -/
theorem C67_global (x x' : Tensor ℝ) (N C : ℕ) (s t : List ℕ) (hs : s ≠ []) (ht : t ≠ []) (hp : 0 < s.prod)
    (hx : x.shape = N :: C :: s) (hx' : x'.shape = N :: C :: t) (φ : List ℕ → List ℕ) (hφ : BoxBijection s t φ)
    (h : ∀ b c i, b < N → c < C → InB s i → x'.get (b :: c :: φ i) = x.get (b :: c :: i)) :
    (∃ y y', avgGlobal x = .ok (.tensor y) ∧ avgGlobal x' = .ok (.tensor y') ∧ y.shape = [N, C, 1] ∧ y'.shape = [N, C, 1] ∧
      ∀ b c, b < N → c < C → y'.get [b, c, 0] = y.get [b, c, 0]) ∧
    (∃ v i v' i', maxGlobal x = .ok (.pair v i) ∧ maxGlobal x' = .ok (.pair v' i') ∧ v.shape = [N, C, 1] ∧
      v'.shape = [N, C, 1] ∧ ∀ b c, b < N → c < C → v'.get [b, c, 0] = v.get [b, c, 0]) := by
  constructor
  · obtain ⟨y, a1, a2, a3⟩ := C68_avg_global_partial x N C s hs hx
    obtain ⟨y', b1, b2, b3⟩ := C68_avg_global_partial x' N C t ht hx'
    refine ⟨y, y', a1, b1, a2, b2, fun b c hb hc => ?_⟩
    rw [a3 b c hb hc, b3 b c hb hc]
    exact (meanOver_bij hφ fun i hi => h b c i hb hc hi).symm
  · obtain ⟨v, i, a1, a2, -, a3⟩ := C68_max_global_partial x N C s hs hp hx
    obtain ⟨v', i', b1, b2, -, b3⟩ := C68_max_global_partial x' N C t ht (by rw [← prod_bij hφ]; exact hp) hx'
    refine ⟨v, i, v', i', a1, b1, a2, b2, fun b c hb hc => ?_⟩
    exact isMaxOver_unique (b3 b c hb hc).1 (isMaxOver_bij hφ (fun i hi => h b c i hb hc hi) (a3 b c hb hc).1)

/-- The group pools do not change when group positions are reordered; a movement `φ` of the spatial positions
moves the result in the same way. -/
theorem C67_group (x x' : Tensor ℝ) (N C n : ℕ) (S' S : List ℕ) (hn : 0 < n)
    (hx : x.shape = N :: C :: n :: S') (hx' : x'.shape = N :: C :: n :: S) (π : Equiv.Perm (Fin n)) (φ : List ℕ → List ℕ)
    (h : ∀ b c (k : Fin n) q, b < N → c < C → InB S' q → x'.get (b :: c :: (π k : ℕ) :: φ q) = x.get (b :: c :: (k : ℕ) :: q)) :
    (∃ y y', avgGroup x = .ok (.tensor y) ∧ avgGroup x' = .ok (.tensor y') ∧ y.shape = N :: C :: S' ∧ y'.shape = N :: C :: S ∧
      ∀ b c q, b < N → c < C → InB S' q → y'.get (b :: c :: φ q) = y.get (b :: c :: q)) ∧
    (∃ v i v' i', maxGroup x = .ok (.pair v i) ∧ maxGroup x' = .ok (.pair v' i') ∧ v.shape = N :: C :: S' ∧
      v'.shape = N :: C :: S ∧ ∀ b c q, b < N → c < C → InB S' q → v'.get (b :: c :: φ q) = v.get (b :: c :: q)) := by
  constructor
  · obtain ⟨y, a1, a2, a3⟩ := C68_avg_group_partial x N C n S' hx
    obtain ⟨y', b1, b2, b3⟩ := C68_avg_group_partial x' N C n S hx'
    refine ⟨y, y', a1, b1, a2, b2, fun b c q hb hc hq => ?_⟩
    rw [a3, b3]
    congr 1
    rw [Finset.sum_range, Finset.sum_range]
    symm
    refine Fintype.sum_equiv π _ _ fun k => ?_
    exact (h b c k q hb hc hq).symm
  · obtain ⟨v, i, a1, a2, -, a3⟩ := C68_max_group_partial x N C n S' hx hn
    obtain ⟨v', i', b1, b2, -, b3⟩ := C68_max_group_partial x' N C n S hx' hn
    refine ⟨v, i, v', i', a1, b1, a2, b2, fun b c q hb hc hq => ?_⟩
    obtain ⟨⟨-, m1⟩, j1, k1⟩ := a3 b c q
    obtain ⟨⟨-, m2⟩, j2, k2⟩ := b3 b c (φ q)
    refine le_antisymm ?_ ?_
    · have := h b c (π.symm ⟨_, j2⟩) q hb hc hq
      rw [Equiv.apply_symm_apply] at this
      rw [← k2, this]
      exact m1 [_] (by simp)
    · have := h b c ⟨_, j1⟩ q hb hc hq
      rw [← k1, ← this]
      exact m2 [_] (by simp)

/-! ## C69 -/

theorem zeros_InB : ∀ {O : List ℕ}, O.prod = 1 → ∀ {o : List ℕ}, InB O o → o = List.replicate O.length 0
  | [], _, o, h => InB_nil_left h
  | n :: O, hO, o, h => by
    obtain ⟨i, t, rfl, hi, ht⟩ := InB_cons_left h
    rw [List.prod_cons] at hO
    have h1 := Nat.eq_one_of_mul_eq_one_right hO
    have h2 := Nat.eq_one_of_mul_eq_one_left hO
    rw [zeros_InB h2 ht, List.length_cons, List.replicate_succ, show i = 0 by omega]

theorem windows_InB : ∀ {ws : List (List ℕ)} {S : List ℕ}, List.Forall₂ (fun w s => ∀ i ∈ w, i < s) ws S →
    ∀ q ∈ F.windows ws, InB S q
  | [], _, h, q, hq => by
    cases h
    rw [F.windows, List.mem_singleton] at hq
    rw [hq]; exact InB_nil_nil
  | w :: ws, _, h, q, hq => by
    cases h with
    | cons h1 h2 =>
      rw [F.windows, List.mem_flatMap] at hq
      obtain ⟨i, hi, hq⟩ := hq
      obtain ⟨t, ht, rfl⟩ := List.mem_map.1 hq
      exact InB_cons.2 ⟨h1 i hi, windows_InB h2 t ht⟩

theorem zip_window {α : Type} (f : α → ℕ → ℕ → List ℕ) (hf : ∀ a s o, ∀ i ∈ f a s o, i < s) :
    ∀ {ax : List α} {S o : List ℕ}, ax.length = S.length → o.length = S.length →
      List.Forall₂ (fun w s => ∀ i ∈ w, i < s)
        (List.zipWith (fun (g : ℕ → List ℕ) i => g i) (List.zipWith (fun a s => f a s) ax S) o) S
  | [], [], [], _, _ => .nil
  | a :: ax, s :: S, o :: os, h1, h2 => by
    simp only [List.zipWith_cons_cons]
    exact .cons (hf a s o) (zip_window f hf (by simpa using h1) (by simpa using h2))
  | [], _ :: _, _, h, _ => by simp at h
  | _ :: _, [], _, h, _ => by simp at h
  | _, [], _ :: _, _, h => by simp at h
  | _, _ :: _, [], _, h => by simp at h

theorem window_lt (a : F.PoolAxis) (s o i : ℕ) (h : i ∈ a.window s o) : i < s := by
  unfold F.PoolAxis.window at h
  rw [List.mem_filterMap] at h
  obtain ⟨j, -, h⟩ := h
  split at h
  · rename_i hc
    cases h; exact hc.2
  · cases h

theorem adaptive_lt (s n o i : ℕ) (h : i ∈ F.adaptiveWindow s n o) : i < s := by
  unfold F.adaptiveWindow at h
  exact List.mem_range.1 (List.mem_filter.1 h).1

theorem zipWith_flip {α : Type} (f : ℕ → ℕ → α) : ∀ (S out : List ℕ),
    List.zipWith (fun a s => f s a) out S = List.zipWith f S out
  | [], [] => rfl
  | [], _ :: _ => rfl
  | _ :: _, [] => rfl
  | s :: S, o :: out => by rw [List.zipWith_cons_cons, List.zipWith_cons_cons, zipWith_flip]

/-- a pooling window covers only cells of the signal. -/
theorem cells_InB (p : F.Pool) {S o : List ℕ} (hS : S.length = p.rank) (ho : o.length = S.length) :
    ∀ q ∈ p.cells S o, InB S q := by
  cases p with
  | max ax => exact windows_InB (zip_window (fun a s o => a.window s o) window_lt hS.symm ho)
  | avg ax => exact windows_InB (zip_window (fun a s o => a.window s o) window_lt hS.symm ho)
  | adaptiveMax out =>
    refine windows_InB ?_
    rw [← zipWith_flip]
    exact zip_window (fun n s o => F.adaptiveWindow s n o) (fun n s o => adaptive_lt s n o) hS.symm ho
  | adaptiveAvg out =>
    refine windows_InB ?_
    rw [← zipWith_flip]
    exact zip_window (fun n s o => F.adaptiveWindow s n o) (fun n s o => adaptive_lt s n o) hS.symm ho

theorem value_congr (p : F.Pool) {S o : List ℕ} (hS : S.length = p.rank) (ho : o.length = S.length) {f g : List ℕ → ℝ}
    (h : ∀ q, InB S q → f q = g q) : p.value S o f = p.value S o g := by
  have : (p.cells S o).map f = (p.cells S o).map g :=
    List.map_congr_left fun q hq => h q (cells_InB p hS ho q hq)
  unfold F.Pool.value
  rw [this]

theorem mapM_id_length {α : Type} : ∀ {l : List (Option α)} {r : List α}, l.mapM id = some r → r.length = l.length
  | [], r, h => by
    rw [List.mapM_nil] at h
    cases h; rfl
  | a :: l, r, h => by
    rw [List.mapM_cons] at h
    cases a with
    | none => cases h
    | some a =>
      cases hl : l.mapM id with
      | none => rw [hl] at h; cases h
      | some t =>
        rw [hl] at h
        cases h
        rw [List.length_cons, List.length_cons, mapM_id_length hl]

theorem outDims_length (p : F.Pool) {S O : List ℕ} (hS : S.length = p.rank) (hO : p.outDims S = some O) :
    O.length = S.length := by
  cases p with
  | max ax =>
    have := mapM_id_length hO
    rw [this, List.length_zipWith]
    rw [show (F.Pool.max ax).rank = ax.length from rfl] at hS
    omega
  | avg ax =>
    have := mapM_id_length hO
    rw [this, List.length_zipWith]
    rw [show (F.Pool.avg ax).rank = ax.length from rfl] at hS
    omega
  | adaptiveMax out =>
    unfold F.Pool.outDims at hO
    dsimp only at hO
    split at hO
    · cases hO; exact hS.symm
    · cases hO
  | adaptiveAvg out =>
    unfold F.Pool.outDims at hO
    dsimp only at hO
    split at hO
    · cases hO; exact hS.symm
    · cases hO

/-- The spatial pools give a result only when a single cell is left after pooling; then its value is the pooled
value, and the spatial axes are dropped.  In every other case the call raises RuntimeError. -/
theorem C69_partial (p : F.Pool) (x : Tensor ℝ) (H : Tensor G) (N C n : ℕ) (S O : List ℕ) (hN : 0 < N) (hC : 0 < C) (hn : 0 < n)
    (hS : S.length = p.rank) (hx : x.shape = N :: C :: n :: S) (hO : p.outDims S = some O) :
    (O.prod = 1 → ∃ y, spatial p x H = .ok (y, H) ∧ y.shape = [N, C, n] ∧
      ∀ b c h, b < N → c < C → h < n →
        y.get [b, c, h] = p.value S (List.replicate O.length 0) fun q => x.get (b :: c :: h :: q)) ∧
    (O.prod ≠ 1 → spatial p x H = .error .runtimeError) := by
  obtain ⟨y, e1, e2, e3⟩ := Conv.view_merge hx
  have hf : x.flatten 1 2 = .ok y := by
    unfold flatten
    rw [if_pos (by rw [hx]; simp), ← e1, hx]
    simp
  have happ : ∃ z, p.apply y = .ok z ∧ z.shape = N :: C * n :: O ∧
      ∀ b k o, z.get (b :: k :: o) = p.value S o fun q => y.get (b :: k :: q) := by
    unfold F.Pool.apply
    have hl : y.shape.length - p.rank = 2 := by rw [e2, List.length_cons, List.length_cons, hS]; omega
    have hcond : (y.shape.length = p.rank + 1 ∨ y.shape.length = p.rank + 2) ∧
        0 < y.shape.getD (y.shape.length - p.rank - 1) 0 := by
      rw [hl, e2]
      refine ⟨Or.inr (by simp [hS]), Nat.mul_pos hC hn⟩
    dsimp only
    rw [if_pos hcond, hl, e2, show (N :: C * n :: S).drop 2 = S from rfl, hO]
    exact ⟨_, rfl, rfl, fun b k o => rfl⟩
  obtain ⟨z, z1, z2, z3⟩ := happ
  unfold spatial
  rw [hf, ok_bind, z1, ok_bind, hx, show (N :: C :: n :: S).take 3 = [N, C, n] from rfl]
  constructor
  · intro h1
    have hz : z.shape.prod = [N, C, n].prod := by rw [z2]; simp [h1, Nat.mul_assoc]
    rw [view_ok hz, ok_bind]
    refine ⟨_, rfl, rfl, fun b c h hb hc hh => ?_⟩
    show z.get (unravel z.shape (ravel [N, C, n] [b, c, h])) = _
    have hin : InB z.shape (b :: (c * n + h) :: List.replicate O.length 0) := by
      rw [z2]
      refine InB_cons.2 ⟨hb, InB_cons.2 ⟨Conv.row_lt hc hh, ?_⟩⟩
      have := unravel_InB (s := O) (n := 0) (by omega)
      rwa [zeros_InB h1 this] at this
    rw [Conv.view_get hin]
    · rw [z3]
      refine value_congr p hS (by rw [List.length_replicate, outDims_length p hS hO]) fun q hq => ?_
      exact e3 b c h q hb hc hh hq
    · have h0 : ravel O (List.replicate O.length 0) = 0 := by
        have h2 := ravel_unravel (s := O) (n := 0) (by omega)
        rwa [zeros_InB h1 (unravel_InB (s := O) (n := 0) (by omega))] at h2
      rw [z2]
      simp only [ravel, List.prod_cons, List.prod_nil, h0, h1]
      ring
  · intro h1
    have hz : z.shape.prod ≠ [N, C, n].prod := by
      rw [z2]
      simp only [List.prod_cons, List.prod_nil, Nat.mul_one]
      intro h
      rw [Nat.mul_assoc, ← Nat.mul_assoc C n] at h
      have := Nat.eq_of_mul_eq_mul_left hN h
      have h4 : C * n * O.prod = C * n * 1 := by rw [Nat.mul_one]; exact this
      exact h1 (Nat.eq_of_mul_eq_mul_left (Nat.mul_pos hC hn) h4)
    unfold view
    rw [if_neg hz, error_bind]

/-- The property as stated fails for every input and every pooling module with at least one spatial axis: no call
returns a tensor with pooled spatial axes. -/
theorem C69_violated (p : F.Pool) (x : Tensor ℝ) (H H' : Tensor G) (N C n : ℕ) (S O : List ℕ) (hN : 0 < N) (hC : 0 < C) (hn : 0 < n)
    (hr : 0 < p.rank) (hS : S.length = p.rank) (hx : x.shape = N :: C :: n :: S) (hO : p.outDims S = some O) (y : Tensor ℝ) :
    ¬ (spatial p x H = .ok (y, H') ∧ y.shape = N :: C :: n :: O) := by
  rintro ⟨h1, h2⟩
  obtain ⟨a, b⟩ := C69_partial p x H N C n S O hN hC hn hS hx hO
  by_cases hp : O.prod = 1
  · obtain ⟨z, z1, z2, -⟩ := a hp
    rw [z1] at h1
    cases h1
    rw [z2] at h2
    have h3 := outDims_length p hS hO
    cases O with
    | nil => simp at h3; omega
    | cons o O => simp at h2
  · rw [b hp] at h1
    cases h1

/-- `GMaxSpatialPool2d(2)` (stride 2) on 5 x 6 cells: 2 x 3 cells should be left, the call raises. -/
example (H : Tensor G) : spatial (.max [⟨2, 2, 0, 1⟩, ⟨2, 2, 0, 1⟩]) exMap H = .error .runtimeError := by
  have hO : (F.Pool.max [⟨2, 2, 0, 1⟩, ⟨2, 2, 0, 1⟩]).outDims [5, 6] = some [2, 3] := by
    simp [F.Pool.outDims, F.PoolAxis.out]
  exact (C69_partial _ exMap H 2 3 4 [5, 6] [2, 3] (by norm_num) (by norm_num) (by norm_num) rfl rfl hO).2 (by norm_num)

/-- `GAdaptiveAvgSpatialPool2d(1)`: one cell is left, the result has no spatial axes. -/
example (H : Tensor G) : ∃ y, spatial (.adaptiveAvg [1, 1]) exMap H = .ok (y, H) ∧ y.shape = [2, 3, 4] := by
  have hO : (F.Pool.adaptiveAvg [1, 1]).outDims [5, 6] = some [1, 1] := by simp [F.Pool.outDims]
  obtain ⟨y, h1, h2, -⟩ := (C69_partial _ exMap H 2 3 4 [5, 6] [1, 1] (by norm_num) (by norm_num) (by norm_num) rfl rfl hO).1 rfl
  exact ⟨y, h1, h2⟩

end GConv.Pooling

import Verif.Model.Normalization
import Verif.Lemmas.NN
import Verif.Props.ConvForward

/-! # C70, C74, C75: normalisation -/

namespace GConv.Normalization

open Tensor Spec F

variable {G : Type}

/-- `(N, C, n, Z, *s) -> (N, C, n * Z, *s)`. -/
theorem merge {x : Tensor ℝ} {N C n Z : ℕ} {s : List ℕ} (hx : x.shape = N :: C :: n :: Z :: s) :
    ∃ y, x.view (N :: C :: n * Z :: s) = .ok y ∧ y.shape = N :: C :: n * Z :: s ∧
      ∀ b c h z q, b < N → c < C → h < n → z < Z → InB s q →
        y.get (b :: c :: (h * Z + z) :: q) = x.get (b :: c :: h :: z :: q) := by
  refine ⟨_, view_ok (by rw [hx]; simp [Nat.mul_assoc]), rfl, ?_⟩
  intro b c h z q hb hc hh hz hq
  refine Conv.view_get (by rw [hx]; simp [hb, hc, hh, hz, hq]) ?_
  rw [hx]
  simp only [ravel, List.prod_cons]
  ring

/-- `(N, C, n * Z, *s) -> (N, C, n, Z, *s)`. -/
theorem split {y : Tensor ℝ} {N C n Z : ℕ} {s : List ℕ} (hy : y.shape = N :: C :: n * Z :: s) :
    ∃ x, y.view (N :: C :: n :: Z :: s) = .ok x ∧ x.shape = N :: C :: n :: Z :: s ∧
      ∀ b c h z q, b < N → c < C → h < n → z < Z → InB s q →
        x.get (b :: c :: h :: z :: q) = y.get (b :: c :: (h * Z + z) :: q) := by
  refine ⟨_, view_ok (by rw [hy]; simp [Nat.mul_assoc]), rfl, ?_⟩
  intro b c h z q hb hc hh hz hq
  refine Conv.view_get (by rw [hy]; simp [hb, hc, Conv.row_lt hh hz, hq]) ?_
  rw [hy]
  simp only [ravel, List.prod_cons]
  ring

theorem batch_bij (N n Z : ℕ) (s : List ℕ) : BoxBijection (N :: n :: Z :: s) (N :: n * Z :: s) (merge2 1 Z) :=
  merge_bij [N] n Z s

theorem inst_bij (n Z : ℕ) (s : List ℕ) : BoxBijection (n :: Z :: s) (n * Z :: s) (merge2 0 Z) :=
  merge_bij [] n Z s

/-- the statistics of a channel do not depend on how the axes are merged. -/
theorem channel_merge {x y : Tensor ℝ} {N C n Z : ℕ} {s : List ℕ}
    (h : ∀ b c h z q, b < N → c < C → h < n → z < Z → InB s q →
        y.get (b :: c :: (h * Z + z) :: q) = x.get (b :: c :: h :: z :: q)) {c : ℕ} (hc : c < C) :
    ∀ i, InB (N :: n :: Z :: s) i → channel y c (merge2 1 Z i) = channelOf x c i := by
  intro i hi
  obtain ⟨b, t, rfl, hb, hi⟩ := InB_cons_left hi
  obtain ⟨k, t, rfl, hk, hi⟩ := InB_cons_left hi
  obtain ⟨z, q, rfl, hz, hq⟩ := InB_cons_left hi
  exact h b c k z q hb hc hk hz hq

theorem inst_merge {x y : Tensor ℝ} {N C n Z : ℕ} {s : List ℕ}
    (h : ∀ b c h z q, b < N → c < C → h < n → z < Z → InB s q →
        y.get (b :: c :: (h * Z + z) :: q) = x.get (b :: c :: h :: z :: q)) {b c : ℕ} (hb : b < N) (hc : c < C) :
    ∀ i, InB (n :: Z :: s) i → instChannel y b c (merge2 0 Z i) = x.get (b :: c :: i) := by
  intro i hi
  obtain ⟨k, t, rfl, hk, hi⟩ := InB_cons_left hi
  obtain ⟨z, q, rfl, hz, hq⟩ := InB_cons_left hi
  exact h b c k z q hb hc hk hz hq

/-! ## C70: batch normalisation -/

/-- `GBatchNorm2d/3d` with batch statistics (training mode, or no running statistics): the result has the input's
shape and `H` is passed on; every channel is standardised with mean and variance over batch, group and space. -/
theorem C70_batch_statistics (nd : ℕ) (hnd : 0 < nd) (a : NormArgs) (training : Bool) (hmode : training = true ∨ a.track = false)
    (r : Running) (x : Tensor ℝ) (H : Tensor G) (N C n : ℕ) (S : List ℕ) (hS : S.length = nd) (hx : x.shape = N :: C :: n :: S)
    (hC : a.affine = true ∨ a.track = true → C = a.features) (h1 : (N :: n :: S).prod ≠ 1) :
    ∃ y r', batch nd a training r x H = .ok ((y, H), r') ∧ y.shape = N :: C :: n :: S ∧
      (∀ b c h q, b < N → c < C → h < n → InB S q →
        y.get (b :: c :: h :: q) =
          normalised a.eps (meanOver (N :: n :: S) (channelOf x c)) (varOver (N :: n :: S) (channelOf x c))
            (a.scale c) (a.shift c) (x.get (b :: c :: h :: q))) ∧
      ((training = false ∨ a.track = false) → r' = r) ∧
      (training = true → a.track = true → r'.count = r.count + 1 ∧ ∀ c < C,
        r'.mean c = (1 - averageFactor a (r.count + 1)) * r.mean c +
          averageFactor a (r.count + 1) * meanOver (N :: n :: S) (channelOf x c) ∧
        r'.var c = (1 - averageFactor a (r.count + 1)) * r.var c +
          averageFactor a (r.count + 1) * varUnbiased (N :: n :: S) (channelOf x c)) := by
  obtain ⟨Z, s, rfl⟩ : ∃ Z s, S = Z :: s := by
    cases S with
    | nil => simp at hS; omega
    | cons Z s => exact ⟨Z, s, rfl⟩
  obtain ⟨y, y1, y2, y3⟩ := merge hx
  have hcm : ∀ c, c < C → ∀ i, InB (N :: n :: Z :: s) i → channel y c (merge2 1 Z i) = channelOf x c i :=
    fun c hc => channel_merge y3 hc
  have hmean : ∀ c < C, boxMean (N :: n * Z :: s) (channel y c) = meanOver (N :: n :: Z :: s) (channelOf x c) :=
    fun c hc => (meanOver_bij (batch_bij N n Z s) (hcm c hc)).symm
  have hvar : ∀ c < C, boxVar (N :: n * Z :: s) (channel y c) = varOver (N :: n :: Z :: s) (channelOf x c) :=
    fun c hc => (varOver_bij (batch_bij N n Z s) (hcm c hc)).symm
  have hvu : ∀ c < C, boxVarUnbiased (N :: n * Z :: s) (channel y c) = varUnbiased (N :: n :: Z :: s) (channelOf x c) :=
    fun c hc => (varUnbiased_bij (batch_bij N n Z s) (hcm c hc)).symm
  have hnorm : ∃ w r', batchNorm nd a training r y = .ok (w, r') ∧ w.shape = N :: C :: n * Z :: s ∧
      (∀ idx, w.get idx = standardise a.eps (boxMean (N :: n * Z :: s) (channel y (idx.getD 1 0)))
        (boxVar (N :: n * Z :: s) (channel y (idx.getD 1 0))) (a.scale (idx.getD 1 0)) (a.shift (idx.getD 1 0)) (y.get idx)) ∧
      r' = if training ∧ a.track then r.update (averageFactor a (r.count + 1)) (fun c => boxMean (N :: n * Z :: s) (channel y c))
        (fun c => boxVarUnbiased (N :: n * Z :: s) (channel y c)) else r := by
    unfold batchNorm
    rw [y2]
    dsimp only
    rw [if_neg (by rw [List.length_cons]; rw [List.length_cons] at hS; omega),
      if_pos (by rcases hmode with h | h <;> simp [h]),
      if_neg (by intro h; apply h1; rw [← h]; simp [Nat.mul_assoc]), if_neg (by rintro ⟨h', h⟩; exact h (hC h'))]
    exact ⟨_, _, rfl, rfl, fun idx => rfl, rfl⟩
  obtain ⟨w, r', w1, w2, w3, w4⟩ := hnorm
  obtain ⟨v, v1, v2, v3⟩ := split w2
  refine ⟨v, r', ?_, v2, ?_, ?_, ?_⟩
  · unfold batch folded
    rw [hx]
    dsimp only
    rw [y1, ok_bind, w1, ok_bind, v1, ok_bind]
    rfl
  · intro b c h q hb hc hh hq
    obtain ⟨z, q, rfl, hz, hq⟩ := InB_cons_left hq
    rw [v3 b c h z q hb hc hh hz hq, w3, show (b :: c :: (h * Z + z) :: q).getD 1 0 = c from rfl, hmean c hc, hvar c hc,
      y3 b c h z q hb hc hh hz hq]
    rfl
  · intro h
    rw [w4, if_neg]
    rintro ⟨p1, p2⟩
    rcases h with h | h
    · rw [h] at p1; cases p1
    · rw [h] at p2; cases p2
  · intro p1 p2
    rw [w4, if_pos ⟨p1, p2⟩]
    refine ⟨rfl, fun c hc => ⟨?_, ?_⟩⟩
    · rw [← hmean c hc]; rfl
    · rw [← hvu c hc]; rfl

/-- `GBatchNorm2d/3d` in evaluation mode: the running statistics are used and not changed. -/
theorem C70_batch_eval (nd : ℕ) (hnd : 0 < nd) (a : NormArgs) (ht : a.track = true) (r : Running) (x : Tensor ℝ) (H : Tensor G)
    (N C n : ℕ) (S : List ℕ) (hS : S.length = nd) (hx : x.shape = N :: C :: n :: S) (hC : C = a.features) :
    ∃ y, batch nd a false r x H = .ok ((y, H), r) ∧ y.shape = N :: C :: n :: S ∧
      ∀ b c h q, b < N → c < C → h < n → InB S q →
        y.get (b :: c :: h :: q) = normalised a.eps (r.mean c) (r.var c) (a.scale c) (a.shift c) (x.get (b :: c :: h :: q)) := by
  obtain ⟨Z, s, rfl⟩ : ∃ Z s, S = Z :: s := by
    cases S with
    | nil => simp at hS; omega
    | cons Z s => exact ⟨Z, s, rfl⟩
  obtain ⟨y, y1, y2, y3⟩ := merge hx
  have hnorm : ∃ w, batchNorm nd a false r y = .ok (w, r) ∧ w.shape = N :: C :: n * Z :: s ∧
      ∀ idx, w.get idx = standardise a.eps (r.mean (idx.getD 1 0)) (r.var (idx.getD 1 0)) (a.scale (idx.getD 1 0))
        (a.shift (idx.getD 1 0)) (y.get idx) := by
    unfold batchNorm
    rw [y2]
    dsimp only
    rw [if_neg (by rw [List.length_cons]; rw [List.length_cons] at hS; omega), if_neg (by simp [ht]),
      if_neg (by intro h; exact h hC)]
    exact ⟨_, rfl, rfl, fun idx => rfl⟩
  obtain ⟨w, w1, w2, w3⟩ := hnorm
  obtain ⟨v, v1, v2, v3⟩ := split w2
  refine ⟨v, ?_, v2, ?_⟩
  · unfold batch folded
    rw [hx]
    dsimp only
    rw [y1, ok_bind, w1, ok_bind, v1, ok_bind]
    rfl
  · intro b c h q hb hc hh hq
    obtain ⟨z, q, rfl, hz, hq⟩ := InB_cons_left hq
    rw [v3 b c h z q hb hc hh hz hq, w3, y3 b c h z q hb hc hh hz hq]
    rfl

/-- One value per channel cannot be normalised in training: ValueError. -/
theorem C70_batch_single (nd : ℕ) (a : NormArgs) (training : Bool) (hmode : training = true ∨ a.track = false)
    (r : Running) (x : Tensor ℝ) (H : Tensor G) (N C n : ℕ) (S : List ℕ) (hS : S.length = nd) (hnd : 0 < nd)
    (hx : x.shape = N :: C :: n :: S) (h1 : (N :: n :: S).prod = 1) : batch nd a training r x H = .error .valueError := by
  obtain ⟨Z, s, rfl⟩ : ∃ Z s, S = Z :: s := by
    cases S with
    | nil => simp at hS; omega
    | cons Z s => exact ⟨Z, s, rfl⟩
  obtain ⟨y, y1, y2, y3⟩ := merge hx
  unfold batch folded
  rw [hx]
  dsimp only
  rw [y1, ok_bind]
  unfold batchNorm
  rw [y2]
  dsimp only
  rw [if_neg (by rw [List.length_cons]; rw [List.length_cons] at hS; omega),
    if_pos (by rcases hmode with h | h <;> simp [h]), if_pos (by rw [← h1]; simp [Nat.mul_assoc]), error_bind]

/-! ## C70: instance normalisation -/

/-- `GInstanceNorm2d/3d` with input statistics: every channel of every instance is standardised with mean and
variance over group and space. -/
theorem C70_instance_statistics (nd : ℕ) (hnd : 0 < nd) (a : NormArgs) (training : Bool) (hmode : training = true ∨ a.track = false)
    (r : Running) (x : Tensor ℝ) (H : Tensor G) (N C n : ℕ) (S : List ℕ) (hS : S.length = nd) (hx : x.shape = N :: C :: n :: S)
    (hC : a.affine = true ∨ a.track = true → C = a.features) (h1 : (n :: S).prod ≠ 1) :
    ∃ y r', inst nd a training r x H = .ok ((y, H), r') ∧ y.shape = N :: C :: n :: S ∧
      (∀ b c h q, b < N → c < C → h < n → InB S q →
        y.get (b :: c :: h :: q) =
          normalised a.eps (meanOver (n :: S) fun i => x.get (b :: c :: i)) (varOver (n :: S) fun i => x.get (b :: c :: i))
            (a.scale c) (a.shift c) (x.get (b :: c :: h :: q))) ∧
      ((training = false ∨ a.track = false) → r' = r) ∧
      (training = true → a.track = true → r'.count = r.count ∧ ∀ c < C,
        r'.mean c = (1 - a.momentum.getD 0) * r.mean c +
          a.momentum.getD 0 * ((∑ b ∈ Finset.range N, meanOver (n :: S) fun i => x.get (b :: c :: i)) / N) ∧
        r'.var c = (1 - a.momentum.getD 0) * r.var c +
          a.momentum.getD 0 * ((∑ b ∈ Finset.range N, varUnbiased (n :: S) fun i => x.get (b :: c :: i)) / N)) := by
  obtain ⟨Z, s, rfl⟩ : ∃ Z s, S = Z :: s := by
    cases S with
    | nil => simp at hS; omega
    | cons Z s => exact ⟨Z, s, rfl⟩
  obtain ⟨y, y1, y2, y3⟩ := merge hx
  have hvu : ∀ b < N, ∀ c < C, boxVarUnbiased (n * Z :: s) (instChannel y b c) = varUnbiased (n :: Z :: s) fun i => x.get (b :: c :: i) :=
    fun b hb c hc => (varUnbiased_bij (inst_bij n Z s) (inst_merge y3 hb hc)).symm
  have hone : ∀ f : ℕ → ℝ, boxMean [N] (fun i => f (i.headD 0)) = (∑ b ∈ Finset.range N, f b) / N := by
    intro f
    show sumIdx [N] (fun i => f (i.headD 0)) / (([N].prod : ℕ) : ℝ) = _
    rw [sumIdx_cons, show [N].prod = N by simp]
    congr 1
    refine Finset.sum_congr rfl fun b _ => ?_
    simp [sumIdx, allIdx]
  have hmean : ∀ b < N, ∀ c < C, boxMean (n * Z :: s) (instChannel y b c) = meanOver (n :: Z :: s) fun i => x.get (b :: c :: i) :=
    fun b hb c hc => (meanOver_bij (inst_bij n Z s) (inst_merge y3 hb hc)).symm
  have hvar : ∀ b < N, ∀ c < C, boxVar (n * Z :: s) (instChannel y b c) = varOver (n :: Z :: s) fun i => x.get (b :: c :: i) :=
    fun b hb c hc => (varOver_bij (inst_bij n Z s) (inst_merge y3 hb hc)).symm
  have hnorm : ∃ w r', instanceNorm nd a training r y = .ok (w, r') ∧ w.shape = N :: C :: n * Z :: s ∧
      (∀ idx, w.get idx = standardise a.eps (boxMean (n * Z :: s) (instChannel y (idx.getD 0 0) (idx.getD 1 0)))
        (boxVar (n * Z :: s) (instChannel y (idx.getD 0 0) (idx.getD 1 0))) (a.scale (idx.getD 1 0)) (a.shift (idx.getD 1 0))
        (y.get idx)) ∧
      ((training = false ∨ a.track = false) → r' = r) ∧
      (training = true → a.track = true → r' = { r.update (a.momentum.getD 0)
          (fun c => boxMean [N] fun i => boxMean (n * Z :: s) (instChannel y (i.headD 0) c))
          (fun c => boxMean [N] fun i => boxVarUnbiased (n * Z :: s) (instChannel y (i.headD 0) c)) with count := r.count }) := by
    unfold instanceNorm
    rw [if_neg (by rw [y2]; simp only [List.length_cons]; rw [List.length_cons] at hS; omega)]
    unfold instanceNormBatched
    rw [y2]
    dsimp only
    rw [if_neg (by rw [List.length_cons]; rw [List.length_cons] at hS; omega), if_neg (by rintro ⟨h', h⟩; exact h (hC (Or.inl h'))),
      if_pos (by rcases hmode with h | h <;> simp [h]),
      if_neg (by intro h; apply h1; rw [← h]; simp [Nat.mul_assoc]), if_neg (by rintro ⟨h', h⟩; exact h (hC (Or.inr h')))]
    refine ⟨_, _, rfl, rfl, fun idx => rfl, fun h => if_neg ?_, fun p1 p2 => if_pos ⟨p1, p2⟩⟩
    rintro ⟨p1, p2⟩
    rcases h with h | h
    · rw [h] at p1; cases p1
    · rw [h] at p2; cases p2
  obtain ⟨w, r', w1, w2, w3, w4, w5⟩ := hnorm
  obtain ⟨v, v1, v2, v3⟩ := split w2
  refine ⟨v, r', ?_, v2, ?_, w4, ?_⟩
  · unfold inst folded
    rw [hx]
    dsimp only
    rw [y1, ok_bind, w1, ok_bind, v1, ok_bind]
    rfl
  · intro b c h q hb hc hh hq
    obtain ⟨z, q, rfl, hz, hq⟩ := InB_cons_left hq
    rw [v3 b c h z q hb hc hh hz hq, w3, show (b :: c :: (h * Z + z) :: q).getD 1 0 = c from rfl,
      show (b :: c :: (h * Z + z) :: q).getD 0 0 = b from rfl, hmean b hb c hc, hvar b hb c hc, y3 b c h z q hb hc hh hz hq]
    rfl
  · intro p1 p2
    rw [w5 p1 p2]
    refine ⟨rfl, fun c hc => ⟨?_, ?_⟩⟩
    · show _ + a.momentum.getD 0 * boxMean [N] (fun i => boxMean (n * Z :: s) (instChannel y (i.headD 0) c)) = _
      rw [hone fun b => boxMean (n * Z :: s) (instChannel y b c)]
      congr 3
      exact Finset.sum_congr rfl fun b hb => hmean b (Finset.mem_range.1 hb) c hc
    · show _ + a.momentum.getD 0 * boxMean [N] (fun i => boxVarUnbiased (n * Z :: s) (instChannel y (i.headD 0) c)) = _
      rw [hone fun b => boxVarUnbiased (n * Z :: s) (instChannel y b c)]
      congr 3
      exact Finset.sum_congr rfl fun b hb => hvu b (Finset.mem_range.1 hb) c hc

/-- `GInstanceNorm2d/3d` in evaluation mode with running statistics. -/
theorem C70_instance_eval (nd : ℕ) (hnd : 0 < nd) (a : NormArgs) (ht : a.track = true) (r : Running) (x : Tensor ℝ) (H : Tensor G)
    (N C n : ℕ) (S : List ℕ) (hS : S.length = nd) (hx : x.shape = N :: C :: n :: S) (hC : C = a.features) :
    ∃ y, inst nd a false r x H = .ok ((y, H), r) ∧ y.shape = N :: C :: n :: S ∧
      ∀ b c h q, b < N → c < C → h < n → InB S q →
        y.get (b :: c :: h :: q) = normalised a.eps (r.mean c) (r.var c) (a.scale c) (a.shift c) (x.get (b :: c :: h :: q)) := by
  obtain ⟨Z, s, rfl⟩ : ∃ Z s, S = Z :: s := by
    cases S with
    | nil => simp at hS; omega
    | cons Z s => exact ⟨Z, s, rfl⟩
  obtain ⟨y, y1, y2, y3⟩ := merge hx
  have hnorm : ∃ w, instanceNorm nd a false r y = .ok (w, r) ∧ w.shape = N :: C :: n * Z :: s ∧
      ∀ idx, w.get idx = standardise a.eps (r.mean (idx.getD 1 0)) (r.var (idx.getD 1 0)) (a.scale (idx.getD 1 0))
        (a.shift (idx.getD 1 0)) (y.get idx) := by
    unfold instanceNorm
    rw [if_neg (by rw [y2]; simp only [List.length_cons]; rw [List.length_cons] at hS; omega)]
    unfold instanceNormBatched
    rw [y2]
    dsimp only
    rw [if_neg (by rw [List.length_cons]; rw [List.length_cons] at hS; omega), if_neg (by rintro ⟨-, h⟩; exact h hC),
      if_neg (by simp [ht]), if_neg (by intro h; exact h hC)]
    exact ⟨_, rfl, rfl, fun idx => rfl⟩
  obtain ⟨w, w1, w2, w3⟩ := hnorm
  obtain ⟨v, v1, v2, v3⟩ := split w2
  refine ⟨v, ?_, v2, ?_⟩
  · unfold inst folded
    rw [hx]
    dsimp only
    rw [y1, ok_bind, w1, ok_bind, v1, ok_bind]
    rfl
  · intro b c h q hb hc hh hq
    obtain ⟨z, q, rfl, hz, hq⟩ := InB_cons_left hq
    rw [v3 b c h z q hb hc hh hz hq, w3, y3 b c h z q hb hc hh hz hq]
    rfl

/-! ## C70: reordering group and space -/

theorem cons_bij (N : ℕ) {s t : List ℕ} {φ : List ℕ → List ℕ} (h : BoxBijection s t φ) :
    BoxBijection (N :: s) (N :: t) fun i => i.headD 0 :: φ i.tail := by
  obtain ⟨h1, h2, h3⟩ := h
  refine ⟨fun i hi => ?_, fun i j hi hj e => ?_, fun j hj => ?_⟩
  · obtain ⟨b, q, rfl, hb, hq⟩ := InB_cons_left hi
    exact InB_cons.2 ⟨hb, h1 q hq⟩
  · obtain ⟨b, q, rfl, hb, hq⟩ := InB_cons_left hi
    obtain ⟨b', q', rfl, hb', hq'⟩ := InB_cons_left hj
    have e1 : b = b' := (List.cons.inj e).1
    have e2 : φ q = φ q' := (List.cons.inj e).2
    rw [e1, h2 q q' hq hq' e2]
  · obtain ⟨b, q, rfl, hb, hq⟩ := InB_cons_left hj
    obtain ⟨i, hi, rfl⟩ := h3 q hq
    exact ⟨b :: i, InB_cons.2 ⟨hb, hi⟩, rfl⟩

/-- the two states agree on the channels that exist. -/
def SameState (C : ℕ) (r r' : Running) : Prop := r.count = r'.count ∧ ∀ c < C, r.mean c = r'.mean c ∧ r.var c = r'.var c

/-- Batch normalisation (either mode): when the input `x'` holds at (group, space) position `φ i` what `x` holds at
`i`, for any one-to-one `φ`, then so does the output, and the module ends in the same state. -/
theorem C70_batch_reorder (nd : ℕ) (hnd : 0 < nd) (a : NormArgs) (training : Bool) (r : Running) (x x' : Tensor ℝ) (H H' : Tensor G)
    (N C n n' : ℕ) (S' S : List ℕ) (hS' : S'.length = nd) (hS : S.length = nd) (hx : x.shape = N :: C :: n :: S')
    (hx' : x'.shape = N :: C :: n' :: S) (hC : C = a.features) (h1 : (N :: n :: S').prod ≠ 1)
    (φ : List ℕ → List ℕ) (hφ : BoxBijection (n :: S') (n' :: S) φ)
    (h : ∀ b c i, b < N → c < C → InB (n :: S') i → x'.get (b :: c :: φ i) = x.get (b :: c :: i)) :
    ∃ y y' r₁ r₂, batch nd a training r x H = .ok ((y, H), r₁) ∧ batch nd a training r x' H' = .ok ((y', H'), r₂) ∧
      y.shape = N :: C :: n :: S' ∧ y'.shape = N :: C :: n' :: S ∧ SameState C r₁ r₂ ∧
      ∀ b c i, b < N → c < C → InB (n :: S') i → y'.get (b :: c :: φ i) = y.get (b :: c :: i) := by
  have hb := cons_bij N hφ
  by_cases hm : training = true ∨ a.track = false
  · obtain ⟨y, r₁, a1, a2, a3, a4, a5⟩ := C70_batch_statistics nd hnd a training hm r x H N C n S' hS' hx (fun _ => hC) h1
    obtain ⟨y', r₂, b1, b2, b3, b4, b5⟩ := C70_batch_statistics nd hnd a training hm r x' H' N C n' S hS hx' (fun _ => hC)
      (by rw [← prod_bij hb]; exact h1)
    have hch : ∀ c < C, ∀ i, InB (N :: n :: S') i → channelOf x' c (i.headD 0 :: φ i.tail) = channelOf x c i := by
      intro c hc i hi
      obtain ⟨b, q, rfl, hb', hq⟩ := InB_cons_left hi
      exact h b c q hb' hc hq
    refine ⟨y, y', r₁, r₂, a1, b1, a2, b2, ?_, fun b c i hb' hc hi => ?_⟩
    · by_cases ht : training = true ∧ a.track = true
      · obtain ⟨p1, p2⟩ := a5 ht.1 ht.2
        obtain ⟨q1, q2⟩ := b5 ht.1 ht.2
        refine ⟨by rw [p1, q1], fun c hc => ⟨?_, ?_⟩⟩
        · rw [(p2 c hc).1, (q2 c hc).1, meanOver_bij hb (hch c hc)]
        · rw [(p2 c hc).2, (q2 c hc).2, varUnbiased_bij hb (hch c hc)]
      · have : training = false ∨ a.track = false := by
          cases training
          · exact Or.inl rfl
          · cases hk : a.track
            · exact Or.inr rfl
            · exact absurd ⟨rfl, hk⟩ ht
        rw [a4 this, b4 this]
        exact ⟨rfl, fun c _ => ⟨rfl, rfl⟩⟩
    · obtain ⟨k, q, rfl, hk, hq⟩ := InB_cons_left hi
      have hj := hφ.1 _ hi
      obtain ⟨k', q', e, hk', hq'⟩ := InB_cons_left hj
      rw [a3 b c k q hb' hc hk hq, e, b3 b c k' q' hb' hc hk' hq', ← e, h b c _ hb' hc hi, meanOver_bij hb (hch c hc),
        varOver_bij hb (hch c hc)]
  · have hk : training = false ∧ a.track = true := by
      cases training
      · cases hk : a.track
        · exact absurd (Or.inr hk) hm
        · exact ⟨rfl, rfl⟩
      · exact absurd (Or.inl rfl) hm
    obtain ⟨rfl, hk⟩ := hk
    obtain ⟨y, a1, a2, a3⟩ := C70_batch_eval nd hnd a hk r x H N C n S' hS' hx hC
    obtain ⟨y', b1, b2, b3⟩ := C70_batch_eval nd hnd a hk r x' H' N C n' S hS hx' hC
    refine ⟨y, y', r, r, a1, b1, a2, b2, ⟨rfl, fun c _ => ⟨rfl, rfl⟩⟩, fun b c i hb' hc hi => ?_⟩
    obtain ⟨k, q, rfl, hk, hq⟩ := InB_cons_left hi
    have hj := hφ.1 _ hi
    obtain ⟨k', q', e, hk', hq'⟩ := InB_cons_left hj
    rw [a3 b c k q hb' hc hk hq, e, b3 b c k' q' hb' hc hk' hq', ← e, h b c _ hb' hc hi]

/-- The same for instance normalisation. -/
theorem C70_instance_reorder (nd : ℕ) (hnd : 0 < nd) (a : NormArgs) (training : Bool) (r : Running) (x x' : Tensor ℝ) (H H' : Tensor G)
    (N C n n' : ℕ) (S' S : List ℕ) (hS' : S'.length = nd) (hS : S.length = nd) (hx : x.shape = N :: C :: n :: S')
    (hx' : x'.shape = N :: C :: n' :: S) (hC : C = a.features) (h1 : (n :: S').prod ≠ 1)
    (φ : List ℕ → List ℕ) (hφ : BoxBijection (n :: S') (n' :: S) φ)
    (h : ∀ b c i, b < N → c < C → InB (n :: S') i → x'.get (b :: c :: φ i) = x.get (b :: c :: i)) :
    ∃ y y' r₁ r₂, inst nd a training r x H = .ok ((y, H), r₁) ∧ inst nd a training r x' H' = .ok ((y', H'), r₂) ∧
      y.shape = N :: C :: n :: S' ∧ y'.shape = N :: C :: n' :: S ∧ SameState C r₁ r₂ ∧
      ∀ b c i, b < N → c < C → InB (n :: S') i → y'.get (b :: c :: φ i) = y.get (b :: c :: i) := by
  by_cases hm : training = true ∨ a.track = false
  · obtain ⟨y, r₁, a1, a2, a3, a4, a5⟩ := C70_instance_statistics nd hnd a training hm r x H N C n S' hS' hx (fun _ => hC) h1
    obtain ⟨y', r₂, b1, b2, b3, b4, b5⟩ := C70_instance_statistics nd hnd a training hm r x' H' N C n' S hS hx' (fun _ => hC)
      (by rw [← prod_bij hφ]; exact h1)
    refine ⟨y, y', r₁, r₂, a1, b1, a2, b2, ?_, fun b c i hb' hc hi => ?_⟩
    · by_cases ht : training = true ∧ a.track = true
      · obtain ⟨p1, p2⟩ := a5 ht.1 ht.2
        obtain ⟨q1, q2⟩ := b5 ht.1 ht.2
        refine ⟨by rw [p1, q1], fun c hc => ⟨?_, ?_⟩⟩
        · rw [(p2 c hc).1, (q2 c hc).1]
          congr 3
          exact Finset.sum_congr rfl fun b hb => meanOver_bij hφ fun i hi => h b c i (Finset.mem_range.1 hb) hc hi
        · rw [(p2 c hc).2, (q2 c hc).2]
          congr 3
          exact Finset.sum_congr rfl fun b hb => varUnbiased_bij hφ fun i hi => h b c i (Finset.mem_range.1 hb) hc hi
      · have : training = false ∨ a.track = false := by
          cases training
          · exact Or.inl rfl
          · cases hk : a.track
            · exact Or.inr rfl
            · exact absurd ⟨rfl, hk⟩ ht
        rw [a4 this, b4 this]
        exact ⟨rfl, fun c _ => ⟨rfl, rfl⟩⟩
    · have hh := fun i hi => h b c i hb' hc hi
      obtain ⟨k, q, rfl, hk, hq⟩ := InB_cons_left hi
      have hj := hφ.1 _ hi
      obtain ⟨k', q', e, hk', hq'⟩ := InB_cons_left hj
      rw [a3 b c k q hb' hc hk hq, e, b3 b c k' q' hb' hc hk' hq', ← e, h b c _ hb' hc hi, meanOver_bij hφ (g := fun i => x'.get (b :: c :: i)) hh,
        varOver_bij hφ (g := fun i => x'.get (b :: c :: i)) hh]
  · have hk : training = false ∧ a.track = true := by
      cases training
      · cases hk : a.track
        · exact absurd (Or.inr hk) hm
        · exact ⟨rfl, rfl⟩
      · exact absurd (Or.inl rfl) hm
    obtain ⟨rfl, hk⟩ := hk
    obtain ⟨y, a1, a2, a3⟩ := C70_instance_eval nd hnd a hk r x H N C n S' hS' hx hC
    obtain ⟨y', b1, b2, b3⟩ := C70_instance_eval nd hnd a hk r x' H' N C n' S hS hx' hC
    refine ⟨y, y', r, r, a1, b1, a2, b2, ⟨rfl, fun c _ => ⟨rfl, rfl⟩⟩, fun b c i hb' hc hi => ?_⟩
    obtain ⟨k, q, rfl, hk, hq⟩ := InB_cons_left hi
    have hj := hφ.1 _ hi
    obtain ⟨k', q', e, hk', hq'⟩ := InB_cons_left hj
    rw [a3 b c k q hb' hc hk hq, e, b3 b c k' q' hb' hc hk' hq', ← e, h b c _ hb' hc hi]

/-- arguments of `GBatchNorm2d(3)` with default arguments. -/
noncomputable def exNorm : NormArgs :=
  { features := 3, eps := 1 / 100000, momentum := some (1 / 10), affine := true, track := true, weight := fun _ => 1, bias := fun _ => 0 }

/-- freshly initialised state. -/
noncomputable def fresh : Running := ⟨fun _ => 0, fun _ => 1, 0⟩

/-- a batch of 2 images, 3 channels, 4 group elements, 5 x 6 cells in training mode. -/
example (x : Tensor ℝ) (hx : x.shape = [2, 3, 4, 5, 6]) (H : Tensor G) :
    ∃ y r', batch 2 exNorm true fresh x H = .ok ((y, H), r') ∧ y.shape = [2, 3, 4, 5, 6] ∧ r'.count = 1 := by
  obtain ⟨y, r', h1, h2, -, -, h5⟩ := C70_batch_statistics 2 (by norm_num) exNorm true (Or.inl rfl) fresh x H 2 3 4 [5, 6] rfl hx
    (fun _ => rfl) (by norm_num)
  exact ⟨y, r', h1, h2, (h5 rfl rfl).1⟩

/-! ## C76: the running statistics after any history -/

/-- a history of training batches: the module is called on one batch after the other. -/
noncomputable def history (nd : ℕ) (a : NormArgs) (H : Tensor G) : Running → List (Tensor ℝ) → Except PyErr Running
  | r, [] => .ok r
  | r, x :: xs => do
    let y ← batch nd a true r x H
    history nd a H y.2 xs

/-- a feature map that `GBatchNorm` with `C` features accepts in training; `box` are the axes over which it pools. -/
def TrainBatch (nd C : ℕ) (x : Tensor ℝ) (box : List ℕ) : Prop :=
  ∃ N n S, S.length = nd ∧ x.shape = N :: C :: n :: S ∧ box = N :: n :: S ∧ box.prod ≠ 1

/-- With `momentum=None` the running statistics are the averages of the statistics of all batches seen so far
(module freshly initialised), however many and of whatever sizes they are. -/
theorem C76_cumulative (nd : ℕ) (hnd : 0 < nd) (a : NormArgs) (ht : a.track = true) (hmom : a.momentum = none) (H : Tensor G)
    (r : Running) (hr : r.count = 0) (xs : List (Tensor ℝ × List ℕ)) (hxs : ∀ p ∈ xs, TrainBatch nd a.features p.1 p.2) :
    ∃ r', history nd a H r (xs.map Prod.fst) = .ok r' ∧ r'.count = xs.length ∧
      ∀ c < a.features, 0 < xs.length →
        r'.mean c = ((xs.map fun p => meanOver p.2 (channelOf p.1 c)).sum) / xs.length ∧
        r'.var c = ((xs.map fun p => varUnbiased p.2 (channelOf p.1 c)).sum) / xs.length := by
  have key : ∀ (xs : List (Tensor ℝ × List ℕ)) (r : Running), (∀ p ∈ xs, TrainBatch nd a.features p.1 p.2) →
      ∃ r', history nd a H r (xs.map Prod.fst) = .ok r' ∧ r'.count = r.count + xs.length ∧
        ∀ c < a.features, r'.mean c * r'.count = r.mean c * r.count + (xs.map fun p => meanOver p.2 (channelOf p.1 c)).sum ∧
          r'.var c * r'.count = r.var c * r.count + (xs.map fun p => varUnbiased p.2 (channelOf p.1 c)).sum := by
    intro xs
    induction xs with
    | nil => exact fun r _ => ⟨r, rfl, rfl, fun c _ => ⟨by simp, by simp⟩⟩
    | cons p xs ih =>
      intro r hp
      obtain ⟨N, n, S, hS, hx, hb, h1⟩ := hp p (by simp)
      obtain ⟨y, r₁, e1, -, -, -, e5⟩ := C70_batch_statistics nd hnd a true (Or.inl rfl) r p.1 H N a.features n S hS hx
        (fun _ => rfl) (by rw [← hb]; exact h1)
      obtain ⟨c1, c2⟩ := e5 rfl ht
      obtain ⟨r₂, f1, f2, f3⟩ := ih r₁ (fun q hq => hp q (by simp [hq]))
      refine ⟨r₂, ?_, by rw [f2, c1, List.length_cons]; omega, fun c hc => ?_⟩
      · rw [List.map_cons, history, e1, ok_bind]; exact f1
      · have hf : averageFactor a (r.count + 1) = 1 / ((r.count + 1 : ℕ) : ℝ) := by unfold averageFactor; rw [hmom]
        obtain ⟨m1, m2⟩ := c2 c hc
        obtain ⟨g1, g2⟩ := f3 c hc
        have hpos : ((r.count + 1 : ℕ) : ℝ) ≠ 0 := by positivity
        rw [g1, g2, m1, m2, c1, hf, List.map_cons, List.map_cons, List.sum_cons, List.sum_cons, hb]
        push_cast at hpos ⊢
        constructor <;> field_simp <;> ring
  obtain ⟨r', h1, h2, h3⟩ := key xs r hxs
  refine ⟨r', h1, by rw [h2, hr, Nat.zero_add], fun c hc hl => ?_⟩
  obtain ⟨g1, g2⟩ := h3 c hc
  rw [h2, hr, Nat.zero_add, Nat.cast_zero, mul_zero, zero_add] at g1 g2
  have hpos : (xs.length : ℝ) ≠ 0 := by exact_mod_cast hl.ne'
  exact ⟨(eq_div_iff hpos).2 g1, (eq_div_iff hpos).2 g2⟩

/-- With a fixed momentum `m` the running statistics are the exponential moving averages: batch `i` of `k` has
weight `m (1 - m)^(k - 1 - i)`, the initial value `(1 - m)^k`. -/
theorem C76_exponential (nd : ℕ) (hnd : 0 < nd) (a : NormArgs) (ht : a.track = true) (m : ℝ) (hmom : a.momentum = some m)
    (H : Tensor G) (r : Running) (xs : List (Tensor ℝ × List ℕ)) (hxs : ∀ p ∈ xs, TrainBatch nd a.features p.1 p.2) :
    ∃ r', history nd a H r (xs.map Prod.fst) = .ok r' ∧ r'.count = r.count + xs.length ∧
      ∀ c < a.features,
        r'.mean c = (1 - m) ^ xs.length * r.mean c +
          (xs.zipIdx.map fun p => m * (1 - m) ^ (xs.length - 1 - p.2) * meanOver p.1.2 (channelOf p.1.1 c)).sum ∧
        r'.var c = (1 - m) ^ xs.length * r.var c +
          (xs.zipIdx.map fun p => m * (1 - m) ^ (xs.length - 1 - p.2) * varUnbiased p.1.2 (channelOf p.1.1 c)).sum := by
  induction xs generalizing r with
  | nil => exact ⟨r, rfl, rfl, fun c _ => ⟨by simp, by simp⟩⟩
  | cons p xs ih =>
    obtain ⟨N, n, S, hS, hx, hb, h1⟩ := hxs p (by simp)
    obtain ⟨y, r₁, e1, -, -, -, e5⟩ := C70_batch_statistics nd hnd a true (Or.inl rfl) r p.1 H N a.features n S hS hx
      (fun _ => rfl) (by rw [← hb]; exact h1)
    obtain ⟨c1, c2⟩ := e5 rfl ht
    obtain ⟨r₂, f1, f2, f3⟩ := ih r₁ (fun q hq => hxs q (by simp [hq]))
    refine ⟨r₂, ?_, by rw [f2, c1, List.length_cons]; omega, fun c hc => ?_⟩
    · rw [List.map_cons, history, e1, ok_bind]; exact f1
    · have hf : averageFactor a (r.count + 1) = m := by unfold averageFactor; rw [hmom]
      obtain ⟨m1, m2⟩ := c2 c hc
      obtain ⟨g1, g2⟩ := f3 c hc
      have hsum : ∀ f : Tensor ℝ × List ℕ → ℝ,
          ((p :: xs).zipIdx.map fun q => m * (1 - m) ^ ((p :: xs).length - 1 - q.2) * f q.1).sum =
            m * (1 - m) ^ xs.length * f p + (xs.zipIdx.map fun q => m * (1 - m) ^ (xs.length - 1 - q.2) * f q.1).sum := by
        intro f
        rw [List.zipIdx_cons, List.map_cons, List.sum_cons, List.length_cons, Nat.add_sub_cancel, Nat.sub_zero]
        congr 2
        rw [show (0 + 1 : ℕ) = 1 from rfl, List.zipIdx_succ, List.map_map]
        refine List.map_congr_left fun q hq => ?_
        show m * (1 - m) ^ (xs.length - (q.2 + 1)) * f q.1 = _
        rw [Nat.sub_sub, Nat.add_comm]
      rw [g1, g2, m1, m2, hf, hsum fun q => meanOver q.2 (channelOf q.1 c), hsum fun q => varUnbiased q.2 (channelOf q.1 c), hb,
        List.length_cons, pow_succ]
      constructor <;> ring

/-- two batches of different sizes. -/
example (x y : Tensor ℝ) (hx : x.shape = [2, 3, 4, 5, 6]) (hy : y.shape = [7, 3, 4, 8, 8]) (H : Tensor G) :
    ∃ r', history 2 { exNorm with momentum := none } H fresh [x, y] = .ok r' ∧ r'.count = 2 := by
  obtain ⟨r', h1, h2, -⟩ := C76_cumulative 2 (by norm_num) { exNorm with momentum := none } rfl rfl H fresh rfl
    [(x, [2, 4, 5, 6]), (y, [7, 4, 8, 8])] (by
      intro p hp
      simp only [List.mem_cons, List.not_mem_nil, or_false] at hp
      rcases hp with rfl | rfl
      · exact ⟨2, 4, [5, 6], rfl, hx, rfl, by norm_num⟩
      · exact ⟨7, 4, [8, 8], rfl, hy, rfl, by norm_num⟩)
  exact ⟨r', h1, h2⟩

/-! ## C77: layer normalisation -/

/-- `GLayerNorm(normalized_shape)` standardises the trailing axes, position by position of the leading ones, and
passes `H` on. -/
theorem C77_layer (pre s : List ℕ) (eps : ℝ) (weight bias : List ℕ → ℝ) (x : Tensor ℝ) (H : Tensor G)
    (hx : x.shape = pre ++ s) :
    ∃ y, layer s eps weight bias x H = .ok (y, H) ∧ y.shape = pre ++ s ∧
      ∀ p q, InB pre p → InB s q →
        y.get (p ++ q) = normalised eps (meanOver s fun i => x.get (p ++ i)) (varOver s fun i => x.get (p ++ i)) (weight q) (bias q)
          (x.get (p ++ q)) := by
  unfold layer layerNorm
  have hl : x.shape.length - s.length = pre.length := by rw [hx, List.length_append]; omega
  dsimp only
  rw [hl, if_pos (by rw [hx]; simp), ok_bind]
  refine ⟨_, rfl, hx, fun p q hp hq => ?_⟩
  have h1 : (p ++ q).take pre.length = p := by rw [← hp.length]; simp
  have h2 : (p ++ q).drop pre.length = q := by rw [← hp.length]; simp
  dsimp only
  rw [h1, h2]
  rfl

/-- a `normalized_shape` that is not the end of the input's shape is rejected with RuntimeError. -/
theorem C77_rejects (s : List ℕ) (eps : ℝ) (weight bias : List ℕ → ℝ) (x : Tensor ℝ) (H : Tensor G)
    (h : ∀ pre, x.shape ≠ pre ++ s) : layer s eps weight bias x H = .error .runtimeError := by
  unfold layer layerNorm
  dsimp only
  rw [if_neg, error_bind]
  intro e
  exact h (x.shape.take (x.shape.length - s.length)) (by conv_lhs => rw [← List.take_append_drop (x.shape.length - s.length) x.shape, e])

/-- Without elementwise weights (constant `weight`, `bias`), layer normalisation over all of group and space commutes
with every reordering of group and space. -/
theorem C77_reorder (N C n n' : ℕ) (S' S : List ℕ) (eps w w0 : ℝ) (x x' : Tensor ℝ) (H H' : Tensor G)
    (hx : x.shape = N :: C :: n :: S') (hx' : x'.shape = N :: C :: n' :: S)
    (φ : List ℕ → List ℕ) (hφ : BoxBijection (n :: S') (n' :: S) φ)
    (h : ∀ b c i, b < N → c < C → InB (n :: S') i → x'.get (b :: c :: φ i) = x.get (b :: c :: i)) :
    ∃ y y', layer (n :: S') eps (fun _ => w) (fun _ => w0) x H = .ok (y, H) ∧
      layer (n' :: S) eps (fun _ => w) (fun _ => w0) x' H' = .ok (y', H') ∧
      y.shape = N :: C :: n :: S' ∧ y'.shape = N :: C :: n' :: S ∧
      ∀ b c i, b < N → c < C → InB (n :: S') i → y'.get (b :: c :: φ i) = y.get (b :: c :: i) := by
  obtain ⟨y, a1, a2, a3⟩ := C77_layer [N, C] (n :: S') eps (fun _ => w) (fun _ => w0) x H hx
  obtain ⟨y', b1, b2, b3⟩ := C77_layer [N, C] (n' :: S) eps (fun _ => w) (fun _ => w0) x' H' hx'
  refine ⟨y, y', a1, b1, a2, b2, fun b c i hb hc hi => ?_⟩
  have hh := fun i hi => h b c i hb hc hi
  have e1 := a3 [b, c] i (by simp [hb, hc]) hi
  have e2 := b3 [b, c] (φ i) (by simp [hb, hc]) (hφ.1 i hi)
  simp only [List.cons_append, List.nil_append] at e1 e2
  rw [e1, e2, h b c i hb hc hi, meanOver_bij hφ (g := fun i => x'.get (b :: c :: i)) hh,
    varOver_bij hφ (g := fun i => x'.get (b :: c :: i)) hh]

end GConv.Normalization

import Verif.Model.O2

/-! Helper lemmas for the coset-wise sampling code. -/

namespace GConv

open Tensor

theorem getD_of_lt {α : Type} {l : List α} {i : ℕ} {d : α} (h : i < l.length) : l.getD i d = l[i] := by
  simp [h]

theorem whereIdx_perm (n : ℕ) (p q : ℕ → Bool) (h : ∀ i < n, q i = !p i) :
    (whereIdx n p ++ whereIdx n q).Perm (List.range n) := by
  have : whereIdx n q = (List.range n).filter (fun i => !p i) := by
    unfold whereIdx
    apply List.filter_congr
    intro i hi; exact h i (List.mem_range.1 hi)
  rw [this]
  exact List.filter_append_perm p _

theorem argsort_spec (l : List ℕ) (n : ℕ) (h : l.Perm (List.range n)) :
    (argsort l).length = n ∧ (argsort l).Perm (List.range n) ∧
    ∀ i < n, (argsort l).getD i 0 < n ∧ l.getD ((argsort l).getD i 0) 0 = i := by
  have hlen : l.length = n := by simpa using h.length_eq
  have hperm : (argsort l).Perm (List.range n) := by
    unfold argsort
    have := List.mergeSort_perm (List.range l.length)
      (fun a b => decide (l.getD a 0 ≤ l.getD b 0))
    rwa [hlen] at this ⊢
  have hl : (argsort l).length = n := by simpa using hperm.length_eq
  refine ⟨hl, hperm, ?_⟩
  have hmap : (argsort l).map (fun a => l.getD a 0) = List.range n := by
    have hs : ((argsort l).map (fun a => l.getD a 0)).Pairwise (· ≤ ·) := by
      rw [List.pairwise_map]
      have := List.pairwise_mergeSort (le := fun a b => decide (l.getD a 0 ≤ l.getD b 0))
        (by intro a b c; simp; omega) (by intro a b; simp; omega) (List.range l.length)
      unfold argsort
      exact this.imp (by intro a b; simp)
    have hp : ((argsort l).map (fun a => l.getD a 0)).Perm (List.range n) := by
      refine (hperm.map _).trans ?_
      refine List.Perm.trans ?_ h
      have : (List.range n).map (fun a => l.getD a 0) = l := by
        apply List.ext_getElem
        · simp [hlen]
        · intro i h1 h2; simp [h2]
      rw [this]
    have hs2 : (List.range n).Pairwise (· ≤ ·) :=
      (List.pairwise_lt_range (n := n)).imp (by intro a b; omega)
    exact hp.eq_of_pairwise (by intro a b _ _ h1 h2; omega) hs hs2
  intro i hi
  constructor
  · have : (argsort l).getD i 0 ∈ argsort l := by
      rw [getD_of_lt (by omega)]; exact List.getElem_mem _
    exact List.mem_range.1 (hperm.mem_iff.1 this)
  · have h1 : ((argsort l).map (fun a => l.getD a 0)).getD i 0 = i := by
      rw [hmap]; simp [hi]
    rw [getD_of_lt (by simpa [hl] using hi)] at h1
    rw [getD_of_lt (l := argsort l) (by omega)]
    simpa using h1

/-- What is assumed of the rotation sampler: it works row by row, its result has one row per query,
and, if the signal has at least one row per grid element, whether it succeeds does not depend on the query. -/
structure RowSampler {Q : Type}
    (samp : ℝ → Tensor Q → Tensor ℝ → Tensor Q → Except PyErr (Tensor ℝ)) : Prop where
  shape : ∀ {w g s sg out}, samp w g s sg = .ok out →
    out.shape = [g.shape.headD 0, s.shape.getD 1 0]
  row : ∀ {w g s sg out}, samp w g s sg = .ok out → ∀ i, i < g.shape.headD 0 →
    ∃ o1, samp w ⟨[1], fun _ => g.get [i]⟩ s sg = .ok o1 ∧ ∀ c, out.get [i, c] = o1.get [0, c]
  total : ∀ {w g s sg out}, sg.shape.headD 0 ≤ s.shape.headD 0 → samp w g s sg = .ok out →
    ∀ g', ∃ out', samp w g' s sg = .ok out'
  err : ∀ {w g s sg e}, sg.shape.headD 0 ≤ s.shape.headD 0 → samp w g s sg = .error e →
    ∀ g', samp w g' s sg = .error e

theorem interpolateRBF_row {G : Type} (dist : G → G → ℝ) (rbf : ℝ → ℝ → ℝ) :
    RowSampler (fun w g s sg => Interp.interpolateRBF dist rbf w g sg s) := by
  constructor
  · intro w g s sg out h
    unfold Interp.interpolateRBF at h
    by_cases hc : s.shape.headD 0 ≠ sg.shape.headD 0 ∨ (Interp.rbfMatrix dist rbf w sg).det = 0
    · simp only [if_pos hc] at h; cases h
    · simp only [if_neg hc] at h; cases h; rfl
  · intro w g s sg out h i hi
    unfold Interp.interpolateRBF at h ⊢
    by_cases hc : s.shape.headD 0 ≠ sg.shape.headD 0 ∨ (Interp.rbfMatrix dist rbf w sg).det = 0
    · simp only [if_pos hc] at h; cases h
    · simp only [if_neg hc] at h ⊢; cases h
      exact ⟨_, rfl, fun c => rfl⟩
  · intro w g s sg out _ h g'
    unfold Interp.interpolateRBF at h ⊢
    by_cases hc : s.shape.headD 0 ≠ sg.shape.headD 0 ∨ (Interp.rbfMatrix dist rbf w sg).det = 0
    · simp only [if_pos hc] at h; cases h
    · simp only [if_neg hc]; exact ⟨_, rfl⟩
  · intro w g s sg e _ h g'
    unfold Interp.interpolateRBF at h ⊢
    by_cases hc : s.shape.headD 0 ≠ sg.shape.headD 0 ∨ (Interp.rbfMatrix dist rbf w sg).det = 0
    · simp only [if_pos hc] at h ⊢; exact h
    · simp only [if_neg hc] at h; cases h

theorem Interp.topk1_spec (n : ℕ) (d : ℕ → ℝ) (hn : n ≠ 0) :
    Interp.topk1 n d < n ∧ ∀ j < n, d (Interp.topk1 n d) ≤ d j := by
  have hex : ∃ i, i < n ∧ ∀ j < n, d i ≤ d j := by
    obtain ⟨i, hi, hm⟩ := Finset.exists_min_image (Finset.range n) d ⟨0, by simp; omega⟩
    exact ⟨i, Finset.mem_range.1 hi, fun j hj => hm j (Finset.mem_range.2 hj)⟩
  unfold Interp.topk1
  rw [dif_pos hex]
  exact Classical.choose_spec hex

/-- if the signal has a row per grid element, the only failure is that of the empty grid. -/
theorem Interp.nn_cond {G : Type} (dist : G → G → ℝ) (nodes grid : Tensor G) (signal : Tensor ℝ)
    (hle : grid.shape.headD 0 ≤ signal.shape.headD 0) :
    (grid.shape.headD 0 = 0 ∨ (signal.shape.getD 1 0 ≠ 0 ∧
      ∃ i < nodes.shape.headD 0, signal.shape.headD 0 ≤ Interp.nnIdx dist nodes grid i)) ↔
      grid.shape.headD 0 = 0 := by
  refine ⟨?_, Or.inl⟩
  rintro (h | ⟨-, i, -, h⟩)
  · exact h
  · by_contra h0
    have := (Interp.topk1_spec (grid.shape.headD 0) (fun j => dist (nodes.get [i]) (grid.get [j])) h0).1
    unfold Interp.nnIdx at h
    omega

theorem Interp.nn_ok {G : Type} (dist : G → G → ℝ) (nodes grid : Tensor G) (signal : Tensor ℝ)
    (hle : grid.shape.headD 0 ≤ signal.shape.headD 0) (h0 : grid.shape.headD 0 ≠ 0) :
    Interp.interpolateNN dist nodes grid signal =
      .ok ⟨[nodes.shape.headD 0, signal.shape.getD 1 0],
        fun idx => signal.get [Interp.nnIdx dist nodes grid (idx.getD 0 0), idx.getD 1 0]⟩ := by
  unfold Interp.interpolateNN
  exact if_neg (fun h => h0 ((Interp.nn_cond dist nodes grid signal hle).1 h))

theorem interpolateNN_row {G : Type} (dist : G → G → ℝ) :
    RowSampler (fun _ g s sg => Interp.interpolateNN dist g sg s) := by
  constructor
  · intro w g s sg out h
    unfold Interp.interpolateNN at h
    by_cases hc : sg.shape.headD 0 = 0 ∨ (s.shape.getD 1 0 ≠ 0 ∧
      ∃ i < g.shape.headD 0, s.shape.headD 0 ≤ Interp.nnIdx dist g sg i)
    · simp only [if_pos hc] at h; cases h
    · simp only [if_neg hc] at h; cases h; rfl
  · intro w g s sg out h i hi
    unfold Interp.interpolateNN at h ⊢
    by_cases hc : sg.shape.headD 0 = 0 ∨ (s.shape.getD 1 0 ≠ 0 ∧
      ∃ i < g.shape.headD 0, s.shape.headD 0 ≤ Interp.nnIdx dist g sg i)
    · simp only [if_pos hc] at h; cases h
    · have hc' : ¬ (sg.shape.headD 0 = 0 ∨ (s.shape.getD 1 0 ≠ 0 ∧
          ∃ j < 1, s.shape.headD 0 ≤ Interp.nnIdx dist ⟨[1], fun _ => g.get [i]⟩ sg j)) := by
        rintro (h0 | ⟨h0, j, -, h1⟩)
        · exact hc (Or.inl h0)
        · exact hc (Or.inr ⟨h0, i, hi, h1⟩)
      simp only [if_neg hc] at h
      refine ⟨_, if_neg hc', fun c => ?_⟩
      cases h; rfl
  · intro w g s sg out hle h g'
    unfold Interp.interpolateNN at h ⊢
    simp only [Interp.nn_cond dist _ sg s hle] at h ⊢
    by_cases hc : sg.shape.headD 0 = 0
    · simp only [if_pos hc] at h; cases h
    · simp only [if_neg hc]; exact ⟨_, rfl⟩
  · intro w g s sg e hle h g'
    unfold Interp.interpolateNN at h ⊢
    simp only [Interp.nn_cond dist _ sg s hle] at h ⊢
    by_cases hc : sg.shape.headD 0 = 0
    · simp only [if_pos hc] at h ⊢; exact h
    · simp only [if_neg hc] at h; cases h

theorem errorSampler_row {Q : Type} (e : PyErr) :
    RowSampler (fun (_ : ℝ) (_ : Tensor Q) (_ : Tensor ℝ) (_ : Tensor Q) =>
      (.error e : Except PyErr (Tensor ℝ))) := by
  constructor
  · intro w g s sg out h; cases h
  · intro w g s sg out h; cases h
  · intro w g s sg out _ h; cases h
  · intro w g s sg e _ h g'; exact h

section
variable {G Q : Type} {coef : G → ℝ} {rot : G → Q}
  {samp : ℝ → Tensor Q → Tensor ℝ → Tensor Q → Except PyErr (Tensor ℝ)}

theorem index0_ok {α : Type} (t : Tensor α) (l : List ℕ) (h : ∀ i ∈ l, i < t.shape.headD 0) :
    t.index0 l = .ok ⟨l.length :: t.shape.tail,
      fun idx => match idx with
        | [] => t.get []
        | i :: is => t.get (l.getD i 0 :: is)⟩ := by
  unfold index0
  have hc : (l.all fun x => decide (x < t.shape.headD 0)) = true := by
    rw [List.all_eq_true]; intro i hi; simpa using h i hi
  rw [if_pos hc]
  rfl

theorem index0_err {α : Type} (t : Tensor α) (l : List ℕ) (i : ℕ) (hi : i ∈ l)
    (h : ¬ i < t.shape.headD 0) : t.index0 l = .error .indexError := by
  unfold index0
  rw [if_neg]
  intro hc
  rw [List.all_eq_true] at hc
  exact h (by simpa using hc i hi)

/-- Exact behaviour of the coset-wise sampler, given that the rotation sampler succeeds on each
non-empty sub-signal. -/
theorem cosetSample_spec (hs : RowSampler samp) (grid : Tensor G) (n S nRot nRef : ℕ)
    (signal : Tensor ℝ) (sg : Tensor G) (wr wf : ℝ)
    (hg : grid.shape = [n]) (hsig : signal.shape = [nRot + nRef, S])
    (hcoef : ∀ i < n, coef (grid.get [i]) = 1 ∨ coef (grid.get [i]) = -1)
    (okR : nRot ≠ 0 → ∀ (q : Tensor Q) (m : ℕ), q.shape = [m] →
      ∃ o, samp wr q (signal.slice0 0 nRot) ((sg.slice0 0 nRot).map rot) = .ok o)
    (okF : nRef ≠ 0 → ∀ (q : Tensor Q) (m : ℕ), q.shape = [m] →
      ∃ o, samp wf q (signal.drop0 nRot) ((sg.drop0 nRot).map rot) = .ok o) :
    (((nRot = 0 → ∀ i < n, coef (grid.get [i]) ≠ 1) ∧
      (nRef = 0 → ∀ i < n, coef (grid.get [i]) ≠ -1)) →
      ∃ out, cosetSample coef rot samp grid signal sg nRot nRef wr wf = .ok out ∧
        out.shape = [n, S] ∧
        ∀ i < n,
          (coef (grid.get [i]) = 1 → ∃ o1, samp wr ⟨[1], fun _ => rot (grid.get [i])⟩
            (signal.slice0 0 nRot) ((sg.slice0 0 nRot).map rot) = .ok o1 ∧
            ∀ c, out.get [i, c] = o1.get [0, c]) ∧
          (coef (grid.get [i]) = -1 → ∃ o1, samp wf ⟨[1], fun _ => rot (grid.get [i])⟩
            (signal.drop0 nRot) ((sg.drop0 nRot).map rot) = .ok o1 ∧
            ∀ c, out.get [i, c] = o1.get [0, c])) ∧
    (¬ ((nRot = 0 → ∀ i < n, coef (grid.get [i]) ≠ 1) ∧
      (nRef = 0 → ∀ i < n, coef (grid.get [i]) ≠ -1)) →
      cosetSample coef rot samp grid signal sg nRot nRef wr wf = .error .indexError) := by
  set rotIdx := whereIdx n (fun i => decide (coef (grid.get [i]) = 1)) with hrI
  set refIdx := whereIdx n (fun i => decide (coef (grid.get [i]) = -1)) with hfI
  have mR : ∀ i ∈ rotIdx, i < n ∧ coef (grid.get [i]) = 1 := by
    intro i hi; simpa [hrI, whereIdx] using hi
  have mF : ∀ i ∈ refIdx, i < n ∧ coef (grid.get [i]) = -1 := by
    intro i hi; simpa [hfI, whereIdx] using hi
  have hperm : (rotIdx ++ refIdx).Perm (List.range n) := by
    apply whereIdx_perm
    intro i hi
    rcases hcoef i hi with h | h <;> simp [h] <;> norm_num
  obtain ⟨hal, hap, has⟩ := argsort_spec _ n hperm
  have hlen : rotIdx.length + refIdx.length = n := by
    simpa using hperm.length_eq
  -- queries
  have qR : (grid.map rot).index0 rotIdx = .ok ⟨rotIdx.length :: (grid.map rot).shape.tail,
      fun idx => match idx with
        | [] => (grid.map rot).get []
        | i :: is => (grid.map rot).get (rotIdx.getD i 0 :: is)⟩ := by
    apply index0_ok
    intro i hi; simpa [Tensor.map, hg] using (mR i hi).1
  have qF : (grid.map rot).index0 refIdx = .ok ⟨refIdx.length :: (grid.map rot).shape.tail,
      fun idx => match idx with
        | [] => (grid.map rot).get []
        | i :: is => (grid.map rot).get (refIdx.getD i 0 :: is)⟩ := by
    apply index0_ok
    intro i hi; simpa [Tensor.map, hg] using (mF i hi).1
  -- sampled rotation rows
  have sR : ∃ r : Tensor ℝ, (if nRot ≠ 0 then (do
        let q ← (grid.map rot).index0 rotIdx
        samp wr q (signal.slice0 0 nRot) ((sg.slice0 0 nRot).map rot))
      else pure (signal.slice0 0 nRot)) = (.ok r : Except PyErr (Tensor ℝ)) ∧
      r.shape = [if nRot ≠ 0 then rotIdx.length else 0, S] ∧
      (nRot ≠ 0 → ∀ j < rotIdx.length, ∃ o1, samp wr ⟨[1], fun _ => rot (grid.get [rotIdx.getD j 0])⟩
            (signal.slice0 0 nRot) ((sg.slice0 0 nRot).map rot) = .ok o1 ∧
            ∀ c, r.get [j, c] = o1.get [0, c]) := by
    by_cases h0 : nRot = 0
    · refine ⟨signal.slice0 0 nRot, ?_, ?_, ?_⟩
      · simp [h0]; rfl
      · simp [h0, slice0, hsig]
      · intro h; exact absurd h0 h
    · obtain ⟨o', ho'⟩ := okR h0 ⟨rotIdx.length :: (grid.map rot).shape.tail,
        fun idx => match idx with
          | [] => (grid.map rot).get []
          | i :: is => (grid.map rot).get (rotIdx.getD i 0 :: is)⟩ rotIdx.length (by simp [Tensor.map, hg])
      refine ⟨o', ?_, ?_, ?_⟩
      · rw [if_pos h0, qR]; exact ho'
      · rw [hs.shape ho']; simp [slice0, hsig, h0]
      · intro _ j hj
        exact hs.row ho' j (by simpa using hj)
  have sF : ∃ r : Tensor ℝ, (if nRef ≠ 0 then (do
        let q ← (grid.map rot).index0 refIdx
        samp wf q (signal.drop0 nRot) ((sg.drop0 nRot).map rot))
      else pure (signal.drop0 nRot)) = (.ok r : Except PyErr (Tensor ℝ)) ∧
      r.shape = [if nRef ≠ 0 then refIdx.length else 0, S] ∧
      (nRef ≠ 0 → ∀ j < refIdx.length, ∃ o1, samp wf ⟨[1], fun _ => rot (grid.get [refIdx.getD j 0])⟩
            (signal.drop0 nRot) ((sg.drop0 nRot).map rot) = .ok o1 ∧
            ∀ c, r.get [j, c] = o1.get [0, c]) := by
    by_cases h0 : nRef = 0
    · refine ⟨signal.drop0 nRot, ?_, ?_, ?_⟩
      · simp [h0]; rfl
      · simp [h0, drop0, slice0, hsig]
      · intro h; exact absurd h0 h
    · obtain ⟨o', ho'⟩ := okF h0 ⟨refIdx.length :: (grid.map rot).shape.tail,
        fun idx => match idx with
          | [] => (grid.map rot).get []
          | i :: is => (grid.map rot).get (refIdx.getD i 0 :: is)⟩ refIdx.length (by simp [Tensor.map, hg])
      refine ⟨o', ?_, ?_, ?_⟩
      · rw [if_pos h0, qF]; exact ho'
      · rw [hs.shape ho']; simp [drop0, slice0, hsig, h0]
      · intro _ j hj
        exact hs.row ho' j (by simpa using hj)
  obtain ⟨r, hr, hrs, hrow⟩ := sR
  obtain ⟨f, hf, hfs, hfow⟩ := sF
  have hn : grid.shape.headD 0 = n := by simp [hg]
  have hmain : cosetSample coef rot samp grid signal sg nRot nRef wr wf =
      (do let sampled ← r.cat0 f
          sampled.index0 (argsort (rotIdx ++ refIdx))) := by
    unfold cosetSample
    simp only [hn, ← hrI, ← hfI]
    rw [hr, hf]; rfl
  have hcat : r.cat0 f = .ok ⟨[(if nRot ≠ 0 then rotIdx.length else 0) +
      (if nRef ≠ 0 then refIdx.length else 0), S],
      fun idx => match idx with
        | [] => r.get []
        | i :: is => if i < (if nRot ≠ 0 then rotIdx.length else 0) then r.get (i :: is)
                     else f.get ((i - (if nRot ≠ 0 then rotIdx.length else 0)) :: is)⟩ := by
    unfold cat0
    rw [if_pos (by rw [hrs, hfs]; rfl)]
    simp only [hrs, hfs]; rfl
  rw [hcat] at hmain
  constructor
  · rintro ⟨c1, c2⟩
    have e1 : (if nRot ≠ 0 then rotIdx.length else 0) = rotIdx.length := by
      by_cases h0 : nRot = 0
      · have : rotIdx = [] := by
          rw [List.eq_nil_iff_forall_not_mem]
          intro i hi; exact c1 h0 i (mR i hi).1 (mR i hi).2
        simp [this]
      · simp [h0]
    have e2 : (if nRef ≠ 0 then refIdx.length else 0) = refIdx.length := by
      by_cases h0 : nRef = 0
      · have : refIdx = [] := by
          rw [List.eq_nil_iff_forall_not_mem]
          intro i hi; exact c2 h0 i (mF i hi).1 (mF i hi).2
        simp [this]
      · simp [h0]
    simp only [e1, e2, hlen] at hmain
    have hx := index0_ok (α := ℝ) ⟨[n, S],
      fun idx => match idx with
        | [] => r.get []
        | i :: is => if i < rotIdx.length then r.get (i :: is)
                     else f.get ((i - rotIdx.length) :: is)⟩ (argsort (rotIdx ++ refIdx))
      (by intro i hi; exact List.mem_range.1 (hap.mem_iff.1 hi))
    refine ⟨_, hmain.trans hx, ?_, ?_⟩
    · simp [hal]
    · intro i hi
      obtain ⟨hj, hji⟩ := has i hi
      set j := (argsort (rotIdx ++ refIdx)).getD i 0 with hjdef
      have hjl : j < rotIdx.length + refIdx.length := by omega
      constructor
      · intro hc
        have hjr : j < rotIdx.length := by
          by_contra hcon
          have : (rotIdx ++ refIdx).getD j 0 ∈ refIdx := by
            rw [getD_of_lt (by simpa using hjl), List.getElem_append_right (by omega)]
            exact List.getElem_mem _
          rw [hji] at this
          have := (mF i this).2
          rw [hc] at this; norm_num at this
        have hri : rotIdx.getD j 0 = i := by
          rw [← hji, getD_of_lt hjr, getD_of_lt (by simpa using hjl), List.getElem_append_left hjr]
        have h0 : nRot ≠ 0 := fun h0 => c1 h0 i hi hc
        obtain ⟨o1, ho1, hoc⟩ := hrow h0 j hjr
        rw [hri] at ho1
        refine ⟨o1, ho1, ?_⟩
        intro c
        simp only [← hjdef, if_pos hjr]
        exact hoc c
      · intro hc
        have hjr : ¬ j < rotIdx.length := by
          intro hcon
          have : (rotIdx ++ refIdx).getD j 0 ∈ rotIdx := by
            rw [getD_of_lt (by simpa using hjl), List.getElem_append_left hcon]
            exact List.getElem_mem _
          rw [hji] at this
          have := (mR i this).2
          rw [hc] at this; norm_num at this
        have hri : refIdx.getD (j - rotIdx.length) 0 = i := by
          rw [← hji, getD_of_lt (by omega), getD_of_lt (by simpa using hjl),
            List.getElem_append_right (by omega)]
        have h0 : nRef ≠ 0 := fun h0 => c2 h0 i hi hc
        obtain ⟨o1, ho1, hoc⟩ := hfow h0 (j - rotIdx.length) (by omega)
        rw [hri] at ho1
        refine ⟨o1, ho1, ?_⟩
        intro c
        simp only [← hjdef, if_neg hjr]
        exact hoc c
  · intro hbad
    have hlt : (if nRot ≠ 0 then rotIdx.length else 0) +
        (if nRef ≠ 0 then refIdx.length else 0) < n := by
      by_contra hcon
      apply hbad
      constructor
      · intro h0 i hi hc
        have : i ∈ rotIdx := by simp [hrI, whereIdx, hi, hc]
        have := List.length_pos_of_mem this
        rw [if_neg (by simpa using h0)] at hcon
        split at hcon <;> omega
      · intro h0 i hi hc
        have : i ∈ refIdx := by simp [hfI, whereIdx, hi, hc]
        have := List.length_pos_of_mem this
        rw [if_neg (show ¬ nRef ≠ 0 by simpa using h0)] at hcon
        split at hcon <;> omega
    rw [hmain]
    refine index0_err (α := ℝ) _ _ (n - 1) ?_ ?_
    · rw [hap.mem_iff]; simp; omega
    · simp only [List.headD_cons]; omega

theorem whereIdx_query (grid : Tensor G) (p : ℕ → Bool) :
    ∃ q, (grid.map rot).index0 (whereIdx (grid.shape.headD 0) p) = .ok q :=
  ⟨_, index0_ok _ _ (by intro i hi; simpa [Tensor.map, whereIdx] using (List.mem_filter.1 hi).1)⟩

theorem half_le (signal : Tensor ℝ) (sg : Tensor G) (rot : G → Q) (k : ℕ)
    (hle : sg.shape.headD 0 ≤ signal.shape.headD 0) :
    ((sg.slice0 0 k).map rot).shape.headD 0 ≤ (signal.slice0 0 k).shape.headD 0 ∧
    ((sg.drop0 k).map rot).shape.headD 0 ≤ (signal.drop0 k).shape.headD 0 := by
  simp only [Tensor.map, drop0, slice0]
  generalize sg.shape = a at hle ⊢
  generalize signal.shape = b at hle ⊢
  rcases a with _ | ⟨a, _⟩ <;> rcases b with _ | ⟨b, _⟩ <;>
    simp only [List.headD_nil, List.headD_cons] at hle ⊢ <;> omega

/-- a rotation sampler that fails for every query on the rotation half. -/
theorem cosetSample_errR_all (grid : Tensor G) (nRot nRef : ℕ)
    (signal : Tensor ℝ) (sg : Tensor G) (wr wf : ℝ) (h0 : nRot ≠ 0) (e : PyErr)
    (h : ∀ q, samp wr q (signal.slice0 0 nRot) ((sg.slice0 0 nRot).map rot) = .error e) :
    cosetSample coef rot samp grid signal sg nRot nRef wr wf = .error e := by
  obtain ⟨q, hq⟩ := whereIdx_query (rot := rot) grid (fun i => decide (coef (grid.get [i]) = 1))
  unfold cosetSample
  dsimp only
  rw [if_pos h0, hq]
  show (samp wr q (signal.slice0 0 nRot) ((sg.slice0 0 nRot).map rot)).bind _ = _
  rw [h q]; rfl

/-- a rotation sampler that succeeds for every query on the rotation half and fails for every query on
the reflection half. -/
theorem cosetSample_errF_all (grid : Tensor G) (nRot nRef : ℕ)
    (signal : Tensor ℝ) (sg : Tensor G) (wr wf : ℝ) (h0 : nRef ≠ 0) (e : PyErr)
    (okR : nRot ≠ 0 → ∀ q, ∃ o, samp wr q (signal.slice0 0 nRot) ((sg.slice0 0 nRot).map rot) = .ok o)
    (h : ∀ q, samp wf q (signal.drop0 nRot) ((sg.drop0 nRot).map rot) = .error e) :
    cosetSample coef rot samp grid signal sg nRot nRef wr wf = .error e := by
  obtain ⟨q, hq⟩ := whereIdx_query (rot := rot) grid (fun i => decide (coef (grid.get [i]) = -1))
  obtain ⟨q', hq'⟩ := whereIdx_query (rot := rot) grid (fun i => decide (coef (grid.get [i]) = 1))
  unfold cosetSample
  dsimp only
  by_cases hR : nRot = 0
  · rw [if_neg (by simpa using hR), if_pos h0, hq]
    show (samp wf q (signal.drop0 nRot) ((sg.drop0 nRot).map rot)).bind _ = _
    rw [h q]; rfl
  · obtain ⟨o', ho'⟩ := okR hR q'
    rw [if_pos hR, hq', if_pos h0, hq]
    show (samp wr q' (signal.slice0 0 nRot) ((sg.slice0 0 nRot).map rot)).bind _ = _
    rw [ho']
    show (samp wf q (signal.drop0 nRot) ((sg.drop0 nRot).map rot)).bind _ = _
    rw [h q]; rfl

/-- an error of the rotation sampler on the rotation half is the error of the call. -/
theorem cosetSample_errR (hs : RowSampler samp) (grid : Tensor G) (nRot nRef : ℕ)
    (signal : Tensor ℝ) (sg : Tensor G) (wr wf : ℝ) (h0 : nRot ≠ 0) (e : PyErr) (q0 : Tensor Q)
    (hle : sg.shape.headD 0 ≤ signal.shape.headD 0)
    (h : samp wr q0 (signal.slice0 0 nRot) ((sg.slice0 0 nRot).map rot) = .error e) :
    cosetSample coef rot samp grid signal sg nRot nRef wr wf = .error e :=
  cosetSample_errR_all grid nRot nRef signal sg wr wf h0 e
    fun q => hs.err (half_le signal sg rot nRot hle).1 h q

/-- the rotation half succeeds, the reflection half fails: its error is the error of the call. -/
theorem cosetSample_errF (hs : RowSampler samp) (grid : Tensor G) (nRot nRef : ℕ)
    (signal : Tensor ℝ) (sg : Tensor G) (wr wf : ℝ) (h0 : nRef ≠ 0) (e : PyErr) (q0 : Tensor Q)
    (hle : sg.shape.headD 0 ≤ signal.shape.headD 0)
    (okR : nRot ≠ 0 → ∃ q o, samp wr q (signal.slice0 0 nRot) ((sg.slice0 0 nRot).map rot) = .ok o)
    (h : samp wf q0 (signal.drop0 nRot) ((sg.drop0 nRot).map rot) = .error e) :
    cosetSample coef rot samp grid signal sg nRot nRef wr wf = .error e :=
  cosetSample_errF_all grid nRot nRef signal sg wr wf h0 e
    (fun hR q => by
      obtain ⟨qo, o, ho⟩ := okR hR
      exact hs.total (half_le signal sg rot nRot hle).1 ho q)
    fun q => hs.err (half_le signal sg rot nRot hle).2 h q

end
end GConv

import Verif.Spec.Equivariance
import Verif.Lemmas.Lattice
import Verif.Props.ConvForward

/-! # How the correlation changes with the signal -/

namespace GConv.Conv

open Tensor Spec

/-! ## linear combinations -/

theorem extended_lin (mode : F.CPad) (S : List ℕ) (f g : List ℕ → ℝ) (α β : ℝ) (P : List ℤ) :
    extended mode S (fun q => α * f q + β * g q) P = α * extended mode S f P + β * extended mode S g P := by
  unfold extended
  cases cellAt mode S P with
  | none => simp
  | some q => rfl

theorem corr_lin (mode : F.CPad) (ax : List Axis) (S : List ℕ) (f g w : List ℕ → ℝ) (α β : ℝ) (o : List ℕ) :
    corr mode ax S (fun q => α * f q + β * g q) w o = α * corr mode ax S f w o + β * corr mode ax S g w o := by
  unfold corr sumBox
  rw [← List.sum_map_mul_left, ← List.sum_map_mul_left, ← List.sum_map_add]
  congr 1
  apply List.map_congr_left
  intro k _
  rw [extended_lin]; ring

theorem corr_smul_weight (mode : F.CPad) (ax : List Axis) (S : List ℕ) (f w : List ℕ → ℝ) (c : ℝ) (o : List ℕ) :
    corr mode ax S f (fun k => c * w k) o = c * corr mode ax S f w o := by
  unfold corr sumBox
  rw [← List.sum_map_mul_left]
  congr 1
  apply List.map_congr_left
  intro k _
  ring

/-! ## axis by axis -/

theorem readPos_length : ∀ (ax : List Axis) (o k : List ℕ), o.length = ax.length → k.length = ax.length →
    (readPos ax o k).length = ax.length
  | [], [], [], _, _ => rfl
  | a :: ax, o :: os, k :: ks, h1, h2 => by
    simp only [readPos, List.length_cons, readPos_length ax os ks (by simpa using h1) (by simpa using h2)]
  | [], _ :: _, _, h, _ => by simp at h
  | [], [], _ :: _, _, h => by simp at h
  | _ :: _, [], _, h, _ => by simp at h
  | _ :: _, _ :: _, [], _, h => by simp at h

theorem readPos_getD (x₀ : Axis) : ∀ (ax : List Axis) (o k : List ℕ), o.length = ax.length → k.length = ax.length →
    ∀ i < ax.length, (readPos ax o k).getD i 0 = (ax.getD i x₀).pos (o.getD i 0) (k.getD i 0)
  | [], [], [], _, _ => fun i h => by simp at h
  | a :: ax, o :: os, k :: ks, h1, h2 => fun i h => by
    cases i with
    | zero => rfl
    | succ i =>
      have := readPos_getD x₀ ax os ks (by simpa using h1) (by simpa using h2) i (by simpa using h)
      simpa [readPos] using this
  | [], _ :: _, _, h, _ => by simp at h
  | [], [], _ :: _, _, h => by simp at h
  | _ :: _, [], _, h, _ => by simp at h
  | _ :: _, _ :: _, [], _, h => by simp at h

theorem cellAt_eq_some {mode : F.CPad} : ∀ {S : List ℕ} {P : List ℤ} {q : List ℕ}, P.length = S.length →
    (cellAt mode S P = some q ↔ q.length = S.length ∧ ∀ i < S.length, F.padIdx mode (S.getD i 0) (P.getD i 0) = some (q.getD i 0))
  | [], [], q, _ => by
    constructor
    · intro h; cases h; exact ⟨rfl, fun i h => by simp at h⟩
    · rintro ⟨h, -⟩; rw [List.length_eq_zero_iff.1 h]; rfl
  | s :: S, p :: P, q, hl => by
    have ih := fun q => @cellAt_eq_some mode S P q (by simpa using hl)
    constructor
    · intro h
      simp only [cellAt] at h
      cases e1 : F.padIdx mode s p with
      | none => rw [e1] at h; cases h
      | some j =>
        cases e2 : cellAt mode S P with
        | none => rw [e1, e2] at h; cases h
        | some js =>
          rw [e1, e2] at h
          cases h
          obtain ⟨i1, i2⟩ := (ih js).1 e2
          refine ⟨by simp [i1], fun i hi => ?_⟩
          cases i with
          | zero => simpa using e1
          | succ i => simpa using i2 i (by simpa using hi)
    · rintro ⟨h1, h2⟩
      cases q with
      | nil => simp at h1
      | cons j js =>
        have e1 : F.padIdx mode s p = some j := by simpa using h2 0 (by simp)
        have e2 := (ih js).2 ⟨by simpa using h1, fun i hi => by simpa using h2 (i + 1) (by simpa using hi)⟩
        simp only [cellAt, e1, e2]
  | [], _ :: _, _, h => by simp at h
  | _ :: _, [], _, h => by simp at h

theorem cellAt_eq_none {mode : F.CPad} : ∀ {S : List ℕ} {P : List ℤ}, P.length = S.length →
    (cellAt mode S P = none ↔ ∃ i < S.length, F.padIdx mode (S.getD i 0) (P.getD i 0) = none)
  | [], [], _ => by
    constructor
    · intro h; cases h
    · rintro ⟨i, h, -⟩; simp at h
  | s :: S, p :: P, hl => by
    have ih := @cellAt_eq_none mode S P (by simpa using hl)
    constructor
    · intro h
      simp only [cellAt] at h
      cases e1 : F.padIdx mode s p with
      | none => exact ⟨0, by simp, by simpa using e1⟩
      | some j =>
        cases e2 : cellAt mode S P with
        | none =>
          obtain ⟨i, hi, h'⟩ := ih.1 e2
          exact ⟨i + 1, by simpa using hi, by simpa using h'⟩
        | some js => rw [e1, e2] at h; cases h
    · rintro ⟨i, hi, h⟩
      simp only [cellAt]
      cases i with
      | zero =>
        have e1 : F.padIdx mode s p = none := by simpa using h
        rw [e1]
      | succ i =>
        have e2 := ih.2 ⟨i, by simpa using hi, by simpa using h⟩
        rw [e2]
        cases F.padIdx mode s p <;> rfl
  | [], _ :: _, h => by simp at h
  | _ :: _, [], h => by simp at h

/-! ## shifts -/

/-- inside the signal every padding mode reads the cell itself. -/
theorem padIdx_inside (mode : F.CPad) {s p : ℕ} (h : p < s) : F.padIdx mode s (p : ℤ) = some p := by
  unfold F.padIdx
  cases mode with
  | zeros => exact if_pos ⟨by omega, by omega⟩
  | reflect => dsimp only; rw [if_neg (by omega), if_pos (by omega)]; simp
  | replicate => dsimp only; congr 1; omega
  | circular => dsimp only; rw [Int.emod_eq_of_lt (by omega) (by omega)]; simp

theorem cellAt_inside (mode : F.CPad) {S q : List ℕ} (h : InB S q) : cellAt mode S (q.map Int.ofNat) = some q := by
  have h' := InB_iff.1 h
  refine (cellAt_eq_some (by simp [h'.1])).2 ⟨h'.1, fun i hi => ?_⟩
  have : (q.map Int.ofNat).getD i 0 = ((q.getD i 0 : ℕ) : ℤ) := by
    have hi' : i < q.length := by rw [h'.1]; exact hi
    simp [List.getD_eq_getElem?_getD, List.getElem?_eq_getElem hi']
  rw [this]
  exact padIdx_inside mode (h'.2 i hi)

theorem map_ofNat_getD (q : List ℕ) (i : ℕ) : (q.map Int.ofNat).getD i 0 = ((q.getD i 0 : ℕ) : ℤ) := by
  rw [List.getD_eq_getElem?_getD, List.getD_eq_getElem?_getD, List.getElem?_map]
  cases q[i]? <;> rfl

theorem inputShift_length {ax : List Axis} {t : List ℤ} (h : t.length = ax.length) : (inputShift ax t).length = ax.length := by
  unfold inputShift; simp [h]

theorem inputShift_getD (x₀ : Axis) {ax : List Axis} {t : List ℤ} (h : t.length = ax.length) {i : ℕ} (hi : i < ax.length) :
    (inputShift ax t).getD i 0 = ((ax.getD i x₀).stride : ℤ) * t.getD i 0 := by
  unfold inputShift
  have hi' : i < t.length := by omega
  rw [List.getD_eq_getElem?_getD, List.getElem?_zipWith, List.getElem?_eq_getElem hi, List.getElem?_eq_getElem hi']
  simp [List.getD_eq_getElem?_getD, List.getElem?_eq_getElem hi, List.getElem?_eq_getElem hi']

/-- Both windows inside the signal: shifting the signal shifts the correlation. -/
theorem corr_shift {mode : F.CPad} {ax : List Axis} {S S' : List ℕ} {f f' w : List ℕ → ℝ} {t : List ℤ} {o o' : List ℕ}
    (ht : t.length = ax.length) (hoo : ShiftedBy t o o') (h : WindowInside ax S o) (h' : WindowInside ax S' o')
    (hf : ∀ q q', InB S q → InB S' q' → ShiftedBy (inputShift ax t) q q' → f' q' = f q) :
    corr mode ax S' f' w o' = corr mode ax S f w o := by
  refine sumBox_congr fun k hk => ?_
  congr 1
  obtain ⟨q, hq, e⟩ := h k hk
  obtain ⟨q', hq', e'⟩ := h' k hk
  unfold extended
  rw [e, e', cellAt_inside mode hq, cellAt_inside mode hq']
  refine hf q q' hq hq' ?_
  have hkl : k.length = ax.length := by rw [hk.length]; simp [kernelDims]
  have hol : o.length = ax.length := by rw [hoo.1, ht]
  have hol' : o'.length = ax.length := by rw [hoo.2.1, ht]
  have l1 := congrArg List.length e
  have l2 := congrArg List.length e'
  rw [readPos_length ax o k hol hkl, List.length_map] at l1
  rw [readPos_length ax o' k hol' hkl, List.length_map] at l2
  refine ⟨by rw [inputShift_length ht, ← l1], by rw [inputShift_length ht, ← l2], fun i hi => ?_⟩
  rw [inputShift_length ht] at hi
  have a1 := congrArg (·.getD i 0) e
  have a2 := congrArg (·.getD i 0) e'
  rw [readPos_getD ⟨0, 0, 0, 0, 0⟩ ax _ k hol hkl i hi, map_ofNat_getD] at a1
  rw [readPos_getD ⟨0, 0, 0, 0, 0⟩ ax _ k hol' hkl i hi, map_ofNat_getD] at a2
  rw [inputShift_getD ⟨0, 0, 0, 0, 0⟩ ht hi, ← a1, ← a2]
  have := hoo.2.2 i (by omega)
  unfold Axis.pos
  rw [this]
  ring

theorem wrap_getD {S : List ℕ} (t : List ℤ) (p : List ℕ) {i : ℕ} (hi : i < S.length) :
    (wrap S t p).getD i 0 = (((p.getD i 0 : ℤ) + t.getD i 0) % (S.getD i 0 : ℤ)).toNat := by
  unfold wrap
  rw [List.getD_eq_getElem?_getD, List.getElem?_ofFn]
  simp [hi]

@[simp] theorem wrap_length (S : List ℕ) (t : List ℤ) (p : List ℕ) : (wrap S t p).length = S.length := by
  simp [wrap]

/-- On a torus: unit strides, circular padding. -/
theorem corr_wrap {ax : List Axis} {S : List ℕ} {f f' w : List ℕ → ℝ} {t : List ℤ} {o : List ℕ}
    (hg : GeomOk .circular ax S) (hS : outDims ax S = S) (hst : ∀ x ∈ ax, x.stride = 1) (ho : InB S o)
    (hf : ∀ q, InB S q → f' (wrap S t q) = f q) :
    corr .circular ax S f' w (wrap S t o) = corr .circular ax S f w o := by
  have hlen := GeomOk.length hg
  refine sumBox_congr fun k hk => ?_
  congr 1
  have hkl : k.length = ax.length := by rw [hk.length]; simp [kernelDims]
  have hol : o.length = ax.length := by rw [ho.length, hlen]
  have hol' : (wrap S t o).length = ax.length := by rw [wrap_length, hlen]
  have hrl := readPos_length ax o k hol hkl
  have hrl' := readPos_length ax _ k hol' hkl
  unfold extended
  cases h : cellAt .circular S (readPos ax o k) with
  | none =>
    obtain ⟨i, hi, h'⟩ := (cellAt_eq_none (by rw [hrl, hlen])).1 h
    cases h'
  | some q =>
    have hq := (cellAt_eq_some (by rw [hrl, hlen])).1 h
    have hqb : InB S q := cellAt_InB hg (by rw [hS]; exact ho) hk h
    have : cellAt .circular S (readPos ax (wrap S t o) k) = some (wrap S t q) := by
      refine (cellAt_eq_some (by rw [hrl', hlen])).2 ⟨wrap_length _ _ _, fun i hi => ?_⟩
      have hi' : i < ax.length := by omega
      have e := hq.2 i hi
      rw [readPos_getD ⟨0, 0, 0, 0, 0⟩ ax _ k hol hkl i hi'] at e
      rw [readPos_getD ⟨0, 0, 0, 0, 0⟩ ax _ k hol' hkl i hi', wrap_getD t o hi, wrap_getD t q hi]
      have hx : (ax.getD i ⟨0, 0, 0, 0, 0⟩).stride = 1 := by
        rw [List.getD_eq_getElem?_getD, List.getElem?_eq_getElem hi']
        exact hst _ (List.getElem_mem hi')
      have hs : 0 < S.getD i 0 := by
        have := (InB_iff.1 ho).2 i hi; omega
      have hsz : (0 : ℤ) < (S.getD i 0 : ℤ) := by exact_mod_cast hs
      unfold F.padIdx Axis.pos at e ⊢
      dsimp only at e ⊢
      rw [hx] at e ⊢
      have e' := Option.some.inj e
      rw [← e']
      congr 2
      rw [Int.toNat_of_nonneg (Int.emod_nonneg _ hsz.ne'), Int.toNat_of_nonneg (Int.emod_nonneg _ hsz.ne')]
      push_cast
      rw [Int.emod_add_emod, mul_one, mul_one]
      have : ∀ x y z u m : ℤ, ((x + y) % m + z - u) % m = (x + z - u + y) % m := by
        intro x y z u m
        have : (x + y) % m + z - u = (x + y) % m + (z - u) := by ring
        rw [this, Int.emod_add_emod]
        congr 1; ring
      exact this _ _ _ _ _
    rw [this]
    exact hf q hqb

/-! ## lattice symmetries -/

/-- every padding mode treats the two ends of an axis alike. -/
theorem padIdx_flip {mode : F.CPad} {s l r : ℕ} {p : ℤ} (ha : F.padAllowed mode s l r = true) (h1 : -(l : ℤ) ≤ p)
    (h2 : p < s + r) (hs : 0 < s + l + r) : F.padIdx mode s (s - 1 - p) = (F.padIdx mode s p).map (fun j => s - 1 - j) := by
  unfold F.padIdx
  unfold F.padAllowed at ha
  cases mode with
  | zeros =>
    dsimp only
    by_cases hp : 0 ≤ p ∧ p < s
    · rw [if_pos hp, if_pos (by omega)]
      simp only [Option.map_some]
      congr 1; omega
    · rw [if_neg hp, if_neg (by omega)]; rfl
  | reflect =>
    dsimp only at ha ⊢
    simp only [decide_eq_true_eq] at ha
    simp only [Option.map_some]
    congr 1
    by_cases c1 : p < 0
    · rw [if_pos c1, if_neg (by omega), if_neg (by omega)]; omega
    · by_cases c2 : p < s
      · rw [if_neg c1, if_pos c2, if_neg (by omega), if_pos (by omega)]; omega
      · rw [if_neg c1, if_neg c2, if_pos (by omega)]; omega
  | replicate =>
    dsimp only at ha ⊢
    simp only [decide_eq_true_eq] at ha
    simp only [Option.map_some]
    congr 1
    omega
  | circular =>
    dsimp only at ha ⊢
    simp only [decide_eq_true_eq] at ha
    have hsz : (0 : ℤ) < s := by omega
    simp only [Option.map_some]
    congr 1
    have b1 := Int.emod_nonneg p hsz.ne'
    have b2 := Int.emod_lt_of_pos p hsz
    have : ((s : ℤ) - 1 - p) % s = s - 1 - p % s := by
      have e : (s : ℤ) - 1 - p = (s - 1 - p % s) + s * (-(p / s)) := by
        have := Int.emod_add_mul_ediv p s
        linear_combination this
      rw [e, Int.add_mul_emod_self_left, Int.emod_eq_of_lt (by omega) (by omega)]
    rw [this]
    omega

theorem getD_mem_forall {S : List ℕ} {P : ℕ → Prop} (h : ∀ s ∈ S, P s) {i : ℕ} (hi : i < S.length) : P (S.getD i 0) := by
  rw [List.getD_eq_getElem?_getD, List.getElem?_eq_getElem hi]
  exact h _ (List.getElem_mem hi)

theorem replicate_getD {d v i : ℕ} (hi : i < d) : (List.replicate d v).getD i 0 = v := by
  rw [List.getD_eq_getElem?_getD, List.getElem?_replicate, if_pos hi]; rfl

theorem geomOk_getD {mode : F.CPad} {x : Axis} : ∀ {d : ℕ} {S : List ℕ}, GeomOk mode (List.replicate d x) S →
    ∀ i < d, x.Ok mode (S.getD i 0) := by
  intro d S hg i hi
  have hlen := GeomOk.length hg
  rw [List.length_replicate] at hlen
  have := List.forall₂_iff_get.1 hg
  have h := this.2 i (by simpa using hi) (by omega)
  rw [List.getD_eq_getElem?_getD, List.getElem?_eq_getElem (by omega)]
  simpa using h

theorem outDims_getD {x : Axis} {d : ℕ} {S : List ℕ} (hl : S.length = d) {i : ℕ} (hi : i < d) :
    (outDims (List.replicate d x) S).getD i 0 = x.out (S.getD i 0) := by
  unfold outDims
  rw [List.getD_eq_getElem?_getD, List.getElem?_zipWith, List.getElem?_eq_getElem (by simpa using hi),
    List.getElem?_eq_getElem (by omega), List.getD_eq_getElem?_getD, List.getElem?_eq_getElem (by omega)]
  simp

theorem matches_out {d : ℕ} {e : Equiv.Perm (Fin d)} {σ : LatticeSym d} {x : Axis} {S' S : List ℕ}
    (hm : LatticeSym.Matches e σ S' S) :
    LatticeSym.Matches e σ (outDims (List.replicate d x) S') (outDims (List.replicate d x) S) := by
  refine ⟨by simp [outDims, hm.1], by simp [outDims, hm.2.1], fun c => ?_⟩
  rw [outDims_getD hm.1 (Fin.isLt _), outDims_getD hm.2.1 (Fin.isLt _), hm.2.2]

/-- the position read after moving output cell and kernel cell. -/
theorem pos_move {mode : F.CPad} {d : ℕ} {e : Equiv.Perm (Fin d)} {σ : LatticeSym d} {x : Axis} {S' S : List ℕ}
    (hm : LatticeSym.Matches e σ S' S) (hg' : GeomOk mode (List.replicate d x) S') (hg : GeomOk mode (List.replicate d x) S)
    (hx : x.left = x.right) (hst : ∀ s ∈ S, x.stride ∣ s + x.left + x.right - x.span) {o k : List ℕ}
    (ho : InB (outDims (List.replicate d x) S') o) (hk : InB (List.replicate d x.k) k) (a : Fin d) :
    x.pos ((σ.move e (outDims (List.replicate d x) S) o).getD a 0) ((σ.move e (List.replicate d x.k) k).getD a 0) =
      if σ.flip (e.symm a) then
        (S.getD a 0 : ℤ) - 1 - x.pos (o.getD (e (σ.perm (e.symm a))) 0) (k.getD (e (σ.perm (e.symm a))) 0)
      else x.pos (o.getD (e (σ.perm (e.symm a))) 0) (k.getD (e (σ.perm (e.symm a))) 0) := by
  rw [LatticeSym.getD_move, LatticeSym.getD_move]
  by_cases hf : σ.flip (e.symm a)
  · rw [if_pos hf, if_pos hf, if_pos hf]
    have hok := geomOk_getD hg a (Fin.isLt a)
    have hO : (outDims (List.replicate d x) S).getD a 0 = x.out (S.getD a 0) := outDims_getD hm.2.1 (Fin.isLt a)
    have h1 : o.getD (e (σ.perm (e.symm a))) 0 < x.out (S.getD a 0) := by
      have := (InB_iff.1 ho).2 (e (σ.perm (e.symm a))) (by simp [outDims, hm.1])
      rw [outDims_getD hm.1 (Fin.isLt _), hm.2.2, Equiv.apply_symm_apply] at this
      exact this
    have h2 : k.getD (e (σ.perm (e.symm a))) 0 < x.k := by
      have := (InB_iff.1 hk).2 (e (σ.perm (e.symm a))) (by simp)
      rwa [replicate_getD (Fin.isLt _)] at this
    have h3 : (List.replicate d x.k).getD a 0 = x.k := by
      rw [List.getD_eq_getElem?_getD, List.getElem?_replicate, if_pos (Fin.isLt _)]; rfl
    have h4 : x.out (S.getD a 0) = (S.getD a 0 + x.left + x.right - x.span) / x.stride + 1 := rfl
    obtain ⟨t, ht⟩ := getD_mem_forall hst (i := a) (by rw [hm.2.1]; exact Fin.isLt a)
    rw [hO, h3]
    rw [ht, Nat.mul_div_cancel_left _ hok.2.1] at h4
    rw [h4] at h1 ⊢
    generalize o.getD (e (σ.perm (e.symm a))) 0 = u at *
    generalize k.getD (e (σ.perm (e.symm a))) 0 = v at *
    have h5 := hok.2.2.2.1
    unfold Axis.span at h5 ht
    unfold Axis.pos
    have c1 : ((t + 1 - 1 - u : ℕ) : ℤ) = t - u := by omega
    have c2 : ((x.k - 1 - v : ℕ) : ℤ) = x.k - 1 - v := by omega
    rw [c1, c2]
    have hk1 : ((x.k - 1 : ℕ) : ℤ) = (x.k : ℤ) - 1 := by omega
    zify [h5] at ht
    rw [hk1] at ht
    rw [hx] at ht ⊢
    linear_combination (-1 : ℤ) * ht
  · rw [if_neg hf, if_neg hf, if_neg hf]

/-- Moving signal and kernel by a lattice symmetry moves the correlation. -/
theorem corr_move {mode : F.CPad} {d : ℕ} {e : Equiv.Perm (Fin d)} {σ : LatticeSym d} {ax : List Axis} {S' S : List ℕ}
    (hm : LatticeSym.Matches e σ S' S) (hg' : GeomOk mode ax S') (hg : GeomOk mode ax S)
    (hsym : SymmetricGeometry d ax S) {f f' w w' : List ℕ → ℝ}
    (hf : Moved e σ S' S f f') (hw : Moved e σ (kernelDims ax) (kernelDims ax) w w') {o : List ℕ}
    (ho : InB (outDims ax S') o) :
    corr mode ax S f' w' (σ.move e (outDims ax S) o) = corr mode ax S' f w o := by
  obtain ⟨x, rfl, hx, hst⟩ := hsym
  have hkd : kernelDims (List.replicate d x) = List.replicate d x.k := by simp [kernelDims]
  unfold corr
  rw [hkd] at hw ⊢
  have hmk : LatticeSym.Matches e σ (List.replicate d x.k) (List.replicate d x.k) := LatticeSym.matches_cube _
  have hmo := matches_out (x := x) hm
  symm
  refine sumIdx_bij (σ.move e (List.replicate d x.k)) (σ.inv.move e (List.replicate d x.k))
    (fun k hk => LatticeSym.move_InB hmk hk) (fun k hk => LatticeSym.move_InB (LatticeSym.inv_Matches hmk) hk)
    (fun k hk => LatticeSym.move_inv hmk hk) (fun k hk => LatticeSym.move_inv' hmk hk) (fun k hk => ?_)
  rw [hw k hk]
  congr 1
  set o' := σ.move e (outDims (List.replicate d x) S) o with ho'
  set k' := σ.move e (List.replicate d x.k) k with hk'
  have hol : o.length = (List.replicate d x).length := by rw [ho.length]; simp [outDims, hm.1]
  have hkl : k.length = (List.replicate d x).length := by rw [hk.length]; simp
  have hol' : o'.length = (List.replicate d x).length := by simp [ho']
  have hkl' : k'.length = (List.replicate d x).length := by simp [hk']
  have hrl := readPos_length _ o k hol hkl
  have hrl' := readPos_length _ o' k' hol' hkl'
  rw [List.length_replicate] at hrl hrl'
  have hxi : ∀ i < d, (List.replicate d x).getD i ⟨0, 0, 0, 0, 0⟩ = x := by
    intro i hi
    rw [List.getD_eq_getElem?_getD, List.getElem?_replicate, if_pos hi]; rfl
  have hP : ∀ i < d, (readPos (List.replicate d x) o k).getD i 0 = x.pos (o.getD i 0) (k.getD i 0) := fun i hi => by
    rw [readPos_getD ⟨0, 0, 0, 0, 0⟩ _ o k hol hkl i (by simpa using hi), hxi i hi]
  have hP' : ∀ a : Fin d, (readPos (List.replicate d x) o' k').getD a 0 = if σ.flip (e.symm a) then
        (S.getD a 0 : ℤ) - 1 - x.pos (o.getD (e (σ.perm (e.symm a))) 0) (k.getD (e (σ.perm (e.symm a))) 0)
      else x.pos (o.getD (e (σ.perm (e.symm a))) 0) (k.getD (e (σ.perm (e.symm a))) 0) := fun a => by
    rw [readPos_getD ⟨0, 0, 0, 0, 0⟩ _ o' k' hol' hkl' a (by simp), hxi a (Fin.isLt a)]
    exact pos_move hm hg' hg hx hst ho hk a
  -- the cell read along one axis
  have hcell : ∀ a : Fin d, F.padIdx mode (S.getD a 0) ((readPos (List.replicate d x) o' k').getD a 0) =
      (F.padIdx mode (S'.getD (e (σ.perm (e.symm a))) 0) ((readPos (List.replicate d x) o k).getD (e (σ.perm (e.symm a))) 0)).map
        (fun j => if σ.flip (e.symm a) then S.getD a 0 - 1 - j else j) := by
    intro a
    rw [hP' a, hP _ (Fin.isLt _), hm.2.2, Equiv.apply_symm_apply]
    by_cases hf : σ.flip (e.symm a)
    · simp only [if_pos hf]
      have hok := geomOk_getD hg a (Fin.isLt a)
      have h1 : o.getD (e (σ.perm (e.symm a))) 0 < x.out (S.getD a 0) := by
        have := (InB_iff.1 ho).2 (e (σ.perm (e.symm a))) (by simp [outDims, hm.1])
        rw [outDims_getD hm.1 (Fin.isLt _), hm.2.2, Equiv.apply_symm_apply] at this
        exact this
      have h2 : k.getD (e (σ.perm (e.symm a))) 0 < x.k := by
        have := (InB_iff.1 hk).2 (e (σ.perm (e.symm a))) (by simp)
        rwa [replicate_getD (Fin.isLt _)] at this
      obtain ⟨r1, r2⟩ := pos_range hok h1 h2
      refine padIdx_flip hok.2.2.2.2 r1 r2 ?_
      have := hok.2.2.2.1
      unfold Axis.span at this
      omega
    · simp only [if_neg hf]
      rw [Option.map_id']
  unfold extended
  cases h : cellAt mode S' (readPos (List.replicate d x) o k) with
  | none =>
    obtain ⟨i, hi, h'⟩ := (cellAt_eq_none (by rw [hrl, hm.1])).1 h
    rw [hm.1] at hi
    -- the axis that reads coordinate `i`
    set a : Fin d := e (σ.perm.symm (e.symm ⟨i, hi⟩)) with ha
    have ha' : ((e (σ.perm (e.symm a)) : Fin d) : ℕ) = i := by simp [ha]
    have hc := hcell a
    rw [ha', h'] at hc
    have : cellAt mode S (readPos (List.replicate d x) o' k') = none :=
      (cellAt_eq_none (by rw [hrl', hm.2.1])).2 ⟨a, by rw [hm.2.1]; exact Fin.isLt a, hc⟩
    rw [this]
  | some q =>
    obtain ⟨q1, q2⟩ := (cellAt_eq_some (by rw [hrl, hm.1])).1 h
    have : cellAt mode S (readPos (List.replicate d x) o' k') = some (σ.move e S q) := by
      refine (cellAt_eq_some (by rw [hrl', hm.2.1])).2 ⟨by rw [LatticeSym.length_move, hm.2.1], fun i hi => ?_⟩
      rw [hm.2.1] at hi
      have hc := hcell ⟨i, hi⟩
      have hmv := LatticeSym.getD_move (ax := e) (σ := σ) S q ⟨i, hi⟩
      simp only at hc hmv
      rw [hc, hmv, q2 _ (by rw [hm.1]; exact Fin.isLt _)]
      rfl
    rw [this]
    exact (hf q (cellAt_InB hg' ho (by rw [hkd]; exact hk) h)).symm

end GConv.Conv

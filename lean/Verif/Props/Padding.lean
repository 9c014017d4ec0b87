import Verif.Lemmas.Equivariance

/-! # C60, C61: what is read outside the signal -/

namespace GConv.Spec

/-- The pixel `j` of an axis of extent `s` supplies the value at integer position `p`: with zero padding only the pixel itself;
`reflect` mirrors the signal in the centre of its first or last pixel; `replicate` takes the nearest pixel; `circular` repeats the
signal with period `s`. -/
def Supplies (mode : F.CPad) (s : ℕ) (p : ℤ) (j : ℕ) : Prop :=
  j < s ∧ match mode with
    | .zeros => (j : ℤ) = p
    | .reflect => (j : ℤ) = p ∨ (p < 0 ∧ (j : ℤ) - 0 = 0 - p) ∨ ((s : ℤ) ≤ p ∧ (j : ℤ) - (s - 1) = (s - 1) - p)
    | .replicate => ∀ i : ℕ, i < s → |(j : ℤ) - p| ≤ |(i : ℤ) - p|
    | .circular => (s : ℤ) ∣ j - p

end GConv.Spec

namespace GConv.Conv

open Spec Tensor

theorem padIdx_supplies {mode : F.CPad} {s l r : ℕ} {p : ℤ} (ha : F.padAllowed mode s l r = true) (h1 : -(l : ℤ) ≤ p)
    (h2 : p < s + r) (hne : 0 < s + l + r) (j : ℕ) : F.padIdx mode s p = some j ↔ Supplies mode s p j := by
  unfold F.padIdx Supplies
  unfold F.padAllowed at ha
  cases mode with
  | zeros =>
    dsimp only
    by_cases hp : 0 ≤ p ∧ p < s
    · rw [if_pos hp]
      constructor
      · intro h; cases h; omega
      · rintro ⟨-, h⟩; congr 1; omega
    · rw [if_neg hp]
      constructor
      · intro h; cases h
      · rintro ⟨a, h⟩; omega
  | reflect =>
    dsimp only at ha ⊢
    simp only [decide_eq_true_eq] at ha
    rw [Option.some_inj]
    by_cases c1 : p < 0
    · rw [if_pos c1]; omega
    · by_cases c2 : p < s
      · rw [if_neg c1, if_pos c2]; omega
      · rw [if_neg c1, if_neg c2]; omega
  | replicate =>
    dsimp only at ha ⊢
    simp only [decide_eq_true_eq] at ha
    rw [Option.some_inj]
    constructor
    · intro h
      refine ⟨by omega, fun i hi => ?_⟩
      rcases abs_cases ((j : ℤ) - p) with ⟨e, f⟩ | ⟨e, f⟩ <;> rcases abs_cases ((i : ℤ) - p) with ⟨e', f'⟩ | ⟨e', f'⟩ <;> omega
    · rintro ⟨hj, h⟩
      have h0 := h (max 0 (min p (s - 1))).toNat (by omega)
      rcases abs_cases ((j : ℤ) - p) with ⟨e, f⟩ | ⟨e, f⟩ <;>
        rcases abs_cases (((max 0 (min p (s - 1))).toNat : ℤ) - p) with ⟨e', f'⟩ | ⟨e', f'⟩ <;> omega
  | circular =>
    dsimp only at ha ⊢
    simp only [decide_eq_true_eq] at ha
    have hs : (0 : ℤ) < s := by omega
    have b1 := Int.emod_nonneg p hs.ne'
    have b2 := Int.emod_lt_of_pos p hs
    rw [Option.some_inj]
    constructor
    · intro h
      have hj : (j : ℤ) = p % s := by omega
      refine ⟨by omega, ?_⟩
      rw [hj]
      exact ⟨-(p / s), by have := Int.emod_add_mul_ediv p s; linear_combination this⟩
    · rintro ⟨hj, h⟩
      have : (j : ℤ) % s = p % s := (Int.modEq_iff_dvd.2 h : p ≡ j [ZMOD s]).symm
      rw [Int.emod_eq_of_lt (by omega) (by omega)] at this
      omega

/-- What a convolution reads: output cell `o` and kernel cell `k` look at position `o·stride + k·dilation - left` of every axis.
The extended signal has there the value of the cell whose entries supply these positions; with zero padding it is 0 when a position
is outside the signal, and the other modes always find a cell. -/
theorem C60_padding {mode : F.CPad} {ax : List Axis} {S o k : List ℕ} (hS : GeomOk mode ax S) (ho : InB (outDims ax S) o)
    (hk : InB (kernelDims ax) k) (f : List ℕ → ℝ) :
    (∀ q : List ℕ, q.length = S.length →
      (∀ i < S.length, Supplies mode (S.getD i 0) ((ax.getD i ⟨0, 0, 0, 0, 0⟩).pos (o.getD i 0) (k.getD i 0)) (q.getD i 0)) →
      extended mode S f (readPos ax o k) = f q) ∧
    ((∃ i < S.length, ∀ j, ¬ Supplies mode (S.getD i 0) ((ax.getD i ⟨0, 0, 0, 0, 0⟩).pos (o.getD i 0) (k.getD i 0)) j) →
      extended mode S f (readPos ax o k) = 0 ∧ mode = .zeros) := by
  have hl : ax.length = S.length := hS.length_eq
  have hol : o.length = ax.length := by rw [ho.length, outDims, List.length_zipWith, hl, min_self]
  have hkl : k.length = ax.length := by rw [hk.length]; simp [kernelDims]
  have hrl : (readPos ax o k).length = S.length := by rw [readPos_length _ _ _ hol hkl, hl]
  have key : ∀ i < S.length, ∀ j, F.padIdx mode (S.getD i 0) ((readPos ax o k).getD i 0) = some j ↔
      Supplies mode (S.getD i 0) ((ax.getD i ⟨0, 0, 0, 0, 0⟩).pos (o.getD i 0) (k.getD i 0)) j := by
    intro i hi j
    have hi' : i < ax.length := by omega
    rw [readPos_getD ⟨0, 0, 0, 0, 0⟩ ax o k hol hkl i hi']
    have e1 : ax.getD i ⟨0, 0, 0, 0, 0⟩ = ax[i] := by rw [List.getD_eq_getElem?_getD, List.getElem?_eq_getElem hi']; rfl
    have e2 : S.getD i 0 = S[i] := by rw [List.getD_eq_getElem?_getD, List.getElem?_eq_getElem hi]; rfl
    have hok := List.Forall₂.get hS hi' hi
    simp only [List.get_eq_getElem] at hok
    have h1 : o.getD i 0 < ax[i].out S[i] := by
      have := (InB_iff.1 ho).2 i (by simp [outDims]; omega)
      have e3 : (outDims ax S).getD i 0 = ax[i].out S[i] := by
        rw [List.getD_eq_getElem?_getD, outDims, List.getElem?_eq_getElem (by simp; omega), List.getElem_zipWith]; rfl
      rwa [e3] at this
    have h2 : k.getD i 0 < ax[i].k := by
      have := (InB_iff.1 hk).2 i (by simp [kernelDims]; omega)
      have e3 : (kernelDims ax).getD i 0 = ax[i].k := by
        rw [List.getD_eq_getElem?_getD, kernelDims, List.getElem?_eq_getElem (by simp; omega), List.getElem_map]; rfl
      rwa [e3] at this
    obtain ⟨r1, r2⟩ := pos_range hok h1 h2
    rw [e1, e2]
    refine padIdx_supplies hok.2.2.2.2 r1 r2 ?_ j
    have := hok.2.2.2.1
    unfold Axis.span at this
    omega
  refine ⟨fun q hq h => ?_, ?_⟩
  · unfold extended
    rw [(cellAt_eq_some hrl).2 ⟨hq, fun i hi => (key i hi _).2 (h i hi)⟩]
  · rintro ⟨i, hi, h⟩
    have hnone : F.padIdx mode (S.getD i 0) ((readPos ax o k).getD i 0) = none := by
      cases e : F.padIdx mode (S.getD i 0) ((readPos ax o k).getD i 0) with
      | none => rfl
      | some j => exact (h j ((key i hi j).1 e)).elim
    refine ⟨?_, ?_⟩
    · unfold extended
      rw [(cellAt_eq_none hrl).2 ⟨i, hi, hnone⟩]
    · cases mode with
      | zeros => rfl
      | _ => unfold F.padIdx at hnone; cases hnone

/-- Reflection in a signal of 5 pixels: position -2 shows pixel 2, position 6 shows pixel 2, and the border pixel is not repeated. -/
example : Supplies .reflect 5 (-2) 2 ∧ Supplies .reflect 5 6 2 ∧ Supplies .reflect 5 (-1) 1 ∧ Supplies .replicate 5 7 4 ∧
    Supplies .circular 5 (-2) 3 ∧ ∀ j, ¬ Supplies .zeros 5 (-1) j := by
  refine ⟨⟨by norm_num, by norm_num⟩, ⟨by norm_num, by norm_num⟩, ⟨by norm_num, by norm_num⟩, ⟨by norm_num, fun i hi => ?_⟩, ⟨by norm_num, by norm_num⟩, ?_⟩
  · rw [abs_of_nonpos (by norm_num), abs_of_nonpos (by omega)]; push_cast; omega
  · rintro j ⟨-, h⟩
    have : (j : ℤ) = -1 := h
    omega

end GConv.Conv

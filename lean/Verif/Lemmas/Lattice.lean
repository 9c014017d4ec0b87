import Verif.Spec.Lattice
import Verif.Lemmas.Tensor

/-! Facts about lattice symmetries. -/

namespace GConv.Spec.LatticeSym

open Tensor Matrix

variable {d : ℕ} {ax : Equiv.Perm (Fin d)} {σ : LatticeSym d}

theorem getD_move (S p : List ℕ) (a : Fin d) :
    (move ax σ S p).getD a 0 = (if σ.flip (ax.symm a) then S.getD a 0 - 1 - p.getD (ax (σ.perm (ax.symm a))) 0
      else p.getD (ax (σ.perm (ax.symm a))) 0) := by
  unfold move
  rw [List.getD_eq_getElem?_getD, List.getElem?_ofFn]
  simp

@[simp] theorem length_move (S p : List ℕ) : (move ax σ S p).length = d := by simp [move]

theorem move_InB {S' S p : List ℕ} (hm : Matches ax σ S' S) (h : InB S' p) : InB S (move ax σ S p) := by
  rw [InB_iff] at h ⊢
  refine ⟨by rw [length_move, hm.2.1], fun a ha => ?_⟩
  rw [hm.2.1] at ha
  have e := getD_move (ax := ax) (σ := σ) S p ⟨a, ha⟩
  rw [show ((⟨a, ha⟩ : Fin d) : ℕ) = a from rfl] at e
  rw [e]
  have h1 := h.2 (ax (σ.perm (ax.symm ⟨a, ha⟩))) (by rw [hm.1]; exact Fin.isLt _)
  rw [hm.2.2, Equiv.apply_symm_apply] at h1
  rw [show ((⟨a, ha⟩ : Fin d) : ℕ) = a from rfl] at h1
  split
  · omega
  · exact h1

/-- the inverse symmetry. -/
def inv (σ : LatticeSym d) : LatticeSym d :=
  ⟨σ.perm.symm, fun c => σ.flip (σ.perm.symm c)⟩

theorem inv_Matches {S' S : List ℕ} (hm : Matches ax σ S' S) : Matches ax (inv σ) S S' := by
  refine ⟨hm.2.1, hm.1, fun c => ?_⟩
  have := hm.2.2 (σ.perm.symm c)
  rw [Equiv.apply_symm_apply] at this
  exact this.symm

theorem inv_inv (σ : LatticeSym d) : inv (inv σ) = σ := by
  cases σ; simp [inv]

theorem move_inv {S' S p : List ℕ} (hm : Matches ax σ S' S) (h : InB S' p) :
    move ax (inv σ) S' (move ax σ S p) = p := by
  rw [InB_iff] at h
  apply list_ext_getD
  · rw [length_move, h.1, hm.1]
  · intro a ha
    rw [length_move] at ha
    have e := getD_move (ax := ax) (σ := inv σ) S' (move ax σ S p) ⟨a, ha⟩
    rw [show ((⟨a, ha⟩ : Fin d) : ℕ) = a from rfl] at e
    rw [e]
    have e2 := getD_move (ax := ax) (σ := σ) S p (ax ((inv σ).perm (ax.symm ⟨a, ha⟩)))
    rw [e2]
    simp only [inv, Equiv.symm_apply_apply, Equiv.apply_symm_apply]
    have h1 := h.2 a (by rw [hm.1]; exact ha)
    have h2 := hm.2.2 (σ.perm.symm (ax.symm ⟨a, ha⟩))
    rw [Equiv.apply_symm_apply, Equiv.apply_symm_apply] at h2
    rw [show ((⟨a, ha⟩ : Fin d) : ℕ) = a from rfl] at h2
    split
    · omega
    · rfl

theorem move_inv' {S' S p : List ℕ} (hm : Matches ax σ S' S) (h : InB S p) :
    move ax σ S (move ax (inv σ) S' p) = p := by
  have := move_inv (σ := inv σ) (inv_Matches hm) h
  rwa [inv_inv] at this

theorem matrix_mulVec (v : Fin d → ℝ) (c : Fin d) :
    (σ.matrix *ᵥ v) c = (if σ.flip c then -1 else 1) * v (σ.perm c) := by
  unfold matrix Matrix.mulVec dotProduct
  simp only [Matrix.of_apply]
  rw [Finset.sum_eq_single (σ.perm c)]
  · simp
  · intro j _ hj; rw [if_neg hj, zero_mul]
  · intro h; exact absurd (Finset.mem_univ _) h

/-- `move` is the action of the matrix on the centred coordinates of the cells. -/
theorem centred_move {S' S p : List ℕ} (hm : Matches ax σ S' S) (h : InB S' p) :
    centred ax S (move ax σ S p) = σ.matrix *ᵥ centred ax S' p := by
  funext c
  rw [matrix_mulVec]
  unfold centred
  rw [getD_move, Equiv.symm_apply_apply, hm.2.2]
  have hp := (InB_iff.1 h).2 (ax (σ.perm c)) (by rw [hm.1]; exact Fin.isLt _)
  rw [hm.2.2] at hp
  by_cases hf : σ.flip c
  · rw [if_pos hf, if_pos hf, Nat.cast_sub (by omega), Nat.cast_sub (by omega)]
    push_cast; ring
  · rw [if_neg hf, if_neg hf, one_mul]

theorem matches_cube (n : ℕ) : Matches ax σ (List.replicate d n) (List.replicate d n) := by
  refine ⟨by simp, by simp, fun c => ?_⟩
  simp [List.getD_eq_getElem?_getD, List.getElem?_replicate]

theorem matrix_transpose_mul : σ.matrix * σ.matrix.transpose = 1 := by
  ext i j
  rw [Matrix.mul_apply]
  simp only [matrix, Matrix.transpose_apply, Matrix.of_apply, Matrix.one_apply]
  rw [Finset.sum_eq_single (σ.perm i)]
  · by_cases h : i = j
    · subst h; by_cases hf : σ.flip i <;> simp [hf]
    · rw [if_neg h, if_neg (fun e => h (σ.perm.injective e)), mul_zero]
  · intro k _ hk; rw [if_neg hk, zero_mul]
  · intro h; exact absurd (Finset.mem_univ _) h

end GConv.Spec.LatticeSym

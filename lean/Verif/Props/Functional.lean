import Verif.Model.Functional
import Verif.Lemmas.Lattice
import Mathlib.Tactic.FieldSimp
import Mathlib.Tactic.LinearCombination

/-! # C46 reference grids, C47/C48 spherical masks, C49 resampling at the identity -/

namespace GConv.Functional

open Tensor Spec Matrix

/-- the coordinate of cell `i` of an axis with `s` cells: evenly spaced from `-1` to `1`. -/
noncomputable def coordSpec (s i : ℕ) : ℝ := -1 + 2 * (i : ℝ) / ((s : ℝ) - 1)

theorem linspace_coord (s i : ℕ) (hs : 2 ≤ s) : linspaceAt (-1) 1 s i = coordSpec s i := by
  unfold linspaceAt coordSpec
  rw [if_neg (by omega)]
  ring

theorem coord_mem (s i : ℕ) (hs : 2 ≤ s) (hi : i < s) : -1 ≤ coordSpec s i ∧ coordSpec s i ≤ 1 := by
  unfold coordSpec
  have h1 : (0 : ℝ) < (s : ℝ) - 1 := by
    have : (2 : ℝ) ≤ s := by exact_mod_cast hs
    linarith
  have h2 : (i : ℝ) ≤ (s : ℝ) - 1 := by
    have : (i : ℝ) + 1 ≤ s := by exact_mod_cast hi
    linarith
  constructor
  · have : 0 ≤ 2 * (i : ℝ) / ((s : ℝ) - 1) := by positivity
    linarith
  · have : 2 * (i : ℝ) / ((s : ℝ) - 1) ≤ 2 := by
      rw [div_le_iff₀ h1]; linarith
    linarith

theorem coord_inj (s i j : ℕ) (hs : 2 ≤ s) (h : coordSpec s i = coordSpec s j) : i = j := by
  unfold coordSpec at h
  have h1 : (0 : ℝ) < (s : ℝ) - 1 := by
    have : (2 : ℝ) ≤ s := by exact_mod_cast hs
    linarith
  have h2 : 2 * (i : ℝ) / ((s : ℝ) - 1) = 2 * (j : ℝ) / ((s : ℝ) - 1) := by linarith
  rw [div_left_inj' h1.ne'] at h2
  have : (i : ℝ) = j := by linarith
  exact_mod_cast this

theorem coord_rev (s i : ℕ) (hs : 2 ≤ s) (hi : i < s) : coordSpec s (s - 1 - i) = -coordSpec s i := by
  unfold coordSpec
  have h1 : ((s : ℝ) - 1) ≠ 0 := by
    have : (2 : ℝ) ≤ s := by exact_mod_cast hs
    intro h; linarith
  rw [Nat.cast_sub (by omega), Nat.cast_sub (by omega)]
  field_simp
  push_cast; ring

/-! ## C46 -/

theorem C46_R3 (s : ℕ) (hs : 2 ≤ s) :
    (createGridR3 s).shape = [s, s, s] ∧
    (∀ i j k, (createGridR3 s).get [i, j, k] = ![coordSpec s k, coordSpec s j, coordSpec s i]) ∧
    (∀ i < s, ∀ j < s, ∀ k < s, ∀ c, -1 ≤ (createGridR3 s).get [i, j, k] c ∧
      (createGridR3 s).get [i, j, k] c ≤ 1) ∧
    (∀ p q, InB [s, s, s] p → InB [s, s, s] q →
      (createGridR3 s).get p = (createGridR3 s).get q → p = q) := by
  have hv : ∀ i j k, (createGridR3 s).get [i, j, k] = ![coordSpec s k, coordSpec s j, coordSpec s i] := by
    intro i j k
    simp [createGridR3, meshIJ, linspace_coord _ _ hs]
  refine ⟨rfl, hv, ?_, ?_⟩
  · intro i hi j hj k hk c
    rw [hv]
    fin_cases c
    · exact coord_mem s k hs hk
    · exact coord_mem s j hs hj
    · exact coord_mem s i hs hi
  · intro p q hp hq h
    obtain ⟨i, p1, rfl, hi, hp⟩ := InB_cons_left hp
    obtain ⟨j, p2, rfl, hj, hp⟩ := InB_cons_left hp
    obtain ⟨k, p3, rfl, hk, hp⟩ := InB_cons_left hp
    obtain rfl := InB_nil_left hp
    obtain ⟨i', p1, rfl, hi', hq⟩ := InB_cons_left hq
    obtain ⟨j', p2, rfl, hj', hq⟩ := InB_cons_left hq
    obtain ⟨k', p3, rfl, hk', hq⟩ := InB_cons_left hq
    obtain rfl := InB_nil_left hq
    rw [hv, hv] at h
    have h0 := coord_inj s _ _ hs (congrFun h 0)
    have h1 := coord_inj s _ _ hs (congrFun h 1)
    have h2 := coord_inj s _ _ hs (congrFun h 2)
    rw [h0, h1, h2]

theorem C46_R2 (s : ℕ) (hs : 2 ≤ s) :
    (createGridR2 s).shape = [s, s] ∧
    (∀ i j, (createGridR2 s).get [i, j] = ![coordSpec s i, coordSpec s j]) ∧
    (∀ i < s, ∀ j < s, ∀ c, -1 ≤ (createGridR2 s).get [i, j] c ∧
      (createGridR2 s).get [i, j] c ≤ 1) ∧
    (∀ p q, InB [s, s] p → InB [s, s] q →
      (createGridR2 s).get p = (createGridR2 s).get q → p = q) := by
  have hv : ∀ i j, (createGridR2 s).get [i, j] = ![coordSpec s i, coordSpec s j] := by
    intro i j
    simp [createGridR2, meshXY, linspace_coord _ _ hs]
  refine ⟨rfl, hv, ?_, ?_⟩
  · intro i hi j hj c
    rw [hv]
    fin_cases c
    · exact coord_mem s i hs hi
    · exact coord_mem s j hs hj
  · intro p q hp hq h
    obtain ⟨i, p1, rfl, hi, hp⟩ := InB_cons_left hp
    obtain ⟨j, p2, rfl, hj, hp⟩ := InB_cons_left hp
    obtain rfl := InB_nil_left hp
    obtain ⟨i', p1, rfl, hi', hq⟩ := InB_cons_left hq
    obtain ⟨j', p2, rfl, hj', hq⟩ := InB_cons_left hq
    obtain rfl := InB_nil_left hq
    rw [hv, hv] at h
    have h0 := coord_inj s _ _ hs (congrFun h 0)
    have h1 := coord_inj s _ _ hs (congrFun h 1)
    rw [h0, h1]

/-- reversing an axis negates exactly the coordinate that runs along it. -/
theorem C46_reverse (s : ℕ) (hs : 2 ≤ s) (i j k : ℕ) (hi : i < s) (hj : j < s) (hk : k < s) :
    (createGridR3 s).get [s - 1 - i, j, k] = Function.update ((createGridR3 s).get [i, j, k]) 2
      (-(createGridR3 s).get [i, j, k] 2) ∧
    (createGridR3 s).get [i, s - 1 - j, k] = Function.update ((createGridR3 s).get [i, j, k]) 1
      (-(createGridR3 s).get [i, j, k] 1) ∧
    (createGridR3 s).get [i, j, s - 1 - k] = Function.update ((createGridR3 s).get [i, j, k]) 0
      (-(createGridR3 s).get [i, j, k] 0) ∧
    (createGridR2 s).get [s - 1 - i, j] = Function.update ((createGridR2 s).get [i, j]) 0
      (-(createGridR2 s).get [i, j] 0) ∧
    (createGridR2 s).get [i, s - 1 - j] = Function.update ((createGridR2 s).get [i, j]) 1
      (-(createGridR2 s).get [i, j] 1) := by
  simp only [(C46_R3 s hs).2.1, (C46_R2 s hs).2.1]
  refine ⟨?_, ?_, ?_, ?_, ?_⟩ <;> funext c <;> fin_cases c <;>
    simp [coord_rev s _ hs hi, coord_rev s _ hs hj, coord_rev s _ hs hk, Function.update]

/-- size one: `linspace` returns its start, so the only cell sits at the corner. -/
theorem C46_size_one : (createGridR3 1).get [0, 0, 0] = ![-1, -1, -1] ∧
    (createGridR2 1).get [0, 0] = ![-1, -1] := by
  constructor <;> simp [createGridR3, createGridR2, meshIJ, meshXY, linspaceAt]

example : ∃ p q, InB [3, 3, 3] p ∧ InB [3, 3, 3] q ∧ (createGridR3 3).get p ≠ (createGridR3 3).get q := by
  refine ⟨[0, 0, 0], [0, 0, 1], by simp, by simp, fun h => ?_⟩
  have := (C46_R3 3 (by norm_num)).2.2.2 _ _ (by simp) (by simp) h
  simp at this

/-! ### the grids move with lattice symmetries -/

theorem gridR3_coord (s : ℕ) (p : List ℕ) (c : Fin 3) :
    (createGridR3 s).get p c = linspaceAt (-1) 1 s (p.getD (LatticeSym.ax3 c) 0) := by
  fin_cases c <;> rfl

theorem gridR2_coord (s : ℕ) (p : List ℕ) (c : Fin 2) :
    (createGridR2 s).get p c = linspaceAt (-1) 1 s (p.getD (LatticeSym.ax2 c) 0) := by
  fin_cases c <;> rfl

theorem linspace_rev (s i : ℕ) (hs : 2 ≤ s) (hi : i < s) :
    linspaceAt (-1) 1 s (s - 1 - i) = -linspaceAt (-1) 1 s i := by
  rw [linspace_coord _ _ hs, linspace_coord _ _ hs, coord_rev s i hs hi]

/-- generic: a grid whose coordinate `c` is read on axis `ax c` moves with every lattice symmetry. -/
theorem grid_move {d : ℕ} {ax : Equiv.Perm (Fin d)} (s : ℕ) (hs : 2 ≤ s) (grid : List ℕ → Fin d → ℝ)
    (hg : ∀ p c, grid p c = linspaceAt (-1) 1 s (p.getD (ax c) 0)) (σ : LatticeSym d) (p : List ℕ)
    (hp : InB (List.replicate d s) p) :
    grid (LatticeSym.move ax σ (List.replicate d s) p) = σ.matrix *ᵥ grid p := by
  funext c
  rw [LatticeSym.matrix_mulVec, hg, hg, LatticeSym.getD_move, Equiv.symm_apply_apply]
  have hr : ∀ a : Fin d, (List.replicate d s).getD a 0 = s := by
    intro a
    rw [List.getD_eq_getElem?_getD, List.getElem?_replicate, if_pos a.isLt]; rfl
  have hi := (InB_iff.1 hp).2 (ax (σ.perm c)) (by simp)
  rw [hr] at hi ⊢
  by_cases hf : σ.flip c
  · rw [if_pos hf, if_pos hf, linspace_rev s _ hs hi]; ring
  · rw [if_neg hf, if_neg hf, one_mul]

theorem C46_moves_R3 (s : ℕ) (hs : 2 ≤ s) (σ : LatticeSym 3) (p : List ℕ) (hp : InB [s, s, s] p) :
    (createGridR3 s).get (LatticeSym.move LatticeSym.ax3 σ [s, s, s] p) =
      σ.matrix *ᵥ (createGridR3 s).get p :=
  grid_move s hs _ (gridR3_coord s) σ p hp

theorem C46_moves_R2 (s : ℕ) (hs : 2 ≤ s) (σ : LatticeSym 2) (p : List ℕ) (hp : InB [s, s] p) :
    (createGridR2 s).get (LatticeSym.move LatticeSym.ax2 σ [s, s] p) =
      σ.matrix *ᵥ (createGridR2 s).get p :=
  grid_move s hs _ (gridR2_coord s) σ p hp

/-! ## C47 -/

theorem vnorm_lattice {d : ℕ} (σ : LatticeSym d) (v : Fin d → ℝ) : vnorm (σ.matrix *ᵥ v) = vnorm v := by
  unfold vnorm
  congr 1
  calc ∑ i, (σ.matrix *ᵥ v) i ^ 2 = ∑ i, v (σ.perm i) ^ 2 := by
        apply Finset.sum_congr rfl
        intro i _
        rw [LatticeSym.matrix_mulVec]
        by_cases hf : σ.flip i
        · rw [if_pos hf]; ring
        · rw [if_neg hf]; ring
    _ = ∑ i, v i ^ 2 := Equiv.sum_comp σ.perm (fun i => v i ^ 2)

/-- Euclidean length of a coordinate vector is below `1.1`. -/
def Inside {d : ℕ} (v : Fin d → ℝ) : Prop := ∑ c, v c ^ 2 < 1.1 ^ 2

theorem vnorm_inside {d : ℕ} (v : Fin d → ℝ) : vnorm v < 1.1 ↔ Inside v := by
  unfold vnorm Inside
  rw [Real.sqrt_lt' (by norm_num)]

theorem C47_R3 (s : ℕ) :
    (createSphericalMaskR3 s).shape = [s, s, s] ∧
    (∀ p, (Inside ((createGridR3 s).get p) → (createSphericalMaskR3 s).get p = 1) ∧
      (¬ Inside ((createGridR3 s).get p) → (createSphericalMaskR3 s).get p = 0)) ∧
    (2 ≤ s → ∀ (σ : LatticeSym 3) p, InB [s, s, s] p →
      (createSphericalMaskR3 s).get (LatticeSym.move LatticeSym.ax3 σ [s, s, s] p) =
        (createSphericalMaskR3 s).get p) := by
  refine ⟨rfl, fun p => ⟨fun h => ?_, fun h => ?_⟩, fun hs σ p hp => ?_⟩
  · show (if vnorm _ < 1.1 then (1 : ℝ) else 0) = 1
    rw [if_pos ((vnorm_inside _).2 h)]
  · show (if vnorm _ < 1.1 then (1 : ℝ) else 0) = 0
    rw [if_neg (fun h' => h ((vnorm_inside _).1 h'))]
  · show (if vnorm _ < 1.1 then (1 : ℝ) else 0) = if vnorm _ < 1.1 then (1 : ℝ) else 0
    rw [C46_moves_R3 s hs σ p hp, vnorm_lattice]

theorem C47_R2 (s : ℕ) :
    (createSphericalMaskR2 s).shape = [s, s] ∧
    (∀ p, (Inside ((createGridR2 s).get p) → (createSphericalMaskR2 s).get p = 1) ∧
      (¬ Inside ((createGridR2 s).get p) → (createSphericalMaskR2 s).get p = 0)) ∧
    (2 ≤ s → ∀ (σ : LatticeSym 2) p, InB [s, s] p →
      (createSphericalMaskR2 s).get (LatticeSym.move LatticeSym.ax2 σ [s, s] p) =
        (createSphericalMaskR2 s).get p) := by
  refine ⟨rfl, fun p => ⟨fun h => ?_, fun h => ?_⟩, fun hs σ p hp => ?_⟩
  · show (if vnorm _ < 1.1 then (1 : ℝ) else 0) = 1
    rw [if_pos ((vnorm_inside _).2 h)]
  · show (if vnorm _ < 1.1 then (1 : ℝ) else 0) = 0
    rw [if_neg (fun h' => h ((vnorm_inside _).1 h'))]
  · show (if vnorm _ < 1.1 then (1 : ℝ) else 0) = if vnorm _ < 1.1 then (1 : ℝ) else 0
    rw [C46_moves_R2 s hs σ p hp, vnorm_lattice]

theorem coord_zero (s : ℕ) : coordSpec s 0 = -1 := by simp [coordSpec]

theorem coord_last (s : ℕ) (hs : 2 ≤ s) : coordSpec s (s - 1) = 1 := by
  have := coord_rev s 0 hs (by omega)
  rw [Nat.sub_zero, coord_zero] at this
  linarith

theorem coord_mid (m : ℕ) (hm : 1 ≤ m) : coordSpec (2 * m + 1) m = 0 := by
  unfold coordSpec
  have : (m : ℝ) ≠ 0 := by exact_mod_cast (by omega : m ≠ 0)
  push_cast
  field_simp
  ring

/-- odd sizes `2m+1 ≥ 3`: the centre and the end points of the axes are kept, the corners dropped. -/
theorem C47_odd (m : ℕ) (hm : 1 ≤ m) :
    (createSphericalMaskR3 (2 * m + 1)).get [m, m, m] = 1 ∧
    (∀ e, (e = 0 ∨ e = 2 * m) → (createSphericalMaskR3 (2 * m + 1)).get [e, m, m] = 1 ∧
      (createSphericalMaskR3 (2 * m + 1)).get [m, e, m] = 1 ∧
      (createSphericalMaskR3 (2 * m + 1)).get [m, m, e] = 1) ∧
    (∀ a b c, (a = 0 ∨ a = 2 * m) → (b = 0 ∨ b = 2 * m) → (c = 0 ∨ c = 2 * m) →
      (createSphericalMaskR3 (2 * m + 1)).get [a, b, c] = 0) ∧
    (createSphericalMaskR2 (2 * m + 1)).get [m, m] = 1 ∧
    (∀ e, (e = 0 ∨ e = 2 * m) → (createSphericalMaskR2 (2 * m + 1)).get [e, m] = 1 ∧
      (createSphericalMaskR2 (2 * m + 1)).get [m, e] = 1) ∧
    (∀ a b, (a = 0 ∨ a = 2 * m) → (b = 0 ∨ b = 2 * m) →
      (createSphericalMaskR2 (2 * m + 1)).get [a, b] = 0) := by
  have hs : 2 ≤ 2 * m + 1 := by omega
  have e0 : ∀ e, (e = 0 ∨ e = 2 * m) → coordSpec (2 * m + 1) e ^ 2 = 1 := by
    rintro e (rfl | rfl)
    · rw [coord_zero]; norm_num
    · have := coord_last (2 * m + 1) hs
      rw [Nat.add_sub_cancel] at this
      rw [this]; norm_num
  have em := coord_mid m hm
  have k3 := fun p => ((C47_R3 (2 * m + 1)).2.1 p).1
  have d3 := fun p => ((C47_R3 (2 * m + 1)).2.1 p).2
  have k2 := fun p => ((C47_R2 (2 * m + 1)).2.1 p).1
  have d2 := fun p => ((C47_R2 (2 * m + 1)).2.1 p).2
  have v3 := (C46_R3 (2 * m + 1) hs).2.1
  have v2 := (C46_R2 (2 * m + 1) hs).2.1
  refine ⟨k3 _ ?_, fun e he => ⟨k3 _ ?_, k3 _ ?_, k3 _ ?_⟩, fun a b c ha hb hc => d3 _ ?_, k2 _ ?_,
    fun e he => ⟨k2 _ ?_, k2 _ ?_⟩, fun a b ha hb => d2 _ ?_⟩
  all_goals unfold Inside
  · rw [v3, Fin.sum_univ_three]; simp [em]; norm_num
  · rw [v3, Fin.sum_univ_three]; simp [em, e0 e he]; norm_num
  · rw [v3, Fin.sum_univ_three]; simp [em, e0 e he]; norm_num
  · rw [v3, Fin.sum_univ_three]; simp [em, e0 e he]; norm_num
  · rw [v3, Fin.sum_univ_three]; simp [e0 a ha, e0 b hb, e0 c hc]; norm_num
  · rw [v2, Fin.sum_univ_two]; simp [em]; norm_num
  · rw [v2, Fin.sum_univ_two]; simp [em, e0 e he]; norm_num
  · rw [v2, Fin.sum_univ_two]; simp [em, e0 e he]; norm_num
  · rw [v2, Fin.sum_univ_two]; simp [e0 a ha, e0 b hb]; norm_num

/-! ## C48 -/

theorem coord_central (s : ℕ) (hs : 3 ≤ s) : coordSpec s (s / 2) ^ 2 ≤ 1 / 9 := by
  have h3 : (3 : ℝ) ≤ s := by exact_mod_cast hs
  have hp : (0 : ℝ) < (s : ℝ) - 1 := by linarith
  have hc : coordSpec s (s / 2) = (2 * ((s / 2 : ℕ) : ℝ) - ((s : ℝ) - 1)) / ((s : ℝ) - 1) := by
    unfold coordSpec; field_simp; ring
  rcases Nat.even_or_odd s with ⟨k, hk⟩ | ⟨k, hk⟩
  · have e : s / 2 = k := by omega
    have h4 : (4 : ℝ) ≤ s := by exact_mod_cast (by omega : 4 ≤ s)
    have : (2 * ((s / 2 : ℕ) : ℝ) - ((s : ℝ) - 1)) = 1 := by
      rw [e]; have : (s : ℝ) = k + k := by exact_mod_cast hk
      rw [this]; ring
    rw [hc, this, div_pow, div_le_div_iff₀ (by positivity) (by norm_num)]
    nlinarith
  · have e : s / 2 = k := by omega
    have : (2 * ((s / 2 : ℕ) : ℝ) - ((s : ℝ) - 1)) = 0 := by
      rw [e]; have : (s : ℝ) = 2 * k + 1 := by exact_mod_cast hk
      rw [this]; ring
    rw [hc, this]; norm_num

/-- for sizes at least three the central cell is kept. -/
theorem C48_support_partial (s : ℕ) (hs : 3 ≤ s) :
    (∃ p, InB [s, s, s] p ∧ (createSphericalMaskR3 s).get p = 1) ∧
    (∃ p, InB [s, s] p ∧ (createSphericalMaskR2 s).get p = 1) := by
  have hc := coord_central s hs
  constructor
  · refine ⟨[s / 2, s / 2, s / 2], by simp; omega, ((C47_R3 s).2.1 _).1 ?_⟩
    unfold Inside
    rw [(C46_R3 s (by omega)).2.1, Fin.sum_univ_three]
    simp; norm_num; linarith
  · refine ⟨[s / 2, s / 2], by simp; omega, ((C47_R2 s).2.1 _).1 ?_⟩
    unfold Inside
    rw [(C46_R2 s (by omega)).2.1, Fin.sum_univ_two]
    simp; norm_num; linarith

/-- sizes one and two: every cell is masked out, so the masked kernel is identically zero. -/
theorem C48_violated (s : ℕ) (hs : s = 1 ∨ s = 2) :
    (∀ p, InB [s, s, s] p → (createSphericalMaskR3 s).get p = 0) ∧
    (∀ p, InB [s, s] p → (createSphericalMaskR2 s).get p = 0) := by
  have key : ∀ i < s, linspaceAt (-1) 1 s i ^ 2 = 1 := by
    intro i hi
    rcases hs with rfl | rfl
    · simp [linspaceAt]
    · have : i = 0 ∨ i = 1 := by omega
      rcases this with rfl | rfl <;> simp [linspaceAt] <;> norm_num
  constructor
  · intro p hp
    apply ((C47_R3 s).2.1 _).2
    unfold Inside
    obtain ⟨i, p1, rfl, hi, hp⟩ := InB_cons_left hp
    obtain ⟨j, p2, rfl, hj, hp⟩ := InB_cons_left hp
    obtain ⟨k, p3, rfl, hk, hp⟩ := InB_cons_left hp
    obtain rfl := InB_nil_left hp
    rw [Fin.sum_univ_three]
    simp [createGridR3, meshIJ, key i hi, key j hj, key k hk]; norm_num
  · intro p hp
    apply ((C47_R2 s).2.1 _).2
    unfold Inside
    obtain ⟨i, p1, rfl, hi, hp⟩ := InB_cons_left hp
    obtain ⟨j, p2, rfl, hj, hp⟩ := InB_cons_left hp
    obtain rfl := InB_nil_left hp
    rw [Fin.sum_univ_two]
    simp [createGridR2, meshXY, key i hi, key j hj]; norm_num

/-! ## C49 -/

/-- along one axis the sampler reads exactly pixel `i`. -/
def ReadsPixel (mode : F.SMode) (s : ℕ) (u : ℝ) (i : ℕ) : Prop :=
  ∀ f : ℕ → ℝ, ((F.taps mode s u).map (fun p => p.2 * f p.1)).sum = f i

theorem reads_int (mode : F.SMode) (s i : ℕ) (hi : i < s) : ReadsPixel mode s (i : ℝ) i := by
  intro f
  have hfl : ⌊(i : ℝ)⌋ = (i : ℤ) := by simp
  cases mode with
  | bilinear =>
    unfold F.taps
    simp only [hfl, Int.cast_natCast, sub_self, sub_zero]
    rw [List.filter_cons_of_pos (by simp; omega)]
    by_cases h : (i : ℤ) + 1 < s
    · rw [List.filter_cons_of_pos (by simp; omega)]; simp
    · rw [List.filter_cons_of_neg (by simp; omega)]; simp
  | nearest =>
    have hr : F.roundEven (i : ℝ) = i := by
      unfold F.roundEven; rw [hfl, if_pos (by simp)]
    unfold F.taps
    simp only [hr]
    rw [List.filter_cons_of_pos (by simp; omega)]; simp

theorem reads_near (s i : ℕ) (hi : i < s) (u : ℝ) (h1 : (i : ℝ) - 1 / 2 < u) (h2 : u < (i : ℝ) + 1 / 2) :
    ReadsPixel .nearest s u i := by
  intro f
  have hr : F.roundEven u = i := by
    unfold F.roundEven
    by_cases hu : (i : ℝ) ≤ u
    · have hfl : ⌊u⌋ = (i : ℤ) := by
        rw [Int.floor_eq_iff]; push_cast; constructor <;> linarith
      rw [hfl, if_pos (by push_cast; linarith)]
    · have hfl : ⌊u⌋ = (i : ℤ) - 1 := by
        rw [Int.floor_eq_iff]; push_cast; constructor <;> linarith
      rw [hfl, if_neg (by push_cast; linarith), if_pos (by push_cast; linarith)]; ring
  unfold F.taps
  simp only [hr]
  rw [List.filter_cons_of_pos (by simp; omega)]; simp

theorem unnormalize_coord (s i : ℕ) (hs : 2 ≤ s) :
    F.unnormalize s (coordSpec s i) = (i : ℝ) + ((i : ℝ) / ((s : ℝ) - 1) - 1 / 2) := by
  have : ((s : ℝ) - 1) ≠ 0 := by
    have : (2 : ℝ) ≤ s := by exact_mod_cast hs
    intro h; linarith
  unfold F.unnormalize coordSpec
  field_simp; ring

theorem source_border (s i : ℕ) (hs : 2 ≤ s) (hi : i < s) :
    F.sourceCoord .border s (linspaceAt (-1) 1 s i) =
      if i = 0 then 0 else if i = s - 1 then ((s : ℝ) - 1)
      else (i : ℝ) + ((i : ℝ) / ((s : ℝ) - 1) - 1 / 2) := by
  have h2 : (2 : ℝ) ≤ s := by exact_mod_cast hs
  have hp : (0 : ℝ) < (s : ℝ) - 1 := by linarith
  unfold F.sourceCoord
  rw [linspace_coord _ _ hs, unnormalize_coord _ _ hs]
  unfold clamp
  by_cases h0 : i = 0
  · subst h0
    rw [if_pos rfl]
    rw [max_eq_right (by norm_num), min_eq_left (by linarith)]
  · rw [if_neg h0]
    have hi1 : (1 : ℝ) ≤ i := by exact_mod_cast (by omega : 1 ≤ i)
    by_cases h1 : i = s - 1
    · rw [if_pos h1]
      have e : (i : ℝ) = (s : ℝ) - 1 := by rw [h1, Nat.cast_sub (by omega)]; norm_num
      rw [e, div_self hp.ne', max_eq_left (by linarith), min_eq_right (by linarith)]
    · rw [if_neg h1]
      have hle : (i : ℝ) ≤ (s : ℝ) - 2 := by
        have : i + 2 ≤ s := by omega
        have : (i : ℝ) + 2 ≤ s := by exact_mod_cast this
        linarith
      have hq : 0 ≤ (i : ℝ) / ((s : ℝ) - 1) := by positivity
      have hq1 : (i : ℝ) / ((s : ℝ) - 1) ≤ 1 := by rw [div_le_one hp]; linarith
      rw [max_eq_left (by linarith), min_eq_left (by linarith)]

/-- at the cell's own coordinate: `nearest` always reads that cell, `bilinear` does for sizes up to 3. -/
theorem reads_own (mode : F.SMode) (s i : ℕ) (hi : i < s) (h : mode = .nearest ∨ s ≤ 3) :
    ReadsPixel mode s (F.sourceCoord .border s (linspaceAt (-1) 1 s i)) i := by
  by_cases hs : 2 ≤ s
  · have h2 : (2 : ℝ) ≤ s := by exact_mod_cast hs
    have hp : (0 : ℝ) < (s : ℝ) - 1 := by linarith
    rw [source_border s i hs hi]
    by_cases h0 : i = 0
    · rw [if_pos h0, h0]
      have := reads_int mode s 0 (by omega)
      simpa using this
    · rw [if_neg h0]
      by_cases h1 : i = s - 1
      · rw [if_pos h1]
        have e : (i : ℝ) = (s : ℝ) - 1 := by rw [h1, Nat.cast_sub (by omega)]; norm_num
        rw [← e]; exact reads_int mode s i hi
      · rw [if_neg h1]
        rcases h with rfl | h3
        · have hpos : 0 < (i : ℝ) / ((s : ℝ) - 1) :=
            div_pos (by exact_mod_cast (by omega : 0 < i)) hp
          have hlt : (i : ℝ) / ((s : ℝ) - 1) < 1 := by
            rw [div_lt_one hp]
            have : i + 2 ≤ s := by omega
            have : (i : ℝ) + 2 ≤ s := by exact_mod_cast this
            linarith
          exact reads_near s i hi _ (by linarith) (by linarith)
        · have hs3 : s = 3 := by omega
          have hi1 : i = 1 := by omega
          subst hs3 hi1
          have : ((1 : ℕ) : ℝ) + (((1 : ℕ) : ℝ) / (((3 : ℕ) : ℝ) - 1) - 1 / 2) = ((1 : ℕ) : ℝ) := by norm_num
          rw [this]; exact reads_int mode 3 1 (by omega)
  · have hs1 : s = 1 := by omega
    have hi0 : i = 0 := by omega
    subst hs1 hi0
    have : F.sourceCoord .border 1 (linspaceAt (-1) 1 1 0) = ((0 : ℕ) : ℝ) := by
      simp [F.sourceCoord, linspaceAt, F.unnormalize, clamp]
    rw [this]; exact reads_int mode 1 0 (by omega)

/-- The identity element resamples the stored kernel exactly in three dimensions: in `nearest` mode for
every size, in `bilinear` mode for sizes up to three (default padding `border`). -/
theorem C49_R3_partial (mode : F.SMode) (s : ℕ) (h : mode = .nearest ∨ s ≤ 3) (f : List ℕ → ℝ)
    (i j k : ℕ) (hi : i < s) (hj : j < s) (hk : k < s) :
    F.sampleAt mode .border [s, s, s] f ((createGridR3 s).get [i, j, k]) = f [i, j, k] := by
  have hl : List.zipWith (F.sourceCoord .border) [s, s, s] (List.ofFn ((createGridR3 s).get [i, j, k])).reverse
      = [F.sourceCoord .border s (linspaceAt (-1) 1 s i), F.sourceCoord .border s (linspaceAt (-1) 1 s j),
        F.sourceCoord .border s (linspaceAt (-1) 1 s k)] := by
    simp [createGridR3, meshIJ, List.ofFn_succ]
  unfold F.sampleAt
  rw [hl]
  simp only [F.sampleRec]
  rw [reads_own mode s i hi h (fun a => ((F.taps mode s _).map fun p => p.2 *
      ((F.taps mode s _).map fun q => q.2 * f (a :: p.1 :: q.1 :: [])).sum).sum),
    reads_own mode s j hj h (fun b => ((F.taps mode s _).map fun q => q.2 * f (i :: b :: q.1 :: [])).sum),
    reads_own mode s k hk h (fun c => f (i :: j :: c :: []))]

/-- In two dimensions the same holds for the *transposed* kernel: `create_grid_R2` lists the row
coordinate first while `grid_sample` reads the column coordinate first. -/
theorem C49_R2_transposed_partial (mode : F.SMode) (s : ℕ) (h : mode = .nearest ∨ s ≤ 3) (f : List ℕ → ℝ)
    (i j : ℕ) (hi : i < s) (hj : j < s) :
    F.sampleAt mode .border [s, s] f ((createGridR2 s).get [i, j]) = f [j, i] := by
  have hl : List.zipWith (F.sourceCoord .border) [s, s] (List.ofFn ((createGridR2 s).get [i, j])).reverse
      = [F.sourceCoord .border s (linspaceAt (-1) 1 s j), F.sourceCoord .border s (linspaceAt (-1) 1 s i)] := by
    simp [createGridR2, meshXY, List.ofFn_succ]
  unfold F.sampleAt
  rw [hl]
  simp only [F.sampleRec]
  rw [reads_own mode s j hj h (fun a => ((F.taps mode s _).map fun q => q.2 * f (a :: q.1 :: [])).sum),
    reads_own mode s i hi h (fun c => f (j :: c :: []))]

/-- Bilinear sampling (the default) does not return the stored kernel from size four on. -/
theorem C49_violated_bilinear (s : ℕ) (hs : 4 ≤ s) :
    ∃ f : List ℕ → ℝ, F.sampleAt .bilinear .border [s, s, s] f ((createGridR3 s).get [1, 0, 0]) ≠
      f [1, 0, 0] := by
  refine ⟨fun p => if p.getD 0 0 = 1 then 1 else 0, ?_⟩
  have h4 : (4 : ℝ) ≤ s := by exact_mod_cast hs
  have hp : (0 : ℝ) < (s : ℝ) - 1 := by linarith
  have hl : List.zipWith (F.sourceCoord .border) [s, s, s] (List.ofFn ((createGridR3 s).get [1, 0, 0])).reverse
      = [F.sourceCoord .border s (linspaceAt (-1) 1 s 1), F.sourceCoord .border s (linspaceAt (-1) 1 s 0),
        F.sourceCoord .border s (linspaceAt (-1) 1 s 0)] := by
    simp [createGridR3, meshIJ, List.ofFn_succ]
  have e0 : F.sourceCoord .border s (linspaceAt (-1) 1 s 0) = ((0 : ℕ) : ℝ) := by
    rw [source_border s 0 (by omega) (by omega), if_pos rfl]; simp
  have e1 : F.sourceCoord .border s (linspaceAt (-1) 1 s 1) = 1 / ((s : ℝ) - 1) + 1 / 2 := by
    rw [source_border s 1 (by omega) (by omega), if_neg (by omega), if_neg (by omega)]
    push_cast; ring
  unfold F.sampleAt
  rw [hl, e0, e1]
  simp only [F.sampleRec]
  have r0 : ∀ g : ℕ → ℝ, _ := reads_int .bilinear s 0 (by omega)
  have hq : 1 / ((s : ℝ) - 1) ≤ 1 / 3 := by
    apply one_div_le_one_div_of_le (by norm_num); linarith
  have hq0 : 0 < 1 / ((s : ℝ) - 1) := by positivity
  have hfl : ⌊1 / ((s : ℝ) - 1) + 1 / 2⌋ = 0 := by
    rw [Int.floor_eq_iff]; push_cast; constructor <;> linarith
  have inner : ∀ a : ℕ, ((F.taps .bilinear s ((0 : ℕ) : ℝ)).map fun p => p.2 *
      ((F.taps .bilinear s ((0 : ℕ) : ℝ)).map fun q => q.2 *
        (if (a :: p.1 :: q.1 :: []).getD 0 0 = 1 then (1 : ℝ) else 0)).sum).sum = if a = 1 then 1 else 0 := by
    intro a
    rw [r0 (fun b => ((F.taps .bilinear s ((0 : ℕ) : ℝ)).map fun q => q.2 *
        (if (a :: b :: q.1 :: []).getD 0 0 = 1 then (1 : ℝ) else 0)).sum)]
    refine (r0 (fun c => if (a :: 0 :: c :: []).getD 0 0 = 1 then (1 : ℝ) else 0)).trans ?_
    simp
  simp only [inner]
  unfold F.taps
  simp only [hfl]
  rw [List.filter_cons_of_pos (by simp; omega), List.filter_cons_of_pos (by simp; omega)]
  simp
  intro h
  have : 1 / ((s : ℝ) - 1) + 1 / 2 = 1 := by simpa using h
  linarith

/-- In two dimensions the identity does not return the stored kernel for sizes two and three. -/
theorem C49_violated_R2 (mode : F.SMode) (s : ℕ) (hs : s = 2 ∨ s = 3) :
    ∃ f : List ℕ → ℝ, F.sampleAt mode .border [s, s] f ((createGridR2 s).get [0, 1]) ≠ f [0, 1] := by
  refine ⟨fun p => if p = [0, 1] then 1 else 0, ?_⟩
  rw [C49_R2_transposed_partial mode s (Or.inr (by omega)) _ 0 1 (by omega) (by omega)]
  simp

end GConv.Functional

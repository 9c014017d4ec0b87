import Verif.Model.Interpolation
import Verif.Props.O3
import Verif.Props.O2
import Verif.Props.SO3Log
import Mathlib.Analysis.Complex.ExponentialBounds
import Mathlib.LinearAlgebra.LinearIndependent.Defs

/-! # Interpolation: C38 - C43 -/

namespace GConv.Interp

open Real Tensor Spec

/-! ## C38 -/

theorem rbf_rw (x w : ℝ) : RBFgauss x w = Real.exp (-(0.69314718 / w ^ 2 * x ^ 2)) := by
  unfold RBFgauss
  congr 2
  by_cases hw : w = 0
  · simp [hw]
  · field_simp

theorem C38_zero (w : ℝ) : RBFgauss 0 w = 1 := by simp [rbf_rw]

theorem C38_even (x w : ℝ) : RBFgauss (-x) w = RBFgauss x w := by simp [rbf_rw]

theorem C38_decreasing (x y w : ℝ) (hw : w ≠ 0) (h : |x| < |y|) : RBFgauss y w < RBFgauss x w := by
  rw [rbf_rw, rbf_rw, Real.exp_lt_exp, neg_lt_neg_iff]
  have hw2 : 0 < w ^ 2 := by positivity
  apply mul_lt_mul_of_pos_left (sq_lt_sq.2 h)
  positivity

theorem C38_range (x w : ℝ) : 0 < RBFgauss x w ∧ RBFgauss x w ≤ 1 := by
  rw [rbf_rw]
  refine ⟨Real.exp_pos _, ?_⟩
  rw [Real.exp_le_one_iff]
  have : 0 ≤ 0.69314718 / w ^ 2 * x ^ 2 := by positivity
  linarith

theorem C38_half_width (w : ℝ) (hw : w ≠ 0) : |RBFgauss w w - 1 / 2| < 1e-8 := by
  have h : RBFgauss w w = Real.exp (-0.69314718) := by
    rw [rbf_rw]; congr 2; field_simp
  have e : Real.exp (-0.69314718) = 1 / 2 * Real.exp (Real.log 2 - 0.69314718) := by
    rw [sub_eq_add_neg, Real.exp_add, Real.exp_log (by norm_num)]; ring
  rw [h, e]
  have l1 := Real.log_two_gt_d9
  have l2 := Real.log_two_lt_d9
  set t := Real.log 2 - 0.69314718 with ht
  have t0 : 0 < t := by rw [ht]; linarith
  have t1 : t < 1e-9 := by rw [ht]; linarith
  have hb : |Real.exp t - 1| ≤ 2 * |t| := Real.abs_exp_sub_one_le (by rw [abs_of_pos t0]; linarith)
  rw [abs_of_pos t0] at hb
  have : (1 : ℝ) / 2 * Real.exp t - 1 / 2 = 1 / 2 * (Real.exp t - 1) := by ring
  rw [this, abs_mul, abs_of_pos (by norm_num : (0:ℝ) < 1 / 2)]
  linarith

/-! ## C39 -/

section
variable {G : Type}

/-- exact reproduction: if query `q` is grid node `k`, row `q` of the result is row `k` of the signal. -/
theorem C39_reproduces (dist : G → G → ℝ) (rbf : ℝ → ℝ → ℝ) (w : ℝ) (nodes grid : Tensor G)
    (signal out : Tensor ℝ) (L : ℕ) (hL : grid.shape = [L])
    (h : interpolateRBF dist rbf w nodes grid signal = .ok out)
    (q k : ℕ) (hk : k < L) (hq : nodes.get [q] = grid.get [k]) (c : ℕ) :
    out.get [q, c] = signal.get [k, c] := by
  unfold interpolateRBF at h
  by_cases hc : signal.shape.headD 0 ≠ grid.shape.headD 0 ∨ (rbfMatrix dist rbf w grid).det = 0
  · simp only [if_pos hc] at h; cases h
  · simp only [if_neg hc] at h; cases h
    push Not at hc
    set m := rbfMatrix dist rbf w grid with hm
    have hk' : k < grid.shape.headD 0 := by rw [hL]; exact hk
    have hmul : m.mulVec (m⁻¹.mulVec fun i => signal.get [i.val, c]) = fun i => signal.get [i.val, c] := by
      rw [Matrix.mulVec_mulVec, Matrix.mul_nonsing_inv _ (isUnit_iff_ne_zero.2 hc.2), Matrix.one_mulVec]
    have := congrFun hmul ⟨k, hk'⟩
    simp only [List.getD_cons_zero, List.getD_cons_succ, hq]
    rw [← this]
    rfl

/-- the result does not depend on anything but the shapes for success, and is linear in the signal. -/
theorem C39_linear (dist : G → G → ℝ) (rbf : ℝ → ℝ → ℝ) (w : ℝ) (nodes grid : Tensor G)
    (s1 s2 s : Tensor ℝ) (o1 o2 : Tensor ℝ) (a b : ℝ) (L S : ℕ)
    (hs1 : s1.shape = [L, S]) (hs2 : s2.shape = [L, S]) (hs : s.shape = [L, S])
    (hlin : ∀ i c, s.get [i, c] = a * s1.get [i, c] + b * s2.get [i, c])
    (h1 : interpolateRBF dist rbf w nodes grid s1 = .ok o1)
    (h2 : interpolateRBF dist rbf w nodes grid s2 = .ok o2) :
    ∃ o, interpolateRBF dist rbf w nodes grid s = .ok o ∧ o.shape = o1.shape ∧
      ∀ q c, o.get [q, c] = a * o1.get [q, c] + b * o2.get [q, c] := by
  unfold interpolateRBF at h1 h2 ⊢
  rw [hs1] at h1
  rw [hs2] at h2
  rw [hs]
  by_cases hc : [L, S].headD 0 ≠ grid.shape.headD 0 ∨ (rbfMatrix dist rbf w grid).det = 0
  · simp only [if_pos hc] at h1; cases h1
  · simp only [if_neg hc] at h1 h2 ⊢
    cases h1; cases h2
    refine ⟨_, rfl, rfl, fun q c => ?_⟩
    have : (fun i : Fin (grid.shape.headD 0) => s.get [i.val, c]) =
        a • (fun i : Fin (grid.shape.headD 0) => s1.get [i.val, c]) +
        b • (fun i : Fin (grid.shape.headD 0) => s2.get [i.val, c]) := by
      ext i; simp [hlin]
    simp only [List.getD_cons_zero, List.getD_cons_succ, this, Matrix.mulVec_add, Matrix.mulVec_smul,
      Pi.add_apply, Pi.smul_apply, smul_eq_mul, Finset.mul_sum, ← Finset.sum_add_distrib]
    apply Finset.sum_congr rfl
    intro j _; ring

/-- success exactly when the RBF matrix is invertible (and the signal has one row per node);
otherwise RuntimeError. -/
theorem C39_singular (dist : G → G → ℝ) (rbf : ℝ → ℝ → ℝ) (w : ℝ) (nodes grid : Tensor G)
    (signal : Tensor ℝ) (L S K : ℕ) (hL : grid.shape = [L]) (hS : signal.shape = [L, S])
    (hK : nodes.shape = [K]) :
    ((Matrix.of fun i j : Fin L => rbf (dist (grid.get [i.val]) (grid.get [j.val])) w).det = 0 →
      interpolateRBF dist rbf w nodes grid signal = .error .runtimeError) ∧
    ((Matrix.of fun i j : Fin L => rbf (dist (grid.get [i.val]) (grid.get [j.val])) w).det ≠ 0 →
      ∃ out, interpolateRBF dist rbf w nodes grid signal = .ok out ∧ out.shape = [K, S]) := by
  have hdet : (rbfMatrix dist rbf w grid).det =
      (Matrix.of fun i j : Fin L => rbf (dist (grid.get [i.val]) (grid.get [j.val])) w).det := by
    unfold rbfMatrix
    have : grid.shape.headD 0 = L := by rw [hL]; rfl
    revert this
    generalize grid.shape.headD 0 = n
    rintro rfl; rfl
  unfold interpolateRBF
  constructor
  · intro h
    rw [if_pos (Or.inr (hdet.trans h))]
  · intro h
    rw [if_neg (by rw [hdet, hL, hS]; simp [h])]
    exact ⟨_, rfl, by simp [hS, hK]⟩

/-- the value at every query: the expansion whose coefficients satisfy the interpolation conditions. -/
theorem C39_value (dist : G → G → ℝ) (rbf : ℝ → ℝ → ℝ) (w : ℝ) (nodes grid : Tensor G)
    (signal : Tensor ℝ) (K L S : ℕ) (hK : nodes.shape = [K]) (hL : grid.shape = [L])
    (hS : signal.shape = [L, S]) (coeff : Fin L → ℕ → ℝ)
    (hc : ∀ (k : Fin L) (c : ℕ), ∑ j : Fin L,
      rbf (dist (grid.get [k.val]) (grid.get [j.val])) w * coeff j c = signal.get [k.val, c])
    (hdet : (Matrix.of fun i j : Fin L => rbf (dist (grid.get [i.val]) (grid.get [j.val])) w).det ≠ 0) :
    ∃ out, interpolateRBF dist rbf w nodes grid signal = .ok out ∧ out.shape = [K, S] ∧
      ∀ q < K, ∀ c, out.get [q, c] =
        ∑ j : Fin L, rbf (dist (nodes.get [q]) (grid.get [j.val])) w * coeff j c := by
  obtain ⟨gs, gg⟩ := grid
  simp only at hL hc hdet
  subst hL
  unfold interpolateRBF
  have hm : (rbfMatrix dist rbf w ⟨[L], gg⟩).det ≠ 0 := hdet
  rw [if_neg (by rw [hS]; exact fun h => h.elim (fun h => h rfl) hm)]
  refine ⟨_, rfl, by simp [hS, hK], fun q _ c => ?_⟩
  have hsol : (rbfMatrix dist rbf w ⟨[L], gg⟩)⁻¹.mulVec (fun i => signal.get [i.val, c]) =
      fun j => coeff j c := by
    have e : (fun i : Fin L => signal.get [i.val, c]) =
        (rbfMatrix dist rbf w ⟨[L], gg⟩).mulVec (fun j => coeff j c) := by
      funext k; rw [← hc k c]; rfl
    rw [show (fun i : Fin (([L] : List ℕ).headD 0) => signal.get [i.val, c]) = _ from e,
      Matrix.mulVec_mulVec, Matrix.nonsing_inv_mul _ (isUnit_iff_ne_zero.2 hm), Matrix.one_mulVec]
    rfl
  dsimp only
  simp only [List.getD_cons_zero, List.getD_cons_succ]
  rw [hsol]
  rfl

/-- a two-node grid with invertible RBF matrix: nodes at distance one, Gaussian of width one. -/
example : ∃ out, interpolateRBF (fun a b : ℝ => |a - b|) RBFgauss 1 ⟨[1], fun _ => 1⟩
    ⟨[2], fun i => (i.headD 0 : ℝ)⟩ ⟨[2, 1], fun i => (i.headD 0 : ℝ) + 5⟩ = .ok out ∧
    out.get [0, 0] = 6 := by
  have hdet : (Matrix.of fun i j : Fin 2 =>
      RBFgauss ((fun a b : ℝ => |a - b|) ((i.val : ℕ) : ℝ) ((j.val : ℕ) : ℝ)) 1).det ≠ 0 := by
    rw [Matrix.det_fin_two]
    have h1 : RBFgauss 1 1 < 1 := by
      have := C38_decreasing 0 1 1 one_ne_zero (by norm_num)
      rwa [C38_zero] at this
    have h0 := (C38_range 1 1).1
    simp [C38_zero]
    nlinarith
  obtain ⟨out, ho, -⟩ := (C39_singular (fun a b : ℝ => |a - b|) RBFgauss 1 ⟨[1], fun _ => 1⟩
    ⟨[2], fun i => (i.headD 0 : ℝ)⟩ ⟨[2, 1], fun i => (i.headD 0 : ℝ) + 5⟩ 2 1 1 rfl rfl rfl).2 hdet
  refine ⟨out, ho, ?_⟩
  rw [C39_reproduces _ _ _ _ _ _ _ 2 rfl ho 0 1 (by norm_num) (by simp) 0]
  norm_num

/-! ## C40 -/

theorem C40_nearest (dist : G → G → ℝ) (nodes grid : Tensor G) (signal : Tensor ℝ) (K L S : ℕ)
    (hK : nodes.shape = [K]) (hL : grid.shape = [L]) (hS : signal.shape = [L, S]) (h0 : L ≠ 0) :
    ∃ out, interpolateNN dist nodes grid signal = .ok out ∧ out.shape = [K, S] ∧
      ∀ q < K, ∃ k < L, (∀ j < L, dist (nodes.get [q]) (grid.get [k]) ≤ dist (nodes.get [q]) (grid.get [j])) ∧
        (∀ c, out.get [q, c] = signal.get [k, c]) ∧
        (∀ k' < L, (∀ j < L, j ≠ k' →
            dist (nodes.get [q]) (grid.get [k']) < dist (nodes.get [q]) (grid.get [j])) →
          ∀ c, out.get [q, c] = signal.get [k', c]) := by
  unfold interpolateNN
  rw [if_neg (by rw [nn_cond dist nodes grid signal (by rw [hL, hS]; rfl), hL]; simpa using h0)]
  refine ⟨_, rfl, by simp [hK, hS], fun q _ => ?_⟩
  have hh : grid.shape.headD 0 = L := by rw [hL]; rfl
  obtain ⟨h1, h2⟩ := topk1_spec L (fun j => dist (nodes.get [q]) (grid.get [j])) h0
  refine ⟨_, h1, h2, fun c => by simp only [nnIdx, hh]; rfl, fun k' hk' hs c => ?_⟩
  by_cases he : topk1 L (fun j => dist (nodes.get [q]) (grid.get [j])) = k'
  · simp only [nnIdx, hh]; rw [← he]; rfl
  · exact absurd (hs _ h1 he) (not_lt.2 (h2 k' hk'))

theorem C40_empty (dist : G → G → ℝ) (nodes grid : Tensor G) (signal : Tensor ℝ)
    (hL : grid.shape = [0]) : interpolateNN dist nodes grid signal = .error .runtimeError := by
  unfold interpolateNN; rw [if_pos (Or.inl (by rw [hL]; rfl))]

/-- A signal with fewer rows than the grid: the call fails as soon as the nearest element of some query
has no row (and the signal has columns). -/
theorem C40_short (dist : G → G → ℝ) (nodes grid : Tensor G) (signal : Tensor ℝ) (K L M S : ℕ)
    (hK : nodes.shape = [K]) (hL : grid.shape = [L]) (hS : signal.shape = [M, S]) (hSp : S ≠ 0)
    (q k : ℕ) (hq : q < K) (hk : k < L) (hkM : M ≤ k)
    (hnear : ∀ j < L, j ≠ k → dist (nodes.get [q]) (grid.get [k]) < dist (nodes.get [q]) (grid.get [j])) :
    interpolateNN dist nodes grid signal = .error .runtimeError := by
  unfold interpolateNN
  refine if_pos (Or.inr ⟨by rw [hS]; exact hSp, q, by rw [hK]; exact hq, ?_⟩)
  obtain ⟨h1, h2⟩ := topk1_spec L (fun j => dist (nodes.get [q]) (grid.get [j])) (by omega)
  have : nnIdx dist nodes grid q = k := by
    unfold nnIdx
    rw [show grid.shape.headD 0 = L by rw [hL]; rfl]
    by_contra hne
    exact absurd (hnear _ h1 hne) (not_lt.2 (h2 k hk))
  rw [this, hS]
  exact hkM

/-- the hypotheses are met: two grid elements, one signal row, a query near the second element. -/
example : interpolateNN (fun a b : ℝ => |a - b|) ⟨[1], fun _ => 0.9⟩
    ⟨[2], fun i => (i.headD 0 : ℝ)⟩ ⟨[1, 1], fun _ => 5⟩ = .error .runtimeError := by
  refine C40_short _ _ _ _ 1 2 1 1 rfl rfl rfl (by norm_num) 0 1 (by norm_num) (by norm_num) le_rfl ?_
  intro j hj hne
  have : j = 0 := by omega
  subst this
  show |(0.9 : ℝ) - ((1 : ℕ) : ℝ)| < |(0.9 : ℝ) - ((0 : ℕ) : ℝ)|
  norm_num [abs_of_neg, abs_of_pos]

example : ∃ out, interpolateNN (fun a b : ℝ => |a - b|) ⟨[1], fun _ => 0.9⟩
    ⟨[2], fun i => (i.headD 0 : ℝ)⟩ ⟨[2, 1], fun i => (i.headD 0 : ℝ) + 5⟩ = .ok out ∧
    out.get [0, 0] = 6 := by
  obtain ⟨out, ho, -, h⟩ := C40_nearest (fun a b : ℝ => |a - b|) ⟨[1], fun _ => 0.9⟩
    ⟨[2], fun i => (i.headD 0 : ℝ)⟩ ⟨[2, 1], fun i => (i.headD 0 : ℝ) + 5⟩ 1 2 1 rfl rfl rfl (by norm_num)
  refine ⟨out, ho, ?_⟩
  obtain ⟨k, -, -, -, h⟩ := h 0 (by norm_num)
  rw [h 1 (by norm_num) ?_ 0]
  · norm_num
  · intro j hj hne
    have : j = 0 := by omega
    subst this
    norm_num [abs_of_pos, abs_of_neg]

/-! ## C43 -/

theorem topk3_spec (n : ℕ) (d : ℕ → ℝ) (hn : 3 ≤ n) :
    Function.Injective (topk3 n d) ∧ (∀ i, topk3 n d i < n) ∧ d (topk3 n d 0) ≤ d (topk3 n d 1) ∧
    d (topk3 n d 1) ≤ d (topk3 n d 2) ∧ ∀ j < n, (∀ i, topk3 n d i ≠ j) → d (topk3 n d 2) ≤ d j := by
  have hex : ∃ t : Fin 3 → ℕ, Function.Injective t ∧ (∀ i, t i < n) ∧ d (t 0) ≤ d (t 1) ∧
      d (t 1) ≤ d (t 2) ∧ ∀ j < n, (∀ i, t i ≠ j) → d (t 2) ≤ d j := by
    obtain ⟨a, ha, hma⟩ := Finset.exists_min_image (Finset.range n) d ⟨0, by simp; omega⟩
    have c1 : ((Finset.range n).erase a).card = n - 1 := by
      rw [Finset.card_erase_of_mem ha, Finset.card_range]
    obtain ⟨b, hb, hmb⟩ := Finset.exists_min_image ((Finset.range n).erase a) d
      (Finset.card_pos.1 (by omega))
    have c2 : (((Finset.range n).erase a).erase b).card = n - 2 := by
      rw [Finset.card_erase_of_mem hb, c1]; omega
    obtain ⟨c, hc, hmc⟩ := Finset.exists_min_image (((Finset.range n).erase a).erase b) d
      (Finset.card_pos.1 (by omega))
    simp only [Finset.mem_erase, Finset.mem_range] at ha hb hc hma hmb hmc
    refine ⟨![a, b, c], ?_, ?_, hma b hb.2, hmb c ⟨hc.2.1, hc.2.2⟩, ?_⟩
    · intro i j hij
      fin_cases i <;> fin_cases j <;> simp at hij ⊢ <;> omega
    · intro i; fin_cases i
      · exact ha
      · exact hb.2
      · exact hc.2.2
    · intro j hj hne
      have h0 : a ≠ j := hne 0
      have h1 : b ≠ j := hne 1
      exact hmc j ⟨h1.symm, h0.symm, hj⟩
  unfold topk3
  rw [dif_pos hex]
  exact Classical.choose_spec hex

theorem bccWeights_spec (d0 eps : ℝ) (sol : Fin 3 → ℝ) (h : d0 ≤ eps ∨ ∃ i, 0 < sol i) :
    (∀ i, 0 ≤ bccWeights d0 eps sol i) ∧ ∑ i, bccWeights d0 eps sol i = 1 := by
  unfold bccWeights
  set b : Fin 3 → ℝ := if d0 ≤ eps then ![1, 0, 0] else sol with hb
  have hpos : ∃ i, 0 < b i := by
    by_cases hd : d0 ≤ eps
    · exact ⟨0, by rw [hb, if_pos hd]; simp⟩
    · rcases h with h | ⟨i, hi⟩
      · exact absurd h hd
      · exact ⟨i, by rw [hb, if_neg hd]; exact hi⟩
  have hnn : ∀ i, 0 ≤ (if b i < 0 then 0 else b i) := by
    intro i; by_cases hi : b i < 0
    · rw [if_pos hi]
    · rw [if_neg hi]; exact not_lt.1 hi
  have hsum : 0 < ∑ j, (if b j < 0 then 0 else b j) := by
    obtain ⟨i, hi⟩ := hpos
    apply Finset.sum_pos' (fun j _ => hnn j)
    exact ⟨i, Finset.mem_univ _, by rw [if_neg (not_lt.2 hi.le)]; exact hi⟩
  refine ⟨fun i => div_nonneg (hnn i) hsum.le, ?_⟩
  simp only [div_eq_mul_inv, ← Finset.sum_mul]
  exact mul_inv_cancel₀ hsum.ne'

/-- Convex combination of the signals of the three nearest nodes. -/
theorem C43_convex {D : ℕ} (hD : 3 ≤ D) (dist : (Fin D → ℝ) → (Fin D → ℝ) → ℝ) (eps : ℝ)
    (nodes grid : Tensor (Fin D → ℝ)) (signal : Tensor ℝ) (K L S : ℕ)
    (hK : nodes.shape = [K]) (hL : grid.shape = [L]) (hS : signal.shape = [L, S]) (h3 : 3 ≤ L) :
    ∃ out, interpolateBCC dist eps nodes grid signal = .ok out ∧ out.shape = [K, S] ∧
      ∀ q < K, ∃ t : Fin 3 → ℕ, Function.Injective t ∧ (∀ i, t i < L) ∧
        -- the three nodes are nearest, nearest first
        (∀ j < L, dist (nodes.get [q]) (grid.get [t 0]) ≤ dist (nodes.get [q]) (grid.get [j])) ∧
        (∀ j < L, (∀ i, t i ≠ j) → ∀ i,
          dist (nodes.get [q]) (grid.get [t i]) ≤ dist (nodes.get [q]) (grid.get [j])) ∧
        -- a node at distance at most eps decides alone
        (dist (nodes.get [q]) (grid.get [t 0]) ≤ eps → ∀ c, out.get [q, c] = signal.get [t 0, c]) ∧
        -- otherwise: a convex combination, provided least squares returns a positive coefficient
        ((∃ i, 0 < lstsq (fun i => grid.get [t i]) (nodes.get [q]) i) →
          ∃ w : Fin 3 → ℝ, (∀ i, 0 ≤ w i) ∧ ∑ i, w i = 1 ∧
            ∀ c, out.get [q, c] = ∑ i, w i * signal.get [t i, c]) := by
  unfold interpolateBCC
  have hh : grid.shape.headD 0 = L := by rw [hL]; rfl
  simp only [hh]
  rw [if_neg (by omega)]
  refine ⟨_, rfl, by simp [hK, hS], fun q _ => ?_⟩
  obtain ⟨i1, i2, i3, i4, i5⟩ := topk3_spec L (fun j => dist (nodes.get [q]) (grid.get [j])) h3
  set t := topk3 L (fun j => dist (nodes.get [q]) (grid.get [j])) with ht
  refine ⟨t, i1, i2, ?_, ?_, ?_, ?_⟩
  · intro j hj
    by_cases hne : ∀ i, t i ≠ j
    · exact i3.trans (i4.trans (i5 j hj hne))
    · push Not at hne
      obtain ⟨i, rfl⟩ := hne
      fin_cases i
      · exact le_rfl
      · exact i3
      · exact i3.trans i4
  · intro j hj hne i
    have h2 := i5 j hj hne
    fin_cases i
    · exact i3.trans (i4.trans h2)
    · exact i4.trans h2
    · exact h2
  · intro hd c
    simp only [List.getD_cons_zero, List.getD_cons_succ, ← ht]
    simp [bccWeights, if_pos hd, Fin.sum_univ_three]
    norm_num
  · intro hpos
    obtain ⟨w1, w2⟩ := bccWeights_spec (dist (nodes.get [q]) (grid.get [t 0])) eps _ (Or.inr hpos)
    exact ⟨_, w1, w2, fun c => rfl⟩

theorem lstsq_exact {D : ℕ} (s : Fin 3 → Fin D → ℝ) (lam : Fin 3 → ℝ) (hs : LinearIndependent ℝ s) :
    lstsq s (fun k => ∑ i, lam i * s i k) = lam := by
  set b : Fin D → ℝ := fun k => ∑ i, lam i * s i k with hb
  have hr0 : residual s b lam = 0 := by simp [residual, hb]
  have hnn : ∀ x, 0 ≤ residual s b x := fun x => Finset.sum_nonneg fun k _ => sq_nonneg _
  have hex : ∃ x, ∀ y, residual s b x ≤ residual s b y := ⟨lam, fun y => by rw [hr0]; exact hnn y⟩
  have hsp : ∀ y, residual s b (lstsq s b) ≤ residual s b y := by
    unfold lstsq; rw [dif_pos hex]; exact Classical.choose_spec hex
  have hz : residual s b (lstsq s b) = 0 := le_antisymm (by rw [← hr0]; exact hsp lam) (hnn _)
  unfold residual at hz
  rw [Finset.sum_eq_zero_iff_of_nonneg (fun k _ => sq_nonneg _)] at hz
  have hk : ∑ i, (lstsq s b i - lam i) • s i = 0 := by
    ext k
    have := pow_eq_zero_iff (two_ne_zero) |>.1 (hz k (Finset.mem_univ k))
    simp only [hb] at this ⊢
    simp only [Finset.sum_apply, Pi.smul_apply, smul_eq_mul, sub_mul, Finset.sum_sub_distrib,
      Pi.zero_apply]
    exact this
  ext i
  exact sub_eq_zero.1 (Fintype.linearIndependent_iff.1 hs _ hk i)

/-- True barycentric interpolation: a query that is a convex combination `Σ λᵢ nᵢ` of its three nearest
nodes (linearly independent, not within `eps` of the nearest) gets `Σ λᵢ signalᵢ`. -/
theorem C43_barycentric {D : ℕ} (hD : 3 ≤ D) (dist : (Fin D → ℝ) → (Fin D → ℝ) → ℝ) (eps : ℝ)
    (nodes grid : Tensor (Fin D → ℝ)) (signal : Tensor ℝ) (K L S : ℕ)
    (hK : nodes.shape = [K]) (hL : grid.shape = [L]) (hS : signal.shape = [L, S])
    (q : ℕ) (t : Fin 3 → ℕ) (ht : Function.Injective t) (htL : ∀ i, t i < L)
    (hnear : ∀ j < L, (∀ i, t i ≠ j) → ∀ i,
      dist (nodes.get [q]) (grid.get [t i]) < dist (nodes.get [q]) (grid.get [j]))
    (hfar : ∀ i, eps < dist (nodes.get [q]) (grid.get [t i]))
    (hli : LinearIndependent ℝ fun i => grid.get [t i])
    (lam : Fin 3 → ℝ) (hlam : ∀ i, 0 ≤ lam i) (hsum : ∑ i, lam i = 1)
    (hq : nodes.get [q] = fun k => ∑ i, lam i * grid.get [t i] k) :
    ∃ out, interpolateBCC dist eps nodes grid signal = .ok out ∧
      ∀ c, out.get [q, c] = ∑ i, lam i * signal.get [t i, c] := by
  have h3 : 3 ≤ L := by
    have := Finset.card_le_card_of_injOn (s := (Finset.univ : Finset (Fin 3))) (t := Finset.range L) t
      (fun i _ => by simpa using htL i) ht.injOn
    simpa using this
  unfold interpolateBCC
  have hh : grid.shape.headD 0 = L := by rw [hL]; rfl
  simp only [hh]
  rw [if_neg (by omega)]
  refine ⟨_, rfl, fun c => ?_⟩
  obtain ⟨i1, i2, i3, i4, i5⟩ := topk3_spec L (fun j => dist (nodes.get [q]) (grid.get [j])) h3
  simp only [List.getD_cons_zero, List.getD_cons_succ]
  set u := topk3 L (fun j => dist (nodes.get [q]) (grid.get [j])) with hu
  -- the three chosen nodes are the three given ones, up to order
  have hsub : ∀ i, ∃ j, t j = u i := by
    by_contra hcon
    push Not at hcon
    obtain ⟨i, hi⟩ := hcon
    -- some t j is not among u
    have : ∃ j, ∀ i', u i' ≠ t j := by
      by_contra hc2
      push Not at hc2
      choose f hf using hc2
      have hfi : Function.Injective f := by
        intro a b hab
        apply ht; rw [← hf a, ← hf b, hab]
      obtain ⟨j, hj⟩ := Finite.injective_iff_surjective.1 hfi i
      exact hi j (by rw [← hf j, hj])
    obtain ⟨j, hj⟩ := this
    have a1 := i5 (t j) (htL j) hj
    have a2 := hnear (u i) (i2 i) hi j
    have a3 : dist (nodes.get [q]) (grid.get [u i]) ≤ dist (nodes.get [q]) (grid.get [u 2]) := by
      fin_cases i
      · exact i3.trans i4
      · exact i4
      · exact le_rfl
    linarith
  choose f hf using hsub
  have hfi : Function.Injective f := by
    intro a b hab
    apply i1; rw [← hf a, ← hf b, hab]
  have hfb : Function.Bijective f := Finite.injective_iff_bijective.1 hfi
  have huf : u = t ∘ f := by ext i; rw [Function.comp_apply, hf]
  have hsol : lstsq (fun i => grid.get [u i]) (nodes.get [q]) = lam ∘ f := by
    have hli' : LinearIndependent ℝ fun i => grid.get [u i] := by
      have := hli.comp f hfi
      rw [huf]; exact this
    rw [← lstsq_exact _ (lam ∘ f) hli']
    congr 1
    rw [hq]
    ext k
    rw [← hfb.sum_comp (fun i => lam i * grid.get [t i] k)]
    simp [huf]
  have hw : bccWeights (dist (nodes.get [q]) (grid.get [u 0])) eps (lam ∘ f) = lam ∘ f := by
    have hne : ¬ dist (nodes.get [q]) (grid.get [u 0]) ≤ eps := by
      rw [← hf 0]; exact not_le.2 (hfar (f 0))
    unfold bccWeights
    simp only [if_neg hne]
    have hpos : ∀ i, (if (lam ∘ f) i < 0 then 0 else (lam ∘ f) i) = (lam ∘ f) i := by
      intro i; exact if_neg (not_lt.2 (hlam (f i)))
    simp only [hpos]
    have : ∑ j, (lam ∘ f) j = 1 := by
      rw [← hsum]; exact hfb.sum_comp lam
    ext i; rw [this, div_one]
  rw [hsol, hw]
  rw [← hfb.sum_comp (fun i => lam i * signal.get [t i, c])]
  simp [huf]

theorem C43_errors {D : ℕ} (dist : (Fin D → ℝ) → (Fin D → ℝ) → ℝ) (eps : ℝ)
    (nodes grid : Tensor (Fin D → ℝ)) (signal : Tensor ℝ) (L : ℕ) (hL : grid.shape = [L])
    (h : L < 3 ∨ D < 3) : interpolateBCC dist eps nodes grid signal = .error .runtimeError := by
  unfold interpolateBCC
  have hh : grid.shape.headD 0 = L := by rw [hL]; rfl
  simp only [hh]
  rw [if_pos h]

/-- a query in the middle of the three unit vectors of space. -/
example : ∃ out, interpolateBCC (fun _ _ => 1) 0 ⟨[1], fun _ => fun _ : Fin 3 => (1 / 3 : ℝ)⟩
    ⟨[3], fun i => Pi.single (Fin.ofNat 3 (i.headD 0)) 1⟩ ⟨[3, 1], fun i => (i.headD 0 : ℝ)⟩ = .ok out ∧
    out.get [0, 0] = 1 := by
  obtain ⟨out, h, hc⟩ := C43_barycentric (D := 3) le_rfl (fun _ _ => 1) 0
    ⟨[1], fun _ => fun _ : Fin 3 => (1 / 3 : ℝ)⟩
    ⟨[3], fun i => Pi.single (Fin.ofNat 3 (i.headD 0)) 1⟩ ⟨[3, 1], fun i => (i.headD 0 : ℝ)⟩ 1 3 1
    rfl rfl rfl 0 (fun i => i.val) Fin.val_injective (fun i => i.isLt)
    (by intro j hj hne; exact absurd rfl (hne ⟨j, hj⟩)) (by simp)
    (by
      have : (fun i : Fin 3 => (Pi.single (Fin.ofNat 3 ([i.val].headD 0)) 1 : Fin 3 → ℝ)) =
          fun i => Pi.single i 1 := by
        funext i; congr 1; simp
      simp only [this]
      exact Pi.linearIndependent_single_one (Fin 3) ℝ)
    (fun _ => 1 / 3) (by intro; norm_num) (by norm_num)
    (by
      funext k
      fin_cases k <;> simp [Fin.sum_univ_three])
  refine ⟨out, h, ?_⟩
  rw [hc, Fin.sum_univ_three]; norm_num

end
end GConv.Interp

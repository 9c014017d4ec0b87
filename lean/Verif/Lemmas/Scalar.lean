import Verif.Torch.Scalar
import Verif.Spec.Basic

namespace GConv

open Real Spec

theorem pyMod_nonneg {a m : ℝ} (hm : 0 < m) : 0 ≤ pyMod a m := by
  unfold pyMod
  have h := Int.floor_le (a / m)
  have h2 : (⌊a / m⌋ : ℝ) * m ≤ a := by
    have := mul_le_mul_of_nonneg_right h hm.le
    rwa [div_mul_cancel₀ _ hm.ne'] at this
  linarith

theorem pyMod_lt {a m : ℝ} (hm : 0 < m) : pyMod a m < m := by
  unfold pyMod
  have h := Int.lt_floor_add_one (a / m)
  have h2 : a < (⌊a / m⌋ + 1 : ℝ) * m := by
    have := mul_lt_mul_of_pos_right h hm
    rwa [div_mul_cancel₀ _ hm.ne'] at this
  linarith

theorem pyMod_eqMod (a m : ℝ) : EqMod m (pyMod a m) a :=
  ⟨-⌊a / m⌋, by unfold pyMod; push_cast; ring⟩

theorem Spec.EqMod.refl (m a : ℝ) : EqMod m a a := ⟨0, by simp⟩
theorem Spec.EqMod.symm {m a b : ℝ} (h : EqMod m a b) : EqMod m b a := by
  obtain ⟨k, hk⟩ := h; exact ⟨-k, by rw [hk]; push_cast; ring⟩
theorem Spec.EqMod.trans {m a b c : ℝ} (h : EqMod m a b) (h' : EqMod m b c) : EqMod m a c := by
  obtain ⟨k, hk⟩ := h; obtain ⟨l, hl⟩ := h'
  exact ⟨k + l, by rw [hk, hl]; push_cast; ring⟩
theorem Spec.EqMod.add {m a b c d : ℝ} (h : EqMod m a b) (h' : EqMod m c d) : EqMod m (a + c) (b + d) := by
  obtain ⟨k, hk⟩ := h; obtain ⟨l, hl⟩ := h'
  exact ⟨k + l, by rw [hk, hl]; push_cast; ring⟩
theorem Spec.EqMod.neg {m a b : ℝ} (h : EqMod m a b) : EqMod m (-a) (-b) := by
  obtain ⟨k, hk⟩ := h; exact ⟨-k, by rw [hk]; push_cast; ring⟩

/-- the representative in `[0, m)` is unique. -/
theorem Spec.EqMod.eq_of_range {m a b : ℝ} (hm : 0 < m) (h : EqMod m a b)
    (ha : 0 ≤ a) (ha' : a < m) (hb : 0 ≤ b) (hb' : b < m) : a = b := by
  obtain ⟨k, hk⟩ := h
  have h1 : (k : ℝ) * m < 1 * m := by linarith
  have h2 : (-1 : ℝ) * m < k * m := by linarith
  have h1' : (k : ℝ) < 1 := lt_of_mul_lt_mul_right h1 hm.le
  have h2' : (-1 : ℝ) < k := lt_of_mul_lt_mul_right h2 hm.le
  have h3 : k < 1 := by exact_mod_cast h1'
  have h4 : -1 < k := by exact_mod_cast h2'
  have : k = 0 := by omega
  rw [hk, this]; simp

theorem pyMod_eq_iff {a b m : ℝ} (hm : 0 < m) : pyMod a m = pyMod b m ↔ EqMod m a b := by
  constructor
  · intro h
    have := pyMod_eqMod b m
    rw [← h] at this
    exact (pyMod_eqMod a m).symm.trans this
  · intro h
    exact EqMod.eq_of_range hm (((pyMod_eqMod a m).trans h).trans (pyMod_eqMod b m).symm)
      (pyMod_nonneg hm) (pyMod_lt hm) (pyMod_nonneg hm) (pyMod_lt hm)

theorem pyMod_of_range {a m : ℝ} (h0 : 0 ≤ a) (h1 : a < m) : pyMod a m = a := by
  have hm : 0 < m := lt_of_le_of_lt h0 h1
  exact EqMod.eq_of_range hm (pyMod_eqMod a m) (pyMod_nonneg hm) (pyMod_lt hm) h0 h1

theorem cos_of_eqMod {a b : ℝ} (h : EqMod (2 * π) a b) : cos a = cos b := by
  obtain ⟨k, hk⟩ := h; rw [hk, Real.cos_add_int_mul_two_pi]
theorem sin_of_eqMod {a b : ℝ} (h : EqMod (2 * π) a b) : sin a = sin b := by
  obtain ⟨k, hk⟩ := h; rw [hk, Real.sin_add_int_mul_two_pi]

theorem cos_pyMod (a : ℝ) : cos (pyMod a (2 * π)) = cos a := cos_of_eqMod (pyMod_eqMod _ _)
theorem sin_pyMod (a : ℝ) : sin (pyMod a (2 * π)) = sin a := sin_of_eqMod (pyMod_eqMod _ _)

theorem eqMod_of_cos_sin {a b : ℝ} (hc : cos a = cos b) (hs : sin a = sin b) :
    EqMod (2 * π) a b := by
  have h : cos (a - b) = 1 := by
    rw [Real.cos_sub, hc, hs]; nlinarith [Real.cos_sq_add_sin_sq b]
  obtain ⟨k, hk⟩ := (Real.cos_eq_one_iff _).1 h
  exact ⟨k, by linarith⟩

theorem two_pi_pos' : (0 : ℝ) < 2 * π := by positivity

theorem clamp_le {x lo hi : ℝ} : clamp x lo hi ≤ hi := min_le_right _ _
theorem le_clamp {x lo hi : ℝ} (h : lo ≤ hi) : lo ≤ clamp x lo hi := le_min (le_max_right _ _) h
theorem clamp_of_mem {x lo hi : ℝ} (h1 : lo ≤ x) (h2 : x ≤ hi) : clamp x lo hi = x := by
  unfold clamp; rw [max_eq_left h1, min_eq_left h2]
theorem clamp_of_ge {x lo hi : ℝ} (h : hi ≤ x) : clamp x lo hi = hi := by
  unfold clamp; exact min_eq_right (le_trans h (le_max_left _ _))
theorem clamp_of_le {x lo hi : ℝ} (h : x ≤ lo) (h' : lo ≤ hi) : clamp x lo hi = lo := by
  unfold clamp; rw [max_eq_right h, min_eq_left h']
theorem clamp_mono {x y lo hi : ℝ} (h : x ≤ y) : clamp x lo hi ≤ clamp y lo hi :=
  min_le_min_right _ (max_le_max_right _ h)

end GConv

import Verif.Props.Normalization

/-! # C70: what the normalised features look like

Statements about the output alone: the mean and the variance of every channel after `GBatchNorm2d/3d` and
`GInstanceNorm2d/3d`. -/

namespace GConv.Normalization

open Tensor Spec F

variable {G : Type}

theorem meanOver_affine {s : List ℕ} (hs : s.prod ≠ 0) (f : List ℕ → ℝ) (u v : ℝ) :
    meanOver s (fun i => u * f i + v) = u * meanOver s f + v := by
  have hs' : (s.prod : ℝ) ≠ 0 := by exact_mod_cast hs
  have h : sumBox s (fun i => u * f i + v) = u * sumBox s f + v * s.prod := by
    rw [← sumBox_one]
    unfold sumBox
    rw [← List.sum_map_mul_left, ← List.sum_map_mul_left, ← List.sum_map_add]
    simp
  unfold meanOver
  rw [h]
  field_simp

theorem varOver_affine {s : List ℕ} (hs : s.prod ≠ 0) (f : List ℕ → ℝ) (u v : ℝ) :
    varOver s (fun i => u * f i + v) = u ^ 2 * varOver s f := by
  unfold varOver
  rw [meanOver_affine hs]
  have := meanOver_affine hs (fun i => (f i - meanOver s f) ^ 2) (u ^ 2) 0
  rw [add_zero] at this
  rw [← this]
  exact meanOver_congr fun i _ => by ring

theorem varOver_nonneg (s : List ℕ) (f : List ℕ → ℝ) : 0 ≤ varOver s f := by
  unfold varOver meanOver sumBox
  refine div_nonneg (List.sum_nonneg ?_) (Nat.cast_nonneg _)
  intro x hx
  obtain ⟨i, -, rfl⟩ := List.mem_map.1 hx
  positivity

/-- Features standardised with their own statistics. -/
theorem standardised {s : List ℕ} (hs : s.prod ≠ 0) (f g : List ℕ → ℝ) {eps w b : ℝ} (he : 0 < eps)
    (h : ∀ i, InB s i → g i = normalised eps (meanOver s f) (varOver s f) w b (f i)) :
    meanOver s g = b ∧ varOver s g = w ^ 2 * (varOver s f / (varOver s f + eps)) := by
  have hv := varOver_nonneg s f
  have hq : 0 < varOver s f + eps := by linarith
  have hr : Real.sqrt (varOver s f + eps) ≠ 0 := (Real.sqrt_pos.2 hq).ne'
  have h' : ∀ i, InB s i → g i = (w / Real.sqrt (varOver s f + eps)) * f i +
      (b - meanOver s f * w / Real.sqrt (varOver s f + eps)) := by
    intro i hi
    rw [h i hi]
    unfold normalised
    field_simp
    ring
  constructor
  · rw [meanOver_congr h', meanOver_affine hs]
    field_simp
    ring
  · rw [varOver_congr h', varOver_affine hs, div_pow, Real.sq_sqrt hq.le]
    field_simp

/-- `GBatchNorm2d/3d` with batch statistics: in the output every channel has mean `bias` and variance
`weight² · v / (v + eps)`, `v` its variance in the input, taken over batch, group and space; without `affine` these are
`0` and `v / (v + eps)`, whatever was passed as weight and bias. -/
theorem C70_batch_output (nd : ℕ) (hnd : 0 < nd) (a : NormArgs) (he : 0 < a.eps) (training : Bool)
    (hmode : training = true ∨ a.track = false) (r : Running) (x : Tensor ℝ) (H : Tensor G) (N C n : ℕ) (S : List ℕ)
    (hS : S.length = nd) (hx : x.shape = N :: C :: n :: S) (hC : a.affine = true ∨ a.track = true → C = a.features)
    (h1 : 1 < (N :: n :: S).prod) :
    ∃ y r', batch nd a training r x H = .ok ((y, H), r') ∧ y.shape = N :: C :: n :: S ∧ ∀ c < C,
      (a.affine = false → meanOver (N :: n :: S) (channelOf y c) = 0 ∧
        varOver (N :: n :: S) (channelOf y c) =
          varOver (N :: n :: S) (channelOf x c) / (varOver (N :: n :: S) (channelOf x c) + a.eps)) ∧
      (a.affine = true → meanOver (N :: n :: S) (channelOf y c) = a.bias c ∧
        varOver (N :: n :: S) (channelOf y c) =
          a.weight c ^ 2 * (varOver (N :: n :: S) (channelOf x c) / (varOver (N :: n :: S) (channelOf x c) + a.eps))) := by
  obtain ⟨y, r', e1, e2, e3, -, -⟩ := C70_batch_statistics nd hnd a training hmode r x H N C n S hS hx hC (by omega)
  refine ⟨y, r', e1, e2, fun c hc => ?_⟩
  have key := standardised (s := N :: n :: S) (by omega) (channelOf x c) (channelOf y c) (w := a.scale c) (b := a.shift c) he (by
    intro i hi
    obtain ⟨b, t, rfl, hb, hi⟩ := InB_cons_left hi
    obtain ⟨k, q, rfl, hk, hq⟩ := InB_cons_left hi
    exact e3 b c k q hb hc hk hq)
  constructor
  · intro ha
    have hw : a.scale c = 1 := by unfold NormArgs.scale; simp [ha]
    have hb : a.shift c = 0 := by unfold NormArgs.shift; simp [ha]
    rw [hw, hb] at key
    exact ⟨key.1, by rw [key.2]; ring⟩
  · intro ha
    have hw : a.scale c = a.weight c := by unfold NormArgs.scale; simp [ha]
    have hb : a.shift c = a.bias c := by unfold NormArgs.shift; simp [ha]
    rw [hw, hb] at key
    exact key

/-- `GInstanceNorm2d/3d` with input statistics: the same for every channel of every instance, over group and space. -/
theorem C70_instance_output (nd : ℕ) (hnd : 0 < nd) (a : NormArgs) (he : 0 < a.eps) (training : Bool)
    (hmode : training = true ∨ a.track = false) (r : Running) (x : Tensor ℝ) (H : Tensor G) (N C n : ℕ) (S : List ℕ)
    (hS : S.length = nd) (hx : x.shape = N :: C :: n :: S) (hC : a.affine = true ∨ a.track = true → C = a.features)
    (h1 : 1 < (n :: S).prod) :
    ∃ y r', inst nd a training r x H = .ok ((y, H), r') ∧ y.shape = N :: C :: n :: S ∧ ∀ b < N, ∀ c < C,
      (a.affine = false → (meanOver (n :: S) fun i => y.get (b :: c :: i)) = 0 ∧
        (varOver (n :: S) fun i => y.get (b :: c :: i)) =
          (varOver (n :: S) fun i => x.get (b :: c :: i)) / ((varOver (n :: S) fun i => x.get (b :: c :: i)) + a.eps)) ∧
      (a.affine = true → (meanOver (n :: S) fun i => y.get (b :: c :: i)) = a.bias c ∧
        (varOver (n :: S) fun i => y.get (b :: c :: i)) = a.weight c ^ 2 *
          ((varOver (n :: S) fun i => x.get (b :: c :: i)) / ((varOver (n :: S) fun i => x.get (b :: c :: i)) + a.eps))) := by
  obtain ⟨y, r', e1, e2, e3, -, -⟩ := C70_instance_statistics nd hnd a training hmode r x H N C n S hS hx hC (by omega)
  refine ⟨y, r', e1, e2, fun b hb c hc => ?_⟩
  have key := standardised (s := n :: S) (by omega) (fun i => x.get (b :: c :: i)) (fun i => y.get (b :: c :: i))
    (w := a.scale c) (b := a.shift c) he (by
    intro i hi
    obtain ⟨k, q, rfl, hk, hq⟩ := InB_cons_left hi
    exact e3 b c k q hb hc hk hq)
  constructor
  · intro ha
    have hw : a.scale c = 1 := by unfold NormArgs.scale; simp [ha]
    have hb : a.shift c = 0 := by unfold NormArgs.shift; simp [ha]
    rw [hw, hb] at key
    exact ⟨key.1, by rw [key.2]; ring⟩
  · intro ha
    have hw : a.scale c = a.weight c := by unfold NormArgs.scale; simp [ha]
    have hb : a.shift c = a.bias c := by unfold NormArgs.shift; simp [ha]
    rw [hw, hb] at key
    exact key

/-- In evaluation mode (running statistics) the scale and shift are those of an affine module and `1`, `0` otherwise. -/
theorem C70_eval_output (nd : ℕ) (hnd : 0 < nd) (a : NormArgs) (ht : a.track = true) (r : Running) (x : Tensor ℝ) (H : Tensor G)
    (N C n : ℕ) (S : List ℕ) (hS : S.length = nd) (hx : x.shape = N :: C :: n :: S) (hC : C = a.features) :
    ∃ y y', batch nd a false r x H = .ok ((y, H), r) ∧ inst nd a false r x H = .ok ((y', H), r) ∧
      y.shape = N :: C :: n :: S ∧ y'.shape = N :: C :: n :: S ∧
      ∀ b c h q, b < N → c < C → h < n → InB S q →
        y'.get (b :: c :: h :: q) = y.get (b :: c :: h :: q) ∧
        (a.affine = false → y.get (b :: c :: h :: q) = (x.get (b :: c :: h :: q) - r.mean c) / Real.sqrt (r.var c + a.eps)) ∧
        (a.affine = true → y.get (b :: c :: h :: q) =
          (x.get (b :: c :: h :: q) - r.mean c) / Real.sqrt (r.var c + a.eps) * a.weight c + a.bias c) := by
  obtain ⟨y, e1, e2, e3⟩ := C70_batch_eval nd hnd a ht r x H N C n S hS hx hC
  obtain ⟨y', f1, f2, f3⟩ := C70_instance_eval nd hnd a ht r x H N C n S hS hx hC
  refine ⟨y, y', e1, f1, e2, f2, fun b c h q hb hc hh hq => ⟨?_, ?_, ?_⟩⟩
  · rw [e3 b c h q hb hc hh hq, f3 b c h q hb hc hh hq]
  · intro ha
    rw [e3 b c h q hb hc hh hq]
    unfold normalised NormArgs.scale NormArgs.shift
    simp [ha]
  · intro ha
    rw [e3 b c h q hb hc hh hq]
    unfold normalised NormArgs.scale NormArgs.shift
    simp [ha]

/-- a batch of 2 images, 3 channels, 4 group elements, 5 x 6 cells: with default arguments (weight 1, bias 0) every
channel has mean 0 afterwards. -/
example (x : Tensor ℝ) (hx : x.shape = [2, 3, 4, 5, 6]) (H : Tensor G) :
    ∃ y r', batch 2 exNorm true fresh x H = .ok ((y, H), r') ∧ ∀ c < 3, meanOver [2, 4, 5, 6] (channelOf y c) = 0 := by
  obtain ⟨y, r', h1, -, h3⟩ := C70_batch_output 2 (by norm_num) exNorm (by norm_num [exNorm]) true (Or.inl rfl) fresh x H 2 3 4 [5, 6]
    rfl hx (fun _ => rfl) (by norm_num)
  exact ⟨y, r', h1, fun c hc => ((h3 c hc).2 rfl).1⟩

end GConv.Normalization

import Verif.Model.Activations
import Verif.Lemmas.NN

/-! # C71: activations and the wrapper -/

namespace GConv.Activations

open Tensor Spec

variable {G : Type}

/-- `GReLU`: negative entries become 0, `H` is passed on. -/
theorem C71_relu_partial (x : Tensor ℝ) (H : Tensor G) :
    ∃ y, Act.relu.forward x H = .ok (y, H) ∧ y.shape = x.shape ∧
      ∀ i, (0 ≤ x.get i → y.get i = x.get i) ∧ (x.get i < 0 → y.get i = 0) :=
  ⟨_, rfl, rfl, fun _ => ⟨fun h => max_eq_right h, fun h => max_eq_left h.le⟩⟩

/-- `GLeakyReLU(slope)`: negative entries are multiplied by `slope`. -/
theorem C71_leaky_partial (slope : ℝ) (x : Tensor ℝ) (H : Tensor G) :
    ∃ y, (Act.leaky slope).forward x H = .ok (y, H) ∧ y.shape = x.shape ∧
      ∀ i, (0 ≤ x.get i → y.get i = x.get i) ∧ (x.get i < 0 → y.get i = slope * x.get i) := by
  refine ⟨_, rfl, rfl, fun i => ⟨fun h => ?_, fun h => ?_⟩⟩
  · show max 0 (x.get i) + slope * min 0 (x.get i) = _
    rw [max_eq_right h, min_eq_left h]; ring
  · show max 0 (x.get i) + slope * min 0 (x.get i) = _
    rw [max_eq_left h.le, min_eq_right h.le]; ring

/-- `GGELU()`: every entry `v` becomes `v * (1 + erf(v / sqrt 2)) / 2`; with `approximate='tanh'` the approximation
of the documentation; any other string is a RuntimeError. -/
theorem C71_gelu_partial (s : String) (x : Tensor ℝ) (H : Tensor G) :
    (s = "none" → ∃ y, (Act.gelu s).forward x H = .ok (y, H) ∧ y.shape = x.shape ∧
      ∀ i, y.get i = x.get i * ((1 + 2 / Real.sqrt Real.pi * ∫ t in (0 : ℝ)..x.get i / Real.sqrt 2, Real.exp (-t ^ 2)) / 2)) ∧
    (s = "tanh" → ∃ y, (Act.gelu s).forward x H = .ok (y, H) ∧ y.shape = x.shape ∧
      ∀ i, y.get i = x.get i * ((1 + Real.tanh (Real.sqrt (2 / Real.pi) * (x.get i + 0.044715 * x.get i ^ 3))) / 2)) ∧
    (s ≠ "none" → s ≠ "tanh" → (Act.gelu s).forward x H = .error .runtimeError) := by
  refine ⟨fun h => ?_, fun h => ?_, fun h1 h2 => ?_⟩
  · subst h; exact ⟨_, rfl, rfl, fun i => rfl⟩
  · subst h; exact ⟨_, rfl, rfl, fun i => rfl⟩
  · unfold Act.forward Act.fn
    dsimp only
    rw [if_neg h1, if_neg h2, error_bind]

/-- the arguments with which an activation works. -/
def Act.Ok : Act → Prop
  | .gelu s => s = "none" ∨ s = "tanh"
  | _ => True

/-- Activations commute with every reordering of positions: equal entries give equal entries, wherever they are. -/
theorem C71_pointwise_partial (a : Act) (ha : a.Ok) (x x' : Tensor ℝ) (H H' : Tensor G) :
    ∃ y y', a.forward x H = .ok (y, H) ∧ a.forward x' H' = .ok (y', H') ∧ y.shape = x.shape ∧ y'.shape = x'.shape ∧
      ∀ i j, x'.get j = x.get i → y'.get j = y.get i := by
  have hf : ∃ f, a.fn = .ok f := by
    cases a with
    | relu => exact ⟨_, rfl⟩
    | leaky s => exact ⟨_, rfl⟩
    | gelu s =>
      rcases ha with h | h <;> subst h
      · exact ⟨_, rfl⟩
      · exact ⟨_, rfl⟩
  obtain ⟨f, hf⟩ := hf
  unfold Act.forward
  rw [hf, ok_bind, ok_bind]
  exact ⟨_, _, rfl, rfl, rfl, rfl, fun i j h => congrArg f h⟩

/-- `GWrap` cannot be constructed from any module. -/
theorem C71_violated (f : Tensor ℝ → Except PyErr (Tensor ℝ)) : wrap (.module f) = .error .attributeError := rfl

/-- A wrapped plain function can be constructed, but calling the wrapper raises AttributeError; only `forward` called
directly applies the function. -/
theorem C71_wrapped_function_partial (f : Tensor ℝ → Except PyErr (Tensor ℝ)) (x y : Tensor ℝ) (H : Tensor G) (hf : f x = .ok y) :
    ∃ w, wrap (.other f) = .ok w ∧ call w x H = .error .attributeError ∧ forward w x H = .ok (y, H) := by
  refine ⟨f, rfl, rfl, ?_⟩
  unfold forward
  rw [hf, ok_bind]
  rfl

example : ∃ y, Act.relu.forward (⟨[2], fun i => if i = [0] then -1 else 2⟩ : Tensor ℝ) (⟨[1], fun _ => ()⟩ : Tensor Unit) = .ok (y, ⟨[1], fun _ => ()⟩) ∧
    y.get [0] = 0 ∧ y.get [1] = 2 := by
  obtain ⟨y, h1, -, h3⟩ := C71_relu_partial (⟨[2], fun i => if i = [0] then -1 else 2⟩ : Tensor ℝ) (⟨[1], fun _ => ()⟩ : Tensor Unit)
  exact ⟨y, h1, (h3 [0]).2 (by norm_num), (h3 [1]).1 (by norm_num)⟩

end GConv.Activations

import Verif.Spec.Linear
import Verif.Model.Modules

/-! # All operations of the layers respect linear combinations -/

namespace GConv.Linear

open Tensor Spec

variable {α β : ℝ} {x y z : Tensor ℝ}

theorem Outcomes.bind {A B : Type} {R : A → A → A → Prop} {S : B → B → B → Prop} {e₁ e₂ e₃ : Except PyErr A}
    {f₁ f₂ f₃ : A → Except PyErr B} (h : Outcomes R e₁ e₂ e₃)
    (hf : ∀ a b c, R a b c → Outcomes S (f₁ a) (f₂ b) (f₃ c)) :
    Outcomes S (e₁ >>= f₁) (e₂ >>= f₂) (e₃ >>= f₃) := by
  cases h with
  | error e => exact .error e
  | ok h => exact hf _ _ _ h

/-- a value used by all three calls. -/
theorem Outcomes.same {A B : Type} {S : B → B → B → Prop} (e : Except PyErr A)
    {f₁ f₂ f₃ : A → Except PyErr B} (hf : ∀ a, Outcomes S (f₁ a) (f₂ a) (f₃ a)) :
    Outcomes S (e >>= f₁) (e >>= f₂) (e >>= f₃) := by
  cases e with
  | error e => exact .error e
  | ok a => exact hf a

theorem comb_reindex (h : IsComb α β x y z) {s : List ℕ} (f : List ℕ → List ℕ) :
    IsComb α β ⟨s, fun i => x.get (f i)⟩ ⟨s, fun i => y.get (f i)⟩ ⟨s, fun i => z.get (f i)⟩ :=
  ⟨rfl, rfl, fun _ => h.2.2 _⟩

theorem comb_shape {x y z x' y' z' : Tensor ℝ} (h : IsComb α β x y z) (hx : x = x') (hy : y = y') (hz : z = z') :
    IsComb α β x' y' z' := by subst hx hy hz; exact h

theorem view (h : IsComb α β x y z) (s : List ℕ) : Outcomes (IsComb α β) (x.view s) (y.view s) (z.view s) := by
  unfold Tensor.view
  rw [h.1, h.2.1]
  by_cases hs : z.shape.prod = s.prod
  · rw [if_pos hs, if_pos hs, if_pos hs]; exact .ok (comb_reindex h _)
  · rw [if_neg hs, if_neg hs, if_neg hs]; exact .error _

theorem viewInfer (h : IsComb α β x y z) (pre post : List ℕ) :
    Outcomes (IsComb α β) (x.viewInfer pre post) (y.viewInfer pre post) (z.viewInfer pre post) := by
  unfold Tensor.viewInfer
  dsimp only
  rw [h.1, h.2.1]
  by_cases hs : pre.prod * post.prod = 0 ∨ z.shape.prod % (pre.prod * post.prod) ≠ 0
  · rw [if_pos hs, if_pos hs, if_pos hs]; exact .error _
  · rw [if_neg hs, if_neg hs, if_neg hs]; exact view h _

theorem transpose (h : IsComb α β x y z) (a b : ℕ) :
    IsComb α β (x.transpose a b) (y.transpose a b) (z.transpose a b) := by
  refine ⟨?_, ?_, fun idx => h.2.2 _⟩ <;> unfold Tensor.transpose <;> dsimp only
  · rw [h.1]
  · rw [h.2.1]

theorem repeatInterleave0 (h : IsComb α β x y z) (n : ℕ) :
    IsComb α β (x.repeatInterleave0 n) (y.repeatInterleave0 n) (z.repeatInterleave0 n) := by
  refine ⟨?_, ?_, fun idx => ?_⟩
  · unfold Tensor.repeatInterleave0; dsimp only; rw [h.1]
  · unfold Tensor.repeatInterleave0; dsimp only; rw [h.2.1]
  · cases idx <;> exact h.2.2 _

theorem slice0 (h : IsComb α β x y z) (a b : ℕ) : IsComb α β (x.slice0 a b) (y.slice0 a b) (z.slice0 a b) := by
  refine ⟨?_, ?_, fun idx => ?_⟩
  · unfold Tensor.slice0; dsimp only; rw [h.1]
  · unfold Tensor.slice0; dsimp only; rw [h.2.1]
  · cases idx <;> exact h.2.2 _

theorem drop0 (h : IsComb α β x y z) (a : ℕ) : IsComb α β (x.drop0 a) (y.drop0 a) (z.drop0 a) := by
  unfold Tensor.drop0
  rw [h.1, h.2.1]
  exact slice0 h _ _

theorem index0 (h : IsComb α β x y z) (l : List ℕ) :
    Outcomes (IsComb α β) (x.index0 l) (y.index0 l) (z.index0 l) := by
  unfold Tensor.index0
  rw [h.1, h.2.1]
  by_cases hl : (l.all fun i => decide (i < z.shape.headD 0)) = true
  · rw [if_pos hl, if_pos hl, if_pos hl]
    refine .ok ⟨rfl, rfl, fun idx => ?_⟩
    cases idx <;> exact h.2.2 _
  · rw [if_neg hl, if_neg hl, if_neg hl]; exact .error _

theorem cat0 {x' y' z' : Tensor ℝ} (h : IsComb α β x y z) (h' : IsComb α β x' y' z') :
    Outcomes (IsComb α β) (x.cat0 x') (y.cat0 y') (z.cat0 z') := by
  unfold Tensor.cat0
  rw [h.1, h.2.1, h'.1, h'.2.1]
  by_cases hl : z.shape.tail = z'.shape.tail
  · rw [if_pos hl, if_pos hl, if_pos hl]
    refine .ok ⟨rfl, rfl, fun idx => ?_⟩
    cases idx with
    | nil => exact h.2.2 _
    | cons i is =>
      dsimp only
      by_cases hi : i < z.shape.headD 0
      · rw [if_pos hi, if_pos hi, if_pos hi]; exact h.2.2 _
      · rw [if_neg hi, if_neg hi, if_neg hi]; exact h'.2.2 _
  · rw [if_neg hl, if_neg hl, if_neg hl]; exact .error _

theorem bzip_mul (m : Tensor ℝ) (h : IsComb α β x y z) :
    Outcomes (IsComb α β) (bzip (· * ·) m x) (bzip (· * ·) m y) (bzip (· * ·) m z) := by
  unfold bzip
  rw [h.1, h.2.1]
  cases bcastShape m.shape z.shape with
  | none => exact .error _
  | some s =>
    refine .ok ⟨rfl, rfl, fun idx => ?_⟩
    dsimp only
    rw [h.2.2]; ring

theorem bzip_div (m : Tensor ℝ) (h : IsComb α β x y z) :
    Outcomes (IsComb α β) (bzip (· / ·) x m) (bzip (· / ·) y m) (bzip (· / ·) z m) := by
  unfold bzip
  rw [h.1, h.2.1]
  cases bcastShape z.shape m.shape with
  | none => exact .error _
  | some s =>
    refine .ok ⟨rfl, rfl, fun idx => ?_⟩
    dsimp only
    rw [h.2.2]; ring

theorem bzip_add {x' y' z' : Tensor ℝ} (h : IsComb α β x y z) (h' : IsComb α β x' y' z') :
    Outcomes (IsComb α β) (bzip (· + ·) x x') (bzip (· + ·) y y') (bzip (· + ·) z z') := by
  unfold bzip
  rw [h.1, h.2.1, h'.1, h'.2.1]
  cases bcastShape z.shape z'.shape with
  | none => exact .error _
  | some s =>
    refine .ok ⟨rfl, rfl, fun idx => ?_⟩
    dsimp only
    rw [h.2.2, h'.2.2]; ring

/-! ## samplers -/

theorem sampleRec_lin (mode : F.SMode) (S : List ℕ) (us : List ℝ) (f g : List ℕ → ℝ) :
    F.sampleRec mode S us (fun r => α * f r + β * g r) =
      α * F.sampleRec mode S us f + β * F.sampleRec mode S us g := by
  induction S generalizing us f g with
  | nil => simp [F.sampleRec]
  | cons s S ih =>
    cases us with
    | nil => simp [F.sampleRec]
    | cons u us =>
      simp only [F.sampleRec]
      induction F.taps mode s u with
      | nil => simp
      | cons t l ihl =>
        simp only [List.map_cons, List.sum_cons]
        rw [ihl, ih]; ring

theorem gridSample {d : ℕ} (mode pad : String) (grid : Tensor (Fin d → ℝ)) (h : IsComb α β x y z) :
    Outcomes (IsComb α β) (F.gridSample mode pad x grid) (F.gridSample mode pad y grid) (F.gridSample mode pad z grid) := by
  unfold F.gridSample
  refine Outcomes.same _ fun m => Outcomes.same _ fun p => ?_
  rw [h.1, h.2.1]
  split
  · rename_i N C S N' O hz hg
    split
    · refine .ok ⟨rfl, rfl, fun idx => ?_⟩
      dsimp only
      split
      · have : ∀ n c, (fun r => z.get (n :: c :: r)) = fun r => α * x.get (n :: c :: r) + β * y.get (n :: c :: r) :=
          fun n c => funext fun r => h.2.2 _
        rw [this]; exact sampleRec_lin _ _ _ _ _
      · ring
    · exact .error _
  · exact .error _

theorem interpolateRBF {G : Type} (dist : G → G → ℝ) (rbf : ℝ → ℝ → ℝ) (w : ℝ) (nodes grid : Tensor G)
    (h : IsComb α β x y z) :
    Outcomes (IsComb α β) (Interp.interpolateRBF dist rbf w nodes grid x) (Interp.interpolateRBF dist rbf w nodes grid y)
      (Interp.interpolateRBF dist rbf w nodes grid z) := by
  unfold Interp.interpolateRBF
  dsimp only
  rw [h.1, h.2.1]
  split
  · exact .error _
  · refine .ok ⟨rfl, rfl, fun idx => ?_⟩
    dsimp only
    have : (fun i : Fin (grid.shape.headD 0) => z.get [i, idx.getD 1 0]) =
        α • (fun i : Fin (grid.shape.headD 0) => x.get [i, idx.getD 1 0]) +
          β • fun i : Fin (grid.shape.headD 0) => y.get [i, idx.getD 1 0] := funext fun i => h.2.2 _
    rw [this, Matrix.mulVec_add, Matrix.mulVec_smul, Matrix.mulVec_smul, Finset.mul_sum, Finset.mul_sum,
      ← Finset.sum_add_distrib]
    refine Finset.sum_congr rfl fun j _ => ?_
    simp only [Pi.add_apply, Pi.smul_apply, smul_eq_mul]
    ring

theorem interpolateNN {G : Type} (dist : G → G → ℝ) (nodes grid : Tensor G) (h : IsComb α β x y z) :
    Outcomes (IsComb α β) (Interp.interpolateNN dist nodes grid x) (Interp.interpolateNN dist nodes grid y)
      (Interp.interpolateNN dist nodes grid z) := by
  unfold Interp.interpolateNN
  rw [h.1, h.2.1]
  split
  · exact .error _
  · exact .ok ⟨rfl, rfl, fun idx => h.2.2 _⟩

theorem so2Sample (q g : Tensor ℝ) (mode : String) (w : ℝ) (h : IsComb α β x y z) :
    Outcomes (IsComb α β) (SO2.gridSample q x g mode w) (SO2.gridSample q y g mode w) (SO2.gridSample q z g mode w) := by
  unfold SO2.gridSample
  split
  · exact interpolateRBF _ _ _ _ _ h
  · split
    · exact interpolateNN _ _ _ h
    · exact .error _

theorem so3QuatSample (q g : Tensor SO3.Quat) (mode : String) (w : ℝ) (h : IsComb α β x y z) :
    Outcomes (IsComb α β) (SO3.gridSampleQuat q x g mode w) (SO3.gridSampleQuat q y g mode w)
      (SO3.gridSampleQuat q z g mode w) := by
  unfold SO3.gridSampleQuat
  split
  · exact interpolateNN _ _ _ h
  · split
    · exact interpolateRBF _ _ _ _ _ h
    · exact .error _

theorem cosetSample {G Q : Type} (coef : G → ℝ) (rot : G → Q)
    (samp : ℝ → Tensor Q → Tensor ℝ → Tensor Q → Except PyErr (Tensor ℝ))
    (hs : ∀ w q g (x y z : Tensor ℝ), IsComb α β x y z → Outcomes (IsComb α β) (samp w q x g) (samp w q y g) (samp w q z g))
    (grid sg : Tensor G) (n m : ℕ) (wr wf : ℝ) (h : IsComb α β x y z) :
    Outcomes (IsComb α β) (GConv.cosetSample coef rot samp grid x sg n m wr wf)
      (GConv.cosetSample coef rot samp grid y sg n m wr wf) (GConv.cosetSample coef rot samp grid z sg n m wr wf) := by
  unfold GConv.cosetSample
  dsimp only
  refine Outcomes.bind (R := IsComb α β) ?_ fun a b c habc => ?_
  · split
    · exact Outcomes.same _ fun q => hs _ _ _ _ _ _ (slice0 h _ _)
    · exact .ok (slice0 h _ _)
  refine Outcomes.bind (R := IsComb α β) ?_ fun a' b' c' habc' => ?_
  · split
    · exact Outcomes.same _ fun q => hs _ _ _ _ _ _ (drop0 h _)
    · exact .ok (drop0 h _)
  exact Outcomes.bind (cat0 habc habc') fun _ _ _ h => index0 h _

/-! ## convolution -/

theorem sum_lin {ι : Type} (l : List ι) (f g : ι → ℝ) :
    (l.map fun i => α * f i + β * g i).sum = α * (l.map f).sum + β * (l.map g).sum := by
  induction l with
  | nil => simp
  | cons a l ih => simp only [List.map_cons, List.sum_cons]; rw [ih]; ring

theorem convValid_weight (i : Tensor ℝ) (st dl : List ℕ) (g : ℕ) (h : IsComb α β x y z) :
    Outcomes (IsComb α β) (F.convValid i x st dl g) (F.convValid i y st dl g) (F.convValid i z st dl g) := by
  unfold F.convValid
  rw [h.1, h.2.1]
  split
  · split
    · refine .ok ⟨rfl, rfl, fun idx => ?_⟩
      dsimp only
      split
      · rw [← sum_lin]
        congr 1
        refine List.map_congr_left fun ci _ => ?_
        rw [← sum_lin]
        congr 1
        refine List.map_congr_left fun k _ => ?_
        rw [h.2.2]; ring
      · ring
    · exact .error _
  · exact .error _

theorem convValid_input (w : Tensor ℝ) (st dl : List ℕ) (g : ℕ) (h : IsComb α β x y z) :
    Outcomes (IsComb α β) (F.convValid x w st dl g) (F.convValid y w st dl g) (F.convValid z w st dl g) := by
  unfold F.convValid
  rw [h.1, h.2.1]
  split
  · split
    · refine .ok ⟨rfl, rfl, fun idx => ?_⟩
      dsimp only
      split
      · rw [← sum_lin]
        congr 1
        refine List.map_congr_left fun ci _ => ?_
        rw [← sum_lin]
        congr 1
        refine List.map_congr_left fun k _ => ?_
        rw [h.2.2]; ring
      · ring
    · exact .error _
  · exact .error _

theorem padAxes (mode : F.CPad) (ps : List (ℕ × ℕ)) (h : IsComb α β x y z) :
    Outcomes (IsComb α β) (F.padAxes mode x ps) (F.padAxes mode y ps) (F.padAxes mode z ps) := by
  unfold F.padAxes
  rw [h.1, h.2.1]
  split
  · split
    · refine .ok ⟨rfl, rfl, fun idx => ?_⟩
      dsimp only
      split
      · split
        · exact h.2.2 _
        · ring
      · ring
    · exact .error _
  · exact .error _

theorem conv_weight (i : Tensor ℝ) (st : List ℕ) (p : F.ConvPad) (dl : List ℕ) (g : ℕ) (h : IsComb α β x y z) :
    Outcomes (IsComb α β) (F.conv i x st p dl g) (F.conv i y st p dl g) (F.conv i z st p dl g) := by
  unfold F.conv
  rw [h.1, h.2.1]
  split
  · exact convValid_weight _ _ _ _ h
  · split
    · exact Outcomes.same _ fun _ => convValid_weight _ _ _ _ h
    · exact .error _
  · exact Outcomes.same _ fun _ => convValid_weight _ _ _ _ h

theorem conv_input (w : Tensor ℝ) (st : List ℕ) (p : F.ConvPad) (dl : List ℕ) (g : ℕ) (h : IsComb α β x y z) :
    Outcomes (IsComb α β) (F.conv x w st p dl g) (F.conv y w st p dl g) (F.conv z w st p dl g) := by
  unfold F.conv
  split
  · exact convValid_input _ _ _ _ h
  · split
    · exact Outcomes.bind (padAxes _ _ h) fun _ _ _ h => convValid_input _ _ _ _ h
    · exact .error _
  · exact Outcomes.bind (padAxes _ _ h) fun _ _ _ h => convValid_input _ _ _ _ h

theorem squeezed (h : IsComb α β x y z) :
    IsComb α β ⟨x.shape.tail, fun idx => x.get (0 :: idx)⟩ ⟨y.shape.tail, fun idx => y.get (0 :: idx)⟩ ⟨z.shape.tail, fun idx => z.get (0 :: idx)⟩ :=
  ⟨congrArg List.tail h.1, congrArg List.tail h.2.1, fun idx => h.2.2 (0 :: idx)⟩

theorem convForward_weight (L : Conv.Layer) (i : Tensor ℝ) (g : ℕ) (h : IsComb α β x y z) :
    Outcomes (IsComb α β) (L.convForward i x g) (L.convForward i y g) (L.convForward i z g) := by
  have hB : ∀ i, Outcomes (IsComb α β) (L.convBatched i x g) (L.convBatched i y g) (L.convBatched i z g) := fun i => by
    unfold Conv.Layer.convBatched
    split
    · exact Outcomes.same _ fun _ => Outcomes.same _ fun _ => conv_weight _ _ _ _ _ h
    · exact Outcomes.same _ fun _ => conv_weight _ _ _ _ _ h
  unfold Conv.Layer.convForward F.unbatched
  split
  · exact Outcomes.bind (hB _) fun _ _ _ h => .ok (squeezed h)
  · exact hB i

theorem convForward_input (L : Conv.Layer) (w : Tensor ℝ) (g : ℕ) (h : IsComb α β x y z) :
    Outcomes (IsComb α β) (L.convForward x w g) (L.convForward y w g) (L.convForward z w g) := by
  have hB : ∀ {x y z : Tensor ℝ}, IsComb α β x y z →
      Outcomes (IsComb α β) (L.convBatched x w g) (L.convBatched y w g) (L.convBatched z w g) := fun h => by
    unfold Conv.Layer.convBatched
    split
    · exact Outcomes.same _ fun _ => Outcomes.bind (padAxes _ _ h) fun _ _ _ h => conv_input _ _ _ _ _ h
    · exact Outcomes.same _ fun _ => conv_input _ _ _ _ _ h
  unfold Conv.Layer.convForward F.unbatched
  rw [h.1, h.2.1]
  split
  · exact Outcomes.bind (hB ⟨rfl, rfl, fun idx => h.2.2 idx.tail⟩) fun _ _ _ h => .ok (squeezed h)
  · exact hB h

theorem addBias {b₁ b₂ b₃ : Option (Tensor ℝ)} (h : IsComb α β x y z) (hb : IsCombOpt α β b₁ b₂ b₃) :
    Outcomes (IsComb α β) (Conv.Layer.addBias x b₁) (Conv.Layer.addBias y b₂) (Conv.Layer.addBias z b₃) := by
  cases hb with
  | none => exact .ok h
  | some hb => exact bzip_add h hb

end GConv.Linear

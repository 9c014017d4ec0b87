import Verif.Model.KernelInstances
import Verif.Spec.Kernel
import Verif.Lemmas.Tensor
import Verif.Props.Interp
import Verif.Props.Invariance

/-! # The samplers of the premade kernels satisfy what the kernel classes expect -/

namespace GConv

open Tensor Spec

/-! ## spatial sampling -/

theorem parseMode_ok {m : String} (h : m = "bilinear" ∨ m = "nearest") : ∃ r, F.parseMode m = .ok r := by
  rcases h with rfl | rfl
  · exact ⟨.bilinear, rfl⟩
  · exact ⟨.nearest, by decide⟩

theorem parsePad_ok {m : String} (h : m = "zeros" ∨ m = "border" ∨ m = "reflection") :
    ∃ r, F.parsePad m = .ok r := by
  rcases h with rfl | rfl | rfl
  · exact ⟨.zeros, rfl⟩
  · exact ⟨.border, by decide⟩
  · exact ⟨.reflection, by decide⟩

theorem gridSample_pointwise {d : ℕ} (mode pad : String) (m : F.SMode) (p : F.SPad) (ks : List ℕ)
    (hm : F.parseMode mode = .ok m) (hp : F.parsePad pad = .ok p) (hl : ks.length = d) (h0 : ∀ k ∈ ks, 0 < k) :
    PointwiseSampler (d := d) (F.gridSample mode pad) ks (F.sampleAt m p ks) := by
  intro input grid N C hi hg
  unfold F.gridSample
  rw [hm, ok_bind, hp, ok_bind, hi, hg]
  dsimp only
  have hc : N = N ∧ ks.length = d ∧ ks.length = d ∧ (ks.all (fun x => decide (0 < x))) = true := by
    refine ⟨rfl, hl, hl, ?_⟩
    rw [List.all_eq_true]; intro x hx; simpa using h0 x hx
  rw [if_pos hc]
  exact ⟨_, rfl, rfl, fun n _ c _ o _ => rfl⟩

theorem taps_lt (mode : F.SMode) (s : ℕ) (u : ℝ) : ∀ q ∈ F.taps mode s u, q.1 < s := by
  intro q hq
  unfold F.taps at hq
  rw [List.mem_map] at hq
  obtain ⟨a, ha, rfl⟩ := hq
  rw [List.mem_filter] at ha
  have := ha.2
  simp only [decide_eq_true_eq] at this
  dsimp only
  omega

theorem sampleRec_local (mode : F.SMode) : ∀ (ks : List ℕ) (us : List ℝ), us.length = ks.length →
    ∀ f g : List ℕ → ℝ, (∀ r, InB ks r → f r = g r) → F.sampleRec mode ks us f = F.sampleRec mode ks us g := by
  intro ks
  induction ks with
  | nil =>
    intro us hu f g h
    have := h [] InB_nil_nil
    cases us <;> simpa [F.sampleRec] using this
  | cons s ss ih =>
    intro us hu f g h
    cases us with
    | nil => simp at hu
    | cons u us =>
      simp only [F.sampleRec]
      congr 1
      apply List.map_congr_left
      intro q hq
      rw [ih us (by simpa using hu) _ (fun r => g (q.1 :: r))]
      intro r hr
      exact h _ (by simp [taps_lt mode s u q hq, hr])

theorem sampleAt_local {d : ℕ} (m : F.SMode) (p : F.SPad) (ks : List ℕ) (hl : ks.length = d) :
    LocalCore (d := d) ks (F.sampleAt m p ks) := by
  intro f g v h
  unfold F.sampleAt
  exact sampleRec_local m ks _ (by simp [hl]) f g h

/-! ## group sampling -/

section
variable {G Q : Type}

theorem rbf_rowwise (dist : G → G → ℝ) (rbf : ℝ → ℝ → ℝ) (w : ℝ) (gridH : Tensor G) (K : ℕ)
    (hs : gridH.shape.headD 0 = K) (hdet : (Interp.rbfMatrix dist rbf w gridH).det ≠ 0) :
    RowwiseSampler (fun q sig g => Interp.interpolateRBF dist rbf w q g sig) gridH K (fun _ => True)
      (sampleOne (fun q sig g => Interp.interpolateRBF dist rbf w q g sig) gridH K) ∧
    LocalChannel K (sampleOne (fun q sig g => Interp.interpolateRBF dist rbf w q g sig) gridH K) := by
  have hneg : ∀ k : ℕ, k = K → ¬ (k ≠ gridH.shape.headD 0 ∨ (Interp.rbfMatrix dist rbf w gridH).det = 0) := by
    intro k hk; push Not; exact ⟨hk.trans hs.symm, hdet⟩
  constructor
  · intro q sig m S hq hsig _
    unfold sampleOne Interp.interpolateRBF
    dsimp only
    rw [if_neg (hneg _ (by rw [hsig]; rfl))]
    refine ⟨_, rfl, by rw [hq, hsig]; rfl, fun i _ c _ => ?_⟩
    rw [if_neg (hneg ([K, 1].headD 0) rfl)]
    rfl
  · intro f g q h
    unfold sampleOne Interp.interpolateRBF
    dsimp only
    rw [if_neg (hneg ([K, 1].headD 0) rfl), if_neg (hneg ([K, 1].headD 0) rfl)]
    dsimp only
    have : (fun i : Fin (gridH.shape.headD 0) => f (([(i : ℕ), [0, 0].getD 1 0] : List ℕ).getD 0 0)) =
        fun i : Fin (gridH.shape.headD 0) => g (([(i : ℕ), [0, 0].getD 1 0] : List ℕ).getD 0 0) := by
      funext i
      exact h _ (lt_of_lt_of_eq i.2 hs)
    rw [this]

theorem nn_rowwise (dist : G → G → ℝ) (gridH : Tensor G) (K : ℕ)
    (hs : gridH.shape.headD 0 = K) (hpos : 0 < K) :
    RowwiseSampler (fun q sig g => Interp.interpolateNN dist q g sig) gridH K (fun _ => True)
      (sampleOne (fun q sig g => Interp.interpolateNN dist q g sig) gridH K) ∧
    LocalChannel K (sampleOne (fun q sig g => Interp.interpolateNN dist q g sig) gridH K) := by
  have hne : ¬ gridH.shape.headD 0 = 0 := by omega
  constructor
  · intro q sig m S hq hsig _
    unfold sampleOne
    dsimp only
    rw [Interp.nn_ok dist _ _ _ (by rw [hsig, hs]; rfl) hne]
    refine ⟨_, rfl, by rw [hq, hsig]; rfl, fun i _ c _ => ?_⟩
    rw [Interp.nn_ok dist _ _ _ (by rw [hs]; rfl) hne]
    rfl
  · intro f g q h
    unfold sampleOne
    dsimp only
    rw [Interp.nn_ok dist _ _ _ (by rw [hs]; rfl) hne, Interp.nn_ok dist _ _ _ (by rw [hs]; rfl) hne]
    dsimp only
    apply h
    have := (Interp.topk1_spec (gridH.shape.headD 0)
      (fun j => dist q (gridH.get [j])) hne).1
    rw [← hs]
    exact this

/-- reading the queries and the reference grid through a map. -/
theorem rowwise_map (φ : G → Q) (samp : Tensor Q → Tensor ℝ → Tensor Q → Except PyErr (Tensor ℝ))
    (gridH : Tensor G) (K : ℕ)
    (h : RowwiseSampler samp (gridH.map φ) K (fun _ => True) (sampleOne samp (gridH.map φ) K) ∧
      LocalChannel K (sampleOne samp (gridH.map φ) K)) :
    RowwiseSampler (fun q sig g => samp (q.map φ) sig (g.map φ)) gridH K (fun _ => True)
      (sampleOne (fun q sig g => samp (q.map φ) sig (g.map φ)) gridH K) ∧
    LocalChannel K (sampleOne (fun q sig g => samp (q.map φ) sig (g.map φ)) gridH K) := by
  constructor
  · intro q sig m S hq hsig _
    exact h.1 (q.map φ) sig m S hq hsig (fun _ _ => trivial)
  · intro f g q hfg
    exact h.2 f g (φ q) hfg


/-- the value of the coset-wise sampler for one element: rotations read the first `nRot` stored values,
reflections the last `nRef`. -/
noncomputable def cosetCore (coef : G → ℝ) (rot : G → Q)
    (samp : ℝ → Tensor Q → Tensor ℝ → Tensor Q → Except PyErr (Tensor ℝ)) (gridH : Tensor G)
    (nRot nRef : ℕ) (wr wf : ℝ) (f : ℕ → ℝ) (q : G) : ℝ :=
  open Classical in
  if coef q = 1 then
    if nRot = 0 then 0 else sampleOne (samp wr) ((gridH.slice0 0 nRot).map rot) nRot f (rot q)
  else if nRef = 0 then 0 else sampleOne (samp wf) ((gridH.drop0 nRot).map rot) nRef (fun k => f (nRot + k)) (rot q)

theorem coset_rowwise {coef : G → ℝ} {rot : G → Q}
    {samp : ℝ → Tensor Q → Tensor ℝ → Tensor Q → Except PyErr (Tensor ℝ)} (hs : RowSampler samp)
    (gridH : Tensor G) (nRot nRef : ℕ) (wr wf : ℝ)
    (hR : nRot ≠ 0 → RowwiseSampler (samp wr) ((gridH.slice0 0 nRot).map rot) nRot (fun _ => True)
        (sampleOne (samp wr) ((gridH.slice0 0 nRot).map rot) nRot) ∧
      LocalChannel nRot (sampleOne (samp wr) ((gridH.slice0 0 nRot).map rot) nRot))
    (hF : nRef ≠ 0 → RowwiseSampler (samp wf) ((gridH.drop0 nRot).map rot) nRef (fun _ => True)
        (sampleOne (samp wf) ((gridH.drop0 nRot).map rot) nRef) ∧
      LocalChannel nRef (sampleOne (samp wf) ((gridH.drop0 nRot).map rot) nRef)) :
    RowwiseSampler (fun q sig g => cosetSample coef rot samp q sig g nRot nRef wr wf) gridH (nRot + nRef)
      (fun x => (coef x = 1 ∧ nRot ≠ 0) ∨ (coef x = -1 ∧ nRef ≠ 0))
      (cosetCore coef rot samp gridH nRot nRef wr wf) := by
  intro q sig m S hq hsig hgood
  have s1 : (sig.slice0 0 nRot).shape = [nRot, S] := by simp [slice0, hsig]
  have s2 : (sig.drop0 nRot).shape = [nRef, S] := by simp [drop0, slice0, hsig]
  obtain ⟨out, h1, h2, h3⟩ := (cosetSample_spec (coef := coef) (rot := rot) hs q m S nRot nRef sig gridH wr wf
    hq hsig (fun i hi => (hgood i hi).imp And.left And.left)
    (fun h => by
      intro q' m' hq'
      obtain ⟨o, ho, -⟩ := (hR h).1 q' _ m' S hq' s1 (fun _ _ => trivial)
      exact ⟨o, ho⟩)
    (fun h => by
      intro q' m' hq'
      obtain ⟨o, ho, -⟩ := (hF h).1 q' _ m' S hq' s2 (fun _ _ => trivial)
      exact ⟨o, ho⟩)).1
    ⟨fun h i hi hc => by
        rcases hgood i hi with h' | h'
        · exact h'.2 h
        · rw [hc] at h'; norm_num at h',
     fun h i hi hc => by
        rcases hgood i hi with h' | h'
        · rw [hc] at h'; norm_num at h'
        · exact h'.2 h⟩
  refine ⟨out, h1, h2, fun i hi c hc => ?_⟩
  unfold cosetCore
  rcases hgood i hi with hg | hg
  · obtain ⟨o1, e1, g1⟩ := (h3 i hi).1 hg.1
    obtain ⟨o, e, -, g⟩ := (hR hg.2).1 ⟨[1], fun _ => rot (q.get [i])⟩ _ 1 S rfl s1 (fun _ _ => trivial)
    rw [e1] at e; cases e
    rw [if_pos hg.1, if_neg hg.2, g1, g 0 (by norm_num) c hc]
    simp [slice0]
  · obtain ⟨o1, e1, g1⟩ := (h3 i hi).2 hg.1
    obtain ⟨o, e, -, g⟩ := (hF hg.2).1 ⟨[1], fun _ => rot (q.get [i])⟩ _ 1 S rfl s2 (fun _ _ => trivial)
    rw [e1] at e; cases e
    rw [if_neg (by rw [hg.1]; norm_num), if_neg hg.2, g1, g 0 (by norm_num) c hc]
    simp [slice0, drop0]

end

/-! ## the samplers of the four groups -/

/-- The group sampler works for this mode, width and reference grid of `K` elements: mode `"nearest"`
with a non-empty grid, or mode `"rbf"` with an invertible interpolation matrix. -/
def Solvable {G : Type} (dist : G → G → ℝ) (mode : String) (width : ℝ) (gridH : Tensor G) (K : ℕ) : Prop :=
  gridH.shape.headD 0 = K ∧ ((mode = "nearest" ∧ 0 < K) ∨
    (mode = "rbf" ∧ (Interp.rbfMatrix dist Interp.RBFgauss width gridH).det ≠ 0))

namespace SO2

/-- the distance used by `so2.grid_sample`. -/
noncomputable def dist (a b : ℝ) : ℝ := geodesicDistance a b defaultEps

theorem rowwise (mode : String) (width : ℝ) (gridH : Tensor ℝ) (K : ℕ)
    (h : Solvable dist mode width gridH K) :
    RowwiseSampler (fun q sig g => gridSample q sig g mode width) gridH K (fun _ => True)
      (sampleOne (fun q sig g => gridSample q sig g mode width) gridH K) ∧
    LocalChannel K (sampleOne (fun q sig g => gridSample q sig g mode width) gridH K) := by
  obtain ⟨h1, ⟨rfl, h2⟩ | ⟨rfl, h2⟩⟩ := h
  · have : (fun q sig g => gridSample q sig g "nearest" width) =
        fun q sig g => Interp.interpolateNN dist q g sig := by
      funext q sig g; unfold gridSample; rw [if_neg (by decide), if_pos rfl]; rfl
    rw [this]; exact nn_rowwise _ gridH K h1 h2
  · have : (fun q sig g => gridSample q sig g "rbf" width) =
        fun q sig g => Interp.interpolateRBF dist Interp.RBFgauss width q g sig := by
      funext q sig g; unfold gridSample; rw [if_pos rfl]; rfl
    rw [this]; exact rbf_rowwise _ _ _ gridH K h1 h2

end SO2

namespace SO3

/-- the distance used by `so3.grid_sample` on quaternions. -/
noncomputable def dist (a b : Quat) : ℝ := geodesicDistance a b defaultEps

theorem rowwiseQuat (mode : String) (width : ℝ) (gridH : Tensor Quat) (K : ℕ)
    (h : Solvable dist mode width gridH K) :
    RowwiseSampler (fun q sig g => gridSampleQuat q sig g mode width) gridH K (fun _ => True)
      (sampleOne (fun q sig g => gridSampleQuat q sig g mode width) gridH K) ∧
    LocalChannel K (sampleOne (fun q sig g => gridSampleQuat q sig g mode width) gridH K) := by
  obtain ⟨h1, ⟨rfl, h2⟩ | ⟨rfl, h2⟩⟩ := h
  · have : (fun q sig g => gridSampleQuat q sig g "nearest" width) =
        fun q sig g => Interp.interpolateNN dist q g sig := by
      funext q sig g; unfold gridSampleQuat; rw [if_pos rfl]; rfl
    rw [this]; exact nn_rowwise _ gridH K h1 h2
  · have : (fun q sig g => gridSampleQuat q sig g "rbf" width) =
        fun q sig g => Interp.interpolateRBF dist Interp.RBFgauss width q g sig := by
      funext q sig g; unfold gridSampleQuat; rw [if_neg (by decide), if_pos rfl]; rfl
    rw [this]; exact rbf_rowwise _ _ _ gridH K h1 h2

theorem rowwise (mode : String) (width : ℝ) (gridH : Tensor Mat3) (K : ℕ)
    (h : Solvable dist mode width (gridH.map matrixToQuat) K) :
    RowwiseSampler (fun q sig g => gridSample q sig g mode width) gridH K (fun _ => True)
      (sampleOne (fun q sig g => gridSample q sig g mode width) gridH K) ∧
    LocalChannel K (sampleOne (fun q sig g => gridSample q sig g mode width) gridH K) :=
  rowwise_map matrixToQuat (fun q sig g => gridSampleQuat q sig g mode width) gridH K
    (rowwiseQuat mode width _ K h)

end SO3

theorem cosetCore_local {G Q : Type} {coef : G → ℝ} {rot : G → Q}
    {samp : ℝ → Tensor Q → Tensor ℝ → Tensor Q → Except PyErr (Tensor ℝ)}
    (gridH : Tensor G) (nRot nRef : ℕ) (wr wf : ℝ)
    (hR : nRot ≠ 0 → LocalChannel nRot (sampleOne (samp wr) ((gridH.slice0 0 nRot).map rot) nRot))
    (hF : nRef ≠ 0 → LocalChannel nRef (sampleOne (samp wf) ((gridH.drop0 nRot).map rot) nRef)) :
    LocalChannel (nRot + nRef) (cosetCore coef rot samp gridH nRot nRef wr wf) := by
  intro f g q h
  unfold cosetCore
  by_cases hc : coef q = 1
  · rw [if_pos hc, if_pos hc]
    by_cases h0 : nRot = 0
    · rw [if_pos h0, if_pos h0]
    · rw [if_neg h0, if_neg h0]; exact hR h0 _ _ _ (fun k hk => h k (by omega))
  · rw [if_neg hc, if_neg hc]
    by_cases h0 : nRef = 0
    · rw [if_pos h0, if_pos h0]
    · rw [if_neg h0, if_neg h0]; exact hF h0 _ _ _ (fun k hk => h _ (by omega))

end GConv

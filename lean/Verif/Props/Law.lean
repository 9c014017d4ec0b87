import Verif.Spec.Law
import Verif.Props.Network
import Verif.Props.Random

/-! # C93: with randomly moved grids, networks are equivariant and invariant in distribution, for every grid -/

namespace GConv.Net

open Tensor Spec Conv GroupKernel F MeasureTheory Random

theorem movedLaw_of {Ω R : Type} [MeasurableSpace Ω] {P : Measure Ω} {f f' : Ω → Except PyErr R} {moved : R → R → Prop} {T T' : Ω → Ω}
    (hT : MeasurePreserving T P P) (hT' : MeasurePreserving T' P P)
    (h : ∀ᵐ ω ∂P, ∃ r r', f ω = .ok r ∧ f' (T ω) = .ok r' ∧ moved r r')
    (h' : ∀ᵐ ω ∂P, ∃ r r', f (T' ω) = .ok r ∧ f' ω = .ok r' ∧ moved r r') : MovedLaw P f f' moved := by
  have ok_inj : ∀ {a b : R}, (Except.ok a : Except PyErr R) = .ok b → a = b := fun e => by cases e; rfl
  refine ⟨?_, ?_, fun A A' hA => le_antisymm ?_ ?_⟩
  · filter_upwards [h] with ω ⟨r, r', e, _⟩; exact ⟨r, e⟩
  · filter_upwards [h'] with ω ⟨r, r', _, e, _⟩; exact ⟨r', e⟩
  · calc P {ω | ∃ r ∈ A, f ω = .ok r} ≤ P (T ⁻¹' {ω | ∃ r ∈ A', f' ω = .ok r}) := by
          refine measure_mono_ae ?_
          filter_upwards [h] with ω ⟨r, r', e, e', hm⟩ hω
          obtain ⟨r₀, hr, e₀⟩ := hω
          rw [e] at e₀
          obtain rfl := ok_inj e₀
          exact ⟨r', (hA _ _ hm).1 hr, e'⟩
      _ ≤ (P.map T) {ω | ∃ r ∈ A', f' ω = .ok r} := Measure.le_map_apply hT.measurable.aemeasurable _
      _ = _ := by rw [hT.map_eq]
  · calc P {ω | ∃ r ∈ A', f' ω = .ok r} ≤ P (T' ⁻¹' {ω | ∃ r ∈ A, f ω = .ok r}) := by
          refine measure_mono_ae ?_
          filter_upwards [h'] with ω ⟨r, r', e, e', hm⟩ hω
          obtain ⟨r₀, hr, e₀⟩ := hω
          rw [e'] at e₀
          obtain rfl := ok_inj e₀
          exact ⟨r, (hA _ _ hm).2 hr, e⟩
      _ ≤ (P.map T') {ω | ∃ r ∈ A, f ω = .ok r} := Measure.le_map_apply hT'.measurable.aemeasurable _
      _ = _ := by rw [hT'.map_eq]

theorem forall_pi {Ω : Type} [MeasurableSpace Ω] {P : Measure Ω} [IsProbabilityMeasure P] (n : ℕ) {p : Ω → Prop} (h : ∀ᵐ u ∂P, p u) :
    ∀ᵐ w ∂(Measure.pi fun _ : Fin n => P), ∀ i, p (w i) :=
  Filter.eventually_all.2 fun i => (Measure.quasiMeasurePreserving_eval (fun _ : Fin n => P) i).ae h

theorem forall₂_ofFn {α : Type} {R : α → α → Prop} {n : ℕ} {f f' : Fin n → α} (h : ∀ i, R (f i) (f' i)) :
    List.Forall₂ R (List.ofFn f) (List.ofFn f') := by
  rw [List.forall₂_iff_get]
  refine ⟨by simp, fun i h1 h2 => ?_⟩
  simpa using h ⟨i, by simpa using h1⟩

section
variable {G Ω : Type} {d : ℕ} [MeasurableSpace Ω] {P : Measure Ω} [IsProbabilityMeasure P]

/-- the first layer with draw `w.1`, the others with the draws `w.2`. -/
theorem network_law {move : Ω → G → G} (hd : 0 < d) {e : Equiv.Perm (Fin d)} {σ : LatticeSym d} {left : G → G} {Good : G → Prop} {N : ℕ}
    {Conv : Block G d → Block G d → Sizes → Sizes → Prop} (hConv : ∀ {b b' s t}, Conv b b' s t → Preserves e σ left Good N b b' s t)
    {bs : List (Block G d)} {s t : Sizes} (hs : LatticeSym.Matches e σ s.before s.after) {Compat : Ω → Ω → Prop}
    (hchain : ∀ us us', us.length = bs.length → List.Forall₂ Compat us us' → Chain N Conv (drawn move bs us) (drawn move bs us') s t)
    {C C' : Ω → Ω} (hC : MeasurePreserving C P P) (hC' : MeasurePreserving C' P P)
    (kC : ∀ᵐ u ∂P, Compat u (C u)) (kC' : ∀ᵐ u ∂P, Compat (C' u) u)
    {first first' : Ω → Except PyErr (Tensor ℝ × Tensor G)} {T T' : Ω → Ω} (hT : MeasurePreserving T P P) (hT' : MeasurePreserving T' P P)
    (kT : ∀ᵐ u ∂P, ∃ y H y' H', first u = .ok (y, H) ∧ first' (T u) = .ok (y', H') ∧
      MovedFeature e σ left Good N s.channels s.elements s.before s.after y H y' H')
    (kT' : ∀ᵐ u ∂P, ∃ y H y' H', first (T' u) = .ok (y, H) ∧ first' u = .ok (y', H') ∧
      MovedFeature e σ left Good N s.channels s.elements s.before s.after y H y' H')
    {R : Type} (post : Tensor ℝ × Tensor G → Except PyErr R) (moved : R → R → Prop)
    (hpost : ∀ y H y' H', MovedFeature e σ left Good N t.channels t.elements t.before t.after y H y' H' →
      LatticeSym.Matches e σ t.before t.after → ∃ z z', post (y, H) = .ok z ∧ post (y', H') = .ok z' ∧ moved z z') :
    MovedLaw (P.prod (Measure.pi fun _ : Fin bs.length => P))
      (fun w => first w.1 >>= run (drawn move bs (List.ofFn w.2)) >>= post)
      (fun w => first' w.1 >>= run (drawn move bs (List.ofFn w.2)) >>= post) moved := by
  have hp : ∀ {C : Ω → Ω}, MeasurePreserving C P P → MeasurePreserving (fun (w : Fin bs.length → Ω) i => C (w i))
      (Measure.pi fun _ => P) (Measure.pi fun _ => P) := fun h => measurePreserving_pi _ _ fun _ => h
  have key : ∀ {first first' : Except PyErr (Tensor ℝ × Tensor G)} {v v' : Fin bs.length → Ω},
      (∃ y H y' H', first = .ok (y, H) ∧ first' = .ok (y', H') ∧
        MovedFeature e σ left Good N s.channels s.elements s.before s.after y H y' H') → (∀ i, Compat (v i) (v' i)) →
      ∃ r r', (first >>= run (drawn move bs (List.ofFn v)) >>= post) = .ok r ∧
        (first' >>= run (drawn move bs (List.ofFn v')) >>= post) = .ok r' ∧ moved r r' := by
    rintro _ _ v v' ⟨y, H, y', H', rfl, rfl, hm⟩ hv
    obtain ⟨z, K, z', K', e1, e2, e3, e4⟩ := chain_preserves hd hConv
      (hchain _ _ (by simp) (forall₂_ofFn hv)) hm hs
    obtain ⟨r, r', p1, p2, p3⟩ := hpost _ _ _ _ e3 e4
    exact ⟨r, r', by rw [ok_bind, e1, ok_bind, p1], by rw [ok_bind, e2, ok_bind, p2], p3⟩
  refine movedLaw_of (hT.prod (hp hC)) (hT'.prod (hp hC')) ?_ ?_
  · have a1 : ∀ᵐ w ∂(P.prod (Measure.pi fun _ : Fin bs.length => P)), ∃ y H y' H', first w.1 = .ok (y, H) ∧ first' (T w.1) = .ok (y', H') ∧
        MovedFeature e σ left Good N s.channels s.elements s.before s.after y H y' H' := Measure.quasiMeasurePreserving_fst.ae kT
    have a2 : ∀ᵐ w ∂(P.prod (Measure.pi fun _ : Fin bs.length => P)), ∀ i, Compat (w.2 i) (C (w.2 i)) :=
      Measure.quasiMeasurePreserving_snd.ae (forall_pi _ kC)
    filter_upwards [a1, a2] with w h1 h2
    exact key h1 h2
  · have a1 : ∀ᵐ w ∂(P.prod (Measure.pi fun _ : Fin bs.length => P)), ∃ y H y' H', first (T' w.1) = .ok (y, H) ∧ first' w.1 = .ok (y', H') ∧
        MovedFeature e σ left Good N s.channels s.elements s.before s.after y H y' H' := Measure.quasiMeasurePreserving_fst.ae kT'
    have a2 : ∀ᵐ w ∂(P.prod (Measure.pi fun _ : Fin bs.length => P)), ∀ i, Compat (C' (w.2 i)) (w.2 i) :=
      Measure.quasiMeasurePreserving_snd.ae (forall_pi _ kC')
    filter_upwards [a1, a2] with w h1 h2
    exact key h1 h2

/-- `GAvgGlobalPool` of a feature map, as a tensor. -/
theorem avg_post {e : Equiv.Perm (Fin d)} {σ : LatticeSym d} {left : G → G} {Good : G → Prop} {N : ℕ} {t : Sizes}
    (ht : 0 < (t.elements :: t.before).prod) (y H y' H')
    (h : MovedFeature e σ left Good N t.channels t.elements t.before t.after y H y' H') (hm : LatticeSym.Matches e σ t.before t.after) :
    ∃ z z', avgPooled (y, H) = .ok z ∧ avgPooled (y', H') = .ok z' ∧ SamePooled N t.channels z z' := by
  obtain ⟨⟨u, u', a1, a2, a3⟩, -⟩ := pool_feature h hm ht
  refine ⟨u, u', ?_, ?_, a3⟩
  · unfold avgPooled; rw [a1]; rfl
  · unfold avgPooled; rw [a2]; rfl

/-- `GMaxGlobalPool`, the maxima. -/
theorem max_post {e : Equiv.Perm (Fin d)} {σ : LatticeSym d} {left : G → G} {Good : G → Prop} {N : ℕ} {t : Sizes}
    (ht : 0 < (t.elements :: t.before).prod) (y H y' H')
    (h : MovedFeature e σ left Good N t.channels t.elements t.before t.after y H y' H') (hm : LatticeSym.Matches e σ t.before t.after) :
    ∃ z z', maxPooled (y, H) = .ok z ∧ maxPooled (y', H') = .ok z' ∧ SamePooled N t.channels z z' := by
  obtain ⟨-, v, i, v', i', a1, a2, a3⟩ := pool_feature h hm ht
  refine ⟨v, v', ?_, ?_, a3⟩
  · unfold maxPooled; rw [a1]; rfl
  · unfold maxPooled; rw [a2]; rfl

theorem map_id (H : Tensor G) : H.map id = H := rfl

theorem movedGrid_drawn {left move move' : G → G} {Good : G → Prop} {n : ℕ} {H : Tensor G} (hH : H.shape = [n]) (hg : ∀ i < n, Good (H.get [i]))
    (h : ∀ x, Good x → move' x = left (move x)) : MovedGrid left (Equiv.refl (Fin n)) (H.map move) (H.map move') :=
  ⟨hH, hH, fun k => h _ (hg k k.2)⟩

end

/-! ## SE2 -/

/-- left multiplication by a fixed angle is a measure preserving map of the draw. -/
theorem couple_SE2 (g : ℝ) : ∃ T T' : ℝ → ℝ, MeasurePreserving T uniform01 uniform01 ∧ MeasurePreserving T' uniform01 uniform01 ∧
    (∀ u h, moveSE2 (T u) h = SO2.leftApplyAngle g (moveSE2 u h)) ∧ ∀ u h, moveSE2 u h = SO2.leftApplyAngle g (moveSE2 (T' u) h) := by
  have key : ∀ (g u h : ℝ), moveSE2 (Int.fract (u + g / (2 * Real.pi))) h = SO2.leftApplyAngle g (moveSE2 u h) := by
    intro g u h
    rw [moveSE2_eq, moveSE2_eq, ← SO2.leftApplyAngle_fract, SO2.C02_assoc]
  refine ⟨_, _, uniform_shift (g / (2 * Real.pi)), uniform_shift (-g / (2 * Real.pi)), fun u h => key g u h, fun u h => ?_⟩
  rw [key (-g) u h, moveSE2_eq]
  unfold SO2.leftApplyAngle
  refine (pyMod_eq_iff two_pi_pos').2 (EqMod.symm ?_)
  refine ((EqMod.refl (2 * Real.pi) g).add ((pyMod_eqMod _ _).trans ((EqMod.refl (2 * Real.pi) (-g)).add (pyMod_eqMod _ _)))).trans ?_
  rw [show g + (-g + (2 * Real.pi * u + h)) = 2 * Real.pi * u + h by ring]
  exact EqMod.refl _ _

/-- drawing commutes with left multiplication, the plane rotations commute. -/
def CompatSE2 (g : ℝ) (u u' : ℝ) : Prop := ∀ h, moveSE2 u' (SO2.leftApplyAngle g h) = SO2.leftApplyAngle g (moveSE2 u h)

theorem compat_SE2 (g : ℝ) : ∃ C C' : ℝ → ℝ, MeasurePreserving C uniform01 uniform01 ∧ MeasurePreserving C' uniform01 uniform01 ∧
    (∀ᵐ u ∂uniform01, CompatSE2 g u (C u)) ∧ ∀ᵐ u ∂uniform01, CompatSE2 g (C' u) u :=
  ⟨id, id, MeasurePreserving.id _, MeasurePreserving.id _, Filter.Eventually.of_forall fun u h => C75_draw_SE2 g _ h,
    Filter.Eventually.of_forall fun u h => C75_draw_SE2 g _ h⟩

/-- the convolutions accept their inputs whatever is drawn. -/
theorem chain_drawn_SE2 {g : ℝ} {σ : LatticeSym 2} {N : ℕ} : ∀ {bs : List (Block ℝ 2)} {u v : Sizes},
    Chain N (ConvSE2 g σ) (bs.map (Block.draw id)) (bs.map (Block.draw id)) u v →
    ∀ us us' : List ℝ, us.length = bs.length → List.Forall₂ (CompatSE2 g) us us' →
      Chain N (ConvSE2 g σ) (drawn moveSE2 bs us) (drawn moveSE2 bs us') u v := by
  intro bs
  induction bs with
  | nil =>
    intro u v h us us' hl hus
    cases us with
    | nil => cases hus; exact h
    | cons => cases hl
  | cons b bs ih =>
    intro u v h us us' hl hus
    cases hus with
    | nil => cases hl
    | @cons x x' us us' hu hus =>
    have hl' : us.length = bs.length := by simpa using hl
    replace ih := fun {u v : Sizes} (hl : us.length = bs.length) hus h => ih (u := u) (v := v) h us us' hl hus
    cases b with
    | act a =>
      cases h with
      | act _ ha h => exact .act a ha (ih hl' hus h)
      | conv hb h => cases hb
    | batch a tr r =>
      cases h with
      | batch _ _ _ hC h1 h => exact .batch a tr r hC h1 (ih hl' hus h)
      | conv hb h => cases hb
    | inst a tr r =>
      cases h with
      | inst _ _ _ hC h1 h => exact .inst a tr r hC h1 (ih hl' hus h)
      | conv hb h => cases hb
    | groupE => cases h with | conv hb h => cases hb
    | separableE => cases h with | conv hb h => cases hb
    | groupSE M move weight bias =>
      cases h with
      | conv hb h =>
      cases hb with
      | group k c hk hm wd hr hM hgeo hS hsym weight hw bias hb move move' hdraw =>
        refine .conv (.group k c hk hm wd hr hM hgeo hS hsym weight hw bias hb _ _ fun _ => hu) (ih hl' hus h)
    | separableSE M move weightH weight bias =>
      cases h with
      | conv hb h =>
      cases hb with
      | separable k c hk hm wd hr hM hgeo hg₁ hsym₁ hS₁ hS₁' hS hsym hC weightH weight hwH hw bias hb hn move move' hdraw =>
        refine .conv (.separable k c hk hm wd hr hM hgeo hg₁ hsym₁ hS₁ hS₁' hS hsym hC weightH weight hwH hw bias hb hn _ _ fun _ => hu) (ih hl' hus h)

/-- the lifting convolution with a draw and with the partner draw. -/
theorem lift_law_SE2 (k : KernelArgs ℝ ℕ) (c : ConvOpts) (hk : 2 ≤ k.kernelSize) {m p}
    (hm : SpatialModes k.spatialMode k.spatialPad m p)
    {M : Module ℝ 2} (hM : liftingSE2 k c = .ok M) {mode : F.CPad} {ax : List Axis}
    (hgeo : HasGeometry (argsSE2 k c) mode ax)
    (g : ℝ) {σ : LatticeSym 2} {S' S : List ℕ} (hσ : LatticeSym.Matches LatticeSym.ax2 σ S' S)
    (hS : GeomOk mode ax S) (hsym : SymmetricGeometry 2 ax S) (hg : SO2.angleToMatrix g = σ.matrix) (hpos : 0 < k.inC)
    (weight : Tensor ℝ) (hw : weight.shape = [k.outC, k.inC / k.groups, k.kernelSize, k.kernelSize])
    (bias : Option (Tensor ℝ)) (hb : BiasShape bias k.outC 2) (N n : ℕ) (x x' : Tensor ℝ) (H : Option (Tensor ℝ))
    (hH : (H.getD M.kernel.gridH).shape = [n]) 
    (hclosed : c.permute = false → ClosedGrid (SO2.leftApplyAngle g) n (H.getD M.kernel.gridH))
    (hx : MovedTensor LatticeSym.ax2 σ [N, k.inC] S' S x x') :
    ∃ T T' : ℝ → ℝ, MeasurePreserving T uniform01 uniform01 ∧ MeasurePreserving T' uniform01 uniform01 ∧
      (∀ᵐ u ∂uniform01, ∃ y Hy y' Hy', M.lift (moveSE2 u) weight bias x H = .ok (y, Hy) ∧ M.lift (moveSE2 (T u)) weight bias x' H = .ok (y', Hy') ∧
        MovedFeature LatticeSym.ax2 σ (SO2.leftApplyAngle g) (fun _ => True) N k.outC n (outDims ax S') (outDims ax S) y Hy y' Hy') ∧
      ∀ᵐ u ∂uniform01, ∃ y Hy y' Hy', M.lift (moveSE2 (T' u)) weight bias x H = .ok (y, Hy) ∧ M.lift (moveSE2 u) weight bias x' H = .ok (y', Hy') ∧
        MovedFeature LatticeSym.ax2 σ (SO2.leftApplyAngle g) (fun _ => True) N k.outC n (outDims ax S') (outDims ax S) y Hy y' Hy' := by
  have key : ∀ u u', (c.permute = true → ∀ h, moveSE2 u' h = (SO2.leftApplyAngle g) (moveSE2 u h)) → ∃ y Hy y' Hy', M.lift (moveSE2 u) weight bias x H = .ok (y, Hy) ∧
      M.lift (moveSE2 u') weight bias x' H = .ok (y', Hy') ∧ MovedFeature LatticeSym.ax2 σ (SO2.leftApplyAngle g) (fun _ => True) N k.outC n (outDims ax S') (outDims ax S) y Hy y' Hy' := by
    intro u u' hu
    by_cases hc : c.permute = true
    · obtain ⟨y, y', a1, a2, a3⟩ := liftSE2_feature k c hk hm hM hgeo g hσ hS hsym hg hpos weight hw bias hb N n x x' H H (moveSE2 u) (moveSE2 u')
        _ _ rfl rfl (π := Equiv.refl _) (by
          rw [if_pos hc, if_pos hc]
          exact movedGrid_drawn (Good := fun _ => True) hH (fun _ _ => trivial) fun x _ => hu hc x) hx
      exact ⟨y, _, y', _, a1, a2, a3⟩
    · obtain ⟨π, hπ⟩ := hclosed (by simpa using hc)
      obtain ⟨y, y', a1, a2, a3⟩ := liftSE2_feature k c hk hm hM hgeo g hσ hS hsym hg hpos weight hw bias hb N n x x' H H (moveSE2 u) (moveSE2 u')
        _ _ rfl rfl (π := π) (by rw [if_neg hc, if_neg hc]; exact hπ) hx
      exact ⟨y, _, y', _, a1, a2, a3⟩
  obtain ⟨T, T', hT, hT', e, e'⟩ := couple_SE2 g
  exact ⟨T, T', hT, hT', Filter.Eventually.of_forall fun u => key _ _ fun _ => e u, Filter.Eventually.of_forall fun u => key _ _ fun _ => e' u⟩

/-- A lifting convolution (moved grid: any grid; otherwise a grid closed under the rotation) followed by any chain of layers, each with its own
independent draw: for the turned image the result is distributed like the turned result. -/
theorem C93_SE2 (k : KernelArgs ℝ ℕ) (c : ConvOpts) (hk : 2 ≤ k.kernelSize) {m p}
    (hm : SpatialModes k.spatialMode k.spatialPad m p)
    {M : Module ℝ 2} (hM : liftingSE2 k c = .ok M) {mode : F.CPad} {ax : List Axis}
    (hgeo : HasGeometry (argsSE2 k c) mode ax)
    (g : ℝ) {σ : LatticeSym 2} {S' S : List ℕ} (hσ : LatticeSym.Matches LatticeSym.ax2 σ S' S)
    (hS : GeomOk mode ax S) (hsym : SymmetricGeometry 2 ax S) (hg : SO2.angleToMatrix g = σ.matrix) (hpos : 0 < k.inC)
    (weight : Tensor ℝ) (hw : weight.shape = [k.outC, k.inC / k.groups, k.kernelSize, k.kernelSize])
    (bias : Option (Tensor ℝ)) (hb : BiasShape bias k.outC 2) (N n : ℕ) (x x' : Tensor ℝ) (H : Option (Tensor ℝ))
    (hH : (H.getD M.kernel.gridH).shape = [n]) 
    (hclosed : c.permute = false → ClosedGrid (SO2.leftApplyAngle g) n (H.getD M.kernel.gridH))
    (hx : MovedTensor LatticeSym.ax2 σ [N, k.inC] S' S x x')
    {bs : List (Block ℝ 2)} {t : Sizes}
    (hchain : Chain N (ConvSE2 g σ) (bs.map (Block.draw id)) (bs.map (Block.draw id)) ⟨k.outC, n, outDims ax S', outDims ax S⟩ t) :
    MovedLaw (uniform01.prod (Measure.pi fun _ : Fin bs.length => uniform01))
      (fun w => M.lift (moveSE2 w.1) weight bias x H >>= run (drawn moveSE2 bs (List.ofFn w.2)))
      (fun w => M.lift (moveSE2 w.1) weight bias x' H >>= run (drawn moveSE2 bs (List.ofFn w.2)))
      (fun r r' => MovedFeature LatticeSym.ax2 σ (SO2.leftApplyAngle g) (fun _ => True) N t.channels t.elements t.before t.after r.1 r.2 r'.1 r'.2) := by
  obtain ⟨T, T', hT, hT', kT, kT'⟩ := lift_law_SE2 k c hk hm hM hgeo g hσ hS hsym hg hpos weight hw bias hb N n x x' H hH hclosed hx
  obtain ⟨C, C', hC, hC', kC, kC'⟩ := compat_SE2 g
  have := network_law (by norm_num) (fun h => convSE2_preserves hg N h) (s := ⟨k.outC, n, outDims ax S', outDims ax S⟩) (matches_sym hσ hsym)
    (chain_drawn_SE2 hchain) hC hC' kC kC' hT hT' (first := fun u => M.lift (moveSE2 u) weight bias x H)
    (first' := fun u => M.lift (moveSE2 u) weight bias x' H) kT kT' (fun r => pure r) (fun r r' => MovedFeature LatticeSym.ax2 σ (SO2.leftApplyAngle g) (fun _ => True) N t.channels t.elements t.before t.after r.1 r.2 r'.1 r'.2)
    (fun y H y' H' h _ => ⟨(y, H), (y', H'), rfl, rfl, h⟩)
  simpa only [bind_pure] using this

/-- With `GAvgGlobalPool` at the end the turned image gets the same distribution of results. -/
theorem C93_SE2_avg (k : KernelArgs ℝ ℕ) (c : ConvOpts) (hk : 2 ≤ k.kernelSize) {m p}
    (hm : SpatialModes k.spatialMode k.spatialPad m p)
    {M : Module ℝ 2} (hM : liftingSE2 k c = .ok M) {mode : F.CPad} {ax : List Axis}
    (hgeo : HasGeometry (argsSE2 k c) mode ax)
    (g : ℝ) {σ : LatticeSym 2} {S' S : List ℕ} (hσ : LatticeSym.Matches LatticeSym.ax2 σ S' S)
    (hS : GeomOk mode ax S) (hsym : SymmetricGeometry 2 ax S) (hg : SO2.angleToMatrix g = σ.matrix) (hpos : 0 < k.inC)
    (weight : Tensor ℝ) (hw : weight.shape = [k.outC, k.inC / k.groups, k.kernelSize, k.kernelSize])
    (bias : Option (Tensor ℝ)) (hb : BiasShape bias k.outC 2) (N n : ℕ) (x x' : Tensor ℝ) (H : Option (Tensor ℝ))
    (hH : (H.getD M.kernel.gridH).shape = [n]) 
    (hclosed : c.permute = false → ClosedGrid (SO2.leftApplyAngle g) n (H.getD M.kernel.gridH))
    (hx : MovedTensor LatticeSym.ax2 σ [N, k.inC] S' S x x')
    {bs : List (Block ℝ 2)} {t : Sizes}
    (hchain : Chain N (ConvSE2 g σ) (bs.map (Block.draw id)) (bs.map (Block.draw id)) ⟨k.outC, n, outDims ax S', outDims ax S⟩ t)
    (ht : 0 < (t.elements :: t.before).prod) :
    MovedLaw (uniform01.prod (Measure.pi fun _ : Fin bs.length => uniform01))
      (fun w => M.lift (moveSE2 w.1) weight bias x H >>= run (drawn moveSE2 bs (List.ofFn w.2)) >>= avgPooled)
      (fun w => M.lift (moveSE2 w.1) weight bias x' H >>= run (drawn moveSE2 bs (List.ofFn w.2)) >>= avgPooled)
      (SamePooled N t.channels) := by
  obtain ⟨T, T', hT, hT', kT, kT'⟩ := lift_law_SE2 k c hk hm hM hgeo g hσ hS hsym hg hpos weight hw bias hb N n x x' H hH hclosed hx
  obtain ⟨C, C', hC, hC', kC, kC'⟩ := compat_SE2 g
  have := network_law (by norm_num) (fun h => convSE2_preserves hg N h) (s := ⟨k.outC, n, outDims ax S', outDims ax S⟩) (matches_sym hσ hsym)
    (chain_drawn_SE2 hchain) hC hC' kC kC' hT hT' (first := fun u => M.lift (moveSE2 u) weight bias x H)
    (first' := fun u => M.lift (moveSE2 u) weight bias x' H) kT kT' avgPooled (SamePooled N t.channels) (avg_post ht)
  exact this

/-- With `GMaxGlobalPool` at the end likewise. -/
theorem C93_SE2_max (k : KernelArgs ℝ ℕ) (c : ConvOpts) (hk : 2 ≤ k.kernelSize) {m p}
    (hm : SpatialModes k.spatialMode k.spatialPad m p)
    {M : Module ℝ 2} (hM : liftingSE2 k c = .ok M) {mode : F.CPad} {ax : List Axis}
    (hgeo : HasGeometry (argsSE2 k c) mode ax)
    (g : ℝ) {σ : LatticeSym 2} {S' S : List ℕ} (hσ : LatticeSym.Matches LatticeSym.ax2 σ S' S)
    (hS : GeomOk mode ax S) (hsym : SymmetricGeometry 2 ax S) (hg : SO2.angleToMatrix g = σ.matrix) (hpos : 0 < k.inC)
    (weight : Tensor ℝ) (hw : weight.shape = [k.outC, k.inC / k.groups, k.kernelSize, k.kernelSize])
    (bias : Option (Tensor ℝ)) (hb : BiasShape bias k.outC 2) (N n : ℕ) (x x' : Tensor ℝ) (H : Option (Tensor ℝ))
    (hH : (H.getD M.kernel.gridH).shape = [n]) 
    (hclosed : c.permute = false → ClosedGrid (SO2.leftApplyAngle g) n (H.getD M.kernel.gridH))
    (hx : MovedTensor LatticeSym.ax2 σ [N, k.inC] S' S x x')
    {bs : List (Block ℝ 2)} {t : Sizes}
    (hchain : Chain N (ConvSE2 g σ) (bs.map (Block.draw id)) (bs.map (Block.draw id)) ⟨k.outC, n, outDims ax S', outDims ax S⟩ t)
    (ht : 0 < (t.elements :: t.before).prod) :
    MovedLaw (uniform01.prod (Measure.pi fun _ : Fin bs.length => uniform01))
      (fun w => M.lift (moveSE2 w.1) weight bias x H >>= run (drawn moveSE2 bs (List.ofFn w.2)) >>= maxPooled)
      (fun w => M.lift (moveSE2 w.1) weight bias x' H >>= run (drawn moveSE2 bs (List.ofFn w.2)) >>= maxPooled)
      (SamePooled N t.channels) := by
  obtain ⟨T, T', hT, hT', kT, kT'⟩ := lift_law_SE2 k c hk hm hM hgeo g hσ hS hsym hg hpos weight hw bias hb N n x x' H hH hclosed hx
  obtain ⟨C, C', hC, hC', kC, kC'⟩ := compat_SE2 g
  have := network_law (by norm_num) (fun h => convSE2_preserves hg N h) (s := ⟨k.outC, n, outDims ax S', outDims ax S⟩) (matches_sym hσ hsym)
    (chain_drawn_SE2 hchain) hC hC' kC kC' hT hT' (first := fun u => M.lift (moveSE2 u) weight bias x H)
    (first' := fun u => M.lift (moveSE2 u) weight bias x' H) kT kT' maxPooled (SamePooled N t.channels) (max_post ht)
  exact this

/-! ## SE3 -/

/-- left multiplication by a fixed rotation is a measure preserving map of the draw. -/
theorem couple_SE3 (g : SO3.Mat3) (hg : IsRotation g) : ∃ T T' : SO3.Quat → SO3.Quat, MeasurePreserving T (normal 4) (normal 4) ∧
    MeasurePreserving T' (normal 4) (normal 4) ∧ (∀ u h, moveSE3 (T u) h = SO3.leftApplyMatrix g (moveSE3 u h)) ∧
    ∀ u h, moveSE3 u h = SO3.leftApplyMatrix g (moveSE3 (T' u) h) := by
  obtain ⟨T, hT, e⟩ := SO3.exists_move g hg
  obtain ⟨T', hT', e'⟩ := SO3.exists_move g.transpose (SO3.C27_closed _ _ hg hg).2
  refine ⟨T, T', hT, hT', fun u h => ?_, fun u h => ?_⟩
  · rw [moveSE3_eq, moveSE3_eq, ← e]; exact Matrix.mul_assoc _ _ _
  · rw [moveSE3_eq, moveSE3_eq, ← e']
    unfold SO3.leftApplyMatrix
    rw [Matrix.mul_assoc g.transpose, ← Matrix.mul_assoc g, mul_eq_one_comm.1 hg.1, Matrix.one_mul]

/-- the second draw is the conjugated one. -/
def CompatSE3 (σ : LatticeSym 3) (u u' : SO3.Quat) : Prop :=
  ∀ h, moveSE3 u' (SO3.leftApplyMatrix σ.matrix h) = SO3.leftApplyMatrix σ.matrix (moveSE3 u h)

theorem compat_SE3 {σ : LatticeSym 3} (hg : IsRotation σ.matrix) : ∃ C C' : SO3.Quat → SO3.Quat, MeasurePreserving C (normal 4) (normal 4) ∧
    MeasurePreserving C' (normal 4) (normal 4) ∧ (∀ᵐ u ∂(normal 4), CompatSE3 σ u (C u)) ∧ ∀ᵐ u ∂(normal 4), CompatSE3 σ (C' u) u := by
  obtain ⟨T, T', hT, hT', e, e'⟩ := couple_SE3 σ.matrix hg
  obtain ⟨R, hR, f⟩ := exists_move_right σ.matrix hg
  obtain ⟨R', hR', f'⟩ := exists_move_right σ.matrix.transpose (SO3.C27_closed _ _ hg hg).2
  refine ⟨_, _, hR'.comp hT, hR.comp hT', Filter.Eventually.of_forall fun u h => ?_, Filter.Eventually.of_forall fun u h => ?_⟩
  · rw [← e u h]
    simp only [Function.comp, moveSE3_eq]
    rw [← f']
    unfold SO3.leftApplyMatrix
    rw [Matrix.mul_assoc, ← Matrix.mul_assoc σ.matrix.transpose, hg.1, Matrix.one_mul]
  · rw [e' u]
    simp only [Function.comp, moveSE3_eq]
    rw [← f]
    unfold SO3.leftApplyMatrix
    simp only [Matrix.mul_assoc]

/-- the convolutions accept their inputs whatever is drawn. -/
theorem chain_drawn_SE3 {s : GridCache.Store (Tensor ℝ)} {opt : List SO3.Euler} {σ : LatticeSym 3} {N : ℕ} : ∀ {bs : List (Block SO3.Mat3 3)} {u v : Sizes},
    Chain N (ConvSE3 s opt σ) (bs.map (Block.draw id)) (bs.map (Block.draw id)) u v →
    ∀ us us' : List SO3.Quat, us.length = bs.length → List.Forall₂ (CompatSE3 σ) us us' →
      Chain N (ConvSE3 s opt σ) (drawn moveSE3 bs us) (drawn moveSE3 bs us') u v := by
  intro bs
  induction bs with
  | nil =>
    intro u v h us us' hl hus
    cases us with
    | nil => cases hus; exact h
    | cons => cases hl
  | cons b bs ih =>
    intro u v h us us' hl hus
    cases hus with
    | nil => cases hl
    | @cons x x' us us' hu hus =>
    have hl' : us.length = bs.length := by simpa using hl
    replace ih := fun {u v : Sizes} (hl : us.length = bs.length) hus h => ih (u := u) (v := v) h us us' hl hus
    cases b with
    | act a =>
      cases h with
      | act _ ha h => exact .act a ha (ih hl' hus h)
      | conv hb h => cases hb
    | batch a tr r =>
      cases h with
      | batch _ _ _ hC h1 h => exact .batch a tr r hC h1 (ih hl' hus h)
      | conv hb h => cases hb
    | inst a tr r =>
      cases h with
      | inst _ _ _ hC h1 h => exact .inst a tr r hC h1 (ih hl' hus h)
      | conv hb h => cases hb
    | groupE => cases h with | conv hb h => cases hb
    | separableE => cases h with | conv hb h => cases hb
    | groupSE M move weight bias =>
      cases h with
      | conv hb h =>
      cases hb with
      | group k c hk hm gr wd hr hM hgeo hS hsym weight hw bias hb move move' hdraw =>
        refine .conv (.group k c hk hm gr wd hr hM hgeo hS hsym weight hw bias hb _ _ fun _ => hu) (ih hl' hus h)
    | separableSE M move weightH weight bias =>
      cases h with
      | conv hb h =>
      cases hb with
      | separable k c hk hm gr wd hr hM hgeo hg₁ hsym₁ hS₁ hS₁' hS hsym hC weightH weight hwH hw bias hb hn move move' hdraw =>
        refine .conv (.separable k c hk hm gr wd hr hM hgeo hg₁ hsym₁ hS₁ hS₁' hS hsym hC weightH weight hwH hw bias hb hn _ _ fun _ => hu) (ih hl' hus h)

/-- the lifting convolution with a draw and with the partner draw. -/
theorem lift_law_SE3 (s : GridCache.Store (Tensor ℝ)) (opt : List SO3.Euler) (k : KernelArgs SO3.Mat3 ℕ) (c : ConvOpts) (hk : 2 ≤ k.kernelSize) {m p}
    (hm : SpatialModes k.spatialMode k.spatialPad m p)
    {M : Module SO3.Mat3 3} (hM : liftingSE3 s opt k c = .ok M) {mode : F.CPad} {ax : List Axis}
    (hgeo : HasGeometry (argsSE3 k c) mode ax)
    {σ : LatticeSym 3} {S' S : List ℕ} (hσ : LatticeSym.Matches LatticeSym.ax3 σ S' S)
    (hS : GeomOk mode ax S) (hsym : SymmetricGeometry 3 ax S) (hg : IsRotation σ.matrix) (hpos : 0 < k.inC)
    (weight : Tensor ℝ) (hw : weight.shape = [k.outC, k.inC / k.groups, k.kernelSize, k.kernelSize, k.kernelSize])
    (bias : Option (Tensor ℝ)) (hb : BiasShape bias k.outC 3) (N n : ℕ) (x x' : Tensor ℝ) (H : Option (Tensor SO3.Mat3))
    (hH : (H.getD M.kernel.gridH).shape = [n]) 
    (hclosed : c.permute = false → ClosedGrid (SO3.leftApplyMatrix σ.matrix) n (H.getD M.kernel.gridH))
    (hx : MovedTensor LatticeSym.ax3 σ [N, k.inC] S' S x x') :
    ∃ T T' : SO3.Quat → SO3.Quat, MeasurePreserving T (normal 4) (normal 4) ∧ MeasurePreserving T' (normal 4) (normal 4) ∧
      (∀ᵐ u ∂(normal 4), ∃ y Hy y' Hy', M.lift (moveSE3 u) weight bias x H = .ok (y, Hy) ∧ M.lift (moveSE3 (T u)) weight bias x' H = .ok (y', Hy') ∧
        MovedFeature LatticeSym.ax3 σ (SO3.leftApplyMatrix σ.matrix) (fun _ => True) N k.outC n (outDims ax S') (outDims ax S) y Hy y' Hy') ∧
      ∀ᵐ u ∂(normal 4), ∃ y Hy y' Hy', M.lift (moveSE3 (T' u)) weight bias x H = .ok (y, Hy) ∧ M.lift (moveSE3 u) weight bias x' H = .ok (y', Hy') ∧
        MovedFeature LatticeSym.ax3 σ (SO3.leftApplyMatrix σ.matrix) (fun _ => True) N k.outC n (outDims ax S') (outDims ax S) y Hy y' Hy' := by
  have key : ∀ u u', (c.permute = true → ∀ h, moveSE3 u' h = (SO3.leftApplyMatrix σ.matrix) (moveSE3 u h)) → ∃ y Hy y' Hy', M.lift (moveSE3 u) weight bias x H = .ok (y, Hy) ∧
      M.lift (moveSE3 u') weight bias x' H = .ok (y', Hy') ∧ MovedFeature LatticeSym.ax3 σ (SO3.leftApplyMatrix σ.matrix) (fun _ => True) N k.outC n (outDims ax S') (outDims ax S) y Hy y' Hy' := by
    intro u u' hu
    by_cases hc : c.permute = true
    · obtain ⟨y, y', a1, a2, a3⟩ := liftSE3_feature s opt k c hk hm hM hgeo hσ hS hsym hg hpos weight hw bias hb N n x x' H H (moveSE3 u) (moveSE3 u')
        _ _ rfl rfl (π := Equiv.refl _) (by
          rw [if_pos hc, if_pos hc]
          exact movedGrid_drawn (Good := fun _ => True) hH (fun _ _ => trivial) fun x _ => hu hc x) hx
      exact ⟨y, _, y', _, a1, a2, a3⟩
    · obtain ⟨π, hπ⟩ := hclosed (by simpa using hc)
      obtain ⟨y, y', a1, a2, a3⟩ := liftSE3_feature s opt k c hk hm hM hgeo hσ hS hsym hg hpos weight hw bias hb N n x x' H H (moveSE3 u) (moveSE3 u')
        _ _ rfl rfl (π := π) (by rw [if_neg hc, if_neg hc]; exact hπ) hx
      exact ⟨y, _, y', _, a1, a2, a3⟩
  obtain ⟨T, T', hT, hT', e, e'⟩ := couple_SE3 σ.matrix hg
  exact ⟨T, T', hT, hT', Filter.Eventually.of_forall fun u => key _ _ fun _ => e u, Filter.Eventually.of_forall fun u => key _ _ fun _ => e' u⟩

/-- A lifting convolution (moved grid: any grid; otherwise a grid closed under the rotation) followed by any chain of layers, each with its own
independent draw: for the turned image the result is distributed like the turned result. -/
theorem C93_SE3 (s : GridCache.Store (Tensor ℝ)) (opt : List SO3.Euler) (k : KernelArgs SO3.Mat3 ℕ) (c : ConvOpts) (hk : 2 ≤ k.kernelSize) {m p}
    (hm : SpatialModes k.spatialMode k.spatialPad m p)
    {M : Module SO3.Mat3 3} (hM : liftingSE3 s opt k c = .ok M) {mode : F.CPad} {ax : List Axis}
    (hgeo : HasGeometry (argsSE3 k c) mode ax)
    {σ : LatticeSym 3} {S' S : List ℕ} (hσ : LatticeSym.Matches LatticeSym.ax3 σ S' S)
    (hS : GeomOk mode ax S) (hsym : SymmetricGeometry 3 ax S) (hg : IsRotation σ.matrix) (hpos : 0 < k.inC)
    (weight : Tensor ℝ) (hw : weight.shape = [k.outC, k.inC / k.groups, k.kernelSize, k.kernelSize, k.kernelSize])
    (bias : Option (Tensor ℝ)) (hb : BiasShape bias k.outC 3) (N n : ℕ) (x x' : Tensor ℝ) (H : Option (Tensor SO3.Mat3))
    (hH : (H.getD M.kernel.gridH).shape = [n]) 
    (hclosed : c.permute = false → ClosedGrid (SO3.leftApplyMatrix σ.matrix) n (H.getD M.kernel.gridH))
    (hx : MovedTensor LatticeSym.ax3 σ [N, k.inC] S' S x x')
    {bs : List (Block SO3.Mat3 3)} {t : Sizes}
    (hchain : Chain N (ConvSE3 s opt σ) (bs.map (Block.draw id)) (bs.map (Block.draw id)) ⟨k.outC, n, outDims ax S', outDims ax S⟩ t) :
    MovedLaw ((normal 4).prod (Measure.pi fun _ : Fin bs.length => (normal 4)))
      (fun w => M.lift (moveSE3 w.1) weight bias x H >>= run (drawn moveSE3 bs (List.ofFn w.2)))
      (fun w => M.lift (moveSE3 w.1) weight bias x' H >>= run (drawn moveSE3 bs (List.ofFn w.2)))
      (fun r r' => MovedFeature LatticeSym.ax3 σ (SO3.leftApplyMatrix σ.matrix) (fun _ => True) N t.channels t.elements t.before t.after r.1 r.2 r'.1 r'.2) := by
  obtain ⟨T, T', hT, hT', kT, kT'⟩ := lift_law_SE3 s opt k c hk hm hM hgeo hσ hS hsym hg hpos weight hw bias hb N n x x' H hH hclosed hx
  obtain ⟨C, C', hC, hC', kC, kC'⟩ := compat_SE3 hg
  have := network_law (by norm_num) (fun h => convSE3_preserves s opt hg N h) (s := ⟨k.outC, n, outDims ax S', outDims ax S⟩) (matches_sym hσ hsym)
    (chain_drawn_SE3 hchain) hC hC' kC kC' hT hT' (first := fun u => M.lift (moveSE3 u) weight bias x H)
    (first' := fun u => M.lift (moveSE3 u) weight bias x' H) kT kT' (fun r => pure r) (fun r r' => MovedFeature LatticeSym.ax3 σ (SO3.leftApplyMatrix σ.matrix) (fun _ => True) N t.channels t.elements t.before t.after r.1 r.2 r'.1 r'.2)
    (fun y H y' H' h _ => ⟨(y, H), (y', H'), rfl, rfl, h⟩)
  simpa only [bind_pure] using this

/-- With `GAvgGlobalPool` at the end the turned image gets the same distribution of results. -/
theorem C93_SE3_avg (s : GridCache.Store (Tensor ℝ)) (opt : List SO3.Euler) (k : KernelArgs SO3.Mat3 ℕ) (c : ConvOpts) (hk : 2 ≤ k.kernelSize) {m p}
    (hm : SpatialModes k.spatialMode k.spatialPad m p)
    {M : Module SO3.Mat3 3} (hM : liftingSE3 s opt k c = .ok M) {mode : F.CPad} {ax : List Axis}
    (hgeo : HasGeometry (argsSE3 k c) mode ax)
    {σ : LatticeSym 3} {S' S : List ℕ} (hσ : LatticeSym.Matches LatticeSym.ax3 σ S' S)
    (hS : GeomOk mode ax S) (hsym : SymmetricGeometry 3 ax S) (hg : IsRotation σ.matrix) (hpos : 0 < k.inC)
    (weight : Tensor ℝ) (hw : weight.shape = [k.outC, k.inC / k.groups, k.kernelSize, k.kernelSize, k.kernelSize])
    (bias : Option (Tensor ℝ)) (hb : BiasShape bias k.outC 3) (N n : ℕ) (x x' : Tensor ℝ) (H : Option (Tensor SO3.Mat3))
    (hH : (H.getD M.kernel.gridH).shape = [n]) 
    (hclosed : c.permute = false → ClosedGrid (SO3.leftApplyMatrix σ.matrix) n (H.getD M.kernel.gridH))
    (hx : MovedTensor LatticeSym.ax3 σ [N, k.inC] S' S x x')
    {bs : List (Block SO3.Mat3 3)} {t : Sizes}
    (hchain : Chain N (ConvSE3 s opt σ) (bs.map (Block.draw id)) (bs.map (Block.draw id)) ⟨k.outC, n, outDims ax S', outDims ax S⟩ t)
    (ht : 0 < (t.elements :: t.before).prod) :
    MovedLaw ((normal 4).prod (Measure.pi fun _ : Fin bs.length => (normal 4)))
      (fun w => M.lift (moveSE3 w.1) weight bias x H >>= run (drawn moveSE3 bs (List.ofFn w.2)) >>= avgPooled)
      (fun w => M.lift (moveSE3 w.1) weight bias x' H >>= run (drawn moveSE3 bs (List.ofFn w.2)) >>= avgPooled)
      (SamePooled N t.channels) := by
  obtain ⟨T, T', hT, hT', kT, kT'⟩ := lift_law_SE3 s opt k c hk hm hM hgeo hσ hS hsym hg hpos weight hw bias hb N n x x' H hH hclosed hx
  obtain ⟨C, C', hC, hC', kC, kC'⟩ := compat_SE3 hg
  have := network_law (by norm_num) (fun h => convSE3_preserves s opt hg N h) (s := ⟨k.outC, n, outDims ax S', outDims ax S⟩) (matches_sym hσ hsym)
    (chain_drawn_SE3 hchain) hC hC' kC kC' hT hT' (first := fun u => M.lift (moveSE3 u) weight bias x H)
    (first' := fun u => M.lift (moveSE3 u) weight bias x' H) kT kT' avgPooled (SamePooled N t.channels) (avg_post ht)
  exact this

/-- With `GMaxGlobalPool` at the end likewise. -/
theorem C93_SE3_max (s : GridCache.Store (Tensor ℝ)) (opt : List SO3.Euler) (k : KernelArgs SO3.Mat3 ℕ) (c : ConvOpts) (hk : 2 ≤ k.kernelSize) {m p}
    (hm : SpatialModes k.spatialMode k.spatialPad m p)
    {M : Module SO3.Mat3 3} (hM : liftingSE3 s opt k c = .ok M) {mode : F.CPad} {ax : List Axis}
    (hgeo : HasGeometry (argsSE3 k c) mode ax)
    {σ : LatticeSym 3} {S' S : List ℕ} (hσ : LatticeSym.Matches LatticeSym.ax3 σ S' S)
    (hS : GeomOk mode ax S) (hsym : SymmetricGeometry 3 ax S) (hg : IsRotation σ.matrix) (hpos : 0 < k.inC)
    (weight : Tensor ℝ) (hw : weight.shape = [k.outC, k.inC / k.groups, k.kernelSize, k.kernelSize, k.kernelSize])
    (bias : Option (Tensor ℝ)) (hb : BiasShape bias k.outC 3) (N n : ℕ) (x x' : Tensor ℝ) (H : Option (Tensor SO3.Mat3))
    (hH : (H.getD M.kernel.gridH).shape = [n]) 
    (hclosed : c.permute = false → ClosedGrid (SO3.leftApplyMatrix σ.matrix) n (H.getD M.kernel.gridH))
    (hx : MovedTensor LatticeSym.ax3 σ [N, k.inC] S' S x x')
    {bs : List (Block SO3.Mat3 3)} {t : Sizes}
    (hchain : Chain N (ConvSE3 s opt σ) (bs.map (Block.draw id)) (bs.map (Block.draw id)) ⟨k.outC, n, outDims ax S', outDims ax S⟩ t)
    (ht : 0 < (t.elements :: t.before).prod) :
    MovedLaw ((normal 4).prod (Measure.pi fun _ : Fin bs.length => (normal 4)))
      (fun w => M.lift (moveSE3 w.1) weight bias x H >>= run (drawn moveSE3 bs (List.ofFn w.2)) >>= maxPooled)
      (fun w => M.lift (moveSE3 w.1) weight bias x' H >>= run (drawn moveSE3 bs (List.ofFn w.2)) >>= maxPooled)
      (SamePooled N t.channels) := by
  obtain ⟨T, T', hT, hT', kT, kT'⟩ := lift_law_SE3 s opt k c hk hm hM hgeo hσ hS hsym hg hpos weight hw bias hb N n x x' H hH hclosed hx
  obtain ⟨C, C', hC, hC', kC, kC'⟩ := compat_SE3 hg
  have := network_law (by norm_num) (fun h => convSE3_preserves s opt hg N h) (s := ⟨k.outC, n, outDims ax S', outDims ax S⟩) (matches_sym hσ hsym)
    (chain_drawn_SE3 hchain) hC hC' kC kC' hT hT' (first := fun u => M.lift (moveSE3 u) weight bias x H)
    (first' := fun u => M.lift (moveSE3 u) weight bias x' H) kT kT' maxPooled (SamePooled N t.channels) (max_post ht)
  exact this

/-! ## E2 -/

theorem sign_pm (v : ℝ) : O2.sign v = 1 ∨ O2.sign v = -1 := by
  unfold O2.sign
  by_cases h : v > 0.5
  · rw [if_pos h]; norm_num
  · rw [if_neg h]; norm_num

/-- a draw and its partner: the second moves elements as the first, multiplied from the left; elements stay elements. -/
def CompatE2 (g : O2.Elt) (u u' : ℝ × ℝ) : Prop :=
  (∀ h : O2.Elt, moveE2 u'.1 u'.2 h = O2.leftApplyAngle g (moveE2 u.1 u.2 h)) ∧
    ∀ h : O2.Elt, (h.1 = 1 ∨ h.1 = -1) → ((moveE2 u.1 u.2 h).1 = 1 ∨ (moveE2 u.1 u.2 h).1 = -1)

theorem moveE2_good (u : ℝ × ℝ) (h : O2.Elt) (hh : h.1 = 1 ∨ h.1 = -1) : (moveE2 u.1 u.2 h).1 = 1 ∨ (moveE2 u.1 u.2 h).1 = -1 := by
  rw [moveE2_eq]
  show O2.sign u.2 * h.1 = 1 ∨ O2.sign u.2 * h.1 = -1
  rcases sign_pm u.2 with e | e <;> rcases hh with e' | e' <;> rw [e, e'] <;> norm_num

theorem compat_E2 {g : O2.Elt} (h1 : g.1 = 1) : ∃ C C' : ℝ × ℝ → ℝ × ℝ, MeasurePreserving C (uniform01.prod uniform01) (uniform01.prod uniform01) ∧
    MeasurePreserving C' (uniform01.prod uniform01) (uniform01.prod uniform01) ∧ (∀ u, CompatE2 g u (C u)) ∧ ∀ u, CompatE2 g (C' u) u := by
  obtain ⟨T, T', hT, hT', e, e'⟩ := couple_SE2 g.2
  have hp : ∀ u v (h : O2.Elt), moveE2 u v h = (O2.sign v * h.1, moveSE2 u h.2) := fun u v h => rfl
  have hl : ∀ h : O2.Elt, O2.leftApplyAngle g h = (h.1, SO2.leftApplyAngle g.2 h.2) := by
    intro h; exact Prod.ext (show g.1 * h.1 = h.1 by rw [h1, one_mul]) rfl
  refine ⟨_, _, hT.prod (MeasurePreserving.id _), hT'.prod (MeasurePreserving.id _), fun u => ⟨fun h => ?_, moveE2_good u⟩,
    fun u => ⟨fun h => ?_, moveE2_good _⟩⟩
  · rw [hl, hp, hp]; exact Prod.ext rfl (e u.1 h.2)
  · rw [hl, hp, hp]; exact Prod.ext rfl (e' u.1 h.2)

theorem redraw_E2 {g : O2.Elt} {c : ConvOpts} {gH Hc Hc' : Tensor O2.Elt} (hHc : Hc = if c.permute then gH.map id else gH)
    (hHc' : Hc' = if c.permute then gH.map (O2.leftApplyAngle g) else gH) {no : ℕ} {π : Equiv.Perm (Fin no)} (hH : MovedGrid (O2.leftApplyAngle g) π Hc Hc')
    (hgood : ∀ i < no, (fun h : O2.Elt => h.1 = 1 ∨ h.1 = -1) (Hc.get [i])) {u u' : (ℝ × ℝ)} (hu : CompatE2 g u u') :
    ∃ π : Equiv.Perm (Fin no), MovedGrid (O2.leftApplyAngle g) π (if c.permute then gH.map ((fun w : ℝ × ℝ => moveE2 w.1 w.2) u) else gH) (if c.permute then gH.map ((fun w : ℝ × ℝ => moveE2 w.1 w.2) u') else gH) ∧
      ∀ i < no, (fun h : O2.Elt => h.1 = 1 ∨ h.1 = -1) ((if c.permute then gH.map ((fun w : ℝ × ℝ => moveE2 w.1 w.2) u) else gH).get [i]) := by
  by_cases hc : c.permute = true
  · rw [if_pos hc] at hHc hHc'
    subst hHc hHc'
    rw [if_pos hc, if_pos hc]
    exact ⟨Equiv.refl _, movedGrid_drawn (Good := fun _ => True) hH.1 (fun _ _ => trivial) (fun x _ => hu.1 x), fun i hi => hu.2 _ (hgood i hi)⟩
  · rw [if_neg hc] at hHc hHc'
    subst hHc hHc'
    rw [if_neg hc, if_neg hc]
    exact ⟨π, hH, hgood⟩

/-- the convolutions accept their inputs whatever is drawn. -/
theorem chain_drawn_E2 {g : O2.Elt} {σ : LatticeSym 2} {N : ℕ} : ∀ {bs : List (Block O2.Elt 2)} {u v : Sizes},
    Chain N (ConvE2 g σ) (bs.map (Block.draw id)) (bs.map (Block.draw (O2.leftApplyAngle g))) u v →
    ∀ us us' : List (ℝ × ℝ), us.length = bs.length → List.Forall₂ (CompatE2 g) us us' →
      Chain N (ConvE2 g σ) (drawn (fun w : ℝ × ℝ => moveE2 w.1 w.2) bs us) (drawn (fun w : ℝ × ℝ => moveE2 w.1 w.2) bs us') u v := by
  intro bs
  induction bs with
  | nil =>
    intro u v h us us' hl hus
    cases us with
    | nil => cases hus; exact h
    | cons => cases hl
  | cons b bs ih =>
    intro u v h us us' hl hus
    cases hus with
    | nil => cases hl
    | @cons x x' us us' hu hus =>
    have hl' : us.length = bs.length := by simpa using hl
    replace ih := fun {u v : Sizes} (hl : us.length = bs.length) hus h => ih (u := u) (v := v) h us us' hl hus
    cases b with
    | act a =>
      cases h with
      | act _ ha h => exact .act a ha (ih hl' hus h)
      | conv hb h => cases hb
    | batch a tr r =>
      cases h with
      | batch _ _ _ hC h1 h => exact .batch a tr r hC h1 (ih hl' hus h)
      | conv hb h => cases hb
    | inst a tr r =>
      cases h with
      | inst _ _ _ hC h1 h => exact .inst a tr r hC h1 (ih hl' hus h)
      | conv hb h => cases hb
    | groupSE => cases h with | conv hb h => cases hb
    | separableSE => cases h with | conv hb h => cases hb
    | groupE M move weight bias =>
      cases h with
      | conv hb h =>
      cases hb with
      | group k c hk hm wr wf hr hnR hnF hM hgeo hS hsym weight hw bias hb move move' hHc hHc' hH hgood =>
        obtain ⟨π', p1, p2⟩ := redraw_E2 hHc hHc' hH hgood hu
        exact .conv (.group k c hk hm wr wf hr hnR hnF hM hgeo hS hsym weight hw bias hb _ _ rfl rfl p1 p2) (ih hl' hus h)
    | separableE M move weightH weight bias =>
      cases h with
      | conv hb h =>
      cases hb with
      | separable k c hk hm wr wf hr hnR hnF hM hgeo hg₁ hsym₁ hS₁ hS₁' hS hsym hC weightH weight hwH hw bias hb hn move move' hHc hHc' hH hgood =>
        obtain ⟨π', p1, p2⟩ := redraw_E2 hHc hHc' hH hgood hu
        exact .conv (.separable k c hk hm wr wf hr hnR hnF hM hgeo hg₁ hsym₁ hS₁ hS₁' hS hsym hC weightH weight hwH hw bias hb hn _ _ rfl rfl p1 p2) (ih hl' hus h)

/-- the lifting convolution with a draw and with the partner draw. -/
theorem lift_law_E2 (k : KernelArgs O2.Elt SizeArg) (c : ConvOpts) (hk : 2 ≤ k.kernelSize) {m p}
    (hm : SpatialModes k.spatialMode k.spatialPad m p)
    {M : Module O2.Elt 2} (hM : liftingE2 k c = .ok M) {mode : F.CPad} {ax : List Axis}
    (hgeo : HasGeometry (argsE2 k c) mode ax)
    (g : O2.Elt) {σ : LatticeSym 2} {S' S : List ℕ} (hσ : LatticeSym.Matches LatticeSym.ax2 σ S' S)
    (hS : GeomOk mode ax S) (hsym : SymmetricGeometry 2 ax S) (h1 : g.1 = 1) (hg : g.1 • SO2.angleToMatrix g.2 = σ.matrix) (hpos : 0 < k.inC)
    (weight : Tensor ℝ) (hw : weight.shape = [k.outC, k.inC / k.groups, k.kernelSize, k.kernelSize])
    (bias : Option (Tensor ℝ)) (hb : BiasShape bias k.outC 2) (N n : ℕ) (x x' : Tensor ℝ) (H : Option (Tensor O2.Elt))
    (hH : (H.getD M.kernel.gridH).shape = [n]) (hgood : ∀ i < n, (fun h : O2.Elt => h.1 = 1 ∨ h.1 = -1) ((H.getD M.kernel.gridH).get [i])) 
    (hclosed : c.permute = false → ClosedGrid (O2.leftApplyAngle g) n (H.getD M.kernel.gridH))
    (hx : MovedTensor LatticeSym.ax2 σ [N, k.inC] S' S x x') :
    ∃ T T' : (ℝ × ℝ) → (ℝ × ℝ), MeasurePreserving T (uniform01.prod uniform01) (uniform01.prod uniform01) ∧ MeasurePreserving T' (uniform01.prod uniform01) (uniform01.prod uniform01) ∧
      (∀ᵐ u ∂(uniform01.prod uniform01), ∃ y Hy y' Hy', M.lift ((fun w : ℝ × ℝ => moveE2 w.1 w.2) u) weight bias x H = .ok (y, Hy) ∧ M.lift ((fun w : ℝ × ℝ => moveE2 w.1 w.2) (T u)) weight bias x' H = .ok (y', Hy') ∧
        MovedFeature LatticeSym.ax2 σ (O2.leftApplyAngle g) (fun h : O2.Elt => h.1 = 1 ∨ h.1 = -1) N k.outC n (outDims ax S') (outDims ax S) y Hy y' Hy') ∧
      ∀ᵐ u ∂(uniform01.prod uniform01), ∃ y Hy y' Hy', M.lift ((fun w : ℝ × ℝ => moveE2 w.1 w.2) (T' u)) weight bias x H = .ok (y, Hy) ∧ M.lift ((fun w : ℝ × ℝ => moveE2 w.1 w.2) u) weight bias x' H = .ok (y', Hy') ∧
        MovedFeature LatticeSym.ax2 σ (O2.leftApplyAngle g) (fun h : O2.Elt => h.1 = 1 ∨ h.1 = -1) N k.outC n (outDims ax S') (outDims ax S) y Hy y' Hy' := by
  have key : ∀ u u', CompatE2 g u u' → ∃ y Hy y' Hy', M.lift ((fun w : ℝ × ℝ => moveE2 w.1 w.2) u) weight bias x H = .ok (y, Hy) ∧
      M.lift ((fun w : ℝ × ℝ => moveE2 w.1 w.2) u') weight bias x' H = .ok (y', Hy') ∧ MovedFeature LatticeSym.ax2 σ (O2.leftApplyAngle g) (fun h : O2.Elt => h.1 = 1 ∨ h.1 = -1) N k.outC n (outDims ax S') (outDims ax S) y Hy y' Hy' := by
    intro u u' hu
    by_cases hc : c.permute = true
    · obtain ⟨y, y', a1, a2, a3⟩ := liftE2_feature k c hk hm hM hgeo g hσ hS hsym h1 hg hpos weight hw bias hb N n x x' H H ((fun w : ℝ × ℝ => moveE2 w.1 w.2) u) ((fun w : ℝ × ℝ => moveE2 w.1 w.2) u')
        _ _ rfl rfl (π := Equiv.refl _) (by
          rw [if_pos hc, if_pos hc]
          exact movedGrid_drawn (Good := fun _ => True) hH (fun _ _ => trivial) fun x _ => hu.1 x)
        (fun i hi => by rw [if_pos hc]; exact hu.2 _ (hgood i hi)) hx
      exact ⟨y, _, y', _, a1, a2, a3⟩
    · obtain ⟨π, hπ⟩ := hclosed (by simpa using hc)
      obtain ⟨y, y', a1, a2, a3⟩ := liftE2_feature k c hk hm hM hgeo g hσ hS hsym h1 hg hpos weight hw bias hb N n x x' H H ((fun w : ℝ × ℝ => moveE2 w.1 w.2) u) ((fun w : ℝ × ℝ => moveE2 w.1 w.2) u')
        _ _ rfl rfl (π := π) (by rw [if_neg hc, if_neg hc]; exact hπ) (fun i hi => by rw [if_neg hc]; exact hgood i hi) hx
      exact ⟨y, _, y', _, a1, a2, a3⟩
  obtain ⟨T, T', hT, hT', e, e'⟩ := compat_E2 h1
  refine ⟨T, T', hT, hT', ?_, ?_⟩
  · exact Filter.Eventually.of_forall fun u => key _ _ (e u)
  · exact Filter.Eventually.of_forall fun u => key _ _ (e' u)

/-- A lifting convolution (moved grid: any grid; otherwise a grid closed under the rotation) followed by any chain of layers, each with its own
independent draw: for the turned image the result is distributed like the turned result. -/
theorem C93_E2 (k : KernelArgs O2.Elt SizeArg) (c : ConvOpts) (hk : 2 ≤ k.kernelSize) {m p}
    (hm : SpatialModes k.spatialMode k.spatialPad m p)
    {M : Module O2.Elt 2} (hM : liftingE2 k c = .ok M) {mode : F.CPad} {ax : List Axis}
    (hgeo : HasGeometry (argsE2 k c) mode ax)
    (g : O2.Elt) {σ : LatticeSym 2} {S' S : List ℕ} (hσ : LatticeSym.Matches LatticeSym.ax2 σ S' S)
    (hS : GeomOk mode ax S) (hsym : SymmetricGeometry 2 ax S) (h1 : g.1 = 1) (hg : g.1 • SO2.angleToMatrix g.2 = σ.matrix) (hpos : 0 < k.inC)
    (weight : Tensor ℝ) (hw : weight.shape = [k.outC, k.inC / k.groups, k.kernelSize, k.kernelSize])
    (bias : Option (Tensor ℝ)) (hb : BiasShape bias k.outC 2) (N n : ℕ) (x x' : Tensor ℝ) (H : Option (Tensor O2.Elt))
    (hH : (H.getD M.kernel.gridH).shape = [n]) (hgood : ∀ i < n, (fun h : O2.Elt => h.1 = 1 ∨ h.1 = -1) ((H.getD M.kernel.gridH).get [i])) 
    (hclosed : c.permute = false → ClosedGrid (O2.leftApplyAngle g) n (H.getD M.kernel.gridH))
    (hx : MovedTensor LatticeSym.ax2 σ [N, k.inC] S' S x x')
    {bs : List (Block O2.Elt 2)} {t : Sizes}
    (hchain : Chain N (ConvE2 g σ) (bs.map (Block.draw id)) (bs.map (Block.draw (O2.leftApplyAngle g))) ⟨k.outC, n, outDims ax S', outDims ax S⟩ t) :
    MovedLaw ((uniform01.prod uniform01).prod (Measure.pi fun _ : Fin bs.length => (uniform01.prod uniform01)))
      (fun w => M.lift ((fun w : ℝ × ℝ => moveE2 w.1 w.2) w.1) weight bias x H >>= run (drawn (fun w : ℝ × ℝ => moveE2 w.1 w.2) bs (List.ofFn w.2)))
      (fun w => M.lift ((fun w : ℝ × ℝ => moveE2 w.1 w.2) w.1) weight bias x' H >>= run (drawn (fun w : ℝ × ℝ => moveE2 w.1 w.2) bs (List.ofFn w.2)))
      (fun r r' => MovedFeature LatticeSym.ax2 σ (O2.leftApplyAngle g) (fun h : O2.Elt => h.1 = 1 ∨ h.1 = -1) N t.channels t.elements t.before t.after r.1 r.2 r'.1 r'.2) := by
  obtain ⟨T, T', hT, hT', kT, kT'⟩ := lift_law_E2 k c hk hm hM hgeo g hσ hS hsym h1 hg hpos weight hw bias hb N n x x' H hH hgood hclosed hx
  obtain ⟨C, C', hC, hC', kC, kC'⟩ := compat_E2 h1
  have := network_law (by norm_num) (fun h => convE2_preserves h1 hg N h) (s := ⟨k.outC, n, outDims ax S', outDims ax S⟩) (matches_sym hσ hsym)
    (chain_drawn_E2 hchain) hC hC' (Filter.Eventually.of_forall kC) (Filter.Eventually.of_forall kC') hT hT' (first := fun u => M.lift ((fun w : ℝ × ℝ => moveE2 w.1 w.2) u) weight bias x H)
    (first' := fun u => M.lift ((fun w : ℝ × ℝ => moveE2 w.1 w.2) u) weight bias x' H) kT kT' (fun r => pure r) (fun r r' => MovedFeature LatticeSym.ax2 σ (O2.leftApplyAngle g) (fun h : O2.Elt => h.1 = 1 ∨ h.1 = -1) N t.channels t.elements t.before t.after r.1 r.2 r'.1 r'.2)
    (fun y H y' H' h _ => ⟨(y, H), (y', H'), rfl, rfl, h⟩)
  simpa only [bind_pure] using this

/-- With `GAvgGlobalPool` at the end the turned image gets the same distribution of results. -/
theorem C93_E2_avg (k : KernelArgs O2.Elt SizeArg) (c : ConvOpts) (hk : 2 ≤ k.kernelSize) {m p}
    (hm : SpatialModes k.spatialMode k.spatialPad m p)
    {M : Module O2.Elt 2} (hM : liftingE2 k c = .ok M) {mode : F.CPad} {ax : List Axis}
    (hgeo : HasGeometry (argsE2 k c) mode ax)
    (g : O2.Elt) {σ : LatticeSym 2} {S' S : List ℕ} (hσ : LatticeSym.Matches LatticeSym.ax2 σ S' S)
    (hS : GeomOk mode ax S) (hsym : SymmetricGeometry 2 ax S) (h1 : g.1 = 1) (hg : g.1 • SO2.angleToMatrix g.2 = σ.matrix) (hpos : 0 < k.inC)
    (weight : Tensor ℝ) (hw : weight.shape = [k.outC, k.inC / k.groups, k.kernelSize, k.kernelSize])
    (bias : Option (Tensor ℝ)) (hb : BiasShape bias k.outC 2) (N n : ℕ) (x x' : Tensor ℝ) (H : Option (Tensor O2.Elt))
    (hH : (H.getD M.kernel.gridH).shape = [n]) (hgood : ∀ i < n, (fun h : O2.Elt => h.1 = 1 ∨ h.1 = -1) ((H.getD M.kernel.gridH).get [i])) 
    (hclosed : c.permute = false → ClosedGrid (O2.leftApplyAngle g) n (H.getD M.kernel.gridH))
    (hx : MovedTensor LatticeSym.ax2 σ [N, k.inC] S' S x x')
    {bs : List (Block O2.Elt 2)} {t : Sizes}
    (hchain : Chain N (ConvE2 g σ) (bs.map (Block.draw id)) (bs.map (Block.draw (O2.leftApplyAngle g))) ⟨k.outC, n, outDims ax S', outDims ax S⟩ t)
    (ht : 0 < (t.elements :: t.before).prod) :
    MovedLaw ((uniform01.prod uniform01).prod (Measure.pi fun _ : Fin bs.length => (uniform01.prod uniform01)))
      (fun w => M.lift ((fun w : ℝ × ℝ => moveE2 w.1 w.2) w.1) weight bias x H >>= run (drawn (fun w : ℝ × ℝ => moveE2 w.1 w.2) bs (List.ofFn w.2)) >>= avgPooled)
      (fun w => M.lift ((fun w : ℝ × ℝ => moveE2 w.1 w.2) w.1) weight bias x' H >>= run (drawn (fun w : ℝ × ℝ => moveE2 w.1 w.2) bs (List.ofFn w.2)) >>= avgPooled)
      (SamePooled N t.channels) := by
  obtain ⟨T, T', hT, hT', kT, kT'⟩ := lift_law_E2 k c hk hm hM hgeo g hσ hS hsym h1 hg hpos weight hw bias hb N n x x' H hH hgood hclosed hx
  obtain ⟨C, C', hC, hC', kC, kC'⟩ := compat_E2 h1
  have := network_law (by norm_num) (fun h => convE2_preserves h1 hg N h) (s := ⟨k.outC, n, outDims ax S', outDims ax S⟩) (matches_sym hσ hsym)
    (chain_drawn_E2 hchain) hC hC' (Filter.Eventually.of_forall kC) (Filter.Eventually.of_forall kC') hT hT' (first := fun u => M.lift ((fun w : ℝ × ℝ => moveE2 w.1 w.2) u) weight bias x H)
    (first' := fun u => M.lift ((fun w : ℝ × ℝ => moveE2 w.1 w.2) u) weight bias x' H) kT kT' avgPooled (SamePooled N t.channels) (avg_post ht)
  exact this

/-- With `GMaxGlobalPool` at the end likewise. -/
theorem C93_E2_max (k : KernelArgs O2.Elt SizeArg) (c : ConvOpts) (hk : 2 ≤ k.kernelSize) {m p}
    (hm : SpatialModes k.spatialMode k.spatialPad m p)
    {M : Module O2.Elt 2} (hM : liftingE2 k c = .ok M) {mode : F.CPad} {ax : List Axis}
    (hgeo : HasGeometry (argsE2 k c) mode ax)
    (g : O2.Elt) {σ : LatticeSym 2} {S' S : List ℕ} (hσ : LatticeSym.Matches LatticeSym.ax2 σ S' S)
    (hS : GeomOk mode ax S) (hsym : SymmetricGeometry 2 ax S) (h1 : g.1 = 1) (hg : g.1 • SO2.angleToMatrix g.2 = σ.matrix) (hpos : 0 < k.inC)
    (weight : Tensor ℝ) (hw : weight.shape = [k.outC, k.inC / k.groups, k.kernelSize, k.kernelSize])
    (bias : Option (Tensor ℝ)) (hb : BiasShape bias k.outC 2) (N n : ℕ) (x x' : Tensor ℝ) (H : Option (Tensor O2.Elt))
    (hH : (H.getD M.kernel.gridH).shape = [n]) (hgood : ∀ i < n, (fun h : O2.Elt => h.1 = 1 ∨ h.1 = -1) ((H.getD M.kernel.gridH).get [i])) 
    (hclosed : c.permute = false → ClosedGrid (O2.leftApplyAngle g) n (H.getD M.kernel.gridH))
    (hx : MovedTensor LatticeSym.ax2 σ [N, k.inC] S' S x x')
    {bs : List (Block O2.Elt 2)} {t : Sizes}
    (hchain : Chain N (ConvE2 g σ) (bs.map (Block.draw id)) (bs.map (Block.draw (O2.leftApplyAngle g))) ⟨k.outC, n, outDims ax S', outDims ax S⟩ t)
    (ht : 0 < (t.elements :: t.before).prod) :
    MovedLaw ((uniform01.prod uniform01).prod (Measure.pi fun _ : Fin bs.length => (uniform01.prod uniform01)))
      (fun w => M.lift ((fun w : ℝ × ℝ => moveE2 w.1 w.2) w.1) weight bias x H >>= run (drawn (fun w : ℝ × ℝ => moveE2 w.1 w.2) bs (List.ofFn w.2)) >>= maxPooled)
      (fun w => M.lift ((fun w : ℝ × ℝ => moveE2 w.1 w.2) w.1) weight bias x' H >>= run (drawn (fun w : ℝ × ℝ => moveE2 w.1 w.2) bs (List.ofFn w.2)) >>= maxPooled)
      (SamePooled N t.channels) := by
  obtain ⟨T, T', hT, hT', kT, kT'⟩ := lift_law_E2 k c hk hm hM hgeo g hσ hS hsym h1 hg hpos weight hw bias hb N n x x' H hH hgood hclosed hx
  obtain ⟨C, C', hC, hC', kC, kC'⟩ := compat_E2 h1
  have := network_law (by norm_num) (fun h => convE2_preserves h1 hg N h) (s := ⟨k.outC, n, outDims ax S', outDims ax S⟩) (matches_sym hσ hsym)
    (chain_drawn_E2 hchain) hC hC' (Filter.Eventually.of_forall kC) (Filter.Eventually.of_forall kC') hT hT' (first := fun u => M.lift ((fun w : ℝ × ℝ => moveE2 w.1 w.2) u) weight bias x H)
    (first' := fun u => M.lift ((fun w : ℝ × ℝ => moveE2 w.1 w.2) u) weight bias x' H) kT kT' maxPooled (SamePooled N t.channels) (max_post ht)
  exact this

/-! ## E3 -/

/-- a draw and its partner: the second moves elements as the first, multiplied from the left; elements stay elements. -/
def CompatE3 (g : O3.Elt) (u u' : SO3.Quat × ℝ) : Prop :=
  (∀ h : O3.Elt, moveE3 u'.1 u'.2 h = O3.leftApplyO3 g (moveE3 u.1 u.2 h)) ∧ ∀ h : O3.Elt, O3.Valid h → O3.Valid (moveE3 u.1 u.2 h)

theorem moveE3_good (u : SO3.Quat × ℝ) (hu : u.1 ≠ 0) (h : O3.Elt) (hh : O3.Valid h) : O3.Valid (moveE3 u.1 u.2 h) := by
  rw [moveE3_eq]
  unfold O3.Valid
  rw [(O3.C33_product _ _).1, (O3.C33_product _ _).2, O3.rot_mk, O3.coef_mk]
  have hr : IsRotation (SO3.quatToMatrix (SO3.unit u.1)) := SO3.quatToMatrix_rotation _ (SO3.dot_normalised hu)
  refine ⟨?_, (SO3.C27_closed _ _ hr hh.2).1⟩
  rcases sign_pm u.2 with e | e <;> rcases hh.1 with e' | e' <;> rw [e, e'] <;> norm_num

theorem compat_E3 {g : O3.Elt} (h1 : O3.coef g = 1) (hv : O3.Valid g) : ∃ C C' : SO3.Quat × ℝ → SO3.Quat × ℝ,
    MeasurePreserving C ((normal 4).prod uniform01) ((normal 4).prod uniform01) ∧
    MeasurePreserving C' ((normal 4).prod uniform01) ((normal 4).prod uniform01) ∧
    (∀ᵐ u ∂((normal 4).prod uniform01), CompatE3 g u (C u)) ∧ ∀ᵐ u ∂((normal 4).prod uniform01), CompatE3 g (C' u) u := by
  obtain ⟨T, T', hT, hT', e, e'⟩ := couple_SE3 (O3.rot g) hv.2
  have hp : ∀ u v (h : O3.Elt), moveE3 u v h = O3.mk (O2.sign v * O3.coef h) (moveSE3 u (O3.rot h)) := by
    intro u v h
    rw [moveE3_eq]
    apply O3.elt_ext
    · rw [(O3.C33_product _ _).1, O3.coef_mk, O3.coef_mk]
    · rw [(O3.C33_product _ _).2, O3.rot_mk, O3.rot_mk]; rfl
  have hl : ∀ h : O3.Elt, O3.leftApplyO3 g h = O3.mk (O3.coef h) (SO3.leftApplyMatrix (O3.rot g) (O3.rot h)) := by
    intro h
    apply O3.elt_ext
    · rw [(O3.C33_product _ _).1, O3.coef_mk, h1, one_mul]
    · rw [(O3.C33_product _ _).2, O3.rot_mk]; rfl
  have hn : ∀ᵐ u ∂((normal 4).prod uniform01), u.1 ≠ 0 := by
    have : ∀ᵐ q ∂(normal 4), q ≠ 0 := by
      rw [ae_iff]
      simpa using SO3.C78_nonzero 3
    exact Measure.quasiMeasurePreserving_fst.ae this
  have m1 := hT.prod (MeasurePreserving.id uniform01)
  have m2 := hT'.prod (MeasurePreserving.id uniform01)
  refine ⟨_, _, m1, m2, ?_, ?_⟩
  · filter_upwards [hn] with u hu
    refine ⟨fun h => ?_, moveE3_good u hu⟩
    rw [hl, hp, hp, O3.coef_mk, O3.rot_mk]
    exact congrArg _ (e u.1 (O3.rot h))
  · filter_upwards [m2.quasiMeasurePreserving.ae hn] with u hu
    refine ⟨fun h => ?_, moveE3_good _ hu⟩
    rw [hl, hp, hp, O3.coef_mk, O3.rot_mk]
    exact congrArg _ (e' u.1 (O3.rot h))

theorem redraw_E3 {g : O3.Elt} {c : ConvOpts} {gH Hc Hc' : Tensor O3.Elt} (hHc : Hc = if c.permute then gH.map id else gH)
    (hHc' : Hc' = if c.permute then gH.map (O3.leftApplyO3 g) else gH) {no : ℕ} {π : Equiv.Perm (Fin no)} (hH : MovedGrid (O3.leftApplyO3 g) π Hc Hc')
    (hgood : ∀ i < no, O3.Valid (Hc.get [i])) {u u' : (SO3.Quat × ℝ)} (hu : CompatE3 g u u') :
    ∃ π : Equiv.Perm (Fin no), MovedGrid (O3.leftApplyO3 g) π (if c.permute then gH.map ((fun w : SO3.Quat × ℝ => moveE3 w.1 w.2) u) else gH) (if c.permute then gH.map ((fun w : SO3.Quat × ℝ => moveE3 w.1 w.2) u') else gH) ∧
      ∀ i < no, O3.Valid ((if c.permute then gH.map ((fun w : SO3.Quat × ℝ => moveE3 w.1 w.2) u) else gH).get [i]) := by
  by_cases hc : c.permute = true
  · rw [if_pos hc] at hHc hHc'
    subst hHc hHc'
    rw [if_pos hc, if_pos hc]
    exact ⟨Equiv.refl _, movedGrid_drawn (Good := fun _ => True) hH.1 (fun _ _ => trivial) (fun x _ => hu.1 x), fun i hi => hu.2 _ (hgood i hi)⟩
  · rw [if_neg hc] at hHc hHc'
    subst hHc hHc'
    rw [if_neg hc, if_neg hc]
    exact ⟨π, hH, hgood⟩

/-- the convolutions accept their inputs whatever is drawn. -/
theorem chain_drawn_E3 {s : GridCache.Store (Tensor ℝ)} {opt1 opt2 : List SO3.Euler} {g : O3.Elt} {σ : LatticeSym 3} {N : ℕ} : ∀ {bs : List (Block O3.Elt 3)} {u v : Sizes},
    Chain N (ConvE3 s opt1 opt2 g σ) (bs.map (Block.draw id)) (bs.map (Block.draw (O3.leftApplyO3 g))) u v →
    ∀ us us' : List (SO3.Quat × ℝ), us.length = bs.length → List.Forall₂ (CompatE3 g) us us' →
      Chain N (ConvE3 s opt1 opt2 g σ) (drawn (fun w : SO3.Quat × ℝ => moveE3 w.1 w.2) bs us) (drawn (fun w : SO3.Quat × ℝ => moveE3 w.1 w.2) bs us') u v := by
  intro bs
  induction bs with
  | nil =>
    intro u v h us us' hl hus
    cases us with
    | nil => cases hus; exact h
    | cons => cases hl
  | cons b bs ih =>
    intro u v h us us' hl hus
    cases hus with
    | nil => cases hl
    | @cons x x' us us' hu hus =>
    have hl' : us.length = bs.length := by simpa using hl
    replace ih := fun {u v : Sizes} (hl : us.length = bs.length) hus h => ih (u := u) (v := v) h us us' hl hus
    cases b with
    | act a =>
      cases h with
      | act _ ha h => exact .act a ha (ih hl' hus h)
      | conv hb h => cases hb
    | batch a tr r =>
      cases h with
      | batch _ _ _ hC h1 h => exact .batch a tr r hC h1 (ih hl' hus h)
      | conv hb h => cases hb
    | inst a tr r =>
      cases h with
      | inst _ _ _ hC h1 h => exact .inst a tr r hC h1 (ih hl' hus h)
      | conv hb h => cases hb
    | groupSE => cases h with | conv hb h => cases hb
    | separableSE => cases h with | conv hb h => cases hb
    | groupE M move weight bias =>
      cases h with
      | conv hb h =>
      cases hb with
      | group k c hk hm gr wr wf hr hnR hnF hM hgeo hS hsym weight hw bias hb move move' hHc hHc' hH hgood =>
        obtain ⟨π', p1, p2⟩ := redraw_E3 hHc hHc' hH hgood hu
        exact .conv (.group k c hk hm gr wr wf hr hnR hnF hM hgeo hS hsym weight hw bias hb _ _ rfl rfl p1 p2) (ih hl' hus h)
    | separableE M move weightH weight bias =>
      cases h with
      | conv hb h =>
      cases hb with
      | separable k c hk hm gr wr wf hr hnR hnF hM hgeo hg₁ hsym₁ hS₁ hS₁' hS hsym hC weightH weight hwH hw bias hb hn move move' hHc hHc' hH hgood =>
        obtain ⟨π', p1, p2⟩ := redraw_E3 hHc hHc' hH hgood hu
        exact .conv (.separable k c hk hm gr wr wf hr hnR hnF hM hgeo hg₁ hsym₁ hS₁ hS₁' hS hsym hC weightH weight hwH hw bias hb hn _ _ rfl rfl p1 p2) (ih hl' hus h)

/-- the lifting convolution with a draw and with the partner draw. -/
theorem lift_law_E3 (s : GridCache.Store (Tensor ℝ)) (opt1 opt2 : List SO3.Euler) (k : KernelArgs O3.Elt SizeArg) (c : ConvOpts) (hk : 2 ≤ k.kernelSize) {m p}
    (hm : SpatialModes k.spatialMode k.spatialPad m p)
    {M : Module O3.Elt 3} (hM : liftingE3 s opt1 opt2 k c = .ok M) {mode : F.CPad} {ax : List Axis}
    (hgeo : HasGeometry (argsE3 k c) mode ax)
    (g : O3.Elt) {σ : LatticeSym 3} {S' S : List ℕ} (hσ : LatticeSym.Matches LatticeSym.ax3 σ S' S)
    (hS : GeomOk mode ax S) (hsym : SymmetricGeometry 3 ax S) (h1 : O3.coef g = 1) (hv : O3.Valid g) (hg : O3.coef g • O3.rot g = σ.matrix) (hpos : 0 < k.inC)
    (weight : Tensor ℝ) (hw : weight.shape = [k.outC, k.inC / k.groups, k.kernelSize, k.kernelSize, k.kernelSize])
    (bias : Option (Tensor ℝ)) (hb : BiasShape bias k.outC 3) (N n : ℕ) (x x' : Tensor ℝ) (H : Option (Tensor O3.Elt))
    (hH : (H.getD M.kernel.gridH).shape = [n]) (hgood : ∀ i < n, O3.Valid ((H.getD M.kernel.gridH).get [i])) 
    (hclosed : c.permute = false → ClosedGrid (O3.leftApplyO3 g) n (H.getD M.kernel.gridH))
    (hx : MovedTensor LatticeSym.ax3 σ [N, k.inC] S' S x x') :
    ∃ T T' : (SO3.Quat × ℝ) → (SO3.Quat × ℝ), MeasurePreserving T ((normal 4).prod uniform01) ((normal 4).prod uniform01) ∧ MeasurePreserving T' ((normal 4).prod uniform01) ((normal 4).prod uniform01) ∧
      (∀ᵐ u ∂((normal 4).prod uniform01), ∃ y Hy y' Hy', M.lift ((fun w : SO3.Quat × ℝ => moveE3 w.1 w.2) u) weight bias x H = .ok (y, Hy) ∧ M.lift ((fun w : SO3.Quat × ℝ => moveE3 w.1 w.2) (T u)) weight bias x' H = .ok (y', Hy') ∧
        MovedFeature LatticeSym.ax3 σ (O3.leftApplyO3 g) O3.Valid N k.outC n (outDims ax S') (outDims ax S) y Hy y' Hy') ∧
      ∀ᵐ u ∂((normal 4).prod uniform01), ∃ y Hy y' Hy', M.lift ((fun w : SO3.Quat × ℝ => moveE3 w.1 w.2) (T' u)) weight bias x H = .ok (y, Hy) ∧ M.lift ((fun w : SO3.Quat × ℝ => moveE3 w.1 w.2) u) weight bias x' H = .ok (y', Hy') ∧
        MovedFeature LatticeSym.ax3 σ (O3.leftApplyO3 g) O3.Valid N k.outC n (outDims ax S') (outDims ax S) y Hy y' Hy' := by
  have key : ∀ u u', CompatE3 g u u' → ∃ y Hy y' Hy', M.lift ((fun w : SO3.Quat × ℝ => moveE3 w.1 w.2) u) weight bias x H = .ok (y, Hy) ∧
      M.lift ((fun w : SO3.Quat × ℝ => moveE3 w.1 w.2) u') weight bias x' H = .ok (y', Hy') ∧ MovedFeature LatticeSym.ax3 σ (O3.leftApplyO3 g) O3.Valid N k.outC n (outDims ax S') (outDims ax S) y Hy y' Hy' := by
    intro u u' hu
    by_cases hc : c.permute = true
    · obtain ⟨y, y', a1, a2, a3⟩ := liftE3_feature s opt1 opt2 k c hk hm hM hgeo g hσ hS hsym h1 hv hg hpos weight hw bias hb N n x x' H H ((fun w : SO3.Quat × ℝ => moveE3 w.1 w.2) u) ((fun w : SO3.Quat × ℝ => moveE3 w.1 w.2) u')
        _ _ rfl rfl (π := Equiv.refl _) (by
          rw [if_pos hc, if_pos hc]
          exact movedGrid_drawn (Good := fun _ => True) hH (fun _ _ => trivial) fun x _ => hu.1 x)
        (fun i hi => by rw [if_pos hc]; exact hu.2 _ (hgood i hi)) hx
      exact ⟨y, _, y', _, a1, a2, a3⟩
    · obtain ⟨π, hπ⟩ := hclosed (by simpa using hc)
      obtain ⟨y, y', a1, a2, a3⟩ := liftE3_feature s opt1 opt2 k c hk hm hM hgeo g hσ hS hsym h1 hv hg hpos weight hw bias hb N n x x' H H ((fun w : SO3.Quat × ℝ => moveE3 w.1 w.2) u) ((fun w : SO3.Quat × ℝ => moveE3 w.1 w.2) u')
        _ _ rfl rfl (π := π) (by rw [if_neg hc, if_neg hc]; exact hπ) (fun i hi => by rw [if_neg hc]; exact hgood i hi) hx
      exact ⟨y, _, y', _, a1, a2, a3⟩
  obtain ⟨T, T', hT, hT', e, e'⟩ := compat_E3 h1 hv
  refine ⟨T, T', hT, hT', ?_, ?_⟩
  · filter_upwards [e] with u hu; exact key _ _ hu
  · filter_upwards [e'] with u hu; exact key _ _ hu

/-- A lifting convolution (moved grid: any grid; otherwise a grid closed under the rotation) followed by any chain of layers, each with its own
independent draw: for the turned image the result is distributed like the turned result. -/
theorem C93_E3 (s : GridCache.Store (Tensor ℝ)) (opt1 opt2 : List SO3.Euler) (k : KernelArgs O3.Elt SizeArg) (c : ConvOpts) (hk : 2 ≤ k.kernelSize) {m p}
    (hm : SpatialModes k.spatialMode k.spatialPad m p)
    {M : Module O3.Elt 3} (hM : liftingE3 s opt1 opt2 k c = .ok M) {mode : F.CPad} {ax : List Axis}
    (hgeo : HasGeometry (argsE3 k c) mode ax)
    (g : O3.Elt) {σ : LatticeSym 3} {S' S : List ℕ} (hσ : LatticeSym.Matches LatticeSym.ax3 σ S' S)
    (hS : GeomOk mode ax S) (hsym : SymmetricGeometry 3 ax S) (h1 : O3.coef g = 1) (hv : O3.Valid g) (hg : O3.coef g • O3.rot g = σ.matrix) (hpos : 0 < k.inC)
    (weight : Tensor ℝ) (hw : weight.shape = [k.outC, k.inC / k.groups, k.kernelSize, k.kernelSize, k.kernelSize])
    (bias : Option (Tensor ℝ)) (hb : BiasShape bias k.outC 3) (N n : ℕ) (x x' : Tensor ℝ) (H : Option (Tensor O3.Elt))
    (hH : (H.getD M.kernel.gridH).shape = [n]) (hgood : ∀ i < n, O3.Valid ((H.getD M.kernel.gridH).get [i])) 
    (hclosed : c.permute = false → ClosedGrid (O3.leftApplyO3 g) n (H.getD M.kernel.gridH))
    (hx : MovedTensor LatticeSym.ax3 σ [N, k.inC] S' S x x')
    {bs : List (Block O3.Elt 3)} {t : Sizes}
    (hchain : Chain N (ConvE3 s opt1 opt2 g σ) (bs.map (Block.draw id)) (bs.map (Block.draw (O3.leftApplyO3 g))) ⟨k.outC, n, outDims ax S', outDims ax S⟩ t) :
    MovedLaw (((normal 4).prod uniform01).prod (Measure.pi fun _ : Fin bs.length => ((normal 4).prod uniform01)))
      (fun w => M.lift ((fun w : SO3.Quat × ℝ => moveE3 w.1 w.2) w.1) weight bias x H >>= run (drawn (fun w : SO3.Quat × ℝ => moveE3 w.1 w.2) bs (List.ofFn w.2)))
      (fun w => M.lift ((fun w : SO3.Quat × ℝ => moveE3 w.1 w.2) w.1) weight bias x' H >>= run (drawn (fun w : SO3.Quat × ℝ => moveE3 w.1 w.2) bs (List.ofFn w.2)))
      (fun r r' => MovedFeature LatticeSym.ax3 σ (O3.leftApplyO3 g) O3.Valid N t.channels t.elements t.before t.after r.1 r.2 r'.1 r'.2) := by
  obtain ⟨T, T', hT, hT', kT, kT'⟩ := lift_law_E3 s opt1 opt2 k c hk hm hM hgeo g hσ hS hsym h1 hv hg hpos weight hw bias hb N n x x' H hH hgood hclosed hx
  obtain ⟨C, C', hC, hC', kC, kC'⟩ := compat_E3 h1 hv
  have := network_law (by norm_num) (fun h => convE3_preserves s opt1 opt2 h1 hv hg N h) (s := ⟨k.outC, n, outDims ax S', outDims ax S⟩) (matches_sym hσ hsym)
    (chain_drawn_E3 hchain) hC hC' kC kC' hT hT' (first := fun u => M.lift ((fun w : SO3.Quat × ℝ => moveE3 w.1 w.2) u) weight bias x H)
    (first' := fun u => M.lift ((fun w : SO3.Quat × ℝ => moveE3 w.1 w.2) u) weight bias x' H) kT kT' (fun r => pure r) (fun r r' => MovedFeature LatticeSym.ax3 σ (O3.leftApplyO3 g) O3.Valid N t.channels t.elements t.before t.after r.1 r.2 r'.1 r'.2)
    (fun y H y' H' h _ => ⟨(y, H), (y', H'), rfl, rfl, h⟩)
  simpa only [bind_pure] using this

/-- With `GAvgGlobalPool` at the end the turned image gets the same distribution of results. -/
theorem C93_E3_avg (s : GridCache.Store (Tensor ℝ)) (opt1 opt2 : List SO3.Euler) (k : KernelArgs O3.Elt SizeArg) (c : ConvOpts) (hk : 2 ≤ k.kernelSize) {m p}
    (hm : SpatialModes k.spatialMode k.spatialPad m p)
    {M : Module O3.Elt 3} (hM : liftingE3 s opt1 opt2 k c = .ok M) {mode : F.CPad} {ax : List Axis}
    (hgeo : HasGeometry (argsE3 k c) mode ax)
    (g : O3.Elt) {σ : LatticeSym 3} {S' S : List ℕ} (hσ : LatticeSym.Matches LatticeSym.ax3 σ S' S)
    (hS : GeomOk mode ax S) (hsym : SymmetricGeometry 3 ax S) (h1 : O3.coef g = 1) (hv : O3.Valid g) (hg : O3.coef g • O3.rot g = σ.matrix) (hpos : 0 < k.inC)
    (weight : Tensor ℝ) (hw : weight.shape = [k.outC, k.inC / k.groups, k.kernelSize, k.kernelSize, k.kernelSize])
    (bias : Option (Tensor ℝ)) (hb : BiasShape bias k.outC 3) (N n : ℕ) (x x' : Tensor ℝ) (H : Option (Tensor O3.Elt))
    (hH : (H.getD M.kernel.gridH).shape = [n]) (hgood : ∀ i < n, O3.Valid ((H.getD M.kernel.gridH).get [i])) 
    (hclosed : c.permute = false → ClosedGrid (O3.leftApplyO3 g) n (H.getD M.kernel.gridH))
    (hx : MovedTensor LatticeSym.ax3 σ [N, k.inC] S' S x x')
    {bs : List (Block O3.Elt 3)} {t : Sizes}
    (hchain : Chain N (ConvE3 s opt1 opt2 g σ) (bs.map (Block.draw id)) (bs.map (Block.draw (O3.leftApplyO3 g))) ⟨k.outC, n, outDims ax S', outDims ax S⟩ t)
    (ht : 0 < (t.elements :: t.before).prod) :
    MovedLaw (((normal 4).prod uniform01).prod (Measure.pi fun _ : Fin bs.length => ((normal 4).prod uniform01)))
      (fun w => M.lift ((fun w : SO3.Quat × ℝ => moveE3 w.1 w.2) w.1) weight bias x H >>= run (drawn (fun w : SO3.Quat × ℝ => moveE3 w.1 w.2) bs (List.ofFn w.2)) >>= avgPooled)
      (fun w => M.lift ((fun w : SO3.Quat × ℝ => moveE3 w.1 w.2) w.1) weight bias x' H >>= run (drawn (fun w : SO3.Quat × ℝ => moveE3 w.1 w.2) bs (List.ofFn w.2)) >>= avgPooled)
      (SamePooled N t.channels) := by
  obtain ⟨T, T', hT, hT', kT, kT'⟩ := lift_law_E3 s opt1 opt2 k c hk hm hM hgeo g hσ hS hsym h1 hv hg hpos weight hw bias hb N n x x' H hH hgood hclosed hx
  obtain ⟨C, C', hC, hC', kC, kC'⟩ := compat_E3 h1 hv
  have := network_law (by norm_num) (fun h => convE3_preserves s opt1 opt2 h1 hv hg N h) (s := ⟨k.outC, n, outDims ax S', outDims ax S⟩) (matches_sym hσ hsym)
    (chain_drawn_E3 hchain) hC hC' kC kC' hT hT' (first := fun u => M.lift ((fun w : SO3.Quat × ℝ => moveE3 w.1 w.2) u) weight bias x H)
    (first' := fun u => M.lift ((fun w : SO3.Quat × ℝ => moveE3 w.1 w.2) u) weight bias x' H) kT kT' avgPooled (SamePooled N t.channels) (avg_post ht)
  exact this

/-- With `GMaxGlobalPool` at the end likewise. -/
theorem C93_E3_max (s : GridCache.Store (Tensor ℝ)) (opt1 opt2 : List SO3.Euler) (k : KernelArgs O3.Elt SizeArg) (c : ConvOpts) (hk : 2 ≤ k.kernelSize) {m p}
    (hm : SpatialModes k.spatialMode k.spatialPad m p)
    {M : Module O3.Elt 3} (hM : liftingE3 s opt1 opt2 k c = .ok M) {mode : F.CPad} {ax : List Axis}
    (hgeo : HasGeometry (argsE3 k c) mode ax)
    (g : O3.Elt) {σ : LatticeSym 3} {S' S : List ℕ} (hσ : LatticeSym.Matches LatticeSym.ax3 σ S' S)
    (hS : GeomOk mode ax S) (hsym : SymmetricGeometry 3 ax S) (h1 : O3.coef g = 1) (hv : O3.Valid g) (hg : O3.coef g • O3.rot g = σ.matrix) (hpos : 0 < k.inC)
    (weight : Tensor ℝ) (hw : weight.shape = [k.outC, k.inC / k.groups, k.kernelSize, k.kernelSize, k.kernelSize])
    (bias : Option (Tensor ℝ)) (hb : BiasShape bias k.outC 3) (N n : ℕ) (x x' : Tensor ℝ) (H : Option (Tensor O3.Elt))
    (hH : (H.getD M.kernel.gridH).shape = [n]) (hgood : ∀ i < n, O3.Valid ((H.getD M.kernel.gridH).get [i])) 
    (hclosed : c.permute = false → ClosedGrid (O3.leftApplyO3 g) n (H.getD M.kernel.gridH))
    (hx : MovedTensor LatticeSym.ax3 σ [N, k.inC] S' S x x')
    {bs : List (Block O3.Elt 3)} {t : Sizes}
    (hchain : Chain N (ConvE3 s opt1 opt2 g σ) (bs.map (Block.draw id)) (bs.map (Block.draw (O3.leftApplyO3 g))) ⟨k.outC, n, outDims ax S', outDims ax S⟩ t)
    (ht : 0 < (t.elements :: t.before).prod) :
    MovedLaw (((normal 4).prod uniform01).prod (Measure.pi fun _ : Fin bs.length => ((normal 4).prod uniform01)))
      (fun w => M.lift ((fun w : SO3.Quat × ℝ => moveE3 w.1 w.2) w.1) weight bias x H >>= run (drawn (fun w : SO3.Quat × ℝ => moveE3 w.1 w.2) bs (List.ofFn w.2)) >>= maxPooled)
      (fun w => M.lift ((fun w : SO3.Quat × ℝ => moveE3 w.1 w.2) w.1) weight bias x' H >>= run (drawn (fun w : SO3.Quat × ℝ => moveE3 w.1 w.2) bs (List.ofFn w.2)) >>= maxPooled)
      (SamePooled N t.channels) := by
  obtain ⟨T, T', hT, hT', kT, kT'⟩ := lift_law_E3 s opt1 opt2 k c hk hm hM hgeo g hσ hS hsym h1 hv hg hpos weight hw bias hb N n x x' H hH hgood hclosed hx
  obtain ⟨C, C', hC, hC', kC, kC'⟩ := compat_E3 h1 hv
  have := network_law (by norm_num) (fun h => convE3_preserves s opt1 opt2 h1 hv hg N h) (s := ⟨k.outC, n, outDims ax S', outDims ax S⟩) (matches_sym hσ hsym)
    (chain_drawn_E3 hchain) hC hC' kC kC' hT hT' (first := fun u => M.lift ((fun w : SO3.Quat × ℝ => moveE3 w.1 w.2) u) weight bias x H)
    (first' := fun u => M.lift ((fun w : SO3.Quat × ℝ => moveE3 w.1 w.2) u) weight bias x' H) kT kT' maxPooled (SamePooled N t.channels) (max_post ht)
  exact this

/-! ## Consequences -/

/-- the number at `[b, c, 0]` of a pooled result, zero if the call fails. -/
noncomputable def pooledValue (b c : ℕ) : Except PyErr (Tensor ℝ) → ℝ
  | .ok z => z.get [b, c, 0]
  | .error _ => 0

/-- Every single output number has the same distribution for both images. -/
theorem C93_value {Ω : Type} [MeasurableSpace Ω] {P : Measure Ω} {f f' : Ω → Except PyErr (Tensor ℝ)} {N C : ℕ}
    (h : MovedLaw P f f' (SamePooled N C)) {b c : ℕ} (hb : b < N) (hc : c < C) (B : Set ℝ) :
    P {ω | pooledValue b c (f ω) ∈ B} = P {ω | pooledValue b c (f' ω) ∈ B} := by
  obtain ⟨h1, h2, h3⟩ := h
  have key : ∀ {f : Ω → Except PyErr (Tensor ℝ)}, (∀ᵐ ω ∂P, ∃ r, f ω = .ok r) →
      P {ω | pooledValue b c (f ω) ∈ B} = P {ω | ∃ r ∈ {z : Tensor ℝ | z.get [b, c, 0] ∈ B}, f ω = .ok r} := by
    intro f hf
    refine measure_congr ?_
    filter_upwards [hf] with ω ⟨r, e⟩
    refine propext ⟨fun h => ⟨r, ?_, e⟩, ?_⟩
    · have h : pooledValue b c (f ω) ∈ B := h
      rw [e] at h; exact h
    · rintro ⟨r', hr, e'⟩
      show pooledValue b c (f ω) ∈ B
      rw [e']; exact hr
  rw [key h1, key h2]
  exact h3 _ _ fun r r' hm => by
    show r.get [b, c, 0] ∈ B ↔ r'.get [b, c, 0] ∈ B
    rw [hm.2.2 b c hb hc]

/-- Averaged over the draws, every output number is the same for both images (if it depends measurably on the draws). -/
theorem C93_mean {Ω : Type} [MeasurableSpace Ω] {P : Measure Ω} {f f' : Ω → Except PyErr (Tensor ℝ)} {N C : ℕ}
    (h : MovedLaw P f f' (SamePooled N C)) {b c : ℕ} (hb : b < N) (hc : c < C)
    (hm : AEMeasurable (fun ω => pooledValue b c (f ω)) P) (hm' : AEMeasurable (fun ω => pooledValue b c (f' ω)) P) :
    ∫ ω, pooledValue b c (f ω) ∂P = ∫ ω, pooledValue b c (f' ω) ∂P := by
  have e : P.map (fun ω => pooledValue b c (f ω)) = P.map (fun ω => pooledValue b c (f' ω)) := by
    ext B hB
    rw [Measure.map_apply_of_aemeasurable hm hB, Measure.map_apply_of_aemeasurable hm' hB]
    exact C93_value h hb hc B
  have i1 := integral_map hm (f := id) (by fun_prop)
  have i2 := integral_map hm' (f := id) (by fun_prop)
  simp only [id] at i1 i2
  rw [← i1, ← i2, e]

/-- `rotOpts` with `permute_output_grid=True`. -/
def drawOpts : ConvOpts := { rotOpts with permute := true }

/-- Three rotations are not closed under a quarter turn. With `permute_output_grid=True`, lifting convolution, ReLU, separable
convolution and global average pooling nevertheless give every output number the same distribution for 8 x 9 images and for
the turned images. All parameters and images are arbitrary. -/
example (weight weightH weight₂ : Tensor ℝ) (hw : weight.shape = [6, 2, 5, 5]) (hwH : weightH.shape = [3, 6, 3])
    (hw₂ : weight₂.shape = [6, 1, 5, 5]) (x x' : Tensor ℝ)
    (hx : MovedTensor LatticeSym.ax2 KernelSE2.quarter [3, 4] [8, 9] [9, 8] x x')
    (M M₂ : Module ℝ 2) (hM : liftingSE2 (KernelSE2.exArgs 3) drawOpts = .ok M) (hM₂ : fullSE2 (exArgs₂ 3) drawOpts = .ok M₂) (B : Set ℝ)
    (net : List (Block ℝ 2)) (hnet : net = [.act .relu, .separableSE M₂ id weightH weight₂ none]) :
    (uniform01.prod (Measure.pi fun _ : Fin net.length => uniform01))
        {w | pooledValue 1 2 (M.lift (moveSE2 w.1) weight none x none >>= run (drawn moveSE2 net (List.ofFn w.2)) >>= avgPooled) ∈ B} =
    (uniform01.prod (Measure.pi fun _ : Fin net.length => uniform01))
        {w | pooledValue 1 2 (M.lift (moveSE2 w.1) weight none x' none >>= run (drawn moveSE2 net (List.ofFn w.2)) >>= avgPooled) ∈ B} := by
  obtain ⟨h1, h2, h3, h4⟩ := rot_geometry 3
  have hgrid : M.kernel.gridH = Tensor.ofList (SO2.uniformGrid 3) := by
    obtain ⟨K, hK, -, hMK, -⟩ := build_ok hM
    rw [hMK]
    unfold KernelSE2.lifting checkGroups at hK
    split at hK
    · cases hK
    · cases hK; rfl
  have o1 : outDims (List.replicate 2 (sameAxis 5 1)) [8, 9] = [8, 9] := by simp [outDims, Axis.out, Axis.span, sameAxis]
  have o2 : outDims (List.replicate 2 (sameAxis 5 1)) [9, 8] = [9, 8] := by simp [outDims, Axis.out, Axis.span, sameAxis]
  have f : firstAxes .circular (.str "same") (List.replicate 2 (sameAxis 5 1)) = List.replicate 2 ⟨1, 1, 1, 2, 2⟩ := by
    simp [firstAxes, firstAxis, sameAxis]
  have f1 : outDims (List.replicate 2 ⟨1, 1, 1, 2, 2⟩) [8, 9] = [12, 13] := by simp [outDims, Axis.out, Axis.span]
  have f2 : outDims (List.replicate 2 ⟨1, 1, 1, 2, 2⟩) [9, 8] = [13, 12] := by simp [outDims, Axis.out, Axis.span]
  obtain ⟨g1, -, g2, -⟩ := C59_same_geometry 2 6 6 5 1 (.int 3) 2 "circular" .circular (Or.inr (Or.inr (Or.inr ⟨rfl, rfl⟩)))
    (by norm_num) (by norm_num) [13, 12] rfl (by simp [F.padAllowed])
  have g3 : GeomOk .circular (List.replicate 2 ⟨1, 1, 1, 2, 2⟩) [9, 8] :=
    .cons ⟨by norm_num, by norm_num, by norm_num, by simp [Axis.span], rfl⟩
      (.cons ⟨by norm_num, by norm_num, by norm_num, by simp [Axis.span], rfl⟩ .nil)
  have hchain : Chain 3 (ConvSE2 (Real.pi / 2) KernelSE2.quarter) (net.map (Block.draw id)) (net.map (Block.draw id))
      ⟨6, 3, [8, 9], [9, 8]⟩ ⟨6, 3, outDims (List.replicate 2 (sameAxis 5 1)) [12, 13], outDims (List.replicate 2 (sameAxis 5 1)) [13, 12]⟩ := by
    rw [hnet]
    refine .act _ trivial (.conv ?_ (.nil _))
    exact ConvSE2.separable (exArgs₂ 3) drawOpts (by norm_num [exArgs₂, KernelSE2.exArgs]) defaultModes 1 (exReady₂ 3 (by norm_num)) hM₂
      (g1 rfl) (S' := [8, 9]) (S := [9, 8]) (by rw [show drawOpts.padding = .str "same" from rfl, f]; exact g3)
      ⟨⟨1, 1, 1, 2, 2⟩, f, rfl, fun s _ => one_dvd _⟩
      (by rw [show drawOpts.padding = .str "same" from rfl, f, f2]) (by rw [show drawOpts.padding = .str "same" from rfl, f, f1])
      g2 ⟨sameAxis 5 1, rfl, by simp [sameAxis], fun s _ => one_dvd _⟩
      (by norm_num [exArgs₂, KernelSE2.exArgs]) weightH weight₂
      (by rw [hwH]; show [3, 6, 3] = [(SO2.uniformGrid 3).length, 6, 6 / 2]; rw [SO2.C03_length])
      (by rw [hw₂]; simp [exArgs₂, KernelSE2.exArgs]) none (fun b hb => by cases hb) (by norm_num) id id
      (fun _ _ => rfl)
  have law := C93_SE2_avg (KernelSE2.exArgs 3) drawOpts (by norm_num [KernelSE2.exArgs]) defaultModes hM h1
    (Real.pi / 2) h4 h2 h3 KernelSE2.quarter_matrix (by norm_num [KernelSE2.exArgs]) weight (by rw [hw]; simp [KernelSE2.exArgs]) none
    (fun b hb => by cases hb) 3 3 x x' none (by show M.kernel.gridH.shape = _; rw [hgrid]; show [_] = _; rw [SO2.C03_length])
    (fun h => by cases h) hx (bs := net) (by rw [o1, o2]; exact hchain) (by simp [outDims, Axis.out, Axis.span, sameAxis])
  exact C93_value law (by norm_num) (by norm_num) B

end GConv.Net

import Verif.Props.Rounding
import Verif.Spec.RoundedNet
import Verif.Props.StabilityNet
import Verif.Props.Network

/-! # C116: rounding errors of whole networks -/

namespace GConv.Rounding

open Tensor Spec Conv Stability Net

variable {G : Type} {d : ℕ}

theorem Within.comm {ε : ℝ} {x y : Tensor ℝ} (h : Within ε x y) : Within ε y x :=
  ⟨h.1.symm, fun i hi => by rw [abs_sub_comm]; exact h.2 i (by rw [h.1]; exact hi)⟩

theorem Within.add {ε ε' : ℝ} {x y z : Tensor ℝ} (h : Within ε x y) (h' : Within ε' y z) : Within (ε + ε') x z :=
  ⟨h.1.trans h'.1, fun i hi => (abs_sub_le _ (y.get i) _).trans (add_le_add (h.2 i hi) (h'.2 i (by rw [← h.1]; exact hi)))⟩

theorem Within.refl (x : Tensor ℝ) {ε : ℝ} (h : 0 ≤ ε) : Within ε x x := ⟨rfl, fun i _ => by rw [sub_self, abs_zero]; exact h⟩

/-- all inputs of one shape that are accepted give outputs of one shape on one grid. -/
theorem one_shape {f : Tensor ℝ → Except PyErr (Tensor ℝ × Tensor G)} {s : List ℕ} (hf : LipAt WithinLayer f s) {x y x' y' : Tensor ℝ}
    {K K' : Tensor G} (hx : x.shape = s) (hx' : x'.shape = s) (h : f x = .ok (y, K)) (h' : f x' = .ok (y', K')) :
    y.shape = y'.shape ∧ K = K' := by
  obtain ⟨κ, -, hf⟩ := hf
  obtain ⟨ε, hε, hw⟩ := exists_within (hx.trans hx'.symm)
  have := hf ε hε x x' hx hw
  rw [h, h'] at this
  cases this with
  | ok h => exact ⟨h.1.1, h.2⟩

/-- a layer `f` computed up to `δ`, followed by the rest `g`. -/
theorem compose {B : Type} {f : Tensor ℝ → Except PyErr (Tensor ℝ × Tensor G)} {s : List ℕ} (hf : LipAt WithinLayer f s)
    {g : Tensor ℝ × Tensor G → Except PyErr B} {R : ℝ → B → B → Prop} {Run : ℝ → Tensor ℝ × Tensor G → B → Prop}
    (htri : ∀ a b x y z, R a x y → R b y z → R (a + b) x z) (hgl : ∀ K s', LipAt R (fun x => g (x, K)) s')
    (hg : ∀ K s', ∃ κ, 0 ≤ κ ∧ ∀ δ, 0 ≤ δ → ∀ x : Tensor ℝ, x.shape = s' → ∀ r, Run δ (x, K) r → ∃ e, g (x, K) = .ok e ∧ R (κ * δ) r e) :
    ∃ κ, 0 ≤ κ ∧ ∀ δ, 0 ≤ δ → ∀ x : Tensor ℝ, x.shape = s → ∀ y K z r, f x = .ok (y, K) → Within δ z y → Run δ (z, K) r →
      ∃ e, (f x >>= g) = .ok e ∧ R (κ * δ) r e := by
  by_cases hex : ∃ x : Tensor ℝ, x.shape = s ∧ ∃ y K, f x = .ok (y, K)
  · obtain ⟨x₀, hx₀, y₀, K₀, h₀⟩ := hex
    obtain ⟨κ, k0, hk⟩ := hg K₀ y₀.shape
    obtain ⟨κ', k0', hk'⟩ := hgl K₀ y₀.shape
    refine ⟨κ + κ', add_nonneg k0 k0', fun δ hδ x hx y K z r hy hz hr => ?_⟩
    obtain ⟨e1, rfl⟩ := one_shape hf hx hx₀ hy h₀
    obtain ⟨e, g1, g2⟩ := hk δ hδ z (hz.1.trans e1) r hr
    have := hk' δ hδ z y (hz.1.trans e1) hz
    dsimp only at this
    rw [g1] at this
    rw [hy, ok_bind]
    generalize hq : g (y, K) = q at this
    cases this with
    | ok h => exact ⟨_, rfl, by rw [add_mul]; exact htri _ _ _ _ _ g2 h⟩
  · exact ⟨0, le_rfl, fun δ hδ x hx y K z r hy _ _ => absurd ⟨x, hx, y, K, hy⟩ hex⟩

theorem layer_tri (a b : ℝ) (x y z : Tensor ℝ × Tensor G) (h : WithinLayer a x y) (h' : WithinLayer b y z) : WithinLayer (a + b) x z :=
  ⟨Within.add h.1 h'.1, h.2.trans h'.2⟩

/-- Networks: for every chain of layers, grid and input shape there is a constant `κ` such that, if every layer is computed up to
`δ`, the exact pass succeeds with the same group elements and the features that come out are within `κ δ` of the exact ones. -/
theorem C116_network (bs : List (Block G d)) (hb : ∀ b ∈ bs, Smooth b) (H : Tensor G) (s : List ℕ) :
    ∃ κ, 0 ≤ κ ∧ ∀ δ, 0 ≤ δ → ∀ x : Tensor ℝ, x.shape = s → ∀ r, RoundedRun δ bs (x, H) r →
      ∃ e, run bs (x, H) = .ok e ∧ WithinLayer (κ * δ) r e := by
  induction bs generalizing H s with
  | nil =>
    refine ⟨0, le_rfl, fun δ hδ x _ r hr => ?_⟩
    cases hr
    exact ⟨_, rfl, Within.refl _ (by rw [zero_mul]), rfl⟩
  | cons b bs ih =>
    have hb' : ∀ b ∈ bs, Smooth b := fun b h => hb b (List.mem_cons_of_mem _ h)
    obtain ⟨κ, k0, hk⟩ := compose (R := WithinLayer) (Run := fun δ xH r => RoundedRun δ bs xH r) (g := run bs)
      (block_lip b (hb b (List.mem_cons_self ..)) H s) layer_tri (fun K s' => run_lip bs hb' K s') (fun K s' => ih hb' K s')
    refine ⟨κ, k0, fun δ hδ x hx r hr => ?_⟩
    cases hr with
    | cons h1 h2 h3 => exact hk δ hδ x hx _ _ _ _ h1 h2 h3

/-- the poolings at the end of a classifier. -/
def Pools (pool : Tensor ℝ × Tensor G → Except PyErr (Tensor ℝ)) : Prop := pool = avgPooled ∨ pool = maxPooled

theorem pool_lip {pool : Tensor ℝ × Tensor G → Except PyErr (Tensor ℝ)} (hp : Pools pool) {ε : ℝ} (hε : 0 ≤ ε) {x y : Tensor ℝ}
    (H : Tensor G) (h : Within ε x y) : Outcomes2 (Within ε) (pool (x, H)) (pool (y, H)) := by
  rcases hp with rfl | rfl
  · have := (C103_avg_pool hε h).2
    show Outcomes2 _ ((Pooling.avgGlobal x).map values) ((Pooling.avgGlobal y).map values)
    generalize Pooling.avgGlobal x = p at *
    generalize Pooling.avgGlobal y = q at *
    cases this with
    | error e => exact .error e
    | ok h => exact .ok h
  · have := (C103_max_pool h).2
    show Outcomes2 _ ((Pooling.maxGlobal x).map values) ((Pooling.maxGlobal y).map values)
    generalize Pooling.maxGlobal x = p at *
    generalize Pooling.maxGlobal y = q at *
    cases this with
    | error e => exact .error e
    | ok h => exact .ok h

theorem poolAt {pool : Tensor ℝ × Tensor G → Except PyErr (Tensor ℝ)} (hp : Pools pool) (H : Tensor G) (s : List ℕ) :
    LipAt Within (fun x => pool (x, H)) s :=
  ⟨1, zero_le_one, fun ε hε x y _ h => by rw [one_mul]; exact pool_lip hp hε H h⟩

/-- Classifiers (lifting layer, chain of layers, global average or maximum pooling): the same for the pooled features. -/
theorem C116_classifier (L : Module G d) (move : G → G) (weight : Tensor ℝ) (bias : Option (Tensor ℝ)) (H : Option (Tensor G))
    (bs : List (Block G d)) (hb : ∀ b ∈ bs, Smooth b) {pool : Tensor ℝ × Tensor G → Except PyErr (Tensor ℝ)} (hp : Pools pool)
    (s : List ℕ) :
    ∃ κ, 0 ≤ κ ∧ ∀ δ, 0 ≤ δ → ∀ x v : Tensor ℝ, x.shape = s → RoundedClassifier δ L move weight bias H bs pool x v →
      ∃ e, (L.lift move weight bias x H >>= run bs >>= pool) = .ok e ∧ Within (κ * δ) v e := by
  obtain ⟨κ, k0, hk⟩ := compose (R := Within) (g := fun yH => run bs yH >>= pool)
    (Run := fun δ xH v => ∃ r p, RoundedRun δ bs xH r ∧ pool r = .ok p ∧ Within δ v p)
    (lift_lip L.layer L.kernel weight bias (permuteGrid L.permute move (H.getD L.kernel.gridH)) s)
    (fun _ _ _ _ _ h h' => Within.add h h') (fun K s' => LipAt.comp (run_lip bs hb K s') fun K s' => poolAt hp K s') (fun K s' => by
      obtain ⟨κ, k0, hk⟩ := C116_network bs hb K s'
      refine ⟨1 + κ, by positivity, fun δ hδ x hx v hv => ?_⟩
      obtain ⟨r, p, h1, h2, h3⟩ := hv
      obtain ⟨⟨e, K'⟩, e1, e2, e3⟩ := hk δ hδ x hx r h1
      obtain ⟨r, K''⟩ := r
      dsimp only at e2 e3
      subst e3
      have := pool_lip hp (mul_nonneg k0 hδ) K'' e2
      rw [e1, ok_bind]
      rw [h2] at this
      generalize hq : pool (e, K'') = q at this
      cases this with
      | ok h => exact ⟨_, rfl, by rw [add_mul, one_mul]; exact Within.add h3 h⟩)
  refine ⟨κ, k0, fun δ hδ x v hx ⟨y, K, z, r, p, h1, h2, h3, h4, h5⟩ => ?_⟩
  obtain ⟨e, e1, e2⟩ := hk δ hδ x hx y K z v h1 h2 ⟨r, p, h3, h4, h5⟩
  refine ⟨e, ?_, e2⟩
  rw [← e1]
  show (L.lift move weight bias x H >>= run bs >>= pool) = (L.lift move weight bias x H >>= fun yH => run bs yH >>= pool)
  cases L.lift move weight bias x H <;> rfl

/-! ## turned images -/

/-- the exact pooled features of two passes agree, so the computed ones differ by at most `κ δ`. -/
theorem turned_close {κ₁ κ₂ δ : ℝ} {v v' e e' : Tensor ℝ} (h : Within (κ₁ * δ) v e) (h' : Within (κ₂ * δ) v' e') {N C : ℕ}
    (he : e.shape = [N, C, 1]) (he' : e'.shape = [N, C, 1]) (heq : ∀ b c, b < N → c < C → e'.get [b, c, 0] = e.get [b, c, 0]) :
    ∀ b c, b < N → c < C → |v'.get [b, c, 0] - v.get [b, c, 0]| ≤ (κ₁ + κ₂) * δ := fun b c hb hc => by
  have h1 := h.2 [b, c, 0] (by rw [h.1, he]; simp [hb, hc])
  have h2 := h'.2 [b, c, 0] (by rw [h'.1, he']; simp [hb, hc])
  rw [heq b c hb hc] at h2
  have e : v'.get [b, c, 0] - v.get [b, c, 0] = (v'.get [b, c, 0] - e.get [b, c, 0]) - (v.get [b, c, 0] - e.get [b, c, 0]) := by ring
  rw [e]
  exact (abs_sub _ _).trans (by linarith)

theorem pooled_avg {A : Except PyErr (Tensor ℝ × Tensor G)} {z : Tensor ℝ} (h : (A >>= fun yH => Pooling.avgGlobal yH.1) = .ok (.tensor z)) :
    (A >>= avgPooled) = .ok z := by
  cases A with
  | error e => cases h
  | ok yH =>
    rw [ok_bind] at h ⊢
    unfold avgPooled
    rw [h]; rfl

theorem pooled_max {A : Except PyErr (Tensor ℝ × Tensor G)} {v : Tensor ℝ} {i} (h : (A >>= fun yH => Pooling.maxGlobal yH.1) = .ok (.pair v i)) :
    (A >>= maxPooled) = .ok v := by
  cases A with
  | error e => cases h
  | ok yH =>
    rw [ok_bind] at h ⊢
    unfold maxPooled
    rw [h]; rfl

/-- A classifier (`GLiftingConvSE2`, chain of layers, global pooling) in which every layer is computed up to `δ`: the features of an
image and of the turned image differ by at most `κ δ`, with one constant `κ` for all images. -/
theorem C116_SE2 (k : KernelArgs ℝ ℕ) (c : ConvOpts) (hk : 2 ≤ k.kernelSize) {m p}
    (hm : SpatialModes k.spatialMode k.spatialPad m p)
    {M : Module ℝ 2} (hM : liftingSE2 k c = .ok M) {mode : F.CPad} {ax : List Axis}
    (hgeo : HasGeometry (argsSE2 k c) mode ax)
    (g : ℝ) {σ : LatticeSym 2} {S' S : List ℕ} (hσ : LatticeSym.Matches LatticeSym.ax2 σ S' S)
    (hS : GeomOk mode ax S) (hsym : SymmetricGeometry 2 ax S) (hg : SO2.angleToMatrix g = σ.matrix) (hpos : 0 < k.inC)
    (weight : Tensor ℝ) (hw : weight.shape = [k.outC, k.inC / k.groups, k.kernelSize, k.kernelSize])
    (bias : Option (Tensor ℝ)) (hb : BiasShape bias k.outC 2) (N n : ℕ)
    (H H' : Option (Tensor ℝ)) (move move' : ℝ → ℝ) (Hc Hc' : Tensor ℝ)
    (hHc : Hc = if c.permute then (H.getD M.kernel.gridH).map move else H.getD M.kernel.gridH)
    (hHc' : Hc' = if c.permute then (H'.getD M.kernel.gridH).map move' else H'.getD M.kernel.gridH)
    {π : Equiv.Perm (Fin n)} (hH : MovedGrid (SO2.leftApplyAngle g) π Hc Hc')
    {bs bs' : List (Block ℝ 2)} {t : Sizes}
    (hchain : Chain N (ConvSE2 g σ) bs bs' ⟨k.outC, n, outDims ax S', outDims ax S⟩ t)
    (ht : 0 < (t.elements :: t.before).prod) 
    (hs : ∀ b ∈ bs, Smooth b) (hs' : ∀ b ∈ bs', Smooth b)
    {pool : Tensor ℝ × Tensor _ → Except PyErr (Tensor ℝ)} (hp : Pools pool) :
    ∃ κ, 0 ≤ κ ∧ ∀ δ, 0 ≤ δ → ∀ x x' v v' : Tensor ℝ, MovedTensor LatticeSym.ax2 σ [N, k.inC] S' S x x' →
      RoundedClassifier δ M move weight bias H bs pool x v → RoundedClassifier δ M move' weight bias H' bs' pool x' v' →
      ∀ b c, b < N → c < t.channels → |v'.get [b, c, 0] - v.get [b, c, 0]| ≤ κ * δ := by
  obtain ⟨κ₁, k1, r1⟩ := C116_classifier M move weight bias H bs hs hp (N :: k.inC :: S')
  obtain ⟨κ₂, k2, r2⟩ := C116_classifier M move' weight bias H' bs' hs' hp (N :: k.inC :: S)
  refine ⟨κ₁ + κ₂, add_nonneg k1 k2, fun δ hδ x x' v v' hx r r' => ?_⟩
  obtain ⟨e, e1, e2⟩ := r1 δ hδ x v hx.1 r
  obtain ⟨e', f1, f2⟩ := r2 δ hδ x' v' hx.2.1 r'
  obtain ⟨⟨z, z', a1, a2, a3, a4, a5⟩, u, i, u', i', c1, c2, c3, c4, c5⟩ :=
    C75_SE2_invariant k c hk hm hM hgeo g hσ hS hsym hg hpos weight hw bias hb N n x x' H H' move move' Hc Hc' hHc hHc' hH hx hchain ht
  rcases hp with rfl | rfl
  · have q := (pooled_avg a1).symm.trans e1
    cases q
    have q := (pooled_avg a2).symm.trans f1
    cases q
    exact turned_close e2 f2 a3 a4 a5
  · have q := (pooled_max c1).symm.trans e1
    cases q
    have q := (pooled_max c2).symm.trans f1
    cases q
    exact turned_close e2 f2 c3 c4 c5

/-- SE(3). -/
theorem C116_SE3 (s : GridCache.Store (Tensor ℝ)) (opt : List SO3.Euler) (k : KernelArgs SO3.Mat3 ℕ) (c : ConvOpts) (hk : 2 ≤ k.kernelSize) {m p}
    (hm : SpatialModes k.spatialMode k.spatialPad m p)
    {M : Module SO3.Mat3 3} (hM : liftingSE3 s opt k c = .ok M) {mode : F.CPad} {ax : List Axis}
    (hgeo : HasGeometry (argsSE3 k c) mode ax)
    {σ : LatticeSym 3} {S' S : List ℕ} (hσ : LatticeSym.Matches LatticeSym.ax3 σ S' S)
    (hS : GeomOk mode ax S) (hsym : SymmetricGeometry 3 ax S) (hg : IsRotation σ.matrix) (hpos : 0 < k.inC)
    (weight : Tensor ℝ) (hw : weight.shape = [k.outC, k.inC / k.groups, k.kernelSize, k.kernelSize, k.kernelSize])
    (bias : Option (Tensor ℝ)) (hb : BiasShape bias k.outC 3) (N n : ℕ)
    (H H' : Option (Tensor SO3.Mat3)) (move move' : SO3.Mat3 → SO3.Mat3) (Hc Hc' : Tensor SO3.Mat3)
    (hHc : Hc = if c.permute then (H.getD M.kernel.gridH).map move else H.getD M.kernel.gridH)
    (hHc' : Hc' = if c.permute then (H'.getD M.kernel.gridH).map move' else H'.getD M.kernel.gridH)
    {π : Equiv.Perm (Fin n)} (hH : MovedGrid (SO3.leftApplyMatrix σ.matrix) π Hc Hc')
    {bs bs' : List (Block SO3.Mat3 3)} {t : Sizes}
    (hchain : Chain N (ConvSE3 s opt σ) bs bs' ⟨k.outC, n, outDims ax S', outDims ax S⟩ t)
    (ht : 0 < (t.elements :: t.before).prod) 
    (hs : ∀ b ∈ bs, Smooth b) (hs' : ∀ b ∈ bs', Smooth b)
    {pool : Tensor ℝ × Tensor _ → Except PyErr (Tensor ℝ)} (hp : Pools pool) :
    ∃ κ, 0 ≤ κ ∧ ∀ δ, 0 ≤ δ → ∀ x x' v v' : Tensor ℝ, MovedTensor LatticeSym.ax3 σ [N, k.inC] S' S x x' →
      RoundedClassifier δ M move weight bias H bs pool x v → RoundedClassifier δ M move' weight bias H' bs' pool x' v' →
      ∀ b c, b < N → c < t.channels → |v'.get [b, c, 0] - v.get [b, c, 0]| ≤ κ * δ := by
  obtain ⟨κ₁, k1, r1⟩ := C116_classifier M move weight bias H bs hs hp (N :: k.inC :: S')
  obtain ⟨κ₂, k2, r2⟩ := C116_classifier M move' weight bias H' bs' hs' hp (N :: k.inC :: S)
  refine ⟨κ₁ + κ₂, add_nonneg k1 k2, fun δ hδ x x' v v' hx r r' => ?_⟩
  obtain ⟨e, e1, e2⟩ := r1 δ hδ x v hx.1 r
  obtain ⟨e', f1, f2⟩ := r2 δ hδ x' v' hx.2.1 r'
  obtain ⟨⟨z, z', a1, a2, a3, a4, a5⟩, u, i, u', i', c1, c2, c3, c4, c5⟩ :=
    C75_SE3_invariant s opt k c hk hm hM hgeo hσ hS hsym hg hpos weight hw bias hb N n x x' H H' move move' Hc Hc' hHc hHc' hH hx hchain ht
  rcases hp with rfl | rfl
  · have q := (pooled_avg a1).symm.trans e1
    cases q
    have q := (pooled_avg a2).symm.trans f1
    cases q
    exact turned_close e2 f2 a3 a4 a5
  · have q := (pooled_max c1).symm.trans e1
    cases q
    have q := (pooled_max c2).symm.trans f1
    cases q
    exact turned_close e2 f2 c3 c4 c5

/-- E(2), symmetries with coefficient 1. -/
theorem C116_E2 (k : KernelArgs O2.Elt SizeArg) (c : ConvOpts) (hk : 2 ≤ k.kernelSize) {m p}
    (hm : SpatialModes k.spatialMode k.spatialPad m p)
    {M : Module O2.Elt 2} (hM : liftingE2 k c = .ok M) {mode : F.CPad} {ax : List Axis}
    (hgeo : HasGeometry (argsE2 k c) mode ax)
    (g : O2.Elt) {σ : LatticeSym 2} {S' S : List ℕ} (hσ : LatticeSym.Matches LatticeSym.ax2 σ S' S)
    (hS : GeomOk mode ax S) (hsym : SymmetricGeometry 2 ax S) (h1 : g.1 = 1) (hg : g.1 • SO2.angleToMatrix g.2 = σ.matrix) (hpos : 0 < k.inC)
    (weight : Tensor ℝ) (hw : weight.shape = [k.outC, k.inC / k.groups, k.kernelSize, k.kernelSize])
    (bias : Option (Tensor ℝ)) (hb : BiasShape bias k.outC 2) (N n : ℕ)
    (H H' : Option (Tensor O2.Elt)) (move move' : O2.Elt → O2.Elt) (Hc Hc' : Tensor O2.Elt)
    (hHc : Hc = if c.permute then (H.getD M.kernel.gridH).map move else H.getD M.kernel.gridH)
    (hHc' : Hc' = if c.permute then (H'.getD M.kernel.gridH).map move' else H'.getD M.kernel.gridH)
    {π : Equiv.Perm (Fin n)} (hH : MovedGrid (O2.leftApplyAngle g) π Hc Hc') (hgood : ∀ i < n, (fun h : O2.Elt => h.1 = 1 ∨ h.1 = -1) (Hc.get [i]))
    {bs bs' : List (Block O2.Elt 2)} {t : Sizes}
    (hchain : Chain N (ConvE2 g σ) bs bs' ⟨k.outC, n, outDims ax S', outDims ax S⟩ t)
    (ht : 0 < (t.elements :: t.before).prod) 
    (hs : ∀ b ∈ bs, Smooth b) (hs' : ∀ b ∈ bs', Smooth b)
    {pool : Tensor ℝ × Tensor _ → Except PyErr (Tensor ℝ)} (hp : Pools pool) :
    ∃ κ, 0 ≤ κ ∧ ∀ δ, 0 ≤ δ → ∀ x x' v v' : Tensor ℝ, MovedTensor LatticeSym.ax2 σ [N, k.inC] S' S x x' →
      RoundedClassifier δ M move weight bias H bs pool x v → RoundedClassifier δ M move' weight bias H' bs' pool x' v' →
      ∀ b c, b < N → c < t.channels → |v'.get [b, c, 0] - v.get [b, c, 0]| ≤ κ * δ := by
  obtain ⟨κ₁, k1, r1⟩ := C116_classifier M move weight bias H bs hs hp (N :: k.inC :: S')
  obtain ⟨κ₂, k2, r2⟩ := C116_classifier M move' weight bias H' bs' hs' hp (N :: k.inC :: S)
  refine ⟨κ₁ + κ₂, add_nonneg k1 k2, fun δ hδ x x' v v' hx r r' => ?_⟩
  obtain ⟨e, e1, e2⟩ := r1 δ hδ x v hx.1 r
  obtain ⟨e', f1, f2⟩ := r2 δ hδ x' v' hx.2.1 r'
  obtain ⟨⟨z, z', a1, a2, a3, a4, a5⟩, u, i, u', i', c1, c2, c3, c4, c5⟩ :=
    C75_E2_invariant k c hk hm hM hgeo g hσ hS hsym h1 hg hpos weight hw bias hb N n x x' H H' move move' Hc Hc' hHc hHc' hH hgood hx hchain ht
  rcases hp with rfl | rfl
  · have q := (pooled_avg a1).symm.trans e1
    cases q
    have q := (pooled_avg a2).symm.trans f1
    cases q
    exact turned_close e2 f2 a3 a4 a5
  · have q := (pooled_max c1).symm.trans e1
    cases q
    have q := (pooled_max c2).symm.trans f1
    cases q
    exact turned_close e2 f2 c3 c4 c5

/-- E(3), symmetries with coefficient 1. -/
theorem C116_E3 (s : GridCache.Store (Tensor ℝ)) (opt1 opt2 : List SO3.Euler) (k : KernelArgs O3.Elt SizeArg) (c : ConvOpts) (hk : 2 ≤ k.kernelSize) {m p}
    (hm : SpatialModes k.spatialMode k.spatialPad m p)
    {M : Module O3.Elt 3} (hM : liftingE3 s opt1 opt2 k c = .ok M) {mode : F.CPad} {ax : List Axis}
    (hgeo : HasGeometry (argsE3 k c) mode ax)
    (g : O3.Elt) {σ : LatticeSym 3} {S' S : List ℕ} (hσ : LatticeSym.Matches LatticeSym.ax3 σ S' S)
    (hS : GeomOk mode ax S) (hsym : SymmetricGeometry 3 ax S) (h1 : O3.coef g = 1) (hv : O3.Valid g) (hg : O3.coef g • O3.rot g = σ.matrix) (hpos : 0 < k.inC)
    (weight : Tensor ℝ) (hw : weight.shape = [k.outC, k.inC / k.groups, k.kernelSize, k.kernelSize, k.kernelSize])
    (bias : Option (Tensor ℝ)) (hb : BiasShape bias k.outC 3) (N n : ℕ)
    (H H' : Option (Tensor O3.Elt)) (move move' : O3.Elt → O3.Elt) (Hc Hc' : Tensor O3.Elt)
    (hHc : Hc = if c.permute then (H.getD M.kernel.gridH).map move else H.getD M.kernel.gridH)
    (hHc' : Hc' = if c.permute then (H'.getD M.kernel.gridH).map move' else H'.getD M.kernel.gridH)
    {π : Equiv.Perm (Fin n)} (hH : MovedGrid (O3.leftApplyO3 g) π Hc Hc') (hgood : ∀ i < n, (O3.Valid) (Hc.get [i]))
    {bs bs' : List (Block O3.Elt 3)} {t : Sizes}
    (hchain : Chain N (ConvE3 s opt1 opt2 g σ) bs bs' ⟨k.outC, n, outDims ax S', outDims ax S⟩ t)
    (ht : 0 < (t.elements :: t.before).prod) 
    (hs : ∀ b ∈ bs, Smooth b) (hs' : ∀ b ∈ bs', Smooth b)
    {pool : Tensor ℝ × Tensor _ → Except PyErr (Tensor ℝ)} (hp : Pools pool) :
    ∃ κ, 0 ≤ κ ∧ ∀ δ, 0 ≤ δ → ∀ x x' v v' : Tensor ℝ, MovedTensor LatticeSym.ax3 σ [N, k.inC] S' S x x' →
      RoundedClassifier δ M move weight bias H bs pool x v → RoundedClassifier δ M move' weight bias H' bs' pool x' v' →
      ∀ b c, b < N → c < t.channels → |v'.get [b, c, 0] - v.get [b, c, 0]| ≤ κ * δ := by
  obtain ⟨κ₁, k1, r1⟩ := C116_classifier M move weight bias H bs hs hp (N :: k.inC :: S')
  obtain ⟨κ₂, k2, r2⟩ := C116_classifier M move' weight bias H' bs' hs' hp (N :: k.inC :: S)
  refine ⟨κ₁ + κ₂, add_nonneg k1 k2, fun δ hδ x x' v v' hx r r' => ?_⟩
  obtain ⟨e, e1, e2⟩ := r1 δ hδ x v hx.1 r
  obtain ⟨e', f1, f2⟩ := r2 δ hδ x' v' hx.2.1 r'
  obtain ⟨⟨z, z', a1, a2, a3, a4, a5⟩, u, i, u', i', c1, c2, c3, c4, c5⟩ :=
    C75_E3_invariant s opt1 opt2 k c hk hm hM hgeo g hσ hS hsym h1 hv hg hpos weight hw bias hb N n x x' H H' move move' Hc Hc' hHc hHc' hH hgood hx hchain ht
  rcases hp with rfl | rfl
  · have q := (pooled_avg a1).symm.trans e1
    cases q
    have q := (pooled_avg a2).symm.trans f1
    cases q
    exact turned_close e2 f2 a3 a4 a5
  · have q := (pooled_max c1).symm.trans e1
    cases q
    have q := (pooled_max c2).symm.trans f1
    cases q
    exact turned_close e2 f2 c3 c4 c5

/-- A group convolution computed in floating point (C115) is a step of an inexact pass whose error is the bound of C115. -/
theorem C116_group_step {a : Args} {mode : F.CPad} {ax : List Axis} {S : List ℕ} {bias : Option (Tensor ℝ)} {u B W β η δ : ℝ}
    {x w : Tensor ℝ} {N n : ℕ} (hgeo : HasGeometry a mode ax) (M : Module G d) (hL : init a (kernelDims ax) = .ok M.layer)
    (hg : GeomOk mode ax S) (hu : 0 ≤ u) (hB : 0 ≤ B) (move : G → G) (weight : Tensor ℝ) (H K : Tensor G) (hH : H.shape = [n])
    (hK : K = if M.permute then H.map move else H) (hf : M.kernel.forward weight H K = .ok w)
    (hw : w.shape = a.outC :: n :: a.inC / a.groups.toNat :: n :: kernelDims ax) (hx : x.shape = N :: a.inC :: n :: S)
    (hb : BiasShape bias a.outC ax.length)
    (hδ : roundingError u (a.inC / a.groups.toNat * n * (kernelDims ax).prod) B W β η ≤ δ) {fl : Tensor ℝ}
    (hfl : GroupRun u B W β η a mode ax S x w bias N n n fl) {bs : List (Block G d)} {r : Tensor ℝ × Tensor G}
    (hr : RoundedRun δ bs (fl, K) r) : RoundedRun δ (.groupSE M move weight bias :: bs) (x, H) r := by
  have hKs : K.shape = [n] := by rw [hK]; cases M.permute <;> exact hH
  obtain ⟨out, h1, h2⟩ := C115_group hgeo hL hg hu hB M.kernel weight H K hH hKs hf hw hx hb (W := W) (β := β) (η := η)
  have hp : K = permuteGrid M.permute move H := eq_permute hK hKs
  have hc : (Block.groupSE M move weight bias).call x H = .ok (out, K) := by
    show M.layer.groupForward M.kernel weight bias x H (permuteGrid M.permute move H) = _
    rw [← hp]; exact h1
  exact .cons hc ⟨(h2 fl hfl).1, fun q hq => ((h2 fl hfl).2 q hq).trans hδ⟩ hr

/-- A lifting convolution computed in floating point (C115), followed by an inexact pass with errors at most `δ`, is an inexact pass
of the classifier. -/
theorem C116_lifting_step {a : Args} {mode : F.CPad} {ax : List Axis} {S : List ℕ} {bias : Option (Tensor ℝ)} {u B W β η δ : ℝ}
    {x w : Tensor ℝ} {N n : ℕ} (hgeo : HasGeometry a mode ax) (M : Module G d) (hL : init a (kernelDims ax) = .ok M.layer)
    (hg : GeomOk mode ax S) (hu : 0 ≤ u) (hB : 0 ≤ B) (move : G → G) (weight : Tensor ℝ) (H : Option (Tensor G)) (K : Tensor G)
    (hH : (H.getD M.kernel.gridH).shape = [n])
    (hK : K = if M.permute then (H.getD M.kernel.gridH).map move else H.getD M.kernel.gridH)
    (hpos : 0 < a.inC) (hf : M.kernel.liftingForward weight K = .ok w)
    (hw : w.shape = a.outC :: n :: a.inC / a.groups.toNat :: kernelDims ax) (hx : x.shape = N :: a.inC :: S)
    (hb : BiasShape bias a.outC ax.length)
    (hδ : roundingError u (a.inC / a.groups.toNat * (kernelDims ax).prod) B W β η ≤ δ) {fl : Tensor ℝ}
    (hfl : LiftingRun u B W β η a mode ax S x w bias N n fl) {bs : List (Block G d)} {r : Tensor ℝ × Tensor G}
    (hr : RoundedRun δ bs (fl, K) r) {pool : Tensor ℝ × Tensor G → Except PyErr (Tensor ℝ)} {p v : Tensor ℝ} (hpool : pool r = .ok p)
    (hv : Within δ v p) : RoundedClassifier δ M move weight bias H bs pool x v := by
  have hKs : K.shape = [n] := by rw [hK]; cases M.permute <;> exact hH
  obtain ⟨out, h1, h2⟩ := C115_lifting hgeo hL hg hu hB M.kernel weight K hKs hpos hf hw hx hb (W := W) (β := β) (η := η)
  have hp : K = permuteGrid M.permute move (H.getD M.kernel.gridH) := eq_permute hK hKs
  refine ⟨out, K, fl, r, p, ?_, ⟨(h2 fl hfl).1, fun q hq => ((h2 fl hfl).2 q hq).trans hδ⟩, hr, hpool, hv⟩
  show M.layer.liftingForward M.kernel weight bias x (permuteGrid M.permute move (H.getD M.kernel.gridH)) = _
  rw [← hp]; exact h1

/-- Exact passes are passes with an error of at most `δ`. -/
theorem C116_exact {δ : ℝ} (hδ : 0 ≤ δ) (bs : List (Block G d)) (xH r : Tensor ℝ × Tensor G) (h : run bs xH = .ok r) :
    RoundedRun δ bs xH r := by
  induction bs generalizing xH with
  | nil => cases h; exact .nil _
  | cons b bs ih =>
    obtain ⟨x, H⟩ := xH
    unfold run at h
    obtain ⟨⟨y, K⟩, h1, h2⟩ := bind_ok h
    exact .cons h1 (Within.refl y hδ) (ih _ h2)

/-- Lifting convolution, ReLU, batch normalisation (running statistics updated), separable convolution and global average pooling of
8 x 9 images, every layer computed up to `δ`: a quarter turn of the images changes the result by at most `κ δ`. -/
example (weight weightH weight₂ : Tensor ℝ) (hw : weight.shape = [6, 2, 5, 5]) (hwH : weightH.shape = [4, 6, 3])
    (hw₂ : weight₂.shape = [6, 1, 5, 5]) (r : F.Running)
    (M M₂ : Module ℝ 2) (hM : liftingSE2 (KernelSE2.exArgs 4) rotOpts = .ok M) (hM₂ : fullSE2 (exArgs₂ 4) rotOpts = .ok M₂) :
    ∃ κ, 0 ≤ κ ∧ ∀ δ, 0 ≤ δ → ∀ x x' v v' : Tensor ℝ, MovedTensor LatticeSym.ax2 KernelSE2.quarter [3, 4] [8, 9] [9, 8] x x' →
      RoundedClassifier δ M id weight none none [.act .relu, .batch exNorm true r, .separableSE M₂ id weightH weight₂ none] avgPooled x v →
      RoundedClassifier δ M id weight none none [.act .relu, .batch exNorm true r, .separableSE M₂ id weightH weight₂ none] avgPooled x' v' →
      ∀ b ch, b < 3 → ch < 6 → |v'.get [b, ch, 0] - v.get [b, ch, 0]| ≤ κ * δ := by
  obtain ⟨h1, h2, h3, h4⟩ := rot_geometry 4
  obtain ⟨π, hπ⟩ := C75_uniform_closed 4 (by norm_num) 1
  have e1 : (2 * Real.pi * (1 : ℕ) / (4 : ℕ) : ℝ) = Real.pi / 2 := by push_cast; ring
  rw [e1] at hπ
  have hgrid : M.kernel.gridH = Tensor.ofList (SO2.uniformGrid 4) := by
    obtain ⟨K, hK, -, hMK, -⟩ := build_ok hM
    rw [hMK]
    unfold KernelSE2.lifting checkGroups at hK
    split at hK
    · cases hK
    · cases hK; rfl
  have o1 : outDims (List.replicate 2 (sameAxis 5 1)) [8, 9] = [8, 9] := by simp [outDims, Axis.out, Axis.span, sameAxis]
  have o2 : outDims (List.replicate 2 (sameAxis 5 1)) [9, 8] = [9, 8] := by simp [outDims, Axis.out, Axis.span, sameAxis]
  have f : firstAxes .circular (.str "same") (List.replicate 2 (sameAxis 5 1)) = List.replicate 2 ⟨1, 1, 1, 2, 2⟩ := by
    simp [firstAxes, firstAxis, sameAxis]
  have f1 : outDims (List.replicate 2 ⟨1, 1, 1, 2, 2⟩) [8, 9] = [12, 13] := by simp [outDims, Axis.out, Axis.span]
  have f2 : outDims (List.replicate 2 ⟨1, 1, 1, 2, 2⟩) [9, 8] = [13, 12] := by simp [outDims, Axis.out, Axis.span]
  obtain ⟨g1, -, g2, -⟩ := C59_same_geometry 2 6 6 5 1 (.int 4) 2 "circular" .circular (Or.inr (Or.inr (Or.inr ⟨rfl, rfl⟩)))
    (by norm_num) (by norm_num) [13, 12] rfl (by simp [F.padAllowed])
  have g3 : GeomOk .circular (List.replicate 2 ⟨1, 1, 1, 2, 2⟩) [9, 8] :=
    .cons ⟨by norm_num, by norm_num, by norm_num, by simp [Axis.span], rfl⟩
      (.cons ⟨by norm_num, by norm_num, by norm_num, by simp [Axis.span], rfl⟩ .nil)
  have hchain : Chain 3 (ConvSE2 (Real.pi / 2) KernelSE2.quarter)
      [.act .relu, .batch exNorm true r, .separableSE M₂ id weightH weight₂ none]
      [.act .relu, .batch exNorm true r, .separableSE M₂ id weightH weight₂ none]
      ⟨6, 4, [8, 9], [9, 8]⟩ ⟨6, 4, outDims (List.replicate 2 (sameAxis 5 1)) [12, 13], outDims (List.replicate 2 (sameAxis 5 1)) [13, 12]⟩ := by
    refine .act _ trivial (.batch _ _ _ rfl (by norm_num) (.conv ?_ (.nil _)))
    exact ConvSE2.separable (exArgs₂ 4) rotOpts (by norm_num [exArgs₂, KernelSE2.exArgs]) defaultModes 1 (exReady₂ 4 (by norm_num)) hM₂
      (g1 rfl) (S' := [8, 9]) (S := [9, 8]) (by rw [show rotOpts.padding = .str "same" from rfl, f]; exact g3)
      ⟨⟨1, 1, 1, 2, 2⟩, f, rfl, fun s _ => one_dvd _⟩
      (by rw [show rotOpts.padding = .str "same" from rfl, f, f2]) (by rw [show rotOpts.padding = .str "same" from rfl, f, f1])
      g2 ⟨sameAxis 5 1, rfl, by simp [sameAxis], fun s _ => one_dvd _⟩
      (by norm_num [exArgs₂, KernelSE2.exArgs]) weightH weight₂
      (by rw [hwH]; show [4, 6, 3] = [(SO2.uniformGrid 4).length, 6, 6 / 2]; rw [SO2.C03_length])
      (by rw [hw₂]; simp [exArgs₂, KernelSE2.exArgs]) none (fun b hb => by cases hb) (by norm_num) id id
      (fun h => by cases h)
  have hs : ∀ c ∈ [Block.act .relu, .batch exNorm true r, .separableSE M₂ id weightH weight₂ none], Smooth c := by
    intro c hc
    rcases List.mem_cons.mp hc with rfl | hc
    · trivial
    rcases List.mem_cons.mp hc with rfl | hc
    · exact ⟨by norm_num [exNorm], fun h => by cases h⟩
    rcases List.mem_cons.mp hc with rfl | hc
    · trivial
    · cases hc
  exact C116_SE2 (KernelSE2.exArgs 4) rotOpts (by norm_num [KernelSE2.exArgs]) defaultModes hM h1 (Real.pi / 2) h4 h2 h3
    KernelSE2.quarter_matrix (by norm_num [KernelSE2.exArgs]) weight (by rw [hw]; simp [KernelSE2.exArgs]) none
    (fun b hb => by cases hb) 3 4 none none id id _ _ rfl rfl (π := π)
    (by rw [show (Option.none : Option (Tensor ℝ)).getD M.kernel.gridH = M.kernel.gridH from rfl, hgrid]; exact hπ)
    (by rw [o1, o2]; exact hchain) (by simp [outDims, Axis.out, Axis.span, sameAxis]) hs hs (Or.inl rfl)

/-- A lifting convolution in float32 (5 x 5 filters and images with entries in [-1, 1]) followed by pooling is an inexact pass with
errors at most 1/6000. -/
example (n : ℕ) (x : Tensor ℝ) (hx : x.shape = [3, 4, 9, 8]) (weight : Tensor ℝ) (hw : weight.shape = [6, 2, 5, 5]) (H : Tensor ℝ)
    (hH : H.shape = [7]) (M : Module ℝ 2) (hM : liftingSE2 (KernelSE2.exArgs n) rotOpts = .ok M) :
    ∃ w, M.kernel.liftingForward weight H = .ok w ∧
      ∀ fl, LiftingRun (2⁻¹ ^ 24) 1 1 0 (2⁻¹ ^ 24) (argsSE2 (KernelSE2.exArgs n) rotOpts) .circular (List.replicate 2 (sameAxis 5 1)) [9, 8] x w
          none 3 7 fl → ∀ v, avgPooled (fl, H) = .ok v → RoundedClassifier (1 / 6000) M id weight none (some H) [] avgPooled x v := by
  obtain ⟨h1, h2, h3, h4⟩ := rot_geometry n
  obtain ⟨K, hK, hL, hMK, hMp⟩ := build_ok hM
  have hks : kernelDims (List.replicate 2 (sameAxis 5 1)) = [5, 5] := h1.kernel.symm
  have hL' := hL
  rw [liftingSE2_size hK] at hL'
  have hg0 : 0 < (KernelSE2.exArgs n).groups := by norm_num [KernelSE2.exArgs]
  obtain ⟨K', w, k1, k2, k3, -⟩ := KernelSE2.C50_SE2 (KernelSE2.exArgs n) hg0 (by norm_num [KernelSE2.exArgs]) defaultModes weight H 7
    (by rw [hw]; simp [KernelSE2.exArgs]) hH
  rw [hK] at k1
  cases k1
  rw [← hMK] at k2
  have a1 : (argsSE2 (KernelSE2.exArgs n) rotOpts).inC = 4 := rfl
  have a2 : (argsSE2 (KernelSE2.exArgs n) rotOpts).outC = 6 := rfl
  have a3 : (argsSE2 (KernelSE2.exArgs n) rotOpts).groups.toNat = 2 := rfl
  refine ⟨w, k2, fun fl hfl v hv => ?_⟩
  refine C116_lifting_step (u := 2⁻¹ ^ 24) (B := 1) (W := 1) (β := 0) (η := 2⁻¹ ^ 24) h1 M (by rw [hks]; exact hL') h2 (by norm_num) zero_le_one id weight (some H) H hH (by rw [hMp]; rfl)
    (by rw [a1]; norm_num) k2 (by rw [k3, hks, a1, a2, a3]; simp [KernelSE2.exArgs])
    (by rw [hx, a1]) (fun b hb => by cases hb)
    (by rw [hks, a1, a3]; unfold roundingError; norm_num) hfl (.nil _) hv ⟨rfl, fun q hq => by rw [sub_self, abs_zero]; norm_num⟩

end GConv.Rounding

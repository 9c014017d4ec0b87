import Verif.Props.DefaultSampling

/-! # The stored filters are found again at the reference elements -/

namespace GConv

open Tensor Spec GroupKernel

/-! ## the samplers return stored values at reference elements -/

theorem nn_recover {G : Type} (dist : G → G → ℝ) (g : Tensor G) (K : ℕ) (hs : g.shape = [K]) (hsep : Separated dist g K)
    (k : ℕ) (hk : k < K) (q : G) (hq : ∀ x, dist q x = dist (g.get [k]) x) (f : ℕ → ℝ) :
    sampleOne (fun q sig g => Interp.interpolateNN dist q g sig) g K f q = f k := by
  obtain ⟨out, e, -, h⟩ := Interp.C40_nearest dist ⟨[1], fun _ => q⟩ g ⟨[K, 1], fun idx => f (idx.getD 0 0)⟩ 1 K 1 rfl hs rfl
    (by omega)
  obtain ⟨-, -, -, -, h'⟩ := h 0 (by norm_num)
  have := h' k hk (fun j hj hne => by
    show dist q _ < dist q _
    rw [hq, hq]; exact hsep k hk j hj hne) 0
  unfold sampleOne
  dsimp only
  rw [e]
  exact this

theorem rbf_recover {G : Type} (dist : G → G → ℝ) (w : ℝ) (g : Tensor G) (K : ℕ) (hs : g.shape = [K])
    (hdet : (Interp.rbfMatrix dist Interp.RBFgauss w g).det ≠ 0) (k : ℕ) (hk : k < K) (q : G)
    (hq : ∀ x, dist q x = dist (g.get [k]) x) (f : ℕ → ℝ) :
    sampleOne (fun q sig g => Interp.interpolateRBF dist Interp.RBFgauss w q g sig) g K f q = f k := by
  have hc : ¬((⟨[K, 1], fun idx => f (idx.getD 0 0)⟩ : Tensor ℝ).shape.headD 0 ≠ g.shape.headD 0 ∨
      (Interp.rbfMatrix dist Interp.RBFgauss w g).det = 0) := by
    have hh : g.shape.headD 0 = K := by rw [hs]; rfl
    rintro (h | h); exacts [h hh.symm, hdet h]
  have e : sampleOne (fun q sig g => Interp.interpolateRBF dist Interp.RBFgauss w q g sig) g K f q =
      sampleOne (fun q sig g => Interp.interpolateRBF dist Interp.RBFgauss w q g sig) g K f (g.get [k]) := by
    unfold sampleOne Interp.interpolateRBF
    dsimp only
    rw [if_neg hc, if_neg hc]
    dsimp only
    simp only [hq]
  rw [e]
  cases e : Interp.interpolateRBF dist Interp.RBFgauss w ⟨[1], fun _ => g.get [k]⟩ g ⟨[K, 1], fun idx => f (idx.getD 0 0)⟩ with
  | error err =>
    exfalso
    unfold Interp.interpolateRBF at e
    dsimp only at e
    rw [if_neg hc] at e
    cases e
  | ok out =>
    unfold sampleOne
    dsimp only
    rw [e]
    exact Interp.C39_reproduces dist Interp.RBFgauss w ⟨[1], fun _ => g.get [k]⟩ g _ out K hs e 0 k hk rfl 0

theorem SO2.recover {mode : String} {w : ℝ} {g : Tensor ℝ} {K : ℕ} (hs : g.shape = [K]) (h : Solvable SO2.dist mode w g K)
    (hsep : mode = "nearest" → Separated SO2.dist g K) (k : ℕ) (hk : k < K) (q : ℝ) (hq : EqMod (2 * Real.pi) q (g.get [k])) (f : ℕ → ℝ) :
    sampleOne (fun q sig g => SO2.gridSample q sig g mode w) g K f q = f k := by
  have hd : ∀ x, SO2.dist q x = SO2.dist (g.get [k]) x := by
    intro x
    obtain ⟨z, hz⟩ := hq
    unfold SO2.dist
    rw [SO2.geodesic_eq, SO2.geodesic_eq, hz, show g.get [k] + z * (2 * Real.pi) - x = (g.get [k] - x) + z * (2 * Real.pi) by ring,
      Real.cos_add_int_mul_two_pi]
  obtain ⟨-, ⟨rfl, -⟩ | ⟨rfl, h2⟩⟩ := h
  · have : (fun q sig g => SO2.gridSample q sig g "nearest" w) = fun q sig g => Interp.interpolateNN SO2.dist q g sig := by
      funext q sig g; unfold SO2.gridSample; rw [if_neg (by decide), if_pos rfl]; rfl
    rw [this]; exact nn_recover _ _ _ hs (hsep rfl) k hk q hd f
  · have : (fun q sig g => SO2.gridSample q sig g "rbf" w) = fun q sig g => Interp.interpolateRBF SO2.dist Interp.RBFgauss w q g sig := by
      funext q sig g; unfold SO2.gridSample; rw [if_pos rfl]; rfl
    rw [this]; exact rbf_recover _ _ _ _ hs h2 k hk q hd f

theorem SO3.recoverQuat {mode : String} {w : ℝ} {g : Tensor SO3.Quat} {K : ℕ} (hs : g.shape = [K]) (h : Solvable SO3.dist mode w g K)
    (hsep : mode = "nearest" → Separated SO3.dist g K) (k : ℕ) (hk : k < K) (f : ℕ → ℝ) :
    sampleOne (fun q sig g => SO3.gridSampleQuat q sig g mode w) g K f (g.get [k]) = f k := by
  obtain ⟨-, ⟨rfl, -⟩ | ⟨rfl, h2⟩⟩ := h
  · have : (fun q sig g => SO3.gridSampleQuat q sig g "nearest" w) = fun q sig g => Interp.interpolateNN SO3.dist q g sig := by
      funext q sig g; unfold SO3.gridSampleQuat; rw [if_pos rfl]; rfl
    rw [this]; exact nn_recover _ _ _ hs (hsep rfl) k hk _ (fun _ => rfl) f
  · have : (fun q sig g => SO3.gridSampleQuat q sig g "rbf" w) = fun q sig g => Interp.interpolateRBF SO3.dist Interp.RBFgauss w q g sig := by
      funext q sig g; unfold SO3.gridSampleQuat; rw [if_neg (by decide), if_pos rfl]; rfl
    rw [this]; exact rbf_recover _ _ _ _ hs h2 k hk _ (fun _ => rfl) f

theorem SO3.recover {mode : String} {w : ℝ} {g : Tensor SO3.Mat3} {K : ℕ} (hs : g.shape = [K])
    (h : Solvable SO3.dist mode w (g.map SO3.matrixToQuat) K)
    (hsep : mode = "nearest" → Separated SO3.dist (g.map SO3.matrixToQuat) K) (k : ℕ) (hk : k < K) (f : ℕ → ℝ) :
    sampleOne (fun q sig g => SO3.gridSample q sig g mode w) g K f (g.get [k]) = f k :=
  SO3.recoverQuat (g := g.map SO3.matrixToQuat) hs h hsep k hk f

/-- the coset-wise sampler returns stored values at reference elements; `same` says when two rotations are the same. -/
theorem cosetCore_recover {G Q : Type} {coef : G → ℝ} {rot : G → Q} (same : Q → Q → Prop)
    {samp : ℝ → Tensor Q → Tensor ℝ → Tensor Q → Except PyErr (Tensor ℝ)} (gr : Tensor G) (n m : ℕ) (wr wf : ℝ)
    (h1 : ∀ i < n, coef (gr.get [i]) = 1) (h2 : ∀ i < m, coef (gr.get [n + i]) = -1)
    (hR : ∀ k < n, ∀ q, same q (((gr.slice0 0 n).map rot).get [k]) → ∀ f, sampleOne (samp wr) ((gr.slice0 0 n).map rot) n f q = f k)
    (hF : ∀ k < m, ∀ q, same q (((gr.drop0 n).map rot).get [k]) → ∀ f, sampleOne (samp wf) ((gr.drop0 n).map rot) m f q = f k)
    (k : ℕ) (hk : k < n + m) (f : ℕ → ℝ) (q : G) (hc : coef q = coef (gr.get [k])) (hq : same (rot q) (rot (gr.get [k]))) :
    cosetCore coef rot samp gr n m wr wf f q = f k := by
  unfold cosetCore
  rcases Nat.lt_or_ge k n with hlt | hge
  · rw [if_pos (by rw [hc, h1 k hlt]), if_neg (by omega)]
    apply hR k hlt
    rwa [show ((gr.slice0 0 n).map rot).get [k] = rot (gr.get [0 + k]) from rfl, Nat.zero_add]
  · obtain ⟨j, rfl⟩ := Nat.exists_eq_add_of_le hge
    rw [if_neg (by rw [hc, h2 j (by omega)]; norm_num), if_neg (by omega)]
    exact hF j (by omega) _ hq fun k => f (n + k)

theorem recovers_of {G : Type} {d : ℕ} {K : GroupKernel G d} {inv mul act det core Good coreH} (hK : Lawful K inv mul act det)
    (hs : PointwiseSampler K.sampleRn K.kernelSize core) (hl : LocalCore K.kernelSize core)
    (hsH : RowwiseSampler K.sampleH K.gridH K.groupKernelDim Good coreH) (hlH : LocalChannel K.groupKernelDim coreH)
    (hpos : 0 < K.groupKernelDim) {Valid : G → Prop} (hv : ∀ o i, Valid o → Valid i → Good (mul (inv o) i))
    {rel : G → G → ℕ → Prop} (hrel : ∀ o i k, Valid o → Valid i → rel o i k → ∀ f, coreH f (mul (inv o) i) = f k)
    {place : G → (List ℕ → ℝ) → List ℕ → ℝ}
    (hp : ∀ o f x, InB K.kernelSize x → maskAt K.mask x * core f (act (inv o) (K.gridRn.get x)) / detAt det o = place o f x) :
    Recovers K Valid rel place where
  full weight inH outH nIn nOut hw hin hout h1 h2 := by
    obtain ⟨out, e, s, g⟩ := C51_group hK hs hl hsH hlH hpos weight inH outH nIn nOut hw hin hout
      (fun o ho i hi => hv _ _ (h2 o ho) (h1 i hi))
    refine ⟨out, e, s, fun o ho i hi k hr co hco ci hci x hx => ?_⟩
    rw [g co o ci i x hco ho hci hi hx, ← hp _ _ _ hx]
    congr 3
    funext r
    exact hrel _ _ _ (h2 o ho) (h1 i hi) hr _
  separable weightH weight inH outH n hwH hw hin hout h1 h2 := by
    obtain ⟨wH, w, e, s1, s2, g1, g2⟩ := C52_separable_partial hK hs hsH hlH hpos weightH weight inH outH n hwH hw hin hout
      (fun o ho i hi => hv _ _ (h2 o ho) (h1 i hi))
    refine ⟨wH, w, e, s1, s2, fun o ho i hi k hr co hco ci hci => ?_, fun o ho co hco x hx => ?_⟩
    · rw [g1 co o ci i hco ho hci hi]
      exact hrel _ _ _ (h2 o ho) (h1 i hi) hr fun k => weightH.get [k, _, _]
    · rw [g2 co o x hco ho hx, hp _ _ _ hx]

/-! ## C88 -/

/-- `GKernelSE2`, `GSeparableKernelSE2` with any reference grid that can be sampled.  `place g f x y` is the filter `f` turned
by the angle `g`: read off at the grid point turned back by `g`, masked. -/
theorem C88_SE2 (a : KernelArgs ℝ ℕ) (w : ℝ) (h : KernelSE2.Ready a w) {n : ℕ} (hsh : (KernelSE2.grid a).shape = [n])
    (hsep : a.groupMode = "nearest" → Separated SO2.dist (KernelSE2.grid a) n) {m p}
    (hm : SpatialModes a.spatialMode a.spatialPad m p) :
    ∃ K, KernelSE2.full a = .ok K ∧ K.gridH = KernelSE2.grid a ∧ Recovers K (fun _ => True)
      (fun out inp k => k < n ∧ EqMod (2 * Real.pi) inp (out + K.gridH.get [k]))
      (fun g f x => (Functional.createSphericalMaskR2 a.kernelSize).get x *
        F.sampleAt m p [a.kernelSize, a.kernelSize] f
          ((SO2.angleToMatrix (-g)).mulVec ((Functional.createGridR2 a.kernelSize).get x))) := by
  have hn : (KernelSE2.grid a).shape.headD 0 = n := by rw [hsh]; rfl
  refine ⟨_, KernelSE2.full_eq h, rfl, ?_⟩
  refine recovers_of (KernelSE2.lawful a _) (KernelSE2.pointwise a _ hm h.kernel) (sampleAt_local m p _ rfl)
    (KernelSE2.rows h).1 (KernelSE2.rows h).2 h.nonempty (fun _ _ _ _ => trivial) ?_ ?_
  · rintro o i k - - ⟨hk, z, hz⟩ f
    have hsol := h.solvable
    unfold KernelSE2.value
    rw [hn] at hsol ⊢
    apply SO2.recover hsh hsol hsep k hk
    obtain ⟨z', hz'⟩ := pyMod_eqMod (SO2.inverseAngle o + i) (2 * Real.pi)
    refine ⟨z' + z, ?_⟩
    have : SO2.leftApplyAngle (SO2.inverseAngle o) i = pyMod (SO2.inverseAngle o + i) (2 * Real.pi) := rfl
    rw [this, hz', hz]
    unfold SO2.inverseAngle
    push_cast
    show -o + (o + (KernelSE2.grid a).get [k] + _) + _ = _
    ring
  · intro o f x _
    exact div_one _

/-- `GKernelSE3`, `GSeparableKernelSE3` with any reference grid that can be sampled. -/
theorem C88_SE3 (s opt) (a : KernelArgs SO3.Mat3 ℕ) (gr) (w : ℝ) (h : KernelSE3.Ready s opt a gr w) {n : ℕ} (hsh : gr.shape = [n])
    (hsep : a.groupMode = "nearest" → Separated SO3.dist (gr.map SO3.matrixToQuat) n) {m p}
    (hm : SpatialModes a.spatialMode a.spatialPad m p) :
    ∃ K, KernelSE3.full s opt a = .ok K ∧ K.gridH = gr ∧ Recovers K (fun _ => True)
      (fun out inp k => k < n ∧ out.transpose * out = 1 ∧ inp = out * K.gridH.get [k])
      (fun g f x => (if a.mask then (Functional.createSphericalMaskR3 a.kernelSize).get x else 1) *
        F.sampleAt m p [a.kernelSize, a.kernelSize, a.kernelSize] f
          (g.transpose.mulVec ((Functional.createGridR3 a.kernelSize).get x))) := by
  have hn : gr.shape.headD 0 = n := by rw [hsh]; rfl
  refine ⟨_, KernelSE3.full_eq h, rfl, ?_⟩
  refine recovers_of (KernelSE3.lawful a gr _) (KernelSE3.pointwise a gr _ hm h.kernel) (sampleAt_local m p _ rfl)
    (KernelSE3.rows h).1 (KernelSE3.rows h).2 (KernelSE3.dim_pos h) (fun _ _ _ _ => trivial) ?_ ?_
  · rintro o i k - - ⟨hk, ho, rfl⟩ f
    have hsol := h.solvable
    unfold KernelSE3.value
    rw [hn] at hsol ⊢
    have e : SO3.leftApplyMatrix (SO3.matrixInverse o) (o * gr.get [k]) = gr.get [k] := by
      show o.transpose * (o * gr.get [k]) = _
      rw [← Matrix.mul_assoc, ho, Matrix.one_mul]
    show sampleOne _ gr n f (SO3.leftApplyMatrix (SO3.matrixInverse o) (o * gr.get [k])) = _
    rw [e]
    exact SO3.recover hsh hsol hsep k hk f
  · intro o f x _
    rw [show ∀ s, (KernelSE3.base a gr s).mask = if a.mask then some (Functional.createSphericalMaskR3 a.kernelSize) else none from fun _ => rfl,
      maskAt_flag]
    exact div_one _

/-- `GKernelE2`, `GSeparableKernelE2` with any reference grid of rotations followed by reflections that can be sampled. -/
theorem C88_E2 (a : KernelArgs O2.Elt SizeArg) (wr wf : ℝ) (h : KernelE2.Ready a wr wf) {n m : ℕ} (hs : sizePair a.groupKernelSize = (n, m))
    (hn : n ≠ 0) (hm : m ≠ 0) (hsh : (KernelE2.grid a).shape = [n + m])
    (h1 : ∀ i < n, ((KernelE2.grid a).get [i]).1 = 1) (h2 : ∀ i < m, ((KernelE2.grid a).get [n + i]).1 = -1)
    (hsepR : a.groupMode = "nearest" → Separated SO2.dist (((KernelE2.grid a).slice0 0 n).map Prod.snd) n)
    (hsepF : a.groupMode = "nearest" → Separated SO2.dist (((KernelE2.grid a).drop0 n).map Prod.snd) m) {mo p}
    (hmo : SpatialModes a.spatialMode a.spatialPad mo p) :
    ∃ K, KernelE2.full a = .ok K ∧ K.gridH = KernelE2.grid a ∧ Recovers K (fun x => x.1 = 1 ∨ x.1 = -1)
      (fun out inp k => k < n + m ∧ inp.1 = out.1 * (K.gridH.get [k]).1 ∧
        EqMod (2 * Real.pi) inp.2 (out.2 + (K.gridH.get [k]).2))
      (fun g f x => (if a.mask then (Functional.createSphericalMaskR2 a.kernelSize).get x else 1) *
        F.sampleAt mo p [a.kernelSize, a.kernelSize] f
          (g.1 • (SO2.angleToMatrix (-g.2)).mulVec ((Functional.createGridR2 a.kernelSize).get x)) / g.1) := by
  have hnr : KernelE2.nRot a = n := by unfold KernelE2.nRot; rw [hs]
  have hnf : KernelE2.nRef a = m := by unfold KernelE2.nRef; rw [hs]
  refine ⟨_, KernelE2.full_eq h, rfl, ?_⟩
  refine recovers_of (KernelE2.lawful a _) (KernelE2.pointwise a _ hmo h.kernel) (sampleAt_local mo p _ rfl)
    (KernelE2.rows h).1 (KernelE2.rows h).2 h.nonempty
    (fun o i ho hi => KernelE2.pair_of_valid a (by rw [hnr]; exact hn) (by rw [hnf]; exact hm) o i ho hi) ?_ ?_
  · rintro o i k ho - ⟨hk, hc, z, hz⟩ f
    have hR := h.solvableR (by rw [hnr]; exact hn)
    have hF := h.solvableF (by rw [hnf]; exact hm)
    unfold KernelE2.value
    rw [hnr] at hR hF ⊢
    rw [hnf] at hF ⊢
    refine cosetCore_recover (EqMod (2 * Real.pi)) _ n m wr wf h1 h2 ?_ ?_ k hk f _ ?_ ?_
    · intro k hk q hq f
      exact SO2.recover (by simp [slice0, hsh, Tensor.map]) hR hsepR k hk q hq f
    · intro k hk q hq f
      exact SO2.recover (by simp [drop0, slice0, hsh, Tensor.map]) hF hsepF k hk q hq f
    · show o.1 * i.1 = _
      rw [hc]
      show o.1 * (o.1 * ((KernelE2.grid a).get [k]).1) = _
      rcases ho with ho | ho <;> rw [ho] <;> ring
    · obtain ⟨z', hz'⟩ := pyMod_eqMod (o.2 * (-1) + i.2) (2 * Real.pi)
      refine ⟨z' + z, ?_⟩
      show pyMod (o.2 * (-1) + i.2) (2 * Real.pi) = _
      rw [hz', hz]
      push_cast
      show o.2 * (-1) + (o.2 + ((KernelE2.grid a).get [k]).2 + _) + _ = _
      ring
  · intro o f x _
    rw [show ∀ s, (KernelE2.base a s).mask = if a.mask then some (Functional.createSphericalMaskR2 a.kernelSize) else none from fun _ => rfl,
      maskAt_flag]
    have e2 : KernelE2.act (O2.inverse o) = fun v => o.1 • (SO2.angleToMatrix (-o.2)).mulVec v := by
      unfold KernelE2.act O2.inverse
      dsimp only
      rw [mul_neg_one]
    rw [e2]
    rfl

/-- `GKernelE3`, `GSeparableKernelE3` with any reference grid of rotations followed by reflections that can be sampled. -/
theorem C88_E3 (s opt1 opt2) (a : KernelArgs O3.Elt SizeArg) (gr) (wr wf : ℝ) (h : KernelE3.Ready s opt1 opt2 a gr wr wf) {n m : ℕ}
    (hs : sizePair a.groupKernelSize = (n, m)) (hn : n ≠ 0) (hm : m ≠ 0) (hsh : gr.shape = [n + m])
    (h1 : ∀ i < n, O3.coef (gr.get [i]) = 1) (h2 : ∀ i < m, O3.coef (gr.get [n + i]) = -1)
    (hsepR : a.groupMode = "nearest" → Separated SO3.dist (KernelE3.quats (gr.slice0 0 n)) n)
    (hsepF : a.groupMode = "nearest" → Separated SO3.dist (KernelE3.quats (gr.drop0 n)) m) {mo p}
    (hmo : SpatialModes a.spatialMode a.spatialPad mo p) :
    ∃ K, KernelE3.full s opt1 opt2 a = .ok K ∧ K.gridH = gr ∧ Recovers K (fun x => O3.coef x = 1 ∨ O3.coef x = -1)
      (fun out inp k => k < n + m ∧ (O3.rot out).transpose * O3.rot out = 1 ∧
        O3.coef inp = O3.coef out * O3.coef (K.gridH.get [k]) ∧ O3.rot inp = O3.rot out * O3.rot (K.gridH.get [k]))
      (fun g f x => (if a.mask then (Functional.createSphericalMaskR3 a.kernelSize).get x else 1) *
        F.sampleAt mo p [a.kernelSize, a.kernelSize, a.kernelSize] f
          (O3.coef g • (O3.rot g).transpose.mulVec ((Functional.createGridR3 a.kernelSize).get x)) / O3.coef g) := by
  have hnr : KernelE3.nRot a = n := by unfold KernelE3.nRot; rw [hs]
  have hnf : KernelE3.nRef a = m := by unfold KernelE3.nRef; rw [hs]
  refine ⟨_, KernelE3.full_eq h, rfl, ?_⟩
  refine recovers_of (KernelE3.lawful a gr _) (KernelE3.pointwise a gr _ hmo h.kernel) (sampleAt_local mo p _ rfl)
    (KernelE3.rows h).1 (KernelE3.rows h).2 h.nonempty
    (fun o i ho hi => KernelE3.pair_of_coef a (by rw [hnr]; exact hn) (by rw [hnf]; exact hm) o i ho hi) ?_ ?_
  · rintro o i k ho - ⟨hk, hoo, hc, hr⟩ f
    have hR := h.solvableR (by rw [hnr]; exact hn)
    have hF := h.solvableF (by rw [hnf]; exact hm)
    unfold KernelE3.value
    rw [hnr] at hR hF ⊢
    rw [hnf] at hF ⊢
    refine cosetCore_recover Eq _ n m wr wf h1 h2 ?_ ?_ k hk f _ ?_ ?_
    · rintro k hk q rfl f
      exact SO3.recover (by simp [slice0, hsh, Tensor.map]) hR hsepR k hk f
    · rintro k hk q rfl f
      exact SO3.recover (by simp [drop0, slice0, hsh, Tensor.map]) hF hsepF k hk f
    · show O3.coef o * O3.coef i = _
      rw [hc]
      show O3.coef o * (O3.coef o * O3.coef (gr.get [k])) = _
      rcases ho with ho | ho <;> rw [ho] <;> ring
    · unfold O3.leftApplyO3 O3.inverse
      dsimp only
      rw [O3.rot_mk, O3.rot_mk, hr]
      show _ * (_ * O3.rot (gr.get [k])) = _
      rw [← Matrix.mul_assoc, hoo, Matrix.one_mul]
  · intro o f x _
    rw [show ∀ s, (KernelE3.base a gr s).mask = if a.mask then some (Functional.createSphericalMaskR3 a.kernelSize) else none from fun _ => rfl,
      maskAt_flag, KernelE3.act_inverse]
    rfl

/-! ### default settings -/

theorem C88_SE2_default (a : KernelArgs ℝ ℕ) (hg : a.gridH = none) (hmode : a.groupMode = "rbf" ∨ a.groupMode = "nearest") (hw : a.rotWidth = 0)
    (h1 : 1 ≤ a.groupKernelSize) (h6 : a.groupKernelSize ≤ 10 ^ 6) (hgr : 0 < a.groups) (hk : 0 < a.kernelSize) {m p}
    (hm : SpatialModes a.spatialMode a.spatialPad m p) :
    ∃ K, KernelSE2.full a = .ok K ∧ Recovers K (fun _ => True)
      (fun out inp k => k < a.groupKernelSize ∧ EqMod (2 * Real.pi) inp (out + 2 * Real.pi * k / a.groupKernelSize))
      (fun g f x => (Functional.createSphericalMaskR2 a.kernelSize).get x *
        F.sampleAt m p [a.kernelSize, a.kernelSize] f
          ((SO2.angleToMatrix (-g)).mulVec ((Functional.createGridR2 a.kernelSize).get x))) := by
  obtain ⟨w, h, hsh, hsep⟩ := KernelSE2.default_ready a hg hmode hw h1 h6 hgr hk
  obtain ⟨K, e, hK, hr⟩ := C88_SE2 a w h hsh (fun _ => hsep) hm
  have hv : ∀ i < a.groupKernelSize, K.gridH.get [i] = 2 * Real.pi * i / a.groupKernelSize := by
    intro i hi
    rw [hK]
    unfold KernelSE2.grid
    rw [hg]
    have := SO2.C03_value a.groupKernelSize i hi
    show (SO2.uniformGrid a.groupKernelSize).getD i default = _
    rw [List.getD_eq_getElem?_getD, this]; rfl
  refine ⟨K, e, ?_⟩
  have e2 : (fun out inp k => k < a.groupKernelSize ∧ EqMod (2 * Real.pi) inp (out + 2 * Real.pi * k / a.groupKernelSize)) =
      fun out inp k => k < a.groupKernelSize ∧ EqMod (2 * Real.pi) inp (out + K.gridH.get [k]) := by
    funext out inp k
    apply propext
    constructor
    · rintro ⟨hk, hz⟩; exact ⟨hk, by rwa [hv k hk]⟩
    · rintro ⟨hk, hz⟩; exact ⟨hk, by rwa [hv k hk] at hz⟩
  rw [e2]
  exact hr

theorem C88_SE3_default (opt : List SO3.Euler) (a : KernelArgs SO3.Mat3 ℕ) (hg : a.gridH = none) (hmode : a.groupMode = "rbf" ∨ a.groupMode = "nearest")
    (hw : a.rotWidth = 0) (h2 : 2 ≤ a.groupKernelSize) (h24 : a.groupKernelSize ≤ 24) (hgr : 0 < a.groups) (hk : 0 < a.kernelSize)
    {m p} (hm : SpatialModes a.spatialMode a.spatialPad m p) :
    ∃ K, KernelSE3.full SO3.initialStore opt a = .ok K ∧ K.gridH.shape = [a.groupKernelSize] ∧ Recovers K (fun _ => True)
      (fun out inp k => k < a.groupKernelSize ∧ out.transpose * out = 1 ∧ inp = out * K.gridH.get [k])
      (fun g f x => (if a.mask then (Functional.createSphericalMaskR3 a.kernelSize).get x else 1) *
        F.sampleAt m p [a.kernelSize, a.kernelSize, a.kernelSize] f
          (g.transpose.mulVec ((Functional.createGridR3 a.kernelSize).get x))) := by
  obtain ⟨gr, w, h, hsh, hsep⟩ := KernelSE3.default_ready opt a hg hmode hw h2 h24 hgr hk
  obtain ⟨K, e, hK, hr⟩ := C88_SE3 _ _ a gr w h hsh (fun _ => hsep) hm
  exact ⟨K, e, by rw [hK]; exact hsh, hr⟩

theorem C88_E2_default (a : KernelArgs O2.Elt SizeArg) (hg : a.gridH = none) (hmode : a.groupMode = "rbf" ∨ a.groupMode = "nearest")
    (hw : a.rotWidth = 0) (hf : a.refWidth = 0) {n m : ℕ} (hs : sizePair a.groupKernelSize = (n, m))
    (hn : 1 ≤ n) (hn6 : n ≤ 10 ^ 6) (hm : 1 ≤ m) (hm6 : m ≤ 10 ^ 6) (hgr : 0 < a.groups) (hk : 0 < a.kernelSize)
    {mo p} (hmo : SpatialModes a.spatialMode a.spatialPad mo p) :
    ∃ K, KernelE2.full a = .ok K ∧ K.gridH.shape = [n + m] ∧ Recovers K (fun x => x.1 = 1 ∨ x.1 = -1)
      (fun out inp k => k < n + m ∧ inp.1 = out.1 * (K.gridH.get [k]).1 ∧
        EqMod (2 * Real.pi) inp.2 (out.2 + (K.gridH.get [k]).2))
      (fun g f x => (if a.mask then (Functional.createSphericalMaskR2 a.kernelSize).get x else 1) *
        F.sampleAt mo p [a.kernelSize, a.kernelSize] f
          (g.1 • (SO2.angleToMatrix (-g.2)).mulVec ((Functional.createGridR2 a.kernelSize).get x)) / g.1) := by
  obtain ⟨wr, wf, h, hsh, h1, h2, s1, s2⟩ := KernelE2.default_ready a hg hmode hw hf hs hn hn6 hm hm6 hgr hk
  obtain ⟨K, e, hK, hr⟩ := C88_E2 a wr wf h hs (by omega) (by omega) hsh h1 h2 (fun _ => s1) (fun _ => s2) hmo
  exact ⟨K, e, by rw [hK]; exact hsh, hr⟩

theorem C88_E3_default (opt1 opt2 : List SO3.Euler) (a : KernelArgs O3.Elt SizeArg) (hg : a.gridH = none) (hmode : a.groupMode = "rbf" ∨ a.groupMode = "nearest")
    (hw : a.rotWidth = 0) (hf : a.refWidth = 0) {n m : ℕ} (hs : sizePair a.groupKernelSize = (n, m))
    (hn : 2 ≤ n) (hn' : n ≤ 24) (hm : 2 ≤ m) (hm' : m ≤ 24) (hgr : 0 < a.groups) (hk : 0 < a.kernelSize)
    {mo p} (hmo : SpatialModes a.spatialMode a.spatialPad mo p) :
    ∃ K, KernelE3.full SO3.initialStore opt1 opt2 a = .ok K ∧ K.gridH.shape = [n + m] ∧ Recovers K (fun x => O3.coef x = 1 ∨ O3.coef x = -1)
      (fun out inp k => k < n + m ∧ (O3.rot out).transpose * O3.rot out = 1 ∧
        O3.coef inp = O3.coef out * O3.coef (K.gridH.get [k]) ∧ O3.rot inp = O3.rot out * O3.rot (K.gridH.get [k]))
      (fun g f x => (if a.mask then (Functional.createSphericalMaskR3 a.kernelSize).get x else 1) *
        F.sampleAt mo p [a.kernelSize, a.kernelSize, a.kernelSize] f
          (O3.coef g • (O3.rot g).transpose.mulVec ((Functional.createGridR3 a.kernelSize).get x)) / O3.coef g) := by
  obtain ⟨gr, wr, wf, h, hsh, h1, h2, s1, s2⟩ := KernelE3.default_ready opt1 opt2 a hg hmode hw hf hs hn hn' hm hm' hgr hk
  obtain ⟨K, e, hK, hr⟩ := C88_E3 _ _ _ a gr wr wf h hs (by omega) (by omega) hsh h1 h2 (fun _ => s1) (fun _ => s2) hmo
  exact ⟨K, e, by rw [hK]; exact hsh, hr⟩

/-- the default kernel of size 5 with 12 rotations, evaluated at the identity and the reference grid itself: slice `k` is stored
filter `k`, masked and resampled at the grid points. -/
example : ∃ K, KernelSE3.full SO3.initialStore [] { inC := 1, outC := 1, kernelSize := 5, groupKernelSize := 12 } = .ok K ∧
    ∀ weight : Tensor ℝ, weight.shape = [12, 1, 1, 5, 5, 5] → ∃ out, K.forward weight K.gridH ⟨[1], fun _ => 1⟩ = .ok out ∧
      ∀ k < 12, ∀ x, InB [5, 5, 5] x → out.get (0 :: 0 :: 0 :: k :: x) = (Functional.createSphericalMaskR3 5).get x *
        F.sampleAt .bilinear .border [5, 5, 5] (fun r => weight.get (k :: 0 :: 0 :: r)) ((Functional.createGridR3 5).get x) := by
  obtain ⟨gr, w, h, hsh, hsep⟩ := KernelSE3.default_ready [] { inC := 1, outC := 1, kernelSize := 5, groupKernelSize := 12 } rfl (Or.inl rfl) rfl
    (by norm_num) (by norm_num) (by norm_num) (by norm_num)
  obtain ⟨K, e, hK, hr⟩ := C88_SE3 _ _ _ gr w h hsh (fun _ => hsep) (m := .bilinear) (p := .border) ⟨rfl, rfl⟩
  have hKe := KernelSE3.full_eq h
  rw [e] at hKe
  cases hKe
  refine ⟨_, e, fun weight hw => ?_⟩
  obtain ⟨out, e1, -, g⟩ := hr.full weight gr ⟨[1], fun _ => 1⟩ 12 1
    (by rw [hw]; show _ = [gr.shape.headD 3 + 0, 1, 1 / 1] ++ [5, 5, 5]; rw [hsh]; rfl)
    hsh rfl (fun _ _ => trivial) (fun _ _ => trivial)
  refine ⟨out, e1, fun k hk x hx => ?_⟩
  have := g 0 (by norm_num) k hk k ⟨hk, by simp, by simp; rfl⟩ 0 (by show 0 < 1; norm_num) 0 (by show 0 < 1 / 1; norm_num) x hx
  rw [this]
  simp [storedChannel]

end GConv

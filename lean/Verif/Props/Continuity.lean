import Verif.Props.Recover
import Verif.Spec.Continuity
import Verif.Props.Modules
import Mathlib.Analysis.Normed.Group.AddCircle
import Mathlib.Topology.Algebra.Order.Floor
import Mathlib.Topology.Instances.Matrix
import Mathlib.Analysis.SpecialFunctions.Trigonometric.InverseDeriv

/-! # Kernels and layers depend continuously on group elements, parameters and inputs (C92) -/

namespace GConv

open Tensor Spec GroupKernel

variable {X : Type} [TopologicalSpace X]

/-! ## bilinear interpolation -/

theorem sum_range_pick (s : ℕ) (j : ℤ) (F : ℕ → ℝ) :
    ∑ i ∈ Finset.range s, (if (i : ℤ) = j then F i else 0) = if 0 ≤ j ∧ j < (s : ℤ) then F j.toNat else 0 := by
  by_cases h : 0 ≤ j ∧ j < (s : ℤ)
  · rw [if_pos h]
    obtain ⟨n, rfl⟩ := Int.eq_ofNat_of_zero_le h.1
    have : n < s := by omega
    simp only [Nat.cast_inj, Int.toNat_natCast]
    rw [Finset.sum_ite_eq' (Finset.range s) n F, if_pos (Finset.mem_range.2 this)]
  · rw [if_neg h]
    apply Finset.sum_eq_zero
    intro i hi
    rw [Finset.mem_range] at hi
    rw [if_neg]
    omega

/-- the weight of pixel `i` at coordinate `u`. -/
noncomputable def hat (u : ℝ) (i : ℕ) : ℝ := max 0 (1 - |u - i|)

theorem hat_eq (u : ℝ) (i : ℕ) :
    hat u i = (if (i : ℤ) = ⌊u⌋ then 1 - (u - ⌊u⌋) else 0) + if (i : ℤ) = ⌊u⌋ + 1 then u - ⌊u⌋ else 0 := by
  have h1 := Int.floor_le u
  have h2 := Int.lt_floor_add_one u
  unfold hat
  by_cases ha : (i : ℤ) = ⌊u⌋
  · rw [if_pos ha, if_neg (by omega), add_zero]
    have : (i : ℝ) = ⌊u⌋ := by exact_mod_cast ha
    rw [this, abs_of_nonneg (by linarith), max_eq_right (by linarith)]
  · rw [if_neg ha, zero_add]
    by_cases hb : (i : ℤ) = ⌊u⌋ + 1
    · rw [if_pos hb]
      have : (i : ℝ) = ⌊u⌋ + 1 := by exact_mod_cast hb
      rw [this, abs_of_nonpos (by linarith), max_eq_right (by linarith)]
      ring
    · rw [if_neg hb]
      apply max_eq_left
      rcases lt_or_gt_of_ne ha with h | h
      · have : (i : ℤ) + 1 ≤ ⌊u⌋ := by omega
        have : (i : ℝ) + 1 ≤ ⌊u⌋ := by exact_mod_cast this
        have := le_abs_self (u - i)
        linarith
      · have : ⌊u⌋ + 2 ≤ (i : ℤ) := by omega
        have : (⌊u⌋ : ℝ) + 2 ≤ i := by exact_mod_cast this
        have := neg_le_abs (u - i)
        linarith

/-- one axis of bilinear interpolation as a sum over all pixels. -/
theorem taps_hat (s : ℕ) (u : ℝ) (φ : ℕ → ℝ) :
    ((F.taps .bilinear s u).map fun p => p.2 * φ p.1).sum = ∑ i ∈ Finset.range s, hat u i * φ i := by
  have e : ∀ i ∈ Finset.range s, hat u i * φ i =
      (if (i : ℤ) = ⌊u⌋ then (1 - (u - ⌊u⌋)) * φ i else 0) + if (i : ℤ) = ⌊u⌋ + 1 then (u - ⌊u⌋) * φ i else 0 := by
    intro i _
    rw [hat_eq]
    split_ifs <;> ring
  rw [Finset.sum_congr rfl e, Finset.sum_add_distrib, sum_range_pick s _ fun i => (1 - (u - ⌊u⌋)) * φ i,
    sum_range_pick s _ fun i => (u - ⌊u⌋) * φ i]
  unfold F.taps
  simp only [List.filter_cons, List.filter_nil]
  split_ifs <;> simp_all

theorem sampleRec_cont : ∀ (ks : List ℕ) (us : List (X → ℝ)), us.length = ks.length → (∀ u ∈ us, Continuous u) →
    ∀ f : X → List ℕ → ℝ, (∀ r, InB ks r → Continuous fun t => f t r) →
    Continuous fun t => F.sampleRec .bilinear ks (us.map fun u => u t) (f t) := by
  intro ks
  induction ks with
  | nil =>
    intro us hu _ f hf
    have := hf [] InB_nil_nil
    cases us with
    | nil => exact this
    | cons u us => simp at hu
  | cons s ss ih =>
    intro us hu hc f hf
    cases us with
    | nil => simp at hu
    | cons u us =>
      have e : (fun t => F.sampleRec .bilinear (s :: ss) ((u :: us).map fun u => u t) (f t)) =
          fun t => ∑ i ∈ Finset.range s, hat (u t) i * F.sampleRec .bilinear ss (us.map fun u => u t) (fun r => f t (i :: r)) := by
        funext t
        exact taps_hat s (u t) fun i => F.sampleRec .bilinear ss (us.map fun u => u t) (fun r => f t (i :: r))
      rw [e]
      apply continuous_finset_sum
      intro i hi
      rw [Finset.mem_range] at hi
      apply Continuous.mul
      · unfold hat
        have := hc u (by simp)
        fun_prop
      · apply ih us (by simpa using hu) (fun v hv => hc v (by simp [hv])) fun t r => f t (i :: r)
        intro r hr
        exact hf _ (by rw [InB_cons]; exact ⟨hi, hr⟩)

theorem clamp_cont {f : X → ℝ} (hf : Continuous f) (a b : ℝ) : Continuous fun t => clamp (f t) a b := by
  unfold clamp
  fun_prop

/-- reflection of coordinates is the distance to the nearest multiple of twice the extent. -/
theorem reflect_eq {s : ℕ} (hs : 0 < s) (u : ℝ) :
    F.reflectCoord s u = ‖((u + 1 / 2 : ℝ) : AddCircle (2 * (s : ℝ)))‖ - 1 / 2 := by
  have hs' : (0 : ℝ) < s := by exact_mod_cast hs
  have hp : (2 * (s : ℝ)) ≠ 0 := by positivity
  have habs : ‖((u + 1 / 2 : ℝ) : AddCircle (2 * (s : ℝ)))‖ = ‖((|u + 1 / 2| : ℝ) : AddCircle (2 * (s : ℝ)))‖ := by
    rcases abs_choice (u + 1 / 2) with h | h
    · rw [h]
    · rw [h, AddCircle.coe_neg, norm_neg]
  have shift : ∀ (v : ℝ) (z : ℤ), ‖(v : AddCircle (2 * (s : ℝ)))‖ = ‖((v - z * (2 * s) : ℝ) : AddCircle (2 * (s : ℝ)))‖ := by
    intro v z
    have : ((z * (2 * s) : ℝ) : AddCircle (2 * (s : ℝ))) = 0 := (AddCircle.coe_eq_zero_iff _).2 ⟨z, by simp⟩
    rw [AddCircle.coe_sub, this, sub_zero]
  rw [habs]
  unfold F.reflectCoord
  dsimp only
  generalize |u + 1 / 2| = v
  have h1 := Int.floor_le (v / s)
  have h2 := Int.lt_floor_add_one (v / s)
  generalize hk : ⌊v / (s : ℝ)⌋ = k at h1 h2 ⊢
  rw [le_div_iff₀ hs'] at h1
  rw [div_lt_iff₀ hs'] at h2
  have hhalf : |2 * (s : ℝ)| / 2 = s := by rw [abs_of_pos (by positivity)]; ring
  by_cases he : Even k
  · rw [if_pos he]
    obtain ⟨j, rfl⟩ := he
    push_cast at h1 h2 ⊢
    rw [shift v j, (AddCircle.norm_coe_eq_abs_iff _ hp).2, abs_of_nonneg (by linarith)]
    · ring
    · rw [hhalf, abs_of_nonneg (by linarith)]; linarith
  · rw [if_neg he]
    rw [Int.not_even_iff_odd] at he
    obtain ⟨j, rfl⟩ := he
    push_cast at h1 h2 ⊢
    rw [shift v (j + 1), (AddCircle.norm_coe_eq_abs_iff _ hp).2]
    · push_cast
      rw [abs_of_nonpos (by linarith)]
      ring
    · push_cast
      rw [hhalf, abs_of_nonpos (by linarith)]
      linarith

theorem sourceCoord_cont (pad : F.SPad) {s : ℕ} (hs : 0 < s) {f : X → ℝ} (hf : Continuous f) :
    Continuous fun t => F.sourceCoord pad s (f t) := by
  have hu : Continuous fun t => F.unnormalize s (f t) := by unfold F.unnormalize; fun_prop
  cases pad with
  | zeros => exact hu
  | border => exact clamp_cont hu _ _
  | reflection =>
    apply clamp_cont
    simp only [reflect_eq hs]
    have h1 : Continuous fun t => F.unnormalize s (f t) + 1 / 2 := by fun_prop
    exact ((continuous_norm.comp ((AddCircle.continuous_mk' (2 * (s : ℝ))).comp h1))).sub continuous_const

/-- Bilinear sampling depends continuously on the image and on the position, for every padding. -/
theorem sampleAt_cont {d : ℕ} (p : F.SPad) (ks : List ℕ) (hl : ks.length = d) (h0 : ∀ j ∈ ks, 0 < j)
    (f : X → List ℕ → ℝ) (hf : ∀ r, InB ks r → Continuous fun t => f t r) (v : X → Fin d → ℝ) (hv : Continuous v) :
    Continuous fun t => F.sampleAt .bilinear p ks (f t) (v t) := by
  have e : ∀ t, List.zipWith (F.sourceCoord p) ks (List.ofFn (v t)).reverse =
      (List.zipWith (fun s (g : X → ℝ) => fun t => F.sourceCoord p s (g t)) ks (List.ofFn fun i t => v t i).reverse).map fun u => u t := by
    intro t
    rw [List.map_zipWith, show List.ofFn (v t) = (List.ofFn fun i t => v t i).map fun u => u t by rw [List.map_ofFn]; rfl,
      ← List.map_reverse, List.zipWith_map_right]
  unfold F.sampleAt
  simp only [e]
  apply sampleRec_cont ks _ (by simp [hl]) _ f hf
  intro u hu
  obtain ⟨i, hi, rfl⟩ := List.mem_iff_getElem.1 hu
  rw [List.getElem_zipWith]
  have h1 : i < ks.length := by simp only [List.length_zipWith] at hi; omega
  have h2 : i < (List.ofFn fun i (t : X) => v t i).reverse.length := by simp only [List.length_zipWith] at hi; omega
  apply sourceCoord_cont p (h0 _ (List.getElem_mem h1))
  have : ∀ g ∈ (List.ofFn fun i (t : X) => v t i).reverse, Continuous g := by
    intro g hg
    rw [List.mem_reverse, List.mem_ofFn] at hg
    obtain ⟨j, rfl⟩ := hg
    exact (continuous_apply j).comp hv
  exact this _ (List.getElem_mem h2)

/-! ## RBF sampling on the group -/

theorem rbf_cont {G : Type} (dist : G → G → ℝ) (w : ℝ) (g : Tensor G) (K : ℕ) (hs : g.shape.headD 0 = K)
    (hdet : (Interp.rbfMatrix dist Interp.RBFgauss w g).det ≠ 0) (q : X → G) (hq : ∀ x, Continuous fun t => dist (q t) x)
    (f : X → ℕ → ℝ) (hf : ∀ k < K, Continuous fun t => f t k) :
    Continuous fun t => sampleOne (fun q sig g => Interp.interpolateRBF dist Interp.RBFgauss w q g sig) g K (f t) (q t) := by
  have hc : ¬((([K, 1] : List ℕ).headD 0) ≠ g.shape.headD 0 ∨ (Interp.rbfMatrix dist Interp.RBFgauss w g).det = 0) := by
    rintro (h | h); exacts [h hs.symm, hdet h]
  have e : (fun t => sampleOne (fun q sig g => Interp.interpolateRBF dist Interp.RBFgauss w q g sig) g K (f t) (q t)) =
      fun t => ∑ j : Fin (g.shape.headD 0), Interp.RBFgauss (dist (q t) (g.get [j])) w *
        ∑ i : Fin (g.shape.headD 0), (Interp.rbfMatrix dist Interp.RBFgauss w g)⁻¹ j i * f t i := by
    funext t
    unfold sampleOne Interp.interpolateRBF
    dsimp only
    rw [if_neg hc]
    rfl
  rw [e]
  apply continuous_finset_sum
  intro j _
  apply Continuous.mul
  · unfold Interp.RBFgauss
    exact Real.continuous_exp.comp (((hq (g.get [j])).pow 2).div_const _).neg
  · apply continuous_finset_sum
    intro i _
    exact continuous_const.mul (hf i (lt_of_lt_of_eq i.2 hs))

theorem SO2.dist_cont {q : X → ℝ} (hq : Continuous fun t => Real.cos (q t)) (hq' : Continuous fun t => Real.sin (q t)) (x : ℝ) :
    Continuous fun t => SO2.dist (q t) x := by
  unfold SO2.dist
  simp only [SO2.geodesic_eq, Real.cos_sub]
  apply Real.continuous_arccos.comp
  apply clamp_cont
  fun_prop

/-- products of the components of a unit quaternion are linear in the entries of its matrix. -/
theorem SO3.dot_sq {q : SO3.Quat} (hq : IsUnitQuat q) (p : SO3.Quat) :
    (∑ i, q i * p i) ^ 2 = 
      (1 + SO3.quatToMatrix q 0 0 + SO3.quatToMatrix q 1 1 + SO3.quatToMatrix q 2 2) / 4 * p 0 ^ 2 +
      (1 + SO3.quatToMatrix q 0 0 - SO3.quatToMatrix q 1 1 - SO3.quatToMatrix q 2 2) / 4 * p 1 ^ 2 +
      (1 - SO3.quatToMatrix q 0 0 + SO3.quatToMatrix q 1 1 - SO3.quatToMatrix q 2 2) / 4 * p 2 ^ 2 +
      (1 - SO3.quatToMatrix q 0 0 - SO3.quatToMatrix q 1 1 + SO3.quatToMatrix q 2 2) / 4 * p 3 ^ 2 +
      (SO3.quatToMatrix q 2 1 - SO3.quatToMatrix q 1 2) / 2 * (p 0 * p 1) +
      (SO3.quatToMatrix q 0 2 - SO3.quatToMatrix q 2 0) / 2 * (p 0 * p 2) +
      (SO3.quatToMatrix q 1 0 - SO3.quatToMatrix q 0 1) / 2 * (p 0 * p 3) +
      (SO3.quatToMatrix q 1 0 + SO3.quatToMatrix q 0 1) / 2 * (p 1 * p 2) +
      (SO3.quatToMatrix q 0 2 + SO3.quatToMatrix q 2 0) / 2 * (p 1 * p 3) +
      (SO3.quatToMatrix q 2 1 + SO3.quatToMatrix q 1 2) / 2 * (p 2 * p 3) := by
  have h : q 0 ^ 2 + q 1 ^ 2 + q 2 ^ 2 + q 3 ^ 2 = 1 := by
    unfold IsUnitQuat dot at hq
    rw [Fin.sum_univ_four] at hq
    linear_combination hq
  rw [Fin.sum_univ_four]
  simp only [SO3.quatToMatrix, Matrix.of_apply, Matrix.cons_val', Matrix.cons_val_zero, Matrix.cons_val_one, Matrix.cons_val]
  linear_combination (p 0 ^ 2 + p 1 ^ 2 + p 2 ^ 2 + p 3 ^ 2) / 4 * h

theorem SO3.dist_cont {R : X → SO3.Mat3} (hR : Continuous R) (hrot : ∀ t, IsRotation (R t)) (p : SO3.Quat) :
    Continuous fun t => SO3.dist (SO3.matrixToQuat (R t)) p := by
  unfold SO3.dist SO3.geodesicDistance
  apply Real.continuous_arccos.comp
  apply clamp_cont
  have e : (fun t => |∑ i, SO3.matrixToQuat (R t) i * p i|) = fun t => Real.sqrt ((∑ i, SO3.matrixToQuat (R t) i * p i) ^ 2) := by
    funext t; rw [Real.sqrt_sq_eq_abs]
  rw [e]
  apply Real.continuous_sqrt.comp
  have h1 := fun t => (SO3.C16_unit_and_inverse (R t) (hrot t)).1
  have h2 := fun t => (SO3.C16_unit_and_inverse (R t) (hrot t)).2
  simp only [fun t => SO3.dot_sq (h1 t) p, h2]
  have hij : ∀ i j, Continuous fun t => R t i j := fun i j => hR.matrix_elem i j
  have := hij 0 0; have := hij 0 1; have := hij 0 2; have := hij 1 0; have := hij 1 1; have := hij 1 2
  have := hij 2 0; have := hij 2 1; have := hij 2 2
  fun_prop

/-! ## kernels -/

section
variable {G : Type} {d : ℕ}

theorem InB_ones : ∀ (k : ℕ) (r : List ℕ), InB (List.replicate k 1) r → r = List.replicate k 0 := by
  intro k
  induction k with
  | zero => intro r h; exact InB_nil_left h
  | succ k ih =>
    intro r h
    rw [List.replicate_succ] at h
    obtain ⟨i, r', rfl, hi, hr⟩ := InB_cons_left h
    rw [ih r' hr, List.replicate_succ]
    congr 1
    omega

theorem contLifting_of {K : GroupKernel G d} {inv mul act det p} (hK : Lawful K inv mul act det)
    (hs : PointwiseSampler K.sampleRn K.kernelSize (F.sampleAt .bilinear p K.kernelSize)) (hl : K.kernelSize.length = d)
    (h0 : ∀ j ∈ K.kernelSize, 0 < j) {C : (X → G) → Prop} (hact : ∀ o, C o → ∀ v, Continuous fun t => act (inv (o t)) v)
    (hdet : ∀ o, C o → Continuous fun t => detAt det (o t)) (hdet0 : ∀ o, C o → ∀ t, detAt det (o t) ≠ 0) : ContinuousLifting K C := by
  intro weight H n hw hH
  have := fun t => C50_lifting hK hs (weight t) (H t) n (hw.shape t) (hH.shape t)
  choose out e s g using this
  refine ⟨out, e, s, fun idx hidx => ?_⟩
  obtain ⟨co, r, rfl, hco, hidx⟩ := InB_cons_left hidx
  obtain ⟨h, r, rfl, hh, hidx⟩ := InB_cons_left hidx
  obtain ⟨ci, x, rfl, hci, hx⟩ := InB_cons_left hidx
  simp only [fun t => g t co h ci x hco hh hci hx]
  have hC := hH.entry h hh
  refine Continuous.div (continuous_const.mul ?_) (hdet _ hC) (hdet0 _ hC)
  refine sampleAt_cont p _ hl h0 (fun t r => (weight t).get (co :: ci :: r)) (fun r hr => ?_) _ (hact _ hC _)
  exact hw.entry _ (by simp [hco, hci, hr])

theorem contKernel_of {K : GroupKernel G d} {inv mul act det p Good coreH} (hK : Lawful K inv mul act det)
    (hs : PointwiseSampler K.sampleRn K.kernelSize (F.sampleAt .bilinear p K.kernelSize)) (hl : K.kernelSize.length = d)
    (h0 : ∀ j ∈ K.kernelSize, 0 < j)
    (hsH : RowwiseSampler K.sampleH K.gridH K.groupKernelDim Good coreH) (hlH : LocalChannel K.groupKernelDim coreH)
    (hpos : 0 < K.groupKernelDim) {C : (X → G) → Prop}
    (hgood : ∀ o i, C o → C i → ∀ t, Good (mul (inv (o t)) (i t)))
    (hcore : ∀ o i, C o → C i → ∀ f : X → ℕ → ℝ, (∀ k < K.groupKernelDim, Continuous fun t => f t k) →
      Continuous fun t => coreH (f t) (mul (inv (o t)) (i t)))
    (hact : ∀ o, C o → ∀ v, Continuous fun t => act (inv (o t)) v)
    (hdet : ∀ o, C o → Continuous fun t => detAt det (o t)) (hdet0 : ∀ o, C o → ∀ t, detAt det (o t) ≠ 0) : ContinuousKernel K C where
  full weight inH outH m n hw hin hout := by
    have := fun t => C51_group hK hs (sampleAt_local _ p _ hl) hsH hlH hpos (weight t) (inH t) (outH t) m n (hw.shape t) (hin.shape t)
      (hout.shape t) (fun o ho i hi => hgood _ _ (hout.entry o ho) (hin.entry i hi) t)
    choose out e s g using this
    refine ⟨out, e, s, fun idx hidx => ?_⟩
    obtain ⟨co, r, rfl, hco, hidx⟩ := InB_cons_left hidx
    obtain ⟨o, r, rfl, ho, hidx⟩ := InB_cons_left hidx
    obtain ⟨ci, r, rfl, hci, hidx⟩ := InB_cons_left hidx
    obtain ⟨i, x, rfl, hi, hx⟩ := InB_cons_left hidx
    simp only [fun t => g t co o ci i x hco ho hci hi hx]
    have hCo := hout.entry o ho
    have hCi := hin.entry i hi
    refine Continuous.div (continuous_const.mul ?_) (hdet _ hCo) (hdet0 _ hCo)
    refine sampleAt_cont p _ hl h0 _ (fun r hr => ?_) _ (hact _ hCo _)
    refine hcore _ _ hCo hCi _ fun k hk => ?_
    have c : (storedChannel K.outC (K.inC / K.groups) co ci).1 < K.outC ∧ (storedChannel K.outC (K.inC / K.groups) co ci).2 < K.inC / K.groups := by
      unfold storedChannel
      refine ⟨?_, Nat.mod_lt _ (by omega)⟩
      rw [Nat.div_lt_iff_lt_mul (by omega)]
      have : (ci + 1) * K.outC ≤ (K.inC / K.groups) * K.outC := Nat.mul_le_mul_right _ hci
      rw [Nat.add_mul, Nat.one_mul] at this
      rw [Nat.mul_comm K.outC]
      omega
    exact hw.entry _ (by simp [hk, c.1, c.2, hr])
  separable weightH weight inH outH n hwH hw hin hout := by
    have := fun t => C52_separable_partial hK hs hsH hlH hpos (weightH t) (weight t) (inH t) (outH t) n (hwH.shape t) (hw.shape t)
      (hin.shape t) (hout.shape t) (fun o ho i hi => hgood _ _ (hout.entry o ho) (hin.entry i hi) t)
    choose wH w e s1 s2 g1 g2 using this
    refine ⟨wH, w, e, ⟨s1, fun idx hidx => ?_⟩, ⟨s2, fun idx hidx => ?_⟩⟩
    · obtain ⟨co, r, rfl, hco, hidx⟩ := InB_cons_left hidx
      obtain ⟨o, r, rfl, ho, hidx⟩ := InB_cons_left hidx
      obtain ⟨ci, r, rfl, hci, hidx⟩ := InB_cons_left hidx
      obtain ⟨i, x, rfl, hi, hx⟩ := InB_cons_left hidx
      rw [InB_ones _ _ hx]
      simp only [fun t => g1 t co o ci i hco ho hci hi]
      refine hcore _ _ (hout.entry o ho) (hin.entry i hi) _ fun k hk => ?_
      have c : (storedChannel K.outC (K.inC / K.groups) co ci).1 < K.outC ∧ (storedChannel K.outC (K.inC / K.groups) co ci).2 < K.inC / K.groups := by
        unfold storedChannel
        refine ⟨?_, Nat.mod_lt _ (by omega)⟩
        rw [Nat.div_lt_iff_lt_mul (by omega)]
        have : (ci + 1) * K.outC ≤ (K.inC / K.groups) * K.outC := Nat.mul_le_mul_right _ hci
        rw [Nat.add_mul, Nat.one_mul] at this
        rw [Nat.mul_comm K.outC]
        omega
      exact hwH.entry _ (by simp [hk, c.1, c.2])
    · obtain ⟨co, r, rfl, hco, hidx⟩ := InB_cons_left hidx
      obtain ⟨o, r, rfl, ho, hidx⟩ := InB_cons_left hidx
      obtain ⟨ci, x, rfl, hci, hx⟩ := InB_cons_left hidx
      obtain rfl : ci = 0 := by omega
      simp only [fun t => g2 t co o x hco ho hx]
      have hCo := hout.entry o ho
      refine Continuous.div (continuous_const.mul ?_) (hdet _ hCo) (hdet0 _ hCo)
      refine sampleAt_cont p _ hl h0 (fun t r => (weight t).get (co :: 0 :: r)) (fun r hr => ?_) _ (hact _ hCo _)
      exact hw.entry _ (by simp [hco, hr])

end

/-! ## C92 -/

/-- how group elements may move: angles continuously. -/
abbrev ContSE2 (g : X → ℝ) : Prop := Continuous g

/-- rotation matrices continuously. -/
abbrev ContSE3 (g : X → SO3.Mat3) : Prop := Continuous g ∧ ∀ t, IsRotation (g t)

/-- O(2) elements with coefficients `±1` continuously. -/
abbrev ContE2 (g : X → O2.Elt) : Prop := Continuous g ∧ ∀ t, (g t).1 = 1 ∨ (g t).1 = -1

/-- O(3) elements continuously. -/
abbrev ContE3 (g : X → O3.Elt) : Prop := Continuous g ∧ ∀ t, O3.Valid (g t)

theorem angleToMatrix_cont {g : X → ℝ} (hg : Continuous g) (v : Fin 2 → ℝ) : Continuous fun t => (SO2.angleToMatrix (g t)).mulVec v := by
  apply continuous_pi
  intro i
  fin_cases i <;> simp [SO2.angleToMatrix, Matrix.mulVec, dotProduct, Fin.sum_univ_two] <;> fun_prop

theorem SE2_act_cont {o : X → ℝ} (ho : ContSE2 o) (v : Fin 2 → ℝ) : Continuous fun t => KernelSE2.act (SO2.inverseAngle (o t)) v := by
  unfold KernelSE2.act
  exact angleToMatrix_cont (by unfold SO2.inverseAngle; fun_prop) v

/-- `GLiftingKernelSE2`. -/
theorem C92_SE2_lifting (a : KernelArgs ℝ ℕ) (K : GroupKernel ℝ 2) (hK : KernelSE2.lifting a = .ok K) (hk : 0 < a.kernelSize) {p}
    (hm : SpatialModes a.spatialMode a.spatialPad .bilinear p) : ContinuousLifting K (ContSE2 (X := X)) := by
  have : K = KernelSE2.base a noSampler := by
    unfold KernelSE2.lifting checkGroups at hK
    by_cases h0 : a.groups = 0
    · rw [if_pos h0] at hK; cases hK
    · rw [if_neg h0] at hK; cases hK; rfl
  subst this
  exact contLifting_of (KernelSE2.lawful a _) (KernelSE2.pointwise a _ hm hk) rfl (forall_pair hk)
    (fun o ho v => SE2_act_cont ho v) (fun _ _ => continuous_const) (fun _ _ _ => one_ne_zero)

theorem SO2_value_cont {w : ℝ} {g : Tensor ℝ} {K : ℕ} (h : Solvable SO2.dist "rbf" w g K) {q : X → ℝ}
    (hc : Continuous fun t => Real.cos (q t)) (hs : Continuous fun t => Real.sin (q t)) (f : X → ℕ → ℝ) (hf : ∀ k < K, Continuous fun t => f t k) :
    Continuous fun t => sampleOne (fun q sig g => SO2.gridSample q sig g "rbf" w) g K (f t) (q t) := by
  have e : (fun q sig g => SO2.gridSample q sig g "rbf" w) = fun q sig g => Interp.interpolateRBF SO2.dist Interp.RBFgauss w q g sig := by
    funext q sig g; unfold SO2.gridSample; rw [if_pos rfl]; rfl
  rw [e]
  obtain ⟨h1, ⟨h2, -⟩ | ⟨-, h2⟩⟩ := h
  · exact absurd h2 (by decide)
  · exact rbf_cont _ _ _ _ h1 h2 q (fun x => SO2.dist_cont hc hs x) f hf

theorem relative_cont {o i : X → ℝ} (ho : Continuous o) (hi : Continuous i) :
    (Continuous fun t => Real.cos (SO2.leftApplyAngle (SO2.inverseAngle (o t)) (i t))) ∧
    (Continuous fun t => Real.sin (SO2.leftApplyAngle (SO2.inverseAngle (o t)) (i t))) := by
  have e : ∀ t, EqMod (2 * Real.pi) (SO2.leftApplyAngle (SO2.inverseAngle (o t)) (i t)) (- o t + i t) := fun t => pyMod_eqMod _ _
  simp only [fun t => cos_of_eqMod (e t), fun t => sin_of_eqMod (e t)]
  constructor <;> fun_prop

/-- `GKernelSE2`, `GSeparableKernelSE2`. -/
theorem C92_SE2 (a : KernelArgs ℝ ℕ) (w : ℝ) (h : KernelSE2.Ready a w) (hr : a.groupMode = "rbf") {p}
    (hm : SpatialModes a.spatialMode a.spatialPad .bilinear p) :
    ∃ K, KernelSE2.full a = .ok K ∧ ContinuousKernel K (ContSE2 (X := X)) := by
  refine ⟨_, KernelSE2.full_eq h, ?_⟩
  refine contKernel_of (KernelSE2.lawful a _) (KernelSE2.pointwise a _ hm h.kernel) rfl (forall_pair h.kernel)
    (KernelSE2.rows h).1 (KernelSE2.rows h).2 h.nonempty (fun _ _ _ _ _ => trivial) ?_
    (fun o ho v => SE2_act_cont ho v) (fun _ _ => continuous_const) (fun _ _ _ => one_ne_zero)
  intro o i ho hi f hf
  unfold KernelSE2.value
  have hsol := h.solvable
  rw [hr] at hsol ⊢
  exact SO2_value_cont hsol (relative_cont ho hi).1 (relative_cont ho hi).2 f fun k hk => hf k (by
    show k < [(KernelSE2.grid a).shape.headD 0].sum
    simpa using hk)

theorem transpose_mulVec_cont {R : X → SO3.Mat3} (hR : Continuous R) (v : Fin 3 → ℝ) :
    Continuous fun t => (R t).transpose.mulVec v := by
  exact (hR.matrix_transpose).matrix_mulVec continuous_const

theorem checkGroups_base {G : Type} {d : ℕ} {K K' : GroupKernel G d} {g : ℕ} (h : checkGroups g K = .ok K') : K' = K := by
  unfold checkGroups at h
  by_cases h0 : g = 0
  · rw [if_pos h0] at h; cases h
  · rw [if_neg h0] at h; cases h; rfl

/-- `GLiftingKernelSE3`. -/
theorem C92_SE3_lifting (s opt) (a : KernelArgs SO3.Mat3 ℕ) (K : GroupKernel SO3.Mat3 3) (hK : KernelSE3.lifting s opt a = .ok K)
    (hk : 0 < a.kernelSize) {p} (hm : SpatialModes a.spatialMode a.spatialPad .bilinear p) : ContinuousLifting K (ContSE3 (X := X)) := by
  unfold KernelSE3.lifting at hK
  obtain ⟨gr, -, hK⟩ := Conv.bind_ok hK
  obtain rfl := checkGroups_base hK
  exact contLifting_of (KernelSE3.lawful a gr _) (KernelSE3.pointwise a gr _ hm hk) rfl (forall_triple hk)
    (fun o ho v => transpose_mulVec_cont ho.1 v) (fun _ _ => continuous_const) (fun _ _ _ => one_ne_zero)

theorem SO3_value_cont {w : ℝ} {g : Tensor SO3.Quat} {K : ℕ} (h : Solvable SO3.dist "rbf" w g K) {R : X → SO3.Mat3}
    (hR : ContSE3 R) (f : X → ℕ → ℝ) (hf : ∀ k < K, Continuous fun t => f t k) :
    Continuous fun t => sampleOne (fun q sig g => SO3.gridSampleQuat q sig g "rbf" w) g K (f t) (SO3.matrixToQuat (R t)) := by
  have e : (fun q sig g => SO3.gridSampleQuat q sig g "rbf" w) = fun q sig g => Interp.interpolateRBF SO3.dist Interp.RBFgauss w q g sig := by
    funext q sig g; unfold SO3.gridSampleQuat; rw [if_neg (by decide), if_pos rfl]; rfl
  rw [e]
  obtain ⟨h1, ⟨h2, -⟩ | ⟨-, h2⟩⟩ := h
  · exact absurd h2 (by decide)
  · exact rbf_cont _ _ _ _ h1 h2 _ (fun x => SO3.dist_cont hR.1 hR.2 x) f hf

theorem relative3_cont {o i : X → SO3.Mat3} (ho : ContSE3 o) (hi : ContSE3 i) : ContSE3 fun t => (o t).transpose * i t :=
  ⟨ho.1.matrix_transpose.matrix_mul hi.1, fun t =>
    (SO3.C27_closed _ _ (SO3.C27_closed _ 1 (ho.2 t) (by unfold IsRotation; simp)).2 (hi.2 t)).1⟩

/-- `GKernelSE3`, `GSeparableKernelSE3`. -/
theorem C92_SE3 (s opt) (a : KernelArgs SO3.Mat3 ℕ) (gr) (w : ℝ) (h : KernelSE3.Ready s opt a gr w) (hr : a.groupMode = "rbf") {p}
    (hm : SpatialModes a.spatialMode a.spatialPad .bilinear p) :
    ∃ K, KernelSE3.full s opt a = .ok K ∧ ContinuousKernel K (ContSE3 (X := X)) := by
  refine ⟨_, KernelSE3.full_eq h, ?_⟩
  refine contKernel_of (KernelSE3.lawful a gr _) (KernelSE3.pointwise a gr _ hm h.kernel) rfl (forall_triple h.kernel)
    (KernelSE3.rows h).1 (KernelSE3.rows h).2 (KernelSE3.dim_pos h) (fun _ _ _ _ _ => trivial) ?_
    (fun o ho v => transpose_mulVec_cont ho.1 v) (fun _ _ => continuous_const) (fun _ _ _ => one_ne_zero)
  intro o i ho hi f hf
  unfold KernelSE3.value
  have hsol := h.solvable
  rw [hr] at hsol ⊢
  refine SO3_value_cont (g := gr.map SO3.matrixToQuat) hsol (relative3_cont ho hi) f fun k hk => hf k ?_
  show k < [gr.shape.headD 3].sum
  rw [KernelSE3.dim h]
  have hk' : k < gr.shape.headD 0 := hk
  simpa using hk'

theorem cosetCore_cont {G Q : Type} {coef : G → ℝ} {rot : G → Q} {samp : ℝ → Tensor Q → Tensor ℝ → Tensor Q → Except PyErr (Tensor ℝ)}
    {gr : Tensor G} {n m : ℕ} {wr wf : ℝ} (hn : n ≠ 0) (hm : m ≠ 0) {q : X → G} (hc : Continuous fun t => coef (q t))
    (hpm : ∀ t, coef (q t) = 1 ∨ coef (q t) = -1) (f : X → ℕ → ℝ)
    (hR : Continuous fun t => sampleOne (samp wr) ((gr.slice0 0 n).map rot) n (f t) (rot (q t)))
    (hF : Continuous fun t => sampleOne (samp wf) ((gr.drop0 n).map rot) m (fun k => f t (n + k)) (rot (q t))) :
    Continuous fun t => cosetCore coef rot samp gr n m wr wf (f t) (q t) := by
  have e : (fun t => cosetCore coef rot samp gr n m wr wf (f t) (q t)) = fun t =>
      (1 + coef (q t)) / 2 * sampleOne (samp wr) ((gr.slice0 0 n).map rot) n (f t) (rot (q t)) +
      (1 - coef (q t)) / 2 * sampleOne (samp wf) ((gr.drop0 n).map rot) m (fun k => f t (n + k)) (rot (q t)) := by
    funext t
    unfold cosetCore
    rcases hpm t with h | h
    · rw [if_pos h, if_neg hn, h]; ring
    · rw [if_neg (by rw [h]; norm_num), if_neg hm, h]; ring
  rw [e]
  exact (((continuous_const.add hc).div_const 2).mul hR).add (((continuous_const.sub hc).div_const 2).mul hF)

theorem E2_act_cont {o : X → O2.Elt} (ho : ContE2 o) (v : Fin 2 → ℝ) : Continuous fun t => KernelE2.act (O2.inverse (o t)) v := by
  unfold KernelE2.act O2.inverse
  have h1 : Continuous fun t => (o t).1 := continuous_fst.comp ho.1
  have h2 : Continuous fun t => (o t).2 * (-1) := (continuous_snd.comp ho.1).mul continuous_const
  exact h1.smul (angleToMatrix_cont h2 v)

theorem pm_ne_zero {c : ℝ} (h : c = 1 ∨ c = -1) : c ≠ 0 := by rcases h with rfl | rfl <;> norm_num

/-- `GLiftingKernelE2`. -/
theorem C92_E2_lifting (a : KernelArgs O2.Elt SizeArg) (K : GroupKernel O2.Elt 2) (hK : KernelE2.lifting a = .ok K) (hk : 0 < a.kernelSize) {p}
    (hm : SpatialModes a.spatialMode a.spatialPad .bilinear p) : ContinuousLifting K (ContE2 (X := X)) := by
  obtain rfl := checkGroups_base hK
  exact contLifting_of (KernelE2.lawful a _) (KernelE2.pointwise a _ hm hk) rfl (forall_pair hk)
    (fun o ho v => E2_act_cont ho v) (fun o ho => continuous_fst.comp ho.1) (fun o ho t => pm_ne_zero (ho.2 t))

theorem pm_mul {c e : ℝ} (h : c = 1 ∨ c = -1) (h' : e = 1 ∨ e = -1) : c * e = 1 ∨ c * e = -1 := by
  rcases h with rfl | rfl <;> rcases h' with rfl | rfl <;> norm_num

/-- `GKernelE2`, `GSeparableKernelE2` with reference rotations and reflections. -/
theorem C92_E2 (a : KernelArgs O2.Elt SizeArg) (wr wf : ℝ) (h : KernelE2.Ready a wr wf) (hr : a.groupMode = "rbf")
    (h1 : KernelE2.nRot a ≠ 0) (h2 : KernelE2.nRef a ≠ 0) {p} (hm : SpatialModes a.spatialMode a.spatialPad .bilinear p) :
    ∃ K, KernelE2.full a = .ok K ∧ ContinuousKernel K (ContE2 (X := X)) := by
  refine ⟨_, KernelE2.full_eq h, ?_⟩
  refine contKernel_of (KernelE2.lawful a _) (KernelE2.pointwise a _ hm h.kernel) rfl (forall_pair h.kernel)
    (KernelE2.rows h).1 (KernelE2.rows h).2 h.nonempty (fun o i ho hi t => KernelE2.pair_of_valid a h1 h2 _ _ (ho.2 t) (hi.2 t)) ?_
    (fun o ho v => E2_act_cont ho v) (fun o ho => continuous_fst.comp ho.1) (fun o ho t => pm_ne_zero (ho.2 t))
  intro o i ho hi f hf
  have hf' : ∀ k < KernelE2.nRot a + KernelE2.nRef a, Continuous fun t => f t k := fun k hk => hf k (by
    show k < [KernelE2.nRot a, KernelE2.nRef a].sum
    simpa using hk)
  have e : ∀ t, (O2.leftApplyAngle (O2.inverse (o t)) (i t)).2 = SO2.leftApplyAngle (SO2.inverseAngle (o t).2) (i t).2 := by
    intro t
    show pyMod ((o t).2 * (-1) + (i t).2) (2 * Real.pi) = pyMod (-(o t).2 + (i t).2) (2 * Real.pi)
    rw [mul_neg_one]
  have hrel := relative_cont (continuous_snd.comp ho.1) (continuous_snd.comp hi.1)
  have hsR := h.solvableR h1
  have hsF := h.solvableF h2
  rw [hr] at hsR hsF
  unfold KernelE2.value
  rw [hr]
  refine cosetCore_cont (q := fun t => O2.leftApplyAngle (O2.inverse (o t)) (i t)) h1 h2
    ((continuous_fst.comp ho.1).mul (continuous_fst.comp hi.1)) (fun t => pm_mul (ho.2 t) (hi.2 t)) f ?_ ?_
  · simp only [e]
    exact SO2_value_cont hsR hrel.1 hrel.2 f fun k hk => hf' k (by omega)
  · simp only [e]
    exact SO2_value_cont hsF hrel.1 hrel.2 (fun t k => f t (KernelE2.nRot a + k)) fun k hk => hf' _ (by omega)

theorem O3_parts_cont {o : X → O3.Elt} (ho : ContE3 o) : (Continuous fun t => O3.coef (o t)) ∧ ContSE3 fun t => O3.rot (o t) := by
  refine ⟨(continuous_apply 0).comp ho.1, ?_, fun t => (ho.2 t).2⟩
  apply continuous_matrix
  intro i j
  exact (continuous_apply (⟨1 + 3 * i.val + j.val, by omega⟩ : Fin 10)).comp ho.1

theorem E3_act_cont {o : X → O3.Elt} (ho : ContE3 o) (v : Fin 3 → ℝ) : Continuous fun t => KernelE3.act (O3.inverse (o t)) v := by
  simp only [KernelE3.act_inverse]
  exact (O3_parts_cont ho).1.smul (transpose_mulVec_cont (O3_parts_cont ho).2.1 v)

/-- `GLiftingKernelE3`. -/
theorem C92_E3_lifting (s opt1 opt2) (a : KernelArgs O3.Elt SizeArg) (K : GroupKernel O3.Elt 3) (hK : KernelE3.lifting s opt1 opt2 a = .ok K)
    (hk : 0 < a.kernelSize) {p} (hm : SpatialModes a.spatialMode a.spatialPad .bilinear p) : ContinuousLifting K (ContE3 (X := X)) := by
  unfold KernelE3.lifting at hK
  obtain ⟨gr, -, hK⟩ := Conv.bind_ok hK
  obtain rfl := checkGroups_base hK
  exact contLifting_of (KernelE3.lawful a gr _) (KernelE3.pointwise a gr _ hm hk) rfl (forall_triple hk)
    (fun o ho v => E3_act_cont ho v) (fun o ho => (O3_parts_cont ho).1) (fun o ho t => pm_ne_zero (ho.2 t).1)

/-- `GKernelE3`, `GSeparableKernelE3` with reference rotations and reflections. -/
theorem C92_E3 (s opt1 opt2) (a : KernelArgs O3.Elt SizeArg) (gr) (wr wf : ℝ) (h : KernelE3.Ready s opt1 opt2 a gr wr wf) (hr : a.groupMode = "rbf")
    (h1 : KernelE3.nRot a ≠ 0) (h2 : KernelE3.nRef a ≠ 0) {p} (hm : SpatialModes a.spatialMode a.spatialPad .bilinear p) :
    ∃ K, KernelE3.full s opt1 opt2 a = .ok K ∧ ContinuousKernel K (ContE3 (X := X)) := by
  refine ⟨_, KernelE3.full_eq h, ?_⟩
  refine contKernel_of (KernelE3.lawful a gr _) (KernelE3.pointwise a gr _ hm h.kernel) rfl (forall_triple h.kernel)
    (KernelE3.rows h).1 (KernelE3.rows h).2 h.nonempty (fun o i ho hi t => KernelE3.pair_of_valid a h1 h2 (o t) (i t) (ho.2 t) (hi.2 t)) ?_
    (fun o ho v => E3_act_cont ho v) (fun o ho => (O3_parts_cont ho).1) (fun o ho t => pm_ne_zero (ho.2 t).1)
  intro o i ho hi f hf
  have hf' : ∀ k < KernelE3.nRot a + KernelE3.nRef a, Continuous fun t => f t k := fun k hk => hf k (by
    show k < [KernelE3.nRot a, KernelE3.nRef a].sum
    simpa using hk)
  have ec : ∀ t, O3.coef (O3.leftApplyO3 (O3.inverse (o t)) (i t)) = O3.coef (o t) * O3.coef (i t) := fun t => by
    unfold O3.leftApplyO3 O3.inverse; rw [O3.coef_mk, O3.coef_mk]
  have er : ∀ t, O3.rot (O3.leftApplyO3 (O3.inverse (o t)) (i t)) = (O3.rot (o t)).transpose * O3.rot (i t) := fun t => by
    unfold O3.leftApplyO3 O3.inverse; rw [O3.rot_mk, O3.rot_mk]
  have hrel := relative3_cont (O3_parts_cont ho).2 (O3_parts_cont hi).2
  have hsR := h.solvableR h1
  have hsF := h.solvableF h2
  rw [hr] at hsR hsF
  unfold KernelE3.value
  rw [hr]
  refine cosetCore_cont h1 h2 ?_ (fun t => ?_) f ?_ ?_
  · simp only [ec]; exact (O3_parts_cont ho).1.mul (O3_parts_cont hi).1
  · rw [ec]; exact pm_mul (ho.2 t).1 (hi.2 t).1
  · simp only [er]
    exact SO3_value_cont (g := KernelE3.quats (gr.slice0 0 (KernelE3.nRot a))) hsR hrel f fun k hk => hf' k (by omega)
  · simp only [er]
    exact SO3_value_cont (g := KernelE3.quats (gr.drop0 (KernelE3.nRot a))) hsF hrel (fun t k => f t (KernelE3.nRot a + k)) fun k hk => hf' _ (by omega)

/-! ## layers -/

section
variable {G : Type} {d : ℕ}
open Conv

theorem sumBox_cont (s : List ℕ) (f : X → List ℕ → ℝ) (hf : ∀ k, InB s k → Continuous fun t => f t k) : Continuous fun t => sumBox s (f t) := by
  unfold sumBox
  have : ∀ l : List (List ℕ), (∀ k ∈ l, Continuous fun t => f t k) → Continuous fun t => (l.map (f t)).sum := by
    intro l
    induction l with
    | nil => intro _; exact continuous_const
    | cons k l ih =>
      intro h
      simp only [List.map_cons, List.sum_cons]
      exact (h k (by simp)).add (ih fun k hk => h k (by simp [hk]))
  exact this _ fun k hk => hf k (mem_allIdx.1 hk)

theorem corr_cont {mode : F.CPad} {ax : List Axis} {S : List ℕ} (hg : GeomOk mode ax S) {o : List ℕ} (ho : InB (outDims ax S) o)
    (f w : X → List ℕ → ℝ) (hf : ∀ q, InB S q → Continuous fun t => f t q) (hw : ∀ k, InB (kernelDims ax) k → Continuous fun t => w t k) :
    Continuous fun t => corr mode ax S (f t) (w t) o := by
  unfold corr
  apply sumBox_cont _ fun t k => extended mode S (f t) (readPos ax o k) * w t k
  intro k hk
  refine Continuous.mul ?_ (hw k hk)
  unfold extended
  cases e : cellAt mode S (readPos ax o k) with
  | none => exact continuous_const
  | some q => exact hf q (cellAt_InB hg ho hk e)

/-- a bias that moves continuously (or none). -/
def ContBias (outC nd : ℕ) (bias : X → Option (Tensor ℝ)) : Prop :=
  (∀ t, bias t = none) ∨ ∃ b : X → Tensor ℝ, (∀ t, bias t = some (b t)) ∧ ContTensor (outC :: List.replicate (nd + 1) 1) b

theorem ContBias.shape {outC nd : ℕ} {bias : X → Option (Tensor ℝ)} (h : ContBias outC nd bias) (t : X) : BiasShape (bias t) outC nd := by
  intro b hb
  rcases h with h | ⟨b', h, hc⟩
  · rw [h t] at hb; cases hb
  · rw [h t] at hb; cases hb; exact hc.shape t

theorem ContBias.at {outC nd : ℕ} {bias : X → Option (Tensor ℝ)} (h : ContBias outC nd bias) {co : ℕ} (hco : co < outC) :
    Continuous fun t => biasAt (bias t) nd co := by
  rcases h with h | ⟨b, h, hc⟩
  · simp only [h]; exact continuous_const
  · simp only [h]
    refine hc.entry (co :: List.replicate (nd + 1) 0) ?_
    rw [InB_cons]
    refine ⟨hco, ?_⟩
    generalize nd + 1 = k
    induction k with
    | zero => exact InB_nil_nil
    | succ k ih => rw [List.replicate_succ, List.replicate_succ, InB_cons]; exact ⟨one_pos, ih⟩

theorem channel_in {inC outC g co ci : ℕ} (h1 : g ∣ inC) (h2 : g ∣ outC) (h0 : 0 < g) (hco : co < outC) (hci : ci < inC / g) :
    groupStart inC outC g co + ci < inC := by
  obtain ⟨c, rfl⟩ := h1
  obtain ⟨e, rfl⟩ := h2
  unfold groupStart
  rw [Nat.mul_div_cancel_left _ h0] at hci ⊢
  rw [Nat.mul_div_cancel_left _ h0]
  have hlt : co / e < g := Nat.div_lt_of_lt_mul (by rwa [Nat.mul_comm] at hco)
  have := Nat.mul_le_mul_right c (Nat.succ_le_of_lt hlt)
  rw [Nat.succ_mul] at this
  omega

/-- Lifting convolutions: the output depends continuously on input, weights, bias and grid. -/
theorem C92_lifting_layer {a : Args} {mode : F.CPad} {ax : List Axis} (hgeo : HasGeometry a mode ax) {L : Layer}
    (hL : init a (kernelDims ax) = .ok L) {S : List ℕ} (hg : GeomOk mode ax S) {K : GroupKernel G d} {C : (X → G) → Prop}
    (hC : ContinuousLifting K C) (hout : K.outC = a.outC) (hin : K.inC / K.groups = a.inC / a.groups.toNat)
    (hks : K.kernelSize = kernelDims ax) (hpos : 0 < a.inC) (weight : X → Tensor ℝ)
    (hw : ContTensor ([K.outC, K.inC / K.groups] ++ K.kernelSize) weight) (bias : X → Option (Tensor ℝ)) (hb : ContBias a.outC ax.length bias)
    (N n : ℕ) (input : X → Tensor ℝ) (hx : ContTensor (N :: a.inC :: S) input) (H : X → Tensor G) (hH : ContGrid C n H) :
    ∃ out : X → Tensor ℝ, (∀ t, L.liftingForward K (weight t) (bias t) (input t) (H t) = .ok (out t, H t)) ∧
      ContTensor (N :: a.outC :: n :: outDims ax S) out := by
  obtain ⟨w, hw1, hw2⟩ := hC weight H n hw hH
  rw [hout, hin, hks] at hw2
  have := fun t => C60_lifting hgeo hL hg K (weight t) (w t) (bias t) N n (input t) (H t) (hH.shape t) hpos (hw1 t) (hw2.shape t)
    (hx.shape t) (hb.shape t)
  choose out e s g using this
  obtain ⟨-, -, f3, -, f5, f6, f7⟩ := init_fields hgeo hL
  rw [f3] at f5 f6 f7
  refine ⟨out, e, s, fun idx hidx => ?_⟩
  obtain ⟨b, r, rfl, hb', hidx⟩ := InB_cons_left hidx
  obtain ⟨co, r, rfl, hco, hidx⟩ := InB_cons_left hidx
  obtain ⟨h, o, rfl, hh, ho⟩ := InB_cons_left hidx
  simp only [fun t => g t b co h o hb' hco hh ho]
  unfold Spec.liftingConv
  refine Continuous.add (continuous_finset_sum _ fun ci hci => ?_) (hb.at hco)
  rw [Finset.mem_range] at hci
  refine corr_cont hg ho _ _ (fun q hq => ?_) (fun k hk => ?_)
  · exact hx.entry _ (by simp only [InB_cons]; exact ⟨hb', channel_in f5 f6 f7 hco hci, hq⟩)
  · exact hw2.entry _ (by simp [hco, hh, hci, hk])

/-- Group convolutions. -/
theorem C92_group_layer {a : Args} {mode : F.CPad} {ax : List Axis} (hgeo : HasGeometry a mode ax) {L : Layer}
    (hL : init a (kernelDims ax) = .ok L) {S : List ℕ} (hg : GeomOk mode ax S) {K : GroupKernel G d} {C : (X → G) → Prop}
    (hC : ContinuousKernel K C) (hout : K.outC = a.outC) (hin : K.inC / K.groups = a.inC / a.groups.toNat)
    (hks : K.kernelSize = kernelDims ax) (weight : X → Tensor ℝ)
    (hw : ContTensor ([K.groupKernelDim, K.outC, K.inC / K.groups] ++ K.kernelSize) weight)
    (bias : X → Option (Tensor ℝ)) (hb : ContBias a.outC ax.length bias)
    (N m n : ℕ) (input : X → Tensor ℝ) (hx : ContTensor (N :: a.inC :: m :: S) input) (inH outH : X → Tensor G)
    (hi : ContGrid C m inH) (ho : ContGrid C n outH) :
    ∃ out : X → Tensor ℝ, (∀ t, L.groupForward K (weight t) (bias t) (input t) (inH t) (outH t) = .ok (out t, outH t)) ∧
      ContTensor (N :: a.outC :: n :: outDims ax S) out := by
  obtain ⟨w, hw1, hw2⟩ := hC.full weight inH outH m n hw hi ho
  rw [hout, hin, hks] at hw2
  have := fun t => C61_group hgeo hL hg K (weight t) (w t) (bias t) N m n (input t) (inH t) (outH t) (hi.shape t) (ho.shape t) (hw1 t)
    (hw2.shape t) (hx.shape t) (hb.shape t)
  choose out e s g using this
  obtain ⟨-, -, f3, -, f5, f6, f7⟩ := init_fields hgeo hL
  rw [f3] at f5 f6 f7
  refine ⟨out, e, s, fun idx hidx => ?_⟩
  obtain ⟨b, r, rfl, hb', hidx⟩ := InB_cons_left hidx
  obtain ⟨co, r, rfl, hco, hidx⟩ := InB_cons_left hidx
  obtain ⟨h, o, rfl, hh, ho⟩ := InB_cons_left hidx
  simp only [fun t => g t b co h o hb' hco hh ho]
  unfold Spec.groupConv
  refine Continuous.add (continuous_finset_sum _ fun ci hci => continuous_finset_sum _ fun i hi => ?_) (hb.at hco)
  rw [Finset.mem_range] at hci hi
  refine corr_cont hg ho _ _ (fun q hq => ?_) (fun k hk => ?_)
  · exact hx.entry _ (by simp only [InB_cons]; exact ⟨hb', channel_in f5 f6 f7 hco hci, hi, hq⟩)
  · exact hw2.entry _ (by simp [hco, hh, hci, hi, hk])

end

/-- A case: turning a fixed lifting kernel of the default settings through all angles `t` is continuous in `t`. -/
example (a : KernelArgs ℝ ℕ) (K : GroupKernel ℝ 2) (hK : KernelSE2.lifting a = .ok K) (hk : 0 < a.kernelSize)
    (hm : SpatialModes a.spatialMode a.spatialPad .bilinear .border) (weight : Tensor ℝ)
    (hw : weight.shape = [K.outC, K.inC / K.groups] ++ K.kernelSize) :
    ∃ out : ℝ → Tensor ℝ, (∀ t, K.liftingForward weight ⟨[1], fun _ => t⟩ = .ok (out t)) ∧
      ContTensor ([K.outC, 1, K.inC / K.groups] ++ K.kernelSize) out :=
  C92_SE2_lifting (X := ℝ) a K hK hk hm (fun _ => weight) (fun t => ⟨[1], fun _ => t⟩) 1 ⟨fun _ => hw, fun _ _ => continuous_const⟩
    ⟨fun _ => rfl, fun _ _ => continuous_id⟩

/-- Two cases: the default kernels of size 5 with 6 angles and with 12 rotations satisfy the hypotheses. -/
example : ∃ K, KernelSE2.full { inC := 2, outC := 3, kernelSize := 5, groupKernelSize := 6 } = .ok K ∧ ContinuousKernel K (ContSE2 (X := ℝ)) := by
  obtain ⟨w, h, -, -⟩ := KernelSE2.default_ready { inC := 2, outC := 3, kernelSize := 5, groupKernelSize := 6 } rfl (Or.inl rfl) rfl
    (by norm_num) (by norm_num) (by norm_num) (by norm_num)
  exact C92_SE2 _ w h rfl defaultModes

example : ∃ K, KernelSE3.full SO3.initialStore [] { inC := 2, outC := 3, kernelSize := 5, groupKernelSize := 12 } = .ok K ∧
    ContinuousKernel K (ContSE3 (X := ℝ)) := by
  obtain ⟨gr, w, h, -, -⟩ := KernelSE3.default_ready [] { inC := 2, outC := 3, kernelSize := 5, groupKernelSize := 12 } rfl (Or.inl rfl) rfl
    (by norm_num) (by norm_num) (by norm_num) (by norm_num)
  exact C92_SE3 _ _ _ gr w h rfl defaultModes

end GConv

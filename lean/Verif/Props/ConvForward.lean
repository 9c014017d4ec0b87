import Verif.Lemmas.Layer

/-! # C59 – C61: sizes and formulas of the lifting and the group convolution -/

namespace GConv.Conv

open Tensor Spec

/-- reading a view: indices with the same row-major offset. -/
theorem view_get {α : Type} {t : Tensor α} {s idx : List ℕ} {idx' : List ℕ} (h : InB t.shape idx)
    (hr : ravel s idx' = ravel t.shape idx) : t.get (unravel t.shape (ravel s idx')) = t.get idx := by
  rw [hr, unravel_ravel h]

theorem row_lt {A B i j : ℕ} (hi : i < A) (hj : j < B) : i * B + j < A * B := by
  calc i * B + j < i * B + B := by omega
    _ = (i + 1) * B := by ring
    _ ≤ A * B := Nat.mul_le_mul_right _ hi

/-- `(N, A * B, *s) -> (N, A, B, *s)`. -/
theorem view_split {t : Tensor ℝ} {N A B : ℕ} {s : List ℕ} (ht : t.shape = N :: A * B :: s) :
    ∃ y, t.view (N :: A :: B :: s) = .ok y ∧ y.shape = N :: A :: B :: s ∧
      ∀ n i j x, n < N → i < A → j < B → InB s x → y.get (n :: i :: j :: x) = t.get (n :: (i * B + j) :: x) := by
  refine ⟨_, view_ok (by rw [ht]; simp [Nat.mul_assoc]), rfl, ?_⟩
  intro n i j x hn hi hj hx
  refine view_get (by rw [ht]; simp [hn, row_lt hi hj, hx]) ?_
  rw [ht]
  simp only [ravel, List.prod_cons]
  ring

/-- `(N, A, B, *s) -> (N, A * B, *s)`. -/
theorem view_merge {t : Tensor ℝ} {N A B : ℕ} {s : List ℕ} (ht : t.shape = N :: A :: B :: s) :
    ∃ y, t.view (N :: A * B :: s) = .ok y ∧ y.shape = N :: A * B :: s ∧
      ∀ n i j x, n < N → i < A → j < B → InB s x → y.get (n :: (i * B + j) :: x) = t.get (n :: i :: j :: x) := by
  refine ⟨_, view_ok (by rw [ht]; simp [Nat.mul_assoc]), rfl, ?_⟩
  intro n i j x hn hi hj hx
  refine view_get (by rw [ht]; simp [hn, hi, hj, hx]) ?_
  rw [ht]
  simp only [ravel, List.prod_cons]
  ring

theorem addBias_spec {x : Tensor ℝ} {bias : Option (Tensor ℝ)} {N C n nd : ℕ} {O : List ℕ} (hO : O.length = nd)
    (hx : x.shape = N :: C :: n :: O) (hb : BiasShape bias C nd) :
    ∃ y, Layer.addBias x bias = .ok y ∧ y.shape = N :: C :: n :: O ∧
      ∀ b co h o, b < N → co < C → h < n → InB O o →
        y.get (b :: co :: h :: o) = x.get (b :: co :: h :: o) + biasAt bias nd co := by
  cases bias with
  | none => exact ⟨x, rfl, hx, fun b co h o _ _ _ _ => (add_zero _).symm⟩
  | some t =>
    have hs := hb t rfl
    have hBI : BInto (C :: List.replicate (nd + 1) 1) (C :: n :: O) := by
      refine List.Forall₂.cons (Or.inl rfl) ?_
      have := BInto.ones (n :: O)
      rwa [List.length_cons, hO] at this
    refine ⟨_, bzip_left (p := [N]) (q := C :: n :: O) hx hs hBI, rfl, ?_⟩
    intro b co h o hb' hco hh ho
    dsimp only
    rw [hx, bidx_full (by simp [hb', hco, hh, ho]), hs]
    congr 1
    show t.get _ = t.get _
    congr 1
    rw [show b :: co :: h :: o = [b] ++ (co :: h :: o) from rfl, bidx_append (by simp [ho.length, hO]),
      List.zipWith_cons_cons, zip_ones (nd + 1) (h :: o) (by simp [ho.length, hO])]
    congr 1
    by_cases hc : C = 1
    · rw [if_pos hc]; omega
    · rw [if_neg hc]

/-- channel group of row `co * n + h`. -/
theorem row_group {C n g co h : ℕ} (hg : g ∣ C) (h0 : 0 < g) (hh : h < n) :
    (co * n + h) / (C * n / g) = co / (C / g) := by
  obtain ⟨c, rfl⟩ := hg
  rw [Nat.mul_assoc, Nat.mul_div_cancel_left _ h0, Nat.mul_div_cancel_left _ h0, Nat.mul_comm c n,
    ← Nat.div_div_eq_div_mul]
  congr 1
  rw [Nat.add_comm, Nat.add_mul_div_right _ _ (by omega), Nat.div_eq_of_lt hh, Nat.zero_add]

theorem corr_congr {mode : F.CPad} {ax : List Axis} {S : List ℕ} {f f' w w' : List ℕ → ℝ} {o : List ℕ}
    (hf : ∀ q, InB S q → f q = f' q) (hw : ∀ k, InB (kernelDims ax) k → w k = w' k)
    (hin : ∀ k, InB (kernelDims ax) k → ∀ q, cellAt mode S (readPos ax o k) = some q → InB S q) :
    corr mode ax S f w o = corr mode ax S f' w' o := by
  refine sumBox_congr fun k hk => ?_
  rw [hw k hk]
  congr 1
  unfold extended
  cases h : cellAt mode S (readPos ax o k) with
  | none => rfl
  | some q => exact hf q (hin k hk q h)

theorem pos_range {a : Axis} {mode : F.CPad} {s : ℕ} (h : a.Ok mode s) {o k : ℕ} (ho : o < a.out s) (hk : k < a.k) :
    -(a.left : ℤ) ≤ a.pos o k ∧ a.pos o k < s + a.right := by
  obtain ⟨h1, h2, h3, h4, -⟩ := h
  unfold Axis.out at ho
  unfold Axis.span at *
  unfold Axis.pos
  have e1 : o * a.stride ≤ s + a.left + a.right - (a.dil * (a.k - 1) + 1) :=
    (Nat.le_div_iff_mul_le h2).1 (by omega)
  have e2 : k * a.dil ≤ a.dil * (a.k - 1) := by
    rw [Nat.mul_comm k]; exact Nat.mul_le_mul_left _ (by omega)
  zify [h4] at e1
  zify at e2
  have n1 : (0 : ℤ) ≤ (o : ℤ) * a.stride := by positivity
  have n2 : (0 : ℤ) ≤ (k : ℤ) * a.dil := by positivity
  have hk1 : ((a.k - 1 : ℕ) : ℤ) = (a.k : ℤ) - 1 := by omega
  rw [hk1] at e1 e2
  constructor <;> linarith

theorem padIdx_lt {mode : F.CPad} {s l r : ℕ} {p : ℤ} (ha : F.padAllowed mode s l r = true) (hs : 0 < s + l + r)
    (h1 : -(l : ℤ) ≤ p) (h2 : p < s + r) {j : ℕ} (h : F.padIdx mode s p = some j) : j < s := by
  unfold F.padIdx at h
  unfold F.padAllowed at ha
  cases mode with
  | zeros =>
    dsimp only at h
    by_cases hp : 0 ≤ p ∧ p < s
    · rw [if_pos hp] at h; cases h; omega
    · rw [if_neg hp] at h; cases h
  | reflect =>
    dsimp only at h ha
    simp only [decide_eq_true_eq] at ha
    cases h
    split
    · omega
    · split <;> omega
  | replicate =>
    dsimp only at h ha
    simp only [decide_eq_true_eq] at ha
    cases h
    omega
  | circular =>
    dsimp only at h ha
    simp only [decide_eq_true_eq] at ha
    cases h
    have hs : 0 < s := by omega
    have := Int.emod_lt_of_pos p (by exact_mod_cast hs : (0 : ℤ) < s)
    have := Int.emod_nonneg p (by omega : (s : ℤ) ≠ 0)
    omega

/-- Every cell read by the convolution lies inside the signal. -/
theorem cellAt_InB {mode : F.CPad} {ax : List Axis} {S : List ℕ} (hg : GeomOk mode ax S) :
    ∀ {o k q : List ℕ}, InB (outDims ax S) o → InB (kernelDims ax) k →
      cellAt mode S (readPos ax o k) = some q → InB S q := by
  unfold GeomOk at hg
  induction hg with
  | nil => intro o k q _ _ h; cases h; exact InB_nil_nil
  | @cons a s ax S ha _ ih =>
    intro o k q ho hk h
    obtain ⟨o0, os, rfl, ho1, ho2⟩ := InB_cons_left ho
    obtain ⟨k0, ks, rfl, hk1, hk2⟩ := InB_cons_left hk
    simp only [readPos, cellAt] at h
    cases e1 : F.padIdx mode s (a.pos o0 k0) with
    | none => rw [e1] at h; cases h
    | some j =>
      cases e2 : cellAt mode S (readPos ax os ks) with
      | none => rw [e1, e2] at h; cases h
      | some js =>
        rw [e1, e2] at h
        cases h
        obtain ⟨r1, r2⟩ := pos_range ha ho1 hk1
        refine InB_cons.2 ⟨padIdx_lt ha.2.2.2.2 ?_ r1 r2 e1, ih ho2 hk2 e2⟩
        have := ha.2.2.2.1
        unfold Axis.span at this
        omega

theorem corr_congr' {mode : F.CPad} {ax : List Axis} {S : List ℕ} (hg : GeomOk mode ax S) {f f' w w' : List ℕ → ℝ}
    {o : List ℕ} (ho : InB (outDims ax S) o)
    (hf : ∀ q, InB S q → f q = f' q) (hw : ∀ k, InB (kernelDims ax) k → w k = w' k) :
    corr mode ax S f w o = corr mode ax S f' w' o :=
  corr_congr hf hw fun _ hk _ h => cellAt_InB hg ho hk h

/-- The layer attributes given by the constructor. -/
theorem init_fields {a : Args} {mode : F.CPad} {ax : List Axis} (hg : HasGeometry a mode ax) {L : Layer}
    (h : init a (kernelDims ax) = .ok L) :
    L.inC = a.inC ∧ L.outC = a.outC ∧ L.groups = a.groups.toNat ∧ L.kernelSize = kernelDims ax ∧
      L.groups ∣ a.inC ∧ L.groups ∣ a.outC ∧ 0 < L.groups := by
  obtain ⟨h1, h2, h3, h4, -, -, -, h5, h6, h7⟩ := C58_layer a _ _ _ hg.stride hg.dilation L h
  exact ⟨h1, h2, by omega, h4.trans hg.kernel, h1 ▸ h5, h2 ▸ h6, h7⟩

theorem kernelDims_pos {mode : F.CPad} {ax : List Axis} {S : List ℕ} (hg : GeomOk mode ax S) :
    ∀ k ∈ kernelDims ax, 0 < k := by
  intro k hk
  obtain ⟨x, hx, rfl⟩ := List.mem_map.1 hk
  clear hk
  unfold GeomOk at hg
  induction hg with
  | nil => cases hx
  | cons h _ ih =>
    rcases List.mem_cons.1 hx with rfl | hx'
    · exact h.1
    · exact ih hx'

variable {G : Type} {d : ℕ}

theorem liftingConv_spec {a : Args} {mode : F.CPad} {ax : List Axis} (hgeo : HasGeometry a mode ax) {L : Layer}
    (hL : init a (kernelDims ax) = .ok L) {S : List ℕ} (hg : GeomOk mode ax S) (w : Tensor ℝ)
    (bias : Option (Tensor ℝ)) (N n : ℕ) (input : Tensor ℝ) (H : Tensor G)
    (hH : H.shape.headD 0 = n) (hpos : 0 < a.inC)
    (hw : w.shape = a.outC :: n :: a.inC / a.groups.toNat :: kernelDims ax)
    (hx : input.shape = N :: a.inC :: S) (hb : BiasShape bias a.outC ax.length) :
    ∃ out, L.liftingConv w bias N input H = .ok (out, H) ∧
      out.shape = N :: a.outC :: n :: outDims ax S ∧
      ∀ b co h o, b < N → co < a.outC → h < n → InB (outDims ax S) o →
        out.get (b :: co :: h :: o) = liftingConv a mode ax S input w bias b co h o := by
  obtain ⟨f1, f2, f3, f4, f5, f6, f7⟩ := init_fields hgeo hL
  have hlg := layerGeom_of_init hgeo hL
  rw [f3] at f5 f6 f7
  set g := a.groups.toNat with hgd
  set Cg := a.inC / g with hCg
  have hin : Cg * g = a.inC := Nat.div_mul_cancel f5
  have hCgpos : 0 < Cg := Nat.div_pos (Nat.le_of_dvd hpos f5) f7
  have hKpos : 0 < (kernelDims ax).prod := List.prod_pos (kernelDims_pos hg)
  -- the weight
  have hwp : w.shape.prod = a.outC * n * (Cg * (kernelDims ax).prod) := by
    rw [hw]; simp only [List.prod_cons]; ring
  have hr : 0 < Cg * (kernelDims ax).prod := Nat.mul_pos hCgpos hKpos
  have hv : w.viewInfer [] (Cg :: kernelDims ax) = .ok ⟨a.outC * n :: Cg :: kernelDims ax,
      fun idx => w.get (unravel w.shape (ravel (a.outC * n :: Cg :: kernelDims ax) idx))⟩ := by
    unfold viewInfer
    dsimp only
    have e : ([] : List ℕ).prod * (Cg :: kernelDims ax).prod = Cg * (kernelDims ax).prod := by simp
    rw [e, hwp, if_neg (by rw [Nat.mul_mod_left]; omega), Nat.mul_div_cancel _ hr]
    exact view_ok (by rw [hwp]; simp)
  set w' : Tensor ℝ := ⟨a.outC * n :: Cg :: kernelDims ax,
      fun idx => w.get (unravel w.shape (ravel (a.outC * n :: Cg :: kernelDims ax) idx))⟩ with hw'
  have hw'v : ∀ co h ci k, co < a.outC → h < n → ci < Cg → InB (kernelDims ax) k →
      w'.get ((co * n + h) :: ci :: k) = w.get (co :: h :: ci :: k) := by
    intro co h ci k h1 h2 h3 h4
    refine view_get (by rw [hw]; simp [h1, h2, h3, h4]) ?_
    rw [hw]
    simp only [ravel, List.prod_cons]
    ring
  obtain ⟨z, hz, hzs, hzv⟩ := convForward_spec hlg hg input w' N (a.outC * n) Cg g (by rw [hx, hin]) rfl f7
    (by obtain ⟨c, hc⟩ := f6; rw [hc, Nat.mul_assoc, Nat.mul_mod_right])
  obtain ⟨y, hy, hys, hyv⟩ := view_split hzs
  obtain ⟨r, hr', hrs, hrv⟩ := addBias_spec (bias := bias) (outDims_length hg) hys hb
  refine ⟨r, ?_, hrs, ?_⟩
  · unfold Layer.liftingConv
    rw [f1, f2, f3, f4, hv, ok_bind, hz, ok_bind, hzs, hH]
    simp only [List.drop_succ_cons, List.drop_zero]
    rw [hy, ok_bind, hr', ok_bind]
    rfl
  · intro b co h o hb' hco hh ho
    rw [hrv b co h o hb' hco hh ho, hyv b co h o hb' hco hh ho, hzv b _ o ho]
    unfold Spec.liftingConv groupStart
    rw [← hgd, ← hCg]
    congr 1
    refine Finset.sum_congr rfl fun ci hci => ?_
    rw [Finset.mem_range] at hci
    rw [row_group f6 f7 hh]
    exact corr_congr' hg ho (fun q _ => rfl) (fun k hk => hw'v co h ci k hco hh hci hk)

theorem sum_range_mul (A B : ℕ) (f : ℕ → ℝ) :
    ∑ c ∈ Finset.range (A * B), f c = ∑ i ∈ Finset.range A, ∑ j ∈ Finset.range B, f (i * B + j) := by
  induction A with
  | zero => simp
  | succ A ih => rw [Nat.succ_mul, Finset.sum_range_add, ih, Finset.sum_range_succ]

/-- the group convolution of an input that can be viewed as `(N, in_channels * m, *S)`; `X` is that view with the channel
and the group axis separated. -/
theorem groupConv_view_spec {a : Args} {mode : F.CPad} {ax : List Axis} (hgeo : HasGeometry a mode ax) {L : Layer}
    (hL : init a (kernelDims ax) = .ok L) {S : List ℕ} (hg : GeomOk mode ax S) (w : Tensor ℝ)
    (bias : Option (Tensor ℝ)) (N m n : ℕ) (input x' X : Tensor ℝ) (inH outH : Tensor G)
    (hin : inH.shape.headD 0 = m) (hout : outH.shape.headD 0 = n)
    (hw : w.shape = a.outC :: n :: a.inC / a.groups.toNat :: m :: kernelDims ax)
    (hx' : input.view (N :: a.inC * m :: S) = .ok x') (hxs' : x'.shape = N :: a.inC * m :: S)
    (hxv' : ∀ n i j x, n < N → i < a.inC → j < m → InB S x → x'.get (n :: (i * m + j) :: x) = X.get (n :: i :: j :: x))
    (hb : BiasShape bias a.outC ax.length) :
    ∃ out, L.groupConv w bias N S input inH outH = .ok (out, outH) ∧
      out.shape = N :: a.outC :: n :: outDims ax S ∧
      ∀ b co h o, b < N → co < a.outC → h < n → InB (outDims ax S) o →
        out.get (b :: co :: h :: o) = groupConv a mode ax S X w bias m b co h o := by
  obtain ⟨f1, f2, f3, f4, f5, f6, f7⟩ := init_fields hgeo hL
  have hlg := layerGeom_of_init hgeo hL
  rw [f3] at f5 f6 f7
  set g := a.groups.toNat with hgd
  set Cg := a.inC / g with hCg
  have hCin : Cg * g = a.inC := Nat.div_mul_cancel f5
  -- the weight
  have hwp : w.shape.prod = (a.outC * n :: Cg * m :: kernelDims ax).prod := by
    rw [hw]; simp only [List.prod_cons]; ring
  have hv := view_ok hwp
  set w' : Tensor ℝ := ⟨a.outC * n :: Cg * m :: kernelDims ax,
      fun idx => w.get (unravel w.shape (ravel (a.outC * n :: Cg * m :: kernelDims ax) idx))⟩ with hw'
  have hw'v : ∀ co h ci i k, co < a.outC → h < n → ci < Cg → i < m → InB (kernelDims ax) k →
      w'.get ((co * n + h) :: (ci * m + i) :: k) = w.get (co :: h :: ci :: i :: k) := by
    intro co h ci i k h1 h2 h3 h5 h4
    refine view_get (by rw [hw]; simp [h1, h2, h3, h4, h5]) ?_
    rw [hw]
    simp only [ravel, List.prod_cons]
    ring
  obtain ⟨z, hz, hzs, hzv⟩ := convForward_spec hlg hg x' w' N (a.outC * n) (Cg * m) g
    (by rw [hxs', ← hCin]; congr 2; ring) rfl f7
    (by obtain ⟨c, hc⟩ := f6; rw [hc, Nat.mul_assoc, Nat.mul_mod_right])
  obtain ⟨y, hy, hys, hyv⟩ := view_split hzs
  obtain ⟨r, hr', hrs, hrv⟩ := addBias_spec (bias := bias) (outDims_length hg) hys hb
  refine ⟨r, ?_, hrs, ?_⟩
  · unfold Layer.groupConv
    dsimp only
    rw [f1, f2, f3, f4, hin, hout, hx', ok_bind, hv, ok_bind, hz, ok_bind, hzs]
    simp only [List.drop_succ_cons, List.drop_zero]
    rw [hy, ok_bind, hr', ok_bind]
    rfl
  · intro b co h o hb' hco hh ho
    rw [hrv b co h o hb' hco hh ho, hyv b co h o hb' hco hh ho, hzv b _ o ho]
    unfold Spec.groupConv groupStart
    rw [← hgd, ← hCg, sum_range_mul]
    congr 1
    refine Finset.sum_congr rfl fun ci hci => Finset.sum_congr rfl fun i hi => ?_
    rw [Finset.mem_range] at hci hi
    rw [row_group f6 f7 hh]
    refine corr_congr' hg ho (fun q hq => ?_) (fun k hk => hw'v co h ci i k hco hh hci hi hk)
    have hlt : co / (a.outC / g) * Cg + ci < a.inC := by
      obtain ⟨c, hc⟩ := f6
      have h1 : a.outC / g = c := by rw [hc, Nat.mul_div_cancel_left _ f7]
      have h2 : co / c < g := Nat.div_lt_of_lt_mul (by rw [Nat.mul_comm, ← hc]; exact hco)
      rw [h1, ← hCin, Nat.mul_comm Cg g]
      exact row_lt h2 hci
    rw [← hxv' b _ i q hb' hlt hi hq]
    congr 2
    ring

theorem groupConv_spec {a : Args} {mode : F.CPad} {ax : List Axis} (hgeo : HasGeometry a mode ax) {L : Layer}
    (hL : init a (kernelDims ax) = .ok L) {S : List ℕ} (hg : GeomOk mode ax S) (w : Tensor ℝ)
    (bias : Option (Tensor ℝ)) (N m n : ℕ) (input : Tensor ℝ) (inH outH : Tensor G)
    (hin : inH.shape.headD 0 = m) (hout : outH.shape.headD 0 = n)
    (hw : w.shape = a.outC :: n :: a.inC / a.groups.toNat :: m :: kernelDims ax)
    (hx : input.shape = N :: a.inC :: m :: S) (hb : BiasShape bias a.outC ax.length) :
    ∃ out, L.groupConv w bias N S input inH outH = .ok (out, outH) ∧
      out.shape = N :: a.outC :: n :: outDims ax S ∧
      ∀ b co h o, b < N → co < a.outC → h < n → InB (outDims ax S) o →
        out.get (b :: co :: h :: o) = groupConv a mode ax S input w bias m b co h o := by
  obtain ⟨x', hx', hxs', hxv'⟩ := view_merge hx
  exact groupConv_view_spec hgeo hL hg w bias N m n input x' input inH outH hin hout hw hx' hxs' hxv' hb

end GConv.Conv

import Verif.Props.Modules

/-! # C62: the separable convolution -/

namespace GConv.Conv

open Tensor Spec GroupKernel

variable {G : Type} {d : ℕ}

/-- The geometry of the *first* convolution of `GSeparableConvNd.forward` (gconv.py:306-311): the weight has
extents 1, but stride, dilation and padding of the layer are used again.  With zero padding `'same'`, `F.conv`
computes the padding from the weight (none); in all other cases the layer's numbers are used. -/
def firstAxis (mode : F.CPad) (padding : PadArg) (x : Axis) : Axis :=
  match mode, padding with
  | .zeros, .str s => if s = "same" then ⟨1, x.stride, x.dil, 0, 0⟩ else ⟨1, x.stride, x.dil, x.left, x.right⟩
  | _, _ => ⟨1, x.stride, x.dil, x.left, x.right⟩

theorem firstAxis_basic (mode : F.CPad) (padding : PadArg) (x : Axis) :
    (firstAxis mode padding x).k = 1 ∧ (firstAxis mode padding x).stride = x.stride ∧
      (firstAxis mode padding x).dil = x.dil := by
  unfold firstAxis
  split
  · split <;> exact ⟨rfl, rfl, rfl⟩
  · exact ⟨rfl, rfl, rfl⟩

theorem firstAxis_other {mode : F.CPad} (h : mode ≠ .zeros) (padding : PadArg) (x : Axis) :
    firstAxis mode padding x = ⟨1, x.stride, x.dil, x.left, x.right⟩ := by
  unfold firstAxis
  split
  · exact absurd rfl h
  · rfl

theorem firstAxis_same (x : Axis) : firstAxis .zeros (.str "same") x = ⟨1, x.stride, x.dil, 0, 0⟩ := rfl

theorem firstAxis_valid (x : Axis) : firstAxis .zeros (.str "valid") x = ⟨1, x.stride, x.dil, x.left, x.right⟩ := rfl

/-- the first geometry. -/
def firstAxes (mode : F.CPad) (padding : PadArg) (ax : List Axis) : List Axis := ax.map (firstAxis mode padding)

theorem kernelDims_first (mode : F.CPad) (padding : PadArg) (ax : List Axis) :
    kernelDims (firstAxes mode padding ax) = List.replicate ax.length 1 := by
  unfold kernelDims firstAxes
  rw [List.map_map]
  exact List.eq_replicate_iff.2 ⟨by simp, fun b hb => by
    obtain ⟨x, -, rfl⟩ := List.mem_map.1 hb; exact (firstAxis_basic mode padding x).1⟩

theorem layer_padding {a : Args} {mode : F.CPad} {ax : List Axis} (hg : HasGeometry a mode ax) {L : Layer} {ks : List ℕ}
    (h : init a ks = .ok L) : L.padding = storedPadding L.nd a.padding := by
  have ha := (C58_accepts a _ _ _ hg.stride hg.dilation).1 ⟨L, h⟩
  obtain ⟨nd, rev, hnd, hr, e⟩ := init_accepted a _ _ ks hg.stride hg.dilation ha
  rw [e] at h; cases h; rfl

/-- The layer's attributes, applied to a weight of extents 1. -/
theorem layerGeom_first {a : Args} {mode : F.CPad} {ax : List Axis} (hg : HasGeometry a mode ax) {L : Layer}
    (h : init a (kernelDims ax) = .ok L) : LayerGeom L mode (firstAxes mode a.padding ax) := by
  have hL := layerGeom_of_init hg h
  have hp := layer_padding hg h
  have hmap : ∀ {f : Axis → ℕ}, (∀ x, f (firstAxis mode a.padding x) = f x) →
      (firstAxes mode a.padding ax).map f = ax.map f := by
    intro f hf
    unfold firstAxes
    rw [List.map_map]
    exact List.map_congr_left fun x _ => hf x
  refine ⟨by rw [hL.rank]; simp [firstAxes], by simpa [firstAxes] using hL.rank1, ?_, ?_, hL.modeName, ?_, ?_⟩
  · rw [hL.stride, hmap fun x => (firstAxis_basic _ _ x).2.1]
  · rw [hL.dilation, hmap fun x => (firstAxis_basic _ _ x).2.2]
  · intro hm
    subst hm
    obtain ⟨hP, hS⟩ := hL.zeros rfl
    refine ⟨?_, fun hs x hx => ?_⟩
    · rw [hp] at hP ⊢
      cases hpd : a.padding with
      | str s =>
        rw [hpd] at hP
        rcases hP with ⟨rfl, hP⟩ | ⟨rfl, hP⟩
        · refine Or.inl ⟨rfl, fun x hx => ?_⟩
          obtain ⟨y, -, rfl⟩ := List.mem_map.1 hx
          rw [firstAxis_same]
          simp
        · refine Or.inr ⟨rfl, fun x hx => ?_⟩
          obtain ⟨y, hy, rfl⟩ := List.mem_map.1 hx
          rw [firstAxis_valid]
          exact hP y hy
      | int p =>
        rw [hpd] at hP hmap
        obtain ⟨h1, h2⟩ := hP
        exact ⟨by rw [hmap fun x => rfl]; exact h1, by rw [hmap fun x => rfl]; exact h2⟩
      | tuple l =>
        rw [hpd] at hP hmap
        obtain ⟨h1, h2⟩ := hP
        exact ⟨by rw [hmap fun x => rfl]; exact h1, by rw [hmap fun x => rfl]; exact h2⟩
    · obtain ⟨y, hy, rfl⟩ := List.mem_map.1 hx
      rw [(firstAxis_basic _ _ y).2.1]
      exact hS hs y hy
  · intro hm
    rw [hL.other hm]
    unfold pads firstAxes
    rw [List.map_map]
    exact List.map_congr_left fun x _ => by show _ = ((firstAxis mode a.padding x).left, (firstAxis mode a.padding x).right); rw [firstAxis_other hm]

/-- What `GSeparableConvNd.forward` computes after sampling, for every configuration. -/
theorem separableConv_spec {a : Args} {mode : F.CPad} {ax : List Axis} (hgeo : HasGeometry a mode ax) {L : Layer}
    (hL : init a (kernelDims ax) = .ok L) {S S₁ : List ℕ} (hg₁ : GeomOk mode (firstAxes mode a.padding ax) S)
    (hS₁ : outDims (firstAxes mode a.padding ax) S = S₁) (hg : GeomOk mode ax S₁)
    (wH w : Tensor ℝ) (bias : Option (Tensor ℝ)) (N m n : ℕ) (input : Tensor ℝ) (inH outH : Tensor G)
    (hin : inH.shape.headD 0 = m) (hout : outH.shape.headD 0 = n) (hC : 0 < a.outC) (hn : 0 < n)
    (hwH : wH.shape = a.outC :: n :: a.inC / a.groups.toNat :: m :: List.replicate ax.length 1)
    (hw : w.shape = a.outC :: n :: 1 :: kernelDims ax)
    (hx : input.shape = N :: a.inC :: m :: S) (hb : BiasShape bias a.outC ax.length) :
    ∃ out, L.separableConv wH w bias N S input inH outH = .ok (out, outH) ∧
      out.shape = N :: a.outC :: n :: outDims ax S₁ ∧
      ∀ b co h o, b < N → co < a.outC → h < n → InB (outDims ax S₁) o →
        out.get (b :: co :: h :: o) = corr mode ax S₁ (fun q =>
          ∑ ci ∈ Finset.range (a.inC / a.groups.toNat), ∑ i ∈ Finset.range m,
            corr mode (firstAxes mode a.padding ax) S
              (fun q => input.get (b :: (groupStart a.inC a.outC a.groups.toNat co + ci) :: i :: q))
              (fun k => wH.get (co :: h :: ci :: i :: k)) q) (fun k => w.get (co :: h :: 0 :: k)) o +
            biasAt bias ax.length co := by
  obtain ⟨f1, f2, f3, f4, f5, f6, f7⟩ := init_fields hgeo hL
  have hlg := layerGeom_of_init hgeo hL
  have hlg₁ := layerGeom_first hgeo hL
  rw [f3] at f5 f6 f7
  set g := a.groups.toNat with hgd
  set Cg := a.inC / g with hCg
  have hCin : Cg * g = a.inC := Nat.div_mul_cancel f5
  obtain ⟨x', hx', hxs', hxv'⟩ := view_merge hx
  -- the group weight
  have hk1 := kernelDims_first mode a.padding ax
  have hwHp : wH.shape.prod = (a.outC * n :: Cg * m :: List.replicate ax.length 1).prod := by
    rw [hwH]; simp only [List.prod_cons]; ring
  have hvH := view_ok hwHp
  set wH' : Tensor ℝ := ⟨a.outC * n :: Cg * m :: List.replicate ax.length 1,
      fun idx => wH.get (unravel wH.shape (ravel (a.outC * n :: Cg * m :: List.replicate ax.length 1) idx))⟩ with hwH'
  have hwH'v : ∀ co h ci i k, co < a.outC → h < n → ci < Cg → i < m → InB (List.replicate ax.length 1) k →
      wH'.get ((co * n + h) :: (ci * m + i) :: k) = wH.get (co :: h :: ci :: i :: k) := by
    intro co h ci i k h1 h2 h3 h5 h4
    refine view_get (by rw [hwH]; simp [h1, h2, h3, h4, h5]) ?_
    rw [hwH]
    simp only [ravel, List.prod_cons]
    ring
  obtain ⟨z, hz, hzs, hzv⟩ := convForward_spec hlg₁ hg₁ x' wH' N (a.outC * n) (Cg * m) g
    (by rw [hxs', ← hCin]; congr 2; ring) (by rw [hk1]) f7
    (by obtain ⟨c, hc⟩ := f6; rw [hc, Nat.mul_assoc, Nat.mul_mod_right])
  rw [hS₁] at hzs hzv
  -- the spatial weight
  have hwp : w.shape.prod = (a.outC * n :: 1 :: kernelDims ax).prod := by
    rw [hw]; simp only [List.prod_cons]; ring
  have hv := view_ok hwp
  set w' : Tensor ℝ := ⟨a.outC * n :: 1 :: kernelDims ax,
      fun idx => w.get (unravel w.shape (ravel (a.outC * n :: 1 :: kernelDims ax) idx))⟩ with hw'
  have hw'v : ∀ co h k, co < a.outC → h < n → InB (kernelDims ax) k →
      w'.get ((co * n + h) :: 0 :: k) = w.get (co :: h :: 0 :: k) := by
    intro co h k h1 h2 h4
    refine view_get (by rw [hw]; simp [h1, h2, h4]) ?_
    rw [hw]
    simp only [ravel, List.prod_cons]
    ring
  have hgr : 0 < a.outC * n := Nat.mul_pos hC hn
  obtain ⟨z₂, hz₂, hzs₂, hzv₂⟩ := convForward_spec hlg hg z w' N (a.outC * n) 1 (a.outC * n) (by rw [hzs, Nat.one_mul]) rfl
    hgr (Nat.mod_self _)
  obtain ⟨y, hy, hys, hyv⟩ := view_split hzs₂
  obtain ⟨r, hr', hrs, hrv⟩ := addBias_spec (bias := bias) (outDims_length hg) hys hb
  refine ⟨r, ?_, hrs, ?_⟩
  · unfold Layer.separableConv
    dsimp only
    have hdrop : wH.shape.drop 4 = List.replicate ax.length 1 := by rw [hwH]; rfl
    rw [f1, f2, f3, f4, hin, hout, hx', ok_bind, hdrop, hvH, ok_bind, hz, ok_bind, hv, ok_bind, hz₂, ok_bind, hzs₂]
    simp only [List.drop_succ_cons, List.drop_zero]
    rw [hy, ok_bind, hr', ok_bind]
    rfl
  · intro b co h o hb' hco hh ho
    rw [hrv b co h o hb' hco hh ho, hyv b co h o hb' hco hh ho, hzv₂ b _ o ho, Finset.sum_range_one]
    congr 1
    rw [Nat.div_self hgr, Nat.div_one, Nat.mul_one, Nat.add_zero]
    refine corr_congr' hg ho (fun q hq => ?_) (fun k hk => hw'v co h k hco hh hk)
    have hq' : InB (outDims (firstAxes mode a.padding ax) S) q := by rw [hS₁]; exact hq
    rw [hzv b _ q hq, sum_range_mul]
    refine Finset.sum_congr rfl fun ci hci => Finset.sum_congr rfl fun i hi => ?_
    rw [Finset.mem_range] at hci hi
    rw [row_group f6 f7 hh]
    refine corr_congr' hg₁ hq' (fun q hq => ?_) (fun k hk => hwH'v co h ci i k hco hh hci hi (by rwa [hk1] at hk))
    have hlt : co / (a.outC / g) * Cg + ci < a.inC := by
      obtain ⟨c, hc⟩ := f6
      have h1 : a.outC / g = c := by rw [hc, Nat.mul_div_cancel_left _ f7]
      have h2 : co / c < g := Nat.div_lt_of_lt_mul (by rw [Nat.mul_comm, ← hc]; exact hco)
      rw [h1, ← hCin, Nat.mul_comm Cg g]
      exact row_lt h2 hci
    unfold groupStart
    rw [← hCg, ← hxv' b _ i q hb' hlt hi hq]
    congr 2
    ring

/-! ## One spatial convolution -/

/-- Nothing is padded or skipped by the first convolution: strides 1 and no padding, or zero padding
`'same'`. -/
def AppliedOnce (mode : F.CPad) (padding : PadArg) (ax : List Axis) : Prop :=
  ∀ x ∈ ax, x.stride = 1 ∧ ((x.left = 0 ∧ x.right = 0) ∨ (mode = .zeros ∧ padding = .str "same"))

theorem firstAxis_once {mode : F.CPad} {padding : PadArg} {x : Axis}
    (h : x.stride = 1 ∧ ((x.left = 0 ∧ x.right = 0) ∨ (mode = .zeros ∧ padding = .str "same"))) :
    firstAxis mode padding x = ⟨1, 1, x.dil, 0, 0⟩ := by
  obtain ⟨h1, ⟨h2, h3⟩ | ⟨rfl, rfl⟩⟩ := h
  · unfold firstAxis
    rw [h1, h2, h3]
    split
    · split <;> rfl
    · rfl
  · rw [firstAxis_same, h1]

theorem point_out (dil s : ℕ) (hs : 0 < s) : (⟨1, 1, dil, 0, 0⟩ : Axis).out s = s := by
  unfold Axis.out Axis.span
  simp only [Nat.sub_self, Nat.mul_zero, Nat.div_one]
  omega

theorem point_ok (mode : F.CPad) {dil s : ℕ} (hd : 0 < dil) (hs : 0 < s) : (⟨1, 1, dil, 0, 0⟩ : Axis).Ok mode s := by
  refine ⟨Nat.one_pos, Nat.one_pos, hd, ?_, ?_⟩
  · unfold Axis.span; simp only [Nat.sub_self, Nat.mul_zero]; omega
  · cases mode <;> simp [F.padAllowed, hs]

/-- the signal is not empty along any axis. -/
theorem once_pos {mode : F.CPad} {x : Axis} {s : ℕ} (h : x.Ok mode s)
    (ho : (x.left = 0 ∧ x.right = 0) ∨ x.left + x.right = x.dil * (x.k - 1)) : 0 < s := by
  have := h.2.2.2.1
  unfold Axis.span at this
  rcases ho with ⟨h1, h2⟩ | h1 <;> omega

theorem once_geom {mode : F.CPad} {padding : PadArg} {ax : List Axis} {S : List ℕ} (hP : PadsAs padding ax)
    (ho : AppliedOnce mode padding ax) (hg : GeomOk mode ax S) :
    GeomOk mode (firstAxes mode padding ax) S ∧ outDims (firstAxes mode padding ax) S = S := by
  have hpos : ∀ x ∈ ax, (x.left = 0 ∧ x.right = 0) ∨ x.left + x.right = x.dil * (x.k - 1) := by
    intro x hx
    rcases (ho x hx).2 with h | ⟨-, rfl⟩
    · exact Or.inl h
    · rcases hP with ⟨-, h⟩ | ⟨h, -⟩
      · exact Or.inr (h x hx).2
      · exact absurd h (by decide)
  clear hP
  unfold GeomOk at hg
  induction hg with
  | nil => exact ⟨List.Forall₂.nil, rfl⟩
  | @cons x s ax S h _ ih =>
    obtain ⟨i1, i2⟩ := ih (fun y hy => ho y (List.mem_cons_of_mem _ hy)) (fun y hy => hpos y (List.mem_cons_of_mem _ hy))
    have hs := once_pos h (hpos x List.mem_cons_self)
    have e := firstAxis_once (ho x List.mem_cons_self)
    constructor
    · refine List.Forall₂.cons ?_ i1
      rw [e]
      exact point_ok mode h.2.2.1 hs
    · unfold firstAxes outDims at *
      rw [List.map_cons, List.zipWith_cons_cons, i2, e, point_out _ _ hs]

/-- a convolution with extents 1, strides 1 and no padding multiplies by the only weight. -/
theorem corr_point {mode : F.CPad} : ∀ {ax : List Axis} {S : List ℕ} (f w : List ℕ → ℝ) {o : List ℕ},
    (∀ x ∈ ax, x.k = 1 ∧ x.stride = 1 ∧ x.left = 0) → InB S o → ax.length = S.length →
    corr mode ax S f w o = f o * w (List.replicate ax.length 0) := by
  intro ax S f w o hax ho hlen
  have hk : kernelDims ax = List.replicate ax.length 1 :=
    List.eq_replicate_iff.2 ⟨by simp [kernelDims], fun b hb => by
      obtain ⟨x, hx, rfl⟩ := List.mem_map.1 hb; exact (hax x hx).1⟩
  have hall : ∀ n, allIdx (List.replicate n 1) = [List.replicate n 0] := by
    intro n
    induction n with
    | zero => rfl
    | succ n ih => rw [List.replicate_succ, allIdx, ih]; rfl
  have hcell : cellAt mode S (readPos ax o (List.replicate ax.length 0)) = some o := by
    clear hk
    induction ax generalizing S o with
    | nil =>
      cases S with
      | nil => cases InB_nil_left ho; rfl
      | cons _ _ => simp at hlen
    | cons x ax ih =>
      cases S with
      | nil => simp at hlen
      | cons s S =>
        obtain ⟨p, ps, rfl, hp, hps⟩ := InB_cons_left ho
        have i := ih (fun y hy => hax y (List.mem_cons_of_mem _ hy)) hps (by simpa using hlen)
        obtain ⟨-, h2, h3⟩ := hax x List.mem_cons_self
        have hpos : x.pos p 0 = p := by unfold Axis.pos; rw [h2, h3]; simp
        have hpad : F.padIdx mode s (p : ℤ) = some p := by
          unfold F.padIdx
          cases mode with
          | zeros => exact if_pos ⟨by omega, by omega⟩
          | reflect => dsimp only; rw [if_neg (by omega), if_pos (by omega)]; simp
          | replicate => dsimp only; congr 1; omega
          | circular => dsimp only; rw [Int.emod_eq_of_lt (by omega) (by omega)]; simp
        simp only [List.length_cons, List.replicate_succ, readPos, cellAt]
        rw [hpos, hpad, i]
  unfold corr sumBox
  rw [hk, hall]
  simp only [List.map_cons, List.map_nil, List.sum_cons, List.sum_nil, add_zero]
  unfold extended
  rw [hcell]

/-- `GSeparableConvNd.forward` for every configuration: stride, dilation and padding are used by both
convolutions.  (What is missing to C62: the first convolution should be pointwise.) -/
theorem C62_formula_partial {a : Args} {mode : F.CPad} {ax : List Axis} (hgeo : HasGeometry a mode ax) {L : Layer}
    (hL : init a (kernelDims ax) = .ok L) {S S₁ : List ℕ} (hg₁ : GeomOk mode (firstAxes mode a.padding ax) S)
    (hS₁ : outDims (firstAxes mode a.padding ax) S = S₁) (hg : GeomOk mode ax S₁) (K : GroupKernel G d)
    (weightH weight wH w : Tensor ℝ) (bias : Option (Tensor ℝ)) (N m n : ℕ) (input : Tensor ℝ) (inH outH : Tensor G)
    (hin : inH.shape = [m]) (hout : outH.shape = [n]) (hC : 0 < a.outC) (hn : 0 < n)
    (hK : K.separableForward weightH weight inH outH = .ok (wH, w))
    (hwH : wH.shape = a.outC :: n :: a.inC / a.groups.toNat :: m :: List.replicate ax.length 1)
    (hw : w.shape = a.outC :: n :: 1 :: kernelDims ax)
    (hx : input.shape = N :: a.inC :: m :: S) (hb : BiasShape bias a.outC ax.length) :
    ∃ out, L.separableForward K weightH weight bias input inH outH = .ok (out, outH) ∧
      out.shape = N :: a.outC :: n :: outDims ax S₁ ∧
      ∀ b co h o, b < N → co < a.outC → h < n → InB (outDims ax S₁) o →
        out.get (b :: co :: h :: o) = corr mode ax S₁ (fun q =>
          ∑ ci ∈ Finset.range (a.inC / a.groups.toNat), ∑ i ∈ Finset.range m,
            corr mode (firstAxes mode a.padding ax) S
              (fun q => input.get (b :: (groupStart a.inC a.outC a.groups.toNat co + ci) :: i :: q))
              (fun k => wH.get (co :: h :: ci :: i :: k)) q) (fun k => w.get (co :: h :: 0 :: k)) o +
            biasAt bias ax.length co := by
  obtain ⟨out, h1, h2, h3⟩ := separableConv_spec hgeo hL hg₁ hS₁ hg wH w bias N m n input inH outH (by rw [hin]; rfl)
    (by rw [hout]; rfl) hC hn hwH hw hx hb
  refine ⟨out, ?_, h2, h3⟩
  unfold Layer.separableForward
  rw [hx]
  dsimp only
  rw [hK, ok_bind, h1]

/-- With unit strides and no padding (or zero padding `'same'`), the separable convolution has the output
extents of the group convolution (C61) and is a pointwise group convolution followed by one spatial
convolution. -/
theorem C62_once_partial {a : Args} {mode : F.CPad} {ax : List Axis} (hgeo : HasGeometry a mode ax) {L : Layer}
    (hL : init a (kernelDims ax) = .ok L) {S : List ℕ} (hg : GeomOk mode ax S) (ho : AppliedOnce mode a.padding ax)
    (K : GroupKernel G d)
    (weightH weight wH w : Tensor ℝ) (bias : Option (Tensor ℝ)) (N m n : ℕ) (input : Tensor ℝ) (inH outH : Tensor G)
    (hin : inH.shape = [m]) (hout : outH.shape = [n]) (hC : 0 < a.outC) (hn : 0 < n)
    (hK : K.separableForward weightH weight inH outH = .ok (wH, w))
    (hwH : wH.shape = a.outC :: n :: a.inC / a.groups.toNat :: m :: List.replicate ax.length 1)
    (hw : w.shape = a.outC :: n :: 1 :: kernelDims ax)
    (hx : input.shape = N :: a.inC :: m :: S) (hb : BiasShape bias a.outC ax.length) :
    ∃ out, L.separableForward K weightH weight bias input inH outH = .ok (out, outH) ∧
      out.shape = N :: a.outC :: n :: outDims ax S ∧
      ∀ b co h o, b < N → co < a.outC → h < n → InB (outDims ax S) o →
        out.get (b :: co :: h :: o) = Spec.separableConv a mode ax S input wH w bias m b co h o := by
  obtain ⟨hg₁, hS₁⟩ := once_geom hgeo.padding ho hg
  obtain ⟨out, h1, h2, h3⟩ := C62_formula_partial hgeo hL hg₁ hS₁ hg K weightH weight wH w bias N m n input inH outH hin hout
    hC hn hK hwH hw hx hb
  refine ⟨out, h1, h2, fun b co h o hb' hco hh hoo => ?_⟩
  rw [h3 b co h o hb' hco hh hoo]
  unfold Spec.separableConv
  congr 1
  refine corr_congr' hg hoo (fun q hq => ?_) (fun _ _ => rfl)
  unfold pointwiseGroupConv
  refine Finset.sum_congr rfl fun ci _ => Finset.sum_congr rfl fun i _ => ?_
  have hlen : (firstAxes mode a.padding ax).length = ax.length := by simp [firstAxes]
  rw [corr_point _ _ (fun x hx => ?_) hq (by rw [hlen, GeomOk.length hg]), hlen]
  obtain ⟨y, hy, rfl⟩ := List.mem_map.1 hx
  rw [firstAxis_once (ho y hy)]
  exact ⟨rfl, rfl, rfl⟩

/-- With unit strides, the extents agree with those of the group convolution only if the first convolution
pads nothing. -/
theorem C62_extents_partial {mode : F.CPad} {padding : PadArg} {ax : List Axis} {S : List ℕ}
    (hg₁ : GeomOk mode (firstAxes mode padding ax) S) (hg : GeomOk mode ax S) (hst : ∀ x ∈ ax, x.stride = 1) :
    outDims ax (outDims (firstAxes mode padding ax) S) = outDims ax S ↔
      ∀ x ∈ ax, (firstAxis mode padding x).left = 0 ∧ (firstAxis mode padding x).right = 0 := by
  unfold GeomOk at hg
  induction hg with
  | nil => simp [outDims, firstAxes]
  | @cons x s ax S h _ ih =>
    cases hg₁ with
    | cons h₁ hg₁ =>
      have i := ih hg₁ (fun y hy => hst y (List.mem_cons_of_mem _ hy))
      unfold outDims firstAxes at i ⊢
      rw [List.map_cons, List.zipWith_cons_cons, List.zipWith_cons_cons, List.zipWith_cons_cons, List.cons_eq_cons, i,
        List.forall_mem_cons]
      refine and_congr ?_ Iff.rfl
      obtain ⟨e1, e2, e3⟩ := firstAxis_basic mode padding x
      have hs := hst x List.mem_cons_self
      have h4 := h.2.2.2.1
      have h4' := h₁.2.2.2.1
      unfold Axis.out
      unfold Axis.span at *
      rw [e2, e1, hs] at *
      simp only [Nat.sub_self, Nat.mul_zero, Nat.div_one] at *
      omega

end GConv.Conv

namespace GConv

open Tensor Spec GroupKernel

/-! ## The premade kernels and modules -/

/-! ### SE2 -/
namespace KernelSE2

/-- `GSeparableKernelSE2`: group and spatial weights (as many input as output group elements). -/
theorem C52_SE2_partial (k : KernelArgs ℝ ℕ) (wd : ℝ) (hr : KernelSE2.Ready k wd) {m p}
    (hm : SpatialModes k.spatialMode k.spatialPad m p) (weightH weight : Tensor ℝ) (inH Hc : Tensor (ℝ)) (n : ℕ)
    (hwH : weightH.shape = [(KernelSE2.grid k).shape.headD 0, k.outC, k.inC / k.groups])
    (hw : weight.shape = [k.outC, 1, k.kernelSize, k.kernelSize])
    (hin : inH.shape = [n]) (hout : Hc.shape = [n]) :
    ∃ K wH w, full k = .ok K ∧ K.separableForward weightH weight inH Hc = .ok (wH, w) ∧
      wH.shape = [k.outC, n, k.inC / k.groups, n, 1, 1] ∧ w.shape = [k.outC, n, 1, k.kernelSize, k.kernelSize] ∧
      (∀ co h ci i, co < k.outC → h < n → ci < k.inC / k.groups → i < n →
        wH.get [co, h, ci, i, 0, 0] = KernelSE2.value k wd (fun j => weightH.get [j,
            (storedChannel k.outC (k.inC / k.groups) co ci).1, (storedChannel k.outC (k.inC / k.groups) co ci).2])
          (SO2.leftApplyAngle (-Hc.get [h]) (inH.get [i]))) ∧
      ∀ co h x y, co < k.outC → h < n → x < k.kernelSize → y < k.kernelSize →
        w.get [co, h, 0, x, y] =
          (Functional.createSphericalMaskR2 k.kernelSize).get [x, y] *
            F.sampleAt m p [k.kernelSize, k.kernelSize] (fun r => weight.get (co :: 0 :: r))
              ((SO2.angleToMatrix (-Hc.get [h])).mulVec ((Functional.createGridR2 k.kernelSize).get [x, y])) := by
  obtain ⟨wH, w, e, sH, sw, gH, g⟩ := C52_separable_partial (lawful k _) (pointwise k _ hm hr.kernel)
    (rows hr).1 (rows hr).2 hr.nonempty weightH weight inH Hc n hwH hw hin hout (fun _ _ _ _ => trivial)
  refine ⟨_, wH, w, full_eq hr, e, sH, sw, fun co h ci i hco hh hci hi => gH co h ci i hco hh hci hi, ?_⟩
  intro co h x y hco hh hx hy
  · have := g co h [x, y] hco hh (by simp [base, hx, hy])
    rw [this]; exact div_one _

end KernelSE2
namespace Conv

/-- `GSeparableConvSE2` with strides 1 and no padding (or zero padding `'same'`), as many input as output group
elements: the layer formula with the kernel entries written out. -/
theorem C62_SE2_partial (k : KernelArgs ℝ ℕ) (c : ConvOpts) {m p} (hm : SpatialModes k.spatialMode k.spatialPad m p)
    (wd : ℝ) (hr : KernelSE2.Ready k wd)
    {M : Module ℝ 2} (hM : fullSE2 k c = .ok M) {mode : F.CPad} {ax : List Axis}
    (hgeo : HasGeometry (argsSE2 k c) mode ax) {S : List ℕ} (hS : GeomOk mode ax S) (ho : AppliedOnce mode c.padding ax)
    (hC : 0 < k.outC) (weightH weight : Tensor ℝ)
    (hwH : weightH.shape = [(KernelSE2.grid k).shape.headD 0, k.outC, k.inC / k.groups])
    (hw : weight.shape = [k.outC, 1, k.kernelSize, k.kernelSize])
    (bias : Option (Tensor ℝ)) (hb : BiasShape bias k.outC 2) (N n : ℕ) (hn : 0 < n) (input : Tensor ℝ)
    (hx : input.shape = N :: k.inC :: n :: S) (inH : Tensor (ℝ)) (hin : inH.shape = [n]) (H : Option (Tensor (ℝ)))
    (hH : (H.getD inH).shape = [n]) (move : ℝ → ℝ) (Hc : Tensor (ℝ))
    (hHc : Hc = if c.permute then (H.getD inH).map move else H.getD inH) :
    ∃ wH w out, M.separableSE move weightH weight bias input inH H = .ok (out, Hc) ∧
      out.shape = N :: k.outC :: n :: outDims ax S ∧
      (∀ b co h o, b < N → co < k.outC → h < n → InB (outDims ax S) o →
        out.get (b :: co :: h :: o) = Spec.separableConv (argsSE2 k c) mode ax S input wH w bias n b co h o) ∧
      (∀ co h ci i, co < k.outC → h < n → ci < k.inC / k.groups → i < n →
        wH.get [co, h, ci, i, 0, 0] = KernelSE2.value k wd (fun j => weightH.get [j,
            (storedChannel k.outC (k.inC / k.groups) co ci).1, (storedChannel k.outC (k.inC / k.groups) co ci).2])
          (SO2.leftApplyAngle (-Hc.get [h]) (inH.get [i]))) ∧
      ∀ co h x y, co < k.outC → h < n → x < k.kernelSize → y < k.kernelSize →
        w.get [co, h, 0, x, y] =
          (Functional.createSphericalMaskR2 k.kernelSize).get [x, y] *
            F.sampleAt m p [k.kernelSize, k.kernelSize] (fun r => weight.get (co :: 0 :: r))
              ((SO2.angleToMatrix (-Hc.get [h])).mulVec ((Functional.createGridR2 k.kernelSize).get [x, y])) := by
  obtain ⟨K, hK, hL, hMK, hMp⟩ := build_ok hM
  have hks : kernelDims ax = [k.kernelSize, k.kernelSize] := hgeo.kernel.symm
  rw [fullSE2_size hK, ← hks] at hL
  have hlen : ax.length = 2 := by
    have := congrArg List.length hks
    unfold kernelDims at this
    rwa [List.length_map] at this
  have hHs : Hc.shape = [n] := by rw [hHc]; cases c.permute <;> exact hH
  obtain ⟨K', wH, w, h1, h2, h3, h3', h4, h5⟩ := KernelSE2.C52_SE2_partial k wd hr hm weightH weight inH Hc n hwH hw hin hHs
  rw [hK] at h1
  cases h1
  obtain ⟨out, o1, o2, o3⟩ := C62_once_partial hgeo hL hS ho K weightH weight wH w bias N n n input inH Hc hin hHs hC hn h2
    (by rw [h3, hlen]; rfl) (by rw [h3', hks]; rfl) hx (by rw [hlen]; exact hb)
  refine ⟨wH, w, out, ?_, o2, o3, h4, h5⟩
  rw [← o1, hHc, ← hMp, ← permuteGrid_eq M.permute move (ne_nil_of_eq hH), ← hMK]
  rfl

end Conv

/-! ### SE3 -/
namespace KernelSE3

/-- `GSeparableKernelSE3`: group and spatial weights (as many input as output group elements). -/
theorem C52_SE3_partial (s : GridCache.Store (Tensor ℝ)) (opt : List SO3.Euler) (k : KernelArgs SO3.Mat3 ℕ) (gr : Tensor SO3.Mat3) (wd : ℝ) (hr : KernelSE3.Ready s opt k gr wd) {m p}
    (hm : SpatialModes k.spatialMode k.spatialPad m p) (weightH weight : Tensor ℝ) (inH Hc : Tensor SO3.Mat3) (n : ℕ)
    (hwH : weightH.shape = [gr.shape.headD 0, k.outC, k.inC / k.groups])
    (hw : weight.shape = [k.outC, 1, k.kernelSize, k.kernelSize, k.kernelSize])
    (hin : inH.shape = [n]) (hout : Hc.shape = [n]) :
    ∃ K wH w, full s opt k = .ok K ∧ K.separableForward weightH weight inH Hc = .ok (wH, w) ∧
      wH.shape = [k.outC, n, k.inC / k.groups, n, 1, 1, 1] ∧ w.shape = [k.outC, n, 1, k.kernelSize, k.kernelSize, k.kernelSize] ∧
      (∀ co h ci i, co < k.outC → h < n → ci < k.inC / k.groups → i < n →
        wH.get [co, h, ci, i, 0, 0, 0] = KernelSE3.value k gr wd (fun j => weightH.get [j,
            (storedChannel k.outC (k.inC / k.groups) co ci).1, (storedChannel k.outC (k.inC / k.groups) co ci).2])
          ((Hc.get [h]).transpose * inH.get [i])) ∧
      ∀ co h x y z, co < k.outC → h < n → x < k.kernelSize → y < k.kernelSize → z < k.kernelSize →
        w.get [co, h, 0, x, y, z] =
          (if k.mask then (Functional.createSphericalMaskR3 k.kernelSize).get [x, y, z] else 1) *
            F.sampleAt m p [k.kernelSize, k.kernelSize, k.kernelSize] (fun r => weight.get (co :: 0 :: r))
              ((Hc.get [h]).transpose.mulVec ((Functional.createGridR3 k.kernelSize).get [x, y, z])) := by
  obtain ⟨wH, w, e, sH, sw, gH, g⟩ := C52_separable_partial (lawful k gr _) (pointwise k gr _ hm hr.kernel)
    (rows hr).1 (rows hr).2 (dim_pos hr) weightH weight inH Hc n (by rw [← dim hr] at hwH; exact hwH) hw hin hout (fun _ _ _ _ => trivial)
  refine ⟨_, wH, w, full_eq hr, e, sH, sw, fun co h ci i hco hh hci hi => gH co h ci i hco hh hci hi, ?_⟩
  intro co h x y z hco hh hx hy hz
  · have := g co h [x, y, z] hco hh (by simp [base, hx, hy, hz])
    rw [show ∀ s, (base k gr s).mask = if k.mask then some (Functional.createSphericalMaskR3 k.kernelSize) else none from fun _ => rfl,
      maskAt_flag] at this
    rw [this]; exact div_one _

end KernelSE3
namespace Conv

/-- `GSeparableConvSE3` with strides 1 and no padding (or zero padding `'same'`), as many input as output group
elements: the layer formula with the kernel entries written out. -/
theorem C62_SE3_partial (s : GridCache.Store (Tensor ℝ)) (opt : List SO3.Euler) (k : KernelArgs SO3.Mat3 ℕ) (c : ConvOpts) {m p} (hm : SpatialModes k.spatialMode k.spatialPad m p)
    (gr : Tensor SO3.Mat3) (wd : ℝ) (hr : KernelSE3.Ready s opt k gr wd)
    {M : Module SO3.Mat3 3} (hM : fullSE3 s opt k c = .ok M) {mode : F.CPad} {ax : List Axis}
    (hgeo : HasGeometry (argsSE3 k c) mode ax) {S : List ℕ} (hS : GeomOk mode ax S) (ho : AppliedOnce mode c.padding ax)
    (hC : 0 < k.outC) (weightH weight : Tensor ℝ)
    (hwH : weightH.shape = [gr.shape.headD 0, k.outC, k.inC / k.groups])
    (hw : weight.shape = [k.outC, 1, k.kernelSize, k.kernelSize, k.kernelSize])
    (bias : Option (Tensor ℝ)) (hb : BiasShape bias k.outC 3) (N n : ℕ) (hn : 0 < n) (input : Tensor ℝ)
    (hx : input.shape = N :: k.inC :: n :: S) (inH : Tensor (SO3.Mat3)) (hin : inH.shape = [n]) (H : Option (Tensor (SO3.Mat3)))
    (hH : (H.getD inH).shape = [n]) (move : SO3.Mat3 → SO3.Mat3) (Hc : Tensor (SO3.Mat3))
    (hHc : Hc = if c.permute then (H.getD inH).map move else H.getD inH) :
    ∃ wH w out, M.separableSE move weightH weight bias input inH H = .ok (out, Hc) ∧
      out.shape = N :: k.outC :: n :: outDims ax S ∧
      (∀ b co h o, b < N → co < k.outC → h < n → InB (outDims ax S) o →
        out.get (b :: co :: h :: o) = Spec.separableConv (argsSE3 k c) mode ax S input wH w bias n b co h o) ∧
      (∀ co h ci i, co < k.outC → h < n → ci < k.inC / k.groups → i < n →
        wH.get [co, h, ci, i, 0, 0, 0] = KernelSE3.value k gr wd (fun j => weightH.get [j,
            (storedChannel k.outC (k.inC / k.groups) co ci).1, (storedChannel k.outC (k.inC / k.groups) co ci).2])
          ((Hc.get [h]).transpose * inH.get [i])) ∧
      ∀ co h x y z, co < k.outC → h < n → x < k.kernelSize → y < k.kernelSize → z < k.kernelSize →
        w.get [co, h, 0, x, y, z] =
          (if k.mask then (Functional.createSphericalMaskR3 k.kernelSize).get [x, y, z] else 1) *
            F.sampleAt m p [k.kernelSize, k.kernelSize, k.kernelSize] (fun r => weight.get (co :: 0 :: r))
              ((Hc.get [h]).transpose.mulVec ((Functional.createGridR3 k.kernelSize).get [x, y, z])) := by
  obtain ⟨K, hK, hL, hMK, hMp⟩ := build_ok hM
  have hks : kernelDims ax = [k.kernelSize, k.kernelSize, k.kernelSize] := hgeo.kernel.symm
  rw [fullSE3_size hK, ← hks] at hL
  have hlen : ax.length = 3 := by
    have := congrArg List.length hks
    unfold kernelDims at this
    rwa [List.length_map] at this
  have hHs : Hc.shape = [n] := by rw [hHc]; cases c.permute <;> exact hH
  obtain ⟨K', wH, w, h1, h2, h3, h3', h4, h5⟩ := KernelSE3.C52_SE3_partial s opt k gr wd hr hm weightH weight inH Hc n hwH hw hin hHs
  rw [hK] at h1
  cases h1
  obtain ⟨out, o1, o2, o3⟩ := C62_once_partial hgeo hL hS ho K weightH weight wH w bias N n n input inH Hc hin hHs hC hn h2
    (by rw [h3, hlen]; rfl) (by rw [h3', hks]; rfl) hx (by rw [hlen]; exact hb)
  refine ⟨wH, w, out, ?_, o2, o3, h4, h5⟩
  rw [← o1, hHc, ← hMp, ← permuteGrid_eq M.permute move (ne_nil_of_eq hH), ← hMK]
  rfl

end Conv

/-! ### E2 -/
namespace KernelE2

/-- `GSeparableKernelE2`: group and spatial weights (as many input as output group elements). -/
theorem C52_E2_partial (k : KernelArgs O2.Elt SizeArg) (wr wf : ℝ) (hr : KernelE2.Ready k wr wf) {m p}
    (hm : SpatialModes k.spatialMode k.spatialPad m p) (weightH weight : Tensor ℝ) (inH Hc : Tensor O2.Elt) (n : ℕ)
    (hwH : weightH.shape = [KernelE2.nRot k + KernelE2.nRef k, k.outC, k.inC / k.groups])
    (hw : weight.shape = [k.outC, 1, k.kernelSize, k.kernelSize])
    (hin : inH.shape = [n]) (hout : Hc.shape = [n])
    (hp : ∀ h < n, ∀ i < n, KernelE2.Pair k (Hc.get [h]) (inH.get [i])) :
    ∃ K wH w, full k = .ok K ∧ K.separableForward weightH weight inH Hc = .ok (wH, w) ∧
      wH.shape = [k.outC, n, k.inC / k.groups, n, 1, 1] ∧ w.shape = [k.outC, n, 1, k.kernelSize, k.kernelSize] ∧
      (∀ co h ci i, co < k.outC → h < n → ci < k.inC / k.groups → i < n →
        wH.get [co, h, ci, i, 0, 0] = KernelE2.value k wr wf (fun j => weightH.get [j,
            (storedChannel k.outC (k.inC / k.groups) co ci).1, (storedChannel k.outC (k.inC / k.groups) co ci).2])
          (O2.leftApplyAngle (O2.inverse (Hc.get [h])) (inH.get [i]))) ∧
      ∀ co h x y, co < k.outC → h < n → x < k.kernelSize → y < k.kernelSize →
        w.get [co, h, 0, x, y] =
          (if k.mask then (Functional.createSphericalMaskR2 k.kernelSize).get [x, y] else 1) *
            F.sampleAt m p [k.kernelSize, k.kernelSize] (fun r => weight.get (co :: 0 :: r))
              ((Hc.get [h]).1 • (SO2.angleToMatrix (-(Hc.get [h]).2)).mulVec ((Functional.createGridR2 k.kernelSize).get [x, y])) / (Hc.get [h]).1 := by
  obtain ⟨wH, w, e, sH, sw, gH, g⟩ := C52_separable_partial (lawful k _) (pointwise k _ hm hr.kernel)
    (rows hr).1 (rows hr).2 hr.nonempty weightH weight inH Hc n hwH hw hin hout hp
  refine ⟨_, wH, w, full_eq hr, e, sH, sw, fun co h ci i hco hh hci hi => gH co h ci i hco hh hci hi, ?_⟩
  intro co h x y hco hh hx hy
  · have := g co h [x, y] hco hh (by simp [base, hx, hy])
    rw [show ∀ s, (base k s).mask = if k.mask then some (Functional.createSphericalMaskR2 k.kernelSize) else none from fun _ => rfl,
      maskAt_flag] at this
    have e2 : act (O2.inverse (Hc.get [h])) = fun v => (Hc.get [h]).1 • (SO2.angleToMatrix (-(Hc.get [h]).2)).mulVec v := by
      unfold act O2.inverse
      dsimp only
      rw [mul_neg_one]
    rw [this, e2]; rfl

end KernelE2
namespace Conv

/-- `GSeparableConvE2` with strides 1 and no padding (or zero padding `'same'`), as many input as output group
elements: the layer formula with the kernel entries written out. -/
theorem C62_E2_partial (k : KernelArgs O2.Elt SizeArg) (c : ConvOpts) {m p} (hm : SpatialModes k.spatialMode k.spatialPad m p)
    (wr wf : ℝ) (hr : KernelE2.Ready k wr wf)
    {M : Module O2.Elt 2} (hM : fullE2 k c = .ok M) {mode : F.CPad} {ax : List Axis}
    (hgeo : HasGeometry (argsE2 k c) mode ax) {S : List ℕ} (hS : GeomOk mode ax S) (ho : AppliedOnce mode c.padding ax)
    (hC : 0 < k.outC) (weightH weight : Tensor ℝ)
    (hwH : weightH.shape = [KernelE2.nRot k + KernelE2.nRef k, k.outC, k.inC / k.groups])
    (hw : weight.shape = [k.outC, 1, k.kernelSize, k.kernelSize])
    (bias : Option (Tensor ℝ)) (hb : BiasShape bias k.outC 2) (N n : ℕ) (hn : 0 < n) (input : Tensor ℝ)
    (hx : input.shape = N :: k.inC :: n :: S) (inH : Tensor (O2.Elt)) (hin : inH.shape = [n]) (H : Option (Tensor (O2.Elt)))
    (hH : (H.getD M.kernel.gridH).shape = [n]) (move : O2.Elt → O2.Elt) (Hc : Tensor (O2.Elt))
    (hHc : Hc = if c.permute then (H.getD M.kernel.gridH).map move else H.getD M.kernel.gridH)
    (hp : ∀ h < n, ∀ i < n, KernelE2.Pair k (Hc.get [h]) (inH.get [i])) :
    ∃ wH w out, M.separableE move weightH weight bias input inH H = .ok (out, Hc) ∧
      out.shape = N :: k.outC :: n :: outDims ax S ∧
      (∀ b co h o, b < N → co < k.outC → h < n → InB (outDims ax S) o →
        out.get (b :: co :: h :: o) = Spec.separableConv (argsE2 k c) mode ax S input wH w bias n b co h o) ∧
      (∀ co h ci i, co < k.outC → h < n → ci < k.inC / k.groups → i < n →
        wH.get [co, h, ci, i, 0, 0] = KernelE2.value k wr wf (fun j => weightH.get [j,
            (storedChannel k.outC (k.inC / k.groups) co ci).1, (storedChannel k.outC (k.inC / k.groups) co ci).2])
          (O2.leftApplyAngle (O2.inverse (Hc.get [h])) (inH.get [i]))) ∧
      ∀ co h x y, co < k.outC → h < n → x < k.kernelSize → y < k.kernelSize →
        w.get [co, h, 0, x, y] =
          (if k.mask then (Functional.createSphericalMaskR2 k.kernelSize).get [x, y] else 1) *
            F.sampleAt m p [k.kernelSize, k.kernelSize] (fun r => weight.get (co :: 0 :: r))
              ((Hc.get [h]).1 • (SO2.angleToMatrix (-(Hc.get [h]).2)).mulVec ((Functional.createGridR2 k.kernelSize).get [x, y])) / (Hc.get [h]).1 := by
  obtain ⟨K, hK, hL, hMK, hMp⟩ := build_ok hM
  have hks : kernelDims ax = [k.kernelSize, k.kernelSize] := hgeo.kernel.symm
  rw [fullE2_size hK, ← hks] at hL
  have hlen : ax.length = 2 := by
    have := congrArg List.length hks
    unfold kernelDims at this
    rwa [List.length_map] at this
  have hHs : Hc.shape = [n] := by rw [hHc]; cases c.permute <;> exact hH
  obtain ⟨K', wH, w, h1, h2, h3, h3', h4, h5⟩ := KernelE2.C52_E2_partial k wr wf hr hm weightH weight inH Hc n hwH hw hin hHs hp
  rw [hK] at h1
  cases h1
  obtain ⟨out, o1, o2, o3⟩ := C62_once_partial hgeo hL hS ho K weightH weight wH w bias N n n input inH Hc hin hHs hC hn h2
    (by rw [h3, hlen]; rfl) (by rw [h3', hks]; rfl) hx (by rw [hlen]; exact hb)
  refine ⟨wH, w, out, ?_, o2, o3, h4, h5⟩
  rw [← o1, hHc, ← hMp, ← permuteGrid_eq M.permute move (ne_nil_of_eq hH), ← hMK]
  rfl

end Conv

/-! ### E3 -/
namespace KernelE3

/-- `GSeparableKernelE3`: group and spatial weights (as many input as output group elements). -/
theorem C52_E3_partial (s : GridCache.Store (Tensor ℝ)) (opt1 opt2 : List SO3.Euler) (k : KernelArgs O3.Elt SizeArg) (gr : Tensor O3.Elt) (wr wf : ℝ) (hr : KernelE3.Ready s opt1 opt2 k gr wr wf) {m p}
    (hm : SpatialModes k.spatialMode k.spatialPad m p) (weightH weight : Tensor ℝ) (inH Hc : Tensor O3.Elt) (n : ℕ)
    (hwH : weightH.shape = [KernelE3.nRot k + KernelE3.nRef k, k.outC, k.inC / k.groups])
    (hw : weight.shape = [k.outC, 1, k.kernelSize, k.kernelSize, k.kernelSize])
    (hin : inH.shape = [n]) (hout : Hc.shape = [n])
    (hp : ∀ h < n, ∀ i < n, KernelE3.Pair k (Hc.get [h]) (inH.get [i])) :
    ∃ K wH w, full s opt1 opt2 k = .ok K ∧ K.separableForward weightH weight inH Hc = .ok (wH, w) ∧
      wH.shape = [k.outC, n, k.inC / k.groups, n, 1, 1, 1] ∧ w.shape = [k.outC, n, 1, k.kernelSize, k.kernelSize, k.kernelSize] ∧
      (∀ co h ci i, co < k.outC → h < n → ci < k.inC / k.groups → i < n →
        wH.get [co, h, ci, i, 0, 0, 0] = KernelE3.value k gr wr wf (fun j => weightH.get [j,
            (storedChannel k.outC (k.inC / k.groups) co ci).1, (storedChannel k.outC (k.inC / k.groups) co ci).2])
          (O3.leftApplyO3 (O3.inverse (Hc.get [h])) (inH.get [i]))) ∧
      ∀ co h x y z, co < k.outC → h < n → x < k.kernelSize → y < k.kernelSize → z < k.kernelSize →
        w.get [co, h, 0, x, y, z] =
          (if k.mask then (Functional.createSphericalMaskR3 k.kernelSize).get [x, y, z] else 1) *
            F.sampleAt m p [k.kernelSize, k.kernelSize, k.kernelSize] (fun r => weight.get (co :: 0 :: r))
              (O3.coef (Hc.get [h]) • (O3.rot (Hc.get [h])).transpose.mulVec ((Functional.createGridR3 k.kernelSize).get [x, y, z])) / O3.coef (Hc.get [h]) := by
  obtain ⟨wH, w, e, sH, sw, gH, g⟩ := C52_separable_partial (lawful k gr _) (pointwise k gr _ hm hr.kernel)
    (rows hr).1 (rows hr).2 hr.nonempty weightH weight inH Hc n hwH hw hin hout hp
  refine ⟨_, wH, w, full_eq hr, e, sH, sw, fun co h ci i hco hh hci hi => gH co h ci i hco hh hci hi, ?_⟩
  intro co h x y z hco hh hx hy hz
  · have := g co h [x, y, z] hco hh (by simp [base, hx, hy, hz])
    rw [show ∀ s, (base k gr s).mask = if k.mask then some (Functional.createSphericalMaskR3 k.kernelSize) else none from fun _ => rfl,
      maskAt_flag, act_inverse] at this
    rw [this]; rfl

end KernelE3
namespace Conv

/-- `GSeparableConvE3` with strides 1 and no padding (or zero padding `'same'`), as many input as output group
elements: the layer formula with the kernel entries written out. -/
theorem C62_E3_partial (s : GridCache.Store (Tensor ℝ)) (opt1 opt2 : List SO3.Euler) (k : KernelArgs O3.Elt SizeArg) (c : ConvOpts) {m p} (hm : SpatialModes k.spatialMode k.spatialPad m p)
    (gr : Tensor O3.Elt) (wr wf : ℝ) (hr : KernelE3.Ready s opt1 opt2 k gr wr wf)
    {M : Module O3.Elt 3} (hM : fullE3 s opt1 opt2 k c = .ok M) {mode : F.CPad} {ax : List Axis}
    (hgeo : HasGeometry (argsE3 k c) mode ax) {S : List ℕ} (hS : GeomOk mode ax S) (ho : AppliedOnce mode c.padding ax)
    (hC : 0 < k.outC) (weightH weight : Tensor ℝ)
    (hwH : weightH.shape = [KernelE3.nRot k + KernelE3.nRef k, k.outC, k.inC / k.groups])
    (hw : weight.shape = [k.outC, 1, k.kernelSize, k.kernelSize, k.kernelSize])
    (bias : Option (Tensor ℝ)) (hb : BiasShape bias k.outC 3) (N n : ℕ) (hn : 0 < n) (input : Tensor ℝ)
    (hx : input.shape = N :: k.inC :: n :: S) (inH : Tensor (O3.Elt)) (hin : inH.shape = [n]) (H : Option (Tensor (O3.Elt)))
    (hH : (H.getD M.kernel.gridH).shape = [n]) (move : O3.Elt → O3.Elt) (Hc : Tensor (O3.Elt))
    (hHc : Hc = if c.permute then (H.getD M.kernel.gridH).map move else H.getD M.kernel.gridH)
    (hp : ∀ h < n, ∀ i < n, KernelE3.Pair k (Hc.get [h]) (inH.get [i])) :
    ∃ wH w out, M.separableE move weightH weight bias input inH H = .ok (out, Hc) ∧
      out.shape = N :: k.outC :: n :: outDims ax S ∧
      (∀ b co h o, b < N → co < k.outC → h < n → InB (outDims ax S) o →
        out.get (b :: co :: h :: o) = Spec.separableConv (argsE3 k c) mode ax S input wH w bias n b co h o) ∧
      (∀ co h ci i, co < k.outC → h < n → ci < k.inC / k.groups → i < n →
        wH.get [co, h, ci, i, 0, 0, 0] = KernelE3.value k gr wr wf (fun j => weightH.get [j,
            (storedChannel k.outC (k.inC / k.groups) co ci).1, (storedChannel k.outC (k.inC / k.groups) co ci).2])
          (O3.leftApplyO3 (O3.inverse (Hc.get [h])) (inH.get [i]))) ∧
      ∀ co h x y z, co < k.outC → h < n → x < k.kernelSize → y < k.kernelSize → z < k.kernelSize →
        w.get [co, h, 0, x, y, z] =
          (if k.mask then (Functional.createSphericalMaskR3 k.kernelSize).get [x, y, z] else 1) *
            F.sampleAt m p [k.kernelSize, k.kernelSize, k.kernelSize] (fun r => weight.get (co :: 0 :: r))
              (O3.coef (Hc.get [h]) • (O3.rot (Hc.get [h])).transpose.mulVec ((Functional.createGridR3 k.kernelSize).get [x, y, z])) / O3.coef (Hc.get [h]) := by
  obtain ⟨K, hK, hL, hMK, hMp⟩ := build_ok hM
  have hks : kernelDims ax = [k.kernelSize, k.kernelSize, k.kernelSize] := hgeo.kernel.symm
  rw [fullE3_size hK, ← hks] at hL
  have hlen : ax.length = 3 := by
    have := congrArg List.length hks
    unfold kernelDims at this
    rwa [List.length_map] at this
  have hHs : Hc.shape = [n] := by rw [hHc]; cases c.permute <;> exact hH
  obtain ⟨K', wH, w, h1, h2, h3, h3', h4, h5⟩ := KernelE3.C52_E3_partial s opt1 opt2 k gr wr wf hr hm weightH weight inH Hc n hwH hw hin hHs hp
  rw [hK] at h1
  cases h1
  obtain ⟨out, o1, o2, o3⟩ := C62_once_partial hgeo hL hS ho K weightH weight wH w bias N n n input inH Hc hin hHs hC hn h2
    (by rw [h3, hlen]; rfl) (by rw [h3', hks]; rfl) hx (by rw [hlen]; exact hb)
  refine ⟨wH, w, out, ?_, o2, o3, h4, h5⟩
  rw [← o1, hHc, ← hMp, ← permuteGrid_eq M.permute move (ne_nil_of_eq hH), ← hMK]
  rfl

end Conv

/-! ## Failures -/
namespace Conv

/-- a kernel of extent 5 with padding 1. -/
def padOpts : ConvOpts := { padding := .int 1, permute := false }

/-- a kernel of extent 5 with stride 2. -/
def strideOpts : ConvOpts := { stride := 2, permute := false }

theorem full_ex (n : ℕ) (hn : 0 < n) (c : ConvOpts) (hc : c.padding = .int 0 ∨ c.padding = .int 1) (hm : c.paddingMode = "zeros") :
    ∃ M, fullSE2 (KernelSE2.exArgs n) c = .ok M ∧ M.permute = c.permute ∧ M.kernel.kernelSize = [5, 5] ∧
      init (argsSE2 (KernelSE2.exArgs n) c) [5, 5] = .ok M.layer ∧
      KernelSE2.full (KernelSE2.exArgs n) = .ok M.kernel := by
  have ha : Accepted (argsSE2 (KernelSE2.exArgs n) c) := by
    refine ⟨fun l h => (by cases h), (by decide : (0 : ℤ) < 2), (by decide : (2 : ℤ) ∣ (4 : ℕ)), (by decide : (2 : ℤ) ∣ (6 : ℕ)),
      fun s h => ?_, Or.inl hm, Or.inl rfl⟩
    have h' : c.padding = .str s := h
    rcases hc with e | e <;> rw [e] at h' <;> cases h'
  obtain ⟨L, hL⟩ := (C58_accepts _ _ _ [5, 5] rfl rfl).2 ha
  unfold fullSE2 build
  rw [KernelSE2.full_eq (KernelSE2.exReady n hn), ok_bind]
  have : ∀ s, (KernelSE2.base (KernelSE2.exArgs n) s).kernelSize = [5, 5] := fun _ => rfl
  rw [this, hL, ok_bind]
  exact ⟨_, rfl, rfl, rfl, rfl, rfl⟩

/-- `GConvSE2` and `GSeparableConvSE2` with the same arguments return different extents: a 9 x 8 image with
kernel extent 5 and padding 1. -/
theorem C62_violated_padding (n : ℕ) (hn : 0 < n) (weight weightH weightR input inH : Tensor ℝ)
    (hw : weight.shape = [(KernelSE2.grid (KernelSE2.exArgs n)).shape.headD 0, 6, 2, 5, 5])
    (hwH : weightH.shape = [(KernelSE2.grid (KernelSE2.exArgs n)).shape.headD 0, 6, 2])
    (hwR : weightR.shape = [6, 1, 5, 5]) (hx : input.shape = [3, 4, n, 9, 8]) (hin : inH.shape = [n]) :
    ∃ M out out', fullSE2 (KernelSE2.exArgs n) padOpts = .ok M ∧
      M.groupSE id weight none input inH none = .ok (out, inH) ∧
      M.separableSE id weightH weightR none input inH none = .ok (out', inH) ∧
      out.shape = [3, 6, n, 7, 6] ∧ out'.shape = [3, 6, n, 9, 8] := by
  obtain ⟨M, hM, hMp, hks, hL, hK⟩ := full_ex n hn padOpts (Or.inr rfl) rfl
  have hgeo : HasGeometry (argsSE2 (KernelSE2.exArgs n) padOpts) .zeros [⟨5, 1, 1, 1, 1⟩, ⟨5, 1, 1, 1, 1⟩] :=
    ⟨Or.inl ⟨rfl, rfl⟩, rfl, rfl, rfl, by
      intro a ha
      rcases List.mem_pair.1 ha with rfl | rfl <;> exact ⟨rfl, rfl⟩, Or.inl ⟨rfl, rfl⟩⟩
  have hok : ∀ (k s : ℕ), 0 < k → k ≤ s + 2 → (⟨k, 1, 1, 1, 1⟩ : Axis).Ok .zeros s := fun k s h1 h2 =>
    ⟨h1, Nat.one_pos, Nat.one_pos, by unfold Axis.span; simp only; omega, rfl⟩
  have hb : BiasShape none 6 2 := fun b hb => by cases hb
  obtain ⟨w, out, o1, o2, -⟩ := C61_SE2 (KernelSE2.exArgs n) padOpts defaultModes 1 (KernelSE2.exReady n hn) hM hgeo
    (S := [9, 8]) (List.Forall₂.cons (hok 5 9 (by norm_num) (by norm_num)) (List.Forall₂.cons (hok 5 8 (by norm_num) (by norm_num)) .nil))
    weight (by rw [hw]; simp [KernelSE2.exArgs]) none hb 3 n n input hx inH hin none hin id inH rfl
  obtain ⟨K', wH, w', h1, h2, h3, h3', -⟩ := KernelSE2.C52_SE2_partial (KernelSE2.exArgs n) 1 (KernelSE2.exReady n hn)
    defaultModes weightH weightR inH inH n (by rw [hwH]; simp [KernelSE2.exArgs]) hwR hin hin
  rw [hK] at h1
  cases h1
  obtain ⟨out', p1, p2, -⟩ := C62_formula_partial hgeo hL (S := [9, 8]) (S₁ := [11, 10])
    (List.Forall₂.cons (hok 1 9 (by norm_num) (by norm_num)) (List.Forall₂.cons (hok 1 8 (by norm_num) (by norm_num)) .nil))
    (by simp [outDims, firstAxes, firstAxis, Axis.out, Axis.span, argsSE2, args2d, argsNd, padOpts, strideOpts])
    (List.Forall₂.cons (hok 5 11 (by norm_num) (by norm_num)) (List.Forall₂.cons (hok 5 10 (by norm_num) (by norm_num)) .nil))
    M.kernel weightH weightR wH w' none 3 n n input inH inH hin hin (by norm_num [argsSE2, args2d, argsNd, KernelSE2.exArgs]) hn h2
    (by rw [h3]; simp [KernelSE2.exArgs, argsSE2, args2d, argsNd]) h3' hx hb
  refine ⟨M, out, out', hM, o1, ?_, by rw [o2]; simp [outDims, Axis.out, Axis.span, KernelSE2.exArgs],
    by rw [p2]; simp [outDims, Axis.out, Axis.span, KernelSE2.exArgs, argsSE2, args2d, argsNd]⟩
  rw [← p1]
  unfold Module.separableSE
  rw [hMp]
  rfl

/-- The same with stride 2 on a 9 x 9 image: the stride is applied twice. -/
theorem C62_violated_stride (n : ℕ) (hn : 0 < n) (weight weightH weightR input inH : Tensor ℝ)
    (hw : weight.shape = [(KernelSE2.grid (KernelSE2.exArgs n)).shape.headD 0, 6, 2, 5, 5])
    (hwH : weightH.shape = [(KernelSE2.grid (KernelSE2.exArgs n)).shape.headD 0, 6, 2])
    (hwR : weightR.shape = [6, 1, 5, 5]) (hx : input.shape = [3, 4, n, 9, 9]) (hin : inH.shape = [n]) :
    ∃ M out out', fullSE2 (KernelSE2.exArgs n) strideOpts = .ok M ∧
      M.groupSE id weight none input inH none = .ok (out, inH) ∧
      M.separableSE id weightH weightR none input inH none = .ok (out', inH) ∧
      out.shape = [3, 6, n, 3, 3] ∧ out'.shape = [3, 6, n, 1, 1] := by
  obtain ⟨M, hM, hMp, hks, hL, hK⟩ := full_ex n hn strideOpts (Or.inl rfl) rfl
  have hgeo : HasGeometry (argsSE2 (KernelSE2.exArgs n) strideOpts) .zeros [⟨5, 2, 1, 0, 0⟩, ⟨5, 2, 1, 0, 0⟩] :=
    ⟨Or.inl ⟨rfl, rfl⟩, rfl, rfl, rfl, by
      intro a ha
      rcases List.mem_pair.1 ha with rfl | rfl <;> exact ⟨rfl, rfl⟩, Or.inl ⟨rfl, rfl⟩⟩
  have hok : ∀ (k s : ℕ), 0 < k → k ≤ s → (⟨k, 2, 1, 0, 0⟩ : Axis).Ok .zeros s := fun k s h1 h2 =>
    ⟨h1, by norm_num, Nat.one_pos, by unfold Axis.span; simp only; omega, rfl⟩
  have hb : BiasShape none 6 2 := fun b hb => by cases hb
  obtain ⟨w, out, o1, o2, -⟩ := C61_SE2 (KernelSE2.exArgs n) strideOpts defaultModes 1 (KernelSE2.exReady n hn) hM hgeo
    (S := [9, 9]) (List.Forall₂.cons (hok 5 9 (by norm_num) (by norm_num)) (List.Forall₂.cons (hok 5 9 (by norm_num) (by norm_num)) .nil))
    weight (by rw [hw]; simp [KernelSE2.exArgs]) none hb 3 n n input hx inH hin none hin id inH rfl
  obtain ⟨K', wH, w', h1, h2, h3, h3', -⟩ := KernelSE2.C52_SE2_partial (KernelSE2.exArgs n) 1 (KernelSE2.exReady n hn)
    defaultModes weightH weightR inH inH n (by rw [hwH]; simp [KernelSE2.exArgs]) hwR hin hin
  rw [hK] at h1
  cases h1
  obtain ⟨out', p1, p2, -⟩ := C62_formula_partial hgeo hL (S := [9, 9]) (S₁ := [5, 5])
    (List.Forall₂.cons (hok 1 9 (by norm_num) (by norm_num)) (List.Forall₂.cons (hok 1 9 (by norm_num) (by norm_num)) .nil))
    (by simp [outDims, firstAxes, firstAxis, Axis.out, Axis.span, argsSE2, args2d, argsNd, padOpts, strideOpts])
    (List.Forall₂.cons (hok 5 5 (by norm_num) (by norm_num)) (List.Forall₂.cons (hok 5 5 (by norm_num) (by norm_num)) .nil))
    M.kernel weightH weightR wH w' none 3 n n input inH inH hin hin (by norm_num [argsSE2, args2d, argsNd, KernelSE2.exArgs]) hn h2
    (by rw [h3]; simp [KernelSE2.exArgs, argsSE2, args2d, argsNd]) h3' hx hb
  refine ⟨M, out, out', hM, o1, ?_, by rw [o2]; simp [outDims, Axis.out, Axis.span, KernelSE2.exArgs],
    by rw [p2]; simp [outDims, Axis.out, Axis.span, KernelSE2.exArgs, argsSE2, args2d, argsNd]⟩
  rw [← p1]
  unfold Module.separableSE
  rw [hMp]
  rfl

/-- the hypotheses of `C62_SE2_partial` are met: zero padding `'same'`, a 9 x 8 image. -/
example : AppliedOnce .zeros (.str "same") (List.replicate 2 (sameAxis 5 1)) ∧
    GeomOk .zeros (List.replicate 2 (sameAxis 5 1)) [9, 8] := by
  obtain ⟨-, -, h3, -⟩ := C59_same_geometry 2 4 6 5 1 (.int 1) 2 "zeros" .zeros (Or.inl ⟨rfl, rfl⟩)
    (by norm_num) (by norm_num) [9, 8] rfl (by simp [F.padAllowed])
  exact ⟨fun x hx => by rw [(List.mem_replicate.1 hx).2]; exact ⟨rfl, Or.inr ⟨rfl, rfl⟩⟩, h3⟩

end Conv
end GConv

import Verif.Lemmas.Equivariance
import Verif.Props.Separable

/-! # C63 (translations) and C73 (linearity) -/

namespace GConv.Conv

open Tensor Spec GroupKernel

variable {G : Type} {d : ℕ}

/-- the input channels read by output channel `co` exist. -/
theorem channel_lt {a : Args} {mode : F.CPad} {ax : List Axis} (hgeo : HasGeometry a mode ax) {L : Layer}
    (hL : init a (kernelDims ax) = .ok L) {co ci : ℕ} (hco : co < a.outC) (hci : ci < a.inC / a.groups.toNat) :
    groupStart a.inC a.outC a.groups.toNat co + ci < a.inC := by
  obtain ⟨f1, f2, f3, f4, f5, f6, f7⟩ := init_fields hgeo hL
  rw [f3] at f5 f6 f7
  unfold groupStart
  obtain ⟨c, hc⟩ := f6
  have h1 : a.outC / a.groups.toNat = c := by rw [hc, Nat.mul_div_cancel_left _ f7]
  have h2 : co / c < a.groups.toNat := Nat.div_lt_of_lt_mul (by rw [Nat.mul_comm, ← hc]; exact hco)
  have := row_lt h2 hci
  rw [h1]
  calc _ < a.groups.toNat * (a.inC / a.groups.toNat) := this
    _ = a.inC := Nat.mul_div_cancel' f5

/-! ## C73 -/

/-- `z = α x + β y`, entry by entry. -/
def IsCombination (x y z : Tensor ℝ) (α β : ℝ) : Prop :=
  x.shape = z.shape ∧ y.shape = z.shape ∧ ∀ idx, InB z.shape idx → z.get idx = α * x.get idx + β * y.get idx

/-- The lifting convolution (any kernel) is linear in its input; the bias is added to every entry of its output
channel. -/
theorem C73_lifting {a : Args} {mode : F.CPad} {ax : List Axis} (hgeo : HasGeometry a mode ax) {L : Layer}
    (hL : init a (kernelDims ax) = .ok L) {S : List ℕ} (hg : GeomOk mode ax S) (K : GroupKernel G d)
    (weight w : Tensor ℝ) (bias : Option (Tensor ℝ)) (N n : ℕ) (x y z : Tensor ℝ) (H : Tensor G)
    (hH : H.shape = [n]) (hpos : 0 < a.inC) (hK : K.liftingForward weight H = .ok w)
    (hw : w.shape = a.outC :: n :: a.inC / a.groups.toNat :: kernelDims ax)
    (hz : z.shape = N :: a.inC :: S) (hb : BiasShape bias a.outC ax.length) (α β : ℝ) (hxyz : IsCombination x y z α β) :
    ∃ ox oy oz ob, L.liftingForward K weight none x H = .ok (ox, H) ∧ L.liftingForward K weight none y H = .ok (oy, H) ∧
      L.liftingForward K weight none z H = .ok (oz, H) ∧ L.liftingForward K weight bias z H = .ok (ob, H) ∧
      IsCombination ox oy oz α β ∧ ob.shape = oz.shape ∧
      ∀ b co h o, InB oz.shape (b :: co :: h :: o) →
        ob.get (b :: co :: h :: o) = oz.get (b :: co :: h :: o) + biasAt bias ax.length co := by
  obtain ⟨sx, sy, hlin⟩ := hxyz
  have hnone : BiasShape none a.outC ax.length := fun b hb => by cases hb
  obtain ⟨ox, x1, x2, x3⟩ := C60_lifting hgeo hL hg K weight w none N n x H hH hpos hK hw (by rw [sx, hz]) hnone
  obtain ⟨oy, y1, y2, y3⟩ := C60_lifting hgeo hL hg K weight w none N n y H hH hpos hK hw (by rw [sy, hz]) hnone
  obtain ⟨oz, z1, z2, z3⟩ := C60_lifting hgeo hL hg K weight w none N n z H hH hpos hK hw hz hnone
  obtain ⟨ob, b1, b2, b3⟩ := C60_lifting hgeo hL hg K weight w bias N n z H hH hpos hK hw hz hb
  refine ⟨ox, oy, oz, ob, x1, y1, z1, b1, ⟨by rw [x2, z2], by rw [y2, z2], ?_⟩, by rw [b2, z2], ?_⟩
  · intro idx hidx
    rw [z2] at hidx
    obtain ⟨b, _, rfl, hb', hidx⟩ := InB_cons_left hidx
    obtain ⟨co, _, rfl, hco, hidx⟩ := InB_cons_left hidx
    obtain ⟨h, o, rfl, hh, ho⟩ := InB_cons_left hidx
    rw [x3 b co h o hb' hco hh ho, y3 b co h o hb' hco hh ho, z3 b co h o hb' hco hh ho]
    unfold Spec.liftingConv biasAt
    simp only [add_zero]
    rw [Finset.mul_sum, Finset.mul_sum, ← Finset.sum_add_distrib]
    refine Finset.sum_congr rfl fun ci hci => ?_
    rw [← corr_lin]
    refine corr_congr' hg ho (fun q hq => ?_) (fun _ _ => rfl)
    exact hlin _ (by rw [hz]; simp [hb', channel_lt hgeo hL hco (Finset.mem_range.1 hci), hq])
  · intro b co h o hidx
    rw [z2] at hidx
    simp only [InB_cons] at hidx
    obtain ⟨hb', hco, hh, ho⟩ := hidx
    rw [b3 b co h o hb' hco hh ho, z3 b co h o hb' hco hh ho]
    unfold Spec.liftingConv biasAt
    ring

/-- The group convolution (any kernel) is linear in its input. -/
theorem C73_group {a : Args} {mode : F.CPad} {ax : List Axis} (hgeo : HasGeometry a mode ax) {L : Layer}
    (hL : init a (kernelDims ax) = .ok L) {S : List ℕ} (hg : GeomOk mode ax S) (K : GroupKernel G d)
    (weight w : Tensor ℝ) (bias : Option (Tensor ℝ)) (N m n : ℕ) (x y z : Tensor ℝ) (inH outH : Tensor G)
    (hin : inH.shape = [m]) (hout : outH.shape = [n]) (hK : K.forward weight inH outH = .ok w)
    (hw : w.shape = a.outC :: n :: a.inC / a.groups.toNat :: m :: kernelDims ax)
    (hz : z.shape = N :: a.inC :: m :: S) (hb : BiasShape bias a.outC ax.length) (α β : ℝ) (hxyz : IsCombination x y z α β) :
    ∃ ox oy oz ob, L.groupForward K weight none x inH outH = .ok (ox, outH) ∧
      L.groupForward K weight none y inH outH = .ok (oy, outH) ∧
      L.groupForward K weight none z inH outH = .ok (oz, outH) ∧ L.groupForward K weight bias z inH outH = .ok (ob, outH) ∧
      IsCombination ox oy oz α β ∧ ob.shape = oz.shape ∧
      ∀ b co h o, InB oz.shape (b :: co :: h :: o) →
        ob.get (b :: co :: h :: o) = oz.get (b :: co :: h :: o) + biasAt bias ax.length co := by
  obtain ⟨sx, sy, hlin⟩ := hxyz
  have hnone : BiasShape none a.outC ax.length := fun b hb => by cases hb
  obtain ⟨ox, x1, x2, x3⟩ := C61_group hgeo hL hg K weight w none N m n x inH outH hin hout hK hw (by rw [sx, hz]) hnone
  obtain ⟨oy, y1, y2, y3⟩ := C61_group hgeo hL hg K weight w none N m n y inH outH hin hout hK hw (by rw [sy, hz]) hnone
  obtain ⟨oz, z1, z2, z3⟩ := C61_group hgeo hL hg K weight w none N m n z inH outH hin hout hK hw hz hnone
  obtain ⟨ob, b1, b2, b3⟩ := C61_group hgeo hL hg K weight w bias N m n z inH outH hin hout hK hw hz hb
  refine ⟨ox, oy, oz, ob, x1, y1, z1, b1, ⟨by rw [x2, z2], by rw [y2, z2], ?_⟩, by rw [b2, z2], ?_⟩
  · intro idx hidx
    rw [z2] at hidx
    obtain ⟨b, _, rfl, hb', hidx⟩ := InB_cons_left hidx
    obtain ⟨co, _, rfl, hco, hidx⟩ := InB_cons_left hidx
    obtain ⟨h, o, rfl, hh, ho⟩ := InB_cons_left hidx
    rw [x3 b co h o hb' hco hh ho, y3 b co h o hb' hco hh ho, z3 b co h o hb' hco hh ho]
    unfold Spec.groupConv biasAt
    simp only [add_zero]
    rw [Finset.mul_sum, Finset.mul_sum, ← Finset.sum_add_distrib]
    refine Finset.sum_congr rfl fun ci hci => ?_
    rw [Finset.mul_sum, Finset.mul_sum, ← Finset.sum_add_distrib]
    refine Finset.sum_congr rfl fun i hi => ?_
    rw [← corr_lin]
    refine corr_congr' hg ho (fun q hq => ?_) (fun _ _ => rfl)
    exact hlin _ (by rw [hz]; simp [hb', channel_lt hgeo hL hco (Finset.mem_range.1 hci), hq, Finset.mem_range.1 hi])
  · intro b co h o hidx
    rw [z2] at hidx
    simp only [InB_cons] at hidx
    obtain ⟨hb', hco, hh, ho⟩ := hidx
    rw [b3 b co h o hb' hco hh ho, z3 b co h o hb' hco hh ho]
    unfold Spec.groupConv biasAt
    ring

/-- The separable convolution (any kernel, any geometry) is linear in its input. -/
theorem C73_separable {a : Args} {mode : F.CPad} {ax : List Axis} (hgeo : HasGeometry a mode ax) {L : Layer}
    (hL : init a (kernelDims ax) = .ok L) {S S₁ : List ℕ} (hg₁ : GeomOk mode (firstAxes mode a.padding ax) S)
    (hS₁ : outDims (firstAxes mode a.padding ax) S = S₁) (hg : GeomOk mode ax S₁) (K : GroupKernel G d)
    (weightH weight wH w : Tensor ℝ) (bias : Option (Tensor ℝ)) (N m n : ℕ) (x y z : Tensor ℝ) (inH outH : Tensor G)
    (hin : inH.shape = [m]) (hout : outH.shape = [n]) (hC : 0 < a.outC) (hn : 0 < n)
    (hK : K.separableForward weightH weight inH outH = .ok (wH, w))
    (hwH : wH.shape = a.outC :: n :: a.inC / a.groups.toNat :: m :: List.replicate ax.length 1)
    (hw : w.shape = a.outC :: n :: 1 :: kernelDims ax)
    (hz : z.shape = N :: a.inC :: m :: S) (hb : BiasShape bias a.outC ax.length) (α β : ℝ) (hxyz : IsCombination x y z α β) :
    ∃ ox oy oz ob, L.separableForward K weightH weight none x inH outH = .ok (ox, outH) ∧
      L.separableForward K weightH weight none y inH outH = .ok (oy, outH) ∧
      L.separableForward K weightH weight none z inH outH = .ok (oz, outH) ∧
      L.separableForward K weightH weight bias z inH outH = .ok (ob, outH) ∧
      IsCombination ox oy oz α β ∧ ob.shape = oz.shape ∧
      ∀ b co h o, InB oz.shape (b :: co :: h :: o) →
        ob.get (b :: co :: h :: o) = oz.get (b :: co :: h :: o) + biasAt bias ax.length co := by
  obtain ⟨sx, sy, hlin⟩ := hxyz
  have hnone : BiasShape none a.outC ax.length := fun b hb => by cases hb
  obtain ⟨ox, x1, x2, x3⟩ := C62_formula_partial hgeo hL hg₁ hS₁ hg K weightH weight wH w none N m n x inH outH hin hout hC hn
    hK hwH hw (by rw [sx, hz]) hnone
  obtain ⟨oy, y1, y2, y3⟩ := C62_formula_partial hgeo hL hg₁ hS₁ hg K weightH weight wH w none N m n y inH outH hin hout hC hn
    hK hwH hw (by rw [sy, hz]) hnone
  obtain ⟨oz, z1, z2, z3⟩ := C62_formula_partial hgeo hL hg₁ hS₁ hg K weightH weight wH w none N m n z inH outH hin hout hC hn
    hK hwH hw hz hnone
  obtain ⟨ob, b1, b2, b3⟩ := C62_formula_partial hgeo hL hg₁ hS₁ hg K weightH weight wH w bias N m n z inH outH hin hout hC hn
    hK hwH hw hz hb
  refine ⟨ox, oy, oz, ob, x1, y1, z1, b1, ⟨by rw [x2, z2], by rw [y2, z2], ?_⟩, by rw [b2, z2], ?_⟩
  · intro idx hidx
    rw [z2] at hidx
    obtain ⟨b, _, rfl, hb', hidx⟩ := InB_cons_left hidx
    obtain ⟨co, _, rfl, hco, hidx⟩ := InB_cons_left hidx
    obtain ⟨h, o, rfl, hh, ho⟩ := InB_cons_left hidx
    rw [x3 b co h o hb' hco hh ho, y3 b co h o hb' hco hh ho, z3 b co h o hb' hco hh ho]
    unfold biasAt
    simp only [add_zero]
    rw [← corr_lin]
    refine corr_congr' hg ho (fun q hq => ?_) (fun _ _ => rfl)
    rw [Finset.mul_sum, Finset.mul_sum, ← Finset.sum_add_distrib]
    refine Finset.sum_congr rfl fun ci hci => ?_
    rw [Finset.mul_sum, Finset.mul_sum, ← Finset.sum_add_distrib]
    refine Finset.sum_congr rfl fun i hi => ?_
    rw [← corr_lin]
    refine corr_congr' hg₁ (by rw [hS₁]; exact hq) (fun q hq => ?_) (fun _ _ => rfl)
    exact hlin _ (by rw [hz]; simp [hb', channel_lt hgeo hL hco (Finset.mem_range.1 hci), hq, Finset.mem_range.1 hi])
  · intro b co h o hidx
    rw [z2] at hidx
    simp only [InB_cons] at hidx
    obtain ⟨hb', hco, hh, ho⟩ := hidx
    rw [b3 b co h o hb' hco hh ho, z3 b co h o hb' hco hh ho]
    unfold biasAt
    ring

/-! ## C63 -/

/-- `x'` is `x` shifted by `t`: every cell of `x` whose shifted position exists in `x'` is found there, for all
indices `pre` of the leading axes. -/
def ShiftedInput (pre : List ℕ → Prop) (S S' : List ℕ) (t : List ℤ) (x x' : Tensor ℝ) : Prop :=
  ∀ p q q', pre p → InB S q → InB S' q' → ShiftedBy t q q' → x'.get (p ++ q') = x.get (p ++ q)

/-- Lifting convolution: shifting the input by `stride * t` (by `t` for unit strides) shifts the output by `t`
wherever both windows lie inside the signal, whatever the padding. -/
theorem C63_lifting {a : Args} {mode : F.CPad} {ax : List Axis} (hgeo : HasGeometry a mode ax) {L : Layer}
    (hL : init a (kernelDims ax) = .ok L) {S S' : List ℕ} (hg : GeomOk mode ax S) (hg' : GeomOk mode ax S')
    (K : GroupKernel G d) (weight w : Tensor ℝ) (bias : Option (Tensor ℝ)) (N n : ℕ) (x x' : Tensor ℝ) (H : Tensor G)
    (hH : H.shape = [n]) (hpos : 0 < a.inC) (hK : K.liftingForward weight H = .ok w)
    (hw : w.shape = a.outC :: n :: a.inC / a.groups.toNat :: kernelDims ax)
    (hx : x.shape = N :: a.inC :: S) (hx' : x'.shape = N :: a.inC :: S') (hb : BiasShape bias a.outC ax.length)
    (t : List ℤ) (ht : t.length = ax.length)
    (hsh : ShiftedInput (InB [N, a.inC]) S S' (inputShift ax t) x x') :
    ∃ out out', L.liftingForward K weight bias x H = .ok (out, H) ∧ L.liftingForward K weight bias x' H = .ok (out', H) ∧
      ∀ b co h o o', b < N → co < a.outC → h < n → InB (outDims ax S) o → InB (outDims ax S') o' →
        ShiftedBy t o o' → WindowInside ax S o → WindowInside ax S' o' →
        out'.get (b :: co :: h :: o') = out.get (b :: co :: h :: o) := by
  obtain ⟨out, x1, x2, x3⟩ := C60_lifting hgeo hL hg K weight w bias N n x H hH hpos hK hw hx hb
  obtain ⟨out', y1, y2, y3⟩ := C60_lifting hgeo hL hg' K weight w bias N n x' H hH hpos hK hw hx' hb
  refine ⟨out, out', x1, y1, fun b co h o o' hb' hco hh ho ho' hoo hwin hwin' => ?_⟩
  rw [x3 b co h o hb' hco hh ho, y3 b co h o' hb' hco hh ho']
  unfold Spec.liftingConv
  congr 1
  refine Finset.sum_congr rfl fun ci hci => ?_
  refine corr_shift ht hoo hwin hwin' fun q q' hq hq' hs => ?_
  exact hsh [b, _] q q' (by simp [hb', channel_lt hgeo hL hco (Finset.mem_range.1 hci)]) hq hq' hs

/-- The same for the group convolution. -/
theorem C63_group {a : Args} {mode : F.CPad} {ax : List Axis} (hgeo : HasGeometry a mode ax) {L : Layer}
    (hL : init a (kernelDims ax) = .ok L) {S S' : List ℕ} (hg : GeomOk mode ax S) (hg' : GeomOk mode ax S')
    (K : GroupKernel G d) (weight w : Tensor ℝ) (bias : Option (Tensor ℝ)) (N m n : ℕ) (x x' : Tensor ℝ) (inH outH : Tensor G)
    (hin : inH.shape = [m]) (hout : outH.shape = [n]) (hK : K.forward weight inH outH = .ok w)
    (hw : w.shape = a.outC :: n :: a.inC / a.groups.toNat :: m :: kernelDims ax)
    (hx : x.shape = N :: a.inC :: m :: S) (hx' : x'.shape = N :: a.inC :: m :: S') (hb : BiasShape bias a.outC ax.length)
    (t : List ℤ) (ht : t.length = ax.length)
    (hsh : ShiftedInput (InB [N, a.inC, m]) S S' (inputShift ax t) x x') :
    ∃ out out', L.groupForward K weight bias x inH outH = .ok (out, outH) ∧
      L.groupForward K weight bias x' inH outH = .ok (out', outH) ∧
      ∀ b co h o o', b < N → co < a.outC → h < n → InB (outDims ax S) o → InB (outDims ax S') o' →
        ShiftedBy t o o' → WindowInside ax S o → WindowInside ax S' o' →
        out'.get (b :: co :: h :: o') = out.get (b :: co :: h :: o) := by
  obtain ⟨out, x1, x2, x3⟩ := C61_group hgeo hL hg K weight w bias N m n x inH outH hin hout hK hw hx hb
  obtain ⟨out', y1, y2, y3⟩ := C61_group hgeo hL hg' K weight w bias N m n x' inH outH hin hout hK hw hx' hb
  refine ⟨out, out', x1, y1, fun b co h o o' hb' hco hh ho ho' hoo hwin hwin' => ?_⟩
  rw [x3 b co h o hb' hco hh ho, y3 b co h o' hb' hco hh ho']
  unfold Spec.groupConv
  congr 1
  refine Finset.sum_congr rfl fun ci hci => Finset.sum_congr rfl fun i hi => ?_
  refine corr_shift ht hoo hwin hwin' fun q q' hq hq' hs => ?_
  exact hsh [b, _, i] q q' (by simp [hb', channel_lt hgeo hL hco (Finset.mem_range.1 hci), Finset.mem_range.1 hi]) hq hq' hs

/-- `x'` is `x` shifted by `t` on the torus. -/
def WrappedInput (pre : List ℕ → Prop) (S : List ℕ) (t : List ℤ) (x x' : Tensor ℝ) : Prop :=
  ∀ p q, pre p → InB S q → x'.get (p ++ wrap S t q) = x.get (p ++ q)

theorem same_unit {a : Args} {mode : F.CPad} {ax : List Axis} (hgeo : HasGeometry a mode ax) {L : Layer}
    (hL : init a (kernelDims ax) = .ok L) (hp : a.padding = .str "same") : ∀ x ∈ ax, x.stride = 1 := by
  have ha := (C58_accepts a _ _ _ hgeo.stride hgeo.dilation).1 ⟨L, hL⟩
  rcases ha.2.2.2.2.1 "same" hp with h | ⟨-, h⟩
  · exact absurd h (by decide)
  · exact fun x hx => h _ hgeo.stride _ (List.mem_map.2 ⟨x, hx, rfl⟩)

theorem wrap_InB {S : List ℕ} (t : List ℤ) {q : List ℕ} (hq : InB S q) : InB S (wrap S t q) := by
  refine InB_iff.2 ⟨wrap_length _ _ _, fun i hi => ?_⟩
  rw [wrap_getD t q hi]
  have h0 := (InB_iff.1 hq).2 i hi
  have hs : (0 : ℤ) < (S.getD i 0 : ℤ) := by omega
  have h1 := Int.emod_nonneg ((q.getD i 0 : ℤ) + t.getD i 0) hs.ne'
  have h2 := Int.emod_lt_of_pos ((q.getD i 0 : ℤ) + t.getD i 0) hs
  omega

/-- Circular padding `'same'`, lifting convolution: exact equivariance at every cell and for every shift. -/
theorem C63_lifting_circular {a : Args} {ax : List Axis} (hgeo : HasGeometry a .circular ax) {L : Layer}
    (hL : init a (kernelDims ax) = .ok L) (hp : a.padding = .str "same") {S : List ℕ} (hg : GeomOk .circular ax S)
    (K : GroupKernel G d) (weight w : Tensor ℝ) (bias : Option (Tensor ℝ)) (N n : ℕ) (x x' : Tensor ℝ) (H : Tensor G)
    (hH : H.shape = [n]) (hpos : 0 < a.inC) (hK : K.liftingForward weight H = .ok w)
    (hw : w.shape = a.outC :: n :: a.inC / a.groups.toNat :: kernelDims ax)
    (hx : x.shape = N :: a.inC :: S) (hx' : x'.shape = N :: a.inC :: S) (hb : BiasShape bias a.outC ax.length)
    (t : List ℤ) (hsh : WrappedInput (InB [N, a.inC]) S t x x') :
    ∃ out out', L.liftingForward K weight bias x H = .ok (out, H) ∧ L.liftingForward K weight bias x' H = .ok (out', H) ∧
      out.shape = N :: a.outC :: n :: S ∧ out'.shape = N :: a.outC :: n :: S ∧
      WrappedInput (InB [N, a.outC, n]) S t out out' := by
  have hS := C59_same_size hgeo hL hp hg
  obtain ⟨out, x1, x2, x3⟩ := C60_lifting hgeo hL hg K weight w bias N n x H hH hpos hK hw hx hb
  obtain ⟨out', y1, y2, y3⟩ := C60_lifting hgeo hL hg K weight w bias N n x' H hH hpos hK hw hx' hb
  rw [hS] at x2 x3 y2 y3
  refine ⟨out, out', x1, y1, x2, y2, fun p o hp' ho => ?_⟩
  obtain ⟨b, _, rfl, hb', hp'⟩ := InB_cons_left hp'
  obtain ⟨co, _, rfl, hco, hp'⟩ := InB_cons_left hp'
  obtain ⟨h, _, rfl, hh, hp'⟩ := InB_cons_left hp'
  cases InB_nil_left hp'
  have e1 := x3 b co h o hb' hco hh ho
  have e2 := y3 b co h _ hb' hco hh (wrap_InB t ho)
  show out'.get (b :: co :: h :: wrap S t o) = out.get (b :: co :: h :: o)
  rw [e1, e2]
  unfold Spec.liftingConv
  congr 1
  refine Finset.sum_congr rfl fun ci hci => ?_
  refine corr_wrap hg hS (same_unit hgeo hL hp) ho fun q hq => ?_
  exact hsh [b, _] q (by simp [hb', channel_lt hgeo hL hco (Finset.mem_range.1 hci)]) hq

/-- Circular padding `'same'`, group convolution. -/
theorem C63_group_circular {a : Args} {ax : List Axis} (hgeo : HasGeometry a .circular ax) {L : Layer}
    (hL : init a (kernelDims ax) = .ok L) (hp : a.padding = .str "same") {S : List ℕ} (hg : GeomOk .circular ax S)
    (K : GroupKernel G d) (weight w : Tensor ℝ) (bias : Option (Tensor ℝ)) (N m n : ℕ) (x x' : Tensor ℝ) (inH outH : Tensor G)
    (hin : inH.shape = [m]) (hout : outH.shape = [n]) (hK : K.forward weight inH outH = .ok w)
    (hw : w.shape = a.outC :: n :: a.inC / a.groups.toNat :: m :: kernelDims ax)
    (hx : x.shape = N :: a.inC :: m :: S) (hx' : x'.shape = N :: a.inC :: m :: S) (hb : BiasShape bias a.outC ax.length)
    (t : List ℤ) (hsh : WrappedInput (InB [N, a.inC, m]) S t x x') :
    ∃ out out', L.groupForward K weight bias x inH outH = .ok (out, outH) ∧
      L.groupForward K weight bias x' inH outH = .ok (out', outH) ∧
      out.shape = N :: a.outC :: n :: S ∧ out'.shape = N :: a.outC :: n :: S ∧
      WrappedInput (InB [N, a.outC, n]) S t out out' := by
  have hS := C59_same_size hgeo hL hp hg
  obtain ⟨out, x1, x2, x3⟩ := C61_group hgeo hL hg K weight w bias N m n x inH outH hin hout hK hw hx hb
  obtain ⟨out', y1, y2, y3⟩ := C61_group hgeo hL hg K weight w bias N m n x' inH outH hin hout hK hw hx' hb
  rw [hS] at x2 x3 y2 y3
  refine ⟨out, out', x1, y1, x2, y2, fun p o hp' ho => ?_⟩
  obtain ⟨b, _, rfl, hb', hp'⟩ := InB_cons_left hp'
  obtain ⟨co, _, rfl, hco, hp'⟩ := InB_cons_left hp'
  obtain ⟨h, _, rfl, hh, hp'⟩ := InB_cons_left hp'
  cases InB_nil_left hp'
  have e1 := x3 b co h o hb' hco hh ho
  have e2 := y3 b co h _ hb' hco hh (wrap_InB t ho)
  show out'.get (b :: co :: h :: wrap S t o) = out.get (b :: co :: h :: o)
  rw [e1, e2]
  unfold Spec.groupConv
  congr 1
  refine Finset.sum_congr rfl fun ci hci => Finset.sum_congr rfl fun i hi => ?_
  refine corr_wrap hg hS (same_unit hgeo hL hp) ho fun q hq => ?_
  exact hsh [b, _, i] q (by simp [hb', channel_lt hgeo hL hco (Finset.mem_range.1 hci), Finset.mem_range.1 hi]) hq

/-- a window inside a 9 x 8 image: kernel extent 5, padding 2, output cell (3, 4) shifted by (1, 1). -/
example : WindowInside (List.replicate 2 (sameAxis 5 1)) [9, 8] [3, 4] ∧
    WindowInside (List.replicate 2 (sameAxis 5 1)) [9, 8] [4, 5] ∧ ShiftedBy [1, 1] [3, 4] [4, 5] ∧
    ShiftedBy [1, -2] [3, 4] [4, 2] ∧ wrap [9, 8] [-1, 2] [0, 7] = [8, 1] := by
  have hw : ∀ u v : ℕ, 2 ≤ u → u ≤ 6 → 2 ≤ v → v ≤ 5 → WindowInside (List.replicate 2 (sameAxis 5 1)) [9, 8] [u, v] := by
    intro u v h1 h2 h3 h4 k hk
    obtain ⟨k0, _, rfl, hk0, hk⟩ := InB_cons_left hk
    obtain ⟨k1, _, rfl, hk1, hk⟩ := InB_cons_left hk
    cases InB_nil_left hk
    have hk0' : k0 < 5 := hk0
    have hk1' : k1 < 5 := hk1
    refine ⟨[u + k0 - 2, v + k1 - 2], by simp; omega, ?_⟩
    simp [readPos, sameAxis, Axis.pos]
    omega
  exact ⟨hw 3 4 (by norm_num) (by norm_num) (by norm_num) (by norm_num), hw 4 5 (by norm_num) (by norm_num) (by norm_num) (by norm_num),
    ⟨rfl, rfl, by intro i hi; simp at hi; interval_cases i <;> rfl⟩, ⟨rfl, rfl, by intro i hi; simp at hi; interval_cases i <;> rfl⟩, rfl⟩

end GConv.Conv

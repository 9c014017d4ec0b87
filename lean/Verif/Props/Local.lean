import Verif.Spec.Local
import Verif.Props.Separable

/-! # C82: receptive field of the convolutions

One output entry depends only on its own sample, on the input channels of its own channel group and on the input cells
lying under the (dilated, padded) kernel window. -/

namespace GConv.Conv

open Tensor Spec

variable {G : Type} {d : ℕ}

theorem corr_local {mode : F.CPad} {ax : List Axis} {S : List ℕ} {f f' w : List ℕ → ℝ} {o : List ℕ}
    (hf : ∀ q, Sees mode ax S o q → f q = f' q) : corr mode ax S f w o = corr mode ax S f' w o := by
  refine sumBox_congr fun k hk => ?_
  congr 1
  unfold extended
  cases h : cellAt mode S (readPos ax o k) with
  | none => rfl
  | some q => exact hf q ⟨k, hk, h⟩

theorem sameGroup_add {inC outC groups co ci : ℕ} (h : ci ∈ Finset.range (inC / groups)) :
    SameGroup inC outC groups co (groupStart inC outC groups co + ci) :=
  ⟨Nat.le_add_right _ _, Nat.add_lt_add_left (Finset.mem_range.1 h) _⟩

/-- Lifting convolution. -/
theorem C82_lifting {a : Args} {mode : F.CPad} {ax : List Axis} (hgeo : HasGeometry a mode ax) {L : Layer}
    (hL : init a (kernelDims ax) = .ok L) {S : List ℕ} (hg : GeomOk mode ax S) (K : GroupKernel G d)
    (weight w : Tensor ℝ) (bias : Option (Tensor ℝ)) (N n : ℕ) (x x' out out' : Tensor ℝ) (H H' H'' : Tensor G)
    (hH : H.shape = [n]) (hpos : 0 < a.inC) (hK : K.liftingForward weight H = .ok w)
    (hw : w.shape = a.outC :: n :: a.inC / a.groups.toNat :: kernelDims ax) (hb : BiasShape bias a.outC ax.length)
    (hx : x.shape = N :: a.inC :: S) (hx' : x'.shape = N :: a.inC :: S)
    (h : L.liftingForward K weight bias x H = .ok (out, H')) (h' : L.liftingForward K weight bias x' H = .ok (out', H''))
    (b co j : ℕ) (o : List ℕ) (hbN : b < N) (hco : co < a.outC) (hj : j < n) (ho : InB (outDims ax S) o)
    (heq : ∀ c q, SameGroup a.inC a.outC a.groups.toNat co c → Sees mode ax S o q →
      x.get (b :: c :: q) = x'.get (b :: c :: q)) :
    out.get (b :: co :: j :: o) = out'.get (b :: co :: j :: o) := by
  obtain ⟨y, h1, -, h2⟩ := C60_lifting hgeo hL hg K weight w bias N n x H hH hpos hK hw hx hb
  obtain ⟨y', h1', -, h2'⟩ := C60_lifting hgeo hL hg K weight w bias N n x' H hH hpos hK hw hx' hb
  rw [h] at h1; cases h1
  rw [h'] at h1'; cases h1'
  rw [h2 b co j o hbN hco hj ho, h2' b co j o hbN hco hj ho]
  unfold liftingConv
  congr 1
  exact Finset.sum_congr rfl fun ci hci => corr_local fun q hq => heq _ q (sameGroup_add hci) hq

/-- Group convolution. -/
theorem C82_group {a : Args} {mode : F.CPad} {ax : List Axis} (hgeo : HasGeometry a mode ax) {L : Layer}
    (hL : init a (kernelDims ax) = .ok L) {S : List ℕ} (hg : GeomOk mode ax S) (K : GroupKernel G d)
    (weight w : Tensor ℝ) (bias : Option (Tensor ℝ)) (N m n : ℕ) (x x' out out' : Tensor ℝ) (inH outH H' H'' : Tensor G)
    (hin : inH.shape = [m]) (hout : outH.shape = [n]) (hK : K.forward weight inH outH = .ok w)
    (hw : w.shape = a.outC :: n :: a.inC / a.groups.toNat :: m :: kernelDims ax) (hb : BiasShape bias a.outC ax.length)
    (hx : x.shape = N :: a.inC :: m :: S) (hx' : x'.shape = N :: a.inC :: m :: S)
    (h : L.groupForward K weight bias x inH outH = .ok (out, H'))
    (h' : L.groupForward K weight bias x' inH outH = .ok (out', H''))
    (b co j : ℕ) (o : List ℕ) (hbN : b < N) (hco : co < a.outC) (hj : j < n) (ho : InB (outDims ax S) o)
    (heq : ∀ c i q, SameGroup a.inC a.outC a.groups.toNat co c → i < m → Sees mode ax S o q →
      x.get (b :: c :: i :: q) = x'.get (b :: c :: i :: q)) :
    out.get (b :: co :: j :: o) = out'.get (b :: co :: j :: o) := by
  obtain ⟨y, h1, -, h2⟩ := C61_group hgeo hL hg K weight w bias N m n x inH outH hin hout hK hw hx hb
  obtain ⟨y', h1', -, h2'⟩ := C61_group hgeo hL hg K weight w bias N m n x' inH outH hin hout hK hw hx' hb
  rw [h] at h1; cases h1
  rw [h'] at h1'; cases h1'
  rw [h2 b co j o hbN hco hj ho, h2' b co j o hbN hco hj ho]
  unfold groupConv
  congr 1
  exact Finset.sum_congr rfl fun ci hci => Finset.sum_congr rfl fun i hi => corr_local fun q hq =>
    heq _ i q (sameGroup_add hci) (Finset.mem_range.1 hi) hq

/-- Subgroup convolution. -/
theorem C82_subgroup {a : Args} {mode : F.CPad} {ax : List Axis} (hgeo : HasGeometry a mode ax) {L : Layer}
    (hL : init a (kernelDims ax) = .ok L) {S : List ℕ} (hg : GeomOk mode ax S) (K : GroupKernel G d)
    (weight w : Tensor ℝ) (bias : Option (Tensor ℝ)) (N m n : ℕ) (x x' out out' : Tensor ℝ) (inH outH H' H'' : Tensor G)
    (hin : inH.shape = [m]) (hout : outH.shape = [n]) (hK : K.subgroupForward weight inH outH = .ok w)
    (hw : w.shape = a.outC :: n :: a.inC / a.groups.toNat :: m :: kernelDims ax) (hb : BiasShape bias a.outC ax.length)
    (hx : x.shape = N :: a.inC :: m :: S) (hx' : x'.shape = N :: a.inC :: m :: S)
    (h : L.subgroupForward K weight bias x inH outH = .ok (out, H'))
    (h' : L.subgroupForward K weight bias x' inH outH = .ok (out', H''))
    (b co j : ℕ) (o : List ℕ) (hbN : b < N) (hco : co < a.outC) (hj : j < n) (ho : InB (outDims ax S) o)
    (heq : ∀ c i q, SameGroup a.inC a.outC a.groups.toNat co c → i < m → Sees mode ax S o q →
      x.get (b :: c :: i :: q) = x'.get (b :: c :: i :: q)) :
    out.get (b :: co :: j :: o) = out'.get (b :: co :: j :: o) := by
  obtain ⟨y, h1, -, h2⟩ := C61_subgroup hgeo hL hg K weight w bias N m n x inH outH hin hout hK hw hx hb
  obtain ⟨y', h1', -, h2'⟩ := C61_subgroup hgeo hL hg K weight w bias N m n x' inH outH hin hout hK hw hx' hb
  rw [h] at h1; cases h1
  rw [h'] at h1'; cases h1'
  rw [h2 b co j o hbN hco hj ho, h2' b co j o hbN hco hj ho]
  unfold groupConv
  congr 1
  exact Finset.sum_congr rfl fun ci hci => Finset.sum_congr rfl fun i hi => corr_local fun q hq =>
    heq _ i q (sameGroup_add hci) (Finset.mem_range.1 hi) hq

/-- Separable convolution: the cells seen through both convolutions. -/
theorem C82_separable {a : Args} {mode : F.CPad} {ax : List Axis} (hgeo : HasGeometry a mode ax) {L : Layer}
    (hL : init a (kernelDims ax) = .ok L) {S S₁ : List ℕ} (hg₁ : GeomOk mode (firstAxes mode a.padding ax) S)
    (hS₁ : outDims (firstAxes mode a.padding ax) S = S₁) (hg : GeomOk mode ax S₁) (K : GroupKernel G d)
    (weightH weight wH w : Tensor ℝ) (bias : Option (Tensor ℝ)) (N m n : ℕ) (x x' out out' : Tensor ℝ)
    (inH outH H' H'' : Tensor G)
    (hin : inH.shape = [m]) (hout : outH.shape = [n]) (hC : 0 < a.outC) (hn : 0 < n)
    (hK : K.separableForward weightH weight inH outH = .ok (wH, w))
    (hwH : wH.shape = a.outC :: n :: a.inC / a.groups.toNat :: m :: List.replicate ax.length 1)
    (hw : w.shape = a.outC :: n :: 1 :: kernelDims ax) (hb : BiasShape bias a.outC ax.length)
    (hx : x.shape = N :: a.inC :: m :: S) (hx' : x'.shape = N :: a.inC :: m :: S)
    (h : L.separableForward K weightH weight bias x inH outH = .ok (out, H'))
    (h' : L.separableForward K weightH weight bias x' inH outH = .ok (out', H''))
    (b co j : ℕ) (o : List ℕ) (hbN : b < N) (hco : co < a.outC) (hj : j < n) (ho : InB (outDims ax S₁) o)
    (heq : ∀ c i p q, SameGroup a.inC a.outC a.groups.toNat co c → i < m → Sees mode ax S₁ o p →
      Sees mode (firstAxes mode a.padding ax) S p q → x.get (b :: c :: i :: q) = x'.get (b :: c :: i :: q)) :
    out.get (b :: co :: j :: o) = out'.get (b :: co :: j :: o) := by
  obtain ⟨y, h1, -, h2⟩ := C62_formula_partial hgeo hL hg₁ hS₁ hg K weightH weight wH w bias N m n x inH outH hin hout
    hC hn hK hwH hw hx hb
  obtain ⟨y', h1', -, h2'⟩ := C62_formula_partial hgeo hL hg₁ hS₁ hg K weightH weight wH w bias N m n x' inH outH hin hout
    hC hn hK hwH hw hx' hb
  rw [h] at h1; cases h1
  rw [h'] at h1'; cases h1'
  rw [h2 b co j o hbN hco hj ho, h2' b co j o hbN hco hj ho]
  congr 1
  refine corr_local fun p hp => ?_
  exact Finset.sum_congr rfl fun ci hci => Finset.sum_congr rfl fun i hi => corr_local fun q hq =>
    heq _ i p q (sameGroup_add hci) (Finset.mem_range.1 hi) hp hq

/-- With zero padding (or none) the cells seen by output cell `o` are exactly the cells of the window: on every axis
`q = o * stride - left + j * dilation` for some kernel position `j`. -/
theorem C82_window (ax : List Axis) (S o q : List ℕ) (hS : S.length = ax.length) (ho : o.length = ax.length)
    (hq : InB S q) :
    Sees .zeros ax S o q ↔ ∀ i (h : i < ax.length), InWindow ax[i] (o.getD i 0) (q.getD i 0) := by
  induction ax generalizing S o q with
  | nil =>
    have : q = [] := by
      have := hq.length
      rw [hS] at this
      exact List.length_eq_zero_iff.1 this
    subst this
    refine ⟨fun _ i h => absurd h (Nat.not_lt_zero _), fun _ => ⟨[], InB_nil_nil, ?_⟩⟩
    cases o with
    | nil => cases S <;> rfl
    | cons => simp at ho
  | cons a ax ih =>
    obtain ⟨s, S, rfl⟩ : ∃ s S', S = s :: S' := by cases S with | nil => simp at hS | cons s S => exact ⟨s, S, rfl⟩
    obtain ⟨o, os, rfl⟩ : ∃ s S', o = s :: S' := by cases o with | nil => simp at ho | cons s S => exact ⟨s, S, rfl⟩
    obtain ⟨q, qs, rfl, hqs, hq⟩ := InB_cons_left hq
    have ih := ih S os qs (by simpa using hS) (by simpa using ho) hq
    have key : Sees .zeros (a :: ax) (s :: S) (o :: os) (q :: qs) ↔
        InWindow a o q ∧ Sees .zeros ax S os qs := by
      constructor
      · rintro ⟨k, hk, hc⟩
        obtain ⟨k, ks, rfl, hk1, hk2⟩ := InB_cons_left hk
        simp only [readPos, cellAt, F.padIdx] at hc
        by_cases hp : 0 ≤ a.pos o k ∧ a.pos o k < s
        · rw [if_pos hp] at hc
          cases hcc : cellAt .zeros S (readPos ax os ks) with
          | none => rw [hcc] at hc; simp at hc
          | some r =>
            rw [hcc] at hc
            simp only [Option.some.injEq, List.cons.injEq] at hc
            refine ⟨⟨k, hk1, ?_⟩, ⟨ks, hk2, by rw [hcc, hc.2]⟩⟩
            have := hc.1
            unfold Axis.pos at hp this
            have h2 := hp.1
            zify
            omega
        · rw [if_neg hp] at hc; simp at hc
      · rintro ⟨⟨k, hk1, hkq⟩, ⟨ks, hk2, hcc⟩⟩
        have hpos : a.pos o k = (q : ℤ) := by
          unfold Axis.pos
          zify at hkq
          omega
        refine ⟨k :: ks, InB_cons.2 ⟨hk1, hk2⟩, ?_⟩
        simp only [readPos, cellAt, F.padIdx]
        rw [hcc, hpos, if_pos ⟨by omega, by omega⟩]
        simp
    rw [key, ih]
    constructor
    · rintro ⟨h1, h2⟩ i hi
      cases i with
      | zero => exact h1
      | succ i => exact h2 i (by simpa using hi)
    · intro h
      exact ⟨h 0 (by simp), fun i hi => h (i + 1) (by simpa using hi)⟩

/-- Impulse response of the group convolution: inputs that differ by `t` at one entry `(b, c, i, q)` of the channel group
of `co` have outputs that differ by `t` times the weights of the kernel cells lying over `q`. -/
theorem C82_impulse {a : Args} {mode : F.CPad} {ax : List Axis} (hgeo : HasGeometry a mode ax) {L : Layer}
    (hL : init a (kernelDims ax) = .ok L) {S : List ℕ} (hg : GeomOk mode ax S) (K : GroupKernel G d)
    (weight w : Tensor ℝ) (bias : Option (Tensor ℝ)) (N m n : ℕ) (x x' out out' : Tensor ℝ) (inH outH H' H'' : Tensor G)
    (hin : inH.shape = [m]) (hout : outH.shape = [n]) (hK : K.forward weight inH outH = .ok w)
    (hw : w.shape = a.outC :: n :: a.inC / a.groups.toNat :: m :: kernelDims ax) (hb : BiasShape bias a.outC ax.length)
    (hx : x.shape = N :: a.inC :: m :: S) (hx' : x'.shape = N :: a.inC :: m :: S)
    (h : L.groupForward K weight bias x inH outH = .ok (out, H'))
    (h' : L.groupForward K weight bias x' inH outH = .ok (out', H''))
    (b co j : ℕ) (o : List ℕ) (hbN : b < N) (hco : co < a.outC) (hj : j < n) (ho : InB (outDims ax S) o)
    (ci i : ℕ) (hci : ci < a.inC / a.groups.toNat) (hi : i < m) (q : List ℕ) (t : ℝ)
    (hdiff : ∀ c i' q', x'.get (b :: c :: i' :: q') = x.get (b :: c :: i' :: q') +
      (if c = groupStart a.inC a.outC a.groups.toNat co + ci ∧ i' = i ∧ q' = q then t else 0)) :
    out'.get (b :: co :: j :: o) = out.get (b :: co :: j :: o) + t *
      sumBox (kernelDims ax) fun k => if cellAt mode S (readPos ax o k) = some q then w.get (co :: j :: ci :: i :: k)
        else 0 := by
  obtain ⟨y, h1, -, h2⟩ := C61_group hgeo hL hg K weight w bias N m n x inH outH hin hout hK hw hx hb
  obtain ⟨y', h1', -, h2'⟩ := C61_group hgeo hL hg K weight w bias N m n x' inH outH hin hout hK hw hx' hb
  rw [h] at h1; cases h1
  rw [h'] at h1'; cases h1'
  rw [h2 b co j o hbN hco hj ho, h2' b co j o hbN hco hj ho]
  unfold groupConv
  have e : ∀ ci' i', corr mode ax S (fun q' => x'.get (b :: (groupStart a.inC a.outC a.groups.toNat co + ci') :: i' :: q'))
      (fun k => w.get (co :: j :: ci' :: i' :: k)) o =
      corr mode ax S (fun q' => x.get (b :: (groupStart a.inC a.outC a.groups.toNat co + ci') :: i' :: q'))
      (fun k => w.get (co :: j :: ci' :: i' :: k)) o + (if ci' = ci ∧ i' = i then t * sumBox (kernelDims ax) (fun k =>
        if cellAt mode S (readPos ax o k) = some q then w.get (co :: j :: ci :: i :: k) else 0) else 0) := by
    intro ci' i'
    by_cases hc : ci' = ci ∧ i' = i
    · obtain ⟨rfl, rfl⟩ := hc
      rw [if_pos ⟨rfl, rfl⟩]
      unfold corr sumBox
      rw [← List.sum_map_mul_left, ← List.sum_map_add]
      refine congrArg List.sum (List.map_congr_left fun k _ => ?_)
      unfold extended
      cases hcell : cellAt mode S (readPos ax o k) with
      | none => simp
      | some r =>
        dsimp only
        rw [hdiff]
        by_cases hr : r = q
        · subst hr; simp; ring
        · simp [hr]
    · rw [if_neg hc, add_zero]
      refine corr_local fun q' _ => ?_
      rw [hdiff, if_neg, add_zero]
      rintro ⟨e1, e2, -⟩
      exact hc ⟨by omega, e2⟩
  simp only [e, Finset.sum_add_distrib]
  have : ∑ ci' ∈ Finset.range (a.inC / a.groups.toNat), ∑ i' ∈ Finset.range m,
      (if ci' = ci ∧ i' = i then t * sumBox (kernelDims ax) (fun k =>
        if cellAt mode S (readPos ax o k) = some q then w.get (co :: j :: ci :: i :: k) else 0) else 0) =
      t * sumBox (kernelDims ax) (fun k =>
        if cellAt mode S (readPos ax o k) = some q then w.get (co :: j :: ci :: i :: k) else 0) := by
    rw [Finset.sum_eq_single_of_mem ci (Finset.mem_range.2 hci), Finset.sum_eq_single_of_mem i (Finset.mem_range.2 hi)]
    · rw [if_pos ⟨rfl, rfl⟩]
    · intro i' _ hne; rw [if_neg (fun hc => hne hc.2)]
    · intro ci' _ hne
      exact Finset.sum_eq_zero fun i' _ => if_neg (fun hc => hne hc.1)
  rw [this]
  ring

/-- `GConvSE2` with 4 input channels, 6 output channels, 2 groups, kernel extent 5, padding 1 on 9 x 8 images: the first
three output channels at output cell (0, 0) only see the first two input channels and the cells up to (3, 3). -/
example (n : ℕ) (hn : 0 < n) (weight x x' inH : Tensor ℝ)
    (hw : weight.shape = [(KernelSE2.grid (KernelSE2.exArgs n)).shape.headD 0, 6, 2, 5, 5])
    (hx : x.shape = [3, 4, n, 9, 8]) (hx' : x'.shape = [3, 4, n, 9, 8]) (hin : inH.shape = [n])
    (heq : ∀ c < 2, ∀ i < n, ∀ p < 4, ∀ q < 4, x.get [1, c, i, p, q] = x'.get [1, c, i, p, q]) :
    ∃ M out out', fullSE2 (KernelSE2.exArgs n) padOpts = .ok M ∧ M.groupSE id weight none x inH none = .ok (out, inH) ∧
      M.groupSE id weight none x' inH none = .ok (out', inH) ∧
      ∀ co < 3, ∀ j < n, out.get [1, co, j, 0, 0] = out'.get [1, co, j, 0, 0] := by
  obtain ⟨M, hM, hMp, hks, hL, hK⟩ := full_ex n hn padOpts (Or.inr rfl) rfl
  have hgeo : HasGeometry (argsSE2 (KernelSE2.exArgs n) padOpts) .zeros [⟨5, 1, 1, 1, 1⟩, ⟨5, 1, 1, 1, 1⟩] :=
    ⟨Or.inl ⟨rfl, rfl⟩, rfl, rfl, rfl, by
      intro a ha
      rcases List.mem_pair.1 ha with rfl | rfl <;> exact ⟨rfl, rfl⟩, Or.inl ⟨rfl, rfl⟩⟩
  have hok : ∀ (k s : ℕ), 0 < k → k ≤ s + 2 → (⟨k, 1, 1, 1, 1⟩ : Axis).Ok .zeros s := fun k s h1 h2 =>
    ⟨h1, Nat.one_pos, Nat.one_pos, by unfold Axis.span; simp only; omega, rfl⟩
  have hb : BiasShape none 6 2 := fun b hb => by cases hb
  have hg : GeomOk .zeros [⟨5, 1, 1, 1, 1⟩, ⟨5, 1, 1, 1, 1⟩] [9, 8] :=
    List.Forall₂.cons (hok 5 9 (by norm_num) (by norm_num)) (List.Forall₂.cons (hok 5 8 (by norm_num) (by norm_num)) .nil)
  obtain ⟨K', w, h1, h2, h3, -⟩ := KernelSE2.C51_SE2 (KernelSE2.exArgs n) 1 (KernelSE2.exReady n hn) defaultModes weight
    inH inH n n (by rw [hw]; simp [KernelSE2.exArgs]) hin hin
  rw [hK] at h1
  cases h1
  obtain ⟨out, o1, -⟩ := C61_group hgeo hL hg M.kernel weight w none 3 n n x inH inH hin hin h2 h3 hx hb
  obtain ⟨out', o1', -⟩ := C61_group hgeo hL hg M.kernel weight w none 3 n n x' inH inH hin hin h2 h3 hx' hb
  have hfw : ∀ y, M.groupSE id weight none y inH none = M.layer.groupForward M.kernel weight none y inH inH := by
    intro y
    unfold Module.groupSE
    rw [hMp]
    rfl
  refine ⟨M, out, out', hM, by rw [hfw, o1], by rw [hfw, o1'], fun co hco j hj => ?_⟩
  refine C82_group hgeo hL hg M.kernel weight w none 3 n n x x' out out' inH inH inH inH hin hin h2 h3 hb hx hx' o1 o1'
    1 co j [0, 0] (by norm_num) (lt_trans hco (by decide : 3 < 6)) hj ?_ ?_
  · simp [outDims, Axis.out]
  · intro c i q hc hi hq
    have hqS : InB [9, 8] q := by
      obtain ⟨k, hk, hcell⟩ := hq
      exact cellAt_InB hg (o := [0, 0]) (by simp [outDims, Axis.out]) hk hcell
    obtain ⟨q0, q1, rfl, -, h'⟩ := InB_cons_left hqS
    obtain ⟨q1, q2, rfl, -, h'⟩ := InB_cons_left h'
    cases InB_nil_left h'
    have hwin := (C82_window _ _ _ _ rfl rfl hqS).1 hq
    obtain ⟨j0, hj0, e0⟩ := hwin 0 (by simp)
    obtain ⟨j1, hj1, e1⟩ := hwin 1 (by simp)
    simp at e0 e1 hj0 hj1
    have hc2 : c < 2 := by
      have := hc.2
      have e : groupStart 4 6 2 co = 0 := by
        unfold groupStart
        have : co / (6 / 2) = 0 := Nat.div_eq_of_lt hco
        rw [this, Nat.zero_mul]
      have : c < groupStart 4 6 2 co + 4 / 2 := this
      rw [e] at this
      exact this
    exact heq c hc2 i hi q0 (by omega) q1 (by omega)

end GConv.Conv

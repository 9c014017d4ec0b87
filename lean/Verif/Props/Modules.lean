import Verif.Props.ConvForward
import Verif.Props.KernelInstances
import Verif.Model.Modules

/-! # C59 – C61, C72: the convolution layers and the premade modules -/

namespace GConv.Conv

open Tensor Spec GroupKernel

variable {G : Type} {d : ℕ}

/-! ## C60, C61: layers with any kernel -/

/-- `GLiftingConvNd.forward`: `w` is the kernel sampled for `H`. -/
theorem C60_lifting {a : Args} {mode : F.CPad} {ax : List Axis} (hgeo : HasGeometry a mode ax) {L : Layer}
    (hL : init a (kernelDims ax) = .ok L) {S : List ℕ} (hg : GeomOk mode ax S) (K : GroupKernel G d)
    (weight w : Tensor ℝ) (bias : Option (Tensor ℝ)) (N n : ℕ) (input : Tensor ℝ) (H : Tensor G)
    (hH : H.shape = [n]) (hpos : 0 < a.inC) (hK : K.liftingForward weight H = .ok w)
    (hw : w.shape = a.outC :: n :: a.inC / a.groups.toNat :: kernelDims ax)
    (hx : input.shape = N :: a.inC :: S) (hb : BiasShape bias a.outC ax.length) :
    ∃ out, L.liftingForward K weight bias input H = .ok (out, H) ∧
      out.shape = N :: a.outC :: n :: outDims ax S ∧
      ∀ b co h o, b < N → co < a.outC → h < n → InB (outDims ax S) o →
        out.get (b :: co :: h :: o) = Spec.liftingConv a mode ax S input w bias b co h o := by
  obtain ⟨out, h1, h2, h3⟩ := liftingConv_spec hgeo hL hg w bias N n input H (by rw [hH]; rfl) hpos hw hx hb
  refine ⟨out, ?_, h2, h3⟩
  unfold Layer.liftingForward
  rw [hx]
  dsimp only
  rw [hK, ok_bind, h1]

/-- `GConvNd.forward`: `w` is the kernel sampled for `in_H` and `out_H`. -/
theorem C61_group {a : Args} {mode : F.CPad} {ax : List Axis} (hgeo : HasGeometry a mode ax) {L : Layer}
    (hL : init a (kernelDims ax) = .ok L) {S : List ℕ} (hg : GeomOk mode ax S) (K : GroupKernel G d)
    (weight w : Tensor ℝ) (bias : Option (Tensor ℝ)) (N m n : ℕ) (input : Tensor ℝ) (inH outH : Tensor G)
    (hin : inH.shape = [m]) (hout : outH.shape = [n]) (hK : K.forward weight inH outH = .ok w)
    (hw : w.shape = a.outC :: n :: a.inC / a.groups.toNat :: m :: kernelDims ax)
    (hx : input.shape = N :: a.inC :: m :: S) (hb : BiasShape bias a.outC ax.length) :
    ∃ out, L.groupForward K weight bias input inH outH = .ok (out, outH) ∧
      out.shape = N :: a.outC :: n :: outDims ax S ∧
      ∀ b co h o, b < N → co < a.outC → h < n → InB (outDims ax S) o →
        out.get (b :: co :: h :: o) = Spec.groupConv a mode ax S input w bias m b co h o := by
  obtain ⟨out, h1, h2, h3⟩ := groupConv_spec hgeo hL hg w bias N m n input inH outH (by rw [hin]; rfl) (by rw [hout]; rfl)
    hw hx hb
  refine ⟨out, ?_, h2, h3⟩
  unfold Layer.groupForward
  rw [hx]
  dsimp only
  rw [hK, ok_bind, h1]

/-- `GConvNd.forward` with a subgroup kernel (spatial extents 1). -/
theorem C61_subgroup {a : Args} {mode : F.CPad} {ax : List Axis} (hgeo : HasGeometry a mode ax) {L : Layer}
    (hL : init a (kernelDims ax) = .ok L) {S : List ℕ} (hg : GeomOk mode ax S) (K : GroupKernel G d)
    (weight w : Tensor ℝ) (bias : Option (Tensor ℝ)) (N m n : ℕ) (input : Tensor ℝ) (inH outH : Tensor G)
    (hin : inH.shape = [m]) (hout : outH.shape = [n]) (hK : K.subgroupForward weight inH outH = .ok w)
    (hw : w.shape = a.outC :: n :: a.inC / a.groups.toNat :: m :: kernelDims ax)
    (hx : input.shape = N :: a.inC :: m :: S) (hb : BiasShape bias a.outC ax.length) :
    ∃ out, L.subgroupForward K weight bias input inH outH = .ok (out, outH) ∧
      out.shape = N :: a.outC :: n :: outDims ax S ∧
      ∀ b co h o, b < N → co < a.outC → h < n → InB (outDims ax S) o →
        out.get (b :: co :: h :: o) = Spec.groupConv a mode ax S input w bias m b co h o := by
  obtain ⟨out, h1, h2, h3⟩ := groupConv_spec hgeo hL hg w bias N m n input inH outH (by rw [hin]; rfl) (by rw [hout]; rfl)
    hw hx hb
  refine ⟨out, ?_, h2, h3⟩
  unfold Layer.subgroupForward
  rw [hx]
  dsimp only
  rw [hK, ok_bind, h1]

/-! ## C59 -/

/-- With `padding='same'` (which the constructor only accepts with unit strides) the output extents are the
input extents. -/
theorem C59_same_size {a : Args} {mode : F.CPad} {ax : List Axis} (hgeo : HasGeometry a mode ax) {L : Layer}
    (hL : init a (kernelDims ax) = .ok L) (hp : a.padding = .str "same") {S : List ℕ} (hg : GeomOk mode ax S) :
    outDims ax S = S := by
  have hP := hgeo.padding
  rw [hp] at hP
  have hsame : ∀ x ∈ ax, x.left + x.right = x.dil * (x.k - 1) := by
    rcases hP with ⟨-, h⟩ | ⟨h, -⟩
    · exact fun x hx => (h x hx).2
    · exact absurd h (by decide)
  have hst : ∀ x ∈ ax, x.stride = 1 := by
    have ha := (C58_accepts a _ _ _ hgeo.stride hgeo.dilation).1 ⟨L, hL⟩
    rcases ha.2.2.2.2.1 "same" hp with h | ⟨-, h⟩
    · exact absurd h (by decide)
    · exact fun x hx => h _ hgeo.stride _ (List.mem_map.2 ⟨x, hx, rfl⟩)
  clear hP hgeo hL
  unfold GeomOk at hg
  induction hg with
  | nil => rfl
  | @cons x s ax S h _ ih =>
    unfold outDims at *
    rw [List.zipWith_cons_cons, ih (fun y hy => hsame y (List.mem_cons_of_mem _ hy)) (fun y hy => hst y (List.mem_cons_of_mem _ hy))]
    congr 1
    unfold Axis.out Axis.span
    have h1 := hsame x List.mem_cons_self
    have h4 := h.2.2.2.1
    unfold Axis.span at h4
    rw [hst x List.mem_cons_self, Nat.div_one]
    omega

/-- the geometry asked for by `padding='same'`. -/
def sameAxis (k dil : ℕ) : Axis := ⟨k, 1, dil, dil * (k - 1) / 2, dil * (k - 1) - dil * (k - 1) / 2⟩

/-- Every 2d or 3d layer with `padding='same'`, any positive kernel extent `k` and dilation, any padding mode and any
non-empty signal (large enough for the padding mode) has an admissible geometry whose output extents are the
input extents; lifting and group convolutions (C60, C61) therefore keep the spatial size. -/
theorem C59_same_geometry (nd : ℕ) (inC outC k dil : ℕ) (gks : GroupSize) (groups : ℤ) (padName : String) (mode : F.CPad)
    (hn : PadModeName padName mode) (hk : 0 < k) (hd : 0 < dil) (S : List ℕ) (hS : S.length = nd)
    (hs : ∀ s ∈ S, 0 < s ∧ F.padAllowed mode s (dil * (k - 1) / 2) (dil * (k - 1) - dil * (k - 1) / 2) = true) :
    (nd = 2 → HasGeometry (args2d inC outC k gks groups 1 (.str "same") dil padName) mode (List.replicate 2 (sameAxis k dil))) ∧
    (nd = 3 → HasGeometry (args3d inC outC k gks groups 1 (.str "same") dil padName) mode (List.replicate 3 (sameAxis k dil))) ∧
    GeomOk mode (List.replicate nd (sameAxis k dil)) S ∧ outDims (List.replicate nd (sameAxis k dil)) S = S := by
  have hpad : ∀ n, PadsAs (.str "same") (List.replicate n (sameAxis k dil)) := by
    intro n
    refine Or.inl ⟨rfl, fun a ha => ?_⟩
    rw [(List.mem_replicate.1 ha).2]
    exact ⟨rfl, by unfold sameAxis; simp only; omega⟩
  refine ⟨fun _ => ⟨Or.inl ⟨rfl, rfl⟩, by simp [args2d, argsNd, kernelDims, sameAxis], by simp [args2d, argsNd, sameAxis],
    by simp [args2d, argsNd, sameAxis], hpad 2, hn⟩,
    fun _ => ⟨Or.inr ⟨rfl, rfl⟩, by simp [args3d, argsNd, kernelDims, sameAxis], by simp [args3d, argsNd, sameAxis],
    by simp [args3d, argsNd, sameAxis], hpad 3, hn⟩, ?_, ?_⟩
  · subst hS
    induction S with
    | nil => exact List.Forall₂.nil
    | cons s S ih =>
      refine List.Forall₂.cons ⟨hk, Nat.one_pos, hd, ?_, (hs s List.mem_cons_self).2⟩
        (ih fun t ht => hs t (List.mem_cons_of_mem _ ht))
      have := (hs s List.mem_cons_self).1
      unfold Axis.span sameAxis
      simp only
      omega
  · subst hS
    induction S with
    | nil => rfl
    | cons s S ih =>
      unfold outDims at *
      rw [List.length_cons, List.replicate_succ, List.zipWith_cons_cons, ih fun t ht => hs t (List.mem_cons_of_mem _ ht)]
      congr 1
      have := (hs s List.mem_cons_self).1
      unfold Axis.out Axis.span sameAxis
      simp only [Nat.div_one]
      omega

/-- a 5 x 7 image, kernel extent 4, dilation 2, reflection padding. -/
example : GeomOk .reflect (List.replicate 2 (sameAxis 4 2)) [5, 7] ∧ outDims (List.replicate 2 (sameAxis 4 2)) [5, 7] = [5, 7] := by
  obtain ⟨-, -, h1, h2⟩ := C59_same_geometry 2 1 1 4 2 (.int 1) 1 "reflect" .reflect (Or.inr (Or.inl ⟨rfl, rfl⟩)) (by norm_num)
    (by norm_num) [5, 7] rfl (by simp [F.padAllowed])
  exact ⟨h1, h2⟩

/-! ## The premade modules -/

theorem build_ok {kernel : Except PyErr (GroupKernel G d)} {a : Args} {p : Bool} {M : Module G d}
    (h : build kernel a p = .ok M) :
    ∃ K, kernel = .ok K ∧ init a K.kernelSize = .ok M.layer ∧ M.kernel = K ∧ M.permute = p := by
  unfold build at h
  cases hk : kernel with
  | error e => rw [hk] at h; cases h
  | ok K =>
    rw [hk, ok_bind] at h
    cases hL : init a K.kernelSize with
    | error e => rw [hL] at h; cases h
    | ok L => rw [hL, ok_bind] at h; cases h; exact ⟨K, rfl, hL, rfl, rfl⟩

/-- a grid with its grid axis: every element is moved. -/
theorem permuteGrid_eq (p : Bool) (move : G → G) {H : Tensor G} (h : H.shape ≠ []) :
    permuteGrid p move H = if p then H.map move else H := by
  cases p
  · rfl
  · exact if_neg h

theorem permuteGrid_shape (p : Bool) (move : G → G) {H : Tensor G} (h : H.shape ≠ []) :
    (permuteGrid p move H).shape = H.shape := by
  rw [permuteGrid_eq p move h]
  cases p <;> rfl

theorem eq_permute {p : Bool} {move : G → G} {X Y : Tensor G} {n : ℕ} (h : Y = if p then X.map move else X)
    (hn : Y.shape = [n]) : Y = permuteGrid p move X := by
  rw [permuteGrid_eq]
  · exact h
  · intro h0
    rw [h] at hn
    cases p
    · exact absurd (hn.symm.trans h0) (by simp)
    · exact absurd (hn.symm.trans h0) (by simp)

theorem ne_nil_of_eq {H : Tensor G} {n : ℕ} {l : List ℕ} (h : H.shape = n :: l) : H.shape ≠ [] := by
  rw [h]; exact List.cons_ne_nil _ _

/-- the accepted configurations of the premade modules have positive `groups`. -/
theorem groups_pos {a : Args} {L : Layer} {mode ax} (hgeo : HasGeometry a mode ax) {ks} (h : init a ks = .ok L) : 0 < a.groups :=
  ((C58_accepts a _ _ _ hgeo.stride hgeo.dilation).1 ⟨L, h⟩).2.1

/-! ## C72 -/

theorem bind_ok {α β : Type} {e : Except PyErr α} {f : α → Except PyErr β} {b : β} (h : (e >>= f) = .ok b) :
    ∃ a, e = .ok a ∧ f a = .ok b := by
  cases e with
  | error e => cases h
  | ok a => exact ⟨a, rfl, h⟩

theorem liftingConv_snd {L : Layer} {w : Tensor ℝ} {bias : Option (Tensor ℝ)} {N : ℕ} {input : Tensor ℝ} {H : Tensor G}
    {r : Tensor ℝ × Tensor G} (h : L.liftingConv w bias N input H = .ok r) : r.2 = H := by
  unfold Layer.liftingConv at h
  obtain ⟨_, -, h⟩ := bind_ok h
  obtain ⟨_, -, h⟩ := bind_ok h
  obtain ⟨_, -, h⟩ := bind_ok h
  obtain ⟨_, -, h⟩ := bind_ok h
  cases h; rfl

theorem groupForward_snd {L : Layer} {K : GroupKernel G d} {weight : Tensor ℝ} {bias : Option (Tensor ℝ)} {input : Tensor ℝ}
    {inH outH : Tensor G} {r : Tensor ℝ × Tensor G} (h : L.groupForward K weight bias input inH outH = .ok r) : r.2 = outH := by
  unfold Layer.groupForward at h
  split at h
  · obtain ⟨_, -, h⟩ := bind_ok h
    unfold Layer.groupConv at h
    obtain ⟨_, -, h⟩ := bind_ok h
    obtain ⟨_, -, h⟩ := bind_ok h
    obtain ⟨_, -, h⟩ := bind_ok h
    obtain ⟨_, -, h⟩ := bind_ok h
    obtain ⟨_, -, h⟩ := bind_ok h
    cases h; rfl
  · cases h

theorem separableForward_snd {L : Layer} {K : GroupKernel G d} {weightH weight : Tensor ℝ} {bias : Option (Tensor ℝ)}
    {input : Tensor ℝ} {inH outH : Tensor G} {r : Tensor ℝ × Tensor G}
    (h : L.separableForward K weightH weight bias input inH outH = .ok r) : r.2 = outH := by
  unfold Layer.separableForward at h
  split at h
  · obtain ⟨_, -, h⟩ := bind_ok h
    unfold Layer.separableConv at h
    obtain ⟨_, -, h⟩ := bind_ok h
    obtain ⟨_, -, h⟩ := bind_ok h
    obtain ⟨_, -, h⟩ := bind_ok h
    obtain ⟨_, -, h⟩ := bind_ok h
    obtain ⟨_, -, h⟩ := bind_ok h
    obtain ⟨_, -, h⟩ := bind_ok h
    obtain ⟨_, -, h⟩ := bind_ok h
    cases h; rfl
  · cases h

/-- Lifting modules: the kernel grid is used when no grid is given; the returned grid is the chosen one,
multiplied by one random element when `permute_output_grid` is set. -/
theorem C72_lifting (M : Module G d) (move : G → G) (weight : Tensor ℝ) (bias : Option (Tensor ℝ)) (input : Tensor ℝ)
    (H : Option (Tensor G)) :
    M.lift move weight bias input none = M.lift move weight bias input (some M.kernel.gridH) ∧
    (∀ out H', M.lift move weight bias input H = .ok (out, H') →
      (H.getD M.kernel.gridH).shape ≠ [] → H' = if M.permute then (H.getD M.kernel.gridH).map move else H.getD M.kernel.gridH) := by
  refine ⟨rfl, fun out H' h hn => ?_⟩
  unfold Module.lift Layer.liftingForward at h
  dsimp only at h
  cases hs : input.shape with
  | nil => rw [hs] at h; cases h
  | cons N S =>
    rw [hs] at h
    dsimp only at h
    cases hk : M.kernel.liftingForward weight (permuteGrid M.permute move (H.getD M.kernel.gridH)) with
    | error e => rw [hk] at h; cases h
    | ok w =>
      rw [hk, ok_bind] at h
      exact (liftingConv_snd h).trans (permuteGrid_eq _ _ hn)

/-- `GConvSE2`, `GConvSE3`: `in_H` is the default for `out_H`. -/
theorem C72_groupSE (M : Module G d) (move : G → G) (weight : Tensor ℝ) (bias : Option (Tensor ℝ)) (input : Tensor ℝ)
    (inH : Tensor G) (outH : Option (Tensor G)) :
    M.groupSE move weight bias input inH none = M.groupSE move weight bias input inH (some inH) ∧
    (∀ out H', M.groupSE move weight bias input inH outH = .ok (out, H') →
      (outH.getD inH).shape ≠ [] → H' = if M.permute then (outH.getD inH).map move else outH.getD inH) :=
  ⟨rfl, fun _ _ h hn => (groupForward_snd h).trans (permuteGrid_eq _ _ hn)⟩

/-- `GSeparableConvSE2`, `GSeparableConvSE3`. -/
theorem C72_separableSE (M : Module G d) (move : G → G) (weightH weight : Tensor ℝ) (bias : Option (Tensor ℝ)) (input : Tensor ℝ)
    (inH : Tensor G) (outH : Option (Tensor G)) :
    M.separableSE move weightH weight bias input inH none = M.separableSE move weightH weight bias input inH (some inH) ∧
    (∀ out H', M.separableSE move weightH weight bias input inH outH = .ok (out, H') →
      (outH.getD inH).shape ≠ [] → H' = if M.permute then (outH.getD inH).map move else outH.getD inH) :=
  ⟨rfl, fun _ _ h hn => (separableForward_snd h).trans (permuteGrid_eq _ _ hn)⟩

/-- `GConvE2`, `GConvE3`: the kernel grid is the default for `H_out`. -/
theorem C72_groupE (M : Module G d) (move : G → G) (weight : Tensor ℝ) (bias : Option (Tensor ℝ)) (input : Tensor ℝ)
    (inH : Tensor G) (outH : Option (Tensor G)) :
    M.groupE move weight bias input inH none = M.groupE move weight bias input inH (some M.kernel.gridH) ∧
    (∀ out H', M.groupE move weight bias input inH outH = .ok (out, H') →
      (outH.getD M.kernel.gridH).shape ≠ [] → H' = if M.permute then (outH.getD M.kernel.gridH).map move else outH.getD M.kernel.gridH) :=
  ⟨rfl, fun _ _ h hn => (groupForward_snd h).trans (permuteGrid_eq _ _ hn)⟩

/-- `GSeparableConvE2`, `GSeparableConvE3`. -/
theorem C72_separableE (M : Module G d) (move : G → G) (weightH weight : Tensor ℝ) (bias : Option (Tensor ℝ)) (input : Tensor ℝ)
    (inH : Tensor G) (outH : Option (Tensor G)) :
    M.separableE move weightH weight bias input inH none = M.separableE move weightH weight bias input inH (some M.kernel.gridH) ∧
    (∀ out H', M.separableE move weightH weight bias input inH outH = .ok (out, H') →
      (outH.getD M.kernel.gridH).shape ≠ [] → H' = if M.permute then (outH.getD M.kernel.gridH).map move else outH.getD M.kernel.gridH) :=
  ⟨rfl, fun _ _ h hn => (separableForward_snd h).trans (permuteGrid_eq _ _ hn)⟩

theorem permuteGrid_single (p : Bool) (move : G → G) {H : Tensor G} (h : H.shape = []) :
    permuteGrid p move H = if p then ⟨[1], fun _ => move (H.get [])⟩ else H := by
  cases p
  · rfl
  · exact if_pos h

/-- A single group element in the place of a grid (the shipped SE(3) grid of size 1 is one matrix without grid
axis, C37; a user can pass one too): with `permute_output_grid` every forward returns a grid of one element, that
element multiplied by the random one; without, the element itself. -/
theorem C72_single (M : Module G d) (move : G → G) (weightH weight : Tensor ℝ) (bias : Option (Tensor ℝ)) (input : Tensor ℝ)
    (inH : Tensor G) (H : Option (Tensor G)) (out : Tensor ℝ) (H' : Tensor G) :
    ((H.getD M.kernel.gridH).shape = [] →
      (M.lift move weight bias input H = .ok (out, H') ∨ M.groupE move weight bias input inH H = .ok (out, H') ∨
        M.separableE move weightH weight bias input inH H = .ok (out, H')) →
      H' = if M.permute then ⟨[1], fun _ => move ((H.getD M.kernel.gridH).get [])⟩ else H.getD M.kernel.gridH) ∧
    ((H.getD inH).shape = [] →
      (M.groupSE move weight bias input inH H = .ok (out, H') ∨ M.separableSE move weightH weight bias input inH H = .ok (out, H')) →
      H' = if M.permute then ⟨[1], fun _ => move ((H.getD inH).get [])⟩ else H.getD inH) := by
  refine ⟨fun hn h => ?_, fun hn h => ?_⟩
  · rcases h with h | h | h
    · unfold Module.lift Layer.liftingForward at h
      dsimp only at h
      cases hs : input.shape with
      | nil => rw [hs] at h; cases h
      | cons N S =>
        rw [hs] at h
        obtain ⟨w, -, h⟩ := bind_ok h
        exact (liftingConv_snd h).trans (permuteGrid_single _ _ hn)
    · exact (groupForward_snd h).trans (permuteGrid_single _ _ hn)
    · exact (separableForward_snd h).trans (permuteGrid_single _ _ hn)
  · rcases h with h | h
    · exact (groupForward_snd h).trans (permuteGrid_single _ _ hn)
    · exact (separableForward_snd h).trans (permuteGrid_single _ _ hn)

/-- The random element used by the SE(2) modules is an angle in `[0, 2π)`. -/
theorem C72_random_SE2 (u : ℝ) (hu : 0 ≤ u) (hu' : u < 1) :
    ∃ g, 0 ≤ g ∧ g < 2 * Real.pi ∧ moveSE2 u = SO2.leftApplyAngle g := by
  refine ⟨2 * Real.pi * u, by positivity, ?_, rfl⟩
  have := Real.pi_pos
  nlinarith

/-- The random element used by the SE(3) modules is a rotation matrix (for every non-zero draw). -/
theorem C72_random_SE3 (q : SO3.Quat) (hq : q ≠ 0) : ∃ g, IsRotation g ∧ moveSE3 q = SO3.leftApplyMatrix g :=
  ⟨(SO3.randomMatrix [q]).headD 1, (SO3.C04_so3 [q] (by simpa using hq)).2.2.2 _ List.mem_cons_self, rfl⟩

/-- The random element used by the E(2) modules: a sign and an angle in `[0, 2π)`. -/
theorem C72_random_E2 (u v : ℝ) (hu : 0 ≤ u) (hu' : u < 1) :
    ∃ g, O2.Valid g ∧ O2.Normalised g ∧ moveE2 u v = O2.leftApplyAngle g := by
  have := (O2.C04_o2 [u] [v] rfl (by intro x hx; cases List.mem_singleton.1 hx; exact ⟨hu, hu'⟩)).2
    ((O2.randomGrid [u] [v]).headD (1, 0)) List.mem_cons_self
  exact ⟨_, this.1, this.2, rfl⟩

/-- The random element used by the E(3) modules: a sign and a rotation matrix. -/
theorem C72_random_E3 (q : SO3.Quat) (v : ℝ) (hq : q ≠ 0) : ∃ g, O3.Valid g ∧ moveE3 q v = O3.leftApplyO3 g := by
  have := (O3.C04_o3 [q] [v] rfl (by simpa using hq)).2
    ((O3.randomGrid [q] [v]).headD fun _ => 0) List.mem_cons_self
  refine ⟨_, ⟨this.1, ?_⟩, rfl⟩
  convert this.2 using 1
  ext i j
  fin_cases i <;> fin_cases j <;> rfl

theorem liftingSE2_size {k : KernelArgs ℝ ℕ} {K} (h : KernelSE2.lifting k = .ok K) :
    K.kernelSize = [k.kernelSize, k.kernelSize] := by
  unfold KernelSE2.lifting checkGroups at h
  split at h
  · cases h
  · cases h; rfl

theorem fullSE2_size {k : KernelArgs ℝ ℕ} {K} (h : KernelSE2.full k = .ok K) :
    K.kernelSize = [k.kernelSize, k.kernelSize] := by
  obtain ⟨sa, rfl⟩ := KernelSE2.full_base h
  rfl

/-- `GLiftingConvSE2`: the layer formula with the kernel entries written out; `move` is multiplication by the
random element when `permute_output_grid` is set. -/
theorem C60_SE2 (k : KernelArgs ℝ ℕ) (c : ConvOpts) {m p} (hm : SpatialModes k.spatialMode k.spatialPad m p)
    {M : Module ℝ 2} (hM : liftingSE2 k c = .ok M) {mode : F.CPad} {ax : List Axis}
    (hgeo : HasGeometry (argsSE2 k c) mode ax) {S : List ℕ} (hS : GeomOk mode ax S) (hpos : 0 < k.inC)
    (weight : Tensor ℝ) (hw : weight.shape = [k.outC, k.inC / k.groups, k.kernelSize, k.kernelSize])
    (bias : Option (Tensor ℝ)) (hb : BiasShape bias k.outC 2) (N : ℕ) (input : Tensor ℝ)
    (hx : input.shape = N :: k.inC :: S) (H : Option (Tensor (ℝ))) (n : ℕ)
    (hH : (H.getD M.kernel.gridH).shape = [n]) (move : ℝ → ℝ) (Hc : Tensor (ℝ))
    (hHc : Hc = if c.permute then (H.getD M.kernel.gridH).map move else H.getD M.kernel.gridH) :
    ∃ w out, M.lift move weight bias input H = .ok (out, Hc) ∧
      out.shape = N :: k.outC :: n :: outDims ax S ∧
      (∀ b co h o, b < N → co < k.outC → h < n → InB (outDims ax S) o →
        out.get (b :: co :: h :: o) = Spec.liftingConv (argsSE2 k c) mode ax S input w bias b co h o) ∧
      ∀ co h ci x y, co < k.outC → h < n → ci < k.inC / k.groups → x < k.kernelSize → y < k.kernelSize →
        w.get [co, h, ci, x, y] =
          (Functional.createSphericalMaskR2 k.kernelSize).get [x, y] *
            F.sampleAt m p [k.kernelSize, k.kernelSize] (fun r => weight.get (co :: ci :: r))
              ((SO2.angleToMatrix (-Hc.get [h])).mulVec ((Functional.createGridR2 k.kernelSize).get [x, y])) := by
  obtain ⟨K, hK, hL, hMK, hMp⟩ := build_ok hM
  have hgp := groups_pos hgeo hL
  have hg0 : 0 < k.groups := Int.natCast_pos.1 hgp
  have hks : kernelDims ax = [k.kernelSize, k.kernelSize] := hgeo.kernel.symm
  have hkp : 0 < k.kernelSize := kernelDims_pos hS _ (by rw [hks]; exact List.mem_cons_self)
  rw [liftingSE2_size hK, ← hks] at hL
  have hlen : ax.length = 2 := by
    have := congrArg List.length hks
    unfold kernelDims at this
    rwa [List.length_map] at this
  have hHs : Hc.shape = [n] := by rw [hHc]; cases c.permute <;> exact hH
  
  obtain ⟨K', w, h1, h2, h3, h4⟩ := KernelSE2.C50_SE2 k hg0 hkp hm weight Hc n hw hHs
  rw [hK] at h1
  cases h1
  obtain ⟨out, o1, o2, o3⟩ := C60_lifting hgeo hL hS K weight w bias N n input Hc hHs hpos h2
    (by rw [h3, hks]; rfl) hx (by rw [hlen]; exact hb)
  refine ⟨w, out, ?_, o2, o3, h4⟩
  rw [← o1, hHc, ← hMp, ← permuteGrid_eq M.permute move (ne_nil_of_eq hH), ← hMK]
  rfl

/-- `GConvSE2`: the layer formula with the kernel entries written out. -/
theorem C61_SE2 (k : KernelArgs ℝ ℕ) (c : ConvOpts) {m p} (hm : SpatialModes k.spatialMode k.spatialPad m p)
    (wd : ℝ) (hr : KernelSE2.Ready k wd)
    {M : Module ℝ 2} (hM : fullSE2 k c = .ok M) {mode : F.CPad} {ax : List Axis}
    (hgeo : HasGeometry (argsSE2 k c) mode ax) {S : List ℕ} (hS : GeomOk mode ax S)
    (weight : Tensor ℝ) (hw : weight.shape = [(KernelSE2.grid k).shape.headD 0, k.outC, k.inC / k.groups, k.kernelSize, k.kernelSize])
    (bias : Option (Tensor ℝ)) (hb : BiasShape bias k.outC 2) (N mi n : ℕ) (input : Tensor ℝ)
    (hx : input.shape = N :: k.inC :: mi :: S) (inH : Tensor (ℝ)) (hin : inH.shape = [mi]) (H : Option (Tensor (ℝ)))
    (hH : (H.getD inH).shape = [n]) (move : ℝ → ℝ) (Hc : Tensor (ℝ))
    (hHc : Hc = if c.permute then (H.getD inH).map move else H.getD inH) :
    ∃ w out, M.groupSE move weight bias input inH H = .ok (out, Hc) ∧
      out.shape = N :: k.outC :: n :: outDims ax S ∧
      (∀ b co h o, b < N → co < k.outC → h < n → InB (outDims ax S) o →
        out.get (b :: co :: h :: o) = Spec.groupConv (argsSE2 k c) mode ax S input w bias mi b co h o) ∧
      ∀ co h ci i x y, co < k.outC → h < n → ci < k.inC / k.groups → i < mi → x < k.kernelSize → y < k.kernelSize →
        w.get [co, h, ci, i, x, y] =
          (Functional.createSphericalMaskR2 k.kernelSize).get [x, y] *
            F.sampleAt m p [k.kernelSize, k.kernelSize]
              (fun r => KernelSE2.value k wd (fun j => weight.get (j ::
                  (storedChannel k.outC (k.inC / k.groups) co ci).1 ::
                  (storedChannel k.outC (k.inC / k.groups) co ci).2 :: r))
                (SO2.leftApplyAngle (-Hc.get [h]) (inH.get [i])))
              ((SO2.angleToMatrix (-Hc.get [h])).mulVec ((Functional.createGridR2 k.kernelSize).get [x, y])) := by
  obtain ⟨K, hK, hL, hMK, hMp⟩ := build_ok hM
  have hks : kernelDims ax = [k.kernelSize, k.kernelSize] := hgeo.kernel.symm
  rw [fullSE2_size hK, ← hks] at hL
  have hlen : ax.length = 2 := by
    have := congrArg List.length hks
    unfold kernelDims at this
    rwa [List.length_map] at this
  have hHs : Hc.shape = [n] := by rw [hHc]; cases c.permute <;> exact hH
  obtain ⟨K', w, h1, h2, h3, h4⟩ := KernelSE2.C51_SE2 k wd hr hm weight inH Hc mi n hw hin hHs
  rw [hK] at h1
  cases h1
  obtain ⟨out, o1, o2, o3⟩ := C61_group hgeo hL hS K weight w bias N mi n input inH Hc hin hHs h2
    (by rw [h3, hks]; rfl) hx (by rw [hlen]; exact hb)
  refine ⟨w, out, ?_, o2, o3, h4⟩
  rw [← o1, hHc, ← hMp, ← permuteGrid_eq M.permute move (ne_nil_of_eq hH), ← hMK]
  rfl

theorem liftingSE3_size {s : GridCache.Store (Tensor ℝ)} {opt : List SO3.Euler} {k : KernelArgs SO3.Mat3 ℕ} {K} (h : KernelSE3.lifting s opt k = .ok K) :
    K.kernelSize = [k.kernelSize, k.kernelSize, k.kernelSize] ∧ ∃ gr, KernelSE3.grid s opt k = .ok gr := by
  unfold KernelSE3.lifting at h
  obtain ⟨gr, hgr, h⟩ := bind_ok h
  refine ⟨?_, gr, hgr⟩
  unfold checkGroups at h
  split at h
  · cases h
  · cases h; rfl

theorem fullSE3_size {s : GridCache.Store (Tensor ℝ)} {opt : List SO3.Euler} {k : KernelArgs SO3.Mat3 ℕ} {K} (h : KernelSE3.full s opt k = .ok K) :
    K.kernelSize = [k.kernelSize, k.kernelSize, k.kernelSize] := by
  obtain ⟨gr, sa, rfl⟩ := KernelSE3.full_base h
  rfl

/-- `GLiftingConvSE3`: the layer formula with the kernel entries written out; `move` is multiplication by the
random element when `permute_output_grid` is set. -/
theorem C60_SE3 (s : GridCache.Store (Tensor ℝ)) (opt : List SO3.Euler) (k : KernelArgs SO3.Mat3 ℕ) (c : ConvOpts) {m p} (hm : SpatialModes k.spatialMode k.spatialPad m p)
    {M : Module SO3.Mat3 3} (hM : liftingSE3 s opt k c = .ok M) {mode : F.CPad} {ax : List Axis}
    (hgeo : HasGeometry (argsSE3 k c) mode ax) {S : List ℕ} (hS : GeomOk mode ax S) (hpos : 0 < k.inC)
    (weight : Tensor ℝ) (hw : weight.shape = [k.outC, k.inC / k.groups, k.kernelSize, k.kernelSize, k.kernelSize])
    (bias : Option (Tensor ℝ)) (hb : BiasShape bias k.outC 3) (N : ℕ) (input : Tensor ℝ)
    (hx : input.shape = N :: k.inC :: S) (H : Option (Tensor (SO3.Mat3))) (n : ℕ)
    (hH : (H.getD M.kernel.gridH).shape = [n]) (move : SO3.Mat3 → SO3.Mat3) (Hc : Tensor (SO3.Mat3))
    (hHc : Hc = if c.permute then (H.getD M.kernel.gridH).map move else H.getD M.kernel.gridH) :
    ∃ w out, M.lift move weight bias input H = .ok (out, Hc) ∧
      out.shape = N :: k.outC :: n :: outDims ax S ∧
      (∀ b co h o, b < N → co < k.outC → h < n → InB (outDims ax S) o →
        out.get (b :: co :: h :: o) = Spec.liftingConv (argsSE3 k c) mode ax S input w bias b co h o) ∧
      ∀ co h ci x y z, co < k.outC → h < n → ci < k.inC / k.groups → x < k.kernelSize → y < k.kernelSize → z < k.kernelSize →
        w.get [co, h, ci, x, y, z] =
          (if k.mask then (Functional.createSphericalMaskR3 k.kernelSize).get [x, y, z] else 1) *
            F.sampleAt m p [k.kernelSize, k.kernelSize, k.kernelSize] (fun r => weight.get (co :: ci :: r))
              ((Hc.get [h]).transpose.mulVec ((Functional.createGridR3 k.kernelSize).get [x, y, z])) := by
  obtain ⟨K, hK, hL, hMK, hMp⟩ := build_ok hM
  have hgp := groups_pos hgeo hL
  have hg0 : 0 < k.groups := Int.natCast_pos.1 hgp
  have hks : kernelDims ax = [k.kernelSize, k.kernelSize, k.kernelSize] := hgeo.kernel.symm
  have hkp : 0 < k.kernelSize := kernelDims_pos hS _ (by rw [hks]; exact List.mem_cons_self)
  rw [(liftingSE3_size hK).1, ← hks] at hL
  have hlen : ax.length = 3 := by
    have := congrArg List.length hks
    unfold kernelDims at this
    rwa [List.length_map] at this
  have hHs : Hc.shape = [n] := by rw [hHc]; cases c.permute <;> exact hH
  obtain ⟨gr, hgr⟩ := (liftingSE3_size hK).2
  obtain ⟨K', w, h1, h2, h3, h4⟩ := KernelSE3.C50_SE3 s opt k gr hgr hg0 hkp hm weight Hc n hw hHs
  rw [hK] at h1
  cases h1
  obtain ⟨out, o1, o2, o3⟩ := C60_lifting hgeo hL hS K weight w bias N n input Hc hHs hpos h2
    (by rw [h3, hks]; rfl) hx (by rw [hlen]; exact hb)
  refine ⟨w, out, ?_, o2, o3, h4⟩
  rw [← o1, hHc, ← hMp, ← permuteGrid_eq M.permute move (ne_nil_of_eq hH), ← hMK]
  rfl

/-- `GConvSE3`: the layer formula with the kernel entries written out. -/
theorem C61_SE3 (s : GridCache.Store (Tensor ℝ)) (opt : List SO3.Euler) (k : KernelArgs SO3.Mat3 ℕ) (c : ConvOpts) {m p} (hm : SpatialModes k.spatialMode k.spatialPad m p)
    (gr : Tensor SO3.Mat3) (wd : ℝ) (hr : KernelSE3.Ready s opt k gr wd)
    {M : Module SO3.Mat3 3} (hM : fullSE3 s opt k c = .ok M) {mode : F.CPad} {ax : List Axis}
    (hgeo : HasGeometry (argsSE3 k c) mode ax) {S : List ℕ} (hS : GeomOk mode ax S)
    (weight : Tensor ℝ) (hw : weight.shape = [gr.shape.headD 0, k.outC, k.inC / k.groups, k.kernelSize, k.kernelSize, k.kernelSize])
    (bias : Option (Tensor ℝ)) (hb : BiasShape bias k.outC 3) (N mi n : ℕ) (input : Tensor ℝ)
    (hx : input.shape = N :: k.inC :: mi :: S) (inH : Tensor (SO3.Mat3)) (hin : inH.shape = [mi]) (H : Option (Tensor (SO3.Mat3)))
    (hH : (H.getD inH).shape = [n]) (move : SO3.Mat3 → SO3.Mat3) (Hc : Tensor (SO3.Mat3))
    (hHc : Hc = if c.permute then (H.getD inH).map move else H.getD inH) :
    ∃ w out, M.groupSE move weight bias input inH H = .ok (out, Hc) ∧
      out.shape = N :: k.outC :: n :: outDims ax S ∧
      (∀ b co h o, b < N → co < k.outC → h < n → InB (outDims ax S) o →
        out.get (b :: co :: h :: o) = Spec.groupConv (argsSE3 k c) mode ax S input w bias mi b co h o) ∧
      ∀ co h ci i x y z, co < k.outC → h < n → ci < k.inC / k.groups → i < mi → x < k.kernelSize → y < k.kernelSize → z < k.kernelSize →
        w.get [co, h, ci, i, x, y, z] =
          (if k.mask then (Functional.createSphericalMaskR3 k.kernelSize).get [x, y, z] else 1) *
            F.sampleAt m p [k.kernelSize, k.kernelSize, k.kernelSize]
              (fun r => KernelSE3.value k gr wd (fun j => weight.get (j ::
                  (storedChannel k.outC (k.inC / k.groups) co ci).1 ::
                  (storedChannel k.outC (k.inC / k.groups) co ci).2 :: r))
                ((Hc.get [h]).transpose * inH.get [i]))
              ((Hc.get [h]).transpose.mulVec ((Functional.createGridR3 k.kernelSize).get [x, y, z])) := by
  obtain ⟨K, hK, hL, hMK, hMp⟩ := build_ok hM
  have hks : kernelDims ax = [k.kernelSize, k.kernelSize, k.kernelSize] := hgeo.kernel.symm
  rw [fullSE3_size hK, ← hks] at hL
  have hlen : ax.length = 3 := by
    have := congrArg List.length hks
    unfold kernelDims at this
    rwa [List.length_map] at this
  have hHs : Hc.shape = [n] := by rw [hHc]; cases c.permute <;> exact hH
  obtain ⟨K', w, h1, h2, h3, h4⟩ := KernelSE3.C51_SE3 s opt k gr wd hr hm weight inH Hc mi n hw hin hHs
  rw [hK] at h1
  cases h1
  obtain ⟨out, o1, o2, o3⟩ := C61_group hgeo hL hS K weight w bias N mi n input inH Hc hin hHs h2
    (by rw [h3, hks]; rfl) hx (by rw [hlen]; exact hb)
  refine ⟨w, out, ?_, o2, o3, h4⟩
  rw [← o1, hHc, ← hMp, ← permuteGrid_eq M.permute move (ne_nil_of_eq hH), ← hMK]
  rfl

theorem liftingE2_size {k : KernelArgs O2.Elt SizeArg} {K} (h : KernelE2.lifting k = .ok K) :
    K.kernelSize = [k.kernelSize, k.kernelSize] := by
  unfold KernelE2.lifting checkGroups at h
  split at h
  · cases h
  · cases h; rfl

theorem fullE2_size {k : KernelArgs O2.Elt SizeArg} {K} (h : KernelE2.full k = .ok K) :
    K.kernelSize = [k.kernelSize, k.kernelSize] := by
  obtain ⟨sa, rfl⟩ := KernelE2.full_base h
  rfl

/-- `GLiftingConvE2`: the layer formula with the kernel entries written out; `move` is multiplication by the
random element when `permute_output_grid` is set. -/
theorem C60_E2 (k : KernelArgs O2.Elt SizeArg) (c : ConvOpts) {m p} (hm : SpatialModes k.spatialMode k.spatialPad m p)
    {M : Module O2.Elt 2} (hM : liftingE2 k c = .ok M) {mode : F.CPad} {ax : List Axis}
    (hgeo : HasGeometry (argsE2 k c) mode ax) {S : List ℕ} (hS : GeomOk mode ax S) (hpos : 0 < k.inC)
    (weight : Tensor ℝ) (hw : weight.shape = [k.outC, k.inC / k.groups, k.kernelSize, k.kernelSize])
    (bias : Option (Tensor ℝ)) (hb : BiasShape bias k.outC 2) (N : ℕ) (input : Tensor ℝ)
    (hx : input.shape = N :: k.inC :: S) (H : Option (Tensor (O2.Elt))) (n : ℕ)
    (hH : (H.getD M.kernel.gridH).shape = [n]) (move : O2.Elt → O2.Elt) (Hc : Tensor (O2.Elt))
    (hHc : Hc = if c.permute then (H.getD M.kernel.gridH).map move else H.getD M.kernel.gridH) :
    ∃ w out, M.lift move weight bias input H = .ok (out, Hc) ∧
      out.shape = N :: k.outC :: n :: outDims ax S ∧
      (∀ b co h o, b < N → co < k.outC → h < n → InB (outDims ax S) o →
        out.get (b :: co :: h :: o) = Spec.liftingConv (argsE2 k c) mode ax S input w bias b co h o) ∧
      ∀ co h ci x y, co < k.outC → h < n → ci < k.inC / k.groups → x < k.kernelSize → y < k.kernelSize →
        w.get [co, h, ci, x, y] =
          (if k.mask then (Functional.createSphericalMaskR2 k.kernelSize).get [x, y] else 1) *
            F.sampleAt m p [k.kernelSize, k.kernelSize] (fun r => weight.get (co :: ci :: r))
              ((Hc.get [h]).1 • (SO2.angleToMatrix (-(Hc.get [h]).2)).mulVec ((Functional.createGridR2 k.kernelSize).get [x, y])) / (Hc.get [h]).1 := by
  obtain ⟨K, hK, hL, hMK, hMp⟩ := build_ok hM
  have hgp := groups_pos hgeo hL
  have hg0 : 0 < k.groups := Int.natCast_pos.1 hgp
  have hks : kernelDims ax = [k.kernelSize, k.kernelSize] := hgeo.kernel.symm
  have hkp : 0 < k.kernelSize := kernelDims_pos hS _ (by rw [hks]; exact List.mem_cons_self)
  rw [liftingE2_size hK, ← hks] at hL
  have hlen : ax.length = 2 := by
    have := congrArg List.length hks
    unfold kernelDims at this
    rwa [List.length_map] at this
  have hHs : Hc.shape = [n] := by rw [hHc]; cases c.permute <;> exact hH
  
  obtain ⟨K', w, h1, h2, h3, h4⟩ := KernelE2.C50_E2 k hg0 hkp hm weight Hc n hw hHs
  rw [hK] at h1
  cases h1
  obtain ⟨out, o1, o2, o3⟩ := C60_lifting hgeo hL hS K weight w bias N n input Hc hHs hpos h2
    (by rw [h3, hks]; rfl) hx (by rw [hlen]; exact hb)
  refine ⟨w, out, ?_, o2, o3, h4⟩
  rw [← o1, hHc, ← hMp, ← permuteGrid_eq M.permute move (ne_nil_of_eq hH), ← hMK]
  rfl

/-- `GConvE2`: the layer formula with the kernel entries written out. -/
theorem C61_E2 (k : KernelArgs O2.Elt SizeArg) (c : ConvOpts) {m p} (hm : SpatialModes k.spatialMode k.spatialPad m p)
    (wr wf : ℝ) (hr : KernelE2.Ready k wr wf)
    {M : Module O2.Elt 2} (hM : fullE2 k c = .ok M) {mode : F.CPad} {ax : List Axis}
    (hgeo : HasGeometry (argsE2 k c) mode ax) {S : List ℕ} (hS : GeomOk mode ax S)
    (weight : Tensor ℝ) (hw : weight.shape = [KernelE2.nRot k + KernelE2.nRef k, k.outC, k.inC / k.groups, k.kernelSize, k.kernelSize])
    (bias : Option (Tensor ℝ)) (hb : BiasShape bias k.outC 2) (N mi n : ℕ) (input : Tensor ℝ)
    (hx : input.shape = N :: k.inC :: mi :: S) (inH : Tensor (O2.Elt)) (hin : inH.shape = [mi]) (H : Option (Tensor (O2.Elt)))
    (hH : (H.getD M.kernel.gridH).shape = [n]) (move : O2.Elt → O2.Elt) (Hc : Tensor (O2.Elt))
    (hHc : Hc = if c.permute then (H.getD M.kernel.gridH).map move else H.getD M.kernel.gridH)
    (hp : ∀ h < n, ∀ i < mi, KernelE2.Pair k (Hc.get [h]) (inH.get [i])) :
    ∃ w out, M.groupE move weight bias input inH H = .ok (out, Hc) ∧
      out.shape = N :: k.outC :: n :: outDims ax S ∧
      (∀ b co h o, b < N → co < k.outC → h < n → InB (outDims ax S) o →
        out.get (b :: co :: h :: o) = Spec.groupConv (argsE2 k c) mode ax S input w bias mi b co h o) ∧
      ∀ co h ci i x y, co < k.outC → h < n → ci < k.inC / k.groups → i < mi → x < k.kernelSize → y < k.kernelSize →
        w.get [co, h, ci, i, x, y] =
          (if k.mask then (Functional.createSphericalMaskR2 k.kernelSize).get [x, y] else 1) *
            F.sampleAt m p [k.kernelSize, k.kernelSize]
              (fun r => KernelE2.value k wr wf (fun j => weight.get (j ::
                  (storedChannel k.outC (k.inC / k.groups) co ci).1 ::
                  (storedChannel k.outC (k.inC / k.groups) co ci).2 :: r))
                (O2.leftApplyAngle (O2.inverse (Hc.get [h])) (inH.get [i])))
              ((Hc.get [h]).1 • (SO2.angleToMatrix (-(Hc.get [h]).2)).mulVec ((Functional.createGridR2 k.kernelSize).get [x, y])) / (Hc.get [h]).1 := by
  obtain ⟨K, hK, hL, hMK, hMp⟩ := build_ok hM
  have hks : kernelDims ax = [k.kernelSize, k.kernelSize] := hgeo.kernel.symm
  rw [fullE2_size hK, ← hks] at hL
  have hlen : ax.length = 2 := by
    have := congrArg List.length hks
    unfold kernelDims at this
    rwa [List.length_map] at this
  have hHs : Hc.shape = [n] := by rw [hHc]; cases c.permute <;> exact hH
  obtain ⟨K', w, h1, h2, h3, h4⟩ := KernelE2.C51_E2 k wr wf hr hm weight inH Hc mi n hw hin hHs hp
  rw [hK] at h1
  cases h1
  obtain ⟨out, o1, o2, o3⟩ := C61_group hgeo hL hS K weight w bias N mi n input inH Hc hin hHs h2
    (by rw [h3, hks]; rfl) hx (by rw [hlen]; exact hb)
  refine ⟨w, out, ?_, o2, o3, h4⟩
  rw [← o1, hHc, ← hMp, ← permuteGrid_eq M.permute move (ne_nil_of_eq hH), ← hMK]
  rfl

theorem liftingE3_size {s : GridCache.Store (Tensor ℝ)} {opt1 opt2 : List SO3.Euler} {k : KernelArgs O3.Elt SizeArg} {K} (h : KernelE3.lifting s opt1 opt2 k = .ok K) :
    K.kernelSize = [k.kernelSize, k.kernelSize, k.kernelSize] ∧ ∃ gr, KernelE3.grid s opt1 opt2 k = .ok gr := by
  unfold KernelE3.lifting at h
  obtain ⟨gr, hgr, h⟩ := bind_ok h
  refine ⟨?_, gr, hgr⟩
  unfold checkGroups at h
  split at h
  · cases h
  · cases h; rfl

theorem fullE3_size {s : GridCache.Store (Tensor ℝ)} {opt1 opt2 : List SO3.Euler} {k : KernelArgs O3.Elt SizeArg} {K} (h : KernelE3.full s opt1 opt2 k = .ok K) :
    K.kernelSize = [k.kernelSize, k.kernelSize, k.kernelSize] := by
  obtain ⟨gr, sa, rfl⟩ := KernelE3.full_base h
  rfl

/-- `GLiftingConvE3`: the layer formula with the kernel entries written out; `move` is multiplication by the
random element when `permute_output_grid` is set. -/
theorem C60_E3 (s : GridCache.Store (Tensor ℝ)) (opt1 opt2 : List SO3.Euler) (k : KernelArgs O3.Elt SizeArg) (c : ConvOpts) {m p} (hm : SpatialModes k.spatialMode k.spatialPad m p)
    {M : Module O3.Elt 3} (hM : liftingE3 s opt1 opt2 k c = .ok M) {mode : F.CPad} {ax : List Axis}
    (hgeo : HasGeometry (argsE3 k c) mode ax) {S : List ℕ} (hS : GeomOk mode ax S) (hpos : 0 < k.inC)
    (weight : Tensor ℝ) (hw : weight.shape = [k.outC, k.inC / k.groups, k.kernelSize, k.kernelSize, k.kernelSize])
    (bias : Option (Tensor ℝ)) (hb : BiasShape bias k.outC 3) (N : ℕ) (input : Tensor ℝ)
    (hx : input.shape = N :: k.inC :: S) (H : Option (Tensor (O3.Elt))) (n : ℕ)
    (hH : (H.getD M.kernel.gridH).shape = [n]) (move : O3.Elt → O3.Elt) (Hc : Tensor (O3.Elt))
    (hHc : Hc = if c.permute then (H.getD M.kernel.gridH).map move else H.getD M.kernel.gridH) :
    ∃ w out, M.lift move weight bias input H = .ok (out, Hc) ∧
      out.shape = N :: k.outC :: n :: outDims ax S ∧
      (∀ b co h o, b < N → co < k.outC → h < n → InB (outDims ax S) o →
        out.get (b :: co :: h :: o) = Spec.liftingConv (argsE3 k c) mode ax S input w bias b co h o) ∧
      ∀ co h ci x y z, co < k.outC → h < n → ci < k.inC / k.groups → x < k.kernelSize → y < k.kernelSize → z < k.kernelSize →
        w.get [co, h, ci, x, y, z] =
          (if k.mask then (Functional.createSphericalMaskR3 k.kernelSize).get [x, y, z] else 1) *
            F.sampleAt m p [k.kernelSize, k.kernelSize, k.kernelSize] (fun r => weight.get (co :: ci :: r))
              (O3.coef (Hc.get [h]) • (O3.rot (Hc.get [h])).transpose.mulVec ((Functional.createGridR3 k.kernelSize).get [x, y, z])) / O3.coef (Hc.get [h]) := by
  obtain ⟨K, hK, hL, hMK, hMp⟩ := build_ok hM
  have hgp := groups_pos hgeo hL
  have hg0 : 0 < k.groups := Int.natCast_pos.1 hgp
  have hks : kernelDims ax = [k.kernelSize, k.kernelSize, k.kernelSize] := hgeo.kernel.symm
  have hkp : 0 < k.kernelSize := kernelDims_pos hS _ (by rw [hks]; exact List.mem_cons_self)
  rw [(liftingE3_size hK).1, ← hks] at hL
  have hlen : ax.length = 3 := by
    have := congrArg List.length hks
    unfold kernelDims at this
    rwa [List.length_map] at this
  have hHs : Hc.shape = [n] := by rw [hHc]; cases c.permute <;> exact hH
  obtain ⟨gr, hgr⟩ := (liftingE3_size hK).2
  obtain ⟨K', w, h1, h2, h3, h4⟩ := KernelE3.C50_E3 s opt1 opt2 k gr hgr hg0 hkp hm weight Hc n hw hHs
  rw [hK] at h1
  cases h1
  obtain ⟨out, o1, o2, o3⟩ := C60_lifting hgeo hL hS K weight w bias N n input Hc hHs hpos h2
    (by rw [h3, hks]; rfl) hx (by rw [hlen]; exact hb)
  refine ⟨w, out, ?_, o2, o3, h4⟩
  rw [← o1, hHc, ← hMp, ← permuteGrid_eq M.permute move (ne_nil_of_eq hH), ← hMK]
  rfl

/-- `GConvE3`: the layer formula with the kernel entries written out. -/
theorem C61_E3 (s : GridCache.Store (Tensor ℝ)) (opt1 opt2 : List SO3.Euler) (k : KernelArgs O3.Elt SizeArg) (c : ConvOpts) {m p} (hm : SpatialModes k.spatialMode k.spatialPad m p)
    (gr : Tensor O3.Elt) (wr wf : ℝ) (hr : KernelE3.Ready s opt1 opt2 k gr wr wf)
    {M : Module O3.Elt 3} (hM : fullE3 s opt1 opt2 k c = .ok M) {mode : F.CPad} {ax : List Axis}
    (hgeo : HasGeometry (argsE3 k c) mode ax) {S : List ℕ} (hS : GeomOk mode ax S)
    (weight : Tensor ℝ) (hw : weight.shape = [KernelE3.nRot k + KernelE3.nRef k, k.outC, k.inC / k.groups, k.kernelSize, k.kernelSize, k.kernelSize])
    (bias : Option (Tensor ℝ)) (hb : BiasShape bias k.outC 3) (N mi n : ℕ) (input : Tensor ℝ)
    (hx : input.shape = N :: k.inC :: mi :: S) (inH : Tensor (O3.Elt)) (hin : inH.shape = [mi]) (H : Option (Tensor (O3.Elt)))
    (hH : (H.getD M.kernel.gridH).shape = [n]) (move : O3.Elt → O3.Elt) (Hc : Tensor (O3.Elt))
    (hHc : Hc = if c.permute then (H.getD M.kernel.gridH).map move else H.getD M.kernel.gridH)
    (hp : ∀ h < n, ∀ i < mi, KernelE3.Pair k (Hc.get [h]) (inH.get [i])) :
    ∃ w out, M.groupE move weight bias input inH H = .ok (out, Hc) ∧
      out.shape = N :: k.outC :: n :: outDims ax S ∧
      (∀ b co h o, b < N → co < k.outC → h < n → InB (outDims ax S) o →
        out.get (b :: co :: h :: o) = Spec.groupConv (argsE3 k c) mode ax S input w bias mi b co h o) ∧
      ∀ co h ci i x y z, co < k.outC → h < n → ci < k.inC / k.groups → i < mi → x < k.kernelSize → y < k.kernelSize → z < k.kernelSize →
        w.get [co, h, ci, i, x, y, z] =
          (if k.mask then (Functional.createSphericalMaskR3 k.kernelSize).get [x, y, z] else 1) *
            F.sampleAt m p [k.kernelSize, k.kernelSize, k.kernelSize]
              (fun r => KernelE3.value k gr wr wf (fun j => weight.get (j ::
                  (storedChannel k.outC (k.inC / k.groups) co ci).1 ::
                  (storedChannel k.outC (k.inC / k.groups) co ci).2 :: r))
                (O3.leftApplyO3 (O3.inverse (Hc.get [h])) (inH.get [i])))
              (O3.coef (Hc.get [h]) • (O3.rot (Hc.get [h])).transpose.mulVec ((Functional.createGridR3 k.kernelSize).get [x, y, z])) / O3.coef (Hc.get [h]) := by
  obtain ⟨K, hK, hL, hMK, hMp⟩ := build_ok hM
  have hks : kernelDims ax = [k.kernelSize, k.kernelSize, k.kernelSize] := hgeo.kernel.symm
  rw [fullE3_size hK, ← hks] at hL
  have hlen : ax.length = 3 := by
    have := congrArg List.length hks
    unfold kernelDims at this
    rwa [List.length_map] at this
  have hHs : Hc.shape = [n] := by rw [hHc]; cases c.permute <;> exact hH
  obtain ⟨K', w, h1, h2, h3, h4⟩ := KernelE3.C51_E3 s opt1 opt2 k gr wr wf hr hm weight inH Hc mi n hw hin hHs hp
  rw [hK] at h1
  cases h1
  obtain ⟨out, o1, o2, o3⟩ := C61_group hgeo hL hS K weight w bias N mi n input inH Hc hin hHs h2
    (by rw [h3, hks]; rfl) hx (by rw [hlen]; exact hb)
  refine ⟨w, out, ?_, o2, o3, h4⟩
  rw [← o1, hHc, ← hMp, ← permuteGrid_eq M.permute move (ne_nil_of_eq hH), ← hMK]
  rfl

/-! ## A concrete module: `GLiftingConvSE2(4, 6, 5, groups=2, padding='same', padding_mode='circular')` and the
corresponding `GConvSE2`, on 9 x 8 images -/

/-- layer options of the example. -/
def exOpts : ConvOpts := { padding := .str "same", paddingMode := "circular", permute := true }

theorem ex_geometry (n : ℕ) : HasGeometry (argsSE2 (KernelSE2.exArgs n) exOpts) .circular (List.replicate 2 (sameAxis 5 1)) ∧
    GeomOk .circular (List.replicate 2 (sameAxis 5 1)) [9, 8] ∧ outDims (List.replicate 2 (sameAxis 5 1)) [9, 8] = [9, 8] := by
  obtain ⟨h1, -, h3, h4⟩ := C59_same_geometry 2 4 6 5 1 (.int n) 2 "circular" .circular (Or.inr (Or.inr (Or.inr ⟨rfl, rfl⟩)))
    (by norm_num) (by norm_num) [9, 8] rfl (by simp [F.padAllowed])
  exact ⟨h1 rfl, h3, h4⟩

theorem ex_accepted (n : ℕ) : Accepted (argsSE2 (KernelSE2.exArgs n) exOpts) := by
  refine ⟨fun l h => (by cases h), (by decide : (0 : ℤ) < 2), (by decide : (2 : ℤ) ∣ (4 : ℕ)), (by decide : (2 : ℤ) ∣ (6 : ℕ)), fun s h => ?_, Or.inr (Or.inr (Or.inr rfl)), Or.inl rfl⟩
  cases h
  refine Or.inr ⟨rfl, fun l h x hx => ?_⟩
  cases h
  exact (List.mem_replicate.1 hx).2

theorem ex_lifting (n : ℕ) : ∃ M, liftingSE2 (KernelSE2.exArgs n) exOpts = .ok M := by
  obtain ⟨L, hL⟩ := (C58_accepts _ _ _ [5, 5] rfl rfl).2 (ex_accepted n)
  refine ⟨⟨L, KernelSE2.base (KernelSE2.exArgs n) noSampler, true⟩, ?_⟩
  show (do
    let L ← init (argsSE2 (KernelSE2.exArgs n) exOpts) [5, 5]
    pure (⟨L, KernelSE2.base (KernelSE2.exArgs n) noSampler, true⟩ : Module ℝ 2)) = _
  rw [hL, ok_bind]
  rfl

theorem ex_full (n : ℕ) (hn : 0 < n) : ∃ M, fullSE2 (KernelSE2.exArgs n) exOpts = .ok M := by
  obtain ⟨L, hL⟩ := (C58_accepts _ _ _ [5, 5] rfl rfl).2 (ex_accepted n)
  unfold fullSE2 build
  rw [KernelSE2.full_eq (KernelSE2.exReady n hn), ok_bind]
  have : ∀ s, (KernelSE2.base (KernelSE2.exArgs n) s).kernelSize = [5, 5] := fun _ => rfl
  rw [this, hL, ok_bind]
  exact ⟨_, rfl⟩

example (n : ℕ) (weight : Tensor ℝ) (hw : weight.shape = [6, 2, 5, 5]) (input : Tensor ℝ) (hx : input.shape = [3, 4, 9, 8]) (u : ℝ) :
    ∃ M out H, liftingSE2 (KernelSE2.exArgs n) exOpts = .ok M ∧ M.lift (moveSE2 u) weight none input none = .ok (out, H) ∧
      out.shape = [3, 6, n, 9, 8] := by
  obtain ⟨M, hM⟩ := ex_lifting n
  obtain ⟨h1, h2, h3⟩ := ex_geometry n
  obtain ⟨K, hK, -, hMK, -⟩ := build_ok hM
  have hgr : M.kernel.gridH.shape = [n] := by
    have : K = KernelSE2.base (KernelSE2.exArgs n) noSampler := by
      have e : KernelSE2.lifting (KernelSE2.exArgs n) = .ok (KernelSE2.base (KernelSE2.exArgs n) noSampler) := by
        unfold KernelSE2.lifting checkGroups; rw [if_neg (by norm_num [KernelSE2.exArgs])]
      rw [e] at hK; cases hK; rfl
    rw [hMK, this]
    show [(SO2.uniformGrid n).length] = [n]
    rw [SO2.C03_length]
  have hw' : weight.shape = [(KernelSE2.exArgs n).outC, (KernelSE2.exArgs n).inC / (KernelSE2.exArgs n).groups,
      (KernelSE2.exArgs n).kernelSize, (KernelSE2.exArgs n).kernelSize] := by rw [hw]; simp [KernelSE2.exArgs]
  obtain ⟨w, out, o1, o2, -⟩ := C60_SE2 _ _ defaultModes hM h1 h2 (by norm_num [KernelSE2.exArgs]) weight hw' none
    (by intro b hb; cases hb) 3 input hx none n hgr (moveSE2 u) _ rfl
  refine ⟨M, out, _, hM, o1, ?_⟩
  rw [o2, h3]
  rfl

/-! ## C60, C61: the geometry is the one the user asked for

In `C60_*`, `C61_*` and `C62_*` the geometry `ax` is any one with `HasGeometry`; these theorems say which one that is in
terms of the arguments of the module. -/

/-- what the arguments of the 2d (`nd = 2`) and 3d classes ask for: on every spatial axis the given kernel extent,
stride and dilation, and the given padding. -/
def AsksFor (nd k stride dil : ℕ) (padding : PadArg) (padName : String) (mode : F.CPad) (ax : List Axis) : Prop :=
  ax.length = nd ∧ (∀ a ∈ ax, a.k = k ∧ a.stride = stride ∧ a.dil = dil) ∧ PadsAs padding ax ∧ PadModeName padName mode

theorem replicate_map {nd v : ℕ} {ax : List Axis} {f : Axis → ℕ} :
    List.replicate nd v = ax.map f ↔ ax.length = nd ∧ ∀ a ∈ ax, f a = v := by
  rw [eq_comm, List.eq_replicate_iff]
  simp

theorem geometry_Nd {convMode : String} {nd : ℕ} (hc : convMode = "2d" ∧ nd = 2 ∨ convMode = "3d" ∧ nd = 3)
    (inC outC k : ℕ) (gks : GroupSize) (groups : ℤ) (stride : ℕ)
    (padding : PadArg) (dil : ℕ) (padName : String) (mode : F.CPad) (ax : List Axis) :
    HasGeometry (argsNd convMode nd inC outC k gks groups stride padding dil padName) mode ax ↔
      AsksFor nd k stride dil padding padName mode ax := by
  constructor
  · rintro ⟨h1, h2, h3, h4, h5, h6⟩
    obtain ⟨l, h2⟩ := replicate_map.1 (show List.replicate nd k = ax.map Axis.k from h2)
    have h3 := (replicate_map.1 (Dims.tuple.inj (show Dims.tuple (List.replicate nd stride) = _ from h3))).2
    have h4 := (replicate_map.1 (Dims.tuple.inj (show Dims.tuple (List.replicate nd dil) = _ from h4))).2
    exact ⟨l, fun a ha => ⟨h2 a ha, h3 a ha, h4 a ha⟩, h5, h6⟩
  · rintro ⟨l, h, h5, h6⟩
    refine ⟨?_, ?_, ?_, ?_, h5, h6⟩
    · rcases hc with ⟨rfl, rfl⟩ | ⟨rfl, rfl⟩
      · exact Or.inl ⟨rfl, l⟩
      · exact Or.inr ⟨rfl, l⟩
    · exact replicate_map.2 ⟨l, fun a ha => (h a ha).1⟩
    · exact congrArg Dims.tuple (replicate_map.2 ⟨l, fun a ha => (h a ha).2.1⟩)
    · exact congrArg Dims.tuple (replicate_map.2 ⟨l, fun a ha => (h a ha).2.2⟩)

theorem C60_geometry_2d (inC outC k : ℕ) (gks : GroupSize) (groups : ℤ) (stride : ℕ) (padding : PadArg) (dil : ℕ)
    (padName : String) (mode : F.CPad) (ax : List Axis) :
    let a := args2d inC outC k gks groups stride padding dil padName
    (HasGeometry a mode ax ↔ AsksFor 2 k stride dil padding padName mode ax) ∧
      a.inC = inC ∧ a.outC = outC ∧ a.groups = groups :=
  ⟨geometry_Nd (Or.inl ⟨rfl, rfl⟩) .., rfl, rfl, rfl⟩

theorem C60_geometry_3d (inC outC k : ℕ) (gks : GroupSize) (groups : ℤ) (stride : ℕ) (padding : PadArg) (dil : ℕ)
    (padName : String) (mode : F.CPad) (ax : List Axis) :
    let a := args3d inC outC k gks groups stride padding dil padName
    (HasGeometry a mode ax ↔ AsksFor 3 k stride dil padding padName mode ax) ∧
      a.inC = inC ∧ a.outC = outC ∧ a.groups = groups :=
  ⟨geometry_Nd (Or.inr ⟨rfl, rfl⟩) .., rfl, rfl, rfl⟩

theorem C60_geometry_SE2 (k : KernelArgs ℝ ℕ) (c : ConvOpts) (mode : F.CPad) (ax : List Axis) :
    (HasGeometry (argsSE2 k c) mode ax ↔ AsksFor 2 k.kernelSize c.stride c.dilation c.padding c.paddingMode mode ax) ∧
      (argsSE2 k c).inC = k.inC ∧ (argsSE2 k c).outC = k.outC ∧ (argsSE2 k c).groups = k.groups :=
  C60_geometry_2d ..

theorem C60_geometry_E2 (k : KernelArgs O2.Elt SizeArg) (c : ConvOpts) (mode : F.CPad) (ax : List Axis) :
    (HasGeometry (argsE2 k c) mode ax ↔ AsksFor 2 k.kernelSize c.stride c.dilation c.padding c.paddingMode mode ax) ∧
      (argsE2 k c).inC = k.inC ∧ (argsE2 k c).outC = k.outC ∧ (argsE2 k c).groups = k.groups :=
  C60_geometry_2d ..

theorem C60_geometry_SE3 (k : KernelArgs SO3.Mat3 ℕ) (c : ConvOpts) (mode : F.CPad) (ax : List Axis) :
    (HasGeometry (argsSE3 k c) mode ax ↔ AsksFor 3 k.kernelSize c.stride c.dilation c.padding c.paddingMode mode ax) ∧
      (argsSE3 k c).inC = k.inC ∧ (argsSE3 k c).outC = k.outC ∧ (argsSE3 k c).groups = k.groups :=
  C60_geometry_3d ..

theorem C60_geometry_E3 (k : KernelArgs O3.Elt SizeArg) (c : ConvOpts) (mode : F.CPad) (ax : List Axis) :
    (HasGeometry (argsE3 k c) mode ax ↔ AsksFor 3 k.kernelSize c.stride c.dilation c.padding c.paddingMode mode ax) ∧
      (argsE3 k c).inC = k.inC ∧ (argsE3 k c).outC = k.outC ∧ (argsE3 k c).groups = k.groups :=
  C60_geometry_3d ..

/-- an integer padding: exactly one geometry. -/
theorem C61_geometry_int (nd k stride dil p : ℕ) (padName : String) (mode : F.CPad) (hn : PadModeName padName mode)
    (ax : List Axis) :
    AsksFor nd k stride dil (.int p) padName mode ax ↔ ax = List.replicate nd ⟨k, stride, dil, p, p⟩ := by
  rw [List.eq_replicate_iff]
  constructor
  · rintro ⟨l, h, hp, -⟩
    refine ⟨l, fun a ha => ?_⟩
    obtain ⟨h1, h2, h3⟩ := h a ha
    obtain ⟨h4, h5⟩ := hp a ha
    cases a
    simp only at h1 h2 h3 h4 h5
    rw [h1, h2, h3, h4, h5]
  · rintro ⟨l, h⟩
    exact ⟨l, fun a ha => by rw [h a ha]; exact ⟨rfl, rfl, rfl⟩, fun a ha => by rw [h a ha]; exact ⟨rfl, rfl⟩, hn⟩

end GConv.Conv

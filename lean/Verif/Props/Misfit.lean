import Verif.Props.Modules
import Verif.Lemmas.ConvOk

/-! # C96: inputs that do not fit are rejected

`Fits` is the documented shape of an input: batch, the channels of the layer, (for group layers) the elements of `in_H`, and
spatial extents on which the padded convolution is defined. -/
namespace GConv.Conv

open Tensor Spec GroupKernel

variable {G : Type} {d : ℕ}

/-- The input has the documented shape `(N, in_channels, *S)` of a lifting layer. -/
def FitsLift (a : Args) (mode : F.CPad) (ax : List Axis) (input : Tensor ℝ) : Prop :=
  ∃ N S, input.shape = N :: a.inC :: S ∧ GeomOk mode ax S

/-- The input has the documented shape `(N, in_channels, |in_H|, *S)` of a group or separable layer. -/
def FitsGroup (a : Args) (mode : F.CPad) (ax : List Axis) (inH : Tensor G) (input : Tensor ℝ) : Prop :=
  ∃ N m S, inH.shape = [m] ∧ input.shape = N :: a.inC :: m :: S ∧ GeomOk mode ax S

theorem viewInfer_shape {w w' : Tensor ℝ} {post : List ℕ} (h : w.viewInfer [] post = .ok w') : ∃ c, w'.shape = c :: post := by
  unfold viewInfer at h
  dsimp only at h
  split at h
  · cases h
  · unfold view at h
    split at h
    · cases h; exact ⟨_, rfl⟩
    · cases h

theorem view_prod {x y : Tensor ℝ} {s : List ℕ} (h : x.view s = .ok y) : x.shape.prod = s.prod ∧ y.shape = s := by
  unfold view at h
  split at h
  · cases h; exact ⟨by assumption, rfl⟩
  · cases h

theorem padAxes_length {mode : F.CPad} {x y : Tensor ℝ} {ps : List (ℕ × ℕ)} (h : F.padAxes mode x ps = .ok y) :
    y.shape.length = x.shape.length := by
  rcases hx : x.shape with _ | ⟨N, _ | ⟨C, S⟩⟩
  · unfold F.padAxes at h; rw [hx] at h; cases h
  · unfold F.padAxes at h; rw [hx] at h; cases h
  · obtain ⟨h1, -, h3⟩ := padAxes_ok hx h
    rw [h3]; simp [h1]

theorem convValid_length {x w z : Tensor ℝ} {st dil : List ℕ} {g : ℕ} (h : F.convValid x w st dil g = .ok z) :
    x.shape.length = w.shape.length := by
  rcases hx : x.shape with _ | ⟨N, _ | ⟨C, S⟩⟩
  · unfold F.convValid at h; rw [hx] at h; cases h
  · unfold F.convValid at h; rw [hx] at h; cases h
  · rcases hw : w.shape with _ | ⟨A, _ | ⟨B, T⟩⟩
    · unfold F.convValid at h; rw [hx, hw] at h; cases h
    · unfold F.convValid at h; rw [hx, hw] at h; cases h
    · have := (convValid_ok hx hw h).1
      simp [this]

theorem conv_length {x w z : Tensor ℝ} {st dil : List ℕ} {p : F.ConvPad} {g : ℕ} (h : F.conv x w st p dil g = .ok z) :
    x.shape.length = w.shape.length := by
  have hb : ∀ ps, (F.padAxes .zeros x ps >>= fun y => F.convValid y w st dil g) = .ok z → x.shape.length = w.shape.length := by
    intro ps h
    obtain ⟨y, hy, h⟩ := bind_ok h
    rw [← padAxes_length hy, convValid_length h]
  unfold F.conv at h
  cases p with
  | valid => exact convValid_length h
  | same =>
    dsimp only at h
    split at h
    · exact hb _ h
    · cases h
  | amounts l => exact hb _ h

theorem convBatched_length {L : Layer} {x w z : Tensor ℝ} {g : ℕ} (h : L.convBatched x w g = .ok z) :
    x.shape.length = w.shape.length := by
  unfold Layer.convBatched at h
  split at h
  · obtain ⟨m, -, h⟩ := bind_ok h
    obtain ⟨y, hy, h⟩ := bind_ok h
    unfold F.pad at hy
    rw [← padAxes_length hy, conv_length h]
  · obtain ⟨m, -, h⟩ := bind_ok h
    exact conv_length h

/-- A lifting layer returns a result for a batched input only if the input fits. This holds for every kernel, weight and
grid. -/
theorem C96_lifting_rejects {a : Args} {mode : F.CPad} {ax : List Axis} (hgeo : HasGeometry a mode ax) {L : Layer}
    (hL : init a (kernelDims ax) = .ok L) (K : GroupKernel G d) (weight : Tensor ℝ) (bias : Option (Tensor ℝ))
    (input : Tensor ℝ) (H : Tensor G) (hlen : input.shape.length = ax.length + 2) (out : Tensor ℝ × Tensor G)
    (h : L.liftingForward K weight bias input H = .ok out) : FitsLift a mode ax input := by
  obtain ⟨f1, f2, f3, f4, f5, f6, f7⟩ := init_fields hgeo hL
  have hlg := layerGeom_of_init hgeo hL
  rcases hs : input.shape with _ | ⟨N, _ | ⟨C, S⟩⟩
  · rw [hs] at hlen; simp at hlen
  · rw [hs] at hlen; simp at hlen
  unfold Layer.liftingForward at h
  rw [hs] at h
  dsimp only at h
  obtain ⟨w, -, h⟩ := bind_ok h
  unfold Layer.liftingConv at h
  obtain ⟨w', hw', h⟩ := bind_ok h
  obtain ⟨z, hz, -⟩ := bind_ok h
  obtain ⟨c, hc⟩ := viewInfer_shape hw'
  rw [f1, f4] at hc
  have hl : S.length = ax.length := by rw [hs] at hlen; simpa using hlen
  obtain ⟨g1, g2, g3, -⟩ := convForward_ok hlg hl hs hc hz
  refine ⟨N, S, ?_, g1⟩
  rw [hs, g2, Nat.div_mul_cancel f5]

/-- … and then it does return a result (with a kernel that can be sampled on the grid): a batched input is accepted exactly
if it fits. -/
theorem C96_lifting {a : Args} {mode : F.CPad} {ax : List Axis} (hgeo : HasGeometry a mode ax) {L : Layer}
    (hL : init a (kernelDims ax) = .ok L) (K : GroupKernel G d)
    (weight w : Tensor ℝ) (bias : Option (Tensor ℝ)) (n : ℕ) (input : Tensor ℝ) (H : Tensor G)
    (hH : H.shape = [n]) (hpos : 0 < a.inC) (hK : K.liftingForward weight H = .ok w)
    (hw : w.shape = a.outC :: n :: a.inC / a.groups.toNat :: kernelDims ax) (hb : BiasShape bias a.outC ax.length)
    (hlen : input.shape.length = ax.length + 2) :
    (∃ out, L.liftingForward K weight bias input H = .ok out) ↔ FitsLift a mode ax input := by
  refine ⟨fun ⟨out, h⟩ => C96_lifting_rejects hgeo hL K weight bias input H hlen out h, fun ⟨N, S, hx, hg⟩ => ?_⟩
  obtain ⟨out, h, -⟩ := C60_lifting hgeo hL hg K weight w bias N n input H hH hpos hK hw hx hb
  exact ⟨_, h⟩

/-- Inputs with neither `nd + 2` nor `nd + 1` axes are rejected by a lifting layer. -/
theorem C96_lifting_rank {a : Args} {mode : F.CPad} {ax : List Axis} (hgeo : HasGeometry a mode ax) {L : Layer}
    (hL : init a (kernelDims ax) = .ok L) (K : GroupKernel G d) (weight : Tensor ℝ) (bias : Option (Tensor ℝ))
    (input : Tensor ℝ) (H : Tensor G) (h1 : input.shape.length ≠ ax.length + 2) (h2 : input.shape.length ≠ ax.length + 1) :
    ∃ e, L.liftingForward K weight bias input H = .error e := by
  obtain ⟨f1, f2, f3, f4, f5, f6, f7⟩ := init_fields hgeo hL
  have hlg := layerGeom_of_init hgeo hL
  cases h : L.liftingForward K weight bias input H with
  | error e => exact ⟨e, rfl⟩
  | ok out =>
    exfalso
    unfold Layer.liftingForward at h
    rcases hs : input.shape with _ | ⟨N, S⟩
    · rw [hs] at h; cases h
    · rw [hs] at h
      obtain ⟨w, -, h⟩ := bind_ok h
      unfold Layer.liftingConv at h
      obtain ⟨w', hw', h⟩ := bind_ok h
      obtain ⟨z, hz, -⟩ := bind_ok h
      obtain ⟨c, hc⟩ := viewInfer_shape hw'
      rw [L.convForward_batched (by rw [hlg.rank]; exact h2)] at hz
      have := convBatched_length hz
      rw [hc, f4] at this
      apply h1
      rw [this]
      simp [kernelDims]

/-- A two-axis lifting layer without bias accepts one unbatched sample `(C, s₁, s₂)` whenever the first output extent happens
to be the number of input channels, and returns a tensor whose batch axis is that spatial axis: the result has `in_channels`
"samples" and one spatial axis. (Nothing in the documentation allows or forbids inputs without batch axis.) -/
theorem C96_violated_unbatched {a : Args} {mode : F.CPad} {ax : List Axis} (hgeo : HasGeometry a mode ax) {L : Layer}
    (hL : init a (kernelDims ax) = .ok L) {S O : List ℕ} (hg : GeomOk mode ax S) (hO : outDims ax S = a.inC :: O)
    (K : GroupKernel G d) (weight w : Tensor ℝ) (n : ℕ) (input : Tensor ℝ) (H : Tensor G)
    (hH : H.shape = [n]) (hpos : 0 < a.inC) (hK : K.liftingForward weight H = .ok w)
    (hw : w.shape = a.outC :: n :: a.inC / a.groups.toNat :: kernelDims ax)
    (hx : input.shape = a.inC :: S) :
    ∃ out, L.liftingForward K weight none input H = .ok (out, H) ∧ out.shape = a.inC :: a.outC :: n :: O := by
  obtain ⟨f1, f2, f3, f4, f5, f6, f7⟩ := init_fields hgeo hL
  have hlg := layerGeom_of_init hgeo hL
  have hCg : a.inC / L.groups * L.groups = a.inC := Nat.div_mul_cancel f5
  have hCgpos : 0 < a.inC / L.groups := Nat.div_pos (Nat.le_of_dvd hpos f5) f7
  have hKpos : 0 < (kernelDims ax).prod := List.prod_pos (kernelDims_pos hg)
  have hwp : w.shape.prod = a.outC * n * (a.inC / L.groups * (kernelDims ax).prod) := by
    rw [hw, ← f3]; simp only [List.prod_cons]; ring
  have hr : 0 < a.inC / L.groups * (kernelDims ax).prod := Nat.mul_pos hCgpos hKpos
  obtain ⟨w', hv, hws⟩ : ∃ w', w.viewInfer [] (a.inC / L.groups :: kernelDims ax) = .ok w' ∧
      w'.shape = a.outC * n :: a.inC / L.groups :: kernelDims ax := by
    unfold viewInfer
    dsimp only
    have e : ([] : List ℕ).prod * (a.inC / L.groups :: kernelDims ax).prod = a.inC / L.groups * (kernelDims ax).prod := by simp
    rw [e, hwp, if_neg (by rw [Nat.mul_mod_left]; omega), Nat.mul_div_cancel _ hr]
    exact ⟨_, view_ok (by rw [hwp]; simp), rfl⟩
  obtain ⟨z, hz, hzs, -⟩ := convForward_spec hlg hg (⟨1 :: input.shape, fun idx => input.get idx.tail⟩ : Tensor ℝ) w' 1 (a.outC * n)
    (a.inC / L.groups) L.groups (by show 1 :: input.shape = _; rw [hx, hCg]) hws f7
    (Nat.mod_eq_zero_of_dvd (Dvd.dvd.mul_right f6 n))
  rw [L.convForward_batched (by
    show (1 :: input.shape).length ≠ _
    rw [hx, List.length_cons, List.length_cons, hlg.rank, ← GeomOk.length hg]; omega)] at hz
  have hconv : L.convForward input w' L.groups = .ok ⟨z.shape.tail, fun idx => z.get (0 :: idx)⟩ := by
    unfold Layer.convForward F.unbatched
    rw [if_pos (by rw [hx, List.length_cons, hlg.rank, ← GeomOk.length hg])]
    dsimp only
    rw [hz, ok_bind]; rfl
  set z' : Tensor ℝ := ⟨z.shape.tail, fun idx => z.get (0 :: idx)⟩ with hz'
  have hzs' : z'.shape = a.outC * n :: a.inC :: O := by show z.shape.tail = _; rw [hzs, hO]; rfl
  have hview := view_ok (t := z') (s := a.inC :: a.outC :: n :: O) (by rw [hzs']; simp only [List.prod_cons]; ring)
  obtain ⟨y, hy, hys⟩ : ∃ y, z'.view (a.inC :: a.outC :: n :: O) = .ok y ∧ y.shape = a.inC :: a.outC :: n :: O :=
    ⟨_, hview, rfl⟩
  refine ⟨y, ?_, hys⟩
  · unfold Layer.liftingForward
    rw [hx]
    dsimp only
    rw [hK, ok_bind]
    unfold Layer.liftingConv
    rw [f1, f4, hv, ok_bind, hconv, ok_bind, f2, hH, hzs']
    show (z'.view (a.inC :: a.outC :: n :: O) >>= _) = _
    rw [hy, ok_bind]
    rfl

/-- the condition under which a group layer goes on after looking at the shape of its input: only the total number of
entries per spatial position is compared. -/
def EntriesFit (a : Args) (inH : Tensor G) (input : Tensor ℝ) : Prop :=
  ∃ N C k S, input.shape = N :: C :: k :: S ∧ N * (C * k) * S.prod = N * (a.inC * inH.shape.headD 0) * S.prod

theorem group_entries {a : Args} {L : Layer} (hin : L.inC = a.inC) {w : Tensor ℝ} {bias : Option (Tensor ℝ)} {N C k : ℕ} {S : List ℕ}
    {input : Tensor ℝ} {inH outH : Tensor G} (hs : input.shape = N :: C :: k :: S) {out : Tensor ℝ × Tensor G}
    (h : L.groupConv w bias N S input inH outH = .ok out) : EntriesFit a inH input := by
  unfold Layer.groupConv at h
  dsimp only at h
  obtain ⟨x, hx, -⟩ := bind_ok h
  refine ⟨N, C, k, S, hs, ?_⟩
  have := (view_prod hx).1
  rw [hs, hin] at this
  simp only [List.prod_cons] at this
  linarith

/-- `GConvNd`, `GSeparableConvNd` (with any kernel): an accepted input has the right number of entries. -/
theorem C96_group_entries {a : Args} {mode : F.CPad} {ax : List Axis} (hgeo : HasGeometry a mode ax) {L : Layer}
    (hL : init a (kernelDims ax) = .ok L) (K : GroupKernel G d) (weightH weight : Tensor ℝ) (bias : Option (Tensor ℝ))
    (input : Tensor ℝ) (inH outH : Tensor G) (out : Tensor ℝ × Tensor G)
    (h : L.groupForward K weight bias input inH outH = .ok out ∨ L.subgroupForward K weight bias input inH outH = .ok out ∨
      L.separableForward K weightH weight bias input inH outH = .ok out) : EntriesFit a inH input := by
  have hin := (init_fields hgeo hL).1
  rcases hs : input.shape with _ | ⟨N, _ | ⟨C, _ | ⟨k, S⟩⟩⟩
  iterate 3
    · unfold Layer.groupForward Layer.subgroupForward Layer.separableForward at h
      rw [hs] at h
      rcases h with h | h | h <;> cases h
  rcases h with h | h | h
  · unfold Layer.groupForward at h
    rw [hs] at h
    obtain ⟨w, -, h⟩ := bind_ok h
    exact group_entries hin hs h
  · unfold Layer.subgroupForward at h
    rw [hs] at h
    obtain ⟨w, -, h⟩ := bind_ok h
    exact group_entries hin hs h
  · unfold Layer.separableForward at h
    rw [hs] at h
    obtain ⟨w, -, h⟩ := bind_ok h
    unfold Layer.separableConv at h
    dsimp only at h
    obtain ⟨x, hx, -⟩ := bind_ok h
    refine ⟨N, C, k, S, hs, ?_⟩
    have := (view_prod hx).1
    rw [hs, hin] at this
    simp only [List.prod_cons] at this
    linarith

/-- Hence, with the right number of channels, an input with a number of group elements that differs from the number of
elements of `in_H` is rejected, and with the right number of group elements an input with the wrong number of channels. -/
theorem C96_group_rejects {a : Args} {mode : F.CPad} {ax : List Axis} (hgeo : HasGeometry a mode ax) {L : Layer}
    (hL : init a (kernelDims ax) = .ok L) (K : GroupKernel G d) (weightH weight : Tensor ℝ) (bias : Option (Tensor ℝ))
    (input : Tensor ℝ) (inH outH : Tensor G) (N C k m : ℕ) (S : List ℕ) (hN : 0 < N) (hS : ∀ s ∈ S, 0 < s)
    (hx : input.shape = N :: C :: k :: S) (hm : inH.shape = [m])
    (hbad : (C = a.inC ∧ 0 < C ∧ k ≠ m) ∨ (k = m ∧ 0 < k ∧ C ≠ a.inC)) :
    (∃ e, L.groupForward K weight bias input inH outH = .error e) ∧
    (∃ e, L.subgroupForward K weight bias input inH outH = .error e) ∧
    (∃ e, L.separableForward K weightH weight bias input inH outH = .error e) := by
  have key : ¬ EntriesFit a inH input := by
    rintro ⟨N', C', k', S', hx', he⟩
    rw [hx] at hx'
    cases hx'
    rw [hm] at he
    have hp : 0 < S.prod := List.prod_pos hS
    have he := Nat.eq_of_mul_eq_mul_left hN (Nat.eq_of_mul_eq_mul_right hp he)
    change C * k = a.inC * m at he
    rcases hbad with ⟨rfl, h0, hne⟩ | ⟨rfl, h0, hne⟩
    · exact hne (Nat.eq_of_mul_eq_mul_left h0 he)
    · exact hne (Nat.eq_of_mul_eq_mul_right h0 he)
  have split : ∀ e : Except PyErr (Tensor ℝ × Tensor G), (∀ out, e = .ok out → EntriesFit a inH input) → ∃ err, e = .error err := by
    intro e he
    cases e with
    | ok out => exact absurd (he out rfl) key
    | error err => exact ⟨err, rfl⟩
  refine ⟨split _ fun out h => ?_, split _ fun out h => ?_, split _ fun out h => ?_⟩
  · exact C96_group_entries hgeo hL K weightH weight bias input inH outH out (.inl h)
  · exact C96_group_entries hgeo hL K weightH weight bias input inH outH out (.inr (.inl h))
  · exact C96_group_entries hgeo hL K weightH weight bias input inH outH out (.inr (.inr h))

/-! ## Group and separable layers only count entries -/

/-- the entries of a tensor `(N, C, k, *S)` read as a tensor `(N, c, m, *S)` with the same number of entries. -/
def reread (c m k : ℕ) (x : Tensor ℝ) : Tensor ℝ :=
  ⟨x.shape.headD 0 :: c :: m :: x.shape.drop 3, fun idx => match idx with
    | b :: ci :: i :: q => x.get (b :: (ci * m + i) / k :: (ci * m + i) % k :: q)
    | _ => 0⟩

theorem view_reread {input : Tensor ℝ} {N C k c m : ℕ} {S : List ℕ} (hx : input.shape = N :: C :: k :: S) (he : C * k = c * m) :
    ∃ x', input.view (N :: c * m :: S) = .ok x' ∧ x'.shape = N :: c * m :: S ∧
      ∀ n i j x, n < N → i < c → j < m → InB S x → x'.get (n :: (i * m + j) :: x) = (reread c m k input).get (n :: i :: j :: x) := by
  refine ⟨_, view_ok (by rw [hx, ← he]; simp only [List.prod_cons]; ring), rfl, fun n i j x hn hi hj hx' => ?_⟩
  have hlt := row_lt hi hj
  rw [← he] at hlt
  have hk : 0 < k := Nat.pos_of_ne_zero fun h => by rw [h] at hlt; simp at hlt
  show input.get _ = input.get (n :: (i * m + j) / k :: (i * m + j) % k :: x)
  refine view_get ?_ ?_
  · rw [hx]
    simp [hn, hx', Nat.mod_lt _ hk, Nat.div_lt_of_lt_mul (Nat.mul_comm C k ▸ hlt)]
  · rw [hx]
    simp only [ravel, List.prod_cons]
    have e : (i * m + j) * S.prod = (i * m + j) / k * (k * S.prod) + (i * m + j) % k * S.prod := by
      conv_lhs => rw [← Nat.div_add_mod (i * m + j) k]
      ring
    rw [← he, e]
    ring

/-- A group layer accepts every input with the right number of entries, and treats it as if its entries were listed in the
order of the documented shape. -/
theorem C96_group_rereads {a : Args} {mode : F.CPad} {ax : List Axis} (hgeo : HasGeometry a mode ax) {L : Layer}
    (hL : init a (kernelDims ax) = .ok L) {S : List ℕ} (hg : GeomOk mode ax S) (K : GroupKernel G d)
    (weight w : Tensor ℝ) (bias : Option (Tensor ℝ)) (N C k m n : ℕ) (input : Tensor ℝ) (inH outH : Tensor G)
    (hin : inH.shape = [m]) (hout : outH.shape = [n]) (hK : K.forward weight inH outH = .ok w)
    (hw : w.shape = a.outC :: n :: a.inC / a.groups.toNat :: m :: kernelDims ax)
    (hx : input.shape = N :: C :: k :: S) (he : C * k = a.inC * m) (hb : BiasShape bias a.outC ax.length) :
    ∃ out, L.groupForward K weight bias input inH outH = .ok (out, outH) ∧
      out.shape = N :: a.outC :: n :: outDims ax S ∧
      ∀ b co h o, b < N → co < a.outC → h < n → InB (outDims ax S) o →
        out.get (b :: co :: h :: o) = Spec.groupConv a mode ax S (reread a.inC m k input) w bias m b co h o := by
  obtain ⟨x', h1, h2, h3⟩ := view_reread hx he
  obtain ⟨out, g1, g2, g3⟩ := groupConv_view_spec hgeo hL hg w bias N m n input x' _ inH outH (by rw [hin]; rfl)
    (by rw [hout]; rfl) hw h1 h2 h3 hb
  refine ⟨out, ?_, g2, g3⟩
  unfold Layer.groupForward
  rw [hx]
  dsimp only
  rw [hK, ok_bind, g1]

/-- A group layer accepts a non-empty input exactly if `channels × group elements` is the right product and the spatial
extents fit. -/
theorem C96_group_partial {a : Args} {mode : F.CPad} {ax : List Axis} (hgeo : HasGeometry a mode ax) {L : Layer}
    (hL : init a (kernelDims ax) = .ok L) (K : GroupKernel G d)
    (weight w : Tensor ℝ) (bias : Option (Tensor ℝ)) (N C k m n : ℕ) (S : List ℕ) (input : Tensor ℝ) (inH outH : Tensor G)
    (hin : inH.shape = [m]) (hout : outH.shape = [n]) (hK : K.forward weight inH outH = .ok w)
    (hw : w.shape = a.outC :: n :: a.inC / a.groups.toNat :: m :: kernelDims ax)
    (hlen : S.length = ax.length) (hN : 0 < N) (hS : ∀ s ∈ S, 0 < s)
    (hx : input.shape = N :: C :: k :: S) (hb : BiasShape bias a.outC ax.length) :
    (∃ out, L.groupForward K weight bias input inH outH = .ok out) ↔ C * k = a.inC * m ∧ GeomOk mode ax S := by
  constructor
  · rintro ⟨out, h⟩
    obtain ⟨N', C', k', S', hx', he⟩ := C96_group_entries hgeo hL K weight weight bias input inH outH out (.inl h)
    rw [hx] at hx'
    cases hx'
    rw [hin] at he
    have he := Nat.eq_of_mul_eq_mul_left hN (Nat.eq_of_mul_eq_mul_right (List.prod_pos hS) he)
    change C * k = a.inC * m at he
    refine ⟨he, ?_⟩
    obtain ⟨f1, f2, f3, f4, f5, f6, f7⟩ := init_fields hgeo hL
    unfold Layer.groupForward at h
    rw [hx] at h
    obtain ⟨w₁, -, h⟩ := bind_ok h
    unfold Layer.groupConv at h
    dsimp only at h
    obtain ⟨x, hx1, h⟩ := bind_ok h
    obtain ⟨w', hw', h⟩ := bind_ok h
    obtain ⟨z, hz, -⟩ := bind_ok h
    have hxs := (view_prod hx1).2
    have hws := (view_prod hw').2
    rw [f4] at hws
    exact (convForward_ok (layerGeom_of_init hgeo hL) hlen hxs hws hz).1
  · rintro ⟨he, hg⟩
    obtain ⟨out, h, -⟩ := C96_group_rereads hgeo hL hg K weight w bias N C k m n input inH outH hin hout hK hw hx he hb
    exact ⟨_, h⟩

/-- The claim fails: an input whose channel and group axes are swapped, `(N, |in_H|, in_channels, *S)`, is accepted, and its
entries are silently taken in the wrong order: channel `ci` and group element `i` of the layer's input is the entry
`((ci * |in_H| + i) / in_channels, (ci * |in_H| + i) % in_channels)`. -/
theorem C96_violated_swapped {a : Args} {mode : F.CPad} {ax : List Axis} (hgeo : HasGeometry a mode ax) {L : Layer}
    (hL : init a (kernelDims ax) = .ok L) {S : List ℕ} (hg : GeomOk mode ax S) (K : GroupKernel G d)
    (weight w : Tensor ℝ) (bias : Option (Tensor ℝ)) (N m n : ℕ) (input : Tensor ℝ) (inH outH : Tensor G)
    (hin : inH.shape = [m]) (hout : outH.shape = [n]) (hK : K.forward weight inH outH = .ok w)
    (hw : w.shape = a.outC :: n :: a.inC / a.groups.toNat :: m :: kernelDims ax)
    (hx : input.shape = N :: m :: a.inC :: S) (hne : m ≠ a.inC) (hb : BiasShape bias a.outC ax.length) :
    ¬ FitsGroup a mode ax inH input ∧
    ∃ out, L.groupForward K weight bias input inH outH = .ok (out, outH) ∧
      ∀ b co h o, b < N → co < a.outC → h < n → InB (outDims ax S) o →
        out.get (b :: co :: h :: o) = Spec.groupConv a mode ax S
          ⟨N :: a.inC :: m :: S, fun idx => match idx with
            | b :: ci :: i :: q => input.get (b :: (ci * m + i) / a.inC :: (ci * m + i) % a.inC :: q)
            | _ => 0⟩ w bias m b co h o := by
  constructor
  · rintro ⟨N', m', S', h1, h2, -⟩
    rw [hx] at h2
    exact hne (List.cons.inj (List.cons.inj h2).2).1
  · obtain ⟨out, h1, h2, h3⟩ := C96_group_rereads hgeo hL hg K weight w bias N m a.inC m n input inH outH hin hout hK hw hx
      (Nat.mul_comm _ _) hb
    exact ⟨out, h1, h3⟩

theorem ravel_unravel' : ∀ (s : List ℕ) (n : ℕ), s ≠ [] → ravel s (unravel s n) = n
  | [], _, h => absurd rfl h
  | x :: ss, n, _ => by
    simp only [unravel, ravel]
    rcases Nat.eq_zero_or_pos ss.prod with h0 | h0
    · have hne : ss ≠ [] := by rintro rfl; simp at h0
      rw [h0, Nat.mod_zero, Nat.mul_zero, ravel_unravel' ss n hne, Nat.zero_add]
    · rw [ravel_unravel (Nat.mod_lt _ h0), Nat.mul_comm]
      exact Nat.div_add_mod _ _

/-- reshaping twice is reshaping once. -/
theorem view_view {x y : Tensor ℝ} {s t : List ℕ} (hs : s ≠ []) (h : x.view s = .ok y) : y.view t = x.view t := by
  have hp := (view_prod h).1
  rw [view_ok hp] at h
  cases h
  unfold view
  by_cases ht : x.shape.prod = t.prod
  · rw [if_pos ht, if_pos (by rw [← hp]; exact ht)]
    simp only [ravel_unravel' s _ hs]
  · rw [if_neg ht, if_neg (by rw [← hp]; exact ht)]

/-- For every kernel and whatever the outcome: group, subgroup and separable layers cannot tell an input `(N, C, k, *S)` from
the same entries reshaped to `(N, in_channels, |in_H|, *S)`. -/
theorem C96_violated_rereads {a : Args} {mode : F.CPad} {ax : List Axis} (hgeo : HasGeometry a mode ax) {L : Layer}
    (hL : init a (kernelDims ax) = .ok L) (K : GroupKernel G d) (weightH weight : Tensor ℝ) (bias : Option (Tensor ℝ))
    (N C k m : ℕ) (S : List ℕ) (input input' : Tensor ℝ) (inH outH : Tensor G) (hin : inH.shape = [m])
    (hx : input.shape = N :: C :: k :: S) (hv : input.view (N :: a.inC :: m :: S) = .ok input') :
    L.groupForward K weight bias input inH outH = L.groupForward K weight bias input' inH outH ∧
    L.subgroupForward K weight bias input inH outH = L.subgroupForward K weight bias input' inH outH ∧
    L.separableForward K weightH weight bias input inH outH = L.separableForward K weightH weight bias input' inH outH := by
  have hs := (view_prod hv).2
  have hvv : ∀ t, input'.view t = input.view t := fun t => view_view (by simp) hv
  refine ⟨?_, ?_, ?_⟩
  · unfold Layer.groupForward
    rw [hx, hs]
    unfold Layer.groupConv
    dsimp only
    simp only [hvv]
  · unfold Layer.subgroupForward
    rw [hx, hs]
    unfold Layer.groupConv
    dsimp only
    simp only [hvv]
  · unfold Layer.separableForward
    rw [hx, hs]
    unfold Layer.separableConv
    dsimp only
    simp only [hvv]

/-- Reading is not transposing: if the caller stored group element `i` of channel `ci` at `x[b, i, ci]`, the layer takes for
group element 1 of channel 0 the entry `x[b, 0, 1]`, which is group element 0 of channel 1. -/
theorem C96_violated_order (N c m : ℕ) (S : List ℕ) (x : Tensor ℝ) (hx : x.shape = N :: m :: c :: S) (h2 : 2 ≤ c) (hm : 2 ≤ m)
    (b : ℕ) (q : List ℕ) (hb : b < N) (hq : InB S q) :
    ∃ y, x.view (N :: c :: m :: S) = .ok y ∧ y.get (b :: 0 :: 1 :: q) = x.get (b :: 0 :: 1 :: q) := by
  refine ⟨_, view_ok (by rw [hx]; simp only [List.prod_cons]; ring), ?_⟩
  refine view_get (by rw [hx]; simp [hb, hq]; omega) ?_
  rw [hx]
  simp only [ravel, List.prod_cons]
  ring

/-- `GConvSE2(4, 6, 5, groups=2, padding='same', padding_mode='circular')` on a grid of three elements: an input
`(1, 3, 4, 9, 8)` with the axes swapped does not fit and is accepted; inputs `(1, 4, 2, 9, 8)` and `(1, 5, 3, 9, 8)` are
rejected. -/
example (weight : Tensor ℝ) (hw : weight.shape = [3, 6, 2, 5, 5]) (inH : Tensor ℝ) (hin : inH.shape = [3]) :
    ∃ M, fullSE2 (KernelSE2.exArgs 3) exOpts = .ok M ∧
      (∀ input : Tensor ℝ, input.shape = [1, 3, 4, 9, 8] →
        ¬ FitsGroup (argsSE2 (KernelSE2.exArgs 3) exOpts) .circular (List.replicate 2 (sameAxis 5 1)) inH input ∧
        ∃ out, M.layer.groupForward M.kernel weight none input inH inH = .ok (out, inH)) ∧
      (∀ input : Tensor ℝ, input.shape = [1, 4, 2, 9, 8] ∨ input.shape = [1, 5, 3, 9, 8] →
        ∃ e, M.layer.groupForward M.kernel weight none input inH inH = .error e) := by
  obtain ⟨M, hM⟩ := ex_full 3 (by norm_num)
  obtain ⟨hgeo, hg, -⟩ := ex_geometry 3
  obtain ⟨K, hK, hL, hMK, -⟩ := build_ok hM
  have hks : kernelDims (List.replicate 2 (sameAxis 5 1)) = [5, 5] := rfl
  rw [fullSE2_size hK] at hL
  have hL : init (argsSE2 (KernelSE2.exArgs 3) exOpts) (kernelDims (List.replicate 2 (sameAxis 5 1))) = .ok M.layer := hL
  have hl : (KernelSE2.grid (KernelSE2.exArgs 3)).shape.headD 0 = 3 := SO2.C03_length 3
  obtain ⟨K', w, h1, h2, h3, -⟩ := KernelSE2.C51_SE2 (KernelSE2.exArgs 3) 1 (KernelSE2.exReady 3 (by norm_num)) defaultModes
    weight inH inH 3 3 (by rw [hl, hw]; rfl) hin hin
  rw [hK] at h1
  cases h1
  refine ⟨M, hM, fun input hx => ?_, fun input hx => ?_⟩
  · obtain ⟨h, out, ho, -⟩ := C96_violated_swapped hgeo hL hg M.kernel weight w none 1 3 3 input inH inH hin hin
      (by rw [hMK]; exact h2) h3 hx (by decide) (by intro b hb; cases hb)
    exact ⟨h, out, ho⟩
  · rcases hx with hx | hx
    · exact (C96_group_rejects hgeo hL M.kernel weight weight none input inH inH 1 4 2 3 [9, 8] (by norm_num) (by simp) hx hin
        (.inl ⟨rfl, by norm_num, by norm_num⟩)).1
    · exact (C96_group_rejects hgeo hL M.kernel weight weight none input inH inH 1 5 3 3 [9, 8] (by norm_num) (by simp) hx hin
        (.inr ⟨rfl, by norm_num, (by decide : (5 : ℕ) ≠ 4)⟩)).1

end GConv.Conv

import Verif.Lemmas.Reading
import Verif.Props.Translation
import Verif.Props.Modules
import Verif.Model.Network

/-! # C95: crops

Without padding (any stride, dilation, padding mode, kernel object) the network applied to a crop of the image is a crop of
the network applied to the image. -/

namespace GConv.Crop

open Tensor Spec Batch Reading Conv

variable {k : ℕ} {S S' : List ℕ} {x x' : Tensor ℝ} {G : Type} {d : ℕ}

/-- `padding` asks for no padding: `0`, a tuple of zeros or `'valid'`. -/
def NoPadding (p : PadArg) : Prop := p = .int 0 ∨ p = .str "valid" ∨ ∃ l, p = .tuple l ∧ ∀ i ∈ l, i = 0

/-- the layer was made by the constructor from arguments without padding, with strides `st` along `d` spatial axes. -/
def Unpadded (d : ℕ) (st : List ℕ) (L : Layer) : Prop :=
  ∃ (a : Args) (mode : F.CPad) (ax : List Axis), ax.length = d ∧ ax.map Axis.stride = st ∧ HasGeometry a mode ax ∧
    NoPadding a.padding ∧ init a (kernelDims ax) = .ok L

/-! ## boxes -/

theorem Transfers.bind {A B A' B' : Type} {R : A → A' → Prop} {T : B → B' → Prop} {e₁ : Except PyErr A} {e₂ : Except PyErr A'}
    {f₁ : A → Except PyErr B} {f₂ : A' → Except PyErr B'} (h : Transfers R e₁ e₂)
    (hf : ∀ a b, R a b → Transfers T (f₁ a) (f₂ b)) : Transfers T (e₁ >>= f₁) (e₂ >>= f₂) := by
  intro b hb
  cases e : e₂ with
  | error e => rw [e] at hb; cases hb
  | ok a' =>
    rw [e, ok_bind] at hb
    obtain ⟨a, ha, hR⟩ := h a' e
    rw [ha, ok_bind]
    exact hf a a' hR b hb

theorem Transfers.same {A B B' : Type} {T : B → B' → Prop} (e : Except PyErr A)
    {f₁ : A → Except PyErr B} {f₂ : A → Except PyErr B'} (hf : ∀ a, Transfers T (f₁ a) (f₂ a)) :
    Transfers T (e >>= f₁) (e >>= f₂) := by
  cases e with
  | error e => intro b hb; cases hb
  | ok a => exact hf a

theorem Transfers.of {A B : Type} {R T : A → B → Prop} {e₁ : Except PyErr A} {e₂ : Except PyErr B} (h : Outcomes2 R e₁ e₂)
    (hRT : ∀ a b, R a b → T a b) : Transfers T e₁ e₂ := by
  intro b hb
  cases h with
  | error e => cases hb
  | ok h => cases hb; exact ⟨_, rfl, hRT _ _ h⟩

theorem plus_length {off q : List ℕ} (h : off.length = q.length) : (plus off q).length = q.length := by
  unfold plus; rw [List.length_zipWith, h, min_self]

theorem plus_getD {off q : List ℕ} (h : off.length = q.length) {i : ℕ} (hi : i < q.length) :
    (plus off q).getD i 0 = off.getD i 0 + q.getD i 0 := by
  unfold plus
  rw [List.getD_eq_getElem?_getD, List.getD_eq_getElem?_getD, List.getD_eq_getElem?_getD, List.getElem?_zipWith,
    List.getElem?_eq_getElem hi, List.getElem?_eq_getElem (by omega)]
  rfl

theorem prod_pos_of {S : List ℕ} (h : ∀ i < S.length, 0 < S.getD i 0) : 0 < S.prod := by
  induction S with
  | nil => exact Nat.one_pos
  | cons s S ih =>
    rw [List.prod_cons]
    exact Nat.mul_pos (h 0 (by simp)) (ih fun i hi => h (i + 1) (by simpa using hi))

theorem maps {off : List ℕ} (h : InsideBox off S S') : Maps (plus off) S S' := by
  obtain ⟨h1, h2, h3⟩ := h
  refine ⟨fun q hq => ?_, h2.symm, Or.inr ⟨prod_pos_of fun i hi => by have := h3 i hi; omega,
    prod_pos_of fun i hi => (h3 i (by omega)).1⟩⟩
  have hl : off.length = q.length := by rw [hq.length, h1, h2]
  refine InB_iff.2 ⟨by rw [plus_length hl, hq.length, h2], fun i hi => ?_⟩
  rw [plus_getD hl (by rw [hq.length]; omega)]
  have := (InB_iff.1 hq).2 i (by omega)
  have := h3 i hi
  omega

/-! ## the convolution -/

/-- the same geometry with other kernel extents. -/
def rekernel (ax : List Axis) (K : List ℕ) : List Axis := List.zipWith (fun a k => { a with k := k }) ax K

theorem rekernel_map {f : Axis → ℕ} (hf : ∀ a k, f { a with k := k } = f a) : ∀ {ax : List Axis} {K : List ℕ}, K.length = ax.length →
    (rekernel ax K).map f = ax.map f
  | [], [], _ => rfl
  | a :: ax, k :: K, h => by
    unfold rekernel
    rw [List.zipWith_cons_cons, List.map_cons, List.map_cons, hf]
    exact congrArg _ (rekernel_map hf (by simpa using h))

theorem rekernel_k : ∀ {ax : List Axis} {K : List ℕ}, K.length = ax.length → kernelDims (rekernel ax K) = K
  | [], [], _ => rfl
  | a :: ax, k :: K, h => by
    unfold rekernel kernelDims
    rw [List.zipWith_cons_cons, List.map_cons]
    exact congrArg _ (rekernel_k (by simpa using h))

theorem rekernel_mem {ax : List Axis} {K : List ℕ} {x : Axis} (h : x ∈ rekernel ax K) : ∃ a ∈ ax, ∃ k, x = { a with k := k } := by
  unfold rekernel at h
  obtain ⟨i, hi, e⟩ := List.mem_iff_getElem.1 h
  rw [List.getElem_zipWith] at e
  exact ⟨_, List.getElem_mem _, _, e.symm⟩

theorem noPad_axes {a : Args} {mode : F.CPad} {ax : List Axis} (hg : HasGeometry a mode ax) (hp : NoPadding a.padding) :
    ∀ x ∈ ax, x.left = 0 ∧ x.right = 0 := by
  have hP := hg.padding
  rcases hp with e | e | ⟨l, e, hl⟩
  · rw [e] at hP; exact hP
  · rw [e] at hP
    rcases hP with ⟨h, -⟩ | ⟨-, h⟩
    · exact absurd h (by decide)
    · exact h
  · rw [e] at hP
    obtain ⟨h1, h2⟩ := hP
    intro x hx
    exact ⟨hl _ (by rw [h1]; exact List.mem_map.2 ⟨x, hx, rfl⟩), hl _ (by rw [h2]; exact List.mem_map.2 ⟨x, hx, rfl⟩)⟩

theorem layerGeom_rekernel {L : Layer} {a : Args} {mode : F.CPad} {ax : List Axis} (hg : HasGeometry a mode ax) (hp : NoPadding a.padding)
    (h : init a (kernelDims ax) = .ok L) {K : List ℕ} (hK : K.length = ax.length) : LayerGeom L mode (rekernel ax K) := by
  have hL := layerGeom_of_init hg h
  have hlen : (rekernel ax K).length = ax.length := by unfold rekernel; rw [List.length_zipWith, hK, min_self]
  refine ⟨by rw [hL.rank, hlen], by rw [hlen]; exact hL.rank1, by rw [hL.stride, rekernel_map (fun _ _ => rfl) hK],
    by rw [hL.dilation, rekernel_map (fun _ _ => rfl) hK], hL.modeName, fun hm => ⟨?_, fun hs x hx => ?_⟩, fun hm => ?_⟩
  · have hP := (hL.zeros hm).1
    cases hpd : L.padding with
    | str s =>
      rw [hpd] at hP
      rcases hP with ⟨rfl, hP⟩ | ⟨rfl, hP⟩
      · exfalso
        have := layer_padding hg h
        rw [hpd] at this
        rcases hp with e | e | ⟨l, e, -⟩ <;> rw [e] at this
        · cases this
        · exact absurd (PadArg.str.inj this) (by decide)
        · cases this
      · refine Or.inr ⟨rfl, fun x hx => ?_⟩
        obtain ⟨y, hy, k, rfl⟩ := rekernel_mem hx
        exact hP y hy
    | int p =>
      rw [hpd] at hP
      intro x hx
      obtain ⟨y, hy, k, rfl⟩ := rekernel_mem hx
      exact hP y hy
    | tuple l =>
      rw [hpd] at hP
      exact ⟨by rw [rekernel_map (fun _ _ => rfl) hK]; exact hP.1, by rw [rekernel_map (fun _ _ => rfl) hK]; exact hP.2⟩
  · obtain ⟨y, hy, k, rfl⟩ := rekernel_mem hx
    exact (hL.zeros hm).2 hs y hy
  · rw [hL.other hm]
    unfold pads
    have h1 := rekernel_map (f := Axis.left) (fun _ _ => rfl) hK
    have h2 := rekernel_map (f := Axis.right) (fun _ _ => rfl) hK
    apply List.ext_getElem (by simp [hlen])
    intro i _ hi
    rw [List.length_map, hlen] at hi
    rw [List.getElem_map, List.getElem_map]
    unfold rekernel
    rw [List.getElem_zipWith]

theorem conv_weight {y w z : Tensor ℝ} {st dil : List ℕ} {p : F.ConvPad} {groups N C : ℕ} {T : List ℕ} (hy : y.shape = N :: C :: T)
    (h : F.conv y w st p dil groups = .ok z) : ∃ Cout Cg K, w.shape = Cout :: Cg :: K ∧ K.length = st.length ∧ T.length = st.length := by
  have hval : ∀ (y : Tensor ℝ) (T' : List ℕ), y.shape = N :: C :: T' → F.convValid y w st dil groups = .ok z →
      ∃ Cout Cg K, w.shape = Cout :: Cg :: K ∧ K.length = st.length ∧ T'.length = st.length := by
    intro y T' hy h
    unfold F.convValid at h
    rw [hy] at h
    generalize w.shape = ws at h
    rcases ws with _ | ⟨Cout, _ | ⟨Cg, K⟩⟩
    · cases h
    · cases h
    dsimp only at h
    split at h
    · rename_i hc
      exact ⟨Cout, Cg, K, rfl, hc.2.1.symm, by rw [hc.1, hc.2.1]⟩
    · cases h
  have hpad : ∀ ps, (F.padAxes .zeros y ps >>= fun y => F.convValid y w st dil groups) = .ok z →
      ∃ Cout Cg K, w.shape = Cout :: Cg :: K ∧ K.length = st.length ∧ T.length = st.length := by
    intro ps h
    cases hq : F.padAxes .zeros y ps with
    | error e => rw [hq] at h; cases h
    | ok y' =>
      rw [hq, ok_bind] at h
      obtain ⟨h1, -, h3⟩ := padAxes_ok hy hq
      have := hval y' _ h3 h
      rwa [List.length_zipWith, h1, min_self, ← h1] at this
  unfold F.conv at h
  cases p with
  | valid => exact hval y T hy h
  | same =>
    dsimp only at h
    split at h
    · exact hpad _ h
    · cases h
  | amounts l => exact hpad _ h

theorem convForward_weight {L : Layer} {mode : F.CPad} {ax : List Axis} (hL : LayerGeom L mode ax) {y w z : Tensor ℝ} {groups N C : ℕ}
    {T : List ℕ} (hT : T.length = ax.length) (hy : y.shape = N :: C :: T) (h : L.convForward y w groups = .ok z) :
    ∃ Cout Cg K, w.shape = Cout :: Cg :: K ∧ K.length = ax.length ∧ T.length = ax.length := by
  have hst : Layer.dims L.nd L.stride = ax.map Axis.stride := by
    rw [hL.stride]; exact if_neg (by rw [List.length_map]; exact hL.rank1)
  rw [L.convForward_batched (by rw [hy, List.length_cons, List.length_cons, hL.rank, hT]; omega)] at h
  unfold Layer.convBatched at h
  rw [hst] at h
  split at h
  · cases hp : Layer.padMode L.paddingMode with
    | error e => rw [hp] at h; cases h
    | ok m =>
      rw [hp, ok_bind] at h
      unfold F.pad at h
      cases hq : F.padAxes m y (F.pairs L.revPad).reverse with
      | error e => rw [hq] at h; cases h
      | ok y' =>
        rw [hq, ok_bind] at h
        obtain ⟨h1, -, h3⟩ := padAxes_ok hy hq
        have := conv_weight h3 h
        rwa [List.length_zipWith, h1, min_self, ← h1, List.length_map] at this
  · cases hp : Layer.convPad L.nd L.padding with
    | error e => rw [hp] at h; cases h
    | ok p =>
      rw [hp, ok_bind] at h
      have := conv_weight hy h
      rwa [List.length_map] at this

theorem padAllowed_mono {mode : F.CPad} {s s' : ℕ} (h : s' ≤ s) (ha : F.padAllowed mode s' 0 0 = true) : F.padAllowed mode s 0 0 = true := by
  cases mode <;> simp only [F.padAllowed, decide_eq_true_eq] at ha ⊢ <;> omega

/-- a larger image is accepted too, and the output box of the crop lies inside the output box of the image. -/
theorem geom_mono {mode : F.CPad} : ∀ {ax : List Axis} {S S' u : List ℕ}, (∀ x ∈ ax, x.left = 0 ∧ x.right = 0) → u.length = ax.length →
    GeomOk mode ax S' → InsideBox (List.zipWith (· * ·) (ax.map Axis.stride) u) S S' →
    GeomOk mode ax S ∧ InsideBox u (outDims ax S) (outDims ax S')
  | [], S, S', u, _, hu, hg, ⟨h1, h2, h3⟩ => by
    cases hg
    cases u with
    | nil =>
      cases S with
      | nil => exact ⟨.nil, rfl, rfl, fun i hi => by simp [outDims] at hi⟩
      | cons => simp at h2
    | cons => simp at hu
  | a :: ax, S, S', u, hp, hu, hg, ⟨h1, h2, h3⟩ => by
    cases hg with
    | @cons _ s' _ S' ha hg =>
    obtain ⟨u0, u, rfl⟩ : ∃ u0 u', u = u0 :: u' := by
      cases u with
      | nil => simp at hu
      | cons u0 u => exact ⟨u0, u, rfl⟩
    obtain ⟨s, S, rfl⟩ : ∃ s S'', S = s :: S'' := by
      cases S with
      | nil => simp at h2
      | cons s S => exact ⟨s, S, rfl⟩
    rw [List.map_cons, List.zipWith_cons_cons] at h1 h3
    have h0 := h3 0 (by simp)
    simp only [List.getD_cons_zero] at h0
    obtain ⟨hl, hr⟩ := hp a (by simp)
    obtain ⟨k1, k2, k3, k4, k5⟩ := ha
    rw [hl, hr] at k4 k5
    obtain ⟨g1, g2⟩ := geom_mono (ax := ax) (S := S) (S' := S') (u := u) (fun x hx => hp x (by simp [hx])) (by simpa using hu) hg
      ⟨by simpa using h1, by simpa using h2, fun i hi => by
        have := h3 (i + 1) (by simpa using hi)
        simpa only [List.getD_cons_succ] using this⟩
    have hle : s' ≤ s := by omega
    have hmul : a.stride * u0 + s' ≤ s := h0.2
    refine ⟨.cons ⟨k1, k2, k3, by rw [hl, hr]; omega, by rw [hl, hr]; exact padAllowed_mono hle k5⟩ g1, ?_, ?_, ?_⟩
    · show (u0 :: u).length = (outDims ax S).length + 1
      rw [List.length_cons, g2.1]
    · show (outDims ax S').length + 1 = (outDims ax S).length + 1
      rw [g2.2.1]
    · intro i hi
      show 0 < (a.out s' :: outDims ax S').getD i 0 ∧ (u0 :: u).getD i 0 + (a.out s' :: outDims ax S').getD i 0 ≤ (a.out s :: outDims ax S).getD i 0
      cases i with
      | zero =>
        simp only [List.getD_cons_zero]
        unfold Axis.out
        rw [hl, hr]
        refine ⟨Nat.succ_pos _, ?_⟩
        have e : (a.stride * u0 + (s' - a.span)) / a.stride = u0 + (s' - a.span) / a.stride := Nat.mul_add_div k2 _ _
        have : (a.stride * u0 + (s' - a.span)) / a.stride ≤ (s - a.span) / a.stride := Nat.div_le_div_right (by omega)
        simp only [Nat.add_zero]
        omega
      | succ i =>
        simp only [List.getD_cons_succ]
        refine g2.2.2 i ?_
        have : i + 1 < (outDims ax S).length + 1 := hi
        omega

/-- no window leaves the image. -/
theorem inside {mode : F.CPad} : ∀ {ax : List Axis} {S o : List ℕ}, (∀ x ∈ ax, x.left = 0 ∧ x.right = 0) → GeomOk mode ax S →
    InB (outDims ax S) o → WindowInside ax S o
  | [], S, o, _, hg, ho => by
    cases hg
    intro k hk
    exact ⟨[], InB_nil_nil, by cases k <;> cases o <;> rfl⟩
  | a :: ax, S, o, hp, hg, ho => by
    cases hg with
    | @cons _ s _ S ha hg =>
    have ho' : InB (a.out s :: outDims ax S) o := ho
    obtain ⟨o, os, rfl, ho1, ho2⟩ := InB_cons_left ho'
    intro k hk
    have hk' : InB (a.k :: kernelDims ax) k := hk
    obtain ⟨k, ks, rfl, hk1, hk2⟩ := InB_cons_left hk'
    obtain ⟨q, hq, e⟩ := inside (fun x hx => hp x (by simp [hx])) hg ho2 ks hk2
    obtain ⟨hl, hr⟩ := hp a (by simp)
    obtain ⟨k1, k2, k3, k4, k5⟩ := ha
    refine ⟨(o * a.stride + k * a.dil) :: q, InB_cons.2 ⟨?_, hq⟩, ?_⟩
    · unfold Axis.out at ho1
      rw [hl, hr] at ho1
      unfold Axis.span at ho1 k4
      rw [hl, hr] at k4
      have a1 : o * a.stride ≤ s - (a.dil * (a.k - 1) + 1) := by
        have : o ≤ (s - (a.dil * (a.k - 1) + 1)) / a.stride := by simp only [Nat.add_zero] at ho1; omega
        calc o * a.stride ≤ (s - (a.dil * (a.k - 1) + 1)) / a.stride * a.stride := Nat.mul_le_mul_right _ this
          _ ≤ _ := Nat.div_mul_le_self _ _
      have a2 : k * a.dil ≤ a.dil * (a.k - 1) := by
        rw [Nat.mul_comm]; exact Nat.mul_le_mul_left _ (by omega)
      omega
    · show a.pos o k :: readPos ax os ks = _
      rw [e]
      unfold Axis.pos
      rw [hl]
      simp

theorem plus_shifted {u o : List ℕ} (h : u.length = o.length) : ShiftedBy (u.map Int.ofNat) o (plus u o) := by
  refine ⟨by simp [h], by rw [plus_length h]; simp [h], fun i hi => ?_⟩
  rw [List.length_map] at hi
  rw [plus_getD h (by omega)]
  have : (u.map Int.ofNat).getD i 0 = (u.getD i 0 : ℤ) := by
    rw [List.getD_eq_getElem?_getD, List.getD_eq_getElem?_getD, List.getElem?_map, List.getElem?_eq_getElem hi]
    rfl
  rw [this]
  push_cast
  ring

theorem plus_of_shifted {ax : List Axis} {u q q' : List ℕ} (hu : u.length = ax.length) (h : ShiftedBy (inputShift ax (u.map Int.ofNat)) q q') :
    q' = plus (List.zipWith (· * ·) (ax.map Axis.stride) u) q := by
  obtain ⟨h1, h2, h3⟩ := h
  have hl : (inputShift ax (u.map Int.ofNat)).length = ax.length := by
    unfold inputShift; rw [List.length_zipWith, List.length_map, hu, min_self]
  have hz : (List.zipWith (· * ·) (ax.map Axis.stride) u).length = q.length := by
    rw [List.length_zipWith, List.length_map, hu, min_self, h1, hl]
  refine List.ext_getElem (by rw [plus_length hz, h1, h2]) fun i hi hi' => ?_
  have e : ∀ (l : List ℕ) (h : i < l.length), l[i] = l.getD i 0 := fun l h => by
    rw [List.getD_eq_getElem?_getD, List.getElem?_eq_getElem h]; rfl
  have hi2 : i < ax.length := by omega
  rw [e, e, plus_getD hz (by omega)]
  have := h3 i (by omega)
  have e2 : (inputShift ax (u.map Int.ofNat)).getD i 0 = (((List.zipWith (· * ·) (ax.map Axis.stride) u).getD i 0 : ℕ) : ℤ) := by
    unfold inputShift
    rw [List.getD_eq_getElem?_getD, List.getD_eq_getElem?_getD, List.getElem?_zipWith, List.getElem?_zipWith, List.getElem?_map,
      List.getElem?_map, List.getElem?_eq_getElem hi2, List.getElem?_eq_getElem (show i < u.length by omega)]
    simp
  rw [e2] at this
  omega

/-- outputs of two convolutions: the second is the crop of the first from `u` on. -/
def CropOut (u : List ℕ) (N d : ℕ) (y y' : Tensor ℝ) : Prop :=
  ∃ O O' M, InsideBox u O O' ∧ O.length = d ∧ y.shape = N :: M :: O ∧ Reads (plus u) 2 O O' y y'

/-- the convolution without padding. -/
theorem convForward {L : Layer} {a : Args} {mode : F.CPad} {ax : List Axis} (hgeo : HasGeometry a mode ax) (hp : NoPadding a.padding)
    (hL : init a (kernelDims ax) = .ok L) (w : Tensor ℝ) (groups : ℕ) {u : List ℕ} (hu : u.length = ax.length)
    (h : Cropped (List.zipWith (· * ·) (ax.map Axis.stride) u) 2 x x') :
    Transfers (CropOut u (x.shape.headD 0) ax.length) (L.convForward x w groups) (L.convForward x' w groups) := by
  intro z' hz'
  obtain ⟨S, S', hin, p, hpl, hx, hx', hv⟩ := h
  obtain ⟨N, C, rfl⟩ : ∃ N C, p = [N, C] := by
    rcases p with _ | ⟨N, _ | ⟨C, _ | _⟩⟩ <;> simp at hpl
    exact ⟨N, C, rfl⟩
  have hS' : S'.length = ax.length := by
    rw [hin.2.1, ← hin.1, List.length_zipWith, List.length_map, hu, min_self]
  obtain ⟨Cout, Cg, K, hw, hK, -⟩ := convForward_weight (layerGeom_of_init hgeo hL) hS' hx' hz'
  have hG := layerGeom_rekernel hgeo hp hL hK
  have hlen : (rekernel ax K).length = ax.length := by unfold rekernel; rw [List.length_zipWith, hK, min_self]
  have hst : (rekernel ax K).map Axis.stride = ax.map Axis.stride := rekernel_map (fun _ _ => rfl) hK
  have hnp : ∀ x ∈ rekernel ax K, x.left = 0 ∧ x.right = 0 := fun x hx => by
    obtain ⟨y, hy, k, rfl⟩ := rekernel_mem hx
    exact noPad_axes hgeo hp y hy
  have hw' : w.shape = Cout :: Cg :: kernelDims (rekernel ax K) := by rw [rekernel_k hK]; exact hw
  obtain ⟨hg', hC, h0, hd⟩ := convForward_ok hG (S := S') (by rw [hlen, hS']) hx' hw' hz'
  obtain ⟨hg, hout⟩ := geom_mono hnp (by rw [hlen]; exact hu) hg' (by rw [hst]; exact hin)
  obtain ⟨z, e1, e2, e3⟩ := convForward_spec hG hg x w N Cout Cg groups (by rw [hx, hC]; rfl) hw' h0 hd
  obtain ⟨z'', f1, f2, f3⟩ := convForward_spec hG hg' x' w N Cout Cg groups (by rw [hx', hC]; rfl) hw' h0 hd
  rw [hz'] at f1
  cases f1
  refine ⟨z, e1, _, _, Cout, hout, by rw [outDims_length hg, hlen], by rw [e2, hx]; rfl, [N, Cout], rfl, e2, f2, fun i q hi hq => ?_⟩
  obtain ⟨b, _, rfl, hb, hi⟩ := InB_cons_left hi
  obtain ⟨co, _, rfl, hco, hi⟩ := InB_cons_left hi
  cases InB_nil_left hi
  show z'.get (b :: co :: q) = z.get (b :: co :: plus u q)
  have hq' := (maps hout).mem q hq
  rw [f3 b co q hq, e3 b co _ hq']
  have hql : u.length = q.length := by rw [hq.length, hu, outDims_length hg', hlen]
  refine Finset.sum_congr rfl fun ci hci => (corr_shift (t := u.map Int.ofNat) (by rw [List.length_map, hlen, hu]) (plus_shifted hql)
    (inside hnp hg' hq) (inside hnp hg hq') fun r r' hr hr' hs => ?_).symm
  have := plus_of_shifted (by rw [hlen, hu]) hs
  rw [hst] at this
  rw [this]
  exact (hv [b, _] r (InB_cons.2 ⟨hb, InB_cons.2 ⟨by rw [hC]; exact Batch.channel_lt hd hco (Finset.mem_range.1 hci), InB_nil_nil⟩⟩) hr).symm

section layers
variable {st u : List ℕ} {L : Layer} (hL : Unpadded d st L) (K : GroupKernel G d) {bias : Option (Tensor ℝ)} (hb : BiasShape bias L.outC d)
  (hu : u.length = d)
include hL hu

theorem conv (w : Tensor ℝ) (groups : ℕ) {N : ℕ} (hN : x.shape.headD 0 = N) (h : Cropped (List.zipWith (· * ·) st u) 2 x x') :
    Transfers (CropOut u N d) (L.convForward x w groups) (L.convForward x' w groups) := by
  obtain ⟨a, mode, ax, rfl, rfl, hgeo, hp, hi⟩ := hL
  subst hN
  exact convForward hgeo hp hi w groups hu h

omit hL hu in
include hb in
theorem finish' {C n N : ℕ} (hC : C = L.outC) (H : Tensor G) (h : CropOut u N d x x') :
    Transfers (CroppedLayer u 3)
      (do let v ← x.view (N :: C :: n :: x.shape.drop 2); let v ← Conv.Layer.addBias v bias; return (v, H))
      (do let v ← x'.view (N :: C :: n :: x'.shape.drop 2); let v ← Conv.Layer.addBias v bias; return (v, H)) := by
  obtain ⟨O, O', M, hin, hO, hs, h⟩ := h
  subst hC
  exact Transfers.of (finish (maps hin) hO hb H h hs) fun a b h => ⟨⟨O, O', hin, h.1⟩, h.2⟩

omit hL hu hb in
theorem view_cropped {off S S' : List ℕ} {N M : ℕ} (hin : InsideBox off S S') (h : Reads (plus off) k S S' x x') :
    Transfers (fun y y' => Cropped off 2 y y' ∧ y.shape.headD 0 = N) (x.view (N :: M :: S)) (x'.view (N :: M :: S')) := by
  intro y' e'
  obtain ⟨y, e, h⟩ := Transfers.of (view (maps hin) h [N, M]) (fun _ _ h => h) y' e'
  refine ⟨y, e, ⟨S, S', hin, h⟩, ?_⟩
  have e : x.view (N :: M :: S) = .ok y := e
  unfold Tensor.view at e
  split at e
  · cases e; rfl
  · cases e

include hb

/-- lifting convolutions. -/
theorem C95_lifting (w : Tensor ℝ) (H : Tensor G) (h : Cropped (List.zipWith (· * ·) st u) 2 x x') :
    Transfers (CroppedLayer u 3) (L.liftingForward K w bias x H) (L.liftingForward K w bias x' H) := by
  obtain ⟨S, S', hin, p, hp, hx, hx', -⟩ := id h
  obtain ⟨N, C, rfl⟩ : ∃ N C, p = [N, C] := by
    rcases p with _ | ⟨N, _ | ⟨C, _ | _⟩⟩ <;> simp at hp
    exact ⟨N, C, rfl⟩
  unfold Layer.liftingForward
  rw [hx, hx']
  refine Transfers.same _ fun w => ?_
  unfold Layer.liftingConv
  refine Transfers.same _ fun w => ?_
  exact Transfers.bind (conv hL hu w L.groups (N := N) (by rw [hx]; rfl) h) fun y y' h => finish' hb rfl H h

theorem groupConv {S S' : List ℕ} {N : ℕ} (w : Tensor ℝ) (inH outH : Tensor G) (hin : InsideBox (List.zipWith (· * ·) st u) S S')
    (h : Reads (plus (List.zipWith (· * ·) st u)) 3 S S' x x') :
    Transfers (CroppedLayer u 3) (L.groupConv w bias N S x inH outH) (L.groupConv w bias N S' x' inH outH) := by
  unfold Layer.groupConv
  dsimp only
  refine Transfers.bind (view_cropped hin h) fun y y' h => ?_
  refine Transfers.same _ fun w => ?_
  exact Transfers.bind (conv hL hu w L.groups h.2 h.1) fun y y' h => finish' hb rfl outH h

/-- group convolutions. -/
theorem C95_group (w : Tensor ℝ) (inH outH : Tensor G) (h : Cropped (List.zipWith (· * ·) st u) 3 x x') :
    Transfers (CroppedLayer u 3) (L.groupForward K w bias x inH outH) (L.groupForward K w bias x' inH outH) := by
  obtain ⟨S, S', hin, p, hp, hx, hx', hv⟩ := h
  obtain ⟨N, C, n, rfl⟩ : ∃ N C n, p = [N, C, n] := by
    rcases p with _ | ⟨N, _ | ⟨C, _ | ⟨n, _ | _⟩⟩⟩ <;> simp at hp
    exact ⟨N, C, n, rfl⟩
  unfold Layer.groupForward
  rw [hx, hx']
  exact Transfers.same _ fun w => groupConv hL hb hu w inH outH hin ⟨_, hp, hx, hx', hv⟩

/-- convolutions over the group only. -/
theorem C95_subgroup (w : Tensor ℝ) (inH outH : Tensor G) (h : Cropped (List.zipWith (· * ·) st u) 3 x x') :
    Transfers (CroppedLayer u 3) (L.subgroupForward K w bias x inH outH) (L.subgroupForward K w bias x' inH outH) := by
  obtain ⟨S, S', hin, p, hp, hx, hx', hv⟩ := h
  obtain ⟨N, C, n, rfl⟩ : ∃ N C n, p = [N, C, n] := by
    rcases p with _ | ⟨N, _ | ⟨C, _ | ⟨n, _ | _⟩⟩⟩ <;> simp at hp
    exact ⟨N, C, n, rfl⟩
  unfold Layer.subgroupForward
  rw [hx, hx']
  exact Transfers.same _ fun w => groupConv hL hb hu w inH outH hin ⟨_, hp, hx, hx', hv⟩

/-- separable convolutions: both stages step by the stride (C62), so the crop starts at the square of the stride. -/
theorem C95_separable (wH w : Tensor ℝ) (inH outH : Tensor G)
    (h : Cropped (List.zipWith (· * ·) st (List.zipWith (· * ·) st u)) 3 x x') :
    Transfers (CroppedLayer u 3) (L.separableForward K wH w bias x inH outH) (L.separableForward K wH w bias x' inH outH) := by
  obtain ⟨S, S', hin, p, hp, hx, hx', hv⟩ := h
  obtain ⟨N, C, n, rfl⟩ : ∃ N C n, p = [N, C, n] := by
    rcases p with _ | ⟨N, _ | ⟨C, _ | ⟨n, _ | _⟩⟩⟩ <;> simp at hp
    exact ⟨N, C, n, rfl⟩
  have hr : Reads _ 3 S S' x x' := ⟨_, hp, hx, hx', hv⟩
  have hst : st.length = d := by obtain ⟨a, mode, ax, rfl, rfl, -⟩ := hL; simp
  unfold Layer.separableForward
  rw [hx, hx']
  refine Transfers.same _ fun ww => ?_
  unfold Layer.separableConv
  dsimp only
  refine Transfers.bind (view_cropped hin hr) fun y y' h => ?_
  refine Transfers.same _ fun wH => ?_
  refine Transfers.bind (conv hL (u := List.zipWith (· * ·) st u) (by rw [List.length_zipWith, hst, hu, min_self]) wH L.groups h.2 h.1)
    fun y y' h => ?_
  obtain ⟨O, O', M, hin', -, hs, h⟩ := h
  refine Transfers.same _ fun w => ?_
  exact Transfers.bind (conv hL hu w _ (N := N) (by rw [hs]; rfl) ⟨O, O', hin', h⟩) fun y y' h => finish' hb rfl outH h

end layers

/-! ## activations and normalisation -/

variable {u : List ℕ}

/-- activations. -/
theorem C95_act (a : Activations.Act) (H : Tensor G) (h : Cropped u k x x') :
    Transfers (CroppedLayer u k) (a.forward x H) (a.forward x' H) := by
  obtain ⟨S, S', hin, h⟩ := h
  exact Transfers.of (act a H h) fun a b h => ⟨⟨S, S', hin, h.1⟩, h.2⟩

theorem shape_of (h : Cropped u 3 x x') : ∃ N C n S S', InsideBox u S S' ∧ x.shape = N :: C :: n :: S ∧ x'.shape = N :: C :: n :: S' ∧
    ∀ b c i q, b < N → c < C → i < n → InB S' q → x'.get (b :: c :: i :: q) = x.get (b :: c :: i :: plus u q) := by
  obtain ⟨S, S', hin, p, hp, hx, hx', hv⟩ := h
  obtain ⟨N, C, n, rfl⟩ : ∃ N C n, p = [N, C, n] := by
    rcases p with _ | ⟨N, _ | ⟨C, _ | ⟨n, _ | _⟩⟩⟩ <;> simp at hp
    exact ⟨N, C, n, rfl⟩
  exact ⟨N, C, n, S, S', hin, hx, hx', fun b c i q hb hc hi hq =>
    hv [b, c, i] q (InB_cons.2 ⟨hb, InB_cons.2 ⟨hc, InB_cons.2 ⟨hi, InB_nil_nil⟩⟩⟩) hq⟩

theorem norm {g : ℕ → ℝ → ℝ} {N C n : ℕ} {S S' : List ℕ} {y y' : Tensor ℝ} (hin : InsideBox u S S')
    (hx : x.shape = N :: C :: n :: S) (hx' : x'.shape = N :: C :: n :: S')
    (hv : ∀ b c i q, b < N → c < C → i < n → InB S' q → x'.get (b :: c :: i :: q) = x.get (b :: c :: i :: plus u q))
    (hy : y.shape = N :: C :: n :: S) (hy' : y'.shape = N :: C :: n :: S')
    (e : ∀ b c h q, b < N → c < C → h < n → InB S q → y.get (b :: c :: h :: q) = g c (x.get (b :: c :: h :: q)))
    (e' : ∀ b c h q, b < N → c < C → h < n → InB S' q → y'.get (b :: c :: h :: q) = g c (x'.get (b :: c :: h :: q))) : Cropped u 3 y y' := by
  refine ⟨S, S', hin, [N, C, n], rfl, hy, hy', fun i q hi hq => ?_⟩
  obtain ⟨b, _, rfl, hb', hi⟩ := InB_cons_left hi
  obtain ⟨co, _, rfl, hco, hi⟩ := InB_cons_left hi
  obtain ⟨h, _, rfl, hh, hi⟩ := InB_cons_left hi
  cases InB_nil_left hi
  show y'.get (b :: co :: h :: q) = y.get (b :: co :: h :: plus u q)
  rw [e' b co h q hb' hco hh hq, e b co h _ hb' hco hh ((maps hin).mem q hq), hv b co h q hb' hco hh hq]

theorem folded_shape {f : Tensor ℝ → Except PyErr (Tensor ℝ × F.Running)} {N C n : ℕ} {S : List ℕ} {H : Tensor G} {z}
    (hx : x.shape = N :: C :: n :: S) (h : Normalization.folded f x H = .ok z) :
    ∃ Z s y w, S = Z :: s ∧ y.shape = N :: C :: n * Z :: s ∧ f y = .ok w := by
  unfold Normalization.folded at h
  rw [hx] at h
  rcases S with _ | ⟨Z, s⟩
  · cases h
  dsimp only at h
  cases e : x.view (N :: C :: n * Z :: s) with
  | error e' => rw [e] at h; cases h
  | ok y =>
    rw [e, ok_bind] at h
    have hy : y.shape = N :: C :: n * Z :: s := by
      unfold Tensor.view at e
      split at e
      · cases e; rfl
      · cases e
    cases e' : f y with
    | error e'' => rw [e'] at h; cases h
    | ok w => exact ⟨Z, s, y, w, rfl, hy, e'⟩

theorem features_of_batch {N C n : ℕ} {S : List ℕ} {a : F.NormArgs} (ht : a.track = true) {r : F.Running} {H : Tensor G} {z}
    (hx : x.shape = N :: C :: n :: S) (h : Normalization.batch d a false r x H = .ok z) : C = a.features ∧ S.length = d ∧ 0 < d := by
  obtain ⟨Z, s, y, w, rfl, hy, e⟩ := folded_shape hx h
  unfold F.batchNorm at e
  rw [hy] at e
  dsimp only at e
  by_cases h1 : (n * Z :: s).length = d
  · rw [if_neg (by simpa using h1), if_neg (by simp [ht])] at e
    by_cases h2 : C = a.features
    · exact ⟨h2, by rw [← h1]; rfl, by rw [← h1]; simp⟩
    · rw [if_pos h2] at e; cases e
  · rw [if_pos h1] at e; cases e

theorem features_of_inst {N C n : ℕ} {S : List ℕ} (hS : S.length = d) {a : F.NormArgs} (ht : a.track = true) {r : F.Running} {H : Tensor G} {z}
    (hx : x.shape = N :: C :: n :: S) (h : Normalization.inst d a false r x H = .ok z) : C = a.features ∧ 0 < d := by
  obtain ⟨Z, s, y, w, rfl, hy, e⟩ := folded_shape hx h
  unfold F.instanceNorm at e
  rw [hy, if_neg (by simp only [List.length_cons] at hS ⊢; omega)] at e
  unfold F.instanceNormBatched at e
  rw [hy] at e
  dsimp only at e
  have hS' : (n * Z :: s).length = d := by rw [← hS]; rfl
  rw [if_neg (by simpa using hS')] at e
  refine ⟨?_, by rw [← hS]; simp⟩
  by_contra h2
  split at e
  · cases e
  · rw [if_neg (by simp [ht] : ¬ (false = true ∨ ¬ a.track = true))] at e; cases e

/-- batch normalisation in evaluation mode. -/
theorem C95_batch_norm (a : F.NormArgs) (ht : a.track = true) (r : F.Running) (H : Tensor G) (h : Cropped u 3 x x') :
    Transfers (CroppedLayer u 3) ((Normalization.batch d a false r x H).map Prod.fst) ((Normalization.batch d a false r x' H).map Prod.fst) := by
  intro z hz
  obtain ⟨N, C, n, S, S', hin, hx, hx', hv⟩ := shape_of h
  cases e : Normalization.batch d a false r x' H with
  | error e' => rw [e] at hz; cases hz
  | ok w =>
    obtain ⟨hC, hS, hd⟩ := features_of_batch ht hx' e
    obtain ⟨y, y1, y2, y3⟩ := Normalization.C70_batch_eval d hd a ht r x H N C n S (by rw [← hin.2.1, hS]) hx hC
    obtain ⟨y', z1, z2, z3⟩ := Normalization.C70_batch_eval d hd a ht r x' H N C n S' hS hx' hC
    rw [z1] at e hz
    cases e
    cases hz
    exact ⟨(y, H), by rw [y1]; rfl, norm hin hx hx' hv y2 z2 y3 z3, rfl⟩

/-- instance normalisation in evaluation mode with running statistics. -/
theorem C95_instance_norm (hu : u.length = d) (a : F.NormArgs) (ht : a.track = true) (r : F.Running) (H : Tensor G) (h : Cropped u 3 x x') :
    Transfers (CroppedLayer u 3) ((Normalization.inst d a false r x H).map Prod.fst) ((Normalization.inst d a false r x' H).map Prod.fst) := by
  intro z hz
  obtain ⟨N, C, n, S, S', hin, hx, hx', hv⟩ := shape_of h
  cases e : Normalization.inst d a false r x' H with
  | error e' => rw [e] at hz; cases hz
  | ok w =>
    have hS : S'.length = d := by rw [hin.2.1, ← hin.1, hu]
    obtain ⟨hC, hd⟩ := features_of_inst hS ht hx' e
    obtain ⟨y, y1, y2, y3⟩ := Normalization.C70_instance_eval d hd a ht r x H N C n S (by rw [← hin.2.1, hS]) hx hC
    obtain ⟨y', z1, z2, z3⟩ := Normalization.C70_instance_eval d hd a ht r x' H N C n S' hS hx' hC
    rw [z1] at e hz
    cases e
    cases hz
    exact ⟨(y, H), by rw [y1]; rfl, norm hin hx hx' hv y2 z2 y3 z3, rfl⟩

/-! ## networks -/

/-- a layer without padding that steps by `st` along the spatial axes: activations, normalisation in evaluation mode with
running statistics, convolutions made without padding; a separable convolution steps by the square of its stride. -/
def Steps (st : List ℕ) : Net.Block G d → Prop
  | .act _ => st = List.replicate d 1
  | .batch a training _ => st = List.replicate d 1 ∧ training = false ∧ a.track = true
  | .inst a training _ => st = List.replicate d 1 ∧ training = false ∧ a.track = true
  | .groupSE M _ _ bias => Unpadded d st M.layer ∧ BiasShape bias M.layer.outC d
  | .separableSE M _ _ _ bias => (∃ s, Unpadded d s M.layer ∧ st = List.zipWith (· * ·) s s) ∧ BiasShape bias M.layer.outC d
  | .groupE M _ _ bias => Unpadded d st M.layer ∧ BiasShape bias M.layer.outC d
  | .separableE M _ _ _ bias => (∃ s, Unpadded d s M.layer ∧ st = List.zipWith (· * ·) s s) ∧ BiasShape bias M.layer.outC d

theorem ones (hu : u.length = d) : List.zipWith (· * ·) (List.replicate d 1) u = u := by
  subst hu
  induction u with
  | nil => rfl
  | cons a u ih => rw [List.length_cons, List.replicate_succ, List.zipWith_cons_cons, ih, Nat.one_mul]

theorem square : ∀ (s u : List ℕ), List.zipWith (· * ·) (List.zipWith (· * ·) s s) u = List.zipWith (· * ·) s (List.zipWith (· * ·) s u)
  | [], _ => rfl
  | _ :: _, [] => rfl
  | a :: s, b :: u => by
    simp only [List.zipWith_cons_cons]
    rw [square s u, Nat.mul_assoc]

theorem steps_length {st : List ℕ} {b : Net.Block G d} (hb : Steps st b) : st.length = d := by
  have hU : ∀ {s : List ℕ} {L : Layer}, Unpadded d s L → s.length = d := fun h => by
    obtain ⟨a, mode, ax, rfl, rfl, -⟩ := h; simp
  cases b with
  | act => unfold Steps at hb; simp [hb]
  | batch => unfold Steps at hb; simp [hb.1]
  | inst => unfold Steps at hb; simp [hb.1]
  | groupSE => exact hU hb.1
  | groupE => exact hU hb.1
  | separableSE => obtain ⟨⟨s, h, rfl⟩, -⟩ := hb; simp [hU h]
  | separableE => obtain ⟨⟨s, h, rfl⟩, -⟩ := hb; simp [hU h]

theorem block {st : List ℕ} (hu : u.length = d) (b : Net.Block G d) (hb : Steps st b) (H : Tensor G)
    (h : Cropped (List.zipWith (· * ·) st u) 3 x x') : Transfers (CroppedLayer u 3) (b.call x H) (b.call x' H) := by
  cases b with
  | act a =>
    unfold Steps at hb
    rw [hb, ones hu] at h
    exact C95_act a H h
  | batch a t r =>
    obtain ⟨rfl, rfl, ht⟩ := hb
    rw [ones hu] at h
    exact C95_batch_norm a ht r H h
  | inst a t r =>
    obtain ⟨rfl, rfl, ht⟩ := hb
    rw [ones hu] at h
    exact C95_instance_norm hu a ht r H h
  | groupSE M move w bias => exact C95_group hb.1 M.kernel hb.2 hu w _ _ h
  | groupE M move w bias => exact C95_group hb.1 M.kernel hb.2 hu w _ _ h
  | separableSE M move wH w bias =>
    obtain ⟨⟨s, hs, rfl⟩, hb⟩ := hb
    rw [square] at h
    exact C95_separable hs M.kernel hb hu wH w _ _ h
  | separableE M move wH w bias =>
    obtain ⟨⟨s, hs, rfl⟩, hb⟩ := hb
    rw [square] at h
    exact C95_separable hs M.kernel hb hu wH w _ _ h

/-- Networks of any depth: whenever the network accepts the crop it accepts the image, and its features on the crop are
exactly its features on the image from `u` on. -/
theorem C95_network (hu : u.length = d) {sts : List (List ℕ)} {bs : List (Net.Block G d)} (hb : List.Forall₂ Steps sts bs) (H : Tensor G)
    (h : Cropped (cropStart sts u) 3 x x') : Transfers (CroppedLayer u 3) (Net.run bs (x, H)) (Net.run bs (x', H)) := by
  induction hb generalizing x x' H with
  | nil => intro b hb; cases hb; exact ⟨_, rfl, h, rfl⟩
  | @cons st b sts bs hb hbs ih =>
    unfold Net.run
    have hl : ∀ {sts : List (List ℕ)} {bs : List (Net.Block G d)}, List.Forall₂ Steps sts bs → (cropStart sts u).length = d := by
      intro sts bs h
      induction h with
      | nil => exact hu
      | cons h _ ih => unfold cropStart; rw [List.length_zipWith, steps_length h, ih, min_self]
    refine Transfers.bind (block (hl hbs) b hb H h) fun p q h => ?_
    obtain ⟨p, P⟩ := p
    obtain ⟨q, Q⟩ := q
    obtain ⟨h, e⟩ := h
    cases e
    exact ih _ h

theorem cropStart_length (hu : u.length = d) {sts : List (List ℕ)} {bs : List (Net.Block G d)} (h : List.Forall₂ Steps sts bs) :
    (cropStart sts u).length = d := by
  induction h with
  | nil => exact hu
  | cons h _ ih => unfold cropStart; rw [List.length_zipWith, steps_length h, ih, min_self]

/-- a lifting convolution followed by layers of any kind and number. -/
theorem C95_lifted_network (hu : u.length = d) (M : Module G d) {st : List ℕ} (hM : Unpadded d st M.layer) (move : G → G) (w : Tensor ℝ)
    {bias : Option (Tensor ℝ)} (hbias : BiasShape bias M.layer.outC d) {sts : List (List ℕ)} {bs : List (Net.Block G d)}
    (hb : List.Forall₂ Steps sts bs) (H : Option (Tensor G)) (h : Cropped (cropStart (st :: sts) u) 2 x x') :
    Transfers (CroppedLayer u 3) (M.lift move w bias x H >>= Net.run bs) (M.lift move w bias x' H >>= Net.run bs) := by
  refine Transfers.bind (C95_lifting hM M.kernel hbias (cropStart_length hu hb) w _ h) fun p q h => ?_
  obtain ⟨p, P⟩ := p
  obtain ⟨q, Q⟩ := q
  obtain ⟨h, e⟩ := h
  cases e
  exact C95_network hu hb _ h

/-! ## the public classes -/

theorem unpadded {nd inC outC ks dil stride : ℕ} {gks : GroupSize} {groups : ℤ} {mode pm : String} {p : PadArg}
    (hnd : (mode = "2d" ∧ nd = 2) ∨ (mode = "3d" ∧ nd = 3)) (hp : p = .int 0 ∨ p = .str "valid") {L : Layer}
    (h : init (argsNd mode nd inC outC ks gks groups stride p dil pm) (List.replicate nd ks) = .ok L) :
    Unpadded nd (List.replicate nd stride) L := by
  have ha := (C58_accepts (argsNd mode nd inC outC ks gks groups stride p dil pm) _ _ _ rfl rfl).1 ⟨L, h⟩
  have hk : kernelDims (List.replicate nd (⟨ks, stride, dil, 0, 0⟩ : Axis)) = List.replicate nd ks := by simp [kernelDims]
  obtain ⟨m, hm⟩ : ∃ m, PadModeName pm m := by
    rcases ha.2.2.2.2.2.1 with e | e | e | e
    · exact ⟨.zeros, Or.inl ⟨e, rfl⟩⟩
    · exact ⟨.reflect, Or.inr (Or.inl ⟨e, rfl⟩)⟩
    · exact ⟨.replicate, Or.inr (Or.inr (Or.inl ⟨e, rfl⟩))⟩
    · exact ⟨.circular, Or.inr (Or.inr (Or.inr ⟨e, rfl⟩))⟩
  refine ⟨argsNd mode nd inC outC ks gks groups stride p dil pm, m, List.replicate nd ⟨ks, stride, dil, 0, 0⟩, by simp, by simp, ⟨?_, hk.symm, by simp [argsNd], by simp [argsNd], ?_, hm⟩, ?_,
    by rw [hk]; exact h⟩
  · rcases hnd with ⟨rfl, rfl⟩ | ⟨rfl, rfl⟩
    · exact Or.inl ⟨rfl, rfl⟩
    · exact Or.inr ⟨rfl, rfl⟩
  · show PadsAs p _
    rcases hp with rfl | rfl
    · intro a ha
      rw [(List.mem_replicate.1 ha).2]
      exact ⟨rfl, rfl⟩
    · refine Or.inr ⟨rfl, fun a ha => ?_⟩
      rw [(List.mem_replicate.1 ha).2]
      exact ⟨rfl, rfl⟩
  · rcases hp with rfl | rfl
    · exact Or.inl rfl
    · exact Or.inr (Or.inl rfl)

/-- The premade SE(2), SE(3), E(2), E(3) modules made with `padding=0` or `padding='valid'`, for every stride, dilation and
padding mode. -/
theorem C95_modules (c : ConvOpts) (hp : c.padding = .int 0 ∨ c.padding = .str "valid") (s : GridCache.Store (Tensor ℝ)) (opt opt' : List SO3.Euler) :
    (∀ k M, liftingSE2 k c = .ok M ∨ fullSE2 k c = .ok M → Unpadded 2 [c.stride, c.stride] M.layer) ∧
    (∀ k M, liftingSE3 s opt k c = .ok M ∨ fullSE3 s opt k c = .ok M → Unpadded 3 [c.stride, c.stride, c.stride] M.layer) ∧
    (∀ k M, liftingE2 k c = .ok M ∨ fullE2 k c = .ok M → Unpadded 2 [c.stride, c.stride] M.layer) ∧
    (∀ k M, liftingE3 s opt opt' k c = .ok M ∨ fullE3 s opt opt' k c = .ok M → Unpadded 3 [c.stride, c.stride, c.stride] M.layer) := by
  refine ⟨fun k M h => ?_, fun k M h => ?_, fun k M h => ?_, fun k M h => ?_⟩
  · rcases h with h | h
    · obtain ⟨K, hK, hL, -, -⟩ := build_ok h
      unfold argsSE2 at hL
      rw [liftingSE2_size hK] at hL
      exact unpadded (Or.inl ⟨rfl, rfl⟩) hp hL
    · obtain ⟨K, hK, hL, -, -⟩ := build_ok h
      unfold argsSE2 at hL
      rw [fullSE2_size hK] at hL
      exact unpadded (Or.inl ⟨rfl, rfl⟩) hp hL
  · rcases h with h | h
    · obtain ⟨K, hK, hL, -, -⟩ := build_ok h
      unfold argsSE3 at hL
      rw [(liftingSE3_size hK).1] at hL
      exact unpadded (Or.inr ⟨rfl, rfl⟩) hp hL
    · obtain ⟨K, hK, hL, -, -⟩ := build_ok h
      unfold argsSE3 at hL
      rw [fullSE3_size hK] at hL
      exact unpadded (Or.inr ⟨rfl, rfl⟩) hp hL
  · rcases h with h | h
    · obtain ⟨K, hK, hL, -, -⟩ := build_ok h
      unfold argsE2 at hL
      rw [liftingE2_size hK] at hL
      exact unpadded (Or.inl ⟨rfl, rfl⟩) hp hL
    · obtain ⟨K, hK, hL, -, -⟩ := build_ok h
      unfold argsE2 at hL
      rw [fullE2_size hK] at hL
      exact unpadded (Or.inl ⟨rfl, rfl⟩) hp hL
  · rcases h with h | h
    · obtain ⟨K, hK, hL, -, -⟩ := build_ok h
      unfold argsE3 at hL
      rw [(liftingE3_size hK).1] at hL
      exact unpadded (Or.inr ⟨rfl, rfl⟩) hp hL
    · obtain ⟨K, hK, hL, -, -⟩ := build_ok h
      unfold argsE3 at hL
      rw [fullE3_size hK] at hL
      exact unpadded (Or.inr ⟨rfl, rfl⟩) hp hL

/-! ## a case that succeeds -/

/-- `stride=2`, `dilation=2`, no padding. -/
def cropOpts : ConvOpts := { stride := 2, dilation := 2, padding := .str "valid", permute := false }

/-- `GConvSE2` with kernel extent 5, then `GReLU`, on three 29 x 30 images, and on the crops of extents 15 x 16 with corner (6, 4):
the features of the crop are the features of the image from (3, 2) on. -/
example (n : ℕ) (hn : 0 < n) (w input input' inH : Tensor ℝ)
    (hw : w.shape = [(KernelSE2.grid (KernelSE2.exArgs n)).shape.headD 0, 6, 2, 5, 5])
    (hx : input.shape = [3, 4, n, 29, 30]) (hx' : input'.shape = [3, 4, n, 15, 16]) (hin : inH.shape = [n])
    (h : ∀ b c i u v, b < 3 → c < 4 → i < n → u < 15 → v < 16 → input'.get [b, c, i, u, v] = input.get [b, c, i, 6 + u, 4 + v]) :
    ∃ M out out', fullSE2 (KernelSE2.exArgs n) cropOpts = .ok M ∧
      Net.run [.groupSE M id w none, .act .relu] (input, inH) = .ok (out, inH) ∧
      Net.run [.groupSE M id w none, .act .relu] (input', inH) = .ok (out', inH) ∧
      out'.shape = [3, 6, n, 4, 4] ∧
      ∀ b c i u v, b < 3 → c < 6 → i < n → u < 4 → v < 4 →
        out'.get [b, c, i, u, v] = out.get [b, c, i, 3 + u, 2 + v] := by
  have ha : Accepted (argsSE2 (KernelSE2.exArgs n) cropOpts) := by
    refine ⟨fun l h => (by cases h), (by decide : (0 : ℤ) < 2), (by decide : (2 : ℤ) ∣ (4 : ℕ)), (by decide : (2 : ℤ) ∣ (6 : ℕ)),
      fun s h => ?_, Or.inl rfl, Or.inl rfl⟩
    cases h
    exact Or.inl rfl
  obtain ⟨L, hL⟩ := (C58_accepts _ _ _ [5, 5] rfl rfl).2 ha
  have hM : ∃ M : Module ℝ 2, fullSE2 (KernelSE2.exArgs n) cropOpts = .ok M ∧ M.permute = false := by
    unfold fullSE2 build
    rw [KernelSE2.full_eq (KernelSE2.exReady n hn), ok_bind]
    have : ∀ s, (KernelSE2.base (KernelSE2.exArgs n) s).kernelSize = [5, 5] := fun _ => rfl
    rw [this, hL, ok_bind]
    exact ⟨_, rfl, rfl⟩
  obtain ⟨M, hM, hMp⟩ := hM
  have hgeo : HasGeometry (argsSE2 (KernelSE2.exArgs n) cropOpts) .zeros [⟨5, 2, 2, 0, 0⟩, ⟨5, 2, 2, 0, 0⟩] :=
    ⟨Or.inl ⟨rfl, rfl⟩, rfl, rfl, rfl, by
      refine Or.inr ⟨rfl, fun a ha => ?_⟩
      rcases List.mem_pair.1 ha with rfl | rfl <;> exact ⟨rfl, rfl⟩, Or.inl ⟨rfl, rfl⟩⟩
  have hok : ∀ (s : ℕ), 9 ≤ s → (⟨5, 2, 2, 0, 0⟩ : Axis).Ok .zeros s := fun s h2 =>
    ⟨by norm_num, by norm_num, by norm_num, by unfold Axis.span; simp only; omega, by simp [F.padAllowed]⟩
  have hb : BiasShape none 6 2 := fun b hb => by cases hb
  obtain ⟨_, out', o1, o2, -⟩ := C61_SE2 (KernelSE2.exArgs n) cropOpts defaultModes 1 (KernelSE2.exReady n hn) hM hgeo
    (S := [15, 16]) (List.Forall₂.cons (hok 15 (by norm_num)) (List.Forall₂.cons (hok 16 (by norm_num)) .nil))
    w (by rw [hw]; simp [KernelSE2.exArgs]) none hb 3 n n input' hx' inH hin none hin id inH rfl
  have e1 : Net.run [.groupSE M id w none, .act .relu] (input', inH) = .ok (out'.map F.relu, inH) := by
    unfold Net.run
    show (M.groupSE id w none input' inH none >>= Net.run [.act .relu]) = _
    rw [o1]
    rfl
  obtain ⟨⟨out, H'⟩, e2, h, e⟩ := C95_network (G := ℝ) (d := 2) (u := [3, 2]) rfl (sts := [[2, 2], [1, 1]]) (bs := [.groupSE M id w none, .act .relu])
    (.cons ⟨(C95_modules cropOpts (Or.inr rfl) (fun _ _ => none) [] []).1 _ M (Or.inr hM), fun _ h => by cases h⟩ (.cons rfl .nil)) inH
    (x := input) (x' := input') ⟨[29, 30], [15, 16], ⟨rfl, rfl, fun i hi => by
      have : i < 2 := hi
      interval_cases i <;> decide⟩, [3, 4, n], rfl, hx, hx', fun i q hi hq => by
      obtain ⟨b, _, rfl, hb, hi⟩ := InB_cons_left hi
      obtain ⟨c, _, rfl, hc, hi⟩ := InB_cons_left hi
      obtain ⟨i, _, rfl, hi', hi⟩ := InB_cons_left hi
      cases InB_nil_left hi
      obtain ⟨u, _, rfl, hu, hq⟩ := InB_cons_left hq
      obtain ⟨v, _, rfl, hv, hq⟩ := InB_cons_left hq
      cases InB_nil_left hq
      exact h b c i u v hb hc hi' hu hv⟩ _ e1
  cases e
  obtain ⟨O, O', -, p, hp, hs, hs', hv⟩ := h
  have hos : (out'.map F.relu).shape = [3, 6, n, 4, 4] := o2
  rw [hos] at hs'
  obtain ⟨rfl, rfl⟩ := List.append_inj (s₁ := [3, 6, n]) (t₁ := [4, 4]) hs' (by rw [hp]; rfl)
  refine ⟨M, out, out'.map F.relu, hM, e2, e1, hos, fun b c i u v hb hc hi hu hv' => ?_⟩
  exact hv [b, c, i] [u, v] (by simp [hb, hc, hi]) (by simp [hu, hv'])

end GConv.Crop

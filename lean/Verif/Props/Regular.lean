import Verif.Props.Network
import Verif.Props.DefaultGrids
import Verif.Props.Tables
import Verif.Props.SO3Log

/-! # C97: on a finite group of elements, a group element acts by permuting the group axis -/

namespace GConv.Net

open Tensor Spec Conv GroupKernel F

variable {G : Type} {d : ℕ}

/-- The layer returns the group elements `H` it was given: convolutions are built with `permute_output_grid=False`, and those of
E(2) / E(3), which ignore the elements of their input, have the reference grid `H`. -/
def KeepsGrid (H : Tensor G) : Block G d → Prop
  | .act _ => True
  | .batch _ _ _ => True
  | .inst _ _ _ => True
  | .groupSE M _ _ _ => M.permute = false
  | .separableSE M _ _ _ _ => M.permute = false
  | .groupE M _ _ _ => M.permute = false ∧ M.kernel.gridH = H
  | .separableE M _ _ _ _ => M.permute = false ∧ M.kernel.gridH = H

/-- no element is listed twice. -/
def Distinct (n : ℕ) (H : Tensor G) : Prop := ∀ i j, i < n → j < n → H.get [i] = H.get [j] → i = j

theorem folded_grid {norm : Tensor ℝ → Except PyErr (Tensor ℝ × Running)} {x : Tensor ℝ} {H : Tensor G} {r : (Tensor ℝ × Tensor G) × Running}
    (h : Normalization.folded norm x H = .ok r) : r.1.2 = H := by
  unfold Normalization.folded at h
  split at h
  · obtain ⟨_, -, h⟩ := bind_ok h
    obtain ⟨_, -, h⟩ := bind_ok h
    obtain ⟨_, -, h⟩ := bind_ok h
    cases h; rfl
  · cases h

theorem map_fst_ok {α β : Type} {e : Except PyErr (α × β)} {a : α} (h : e.map Prod.fst = .ok a) : ∃ b, e = .ok (a, b) := by
  cases e with
  | error e => cases h
  | ok r => cases h; exact ⟨r.2, rfl⟩

theorem permute_off {M : Module G d} {move : G → G} {H : Tensor G} (h : M.permute = false) : permuteGrid M.permute move H = H := by
  rw [h]; rfl

theorem call_grid {b : Block G d} {x y : Tensor ℝ} {H K : Tensor G} (hb : KeepsGrid H b) (h : b.call x H = .ok (y, K)) : K = H := by
  cases b with
  | act a =>
    change Activations.Act.forward a x H = _ at h
    unfold Activations.Act.forward at h
    obtain ⟨_, -, h⟩ := bind_ok h
    cases h; rfl
  | batch a t r =>
    obtain ⟨s, hs⟩ := map_fst_ok h
    exact folded_grid hs
  | inst a t r =>
    obtain ⟨s, hs⟩ := map_fst_ok h
    exact folded_grid hs
  | groupSE M move weight bias => exact (groupForward_snd h).trans (permute_off hb)
  | separableSE M move weightH weight bias => exact (separableForward_snd h).trans (permute_off hb)
  | groupE M move weight bias => exact ((groupForward_snd h).trans (permute_off hb.1)).trans hb.2
  | separableE M move weightH weight bias => exact ((separableForward_snd h).trans (permute_off hb.1)).trans hb.2

theorem run_grid {H : Tensor G} : ∀ {bs : List (Block G d)} {x y : Tensor ℝ} {K : Tensor G}, (∀ b ∈ bs, KeepsGrid H b) →
    run bs (x, H) = .ok (y, K) → K = H
  | [], _, _, _, _, h => by cases h; rfl
  | b :: bs, x, y, K, hb, h => by
    obtain ⟨⟨z, L⟩, hz, h2⟩ := bind_ok (show (b.call x H >>= run bs) = _ from h)
    have hL := call_grid (hb b List.mem_cons_self) hz
    rw [hL] at h2
    exact run_grid (fun c hc => hb c (List.mem_cons_of_mem _ hc)) h2

/-- Both feature maps live on the same list of different elements: the entry of the second at the position of `left h` is the
entry of the first at the position of `h`. -/
theorem regular {e : Equiv.Perm (Fin d)} {σ : LatticeSym d} {left : G → G} {Good : G → Prop} {N C n : ℕ} {S' S : List ℕ}
    {x x' : Tensor ℝ} {H : Tensor G} (hd : Distinct n H) (h : MovedFeature e σ left Good N C n S' S x H x' H) {i j : ℕ} (hi : i < n) (hj : j < n)
    (hij : H.get [j] = left (H.get [i])) {b c : ℕ} (hb : b < N) (hc : c < C) {q : List ℕ} (hq : InB S' q) :
    x'.get (b :: c :: j :: σ.move e S q) = x.get (b :: c :: i :: q) := by
  obtain ⟨-, -, -, π, ⟨-, -, hπ⟩, hx⟩ := h
  have h1 := hπ ⟨i, hi⟩
  rw [← hij] at h1
  have : (π ⟨i, hi⟩ : ℕ) = j := hd _ _ (π ⟨i, hi⟩).2 hj h1
  rw [← this]
  exact hx b c q ⟨i, hi⟩ hb hc hq

/-- The two passes of a network whose layers all keep the group elements `H`. -/
theorem regular_network {e : Equiv.Perm (Fin d)} {σ : LatticeSym d} {left : G → G} {Good : G → Prop} {N n : ℕ}
    {bs bs' : List (Block G d)} {H : Tensor G} (hH : H.shape = [n]) (hd : Distinct n H) (hk : ∀ b ∈ bs, KeepsGrid H b)
    (hk' : ∀ b ∈ bs', KeepsGrid H b) {u v : Except PyErr (Tensor ℝ × Tensor G)} (hu : ∀ r, u = .ok r → r.2 = H) (hv : ∀ r, v = .ok r → r.2 = H)
    {t : Sizes} {y y' : Tensor ℝ} {Hy Hy' : Tensor G} (h1 : (u >>= run bs) = .ok (y, Hy)) (h2 : (v >>= run bs') = .ok (y', Hy'))
    (h : MovedFeature e σ left Good N t.channels t.elements t.before t.after y Hy y' Hy') :
    (u >>= run bs) = .ok (y, H) ∧ (v >>= run bs') = .ok (y', H) ∧ y.shape = N :: t.channels :: n :: t.before ∧ y'.shape = N :: t.channels :: n :: t.after ∧
      ∀ i j, i < n → j < n → H.get [j] = left (H.get [i]) → ∀ b c q, b < N → c < t.channels → InB t.before q →
        y'.get (b :: c :: j :: σ.move e t.after q) = y.get (b :: c :: i :: q) := by
  obtain ⟨⟨x, L⟩, hx, hx2⟩ := bind_ok h1
  obtain rfl := hu _ hx
  obtain ⟨⟨x', L'⟩, hx', hx2'⟩ := bind_ok h2
  obtain rfl := hv _ hx'
  obtain rfl := run_grid hk hx2
  obtain rfl := run_grid hk' hx2'
  obtain ⟨π, ⟨hs, -⟩, -⟩ := h.2.2.2
  have hn : t.elements = n := by rw [hH] at hs; cases hs; rfl
  rw [hn] at h
  exact ⟨h1, h2, h.1, h.2.1, fun i j hi hj hij b c q hb hc hq => regular hd h hi hj hij hb hc hq⟩

/-- Network of SE2 layers whose group elements stay a fixed list of different elements that the symmetry puts in another order. The
feature map of the turned image has, at the position of the element `g h`, the turned entries of the feature map at `h`. -/
theorem C97_SE2 (k : KernelArgs ℝ ℕ) (c : ConvOpts) (hk : 2 ≤ k.kernelSize) {m p}
    (hm : SpatialModes k.spatialMode k.spatialPad m p)
    {M : Module ℝ 2} (hM : liftingSE2 k c = .ok M) {mode : F.CPad} {ax : List Axis}
    (hgeo : HasGeometry (argsSE2 k c) mode ax)
    (g : ℝ) {σ : LatticeSym 2} {S' S : List ℕ} (hσ : LatticeSym.Matches LatticeSym.ax2 σ S' S)
    (hS : GeomOk mode ax S) (hsym : SymmetricGeometry 2 ax S) (hg : SO2.angleToMatrix g = σ.matrix) (hpos : 0 < k.inC)
    (weight : Tensor ℝ) (hw : weight.shape = [k.outC, k.inC / k.groups, k.kernelSize, k.kernelSize])
    (bias : Option (Tensor ℝ)) (hb : BiasShape bias k.outC 2) (N n : ℕ) (x x' : Tensor ℝ)
    (H : Option (Tensor ℝ)) (move move' : ℝ → ℝ) (hp : c.permute = false)
    (hcl : ClosedGrid (SO2.leftApplyAngle g) n (H.getD M.kernel.gridH)) (hd : Distinct n (H.getD M.kernel.gridH))
    (hx : MovedTensor LatticeSym.ax2 σ [N, k.inC] S' S x x')
    {bs bs' : List (Block ℝ 2)} {t : Sizes}
    (hchain : Chain N (ConvSE2 g σ) bs bs' ⟨k.outC, n, outDims ax S', outDims ax S⟩ t)
    (hkeep : ∀ b ∈ bs, KeepsGrid (H.getD M.kernel.gridH) b) (hkeep' : ∀ b ∈ bs', KeepsGrid (H.getD M.kernel.gridH) b) :
    ∃ y y', (M.lift move weight bias x H >>= run bs) = .ok (y, H.getD M.kernel.gridH) ∧
      (M.lift move' weight bias x' H >>= run bs') = .ok (y', H.getD M.kernel.gridH) ∧
      y.shape = N :: t.channels :: n :: t.before ∧ y'.shape = N :: t.channels :: n :: t.after ∧
      ∀ i j, i < n → j < n → (H.getD M.kernel.gridH).get [j] = SO2.leftApplyAngle g ((H.getD M.kernel.gridH).get [i]) →
        ∀ b ch q, b < N → ch < t.channels → InB t.before q →
          y'.get (b :: ch :: j :: σ.move LatticeSym.ax2 t.after q) = y.get (b :: ch :: i :: q) := by
  have hMp : M.permute = false := by rw [(C72_options_SE2 k c M (Or.inl hM)).1, hp]
  obtain ⟨π, hπ⟩ := hcl
  have hne : (H.getD M.kernel.gridH).shape ≠ [] := by rw [hπ.1]; exact List.cons_ne_nil _ _
  have hlift : ∀ {mv x r}, M.lift mv weight bias x H = .ok r → r.2 = H.getD M.kernel.gridH := by
    intro mv x r hr
    rw [(C72_lifting M mv weight bias x H).2 r.1 r.2 hr hne, hMp]; rfl
  obtain ⟨y, Hy, y', Hy', a1, a2, a3⟩ := C75_SE2 k c hk hm hM hgeo g hσ hS hsym hg hpos weight hw bias hb N n x x' H H move move'
    (H.getD M.kernel.gridH) (H.getD M.kernel.gridH) (by rw [hp]; rfl) (by rw [hp]; rfl) hπ hx hchain
  exact ⟨y, y', regular_network hπ.1 hd hkeep hkeep' (fun r hr => hlift hr) (fun r hr => hlift hr) a1 a2 a3⟩

/-- Network of SE3 layers whose group elements stay a fixed list of different elements that the symmetry puts in another order. The
feature map of the turned image has, at the position of the element `g h`, the turned entries of the feature map at `h`. -/
theorem C97_SE3 (s : GridCache.Store (Tensor ℝ)) (opt : List SO3.Euler) (k : KernelArgs SO3.Mat3 ℕ) (c : ConvOpts) (hk : 2 ≤ k.kernelSize) {m p}
    (hm : SpatialModes k.spatialMode k.spatialPad m p)
    {M : Module SO3.Mat3 3} (hM : liftingSE3 s opt k c = .ok M) {mode : F.CPad} {ax : List Axis}
    (hgeo : HasGeometry (argsSE3 k c) mode ax)
    {σ : LatticeSym 3} {S' S : List ℕ} (hσ : LatticeSym.Matches LatticeSym.ax3 σ S' S)
    (hS : GeomOk mode ax S) (hsym : SymmetricGeometry 3 ax S) (hg : IsRotation σ.matrix) (hpos : 0 < k.inC)
    (weight : Tensor ℝ) (hw : weight.shape = [k.outC, k.inC / k.groups, k.kernelSize, k.kernelSize, k.kernelSize])
    (bias : Option (Tensor ℝ)) (hb : BiasShape bias k.outC 3) (N n : ℕ) (x x' : Tensor ℝ)
    (H : Option (Tensor SO3.Mat3)) (move move' : SO3.Mat3 → SO3.Mat3) (hp : c.permute = false)
    (hcl : ClosedGrid (SO3.leftApplyMatrix σ.matrix) n (H.getD M.kernel.gridH)) (hd : Distinct n (H.getD M.kernel.gridH))
    (hx : MovedTensor LatticeSym.ax3 σ [N, k.inC] S' S x x')
    {bs bs' : List (Block SO3.Mat3 3)} {t : Sizes}
    (hchain : Chain N (ConvSE3 s opt σ) bs bs' ⟨k.outC, n, outDims ax S', outDims ax S⟩ t)
    (hkeep : ∀ b ∈ bs, KeepsGrid (H.getD M.kernel.gridH) b) (hkeep' : ∀ b ∈ bs', KeepsGrid (H.getD M.kernel.gridH) b) :
    ∃ y y', (M.lift move weight bias x H >>= run bs) = .ok (y, H.getD M.kernel.gridH) ∧
      (M.lift move' weight bias x' H >>= run bs') = .ok (y', H.getD M.kernel.gridH) ∧
      y.shape = N :: t.channels :: n :: t.before ∧ y'.shape = N :: t.channels :: n :: t.after ∧
      ∀ i j, i < n → j < n → (H.getD M.kernel.gridH).get [j] = SO3.leftApplyMatrix σ.matrix ((H.getD M.kernel.gridH).get [i]) →
        ∀ b ch q, b < N → ch < t.channels → InB t.before q →
          y'.get (b :: ch :: j :: σ.move LatticeSym.ax3 t.after q) = y.get (b :: ch :: i :: q) := by
  have hMp : M.permute = false := by rw [(C72_options_SE3 s opt k c M (Or.inl hM)).1, hp]
  obtain ⟨π, hπ⟩ := hcl
  have hne : (H.getD M.kernel.gridH).shape ≠ [] := by rw [hπ.1]; exact List.cons_ne_nil _ _
  have hlift : ∀ {mv x r}, M.lift mv weight bias x H = .ok r → r.2 = H.getD M.kernel.gridH := by
    intro mv x r hr
    rw [(C72_lifting M mv weight bias x H).2 r.1 r.2 hr hne, hMp]; rfl
  obtain ⟨y, Hy, y', Hy', a1, a2, a3⟩ := C75_SE3 s opt k c hk hm hM hgeo hσ hS hsym hg hpos weight hw bias hb N n x x' H H move move'
    (H.getD M.kernel.gridH) (H.getD M.kernel.gridH) (by rw [hp]; rfl) (by rw [hp]; rfl) hπ hx hchain
  exact ⟨y, y', regular_network hπ.1 hd hkeep hkeep' (fun r hr => hlift hr) (fun r hr => hlift hr) a1 a2 a3⟩

/-- Network of E2 layers whose group elements stay a fixed list of different elements that the symmetry puts in another order. The
feature map of the turned image has, at the position of the element `g h`, the turned entries of the feature map at `h`. -/
theorem C97_E2 (k : KernelArgs O2.Elt SizeArg) (c : ConvOpts) (hk : 2 ≤ k.kernelSize) {m p}
    (hm : SpatialModes k.spatialMode k.spatialPad m p)
    {M : Module O2.Elt 2} (hM : liftingE2 k c = .ok M) {mode : F.CPad} {ax : List Axis}
    (hgeo : HasGeometry (argsE2 k c) mode ax)
    (g : O2.Elt) {σ : LatticeSym 2} {S' S : List ℕ} (hσ : LatticeSym.Matches LatticeSym.ax2 σ S' S)
    (hS : GeomOk mode ax S) (hsym : SymmetricGeometry 2 ax S) (h1 : g.1 = 1) (hg : g.1 • SO2.angleToMatrix g.2 = σ.matrix) (hpos : 0 < k.inC)
    (weight : Tensor ℝ) (hw : weight.shape = [k.outC, k.inC / k.groups, k.kernelSize, k.kernelSize])
    (bias : Option (Tensor ℝ)) (hb : BiasShape bias k.outC 2) (N n : ℕ) (x x' : Tensor ℝ)
    (H : Option (Tensor O2.Elt)) (move move' : O2.Elt → O2.Elt) (hp : c.permute = false)
    (hcl : ClosedGrid (O2.leftApplyAngle g) n (H.getD M.kernel.gridH)) (hd : Distinct n (H.getD M.kernel.gridH)) (hgood : ∀ i < n, (fun h : O2.Elt => h.1 = 1 ∨ h.1 = -1) ((H.getD M.kernel.gridH).get [i]))
    (hx : MovedTensor LatticeSym.ax2 σ [N, k.inC] S' S x x')
    {bs bs' : List (Block O2.Elt 2)} {t : Sizes}
    (hchain : Chain N (ConvE2 g σ) bs bs' ⟨k.outC, n, outDims ax S', outDims ax S⟩ t)
    (hkeep : ∀ b ∈ bs, KeepsGrid (H.getD M.kernel.gridH) b) (hkeep' : ∀ b ∈ bs', KeepsGrid (H.getD M.kernel.gridH) b) :
    ∃ y y', (M.lift move weight bias x H >>= run bs) = .ok (y, H.getD M.kernel.gridH) ∧
      (M.lift move' weight bias x' H >>= run bs') = .ok (y', H.getD M.kernel.gridH) ∧
      y.shape = N :: t.channels :: n :: t.before ∧ y'.shape = N :: t.channels :: n :: t.after ∧
      ∀ i j, i < n → j < n → (H.getD M.kernel.gridH).get [j] = O2.leftApplyAngle g ((H.getD M.kernel.gridH).get [i]) →
        ∀ b ch q, b < N → ch < t.channels → InB t.before q →
          y'.get (b :: ch :: j :: σ.move LatticeSym.ax2 t.after q) = y.get (b :: ch :: i :: q) := by
  have hMp : M.permute = false := by rw [(C72_options_E2 k c M _ _ rfl (Or.inl hM)).1, hp]
  obtain ⟨π, hπ⟩ := hcl
  have hne : (H.getD M.kernel.gridH).shape ≠ [] := by rw [hπ.1]; exact List.cons_ne_nil _ _
  have hlift : ∀ {mv x r}, M.lift mv weight bias x H = .ok r → r.2 = H.getD M.kernel.gridH := by
    intro mv x r hr
    rw [(C72_lifting M mv weight bias x H).2 r.1 r.2 hr hne, hMp]; rfl
  obtain ⟨y, Hy, y', Hy', a1, a2, a3⟩ := C75_E2 k c hk hm hM hgeo g hσ hS hsym h1 hg hpos weight hw bias hb N n x x' H H move move'
    (H.getD M.kernel.gridH) (H.getD M.kernel.gridH) (by rw [hp]; rfl) (by rw [hp]; rfl) hπ hgood hx hchain
  exact ⟨y, y', regular_network hπ.1 hd hkeep hkeep' (fun r hr => hlift hr) (fun r hr => hlift hr) a1 a2 a3⟩

/-- Network of E3 layers whose group elements stay a fixed list of different elements that the symmetry puts in another order. The
feature map of the turned image has, at the position of the element `g h`, the turned entries of the feature map at `h`. -/
theorem C97_E3 (s : GridCache.Store (Tensor ℝ)) (opt1 opt2 : List SO3.Euler) (k : KernelArgs O3.Elt SizeArg) (c : ConvOpts) (hk : 2 ≤ k.kernelSize) {m p}
    (hm : SpatialModes k.spatialMode k.spatialPad m p)
    {M : Module O3.Elt 3} (hM : liftingE3 s opt1 opt2 k c = .ok M) {mode : F.CPad} {ax : List Axis}
    (hgeo : HasGeometry (argsE3 k c) mode ax)
    (g : O3.Elt) {σ : LatticeSym 3} {S' S : List ℕ} (hσ : LatticeSym.Matches LatticeSym.ax3 σ S' S)
    (hS : GeomOk mode ax S) (hsym : SymmetricGeometry 3 ax S) (h1 : O3.coef g = 1) (hv : O3.Valid g) (hg : O3.coef g • O3.rot g = σ.matrix) (hpos : 0 < k.inC)
    (weight : Tensor ℝ) (hw : weight.shape = [k.outC, k.inC / k.groups, k.kernelSize, k.kernelSize, k.kernelSize])
    (bias : Option (Tensor ℝ)) (hb : BiasShape bias k.outC 3) (N n : ℕ) (x x' : Tensor ℝ)
    (H : Option (Tensor O3.Elt)) (move move' : O3.Elt → O3.Elt) (hp : c.permute = false)
    (hcl : ClosedGrid (O3.leftApplyO3 g) n (H.getD M.kernel.gridH)) (hd : Distinct n (H.getD M.kernel.gridH)) (hgood : ∀ i < n, (O3.Valid) ((H.getD M.kernel.gridH).get [i]))
    (hx : MovedTensor LatticeSym.ax3 σ [N, k.inC] S' S x x')
    {bs bs' : List (Block O3.Elt 3)} {t : Sizes}
    (hchain : Chain N (ConvE3 s opt1 opt2 g σ) bs bs' ⟨k.outC, n, outDims ax S', outDims ax S⟩ t)
    (hkeep : ∀ b ∈ bs, KeepsGrid (H.getD M.kernel.gridH) b) (hkeep' : ∀ b ∈ bs', KeepsGrid (H.getD M.kernel.gridH) b) :
    ∃ y y', (M.lift move weight bias x H >>= run bs) = .ok (y, H.getD M.kernel.gridH) ∧
      (M.lift move' weight bias x' H >>= run bs') = .ok (y', H.getD M.kernel.gridH) ∧
      y.shape = N :: t.channels :: n :: t.before ∧ y'.shape = N :: t.channels :: n :: t.after ∧
      ∀ i j, i < n → j < n → (H.getD M.kernel.gridH).get [j] = O3.leftApplyO3 g ((H.getD M.kernel.gridH).get [i]) →
        ∀ b ch q, b < N → ch < t.channels → InB t.before q →
          y'.get (b :: ch :: j :: σ.move LatticeSym.ax3 t.after q) = y.get (b :: ch :: i :: q) := by
  have hMp : M.permute = false := by rw [(C72_options_E3 s opt1 opt2 k c M _ _ rfl (Or.inl hM)).1, hp]
  obtain ⟨π, hπ⟩ := hcl
  have hne : (H.getD M.kernel.gridH).shape ≠ [] := by rw [hπ.1]; exact List.cons_ne_nil _ _
  have hlift : ∀ {mv x r}, M.lift mv weight bias x H = .ok r → r.2 = H.getD M.kernel.gridH := by
    intro mv x r hr
    rw [(C72_lifting M mv weight bias x H).2 r.1 r.2 hr hne, hMp]; rfl
  obtain ⟨y, Hy, y', Hy', a1, a2, a3⟩ := C75_E3 s opt1 opt2 k c hk hm hM hgeo g hσ hS hsym h1 hv hg hpos weight hw bias hb N n x x' H H move move'
    (H.getD M.kernel.gridH) (H.getD M.kernel.gridH) (by rw [hp]; rfl) (by rw [hp]; rfl) hπ hgood hx hchain
  exact ⟨y, y', regular_network hπ.1 hd hkeep hkeep' (fun r hr => hlift hr) (fun r hr => hlift hr) a1 a2 a3⟩

/-! ## Lists of elements that form a group -/

/-- a list of different elements that an injective map takes to itself. -/
theorem closed_of_injective {left : G → G} {n : ℕ} {H : Tensor G} (hs : H.shape = [n]) (hd : Distinct n H)
    (hinj : ∀ i j, i < n → j < n → left (H.get [i]) = left (H.get [j]) → H.get [i] = H.get [j])
    (hcl : ∀ i < n, ∃ j < n, H.get [j] = left (H.get [i])) : ClosedGrid left n H := by
  choose f hf hfe using fun i : Fin n => hcl i i.2
  have hfi : Function.Injective (fun i => (⟨f i, hf i⟩ : Fin n)) := by
    intro i j hij
    have h1 : f i = f j := congrArg Fin.val hij
    have h2 := hfe i
    rw [h1, hfe j] at h2
    exact Fin.ext (hd _ _ i.2 j.2 (hinj _ _ i.2 j.2 h2.symm))
  exact ⟨Equiv.ofBijective _ (Finite.injective_iff_bijective.1 hfi), hs, hs, fun i => hfe i⟩

theorem uniform_get (n i : ℕ) (hi : i < n) : (Tensor.ofList (SO2.uniformGrid n)).get [i] = 2 * Real.pi * i / n := by
  show (SO2.uniformGrid n).getD i default = _
  rw [List.getD_eq_getElem?_getD, SO2.C03_value n i hi]; rfl

theorem uniform_value_inj {n i j : ℕ} (hn : 0 < n) (h : (2 * Real.pi * i / n : ℝ) = 2 * Real.pi * j / n) : i = j := by
  have hn' : (n : ℝ) ≠ 0 := by exact_mod_cast hn.ne'
  have := Real.pi_pos
  rw [div_left_inj' hn'] at h
  exact_mod_cast mul_left_cancel₀ (by positivity : (2 * Real.pi : ℝ) ≠ 0) h

/-- The elements of the uniform SO(2) grid are different. -/
theorem C97_distinct_SE2 (n : ℕ) : Distinct n (Tensor.ofList (SO2.uniformGrid n)) := by
  intro i j hi hj h
  rw [uniform_get n i hi, uniform_get n j hj] at h
  exact uniform_value_inj (by omega) h

/-- Rotation by `2πj/n` takes the `i`-th element of the uniform grid to the one at position `(i + j) mod n`. -/
theorem uniform_shift (n : ℕ) (hn : 0 < n) (i j : ℕ) :
    SO2.leftApplyAngle (2 * Real.pi * j / n) (2 * Real.pi * i / n) = 2 * Real.pi * ((i + j) % n : ℕ) / n := by
  have hp := two_pi_pos'
  have hn' : (0 : ℝ) < n := by exact_mod_cast hn
  unfold SO2.leftApplyAngle
  have hlt : (((i + j) % n : ℕ) : ℝ) < n := by exact_mod_cast Nat.mod_lt _ hn
  refine (EqMod.eq_of_range hp (EqMod.trans ?_ (pyMod_eqMod _ _).symm) (by positivity) ?_ (pyMod_nonneg hp) (pyMod_lt hp)).symm
  · have hq : ((i : ℕ) : ℝ) + j = n * (((i + j) / n : ℕ) : ℝ) + (((i + j) % n : ℕ) : ℝ) := by
      exact_mod_cast (Nat.div_add_mod (i + j) n).symm
    generalize (i + j) / n = q at hq
    refine ⟨-(q : ℤ), ?_⟩
    rw [Int.cast_neg, Int.cast_natCast]
    field_simp
    linear_combination (-1 : ℝ) * hq
  · rw [div_lt_iff₀ hn']
    exact mul_lt_mul_of_pos_left hlt hp

theorem o2_get (n : ℕ) : (Tensor.ofList (O2.uniformGrid n n)).shape = [n + n] ∧
    (∀ i < n, (Tensor.ofList (O2.uniformGrid n n)).get [i] = (1, 2 * Real.pi * i / n)) ∧
    (∀ i < n, (Tensor.ofList (O2.uniformGrid n n)).get [n + i] = (-1, 2 * Real.pi * i / n)) := by
  obtain ⟨h1, h2, h3⟩ := O2.C11_o2 n n
  refine ⟨by show [_] = [_]; rw [h1], fun i hi => ?_, fun i hi => ?_⟩
  · show (O2.uniformGrid n n).getD i default = _
    rw [List.getD_eq_getElem?_getD, h2 i hi]; rfl
  · show (O2.uniformGrid n n).getD (n + i) default = _
    rw [List.getD_eq_getElem?_getD, h3 i hi]; rfl

/-- The O(2) grid with as many reflections as rotations: different elements. -/
theorem C97_distinct_E2 (n : ℕ) : Distinct (n + n) (Tensor.ofList (O2.uniformGrid n n)) := by
  obtain ⟨-, h1, h2⟩ := o2_get n
  intro i j hi hj h
  by_cases ci : i < n <;> by_cases cj : j < n
  · rw [h1 i ci, h1 j cj] at h
    exact uniform_value_inj (by omega) (congrArg Prod.snd h)
  · rw [h1 i ci, show j = n + (j - n) by omega, h2 _ (by omega)] at h
    have := congrArg Prod.fst h
    norm_num at this
  · rw [h1 j cj, show i = n + (i - n) by omega, h2 _ (by omega)] at h
    have := congrArg Prod.fst h
    norm_num at this
  · rw [show i = n + (i - n) by omega, show j = n + (j - n) by omega, h2 _ (by omega), h2 _ (by omega)] at h
    have := uniform_value_inj (by omega) (congrArg Prod.snd h)
    omega

theorem o2_shift (n : ℕ) (hn : 0 < n) (i j : ℕ) (s t : ℝ) :
    O2.leftApplyAngle (s, 2 * Real.pi * j / n) (t, 2 * Real.pi * i / n) = (s * t, 2 * Real.pi * ((i + j) % n : ℕ) / n) := by
  have := uniform_shift n hn i j
  unfold SO2.leftApplyAngle at this
  unfold O2.leftApplyAngle
  rw [this]

/-- The O(2) grid with as many reflections as rotations is closed under each of its elements. -/
theorem C97_closed_E2 (n : ℕ) (hn : 0 < n) (j : ℕ) (s : ℝ) (hs : s = 1 ∨ s = -1) :
    ClosedGrid (O2.leftApplyAngle (s, 2 * Real.pi * j / n)) (n + n) (Tensor.ofList (O2.uniformGrid n n)) := by
  obtain ⟨h0, h1, h2⟩ := o2_get n
  have hp := Real.pi_pos
  have hnorm : ∀ i < n + n, O2.Normalised ((Tensor.ofList (O2.uniformGrid n n)).get [i]) := by
    have hr : ∀ i < n, (0 : ℝ) ≤ 2 * Real.pi * i / n ∧ 2 * Real.pi * i / n < 2 * Real.pi := by
      intro i hi
      have hn' : (0 : ℝ) < n := by exact_mod_cast hn
      refine ⟨by positivity, ?_⟩
      rw [div_lt_iff₀ hn']
      exact mul_lt_mul_of_pos_left (by exact_mod_cast hi) (by positivity)
    intro i hi
    by_cases ci : i < n
    · rw [h1 i ci]; exact hr i ci
    · rw [show i = n + (i - n) by omega, h2 _ (by omega)]; exact hr _ (by omega)
  have hval : O2.Valid (s, 2 * Real.pi * j / n) := hs
  refine closed_of_injective h0 (C97_distinct_E2 n) ?_ ?_
  · intro i k hi hk h
    have e : ∀ a, O2.Normalised a → O2.leftApplyAngle (O2.inverse (s, 2 * Real.pi * j / n)) (O2.leftApplyAngle (s, 2 * Real.pi * j / n) a) = a := by
      intro a ha
      rw [← O2.C08_assoc, (O2.C08_inverse _ hval).1, (O2.C08_neutral a ha).1]
    rw [← e _ (hnorm i hi), h, e _ (hnorm k hk)]
  · intro i hi
    have hm := Nat.mod_lt (i + j) hn
    have hm' := Nat.mod_lt (i - n + j) hn
    by_cases ci : i < n
    · rcases hs with rfl | rfl
      · exact ⟨(i + j) % n, by omega, by rw [h1 _ hm, h1 i ci, o2_shift n hn]; norm_num⟩
      · exact ⟨n + (i + j) % n, by omega, by rw [h2 _ hm, h1 i ci, o2_shift n hn]; norm_num⟩
    · have ei : (Tensor.ofList (O2.uniformGrid n n)).get [i] = (-1, 2 * Real.pi * (i - n : ℕ) / n) := by
        rw [← h2 (i - n) (by omega), show n + (i - n) = i by omega]
      rcases hs with rfl | rfl
      · exact ⟨n + (i - n + j) % n, by omega, by rw [h2 _ hm', ei, o2_shift n hn]; norm_num⟩
      · exact ⟨(i - n + j) % n, by omega, by rw [h1 _ hm', ei, o2_shift n hn]; norm_num⟩

/-- the matrices of a list of quaternions, as a grid. -/
noncomputable def matrixGrid (l : List SO3.Quat) : Tensor SO3.Mat3 := Tensor.ofList (l.map SO3.quatToMatrix)

theorem matrixGrid_get (l : List SO3.Quat) (i : ℕ) (hi : i < l.length) : (matrixGrid l).get [i] = SO3.quatToMatrix l[i] := by
  show (l.map SO3.quatToMatrix).getD i default = _
  rw [List.getD_eq_getElem?_getD, List.getElem?_map, List.getElem?_eq_getElem hi]; rfl

theorem neg_matrix (q : SO3.Quat) : SO3.quatToMatrix (-q) = SO3.quatToMatrix q := by
  ext i j
  fin_cases i <;> fin_cases j <;> simp [SO3.quatToMatrix]

/-- An exact group of rotations: its matrices are different, and multiplication by each of its elements puts them in another
order. -/
theorem rotationGroup_closed {l : List SO3.Quat} {n : ℕ} (h : SO3.RotationGroup l n 0) :
    Distinct n (matrixGrid l) ∧ ∀ p ∈ l, Spec.IsRotation (SO3.quatToMatrix p) ∧
      ClosedGrid (SO3.leftApplyMatrix (SO3.quatToMatrix p)) n (matrixGrid l) := by
  have hd : Distinct n (matrixGrid l) := by
    have key : ∀ i j (hi : i < l.length) (hj : j < l.length), i < j → SO3.quatToMatrix l[i] = SO3.quatToMatrix l[j] → False := by
      intro i j hi hj hij he
      obtain ⟨a, b, hab⟩ := List.pairwise_iff_getElem.1 h.distinct i j hi hj hij
      rw [he] at hab
      norm_num at hab
    intro i j hi hj hij
    rw [← h.size] at hi hj
    rw [matrixGrid_get l i hi, matrixGrid_get l j hj] at hij
    rcases lt_trichotomy i j with c | c | c
    · exact (key i j hi hj c hij).elim
    · exact c
    · exact (key j i hj hi c hij.symm).elim
  have hunit : ∀ p ∈ l, IsUnitQuat p := by
    intro p hp
    have := h.unit p hp
    have h0 := abs_nonpos_iff.1 this
    unfold IsUnitQuat; linarith
  refine ⟨hd, fun p hp => ?_⟩
  have hrot := SO3.C15_rotation p (hunit p hp)
  refine ⟨hrot, closed_of_injective (by show [_] = [_]; rw [List.length_map, h.size]) hd ?_ ?_⟩
  · intro i j _ _ hij
    unfold SO3.leftApplyMatrix at hij
    have := congrArg ((SO3.quatToMatrix p).transpose * ·) hij
    simpa only [← Matrix.mul_assoc, hrot.1, Matrix.one_mul] using this
  · intro i hi
    rw [← h.size] at hi
    obtain ⟨r, hr, hc⟩ := h.mul p hp l[i] (List.getElem_mem hi)
    obtain ⟨j, hj, rfl⟩ := List.getElem_of_mem hr
    refine ⟨j, h.size ▸ hj, ?_⟩
    rw [matrixGrid_get l i hi, matrixGrid_get l j hj]
    unfold SO3.leftApplyMatrix
    rw [← SO3.C15_product]
    rcases hc with hc | hc
    · congr 1
      funext a
      have := abs_nonpos_iff.1 (hc a)
      linarith
    · rw [← neg_matrix]
      congr 1
      funext a
      have := abs_nonpos_iff.1 (hc a)
      rw [Pi.neg_apply]; linarith

/-- `klein_group()` and `tetrahedral()`. -/
theorem C97_klein : Distinct 4 (matrixGrid SO3.kleinGroup) ∧ ∀ p ∈ SO3.kleinGroup, Spec.IsRotation (SO3.quatToMatrix p) ∧
    ClosedGrid (SO3.leftApplyMatrix (SO3.quatToMatrix p)) 4 (matrixGrid SO3.kleinGroup) := rotationGroup_closed SO3.C28_klein

theorem C97_tetrahedral : Distinct 12 (matrixGrid SO3.tetrahedral) ∧ ∀ p ∈ SO3.tetrahedral, Spec.IsRotation (SO3.quatToMatrix p) ∧
    ClosedGrid (SO3.leftApplyMatrix (SO3.quatToMatrix p)) 12 (matrixGrid SO3.tetrahedral) := rotationGroup_closed SO3.C28_tetrahedral


/-- With the default grid of `n` rotations and `permute_output_grid=False` everywhere: turning the image by `2πj/n` turns the
feature maps and moves the group axis cyclically by `j`. -/
theorem C97_SE2_uniform (k : KernelArgs ℝ ℕ) (c : ConvOpts) (n : ℕ) (hn : 0 < n) (hsize : k.groupKernelSize = n) (hdef : k.gridH = none) (hk : 2 ≤ k.kernelSize) {m p}
    (hm : SpatialModes k.spatialMode k.spatialPad m p)
    {M : Module ℝ 2} (hM : liftingSE2 k c = .ok M) {mode : F.CPad} {ax : List Axis}
    (hgeo : HasGeometry (argsSE2 k c) mode ax)
    (j : ℕ) {σ : LatticeSym 2} {S' S : List ℕ} (hσ : LatticeSym.Matches LatticeSym.ax2 σ S' S)
    (hS : GeomOk mode ax S) (hsym : SymmetricGeometry 2 ax S) (hg : SO2.angleToMatrix (2 * Real.pi * j / n) = σ.matrix) (hpos : 0 < k.inC)
    (weight : Tensor ℝ) (hw : weight.shape = [k.outC, k.inC / k.groups, k.kernelSize, k.kernelSize])
    (bias : Option (Tensor ℝ)) (hb : BiasShape bias k.outC 2) (N : ℕ) (x x' : Tensor ℝ)
    (move move' : ℝ → ℝ) (hp : c.permute = false)
    (hx : MovedTensor LatticeSym.ax2 σ [N, k.inC] S' S x x')
    {bs bs' : List (Block ℝ 2)} {t : Sizes}
    (hchain : Chain N (ConvSE2 (2 * Real.pi * j / n) σ) bs bs' ⟨k.outC, n, outDims ax S', outDims ax S⟩ t)
    (hkeep : ∀ b ∈ bs, KeepsGrid M.kernel.gridH b) (hkeep' : ∀ b ∈ bs', KeepsGrid M.kernel.gridH b) :
    ∃ y y', (M.lift move weight bias x none >>= run bs) = .ok (y, M.kernel.gridH) ∧
      (M.lift move' weight bias x' none >>= run bs') = .ok (y', M.kernel.gridH) ∧
      y.shape = N :: t.channels :: n :: t.before ∧ y'.shape = N :: t.channels :: n :: t.after ∧
      ∀ b ch i q, b < N → ch < t.channels → i < n → InB t.before q →
        y'.get (b :: ch :: ((i + j) % n) :: σ.move LatticeSym.ax2 t.after q) = y.get (b :: ch :: i :: q) := by
  have hgrid : M.kernel.gridH = Tensor.ofList (SO2.uniformGrid n) := by
    obtain ⟨K, hK, -, rfl, -⟩ := build_ok hM
    rw [liftingSE2_grid hK]; unfold KernelSE2.grid; rw [hdef, hsize]; rfl
  have hget := fun i hi => uniform_get n i hi
  rw [← hgrid] at hget
  obtain ⟨y, y', a1, a2, a3, a4, a5⟩ := C97_SE2 k c hk hm hM hgeo (2 * Real.pi * j / n) hσ hS hsym hg hpos weight hw bias hb N n x x' none move move' hp
    (by show ClosedGrid _ n M.kernel.gridH; rw [hgrid]; exact C75_uniform_closed n hn j) (by show Distinct n M.kernel.gridH; rw [hgrid]; exact C97_distinct_SE2 n) hx hchain hkeep hkeep'
  refine ⟨y, y', a1, a2, a3, a4, fun b ch i q hb' hc hi hq => a5 i _ hi (Nat.mod_lt _ hn) ?_ b ch q hb' hc hq⟩
  show M.kernel.gridH.get [(i + j) % n] = SO2.leftApplyAngle _ (M.kernel.gridH.get [i])
  rw [hget i hi, hget _ (Nat.mod_lt _ hn), uniform_shift n hn]

/-- With the default O(2) grid of `n` rotations and `n` reflections: turning the image by `2πj/n` moves the rotations cyclically by
`j` among themselves, and the reflections among themselves. -/
theorem C97_E2_uniform (k : KernelArgs O2.Elt SizeArg) (c : ConvOpts) (n : ℕ) (hn : 0 < n) (hsize : sizePair k.groupKernelSize = (n, n)) (hdef : k.gridH = none) (hk : 2 ≤ k.kernelSize) {m p}
    (hm : SpatialModes k.spatialMode k.spatialPad m p)
    {M : Module O2.Elt 2} (hM : liftingE2 k c = .ok M) {mode : F.CPad} {ax : List Axis}
    (hgeo : HasGeometry (argsE2 k c) mode ax)
    (j : ℕ) {σ : LatticeSym 2} {S' S : List ℕ} (hσ : LatticeSym.Matches LatticeSym.ax2 σ S' S)
    (hS : GeomOk mode ax S) (hsym : SymmetricGeometry 2 ax S) (hg : SO2.angleToMatrix (2 * Real.pi * j / n) = σ.matrix) (hpos : 0 < k.inC)
    (weight : Tensor ℝ) (hw : weight.shape = [k.outC, k.inC / k.groups, k.kernelSize, k.kernelSize])
    (bias : Option (Tensor ℝ)) (hb : BiasShape bias k.outC 2) (N : ℕ) (x x' : Tensor ℝ)
    (move move' : O2.Elt → O2.Elt) (hp : c.permute = false)
    (hx : MovedTensor LatticeSym.ax2 σ [N, k.inC] S' S x x')
    {bs bs' : List (Block O2.Elt 2)} {t : Sizes}
    (hchain : Chain N (ConvE2 (1, 2 * Real.pi * j / n) σ) bs bs' ⟨k.outC, n + n, outDims ax S', outDims ax S⟩ t)
    (hkeep : ∀ b ∈ bs, KeepsGrid M.kernel.gridH b) (hkeep' : ∀ b ∈ bs', KeepsGrid M.kernel.gridH b) :
    ∃ y y', (M.lift move weight bias x none >>= run bs) = .ok (y, M.kernel.gridH) ∧
      (M.lift move' weight bias x' none >>= run bs') = .ok (y', M.kernel.gridH) ∧
      y.shape = N :: t.channels :: (n + n) :: t.before ∧ y'.shape = N :: t.channels :: (n + n) :: t.after ∧
      ∀ b ch i q, b < N → ch < t.channels → i < n → InB t.before q →
        y'.get (b :: ch :: ((i + j) % n) :: σ.move LatticeSym.ax2 t.after q) = y.get (b :: ch :: i :: q) ∧
        y'.get (b :: ch :: (n + (i + j) % n) :: σ.move LatticeSym.ax2 t.after q) = y.get (b :: ch :: (n + i) :: q) := by
  have hgrid : M.kernel.gridH = Tensor.ofList (O2.uniformGrid n n) := by
    obtain ⟨K, hK, -, rfl, -⟩ := build_ok hM
    rw [liftingE2_grid hK]; unfold KernelE2.grid; rw [hdef, hsize]; rfl
  obtain ⟨-, g1, g2⟩ := o2_get n
  rw [← hgrid] at g1 g2
  have hgood : ∀ i < n + n, (fun h : O2.Elt => h.1 = 1 ∨ h.1 = -1) (M.kernel.gridH.get [i]) := by
    intro i hi
    by_cases ci : i < n
    · rw [g1 i ci]; exact Or.inl rfl
    · rw [show i = n + (i - n) by omega, g2 _ (by omega)]; exact Or.inr rfl
  obtain ⟨y, y', a1, a2, a3, a4, a5⟩ := C97_E2 k c hk hm hM hgeo (1, 2 * Real.pi * j / n) hσ hS hsym rfl (by rw [one_smul]; exact hg) hpos weight hw bias hb N (n + n) x x' none move move' hp
    (by show ClosedGrid _ _ M.kernel.gridH; rw [hgrid]; exact C97_closed_E2 n hn j 1 (Or.inl rfl)) (by show Distinct _ M.kernel.gridH; rw [hgrid]; exact C97_distinct_E2 n) hgood hx hchain hkeep hkeep'
  have hm := fun i => Nat.mod_lt (i + j) hn
  refine ⟨y, y', a1, a2, a3, a4, fun b ch i q hb' hc hi hq => ⟨a5 i _ (by omega) (by have := hm i; omega) ?_ b ch q hb' hc hq, a5 (n + i) _ (by omega) (by have := hm i; omega) ?_ b ch q hb' hc hq⟩⟩
  · show M.kernel.gridH.get [(i + j) % n] = O2.leftApplyAngle _ (M.kernel.gridH.get [i])
    rw [g1 i hi, g1 _ (hm i), o2_shift n hn]; norm_num
  · show M.kernel.gridH.get [n + (i + j) % n] = O2.leftApplyAngle _ (M.kernel.gridH.get [n + i])
    rw [g2 i hi, g2 _ (hm i), o2_shift n hn]; norm_num

/-- Lifting convolution, ReLU, batch normalisation in training mode, separable convolution, on the default grid of 4 rotations: a
quarter turn of the 8 x 9 images turns the feature maps and moves the group axis by one. -/
example (weight weightH weight₂ : Tensor ℝ) (hw : weight.shape = [6, 2, 5, 5]) (hwH : weightH.shape = [4, 6, 3])
    (hw₂ : weight₂.shape = [6, 1, 5, 5]) (r : Running) (x x' : Tensor ℝ)
    (hx : MovedTensor LatticeSym.ax2 KernelSE2.quarter [3, 4] [8, 9] [9, 8] x x')
    (M M₂ : Module ℝ 2) (hM : liftingSE2 (KernelSE2.exArgs 4) rotOpts = .ok M) (hM₂ : fullSE2 (exArgs₂ 4) rotOpts = .ok M₂) :
    ∃ y y', (M.lift id weight none x none >>= run [.act .relu, .batch exNorm true r, .separableSE M₂ id weightH weight₂ none]) = .ok (y, M.kernel.gridH) ∧
      (M.lift id weight none x' none >>= run [.act .relu, .batch exNorm true r, .separableSE M₂ id weightH weight₂ none]) = .ok (y', M.kernel.gridH) ∧
      y.shape = [3, 6, 4, 12, 13] ∧ y'.shape = [3, 6, 4, 13, 12] ∧
      ∀ b ch i p q, b < 3 → ch < 6 → i < 4 → InB [12, 13] [p, q] →
        y'.get [b, ch, (i + 1) % 4, 12 - q, p] = y.get [b, ch, i, p, q] := by
  obtain ⟨h1, h2, h3, h4⟩ := rot_geometry 4
  have e1 : (2 * Real.pi * (1 : ℕ) / (4 : ℕ) : ℝ) = Real.pi / 2 := by push_cast; ring
  have o1 : outDims (List.replicate 2 (sameAxis 5 1)) [8, 9] = [8, 9] := by simp [outDims, Axis.out, Axis.span, sameAxis]
  have o2 : outDims (List.replicate 2 (sameAxis 5 1)) [9, 8] = [9, 8] := by simp [outDims, Axis.out, Axis.span, sameAxis]
  have f : firstAxes .circular (.str "same") (List.replicate 2 (sameAxis 5 1)) = List.replicate 2 ⟨1, 1, 1, 2, 2⟩ := by
    simp [firstAxes, firstAxis, sameAxis]
  have f1 : outDims (List.replicate 2 ⟨1, 1, 1, 2, 2⟩) [8, 9] = [12, 13] := by simp [outDims, Axis.out, Axis.span]
  have f2 : outDims (List.replicate 2 ⟨1, 1, 1, 2, 2⟩) [9, 8] = [13, 12] := by simp [outDims, Axis.out, Axis.span]
  obtain ⟨g1, -, g2, -⟩ := C59_same_geometry 2 6 6 5 1 (.int 4) 2 "circular" .circular (Or.inr (Or.inr (Or.inr ⟨rfl, rfl⟩)))
    (by norm_num) (by norm_num) [13, 12] rfl (by simp [F.padAllowed])
  have g3 : GeomOk .circular (List.replicate 2 ⟨1, 1, 1, 2, 2⟩) [9, 8] :=
    .cons ⟨by norm_num, by norm_num, by norm_num, by simp [Axis.span], rfl⟩
      (.cons ⟨by norm_num, by norm_num, by norm_num, by simp [Axis.span], rfl⟩ .nil)
  have hchain : Chain 3 (ConvSE2 (Real.pi / 2) KernelSE2.quarter)
      [.act .relu, .batch exNorm true r, .separableSE M₂ id weightH weight₂ none]
      [.act .relu, .batch exNorm true r, .separableSE M₂ id weightH weight₂ none]
      ⟨6, 4, [8, 9], [9, 8]⟩ ⟨6, 4, outDims (List.replicate 2 (sameAxis 5 1)) [12, 13], outDims (List.replicate 2 (sameAxis 5 1)) [13, 12]⟩ := by
    refine .act _ trivial (.batch _ _ _ rfl (by norm_num) (.conv ?_ (.nil _)))
    exact ConvSE2.separable (exArgs₂ 4) rotOpts (by norm_num [exArgs₂, KernelSE2.exArgs]) defaultModes 1 (exReady₂ 4 (by norm_num)) hM₂
      (g1 rfl) (S' := [8, 9]) (S := [9, 8]) (by rw [show rotOpts.padding = .str "same" from rfl, f]; exact g3)
      ⟨⟨1, 1, 1, 2, 2⟩, f, rfl, fun s _ => one_dvd _⟩
      (by rw [show rotOpts.padding = .str "same" from rfl, f, f2]) (by rw [show rotOpts.padding = .str "same" from rfl, f, f1])
      g2 ⟨sameAxis 5 1, rfl, by simp [sameAxis], fun s _ => one_dvd _⟩
      (by norm_num [exArgs₂, KernelSE2.exArgs]) weightH weight₂
      (by rw [hwH]; show [4, 6, 3] = [(SO2.uniformGrid 4).length, 6, 6 / 2]; rw [SO2.C03_length])
      (by rw [hw₂]; simp [exArgs₂, KernelSE2.exArgs]) none (fun b hb => by cases hb) (by norm_num) id id
      (fun h => by cases h)
  have hk : ∀ b ∈ [Block.act .relu, .batch exNorm true r, .separableSE M₂ id weightH weight₂ none], KeepsGrid M.kernel.gridH b := by
    intro b hb
    simp only [List.mem_cons, List.not_mem_nil, or_false] at hb
    rcases hb with rfl | rfl | rfl
    · trivial
    · trivial
    · exact (C72_options_SE2 _ _ M₂ (Or.inr hM₂)).1
  rw [← e1] at hchain
  have o3 : outDims (List.replicate 2 (sameAxis 5 1)) [12, 13] = [12, 13] := by simp [outDims, Axis.out, Axis.span, sameAxis]
  have o4 : outDims (List.replicate 2 (sameAxis 5 1)) [13, 12] = [13, 12] := by simp [outDims, Axis.out, Axis.span, sameAxis]
  rw [o3, o4] at hchain
  obtain ⟨y, y', a1, a2, a3, a4, a5⟩ := C97_SE2_uniform (KernelSE2.exArgs 4) rotOpts 4 (by norm_num) rfl rfl (by norm_num [KernelSE2.exArgs]) defaultModes hM h1
    1 h4 h2 h3 (by rw [e1]; exact KernelSE2.quarter_matrix) (by norm_num [KernelSE2.exArgs]) weight (by rw [hw]; simp [KernelSE2.exArgs]) none
    (fun b hb => by cases hb) 3 x x' id id rfl hx (by rw [o1, o2]; exact hchain) hk hk
  refine ⟨y, y', a1, a2, a3, a4, fun b ch i p q hb hc hi hq => ?_⟩
  have := a5 b ch i [p, q] hb hc hi hq
  rw [← this]
  simp [LatticeSym.move, LatticeSym.ax2, KernelSE2.quarter]

/-- The half turn about the third axis is an element of the Klein group: its matrix is that of a lattice symmetry. -/
example : ∃ p ∈ SO3.kleinGroup, SO3.quatToMatrix p = (⟨1, ![true, true, false]⟩ : LatticeSym 3).matrix := by
  refine ⟨SO3.Tables.Z4.real (10 ^ 8) ⟨0, 0, 0, 100000000⟩, List.mem_map_of_mem (by decide), ?_⟩
  ext i j
  fin_cases i <;> fin_cases j <;> norm_num [SO3.quatToMatrix, SO3.Tables.Z4.real, LatticeSym.matrix] <;> simp

/-- one-parameter families of rotations with period `2π`. -/
theorem cyclic_grid {R : ℝ → SO3.Mat3} (hmul : ∀ s t, R (s + t) = R s * R t)
    (hper : ∀ s t, R s = R t ↔ Real.cos s = Real.cos t ∧ Real.sin s = Real.sin t) {n : ℕ} {l : List SO3.Quat} (hl : l.length = n)
    (hq : ∀ k, k < n → ∃ q, l[k]? = some q ∧ IsUnitQuat q ∧ SO3.quatToMatrix q = R (2 * Real.pi * k / n)) :
    Distinct n (matrixGrid l) ∧ ∀ j : ℕ, ClosedGrid (SO3.leftApplyMatrix (R (2 * Real.pi * j / n))) n (matrixGrid l) ∧
      ∀ i < n, (matrixGrid l).get [(i + j) % n] = SO3.leftApplyMatrix (R (2 * Real.pi * j / n)) ((matrixGrid l).get [i]) := by
  have hget : ∀ i < n, (matrixGrid l).get [i] = R (2 * Real.pi * i / n) := by
    intro i hi
    obtain ⟨q, h1, -, h2⟩ := hq i hi
    rw [matrixGrid_get l i (hl ▸ hi), ← h2]
    rw [List.getElem?_eq_getElem (hl ▸ hi)] at h1
    cases h1; rfl
  have hp := two_pi_pos'
  have hd : Distinct n (matrixGrid l) := by
    intro i j hi hj h
    have hn : 0 < n := by omega
    have hn' : (0 : ℝ) < n := by exact_mod_cast hn
    have hr : ∀ i < n, (0 : ℝ) ≤ 2 * Real.pi * i / n ∧ 2 * Real.pi * i / n < 2 * Real.pi := by
      intro i hi
      refine ⟨by positivity, ?_⟩
      rw [div_lt_iff₀ hn']
      exact mul_lt_mul_of_pos_left (by exact_mod_cast hi) (by positivity)
    rw [hget i hi, hget j hj, hper] at h
    have := EqMod.eq_of_range hp (eqMod_of_cos_sin h.1 h.2) (hr i hi).1 (hr i hi).2 (hr j hj).1 (hr j hj).2
    exact uniform_value_inj hn this
  have hsh : ∀ j i : ℕ, i < n → (matrixGrid l).get [(i + j) % n] = SO3.leftApplyMatrix (R (2 * Real.pi * j / n)) ((matrixGrid l).get [i]) := by
    intro j i hi
    have hn : 0 < n := by omega
    rw [hget i hi, hget _ (Nat.mod_lt _ hn), ← uniform_shift n hn i j]
    unfold SO3.leftApplyMatrix SO2.leftApplyAngle
    rw [← hmul, hper]
    exact ⟨cos_of_eqMod (pyMod_eqMod _ _), sin_of_eqMod (pyMod_eqMod _ _)⟩
  refine ⟨hd, fun j => ⟨closed_of_injective (by show [_] = [_]; rw [List.length_map, hl]) hd ?_ ?_, hsh j⟩⟩
  · intro i k _ _ hij
    unfold SO3.leftApplyMatrix at hij
    have h0 : R (-(2 * Real.pi * j / n)) * R (2 * Real.pi * j / n) = 1 := by
      rw [← hmul, neg_add_cancel]
      have h1 : R 0 * R 0 = R 0 := by rw [← hmul, add_zero]
      by_cases hn : n = 0
      · omega
      · obtain ⟨q, -, h2, h3⟩ := hq 0 (by omega)
        have h4 := (SO3.C15_rotation q h2).1
        rw [h3, Nat.cast_zero, mul_zero, zero_div] at h4
        calc R 0 = (R 0).transpose * R 0 * R 0 := by rw [h4, Matrix.one_mul]
          _ = (R 0).transpose * (R 0 * R 0) := by rw [Matrix.mul_assoc]
          _ = 1 := by rw [h1, h4]
    have := congrArg (R (-(2 * Real.pi * j / n)) * ·) hij
    simpa only [← Matrix.mul_assoc, h0, Matrix.one_mul] using this
  · intro i hi
    exact ⟨(i + j) % n, Nat.mod_lt _ (by omega), hsh j i hi⟩

/-- `cyclic(n, axis)`: the rotations about a coordinate axis by multiples of `2π/n` are different, and rotation by `2πj/n` takes
the one at position `i` to the one at position `(i + j) mod n`. -/
theorem C97_cyclic (n : ℕ) (axis : String) (u : Fin 3 → ℝ) (l : List SO3.Quat) (hl : SO3.cyclic n axis = .ok l)
    (hu : (axis = "x" ∧ u = ![1, 0, 0]) ∨ (axis = "y" ∧ u = ![0, 1, 0]) ∨ (axis = "z" ∧ u = ![0, 0, 1])) :
    Distinct n (matrixGrid l) ∧ ∀ j : ℕ, ClosedGrid (SO3.leftApplyMatrix (rodrigues u (2 * Real.pi * j / n))) n (matrixGrid l) ∧
      ∀ i < n, (matrixGrid l).get [(i + j) % n] = SO3.leftApplyMatrix (rodrigues u (2 * Real.pi * j / n)) ((matrixGrid l).get [i]) := by
  obtain ⟨d1, d2, d3, -⟩ := SO3.C29_dispatch n axis
  rcases hu with ⟨rfl, rfl⟩ | ⟨rfl, rfl⟩ | ⟨rfl, rfl⟩
  · rw [d1 (Or.inl rfl)] at hl
    cases hl
    obtain ⟨h1, h2, -⟩ := SO3.C29_x n
    refine cyclic_grid (R := fun t => rodrigues ![1, 0, 0] t) ?_ ?_ h1 h2
    · intro s t; simp only [← (SO3.C14_axis_angle _).1]; exact (SO3.C14_x s t).2.2.1
    · intro s t
      simp only [← (SO3.C14_axis_angle _).1]
      refine ⟨fun h => ⟨?_, ?_⟩, fun h => by unfold SO3.matrixX; rw [h.1, h.2]⟩
      · simpa [SO3.matrixX] using congrFun (congrFun h 1) 1
      · simpa [SO3.matrixX] using congrFun (congrFun h 2) 1
  · rw [d2 (Or.inl rfl)] at hl
    cases hl
    obtain ⟨h1, h2, -⟩ := SO3.C29_y n
    refine cyclic_grid (R := fun t => rodrigues ![0, 1, 0] t) ?_ ?_ h1 h2
    · intro s t; simp only [← (SO3.C14_axis_angle _).2.1]; exact (SO3.C14_y s t).2.2.1
    · intro s t
      simp only [← (SO3.C14_axis_angle _).2.1]
      refine ⟨fun h => ⟨?_, ?_⟩, fun h => by unfold SO3.matrixY; rw [h.1, h.2]⟩
      · simpa [SO3.matrixY] using congrFun (congrFun h 0) 0
      · simpa [SO3.matrixY] using congrFun (congrFun h 0) 2
  · rw [d3 (Or.inl rfl)] at hl
    cases hl
    obtain ⟨h1, h2, -⟩ := SO3.C29_z n
    refine cyclic_grid (R := fun t => rodrigues ![0, 0, 1] t) ?_ ?_ h1 h2
    · intro s t; simp only [← (SO3.C14_axis_angle _).2.2]; exact (SO3.C14_z s t).2.2.1
    · intro s t
      simp only [← (SO3.C14_axis_angle _).2.2]
      refine ⟨fun h => ⟨?_, ?_⟩, fun h => by unfold SO3.matrixZ; rw [h.1, h.2]⟩
      · simpa [SO3.matrixZ] using congrFun (congrFun h 0) 0
      · simpa [SO3.matrixZ] using congrFun (congrFun h 1) 0

end GConv.Net

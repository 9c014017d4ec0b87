import Verif.Spec.Custom
import Verif.Props.Rotation

/-! # C100: custom groups

Every group: if the callables are the operations of a group and the samplers sample pointwise, the convolutions are equivariant. -/

namespace GConv.Custom

open Tensor Spec Conv GroupKernel

variable {G : Type} [Group G] {d : ℕ} {K : GroupKernel G d} {act : G → (Fin d → ℝ) → (Fin d → ℝ)} {det : Option (G → ℝ)}

theorem cancels (h : GroupOps K act det) (g : G) : Cancels (·⁻¹) (· * ·) act det g where
  group a b := by
    show (g * a)⁻¹ * (g * b) = a⁻¹ * b
    group
  space a v := by
    show act (g * a)⁻¹ (act g v) = act a⁻¹ v
    rw [← h.act_mul]
    congr 1
    group
  det a := by
    cases hd : det with
    | none => exact (one_mul _).symm
    | some f => exact h.det_mul f hd g a

theorem moves {e : Equiv.Perm (Fin d)} {σ : LatticeSym d} {g : G} (h : ActsAs K act e σ g) : MovesGrid K act e σ g := ⟨h.cube, h.grid, h.mask⟩

section
variable (hops : GroupOps K act det) {core : (List ℕ → ℝ) → (Fin d → ℝ) → ℝ} (hs : PointwiseSampler K.sampleRn K.kernelSize core)
  {e : Equiv.Perm (Fin d)} {σ : LatticeSym d} {g : G} (hg : ActsAs K act e σ g)
  {a : Args} {mode : F.CPad} {ax : List Axis} (hgeo : HasGeometry a mode ax) {L : Layer} (hL : init a (kernelDims ax) = .ok L)
  (ho : K.outC = a.outC) (hi : K.inC / K.groups = a.inC / a.groups.toNat) (hk : K.kernelSize = kernelDims ax)
include hops hs hg hgeo hL ho hi hk

/-- Lifting convolution with a custom kernel: moving the image by `σ` and the group elements by `g` moves the output by `σ` (and divides it
by the determinant of `g`, the bias excepted). -/
theorem C100_lifting {S' S : List ℕ} (hm : LatticeSym.Matches e σ S' S) (hS : GeomOk mode ax S) (hsym : SymmetricGeometry d ax S)
    (weight : Tensor ℝ) (hw : weight.shape = [K.outC, K.inC / K.groups] ++ K.kernelSize) (bias : Option (Tensor ℝ))
    (hb : BiasShape bias a.outC d) (N n : ℕ) (x x' : Tensor ℝ) (H : Tensor G) (hH : H.shape = [n]) (hpos : 0 < a.inC)
    (hx : MovedTensor e σ [N, a.inC] S' S x x') :
    ∃ out out', L.liftingForward K weight bias x H = .ok (out, H) ∧
      L.liftingForward K weight bias x' (H.map (g * ·)) = .ok (out', H.map (g * ·)) ∧
      MovedOutput e σ (1 / detAt det g) bias N a.outC n (outDims ax S') (outDims ax S) out out' :=
  lifting_equivariant hgeo hL hm hS hsym (liftingMoves hops.elementwise hs (cancels hops g) (moves hg) rfl) ho hi hk weight hw bias hb N n x x'
    H hH hpos hx

variable {coreH : (ℕ → ℝ) → G → ℝ} (hl : LocalCore K.kernelSize core)
  (hsH : RowwiseSampler K.sampleH K.gridH K.groupKernelDim (fun _ => True) coreH) (hlH : LocalChannel K.groupKernelDim coreH)
  (h0 : 0 < K.groupKernelDim)
include hl hsH hlH h0

/-- Group convolution with a custom kernel. -/
theorem C100_group {S' S : List ℕ} (hm : LatticeSym.Matches e σ S' S) (hS : GeomOk mode ax S) (hsym : SymmetricGeometry d ax S)
    (weight : Tensor ℝ) (hw : weight.shape = [K.groupKernelDim, K.outC, K.inC / K.groups] ++ K.kernelSize)
    (bias : Option (Tensor ℝ)) (hb : BiasShape bias a.outC d) (N mi n : ℕ) (x x' : Tensor ℝ) (inH outH : Tensor G)
    (hin : inH.shape = [mi]) (hout : outH.shape = [n]) (hx : MovedTensor e σ [N, a.inC, mi] S' S x x') :
    ∃ out out', L.groupForward K weight bias x inH outH = .ok (out, outH) ∧
      L.groupForward K weight bias x' (inH.map (g * ·)) (outH.map (g * ·)) = .ok (out', outH.map (g * ·)) ∧
      MovedOutput e σ (1 / detAt det g) bias N a.outC n (outDims ax S') (outDims ax S) out out' :=
  group_equivariant hgeo hL hm hS hsym (groupMoves hops.elementwise hs hl hsH hlH h0 (cancels hops g) (moves hg) rfl (fun _ _ => True)
    fun _ _ _ => trivial).1 ho hi hk weight hw bias hb N mi n x x' inH outH hin hout (fun _ _ _ _ => trivial) hx

/-- Separable convolution with a custom kernel (as many output as input group elements, see C52; both of its convolutions treat the axes
alike, see C62). -/
theorem C100_separable {S' S S₁' S₁ : List ℕ}
    (hm : LatticeSym.Matches e σ S' S) (hg₁ : GeomOk mode (firstAxes mode a.padding ax) S)
    (hsym₁ : SymmetricGeometry d (firstAxes mode a.padding ax) S)
    (hS₁ : outDims (firstAxes mode a.padding ax) S = S₁) (hS₁' : outDims (firstAxes mode a.padding ax) S' = S₁')
    (hS : GeomOk mode ax S₁) (hsym : SymmetricGeometry d ax S₁)
    (weightH weight : Tensor ℝ) (hwH : weightH.shape = [K.groupKernelDim, K.outC, K.inC / K.groups])
    (hw : weight.shape = [K.outC, 1] ++ K.kernelSize)
    (bias : Option (Tensor ℝ)) (hb : BiasShape bias a.outC d) (N n : ℕ) (hC : 0 < a.outC) (hn : 0 < n) (x x' : Tensor ℝ)
    (inH outH : Tensor G) (hin : inH.shape = [n]) (hout : outH.shape = [n]) (hx : MovedTensor e σ [N, a.inC, n] S' S x x') :
    ∃ out out', L.separableForward K weightH weight bias x inH outH = .ok (out, outH) ∧
      L.separableForward K weightH weight bias x' (inH.map (g * ·)) (outH.map (g * ·)) = .ok (out', outH.map (g * ·)) ∧
      MovedOutput e σ (1 / detAt det g) bias N a.outC n (outDims ax S₁') (outDims ax S₁) out out' :=
  separable_equivariant hgeo hL hm hg₁ hsym₁ hS₁ hS₁' hS hsym (groupMoves hops.elementwise hs hl hsH hlH h0 (cancels hops g) (moves hg) rfl
    (fun _ _ => True) fun _ _ _ => trivial).2 ho hi hk weightH weight hwH hw bias hb N n hC hn x x' inH outH hin hout
    (fun _ _ _ _ => trivial) hx

end

/-! ## A custom group: the inversions of space -/

/-- `{1, -1}` acts on vectors by its sign. -/
def signAct (u : ℤˣ) (v : Fin 3 → ℝ) : Fin 3 → ℝ := fun i => ((u : ℤ) : ℝ) * v i

/-- a kernel for this group: two stored values per channel, one for each element. -/
noncomputable def signKernel (inC outC k : ℕ) : GroupKernel ℤˣ 3 where
  inC := inC
  outC := outC
  kernelSize := [k, k, k]
  groupKernelSize := [2]
  groups := 1
  gridH := ⟨[2], fun i => if i.headD 0 = 0 then 1 else -1⟩
  gridRn := Functional.createGridR3 k
  mask := none
  detH := some fun H => H.map fun u : ℤˣ => ((u : ℤ) : ℝ)
  inverseH := fun H => H.map (·⁻¹)
  leftApplyToH := pairwise (· * ·)
  leftApplyToRn := pairwise signAct
  sampleH := fun q sig _ => .ok ⟨[q.shape.headD 0, sig.shape.getD 1 0],
    fun i => sig.get [if q.get [i.headD 0] = 1 then 0 else 1, i.getD 1 0]⟩
  sampleRn := F.gridSample "bilinear" "border"

/-- all axes reversed. -/
def inversion : LatticeSym 3 := ⟨1, fun _ => true⟩

/-- the hypotheses of the theorems hold for it. -/
example (inC outC k : ℕ) (hk : 2 ≤ k) :
    GroupOps (signKernel inC outC k) signAct (some fun u : ℤˣ => ((u : ℤ) : ℝ)) ∧
    PointwiseSampler (signKernel inC outC k).sampleRn (signKernel inC outC k).kernelSize (F.sampleAt .bilinear .border [k, k, k]) ∧
    LocalCore (signKernel inC outC k).kernelSize (F.sampleAt (d := 3) .bilinear .border [k, k, k]) ∧
    RowwiseSampler (signKernel inC outC k).sampleH (signKernel inC outC k).gridH (signKernel inC outC k).groupKernelDim (fun _ => True)
      (fun f u => f (if u = 1 then 0 else 1)) ∧
    LocalChannel (signKernel inC outC k).groupKernelDim (fun f (u : ℤˣ) => f (if u = 1 then 0 else 1)) ∧
    0 < (signKernel inC outC k).groupKernelDim ∧
    ActsAs (signKernel inC outC k) signAct LatticeSym.ax3 inversion (-1) := by
  refine ⟨⟨⟨fun _ => rfl, fun _ _ => rfl, fun _ _ => rfl, rfl, rfl, fun m h => by cases h⟩, fun v => ?_, fun a b v => ?_, fun f h a b => ?_⟩,
    gridSample_pointwise _ _ _ _ _ defaultModes.1 defaultModes.2 rfl (forall_triple (by omega)), sampleAt_local _ _ _ rfl, ?_, ?_, ?_, ?_⟩
  · funext i; simp [signAct]
  · funext i; simp [signAct, mul_assoc]
  · cases h; simp
  · intro q sig m S hq hsig _
    refine ⟨_, rfl, ?_, fun i _ c _ => rfl⟩
    rw [hq, hsig]
    rfl
  · intro f g u h
    show f _ = g _
    split
    · exact h 0 (by show 0 < 2; norm_num)
    · exact h 1 (by show 1 < 2; norm_num)
  · show 0 < 2
    norm_num
  · refine ⟨⟨k, rfl⟩, fun x hx => ?_, fun _ _ => rfl⟩
    show (Functional.createGridR3 k).get (LatticeSym.move LatticeSym.ax3 inversion [k, k, k] x) = _
    rw [Functional.C46_moves_R3 k hk inversion x hx]
    funext i
    show (∑ j, inversion.matrix i j * _) = _
    have : ∀ j, inversion.matrix i j = if j = i then -1 else 0 := fun j => by simp [LatticeSym.matrix, inversion]
    simp only [this, ite_mul, zero_mul, Finset.sum_ite_eq', Finset.mem_univ, if_true]
    simp [signAct]
    rfl

end GConv.Custom

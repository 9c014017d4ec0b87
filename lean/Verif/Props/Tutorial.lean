import Verif.Model.Tutorial
import Verif.Props.Readme
import Verif.Props.Rotation
import Mathlib.RingTheory.RootsOfUnity.Complex

/-! # C101: the tutorial

The custom SE(2) convolutions of the tutorial notebook, built on the classes of the library. -/

namespace GConv.Tutorial

open Real Tensor Spec Conv GroupKernel

/-! ## The group operations -/

/-- The elements that the helper functions of the notebook return are angles in `[0, 2π)`, those of the uniform grid equally spaced; the
operations are those of the group of plane rotations. -/
theorem C101_ops_partial :
    (∀ n, (uniformGrid n).shape = [n] ∧ ∀ j < n, (uniformGrid n).get [j] = 2 * π * j / n ∧ (uniformGrid n).get [j] < 2 * π) ∧
    (∀ draws : List ℝ, (∀ u ∈ draws, 0 ≤ u ∧ u < 1) → (randomGrid draws).shape = [draws.length] ∧
      ∀ j < draws.length, 0 ≤ (randomGrid draws).get [j] ∧ (randomGrid draws).get [j] < 2 * π) ∧
    (∀ s, createGridR2 s = Functional.createGridR2 s) ∧
    (∀ (H : Tensor ℝ) i, (det H).get [i] = (SO2.angleToMatrix (H.get [i])).det) ∧
    (∀ (H : Tensor ℝ) i, SO2.angleToMatrix ((inverse H).get [i]) = (SO2.angleToMatrix (H.get [i]))⁻¹) ∧
    (∀ (A B : Tensor ℝ) m n, A.shape = [m] → B.shape = [n] → (leftApplyToH A B).shape = [m, n] ∧
      ∀ i j, SO2.angleToMatrix ((leftApplyToH A B).get [i, j]) = SO2.angleToMatrix (A.get [i]) * SO2.angleToMatrix (B.get [j]) ∧
        0 ≤ (leftApplyToH A B).get [i, j] ∧ (leftApplyToH A B).get [i, j] < 2 * π) ∧
    (∀ (A : Tensor ℝ) (grid : Tensor (Fin 2 → ℝ)) m, A.shape = [m] → (leftApplyToR2 A grid).shape = m :: grid.shape ∧
      ∀ i x, (leftApplyToR2 A grid).get (i :: x) = (SO2.angleToMatrix (A.get [i])).mulVec (grid.get x)) := by
  refine ⟨fun n => ⟨?_, fun j hj => ?_⟩, fun draws h => ⟨?_, fun j hj => ?_⟩, fun s => rfl, fun H i => ?_, fun H i => ?_,
    fun A B m n hA hB => ⟨?_, fun i j => ?_⟩, fun A grid m hA => ⟨?_, fun i x => rfl⟩⟩
  · show [(SO2.uniformGrid n).length] = _
    rw [SO2.C03_length]
  · have e : (uniformGrid n).get [j] = 2 * π * j / n := by
      show (SO2.uniformGrid n).getD j default = _
      rw [List.getD_eq_getElem?_getD, SO2.C03_value n j hj]
      rfl
    have h0 : (0 : ℝ) < n := by exact_mod_cast Nat.lt_of_le_of_lt (Nat.zero_le _) hj
    have h1 : (j : ℝ) < n := by exact_mod_cast hj
    refine ⟨e, ?_⟩
    rw [e, div_lt_iff₀ h0]
    nlinarith [Real.pi_pos]
  · simp [randomGrid, Tensor.ofList]
  · have e : (randomGrid draws).get [j] = 2 * π * draws[j] := by
      show (draws.map fun u => 2 * π * u).getD j default = _
      simp [List.getD_eq_getElem?_getD, hj]
    obtain ⟨h1, h2⟩ := h draws[j] (List.getElem_mem hj)
    rw [e]
    constructor <;> nlinarith [Real.pi_pos]
  · exact (SO2.C01_angle_to_matrix_rotation _).2.symm
  · exact ((SO2.C01_inverse _).1.trans (Matrix.inv_eq_left_inv (SO2.C01_angle_to_matrix_rotation _).1).symm)
  · show _ :: _ = _
    rw [hA, hB]
    rfl
  · exact ⟨SO2.C01_product _ _, pyMod_nonneg two_pi_pos', pyMod_lt two_pi_pos'⟩
  · show _ :: _ = _
    rw [hA]
    rfl

/-! ## Sampling on the group -/

theorem topk2_spec (n : ℕ) (d : ℕ → ℝ) (hn : 2 ≤ n) :
    topk2 n d 0 ≠ topk2 n d 1 ∧ (∀ i, topk2 n d i < n) ∧ d (topk2 n d 0) ≤ d (topk2 n d 1) ∧
      ∀ j < n, (∀ i, topk2 n d i ≠ j) → d (topk2 n d 1) ≤ d j := by
  have hex : ∃ t : Fin 2 → ℕ, t 0 ≠ t 1 ∧ (∀ i, t i < n) ∧ d (t 0) ≤ d (t 1) ∧ ∀ j < n, (∀ i, t i ≠ j) → d (t 1) ≤ d j := by
    obtain ⟨a, ha, hma⟩ := Finset.exists_min_image (Finset.range n) d ⟨0, by simp; omega⟩
    have c1 : ((Finset.range n).erase a).card = n - 1 := by
      rw [Finset.card_erase_of_mem ha, Finset.card_range]
    obtain ⟨b, hb, hmb⟩ := Finset.exists_min_image ((Finset.range n).erase a) d (Finset.card_pos.1 (by omega))
    simp only [Finset.mem_erase, Finset.mem_range] at ha hb hma hmb
    refine ⟨![a, b], hb.1.symm, ?_, hma b hb.2, ?_⟩
    · intro i
      fin_cases i
      · exact ha
      · exact hb.2
    · intro j hj hne
      have h0 : a ≠ j := hne 0
      exact hmb j ⟨h0.symm, hj⟩
  unfold topk2
  rw [dif_pos hex]
  exact Classical.choose_spec hex

theorem distance_eq (a b : ℝ) : distance a b = cos (a - b) := (Real.cos_sub a b).symm

/-- the value of one channel `f` at the angle `q`. -/
noncomputable def value (n : ℕ) (f : ℕ → ℝ) (q : ℝ) : ℝ :=
  ∑ t, distance q ((uniformGrid n).get [neighbours (uniformGrid n) q t]) / (2 * π / n) * f (neighbours (uniformGrid n) q t)

theorem grid_shape (n : ℕ) : (uniformGrid n).shape = [n] := (C101_ops_partial.1 n).1

theorem grid_get {n j : ℕ} (hj : j < n) : (uniformGrid n).get [j] = 2 * π * j / n := ((C101_ops_partial.1 n).2 j hj).1

theorem neighbours_spec {n : ℕ} (hn : 2 ≤ n) (q : ℝ) :
    neighbours (uniformGrid n) q 0 ≠ neighbours (uniformGrid n) q 1 ∧ (∀ t, neighbours (uniformGrid n) q t < n) ∧
    (∀ j < n, (∀ t, neighbours (uniformGrid n) q t ≠ j) → ∀ t, cos (q - 2 * π * neighbours (uniformGrid n) q t / n) ≤ cos (q - 2 * π * j / n)) ∧
    cos (q - 2 * π * neighbours (uniformGrid n) q 0 / n) ≤ cos (q - 2 * π * neighbours (uniformGrid n) q 1 / n) := by
  have e : neighbours (uniformGrid n) q = topk2 n fun j => distance q ((uniformGrid n).get [j]) := by
    unfold neighbours
    rw [grid_shape]
    rfl
  obtain ⟨h1, h2, h3, h4⟩ := topk2_spec n (fun j => distance q ((uniformGrid n).get [j])) hn
  rw [← e] at h1 h2 h3 h4
  have hd : ∀ j < n, distance q ((uniformGrid n).get [j]) = cos (q - 2 * π * j / n) := fun j hj => by
    rw [distance_eq, grid_get hj]
  have h3' : cos (q - 2 * π * neighbours (uniformGrid n) q 0 / n) ≤ cos (q - 2 * π * neighbours (uniformGrid n) q 1 / n) := by
    rw [← hd _ (h2 0), ← hd _ (h2 1)]
    exact h3
  refine ⟨h1, h2, fun j hj hne t => ?_, h3'⟩
  have h5 := h4 j hj hne
  rw [hd _ (h2 1), hd j hj] at h5
  fin_cases t
  · exact h3'.trans h5
  · exact h5

/-- The sampler of the notebook works row by row and channel by channel. -/
theorem rows (n : ℕ) (hn : 2 ≤ n) : RowwiseSampler gridSample (uniformGrid n) n (fun _ => True) (value n) ∧ LocalChannel n (value n) := by
  constructor
  · intro q sig m S hq hsig _
    have hex : ¬ ∃ i < q.shape.headD 0, ∃ t, sig.shape.headD 0 ≤ neighbours (uniformGrid n) (q.get [i]) t := by
      rintro ⟨i, -, t, ht⟩
      have := (neighbours_spec hn (q.get [i])).2.1 t
      rw [hsig] at ht
      exact absurd ht (Nat.not_le.2 this)
    refine ⟨⟨[m, S], fun idx => ∑ t, distance (q.get [idx.getD 0 0]) ((uniformGrid n).get [neighbours (uniformGrid n) (q.get [idx.getD 0 0]) t]) /
      (2 * π / n) * sig.get [neighbours (uniformGrid n) (q.get [idx.getD 0 0]) t, idx.getD 1 0]⟩, ?_, rfl, fun i _ c _ => rfl⟩
    unfold gridSample
    dsimp only
    rw [if_neg (by rw [grid_shape]; exact Nat.not_lt.2 hn), if_neg hex, hq, hsig, grid_shape]
    rfl
  · intro f g q h
    unfold value
    exact Finset.sum_congr rfl fun t _ => by rw [h _ ((neighbours_spec hn q).2.1 t)]

/-- What the sampler of the notebook returns: a combination of the values at two grid elements. The coefficients are the cosines of the
angles between the query and the elements, divided by the grid spacing. -/
theorem C101_sample_partial (n : ℕ) (hn : 2 ≤ n) (q signal : Tensor ℝ) (m S : ℕ) (hq : q.shape = [m]) (hs : signal.shape = [n, S]) :
    ∃ out, gridSample q signal (uniformGrid n) = .ok out ∧ out.shape = [m, S] ∧
      ∀ i < m, ∃ j₀ j₁, j₀ < n ∧ j₁ < n ∧ j₀ ≠ j₁ ∧
        (∀ j < n, j ≠ j₀ → j ≠ j₁ → cos (q.get [i] - 2 * π * j₀ / n) ≤ cos (q.get [i] - 2 * π * j / n) ∧
          cos (q.get [i] - 2 * π * j₁ / n) ≤ cos (q.get [i] - 2 * π * j / n)) ∧
        ∀ c < S, out.get [i, c] = n / (2 * π) *
          (cos (q.get [i] - 2 * π * j₀ / n) * signal.get [j₀, c] + cos (q.get [i] - 2 * π * j₁ / n) * signal.get [j₁, c]) := by
  obtain ⟨out, h1, h2, h3⟩ := (rows n hn).1 q signal m S hq hs fun _ _ => trivial
  refine ⟨out, h1, h2, fun i hi => ?_⟩
  obtain ⟨k1, k2, k3, -⟩ := neighbours_spec hn (q.get [i])
  refine ⟨_, _, k2 0, k2 1, k1, fun j hj a b => ?_, fun c hc => ?_⟩
  · have hne : ∀ t, neighbours (uniformGrid n) (q.get [i]) t ≠ j := by
      intro t
      fin_cases t
      · exact fun h => a h.symm
      · exact fun h => b h.symm
    exact ⟨k3 j hj hne 0, k3 j hj hne 1⟩
  · rw [h3 i hi c hc]
    unfold value
    rw [Fin.sum_univ_two, distance_eq, distance_eq, grid_get (k2 0), grid_get (k2 1), div_div_eq_mul_div, div_div_eq_mul_div]
    ring

/-- the vectors from the centre of a regular polygon to its corners cancel. -/
theorem sum_cos (n : ℕ) (hn : 2 ≤ n) (q : ℝ) : ∑ j ∈ Finset.range n, cos (q - 2 * π * j / n) = 0 := by
  have h0 : n ≠ 0 := by omega
  have hp := Complex.isPrimitiveRoot_exp n h0
  have hz := hp.geom_sum_eq_zero (by omega)
  have key : ∑ j ∈ Finset.range n, Complex.exp ((2 * π * j / n - q : ℝ) * Complex.I) = 0 := by
    have : ∀ j ∈ Finset.range n, Complex.exp ((2 * π * j / n - q : ℝ) * Complex.I) =
        Complex.exp (-q * Complex.I) * Complex.exp (2 * π * Complex.I / n) ^ j := by
      intro j _
      rw [← Complex.exp_nat_mul, ← Complex.exp_add]
      congr 1
      push_cast
      ring
    rw [Finset.sum_congr rfl this, ← Finset.mul_sum, hz, mul_zero]
  have hre := congrArg Complex.re key
  rw [Complex.re_sum] at hre
  refine Eq.trans (Finset.sum_congr rfl fun j _ => ?_) hre
  rw [Complex.exp_ofReal_mul_I_re, ← Real.cos_neg]
  congr 1
  ring

/-- The notebook takes the two elements with the smallest inner product, which are the two farthest from the query, not its neighbours:
the signal that is 1 everywhere is read as a number that is not positive, at every angle and for every grid size. -/
theorem C101_violated_constant (n : ℕ) (hn : 2 ≤ n) (q signal : Tensor ℝ) (m S : ℕ) (hq : q.shape = [m]) (hs : signal.shape = [n, S])
    (h1 : ∀ j < n, ∀ c < S, signal.get [j, c] = 1) :
    ∃ out, gridSample q signal (uniformGrid n) = .ok out ∧ out.shape = [m, S] ∧ ∀ i < m, ∀ c < S, out.get [i, c] ≤ 0 := by
  obtain ⟨out, e1, e2, e3⟩ := C101_sample_partial n hn q signal m S hq hs
  refine ⟨out, e1, e2, fun i hi c hc => ?_⟩
  obtain ⟨j₀, j₁, k0, k1, hne, hmin, hv⟩ := e3 i hi
  rw [hv c hc, h1 _ k0 c hc, h1 _ k1 c hc, mul_one, mul_one]
  have hsum := sum_cos n hn (q.get [i])
  have hle : cos (q.get [i] - 2 * π * j₀ / n) + cos (q.get [i] - 2 * π * j₁ / n) ≤ 0 := by
    by_contra hpos
    rw [not_le] at hpos
    have hm1 : j₁ ∈ (Finset.range n).erase j₀ := Finset.mem_erase.2 ⟨hne.symm, Finset.mem_range.2 k1⟩
    rw [← Finset.add_sum_erase _ _ (Finset.mem_range.2 k0), ← Finset.add_sum_erase _ _ hm1, ← add_assoc] at hsum
    have hnn : 0 ≤ ∑ j ∈ ((Finset.range n).erase j₀).erase j₁, cos (q.get [i] - 2 * π * j / n) := by
      refine Finset.sum_nonneg fun j hj => ?_
      obtain ⟨a, hj⟩ := Finset.mem_erase.1 hj
      obtain ⟨b, hj⟩ := Finset.mem_erase.1 hj
      obtain ⟨c0, c1⟩ := hmin j (Finset.mem_range.1 hj) b a
      linarith
    linarith
  have hp : (0 : ℝ) ≤ n / (2 * π) := by positivity
  exact mul_nonpos_of_nonneg_of_nonpos hp hle

/-- The stored value is not returned at a grid element: with three or more elements it does not even enter the result there. -/
theorem C101_violated_at_grid (n : ℕ) (hn : 3 ≤ n) (k : ℕ) (hk : k < n) (signal signal' : Tensor ℝ) (S : ℕ) (hs : signal.shape = [n, S])
    (hs' : signal'.shape = [n, S]) (h : ∀ j < n, j ≠ k → ∀ c < S, signal.get [j, c] = signal'.get [j, c]) :
    ∃ out out', gridSample ⟨[1], fun _ => 2 * π * k / n⟩ signal (uniformGrid n) = .ok out ∧
      gridSample ⟨[1], fun _ => 2 * π * k / n⟩ signal' (uniformGrid n) = .ok out' ∧
      ∀ c < S, out.get [0, c] = out'.get [0, c] := by
  obtain ⟨out, e1, -, e3⟩ := (rows n (by omega)).1 ⟨[1], fun _ => 2 * π * k / n⟩ signal 1 S rfl hs fun _ _ => trivial
  obtain ⟨out', e1', -, e3'⟩ := (rows n (by omega)).1 ⟨[1], fun _ => 2 * π * k / n⟩ signal' 1 S rfl hs' fun _ _ => trivial
  refine ⟨out, out', e1, e1', fun c hc => ?_⟩
  rw [e3 0 Nat.one_pos c hc, e3' 0 Nat.one_pos c hc]
  unfold value
  refine Finset.sum_congr rfl fun t _ => ?_
  obtain ⟨k1, k2, k3, -⟩ := neighbours_spec (n := n) (by omega) (2 * π * k / n)
  dsimp only
  rw [h _ (k2 t) ?_ c hc]
  intro hkt
  -- a third element, different from the two chosen ones
  obtain ⟨j, hj, hj0⟩ : ∃ j < n, ∀ t, neighbours (uniformGrid n) (2 * π * k / n) t ≠ j := by
    by_contra hno
    push Not at hno
    have hcard : (Finset.range n).card ≤ (Finset.univ.image (neighbours (uniformGrid n) (2 * π * k / n))).card :=
      Finset.card_le_card fun j hj => by
        obtain ⟨t, ht⟩ := hno j (Finset.mem_range.1 hj)
        exact Finset.mem_image.2 ⟨t, Finset.mem_univ _, ht⟩
    have := hcard.trans Finset.card_image_le
    rw [Finset.card_range, Finset.card_univ, Fintype.card_fin] at this
    omega
  have hle := k3 j hj hj0 t
  rw [hkt, sub_self, Real.cos_zero] at hle
  have h1 : cos (2 * π * k / n - 2 * π * j / n) = 1 := le_antisymm (Real.cos_le_one _) hle
  have h0 : (0 : ℝ) < n := by exact_mod_cast (show 0 < n by omega)
  have hkj : (k : ℝ) ≠ j := by
    intro e
    exact hj0 t (hkt.trans (Nat.cast_injective e))
  have hkn : (k : ℝ) < n := by exact_mod_cast hk
  have hjn : (j : ℝ) < n := by exact_mod_cast hj
  have hk0 : (0 : ℝ) ≤ k := Nat.cast_nonneg k
  have hj0' : (0 : ℝ) ≤ j := Nat.cast_nonneg j
  have hd : 2 * π * k / n - 2 * π * j / n = 2 * π * ((k - j) / n) := by ring
  have hab : |((k : ℝ) - j) / n| < 1 := by
    rw [abs_div, abs_of_pos h0, div_lt_one h0, abs_lt]
    constructor <;> linarith
  obtain ⟨a, b⟩ := abs_lt.1 hab
  have := (Real.cos_eq_one_iff_of_lt_of_lt (x := 2 * π * k / n - 2 * π * j / n) (by rw [hd]; nlinarith [Real.pi_pos])
    (by rw [hd]; nlinarith [Real.pi_pos])).1 h1
  rw [hd] at this
  have h3 : ((k : ℝ) - j) / n = 0 := by
    rcases mul_eq_zero.1 this with h | h
    · exact absurd h (by positivity)
    · exact h
  rcases div_eq_zero_iff.1 h3 with h | h
  · exact hkj (sub_eq_zero.1 h)
  · exact h0.ne' h

/-- A group filter with a single element cannot be sampled at all. -/
theorem C101_violated_single (q signal : Tensor ℝ) : gridSample q signal (uniformGrid 1) = .error .runtimeError := by
  unfold gridSample
  dsimp only
  rw [if_pos (by rw [grid_shape]; show 1 < 2; norm_num)]

/-! ## The kernels and the layers -/

theorem lawful (a : Opts) (s) : Lawful (kernel a s) SO2.inverseAngle SO2.leftApplyAngle KernelSE2.act (some fun _ => 1) where
  inverseH _ := rfl
  leftApplyToH _ _ := rfl
  leftApplyToRn A B := rfl
  detH := rfl
  gridRn := rfl
  mask m h := by cases h

theorem cancels (g : ℝ) : Cancels SO2.inverseAngle SO2.leftApplyAngle KernelSE2.act (some fun _ => 1) g where
  group := (KernelSE2.cancels g).group
  space := (KernelSE2.cancels g).space
  det _ := (one_mul (1 : ℝ)).symm

theorem moves (a : Opts) (s) (hk : 2 ≤ a.kernelSize) (σ : LatticeSym 2) (g : ℝ) (hg : SO2.angleToMatrix g = σ.matrix) :
    MovesGrid (kernel a s) KernelSE2.act LatticeSym.ax2 σ g where
  cube := ⟨a.kernelSize, rfl⟩
  grid x hx := by
    unfold KernelSE2.act
    rw [hg]
    exact Functional.C46_moves_R2 a.kernelSize hk σ x hx
  mask x hx := rfl

theorem pointwise (a : Opts) (s) (h : 0 < a.kernelSize) :
    PointwiseSampler (kernel a s).sampleRn (kernel a s).kernelSize (F.sampleAt .bilinear .border [a.kernelSize, a.kernelSize]) :=
  gridSample_pointwise _ _ _ _ _ defaultModes.1 defaultModes.2 rfl (forall_pair h)

theorem dim (a : Opts) (s) : (kernel a s).groupKernelDim = a.groupKernelSize := by
  show a.groupKernelSize + 0 = _
  rfl

theorem rows' (a : Opts) (hn : 2 ≤ a.groupKernelSize) :
    RowwiseSampler (kernel a gridSample).sampleH (kernel a gridSample).gridH (kernel a gridSample).groupKernelDim (fun _ => True)
      (value a.groupKernelSize) ∧ LocalChannel (kernel a gridSample).groupKernelDim (value a.groupKernelSize) := by
  rw [dim]
  exact rows _ hn

theorem lifting_built {a : Opts} {M : Module ℝ 2} (h : liftingConv a = .ok M) :
    M.kernel = kernel a noSampler ∧ init (layerArgs a) [a.kernelSize, a.kernelSize] = .ok M.layer := by
  obtain ⟨K, hK, hL, hMK, -⟩ := build_ok h
  unfold checkGroups at hK
  split at hK
  · cases hK
  · cases hK
    exact ⟨hMK, hL⟩

theorem separable_built {a : Opts} {M : Module ℝ 2} (h : separableConv a = .ok M) :
    M.kernel = kernel a gridSample ∧ init (layerArgs a) [a.kernelSize, a.kernelSize] = .ok M.layer := by
  obtain ⟨K, hK, hL, hMK, -⟩ := build_ok h
  unfold checkGroups at hK
  split at hK
  · cases hK
  · cases hK
    exact ⟨hMK, hL⟩

/-- The lifting layer of the notebook is equivariant: rotating the image and the group elements by a multiple of a quarter turn rotates the
output. -/
theorem C101_lifting_partial {a : Opts} (hk : 2 ≤ a.kernelSize) {M : Module ℝ 2} (hM : liftingConv a = .ok M) {mode : F.CPad}
    {ax : List Axis} (hgeo : HasGeometry (layerArgs a) mode ax) {σ : LatticeSym 2} {S' S : List ℕ}
    (hσ : LatticeSym.Matches LatticeSym.ax2 σ S' S) (hS : GeomOk mode ax S) (hsym : SymmetricGeometry 2 ax S) (g : ℝ)
    (hg : SO2.angleToMatrix g = σ.matrix) (hpos : 0 < a.inC)
    (weight : Tensor ℝ) (hw : weight.shape = [a.outC, a.inC / a.groups, a.kernelSize, a.kernelSize]) (bias : Option (Tensor ℝ))
    (hb : BiasShape bias a.outC 2) (N n : ℕ) (x x' H : Tensor ℝ) (hH : H.shape = [n])
    (hx : MovedTensor LatticeSym.ax2 σ [N, a.inC] S' S x x') :
    ∃ out out', M.layer.liftingForward M.kernel weight bias x H = .ok (out, H) ∧
      M.layer.liftingForward M.kernel weight bias x' (H.map (SO2.leftApplyAngle g)) = .ok (out', H.map (SO2.leftApplyAngle g)) ∧
      MovedTensor LatticeSym.ax2 σ [N, a.outC, n] (outDims ax S') (outDims ax S) out out' := by
  obtain ⟨e, hL⟩ := lifting_built hM
  have hks : kernelDims ax = [a.kernelSize, a.kernelSize] := hgeo.kernel.symm
  rw [← hks] at hL
  rw [e]
  obtain ⟨out, out', h1, h2, h3⟩ := lifting_equivariant hgeo hL hσ hS hsym
    (liftingMoves (lawful a noSampler) (pointwise a _ (by omega)) (cancels g) (moves a _ hk σ g hg) (c := 1) (by show 1 / (1 : ℝ) = 1; norm_num))
    rfl rfl hks.symm weight hw bias hb N n x x' H hH hpos hx
  exact ⟨out, out', h1, h2, movedOutput_one h3⟩

/-- The separable layer of the notebook is equivariant (as many output as input group elements, see C52, and a group filter with two or
more elements). -/
theorem C101_separable_partial {a : Opts} (hk : 2 ≤ a.kernelSize) (hn : 2 ≤ a.groupKernelSize) {M : Module ℝ 2}
    (hM : separableConv a = .ok M) {mode : F.CPad}
    {ax : List Axis} (hgeo : HasGeometry (layerArgs a) mode ax) {σ : LatticeSym 2} {S' S S₁' S₁ : List ℕ}
    (hσ : LatticeSym.Matches LatticeSym.ax2 σ S' S)
    (hg₁ : GeomOk mode (firstAxes mode a.padding ax) S) (hsym₁ : SymmetricGeometry 2 (firstAxes mode a.padding ax) S)
    (hS₁ : outDims (firstAxes mode a.padding ax) S = S₁) (hS₁' : outDims (firstAxes mode a.padding ax) S' = S₁')
    (hS : GeomOk mode ax S₁) (hsym : SymmetricGeometry 2 ax S₁) (g : ℝ)
    (hg : SO2.angleToMatrix g = σ.matrix) (hC : 0 < a.outC)
    (weightH weight : Tensor ℝ) (hwH : weightH.shape = [a.groupKernelSize, a.outC, a.inC / a.groups])
    (hw : weight.shape = [a.outC, 1, a.kernelSize, a.kernelSize]) (bias : Option (Tensor ℝ))
    (hb : BiasShape bias a.outC 2) (N n : ℕ) (hn0 : 0 < n) (x x' inH outH : Tensor ℝ) (hin : inH.shape = [n]) (hout : outH.shape = [n])
    (hx : MovedTensor LatticeSym.ax2 σ [N, a.inC, n] S' S x x') :
    ∃ out out', M.layer.separableForward M.kernel weightH weight bias x inH outH = .ok (out, outH) ∧
      M.layer.separableForward M.kernel weightH weight bias x' (inH.map (SO2.leftApplyAngle g)) (outH.map (SO2.leftApplyAngle g)) =
        .ok (out', outH.map (SO2.leftApplyAngle g)) ∧
      MovedTensor LatticeSym.ax2 σ [N, a.outC, n] (outDims ax S₁') (outDims ax S₁) out out' := by
  obtain ⟨e, hL⟩ := separable_built hM
  have hks : kernelDims ax = [a.kernelSize, a.kernelSize] := hgeo.kernel.symm
  rw [← hks] at hL
  rw [e]
  obtain ⟨out, out', h1, h2, h3⟩ := separable_equivariant hgeo hL hσ hg₁ hsym₁ hS₁ hS₁' hS hsym
    (groupMoves (lawful a gridSample) (pointwise a _ (by omega)) (sampleAt_local _ _ _ rfl) (rows' a hn).1 (rows' a hn).2
      (by rw [dim]; omega) (cancels g) (moves a _ hk σ g hg) (c := 1) (by show 1 / (1 : ℝ) = 1; norm_num) (fun _ _ => True)
      fun _ _ _ => trivial).2
    rfl rfl hks.symm weightH weight (by rw [dim]; exact hwH) hw bias hb N n hC hn0 x x' inH outH hin hout (fun _ _ _ _ => trivial) hx
  exact ⟨out, out', h1, h2, movedOutput_one h3⟩

/-! ## The program -/

/-- the arguments of the two layers of the program. -/
def opts (inC outC k n : ℕ) : Opts := { inC := inC, outC := outC, kernelSize := k, groupKernelSize := n }

theorem opts_geometry (inC outC k n : ℕ) : HasGeometry (layerArgs (opts inC outC k n)) .zeros (List.replicate 2 ⟨k, 1, 1, 0, 0⟩) :=
  (C60_geometry_SE2 { inC := inC, outC := outC, kernelSize := k, groupKernelSize := n } {} _ _).1.2
    ((C61_geometry_int 2 k 1 1 0 "zeros" .zeros (Or.inl ⟨rfl, rfl⟩) _).2 rfl)

theorem opts_accepted (inC outC k n : ℕ) : Accepted (layerArgs (opts inC outC k n)) := by
  refine ⟨fun l h => ?_, show (0 : ℤ) < 1 by norm_num, one_dvd _, one_dvd _, fun s h => ?_, Or.inl rfl, Or.inl rfl⟩
  · cases (show GroupSize.int n = .tuple l from h)
  · cases (show PadArg.int 0 = .str s from h)

theorem built (inC outC k n : ℕ) : (∃ M, liftingConv (opts inC outC k n) = .ok M) ∧ ∃ M, separableConv (opts inC outC k n) = .ok M := by
  obtain ⟨L, hL⟩ := (C58_accepts _ _ _ [k, k] rfl rfl).2 (opts_accepted inC outC k n)
  constructor
  · refine ⟨⟨L, kernel (opts inC outC k n) noSampler, false⟩, ?_⟩
    unfold liftingConv build
    rw [show checkGroups (opts inC outC k n).groups (kernel (opts inC outC k n) noSampler) = .ok _ from
      if_neg (show ¬(1 : ℕ) = 0 by norm_num), ok_bind]
    show (init _ [k, k] >>= _) = _
    rw [hL]
    rfl
  · refine ⟨⟨L, kernel (opts inC outC k n) gridSample, false⟩, ?_⟩
    unfold separableConv build
    rw [show checkGroups (opts inC outC k n).groups (kernel (opts inC outC k n) gridSample) = .ok _ from
      if_neg (show ¬(1 : ℕ) = 0 by norm_num), ok_bind]
    show (init _ [k, k] >>= _) = _
    rw [hL]
    rfl

/-- What the two layers compute with kernels `v`, `vH`, `vS` obtained from the parameters `w`, `wH`, `wS`. -/
structure Computes (N inC outC k n : ℕ) (S : List ℕ) (w wH wS x x₂ x₃ v vH vS : Tensor ℝ) : Prop where
  /-- the first layer is the lifting convolution with the kernel `v` -/
  first : ∀ b co h o, b < N → co < outC → h < n → InB (S.map (· - (k - 1))) o →
    x₂.get (b :: co :: h :: o) =
      Spec.liftingConv (layerArgs (opts inC outC k n)) .zeros (List.replicate 2 ⟨k, 1, 1, 0, 0⟩) S x v none b co h o
  /-- `v` is the filter `w`, read at the positions turned back by the angle `2π h / n` -/
  lifted : ∀ co h ci r s, co < outC → h < n → ci < inC → r < k → s < k →
    v.get [co, h, ci, r, s] = F.sampleAt .bilinear .border [k, k] (fun q => w.get (co :: ci :: q))
      ((SO2.angleToMatrix (-(2 * π * h / n))).mulVec ((Functional.createGridR2 k).get [r, s]))
  /-- the second layer is the separable convolution with the kernels `vH`, `vS` -/
  second : ∀ b co h o, b < N → co < outC → h < n → InB (S.map (· - 2 * (k - 1))) o →
    x₃.get (b :: co :: h :: o) =
      Spec.separableConv (layerArgs (opts outC outC k n)) .zeros (List.replicate 2 ⟨k, 1, 1, 0, 0⟩) (S.map (· - (k - 1))) x₂ vH vS none n b co h o
  /-- `vH` is the group filter `wH`, resampled at the relative angles -/
  group : ∀ co h ci i, co < outC → h < n → ci < outC → i < n →
    vH.get [co, h, ci, i, 0, 0] = value n
      (fun j => wH.get [j, (storedChannel outC outC co ci).1, (storedChannel outC outC co ci).2])
      (SO2.leftApplyAngle (-(2 * π * h / n)) (2 * π * i / n))
  /-- `vS` is the filter `wS`, read at the rotated positions -/
  spatial : ∀ co h r s, co < outC → h < n → r < k → s < k →
    vS.get [co, h, 0, r, s] = F.sampleAt .bilinear .border [k, k] (fun q => wS.get (co :: 0 :: q))
      ((SO2.angleToMatrix (-(2 * π * h / n))).mulVec ((Functional.createGridR2 k).get [r, s]))

/-- The program of the notebook runs for all sizes (two or more group elements, images that leave room for two kernels), all parameters and
all images, and the feature maps have the shapes and values that the notebook announces. -/
theorem C101_program_partial (N inC outC k n X Y : ℕ) (hk : 0 < k) (hin : 0 < inC) (hout : 0 < outC) (hn : 2 ≤ n)
    (hX : 2 * k - 1 ≤ X) (hY : 2 * k - 1 ≤ Y) (w wH wS : Tensor ℝ) (hw : w.shape = [outC, inC, k, k]) (hwH : wH.shape = [n, outC, outC])
    (hwS : wS.shape = [outC, 1, k, k]) (x : Tensor ℝ) (hx : x.shape = [N, inC, X, Y]) :
    ∃ x₂ x₃, program inC outC k n w wH wS x = .ok ((x₂, uniformGrid n), (x₃, uniformGrid n)) ∧
      x₂.shape = [N, outC, n, X - (k - 1), Y - (k - 1)] ∧ x₃.shape = [N, outC, n, X - 2 * (k - 1), Y - 2 * (k - 1)] ∧
      ∃ v vH vS, v.shape = [outC, n, inC, k, k] ∧ vH.shape = [outC, n, outC, n, 1, 1] ∧ vS.shape = [outC, n, 1, k, k] ∧
        Computes N inC outC k n [X, Y] w wH wS x x₂ x₃ v vH vS := by
  obtain ⟨⟨M, hM⟩, -⟩ := built inC outC k n
  obtain ⟨-, ⟨M₂, hM₂⟩⟩ := built outC outC k n
  obtain ⟨e, hL⟩ := lifting_built hM
  obtain ⟨e₂, hL₂⟩ := separable_built hM₂
  have h1 : ∀ s ∈ [X, Y], k ≤ s := by
    intro s hs
    fin_cases hs <;> show k ≤ _ <;> omega
  have h2 : ∀ s ∈ [X - (k - 1), Y - (k - 1)], k ≤ s := by
    intro s hs
    fin_cases hs <;> show k ≤ _ <;> omega
  have e1 : outDims (List.replicate 2 ⟨k, 1, 1, 0, 0⟩) [X, Y] = [X - (k - 1), Y - (k - 1)] := Readme.out_eq hk h1
  have e2 : outDims (List.replicate 2 ⟨k, 1, 1, 0, 0⟩) [X - (k - 1), Y - (k - 1)] = [X - (k - 1) - (k - 1), Y - (k - 1) - (k - 1)] :=
    Readme.out_eq hk h2
  have e3 : [X - (k - 1) - (k - 1), Y - (k - 1) - (k - 1)] = [X, Y].map (· - 2 * (k - 1)) := by
    simp only [Nat.sub_sub, two_mul, List.map_cons, List.map_nil]
  obtain ⟨v, v1, v2, v3⟩ := C50_lifting (lawful (opts inC outC k n) noSampler) (pointwise (opts inC outC k n) _ hk) w (uniformGrid n) n
    (by rw [hw]; show _ = [outC, inC / 1, k, k]; rw [Nat.div_one]) (grid_shape n)
  have hv : v.shape = [outC, n, inC, k, k] := by
    rw [v2]
    show [outC, n, inC / 1, k, k] = _
    rw [Nat.div_one]
  obtain ⟨x₂, l1, l2, l3⟩ := C60_lifting (opts_geometry inC outC k n) hL (S := [X, Y]) (Readme.geom_ok hk h1) (kernel (opts inC outC k n) noSampler)
    w v none N n x (uniformGrid n) (grid_shape n) hin v1 v2 hx (fun b hb => by cases hb)
  have hx2 : x₂.shape = [N, outC, n, X - (k - 1), Y - (k - 1)] := by
    rw [l2, e1]
    rfl
  obtain ⟨vH, vS, u1, u2, u3, u4, u5⟩ := C52_separable_partial (lawful (opts outC outC k n) gridSample) (pointwise (opts outC outC k n) _ hk)
    (rows' (opts outC outC k n) hn).1 (rows' (opts outC outC k n) hn).2 (by rw [dim]; exact Nat.lt_of_lt_of_le Nat.two_pos hn) wH wS
    (uniformGrid n) (uniformGrid n) n (by rw [hwH]; show _ = [n, outC, outC / 1]; rw [Nat.div_one]) hwS (grid_shape n) (grid_shape n)
    (fun _ _ _ _ => trivial)
  have hvH : vH.shape = [outC, n, outC, n, 1, 1] := by
    rw [u2]
    show [outC, n, outC / 1, n, 1, 1] = _
    rw [Nat.div_one]
  obtain ⟨x₃, m1, m2, m3⟩ := C62_once_partial (opts_geometry outC outC k n) hL₂ (S := [X - (k - 1), Y - (k - 1)]) (Readme.geom_ok hk h2)
    (fun a ha => by
      obtain rfl := List.eq_of_mem_replicate ha
      exact ⟨rfl, Or.inl ⟨rfl, rfl⟩⟩) (kernel (opts outC outC k n) gridSample) wH wS vH vS none N n n x₂ (uniformGrid n) (uniformGrid n)
    (grid_shape n) (grid_shape n) hout (by omega) u1 u2 u3 hx2 (fun b hb => by cases hb)
  refine ⟨x₂, x₃, ?_, hx2, ?_, v, vH, vS, hv, hvH, u3, ⟨?_, ?_, ?_, ?_, ?_⟩⟩
  · have hM' : liftingConv { inC := inC, outC := outC, kernelSize := k, groupKernelSize := n } = .ok M := hM
    have hM₂' : separableConv { inC := outC, outC := outC, kernelSize := k, groupKernelSize := n } = .ok M₂ := hM₂
    unfold program
    rw [hM', ok_bind, e, l1, ok_bind, hM₂', ok_bind, e₂]
    dsimp only
    rw [m1, ok_bind]
    rfl
  · rw [m2, e2, e3]
    rfl
  · intro b co h o hb hco hh ho
    exact l3 b co h o hb hco hh (by rw [e1]; exact ho)
  · intro co h ci r s hco hh hci hr hs
    have := v3 co h ci [r, s] hco hh (by show ci < inC / 1; rw [Nat.div_one]; exact hci) (by show InB [k, k] _; simp [hr, hs])
    rw [this, grid_get hh]
    show 1 * _ / (1 : ℝ) = _
    rw [one_mul, div_one]
    rfl
  · intro b co h o hb hco hh ho
    exact m3 b co h o hb hco hh (by rw [e2, e3]; exact ho)
  · intro co h ci i hco hh hci hi
    have := u4 co h ci i hco hh (by show ci < outC / 1; rw [Nat.div_one]; exact hci) hi
    rw [grid_get hh, grid_get hi] at this
    rw [show [co, h, ci, i, 0, 0] = co :: h :: ci :: i :: List.replicate (kernel (opts outC outC k n) gridSample).kernelSize.length 0 from rfl, this]
    show value n (fun j => wH.get [j, (storedChannel outC (outC / 1) co ci).1, (storedChannel outC (outC / 1) co ci).2]) _ = _
    rw [Nat.div_one]
    rfl
  · intro co h r s hco hh hr hs
    have := u5 co h [r, s] hco hh (by show InB [k, k] _; simp [hr, hs])
    rw [this, grid_get hh]
    show 1 * _ / (1 : ℝ) = _
    rw [one_mul, div_one]
    rfl

/-! ## Concrete cases -/

/-- the sizes of the notebook: 28 x 28 images with 3 channels, 16 output channels, kernels of extent 5, 8 rotations. -/
example (w wH wS x : Tensor ℝ) (hw : w.shape = [16, 3, 5, 5]) (hwH : wH.shape = [8, 16, 16]) (hwS : wS.shape = [16, 1, 5, 5])
    (hx : x.shape = [1, 3, 28, 28]) :
    ∃ x₂ x₃, program 3 16 5 8 w wH wS x = .ok ((x₂, uniformGrid 8), (x₃, uniformGrid 8)) ∧ x₂.shape = [1, 16, 8, 24, 24] ∧
      x₃.shape = [1, 16, 8, 20, 20] := by
  obtain ⟨x₂, x₃, h1, h2, h3, -⟩ := C101_program_partial 1 3 16 5 8 28 28 (by norm_num) (by norm_num) (by norm_num) (by norm_num)
    (by norm_num) (by norm_num) w wH wS hw hwH hwS x hx
  exact ⟨x₂, x₃, h1, h2, h3⟩

/-- a quarter turn of 28 x 28 images meets the hypotheses of the equivariance theorems. -/
example : (∃ M, liftingConv (opts 3 16 5 8) = .ok M) ∧ (∃ M, separableConv (opts 16 16 5 8) = .ok M) ∧
    HasGeometry (layerArgs (opts 3 16 5 8)) .zeros (List.replicate 2 ⟨5, 1, 1, 0, 0⟩) ∧
    GeomOk .zeros (List.replicate 2 ⟨5, 1, 1, 0, 0⟩) [28, 28] ∧ SymmetricGeometry 2 (List.replicate 2 ⟨5, 1, 1, 0, 0⟩) [28, 28] ∧
    LatticeSym.Matches LatticeSym.ax2 KernelSE2.quarter [28, 28] [28, 28] ∧ SO2.angleToMatrix (π / 2) = KernelSE2.quarter.matrix :=
  ⟨(built _ _ _ _).1, (built _ _ _ _).2, opts_geometry _ _ _ _, Readme.geom_ok (S := [28, 28]) (by norm_num) (by simp),
    ⟨⟨5, 1, 1, 0, 0⟩, rfl, rfl, fun s _ => one_dvd _⟩, ⟨rfl, rfl, fun c => by fin_cases c <;> rfl⟩, KernelSE2.quarter_matrix⟩

/-- the constant signal on the 8 rotations of the notebook. -/
example : ∃ out, gridSample ⟨[1], fun _ => 0⟩ ⟨[8, 1], fun _ => 1⟩ (uniformGrid 8) = .ok out ∧ out.get [0, 0] ≤ 0 := by
  obtain ⟨out, h1, -, h3⟩ := C101_violated_constant 8 (by norm_num) ⟨[1], fun _ => 0⟩ ⟨[8, 1], fun _ => 1⟩ 1 1 rfl rfl (fun _ _ _ _ => rfl)
  exact ⟨out, h1, h3 0 (by norm_num) 0 (by norm_num)⟩

end GConv.Tutorial

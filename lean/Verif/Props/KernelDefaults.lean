import Verif.Props.KernelInstances

/-! # C54, C55: constructor flags and defaults of the premade kernels; C52, C56 for the SO(3) subgroup
kernel -/

namespace GConv

open Tensor Spec GroupKernel

/-! ## C54 -/

/-- `mask=True` gives the spherical mask, `mask=False` no mask: SE(3) and E(3), E(2) kernels. -/
theorem C54_SE3_partial (s opt) (a : KernelArgs SO3.Mat3 ℕ) (K : GroupKernel SO3.Mat3 3)
    (h : KernelSE3.lifting s opt a = .ok K ∨ KernelSE3.full s opt a = .ok K) :
    (a.mask = true → K.mask = some (Functional.createSphericalMaskR3 a.kernelSize)) ∧
    (a.mask = false → K.mask = none) := by
  obtain ⟨gr, sa, rfl⟩ : ∃ gr sa, K = KernelSE3.base a gr sa := by
    rcases h with h | h
    · unfold KernelSE3.lifting at h
      cases hgr : KernelSE3.grid s opt a with
      | error e => rw [hgr] at h; cases h
      | ok gr =>
        rw [hgr, ok_bind] at h
        unfold checkGroups at h
        by_cases h0 : a.groups = 0
        · rw [if_pos h0] at h; cases h
        · rw [if_neg h0] at h; cases h; exact ⟨_, _, rfl⟩
    · exact KernelSE3.full_base h
  constructor
  · intro hm; unfold KernelSE3.base; rw [hm]; rfl
  · intro hm; unfold KernelSE3.base; rw [hm]; rfl

theorem C54_E2_partial (a : KernelArgs O2.Elt SizeArg) (K : GroupKernel O2.Elt 2)
    (h : KernelE2.lifting a = .ok K ∨ KernelE2.full a = .ok K) :
    (a.mask = true → K.mask = some (Functional.createSphericalMaskR2 a.kernelSize)) ∧
    (a.mask = false → K.mask = none) := by
  obtain ⟨sa, rfl⟩ : ∃ sa, K = KernelE2.base a sa := by
    rcases h with h | h
    · unfold KernelE2.lifting checkGroups at h
      by_cases h0 : a.groups = 0
      · rw [if_pos h0] at h; cases h
      · rw [if_neg h0] at h; cases h; exact ⟨_, rfl⟩
    · exact KernelE2.full_base h
  constructor
  · intro hm; unfold KernelE2.base; rw [hm]; rfl
  · intro hm; unfold KernelE2.base; rw [hm]; rfl

theorem C54_E3_partial (s opt1 opt2) (a : KernelArgs O3.Elt SizeArg) (K : GroupKernel O3.Elt 3)
    (h : KernelE3.lifting s opt1 opt2 a = .ok K ∨ KernelE3.full s opt1 opt2 a = .ok K) :
    (a.mask = true → K.mask = some (Functional.createSphericalMaskR3 a.kernelSize)) ∧
    (a.mask = false → K.mask = none) := by
  obtain ⟨gr, sa, rfl⟩ : ∃ gr sa, K = KernelE3.base a gr sa := by
    rcases h with h | h
    · unfold KernelE3.lifting at h
      cases hgr : KernelE3.grid s opt1 opt2 a with
      | error e => rw [hgr] at h; cases h
      | ok gr =>
        rw [hgr, ok_bind] at h
        unfold checkGroups at h
        by_cases h0 : a.groups = 0
        · rw [if_pos h0] at h; cases h
        · rw [if_neg h0] at h; cases h; exact ⟨_, _, rfl⟩
    · exact KernelE3.full_base h
  constructor
  · intro hm; unfold KernelE3.base; rw [hm]; rfl
  · intro hm; unfold KernelE3.base; rw [hm]; rfl

/-- kernels for both values of the flag exist. -/
example (gr : Tensor SO3.Mat3) (hn : 0 < gr.shape.headD 0) (s opt) (b : Bool) :
    ∃ K, KernelSE3.lifting s opt { KernelSE3.exArgs gr with mask := b } = .ok K := ⟨_, rfl⟩

/-- The SE(2) kernels ignore the flag: with `mask=False` the kernel is still masked, for instance its
corner cells are zero whatever the weights. -/
theorem C54_SE2_violated (a : KernelArgs ℝ ℕ) (hmask : a.mask = false) (hg : 0 < a.groups) (r : ℕ) (hr : 1 ≤ r)
    (hk : a.kernelSize = 2 * r + 1) {m p}
    (hm : SpatialModes a.spatialMode a.spatialPad m p) (weight H : Tensor ℝ) (n : ℕ)
    (hw : weight.shape = [a.outC, a.inC / a.groups, a.kernelSize, a.kernelSize]) (hH : H.shape = [n]) :
    ∃ K out, KernelSE2.lifting a = .ok K ∧
      K.mask = some (Functional.createSphericalMaskR2 a.kernelSize) ∧
      K.liftingForward weight H = .ok out ∧
      ∀ co h ci, co < a.outC → h < n → ci < a.inC / a.groups → out.get [co, h, ci, 0, 0] = 0 := by
  obtain ⟨K, out, h1, h2, h3, h4⟩ := KernelSE2.C50_SE2 a hg (by omega) hm weight H n hw hH
  refine ⟨K, out, h1, ?_, h2, ?_⟩
  · unfold KernelSE2.lifting checkGroups at h1
    rw [if_neg (by omega)] at h1; cases h1; rfl
  · intro co h ci hco hh hci
    rw [h4 co h ci 0 0 hco hh hci (by omega) (by omega), hk,
      (Functional.C47_odd r hr).2.2.2.2.2 0 0 (Or.inl rfl) (Or.inl rfl), zero_mul]

/-! ## C55 -/

/-- `w` is 0.8 times the mean over the grid of the distance to the nearest other element. -/
def IsMeanNearest {G : Type} (dist : G → G → ℝ) (grid : List G) (w : ℝ) : Prop :=
  ∃ d : List ℝ, d.length = grid.length ∧ w = 0.8 * (d.sum / d.length) ∧
    ∀ i (hi : i < grid.length), ∃ x, d[i]? = some x ∧
      (∃ j, ∃ hj : j < grid.length, j ≠ i ∧ x = dist grid[i] grid[j]) ∧
      (∀ j, ∀ hj : j < grid.length, j ≠ i → x ≤ dist grid[i] grid[j])

/-- distance between two rotation matrices as computed by `so3.geodesic_distance` of their quaternions. -/
noncomputable def matDist (a b : SO3.Mat3) : ℝ :=
  SO3.geodesicDistance (SO3.matrixToQuat a) (SO3.matrixToQuat b) SO3.defaultEps

/-- SE(3): the default width is 0.8 times the mean nearest-neighbour distance of the reference grid. -/
theorem C55_SE3_partial (s opt) (a : KernelArgs SO3.Mat3 ℕ) (gr : Tensor SO3.Mat3)
    (hgr : KernelSE3.grid s opt a = .ok gr) (hg : 0 < a.groups) (hw : a.rotWidth = 0)
    (h2 : 2 ≤ gr.shape.headD 0) (hrot : ∀ i < gr.shape.headD 0, IsRotation (gr.get [i])) :
    ∃ K w, KernelSE3.full s opt a = .ok K ∧ K.gridH = gr ∧
      (∀ q sig, K.sampleH q sig gr = SO3.gridSample q sig gr a.groupMode w) ∧
      IsMeanNearest matDist (elems gr) w := by
  obtain ⟨d, e, hl, hd⟩ := SO3.C26_matrix (elems gr)
    (by intro x hx; unfold elems at hx; obtain ⟨i, hi, rfl⟩ := List.mem_map.1 hx; exact hrot i (List.mem_range.1 hi))
    (by rw [elems_length]; exact h2)
  have hne := (KernelSE3.headD_pos (gr := gr) (by omega)).1
  have hdw : defaultWidth a.rotWidth (KernelSE3.nearest gr) = .ok (0.8 * mean d) := by
    unfold defaultWidth; rw [if_pos hw, KernelSE3.nearest_eq hne, e]; rfl
  refine ⟨KernelSE3.base a gr (KernelSE3.sampler a.groupMode (0.8 * mean d)), 0.8 * mean d,
    ?_, rfl, KernelSE3.sampler_eq hne _ _, d, hl, rfl, hd⟩
  unfold KernelSE3.full
  rw [hgr, ok_bind, hdw, ok_bind]
  exact if_neg (by omega)

/-- A non-zero width argument is used as it is (all four groups). -/
theorem C55_given :
    (∀ (a : KernelArgs ℝ ℕ), 0 < a.groups → a.rotWidth ≠ 0 → ∃ K, KernelSE2.full a = .ok K ∧
      K.sampleH = fun q sig g => SO2.gridSample q sig g a.groupMode a.rotWidth) ∧
    (∀ s opt (a : KernelArgs SO3.Mat3 ℕ) gr, KernelSE3.grid s opt a = .ok gr → 0 < a.groups → a.rotWidth ≠ 0 →
      ∃ K, KernelSE3.full s opt a = .ok K ∧ K.gridH = gr ∧ (gr.shape ≠ [] →
      ∀ q sig, K.sampleH q sig gr = SO3.gridSample q sig gr a.groupMode a.rotWidth)) ∧
    (∀ (a : KernelArgs O2.Elt SizeArg), 0 < a.groups → a.rotWidth ≠ 0 → a.refWidth ≠ 0 →
      ∃ K, KernelE2.full a = .ok K ∧ K.sampleH = fun q sig g => O2.gridSample q sig g
        (sizePair a.groupKernelSize).1 (sizePair a.groupKernelSize).2 a.groupMode a.rotWidth a.refWidth) ∧
    (∀ s opt1 opt2 (a : KernelArgs O3.Elt SizeArg) gr, KernelE3.grid s opt1 opt2 a = .ok gr → 0 < a.groups →
      a.rotWidth ≠ 0 → a.refWidth ≠ 0 →
      ∃ K, KernelE3.full s opt1 opt2 a = .ok K ∧ K.sampleH = fun q sig g => O3.gridSample q sig g
        (sizePair a.groupKernelSize).1 (sizePair a.groupKernelSize).2 a.groupMode a.rotWidth a.refWidth) := by
  have key : ∀ (w : ℝ) nn, w ≠ 0 → defaultWidth w nn = .ok w := fun w nn h => if_neg h
  refine ⟨fun a hg h => ?_, fun s opt a gr hgr hg h => ?_, fun a hg h h' => ?_, fun s o1 o2 a gr hgr hg h h' => ?_⟩
  · refine ⟨KernelSE2.base a _, ?_, rfl⟩
    unfold KernelSE2.full; rw [key _ _ h, ok_bind]; exact if_neg (by omega)
  · refine ⟨KernelSE3.base a gr (KernelSE3.sampler a.groupMode a.rotWidth), ?_, rfl, fun hne => KernelSE3.sampler_eq hne _ _⟩
    unfold KernelSE3.full; rw [hgr, ok_bind, key _ _ h, ok_bind]; exact if_neg (by omega)
  · refine ⟨KernelE2.base a _, ?_, rfl⟩
    unfold KernelE2.full; dsimp only; rw [key _ _ h, ok_bind, key _ _ h', ok_bind]; exact if_neg (by omega)
  · refine ⟨KernelE3.base a gr _, ?_, rfl⟩
    unfold KernelE3.full; dsimp only; rw [hgr, ok_bind, key _ _ h, ok_bind, key _ _ h', ok_bind]; exact if_neg (by omega)

theorem mean_const (l : List ℝ) (c : ℝ) (h : l ≠ []) : mean (l.map fun _ => c) = c := by
  unfold mean
  have : (l.length : ℝ) ≠ 0 := by
    have := List.length_pos_of_ne_nil h
    positivity
  simp [List.map_const', this]

theorem so2_default (l : List ℝ) (h : l ≠ []) :
    defaultWidth 0 (SO2.nearestNeighbourDistance l) = .ok (0.8 * Real.arccos (1 - SO2.defaultEps)) := by
  unfold defaultWidth
  rw [if_pos rfl, SO2.C07_partial l h]
  show Except.ok (0.8 * mean _) = _
  rw [mean_const l _ h]

/-- a width that is smaller than every distance between two different positions is not the mean
nearest-neighbour width. -/
theorem not_meanNearest {G : Type} (dist : G → G → ℝ) (grid : List G) (c : ℝ) (h2 : 2 ≤ grid.length)
    (h : ∀ i j, (hi : i < grid.length) → (hj : j < grid.length) → j ≠ i → c < dist grid[i] grid[j]) :
    ¬ IsMeanNearest dist grid (0.8 * c) := by
  rintro ⟨d, hl, hw, hd⟩
  have hlt : ∀ x ∈ d, c < x := by
    intro x hx
    obtain ⟨i, hi, rfl⟩ := List.getElem_of_mem hx
    obtain ⟨y, hy, ⟨j, hj, hne, e⟩, -⟩ := hd i (by omega)
    rw [List.getElem?_eq_getElem hi] at hy
    cases hy
    rw [e]; exact h i j (by omega) hj hne
  have hpos : (0 : ℝ) < d.length := by exact_mod_cast (by omega : 0 < d.length)
  have hsum : d.length * c < d.sum := by
    have hne : d ≠ [] := by intro h; rw [h] at hl; simp at hl; omega
    clear hd hw hl
    have : ∀ l : List ℝ, l ≠ [] → (∀ x ∈ l, c < x) → l.length * c < l.sum := by
      intro l
      induction l with
      | nil => intro h; exact absurd rfl h
      | cons x l ih =>
        intro _ hx
        have h1 := hx x (by simp)
        rcases eq_or_ne l [] with rfl | hl
        · simp; exact h1
        · have := ih hl (fun y hy => hx y (by simp [hy]))
          simp only [List.length_cons, List.sum_cons]; push_cast; linarith
    exact this d hne hlt
  have : c < d.sum / d.length := by rw [lt_div_iff₀ hpos]; linarith
  linarith

/-- SE(2): the default width is one and the same number for every non-empty reference grid, and it is not
the mean nearest-neighbour width as soon as the elements of the grid are distinguishable. -/
theorem C55_SE2_violated (a : KernelArgs ℝ ℕ) (hg : 0 < a.groups) (hw : a.rotWidth = 0)
    (h2 : 2 ≤ (elems (KernelSE2.grid a)).length)
    (hd : ∀ i j, (hi : i < (elems (KernelSE2.grid a)).length) → (hj : j < (elems (KernelSE2.grid a)).length) →
      j ≠ i → Real.arccos (1 - SO2.defaultEps) < SO2.dist (elems (KernelSE2.grid a))[i] (elems (KernelSE2.grid a))[j]) :
    ∃ K w, KernelSE2.full a = .ok K ∧ K.sampleH = (fun q sig g => SO2.gridSample q sig g a.groupMode w) ∧
      w = 0.8 * Real.arccos (1 - SO2.defaultEps) ∧ ¬ IsMeanNearest SO2.dist (elems (KernelSE2.grid a)) w := by
  have hne : elems (KernelSE2.grid a) ≠ [] := by intro h; rw [h] at h2; simp at h2
  refine ⟨KernelSE2.base a _, _, ?_, rfl, rfl, not_meanNearest _ _ _ h2 hd⟩
  unfold KernelSE2.full
  rw [hw, so2_default _ hne, ok_bind]
  exact if_neg (by omega)

/-- E(2): the same for the rotations and the reflections of the reference grid. -/
theorem C55_E2_violated (a : KernelArgs O2.Elt SizeArg) (hg : 0 < a.groups) (hw : a.rotWidth = 0) (hf : a.refWidth = 0)
    (hR : ((elems (KernelE2.grid a)).take (KernelE2.nRot a)).map Prod.snd ≠ [])
    (hF : ((elems (KernelE2.grid a)).drop (KernelE2.nRot a)).map Prod.snd ≠ []) :
    ∃ K w, KernelE2.full a = .ok K ∧ K.sampleH = (fun q sig g => O2.gridSample q sig g
        (KernelE2.nRot a) (KernelE2.nRef a) a.groupMode w w) ∧
      w = 0.8 * Real.arccos (1 - SO2.defaultEps) := by
  refine ⟨KernelE2.base a _, _, ?_, rfl, rfl⟩
  unfold KernelE2.full
  unfold KernelE2.nRot at hR hF
  dsimp only
  rw [hw, hf, so2_default _ hR, ok_bind, so2_default _ hF, ok_bind]
  exact if_neg (by omega)


/-- The hypotheses of `C55_SE2_violated` hold of the default reference grid of size 2, whose two
elements are a half turn apart. -/
def exSE2 : KernelArgs ℝ ℕ := { inC := 4, outC := 6, kernelSize := 5, groupKernelSize := 2, groups := 2 }

theorem arccos_eps_lt {x eps : ℝ} (he0 : 0 < eps) (he1 : eps < 1) (h0 : -1 ≤ x) (h1 : x < 1 - eps) :
    Real.arccos (1 - eps) < Real.arccos (clamp x (-1 + eps) (1 - eps)) := by
  refine Real.strictAntiOn_arccos ⟨?_, ?_⟩ ⟨?_, ?_⟩ ?_
  · unfold clamp; rw [le_min_iff]; constructor
    · exact le_max_of_le_left h0
    · linarith
  · exact le_trans clamp_le (by linarith)
  · linarith
  · linarith
  · unfold clamp
    rw [min_lt_iff]
    left
    rw [max_lt_iff]
    exact ⟨h1, by linarith⟩

theorem half_turn_apart : ∀ i j, (hi : i < [0, Real.pi].length) → (hj : j < [0, Real.pi].length) → j ≠ i →
    Real.arccos (1 - SO2.defaultEps) < SO2.dist [0, Real.pi][i] [0, Real.pi][j] := by
  have key : ∀ x y : ℝ, Real.cos (x - y) = -1 → Real.arccos (1 - SO2.defaultEps) < SO2.dist x y := by
    intro x y h
    unfold SO2.dist
    rw [SO2.geodesic_eq, h]
    exact arccos_eps_lt (by unfold SO2.defaultEps; norm_num) (by unfold SO2.defaultEps; norm_num) le_rfl
      (by unfold SO2.defaultEps; norm_num)
  intro i j hi hj hne
  have hi' : i < 2 := hi
  have hj' : j < 2 := hj
  interval_cases i <;> interval_cases j
  · exact absurd rfl hne
  · exact key _ _ (by simp)
  · exact key _ _ (by simp)
  · exact absurd rfl hne

theorem exSE2_elems : elems (KernelSE2.grid exSE2) = [0, Real.pi] := by
  show elems (Tensor.ofList (SO2.uniformGrid 2)) = _
  rw [SO2.uniformGrid_eq]
  simp [elems, Tensor.ofList, List.range_succ]

example : ∃ K w, KernelSE2.full exSE2 = .ok K ∧
      K.sampleH = (fun q sig g => SO2.gridSample q sig g exSE2.groupMode w) ∧
      w = 0.8 * Real.arccos (1 - SO2.defaultEps) ∧ ¬ IsMeanNearest SO2.dist (elems (KernelSE2.grid exSE2)) w := by
  refine C55_SE2_violated exSE2 (by norm_num [exSE2]) rfl (by rw [exSE2_elems]; simp) ?_
  rw [exSE2_elems]
  exact half_turn_apart

/-- an E(2) kernel with the default reference grid of two rotations and two reflections. -/
def exE2 : KernelArgs O2.Elt SizeArg := { inC := 4, outC := 6, kernelSize := 5, groupKernelSize := .int 2, groups := 2 }

theorem exE2_elems : elems (KernelE2.grid exE2) = [(1, 0), (1, Real.pi), (-1, 0), (-1, Real.pi)] := by
  show elems (Tensor.ofList (O2.uniformGrid 2 2)) = _
  unfold O2.uniformGrid
  rw [SO2.uniformGrid_eq]
  simp [elems, Tensor.ofList, List.range_succ]

/-- Concrete case: the two rotations of the default grid of size 2 are a half turn apart, the E(2) default
width is not 0.8 times their mean nearest-neighbour distance. -/
theorem C55_E2_violated_concrete :
    (∃ K w, KernelE2.full exE2 = .ok K ∧ K.sampleH = (fun q sig g => O2.gridSample q sig g
        (KernelE2.nRot exE2) (KernelE2.nRef exE2) exE2.groupMode w w) ∧
      w = 0.8 * Real.arccos (1 - SO2.defaultEps)) ∧
    ¬ IsMeanNearest SO2.dist (((elems (KernelE2.grid exE2)).take 2).map Prod.snd)
      (0.8 * Real.arccos (1 - SO2.defaultEps)) := by
  have e : KernelE2.nRot exE2 = 2 := rfl
  constructor
  · exact C55_E2_violated exE2 (by norm_num [exE2]) rfl rfl (by rw [e, exE2_elems]; simp) (by rw [e, exE2_elems]; simp)
  · rw [exE2_elems]
    exact not_meanNearest _ _ _ (by simp) half_turn_apart

theorem sort_const (l : List ℝ) (c : ℝ) (h2 : 2 ≤ l.length) (h : ∀ x ∈ l, x = c) : (sortL l).getD 1 0 = c := by
  have hperm : (sortL l).Perm l := List.mergeSort_perm _ _
  have hl : 1 < (sortL l).length := by rw [hperm.length_eq]; omega
  have : (sortL l).getD 1 0 = (sortL l)[1] := by
    rw [List.getD_eq_getElem?_getD, List.getElem?_eq_getElem hl]; rfl
  rw [this]
  exact h _ (hperm.mem_iff.1 (List.getElem_mem hl))

/-- what `kernel_e3.py` computes: the rows of ten components are used as quaternions; as soon as all inner
products are at least 1 every distance is the smallest possible one. -/
theorem row_const (l : List O3.Elt) (h2 : 2 ≤ l.length) (h : ∀ a ∈ l, ∀ b ∈ l, 1 ≤ ∑ i, a i * b i) :
    KernelE3.rowNearestNeighbour l = .ok (l.map fun _ => Real.arccos (1 - SO3.defaultEps)) := by
  unfold KernelE3.rowNearestNeighbour
  rw [if_neg (by omega)]
  congr 1
  apply List.map_congr_left
  intro a ha
  apply sort_const _ _ (by simpa using h2)
  intro x hx
  obtain ⟨b, hb, rfl⟩ := List.mem_map.1 hx
  unfold KernelE3.rowDistance
  congr 1
  have h1 := le_trans (h a ha b hb) (le_abs_self _)
  unfold clamp
  have he : SO3.defaultEps ≥ 0 := by unfold SO3.defaultEps; norm_num
  rw [min_eq_right]
  exact le_max_of_le_left (by linarith)

/-- E(3): if in each coset all pairs of elements have inner product at least 1 (for elements with the same
coefficient: the trace of the relative rotation is non-negative), both widths are one constant. -/
theorem C55_E3_violated (s opt1 opt2) (a : KernelArgs O3.Elt SizeArg) (gr : Tensor O3.Elt)
    (hgr : KernelE3.grid s opt1 opt2 a = .ok gr) (hg : 0 < a.groups) (hw : a.rotWidth = 0) (hf : a.refWidth = 0)
    (hR : 2 ≤ ((elems gr).take (KernelE3.nRot a)).length) (hF : 2 ≤ ((elems gr).drop (KernelE3.nRot a)).length)
    (h1 : ∀ x ∈ (elems gr).take (KernelE3.nRot a), ∀ y ∈ (elems gr).take (KernelE3.nRot a), 1 ≤ ∑ i, x i * y i)
    (h2 : ∀ x ∈ (elems gr).drop (KernelE3.nRot a), ∀ y ∈ (elems gr).drop (KernelE3.nRot a), 1 ≤ ∑ i, x i * y i) :
    ∃ K w, KernelE3.full s opt1 opt2 a = .ok K ∧ K.sampleH = (fun q sig g => O3.gridSample q sig g
        (KernelE3.nRot a) (KernelE3.nRef a) a.groupMode w w) ∧
      w = 0.8 * Real.arccos (1 - SO3.defaultEps) := by
  have key : ∀ l : List O3.Elt, 2 ≤ l.length → (∀ x ∈ l, ∀ y ∈ l, 1 ≤ ∑ i, x i * y i) →
      defaultWidth 0 (KernelE3.rowNearestNeighbour l) = .ok (0.8 * Real.arccos (1 - SO3.defaultEps)) := by
    intro l hl h
    unfold defaultWidth
    rw [if_pos rfl, row_const l hl h]
    show Except.ok (0.8 * mean (l.map fun _ => Real.arccos (1 - SO3.defaultEps))) = _
    have hne : l ≠ [] := by intro e; rw [e] at hl; simp at hl
    have hm : mean (l.map fun _ => Real.arccos (1 - SO3.defaultEps)) = Real.arccos (1 - SO3.defaultEps) := by
      unfold mean
      have : (l.length : ℝ) ≠ 0 := by
        have := List.length_pos_of_ne_nil hne
        positivity
      simp [List.map_const', this]
    rw [hm]
  refine ⟨KernelE3.base a gr _, _, ?_, rfl, rfl⟩
  unfold KernelE3.full
  unfold KernelE3.nRot at *
  dsimp only
  rw [hgr, ok_bind, hw, hf, key _ hR h1, ok_bind, key _ hF h2, ok_bind]
  exact if_neg (by omega)

/-- inner product of two rows of ten components. -/
theorem mk_inner (c e : ℝ) (R S : SO3.Mat3) :
    ∑ i, O3.mk c R i * O3.mk e S i = c * e + ∑ i, ∑ j, R i j * S i j := by
  rw [Fin.sum_univ_castSucc, Fin.sum_univ_castSucc, Fin.sum_univ_eight, Fin.sum_univ_three, Fin.sum_univ_three,
    Fin.sum_univ_three, Fin.sum_univ_three]
  show c * e + R 0 0 * S 0 0 + R 0 1 * S 0 1 + R 0 2 * S 0 2 + R 1 0 * S 1 0 + R 1 1 * S 1 1 + R 1 2 * S 1 2 +
    R 2 0 * S 2 0 + R 2 1 * S 2 1 + R 2 2 * S 2 2 = _
  ring

/-- quarter turn about the third axis. -/
def quarterZ : SO3.Mat3 := !![0, -1, 0; 1, 0, 0; 0, 0, 1]

/-- an O(3) reference grid with two rotations and two reflections. -/
noncomputable def exO3 : Tensor O3.Elt :=
  Tensor.ofList [O3.mk 1 1, O3.mk 1 quarterZ, O3.mk (-1) 1, O3.mk (-1) quarterZ]

noncomputable def exE3 : KernelArgs O3.Elt SizeArg :=
  { inC := 4, outC := 6, kernelSize := 5, groupKernelSize := .int 2, groups := 2, gridH := some exO3 }

theorem exO3_elems : elems exO3 = [O3.mk 1 1, O3.mk 1 quarterZ, O3.mk (-1) 1, O3.mk (-1) quarterZ] := by
  simp [elems, exO3, Tensor.ofList, List.range_succ]

theorem quarterZ_rot : IsRotation quarterZ := by
  constructor
  · unfold quarterZ; ext i j; fin_cases i <;> fin_cases j <;> simp [Matrix.mul_apply, Fin.sum_univ_three]
  · unfold quarterZ; rw [Matrix.det_fin_three]; simp

theorem one_rot : IsRotation (1 : SO3.Mat3) := ⟨by simp, by simp⟩

/-- identity and quarter turn are further apart than the smallest distance. -/
theorem matDist_quarter : Real.arccos (1 - SO3.defaultEps) < matDist 1 quarterZ ∧
    Real.arccos (1 - SO3.defaultEps) < matDist quarterZ 1 := by
  obtain ⟨u1, r1⟩ := SO3.C16_unit_and_inverse 1 one_rot
  obtain ⟨u2, r2⟩ := SO3.C16_unit_and_inverse quarterZ quarterZ_rot
  have ht := SO3.trace_rel _ _ u1 u2
  rw [r1, r2] at ht
  have htr : ((1 : SO3.Mat3).transpose * quarterZ).trace = 1 := by
    unfold quarterZ; rw [Matrix.transpose_one, Matrix.one_mul, Matrix.trace_fin_three]; simp
  rw [htr] at ht
  have hd : |dot (SO3.matrixToQuat 1) (SO3.matrixToQuat quarterZ)| < 1 - SO3.defaultEps := by
    apply abs_lt_of_sq_lt_sq
    · unfold SO3.defaultEps; nlinarith
    · unfold SO3.defaultEps; norm_num
  have key : Real.arccos (1 - SO3.defaultEps) < matDist 1 quarterZ := by
    unfold matDist
    rw [SO3.geodesic_eq_dot]
    exact arccos_eps_lt (by unfold SO3.defaultEps; norm_num) (by unfold SO3.defaultEps; norm_num)
      (by linarith [abs_nonneg (dot (SO3.matrixToQuat 1) (SO3.matrixToQuat quarterZ))]) hd
  refine ⟨key, ?_⟩
  have : matDist quarterZ 1 = matDist 1 quarterZ := SO3.C25_symm _ _ _
  rw [this]; exact key

/-- Concrete case: the two rotations of `exO3` are a quarter turn apart, the E(3) default width is not 0.8
times their mean nearest-neighbour distance. -/
theorem C55_E3_violated_concrete (s opt1 opt2) :
    (∃ K w, KernelE3.full s opt1 opt2 exE3 = .ok K ∧ K.sampleH = (fun q sig g => O3.gridSample q sig g
        (KernelE3.nRot exE3) (KernelE3.nRef exE3) exE3.groupMode w w) ∧
      w = 0.8 * Real.arccos (1 - SO3.defaultEps)) ∧
    ¬ IsMeanNearest matDist [1, quarterZ] (0.8 * Real.arccos (1 - SO3.defaultEps)) := by
  constructor
  · have e : KernelE3.nRot exE3 = 2 := rfl
    refine C55_E3_violated s opt1 opt2 exE3 exO3 rfl (by norm_num [exE3]) rfl rfl ?_ ?_ ?_ ?_
    · rw [e, exO3_elems]; simp
    · rw [e, exO3_elems]; simp
    · rw [e, exO3_elems]
      intro x hx y hy
      simp only [List.take_succ_cons, List.take_zero, List.mem_cons, List.not_mem_nil, or_false] at hx hy
      rcases hx with rfl | rfl <;> rcases hy with rfl | rfl <;>
        rw [mk_inner] <;> simp [quarterZ, Fin.sum_univ_three] <;> norm_num
    · rw [e, exO3_elems]
      intro x hx y hy
      simp only [List.drop_succ_cons, List.drop_zero, List.mem_cons, List.not_mem_nil, or_false] at hx hy
      rcases hx with rfl | rfl <;> rcases hy with rfl | rfl <;>
        rw [mk_inner] <;> simp [quarterZ, Fin.sum_univ_three] <;> norm_num
  · refine not_meanNearest _ _ _ (by simp) ?_
    intro i j hi hj hne
    have hi' : i < 2 := hi
    have hj' : j < 2 := hj
    interval_cases i <;> interval_cases j
    · exact absurd rfl hne
    · exact matDist_quarter.1
    · exact matDist_quarter.2
    · exact absurd rfl hne

/-! ## the SO(3) subgroup kernel -/
namespace KernelSO3

open SO3

/-- the constructor succeeds with this width. -/
theorem subgroup_base {inC outC groups mode width quats} {K : GroupKernel Mat3 0}
    (h : subgroup inC outC groups mode width quats = .ok K) :
    ∃ w, defaultWidth width (nearestNeighbourDistance (elems quats)) = .ok w ∧
      K.inC = inC ∧ K.outC = outC ∧ K.groups = groups ∧ K.kernelSize = [1, 1, 1] ∧
      K.groupKernelSize = [quats.shape.headD 0] ∧
      K.sampleH = (fun q sig _ => gridSampleQuat (q.map matrixToQuat) sig quats mode w) ∧
      Lawful K matrixInverse leftApplyMatrix (fun _ v => v) none := by
  unfold subgroup at h
  cases hd : defaultWidth width (nearestNeighbourDistance (elems quats)) with
  | error e => rw [hd] at h; cases h
  | ok w =>
    rw [hd, ok_bind] at h
    unfold checkGroups at h
    by_cases h0 : groups = 0
    · rw [if_pos h0] at h; cases h
    · rw [if_neg h0] at h
      cases h
      exact ⟨w, rfl, rfl, rfl, rfl, rfl, rfl, rfl,
        { inverseH := fun _ => rfl, leftApplyToH := fun _ _ => rfl, leftApplyToRn := fun _ _ => rfl, detH := rfl,
          gridRn := rfl, mask := fun m hm => by cases hm }⟩

/-- The SO(3) subgroup kernel samples the group weights at the relative rotations `out_H[o]^-1 in_H[i]`
(as many input as output elements). -/
theorem C52_SO3_partial (inC outC groups : ℕ) (mode : String) (width : ℝ) (quats : Tensor Quat) (K : GroupKernel Mat3 0)
    (hK : subgroup inC outC groups mode width quats = .ok K) (w : ℝ)
    (hwd : defaultWidth width (nearestNeighbourDistance (elems quats)) = .ok w)
    (hs : Solvable SO3.dist mode w quats (quats.shape.headD 0)) (hpos : 0 < quats.shape.headD 0)
    (weight : Tensor ℝ) (inH outH : Tensor Mat3) (n : ℕ)
    (hw : weight.shape = [quats.shape.headD 0, outC, inC / groups])
    (hin : inH.shape = [n]) (hout : outH.shape = [n]) :
    ∃ out, K.subgroupForward weight inH outH = .ok out ∧
      out.shape = [outC, n, inC / groups, n, 1, 1, 1] ∧
      ∀ co o ci i, co < outC → o < n → ci < inC / groups → i < n →
        out.get [co, o, ci, i, 0, 0, 0] =
          sampleOne (fun q sig g => gridSampleQuat q sig g mode w) quats (quats.shape.headD 0)
            (fun k => weight.get [k, (storedChannel outC (inC / groups) co ci).1,
              (storedChannel outC (inC / groups) co ci).2])
            (matrixToQuat ((outH.get [o]).transpose * inH.get [i])) := by
  obtain ⟨w', e1, e2, e3, e4, e5, e6, e7, hL⟩ := subgroup_base hK
  rw [hwd] at e1; cases e1
  have hdim : K.groupKernelDim = quats.shape.headD 0 := by unfold groupKernelDim; rw [e6]; simp
  obtain ⟨hr, hl⟩ := SO3.rowwiseQuat mode w quats _ hs
  have hr' : RowwiseSampler K.sampleH K.gridH K.groupKernelDim (fun _ => True)
      (fun f q => sampleOne (fun q sig g => gridSampleQuat q sig g mode w) quats (quats.shape.headD 0) f (matrixToQuat q)) := by
    rw [e7, hdim]
    intro q sig m S hq hsig _
    exact hr (q.map matrixToQuat) sig m S hq hsig (fun _ _ => trivial)
  have hl' : LocalChannel K.groupKernelDim
      (fun f (q : Mat3) => sampleOne (fun q sig g => gridSampleQuat q sig g mode w) quats (quats.shape.headD 0) f (matrixToQuat q)) := by
    rw [hdim]; intro f g q h; exact hl f g _ h
  obtain ⟨out, h1, h2, h3⟩ := C52_subgroup_partial hL hr' hl' (by rw [hdim]; exact hpos) (by rw [e5]; rfl)
    weight inH outH n (by rw [hdim, e2, e3, e4]; exact hw) hin hout (fun _ _ _ _ => trivial)
  refine ⟨out, h1, ?_, ?_⟩
  · rw [h2, e2, e3, e4, e5]; rfl
  · intro co o ci i hco ho hci hi
    have := h3 co o ci i [0, 0, 0] (by rw [e3]; exact hco) ho (by rw [e2, e4]; exact hci) hi
      (by rw [e5]; simp [InB])
    rw [this, e2, e3, e4]
    rfl

/-- Rotating input and output elements by the same rotation leaves the subgroup weights unchanged. -/
theorem C56_SO3 (inC outC groups : ℕ) (mode : String) (width : ℝ) (quats : Tensor Quat) (K : GroupKernel Mat3 0)
    (hK : subgroup inC outC groups mode width quats = .ok K) (g : Mat3) (hg : IsRotation g)
    (weight : Tensor ℝ) (inH outH : Tensor Mat3) (dims : List ℕ) :
    K.subgroupWeights weight (inH.map (leftApplyMatrix g)) (outH.map (leftApplyMatrix g)) dims =
      K.subgroupWeights weight inH outH dims := by
  obtain ⟨-, -, -, -, -, -, -, -, hL⟩ := subgroup_base hK
  refine subgroupWeights_cancel hL ⟨(KernelSE3.cancels g hg).group, fun _ _ => rfl, fun _ => ?_⟩ weight inH outH dims
  simp [detAt]

/-- the constructor succeeds, e.g. with a given width and any number of reference quaternions. -/
example (quats : Tensor Quat) : ∃ K, subgroup 4 6 2 "nearest" 1 quats = .ok K := by
  unfold subgroup
  have : defaultWidth 1 (nearestNeighbourDistance (elems quats)) = .ok 1 := if_neg one_ne_zero
  rw [this]
  exact ⟨_, rfl⟩

end KernelSO3

end GConv

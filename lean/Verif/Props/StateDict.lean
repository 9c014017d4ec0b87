import Verif.Model.StateDict
import Verif.Props.KernelDefaults
import Verif.Props.GridTables
import Mathlib.LinearAlgebra.Matrix.Gershgorin

/-! # C86: saving and restoring a kernel

`K` is the kernel whose state is saved, `K'` the kernel, constructed with the same arguments except possibly another
reference grid of the same size (given, or drawn at random), into which the state is loaded. -/

namespace GConv

open Tensor

/-- a constructed kernel takes the value of the other one. -/
theorem loadState_ok {G : Type} {d : ℕ} {K K' : GroupKernel G d} (hsh : K'.gridH.shape = K.gridH.shape)
    (hrest : { K' with gridH := K.gridH } = K) : K'.loadState K.state = .ok K := by
  have h1 : K'.gridRn = K.gridRn := by rw [← hrest]
  have h2 : K'.mask = K.mask := by rw [← hrest]
  unfold GroupKernel.loadState GroupKernel.state
  dsimp only
  rw [if_pos ⟨hsh, by rw [h1], by rw [h2]⟩]
  congr 1
  rw [← h1, ← h2]
  exact hrest

/-- A state whose grid has another shape is rejected. -/
theorem C86_mismatch {G : Type} {d : ℕ} (K K' : GroupKernel G d) (h : K'.gridH.shape ≠ K.gridH.shape) :
    K'.loadState K.state = .error .runtimeError := if_neg fun hc => h hc.1

theorem checkGroups_ok {α : Type} {g : ℕ} {k K : α} (h : checkGroups g k = .ok K) : K = k ∧ 0 < g := by
  unfold checkGroups at h
  by_cases h0 : g = 0
  · rw [if_pos h0] at h; cases h
  · rw [if_neg h0] at h; cases h; exact ⟨rfl, by omega⟩

theorem bind_ok' {α β : Type} {x : Except PyErr α} {f : α → Except PyErr β} {b : β} (h : x >>= f = .ok b) :
    ∃ a, x = .ok a ∧ f a = .ok b := by
  cases x with
  | error e => cases h
  | ok a => exact ⟨a, rfl, h⟩

/-! ## SE(2) -/
namespace KernelSE2

theorem so2_width (w : ℝ) (l : List ℝ) (x : ℝ) (h : defaultWidth w (SO2.nearestNeighbourDistance l) = .ok x) :
    x = if w = 0 then 0.8 * Real.arccos (1 - SO2.defaultEps) else w := by
  by_cases hw : w = 0
  · rw [if_pos hw]
    subst hw
    by_cases hl : l = []
    · subst hl
      unfold defaultWidth at h
      rw [if_pos rfl] at h
      obtain ⟨d, h1, -⟩ := bind_ok' h
      cases h1
    · rw [so2_default l hl] at h
      exact (Except.ok.inj h).symm
  · rw [if_neg hw]
    unfold defaultWidth at h
    rw [if_neg hw] at h
    exact (Except.ok.inj h).symm

/-- Lifting, separable and group kernels of SE(2): the restored kernel is the saved one, whatever the reference grids
and the widths. -/
theorem C86_SE2 (a : KernelArgs ℝ ℕ) (gr : Option (Tensor ℝ))
    (hsh : (grid { a with gridH := gr }).shape = (grid a).shape) :
    (∀ K K', lifting a = .ok K → lifting { a with gridH := gr } = .ok K' → K'.loadState K.state = .ok K) ∧
    (∀ K K', full a = .ok K → full { a with gridH := gr } = .ok K' → K'.loadState K.state = .ok K) := by
  constructor
  · intro K K' h h'
    obtain ⟨rfl, -⟩ := checkGroups_ok h
    obtain ⟨rfl, -⟩ := checkGroups_ok h'
    refine loadState_ok hsh ?_
    unfold base
    dsimp only
    rw [hsh]
  · intro K K' h h'
    obtain ⟨w, hw, h⟩ := bind_ok' h
    obtain ⟨w', hw', h'⟩ := bind_ok' h'
    obtain ⟨rfl, -⟩ := checkGroups_ok h
    obtain ⟨rfl, -⟩ := checkGroups_ok h'
    have : w' = w := by rw [so2_width _ _ _ hw, so2_width _ _ _ hw']
    subst this
    refine loadState_ok hsh ?_
    unfold base
    dsimp only
    rw [hsh]

/-- two kernels with different grids of four angles. -/
example : ∃ K K', full (exArgs 4) = .ok K ∧ full { exArgs 4 with gridH := some ⟨[4], fun idx => idx.headD 0⟩ } = .ok K' ∧
    K'.loadState K.state = .ok K := by
  have h := full_eq (exReady 4 (by norm_num))
  have h' : ∃ K', full { exArgs 4 with gridH := some ⟨[4], fun idx => idx.headD 0⟩ } = .ok K' := by
    obtain ⟨K', e, -⟩ := C55_given.1 { exArgs 4 with gridH := some ⟨[4], fun idx => idx.headD 0⟩ }
      (by norm_num [exArgs]) (by norm_num [exArgs])
    exact ⟨K', e⟩
  obtain ⟨K', e⟩ := h'
  exact ⟨_, K', h, e, (C86_SE2 (exArgs 4) (some ⟨[4], fun idx => idx.headD 0⟩) (congrArg (fun n => [n]) (SO2.C03_length 4).symm)).2 _ _ h e⟩

end KernelSE2

/-! ## E(2) -/
namespace KernelE2

/-- the same for E(2). -/
theorem C86_E2 (a : KernelArgs O2.Elt SizeArg) (gr : Option (Tensor O2.Elt))
    (hsh : (grid { a with gridH := gr }).shape = (grid a).shape) :
    (∀ K K', lifting a = .ok K → lifting { a with gridH := gr } = .ok K' → K'.loadState K.state = .ok K) ∧
    (∀ K K', full a = .ok K → full { a with gridH := gr } = .ok K' → K'.loadState K.state = .ok K) := by
  constructor
  · intro K K' h h'
    obtain ⟨rfl, -⟩ := checkGroups_ok h
    obtain ⟨rfl, -⟩ := checkGroups_ok h'
    exact loadState_ok hsh rfl
  · intro K K' h h'
    obtain ⟨wr, hr, h⟩ := bind_ok' h
    obtain ⟨wr', hr', h'⟩ := bind_ok' h'
    obtain ⟨wf, hf, h⟩ := bind_ok' h
    obtain ⟨wf', hf', h'⟩ := bind_ok' h'
    obtain ⟨rfl, -⟩ := checkGroups_ok h
    obtain ⟨rfl, -⟩ := checkGroups_ok h'
    have e1 : wr' = wr := by rw [KernelSE2.so2_width _ _ _ hr, KernelSE2.so2_width _ _ _ hr']
    have e2 : wf' = wf := by rw [KernelSE2.so2_width _ _ _ hf, KernelSE2.so2_width _ _ _ hf']
    subst e1 e2
    exact loadState_ok hsh rfl

end KernelE2

/-! ## SE(3) -/
namespace KernelSE3

open SO3

/-- SE(3): lifting kernels are restored whatever the grids (`s`, `s'` are the grid caches, `opt`, `opt'` the random
optimised grids of the two programs). -/
theorem C86_SE3_lifting (s s' opt opt') (a : KernelArgs Mat3 ℕ) (gr : Option (Tensor Mat3)) (K K' : GroupKernel Mat3 3)
    (h : lifting s opt a = .ok K) (h' : lifting s' opt' { a with gridH := gr } = .ok K')
    (hsh : K'.gridH.shape = K.gridH.shape) : K'.loadState K.state = .ok K := by
  obtain ⟨g, -, h⟩ := bind_ok' h
  obtain ⟨g', -, h'⟩ := bind_ok' h'
  obtain ⟨rfl, -⟩ := checkGroups_ok h
  obtain ⟨rfl, -⟩ := checkGroups_ok h'
  refine loadState_ok hsh ?_
  unfold base at hsh ⊢
  dsimp only at hsh ⊢
  rw [hsh]

/-- SE(3): separable and group kernels are restored when the width was given, whatever the grids. -/
theorem C86_SE3_width_partial (s s' opt opt') (a : KernelArgs Mat3 ℕ) (gr : Option (Tensor Mat3)) (K K' : GroupKernel Mat3 3)
    (hw : a.rotWidth ≠ 0)
    (h : full s opt a = .ok K) (h' : full s' opt' { a with gridH := gr } = .ok K')
    (hsh : K'.gridH.shape = K.gridH.shape) : K'.loadState K.state = .ok K := by
  obtain ⟨g, -, h⟩ := bind_ok' h
  obtain ⟨g', -, h'⟩ := bind_ok' h'
  obtain ⟨w, w1, h⟩ := bind_ok' h
  obtain ⟨w', w2, h'⟩ := bind_ok' h'
  obtain ⟨rfl, -⟩ := checkGroups_ok h
  obtain ⟨rfl, -⟩ := checkGroups_ok h'
  unfold defaultWidth at w1 w2
  rw [if_neg hw] at w1 w2
  cases w1; cases w2
  refine loadState_ok hsh ?_
  unfold base at hsh ⊢
  dsimp only at hsh ⊢
  rw [hsh]

/-- the grid of a shipped size does not depend on the random draws. -/
theorem uniformGrid_shipped (opt opt' : List Euler) (n : ℕ) (hn : n ≤ 24) :
    (uniformGrid initialStore n "matrix" opt false).1 = (uniformGrid initialStore n "matrix" opt' false).1 := by
  unfold uniformGrid
  by_cases h0 : n = 0
  · simp only [if_pos h0]
  · simp only [if_neg h0]
    obtain ⟨Q, M, e1, e2, -⟩ := C32_rows n (by omega) hn
    cases hl : GridCache.loadGrid initialStore n "so3" "matrix" with
    | ok g => rfl
    | error e =>
      exfalso
      rw [store_matrix, e2] at hl
      cases hl

theorem grid_shipped (opt opt') (a : KernelArgs Mat3 ℕ) (hn : a.gridH.isSome ∨ a.groupKernelSize ≤ 24) :
    grid initialStore opt a = grid initialStore opt' a := by
  unfold grid
  cases hg : a.gridH with
  | some g => rfl
  | none =>
    rw [hg] at hn
    have hn : a.groupKernelSize ≤ 24 := by simpa using hn
    dsimp only
    rw [uniformGrid_shipped opt opt' _ hn]

/-- SE(3): kernels with a given reference grid or a shipped size are restored. -/
theorem C86_SE3_shipped_partial (opt opt') (a : KernelArgs Mat3 ℕ) (hn : a.gridH.isSome ∨ a.groupKernelSize ≤ 24)
    (K K' : GroupKernel Mat3 3) (h : full initialStore opt a = .ok K) (h' : full initialStore opt' a = .ok K') :
    K'.loadState K.state = .ok K := by
  have : K' = K := by
    unfold full at h h'
    rw [grid_shipped opt' opt a hn, h] at h'
    exact (Except.ok.inj h').symm
  subst this
  exact loadState_ok rfl rfl

/-- The width of the restored kernel is the one computed from the grid it was constructed with, not from the loaded
grid. -/
theorem C86_SE3_width_kept (s s' opt opt') (a : KernelArgs Mat3 ℕ) (K K' : GroupKernel Mat3 3) (hw : a.rotWidth = 0)
    (h : full s opt a = .ok K) (h' : full s' opt' a = .ok K') (hsh : K'.gridH.shape = K.gridH.shape)
    (hne : K.gridH.shape ≠ []) :
    ∃ R d, K'.loadState K.state = .ok R ∧ R.gridH = K.gridH ∧
      nearestNeighbourDistanceMatrix (elems K'.gridH) = .ok d ∧
      ∀ q sig, R.sampleH q sig R.gridH = SO3.gridSample q sig K.gridH a.groupMode (0.8 * mean d) := by
  obtain ⟨g, -, h⟩ := bind_ok' h
  obtain ⟨g', -, h'⟩ := bind_ok' h'
  obtain ⟨w, w1, h⟩ := bind_ok' h
  obtain ⟨w', w2, h'⟩ := bind_ok' h'
  obtain ⟨rfl, -⟩ := checkGroups_ok h
  obtain ⟨rfl, -⟩ := checkGroups_ok h'
  unfold defaultWidth at w2
  rw [if_pos hw] at w2
  obtain ⟨d, hd, w2⟩ := bind_ok' w2
  cases w2
  have hne' : g'.shape ≠ [] := fun h0 => hne (hsh.symm.trans h0)
  rw [nearest_eq hne'] at hd
  exact ⟨_, d, if_pos ⟨hsh, rfl, rfl⟩, rfl, hd, sampler_eq hne _ _⟩

/-- the hypotheses of `C86_SE3_width_partial` for two user-supplied grids of five rotations. -/
example (s s' opt opt') (g g' : Tensor Mat3) (hg : g.shape = [5]) (hg' : g'.shape = [5]) :
    ∃ K K', full s opt (exArgs g) = .ok K ∧ full s' opt' { exArgs g with gridH := some g' } = .ok K' ∧
      K'.loadState K.state = .ok K := by
  have h := full_eq (exReady s opt g (by rw [hg]; norm_num))
  have h' := full_eq (exReady s' opt' g' (by rw [hg']; norm_num))
  exact ⟨_, _, h, h', C86_SE3_width_partial s s' opt opt' (exArgs g) (some g') _ _ (by norm_num [exArgs]) h h'
    (hg'.trans hg.symm)⟩

end KernelSE3

/-! ## E(3) -/
namespace KernelE3

open SO3

/-- E(3): lifting kernels. -/
theorem C86_E3_lifting (s s' o1 o2 o1' o2') (a : KernelArgs O3.Elt SizeArg) (gr : Option (Tensor O3.Elt))
    (K K' : GroupKernel O3.Elt 3) (h : lifting s o1 o2 a = .ok K) (h' : lifting s' o1' o2' { a with gridH := gr } = .ok K')
    (hsh : K'.gridH.shape = K.gridH.shape) : K'.loadState K.state = .ok K := by
  obtain ⟨g, -, h⟩ := bind_ok' h
  obtain ⟨g', -, h'⟩ := bind_ok' h'
  obtain ⟨rfl, -⟩ := checkGroups_ok h
  obtain ⟨rfl, -⟩ := checkGroups_ok h'
  exact loadState_ok hsh rfl

/-- E(3): separable and group kernels whose widths were given. -/
theorem C86_E3_width_partial (s s' o1 o2 o1' o2') (a : KernelArgs O3.Elt SizeArg) (gr : Option (Tensor O3.Elt))
    (K K' : GroupKernel O3.Elt 3) (hw : a.rotWidth ≠ 0) (hf : a.refWidth ≠ 0)
    (h : full s o1 o2 a = .ok K) (h' : full s' o1' o2' { a with gridH := gr } = .ok K')
    (hsh : K'.gridH.shape = K.gridH.shape) : K'.loadState K.state = .ok K := by
  obtain ⟨g, -, h⟩ := bind_ok' h
  obtain ⟨g', -, h'⟩ := bind_ok' h'
  obtain ⟨wr, hr, h⟩ := bind_ok' h
  obtain ⟨wr', hr', h'⟩ := bind_ok' h'
  obtain ⟨wf, hff, h⟩ := bind_ok' h
  obtain ⟨wf', hff', h'⟩ := bind_ok' h'
  obtain ⟨rfl, -⟩ := checkGroups_ok h
  obtain ⟨rfl, -⟩ := checkGroups_ok h'
  unfold defaultWidth at hr hr' hff hff'
  rw [if_neg hw] at hr hr'
  rw [if_neg hf] at hff hff'
  cases hr; cases hr'; cases hff; cases hff'
  exact loadState_ok hsh rfl

/-- E(3): kernels with a given reference grid or shipped sizes. -/
theorem C86_E3_shipped_partial (o1 o2 o1' o2') (a : KernelArgs O3.Elt SizeArg)
    (hn : a.gridH.isSome ∨ ((sizePair a.groupKernelSize).1 ≤ 24 ∧ (sizePair a.groupKernelSize).2 ≤ 24))
    (K K' : GroupKernel O3.Elt 3) (h : full initialStore o1 o2 a = .ok K) (h' : full initialStore o1' o2' a = .ok K') :
    K'.loadState K.state = .ok K := by
  have hgrid : grid initialStore o1' o2' a = grid initialStore o1 o2 a := by
    unfold grid
    cases hg : a.gridH with
    | some g => rfl
    | none =>
      rw [hg] at hn
      obtain ⟨h1, h2⟩ : (sizePair a.groupKernelSize).1 ≤ 24 ∧ (sizePair a.groupKernelSize).2 ≤ 24 := by simpa using hn
      dsimp only
      unfold O3.uniformGrid
      rw [KernelSE3.uniformGrid_shipped o1' o1 _ h1, KernelSE3.uniformGrid_shipped o2' o2 _ h2]
  have : K' = K := by
    unfold full at h h'
    rw [hgrid, h] at h'
    exact (Except.ok.inj h').symm
  subst this
  exact loadState_ok rfl rfl

end KernelE3
end GConv

import Verif.Model.SubgroupSO3
import Verif.Props.StateDict
import Verif.Props.KernelDefaults
import Verif.Props.SO3Log

/-! # C86 for `GSubgroupKernelSO3` -/
namespace GConv.KernelSO3

open Tensor SO3 Spec

/-- the objects compute what the kernels of `Model/KernelInstances.lean` compute. -/
theorem init_kernel (s : GridCache.Store (Tensor ℝ)) (opt : List Euler) (inC outC size groups : ℕ) (mode : String) (width : ℝ)
    (quats : Tensor Quat) :
    (init s opt inC outC size groups mode width (some quats)).map Obj.kernel = subgroup inC outC groups mode width quats := by
  unfold init subgroup grid
  rw [ok_bind]
  cases defaultWidth width (nearestNeighbourDistance (elems quats)) with
  | error e => rfl
  | ok w =>
    rw [ok_bind, ok_bind]
    unfold checkGroups
    split <;> rfl

/-- A state for another number of reference rotations is refused. -/
theorem C86_SO3_mismatch (o o' : Obj) (h : o'.quats.shape ≠ o.quats.shape) : o'.load o.state = .error .runtimeError := if_neg h

/-- `GSubgroupKernelSO3` with a given width is restored, whatever the grids. -/
theorem C86_SO3_width_partial (s s' opt opt') (inC outC size groups : ℕ) (mode : String) (width : ℝ) (hw : width ≠ 0) (gr gr' : Option (Tensor Quat))
    (o o' : Obj) (h : init s opt inC outC size groups mode width gr = .ok o) (h' : init s' opt' inC outC size groups mode width gr' = .ok o')
    (hsh : o'.quats.shape = o.quats.shape) : o'.load o.state = .ok o := by
  obtain ⟨g, -, h⟩ := bind_ok' h
  obtain ⟨g', -, h'⟩ := bind_ok' h'
  obtain ⟨w, w1, h⟩ := bind_ok' h
  obtain ⟨w', w2, h'⟩ := bind_ok' h'
  obtain ⟨rfl, -⟩ := checkGroups_ok h
  obtain ⟨rfl, -⟩ := checkGroups_ok h'
  unfold defaultWidth at w1 w2
  rw [if_neg hw] at w1 w2
  cases w1; cases w2
  exact if_pos hsh

/-- the grid of a shipped size does not depend on the random draws. -/
theorem grid_shipped (opt opt' : List Euler) (n : ℕ) (gr : Option (Tensor Quat)) (hn : gr.isSome ∨ n ≤ 24) :
    grid initialStore opt n gr = grid initialStore opt' n gr := by
  unfold grid
  cases gr with
  | some g => rfl
  | none =>
    have hn : n ≤ 24 := by simpa using hn
    dsimp only
    have : (uniformGrid initialStore n "quat" opt false).1 = (uniformGrid initialStore n "quat" opt' false).1 := by
      unfold uniformGrid
      by_cases h0 : n = 0
      · simp only [if_pos h0]
      · simp only [if_neg h0]
        obtain ⟨Q, M, e1, e2, -⟩ := C32_rows n (by omega) hn
        cases hl : GridCache.loadGrid initialStore n "so3" "quat" with
        | ok g => rfl
        | error e =>
          exfalso
          rw [store_quat, e1] at hl
          cases hl
    rw [this]

/-- `GSubgroupKernelSO3` with a given grid or a shipped size is restored. -/
theorem C86_SO3_shipped_partial (opt opt') (inC outC size groups : ℕ) (mode : String) (width : ℝ) (gr : Option (Tensor Quat))
    (hn : gr.isSome ∨ size ≤ 24)
    (o o' : Obj) (h : init initialStore opt inC outC size groups mode width gr = .ok o)
    (h' : init initialStore opt' inC outC size groups mode width gr = .ok o') : o'.load o.state = .ok o := by
  unfold init at h h'
  rw [grid_shipped opt' opt size gr hn, h] at h'
  cases h'
  exact if_pos rfl

/-- With the default width the restored kernel samples the saved grid with the width of the grid it was constructed with. -/
theorem C86_SO3_width_kept (s s' opt opt') (inC outC size groups : ℕ) (mode : String) (gr gr' : Option (Tensor Quat))
    (o o' : Obj) (h : init s opt inC outC size groups mode 0 gr = .ok o) (h' : init s' opt' inC outC size groups mode 0 gr' = .ok o')
    (hsh : o'.quats.shape = o.quats.shape) :
    ∃ R d, o'.load o.state = .ok R ∧ nearestNeighbourDistance (elems o'.quats) = .ok d ∧
      ∀ q sig g, R.kernel.sampleH q sig g = gridSampleQuat (q.map matrixToQuat) sig o.quats mode (0.8 * mean d) := by
  obtain ⟨g, -, h⟩ := bind_ok' h
  obtain ⟨g', -, h'⟩ := bind_ok' h'
  obtain ⟨w, w1, h⟩ := bind_ok' h
  obtain ⟨w', w2, h'⟩ := bind_ok' h'
  obtain ⟨rfl, -⟩ := checkGroups_ok h
  obtain ⟨rfl, -⟩ := checkGroups_ok h'
  unfold defaultWidth at w2
  rw [if_pos rfl] at w2
  obtain ⟨d, hd, w2⟩ := bind_ok' w2
  cases w2
  exact ⟨_, d, if_pos hsh, hd, fun q sig g => rfl⟩

/-! ## default arguments -/

/-- the default reference grid: the shipped quaternions for sizes up to 24, the optimised rotations above. -/
theorem C55_SO3_grid (opt : List Euler) (n : ℕ) (hn : 1 ≤ n) (ho : opt.length = n) :
    ∃ g, grid initialStore opt n none = .ok g ∧ g.shape = [n] ∧
      elems g = if n ≤ 24 then (cachedQuats n).getD [] else opt.map (eulerToQuat · defaultEpsETM) := by
  have fold : ∀ (l : List Quat), l.length = n → ∀ g : Tensor Quat, g = ⟨[l.length], fun idx c => (quatTensor l).get [idx.headD 0, c]⟩ →
      elems g = l := by
    intro l hl g hg
    subst hg
    unfold elems
    refine List.ext_getElem (by simp) fun i h1 h2 => ?_
    rw [List.getElem_map, List.getElem_range]
    funext c
    show (l.getD i 0) (Fin.ofNat 4 c) = l[i] c
    rw [List.getD_eq_getElem?_getD, List.getElem?_eq_getElem h2]
    simp
  unfold grid
  dsimp only
  unfold uniformGrid
  rw [if_neg (by omega)]
  by_cases h : n ≤ 24
  · obtain ⟨Q, M, e1, e2, ⟨l1, -⟩, -⟩ := C32_rows n hn h
    rw [store_quat, e1, if_pos h]
    exact ⟨_, rfl, by simp [l1], fold Q l1 _ rfl⟩
  · rw [(C32_absent n (Or.inr (by omega))).1, if_neg h]
    have e : (paramFn ("quat".toLower)) = some fun l => quatTensor (l.map (eulerToQuat · defaultEpsETM)) := by
      have : String.toLower "quat" = "quat" := by decide +kernel
      rw [this]; rfl
    dsimp only
    rw [e]
    dsimp only
    rw [if_neg (by simp)]
    exact ⟨_, rfl, by simp [ho], fold _ (by simpa using ho) _ rfl⟩

/-- The default width of `GSubgroupKernelSO3` is 0.8 times the mean distance to the nearest other rotation of its grid. -/
theorem C55_SO3 (s opt) (inC outC size groups : ℕ) (mode : String) (hg : 0 < groups) (gr : Option (Tensor Quat)) (g : Tensor Quat)
    (hgr : grid s opt size gr = .ok g) (h2 : 2 ≤ (elems g).length) (hu : ∀ q ∈ elems g, IsUnitQuat q) :
    ∃ o, init s opt inC outC size groups mode 0 gr = .ok o ∧ o.quats = g ∧ o.inC = inC ∧ o.outC = outC ∧ o.groups = groups ∧ o.mode = mode ∧
      IsMeanNearest (fun a b => geodesicDistance a b defaultEps) (elems g) o.width := by
  obtain ⟨d, e, hl, hd⟩ := C26_min (elems g) hu h2
  refine ⟨⟨inC, outC, groups, mode, 0.8 * mean d, g⟩, ?_, rfl, rfl, rfl, rfl, rfl, d, hl, rfl, hd⟩
  unfold init
  rw [hgr, ok_bind]
  unfold defaultWidth
  rw [if_pos rfl, e, ok_bind]
  show checkGroups groups _ = _
  unfold checkGroups
  rw [if_neg (by omega)]

/-- A given width is used as it is. -/
theorem C55_SO3_given_width (s opt) (inC outC size groups : ℕ) (mode : String) (w : ℝ) (hw : w ≠ 0) (gr : Option (Tensor Quat)) (o : Obj)
    (h : init s opt inC outC size groups mode w gr = .ok o) : o.width = w := by
  obtain ⟨g, -, h⟩ := bind_ok' h
  obtain ⟨w', w1, h⟩ := bind_ok' h
  obtain ⟨rfl, -⟩ := checkGroups_ok h
  unfold defaultWidth at w1
  rw [if_neg hw] at w1
  cases w1
  rfl

/-- the hypotheses are met, e.g. by a given width and given quaternions. -/
example (s s' opt opt') (q q' : Tensor Quat) (h : q'.shape = q.shape) :
    ∃ o o', init s opt 4 6 9 2 "rbf" 1 (some q) = .ok o ∧ init s' opt' 4 6 9 2 "rbf" 1 (some q') = .ok o' ∧ o'.load o.state = .ok o := by
  have e : ∀ s opt (q : Tensor Quat), init s opt 4 6 9 2 "rbf" 1 (some q) = .ok ⟨4, 6, 2, "rbf", 1, q⟩ := fun s opt q => by
    unfold init grid
    rw [ok_bind, show defaultWidth 1 (nearestNeighbourDistance (elems q)) = .ok 1 from if_neg one_ne_zero, ok_bind]
    rfl
  exact ⟨_, _, e s opt q, e s' opt' q', C86_SO3_width_partial s s' opt opt' 4 6 9 2 "rbf" 1 one_ne_zero _ _ _ _ (e s opt q) (e s' opt' q') h⟩

end GConv.KernelSO3

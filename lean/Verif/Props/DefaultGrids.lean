import Verif.Props.Modules

/-! # C72: the options of the public constructors reach the module

`C72_lifting` … `C72_separableE` say what a module does with its kernel grid and its `permute` flag; the theorems here say
which grid and which flag the public constructors of `gconv_se2.py`, `gconv_se3.py`, `gconv_e2.py` and `gconv_e3.py` store:
the flag is the argument `permute_output_grid`, the grid is the argument `grid_H` if given and otherwise the uniform grid of
the group with `group_kernel_size` elements, entry by entry. -/
namespace GConv.Conv

theorem checkGroups_grid {G : Type} {d : ℕ} {g : ℕ} {K K' : GroupKernel G d} (h : checkGroups g K = .ok K') : K' = K := by
  unfold checkGroups at h
  split at h
  · cases h
  · cases h; rfl

theorem liftingSE2_grid {k : KernelArgs ℝ ℕ} {K} (h : KernelSE2.lifting k = .ok K) : K.gridH = KernelSE2.grid k := by
  unfold KernelSE2.lifting at h; rw [checkGroups_grid h]; rfl

theorem fullSE2_grid {k : KernelArgs ℝ ℕ} {K} (h : KernelSE2.full k = .ok K) : K.gridH = KernelSE2.grid k := by
  unfold KernelSE2.full at h
  obtain ⟨w, -, h⟩ := bind_ok h
  rw [checkGroups_grid h]; rfl

theorem liftingE2_grid {k : KernelArgs O2.Elt SizeArg} {K} (h : KernelE2.lifting k = .ok K) : K.gridH = KernelE2.grid k := by
  unfold KernelE2.lifting at h; rw [checkGroups_grid h]; rfl

theorem fullE2_grid {k : KernelArgs O2.Elt SizeArg} {K} (h : KernelE2.full k = .ok K) : K.gridH = KernelE2.grid k := by
  unfold KernelE2.full at h
  obtain ⟨w, -, h⟩ := bind_ok h
  obtain ⟨w', -, h⟩ := bind_ok h
  rw [checkGroups_grid h]; rfl

theorem liftingSE3_grid {s opt} {k : KernelArgs SO3.Mat3 ℕ} {K} (h : KernelSE3.lifting s opt k = .ok K) :
    KernelSE3.grid s opt k = .ok K.gridH := by
  unfold KernelSE3.lifting at h
  obtain ⟨g, hg, h⟩ := bind_ok h
  rw [hg, checkGroups_grid h]; rfl

theorem fullSE3_grid {s opt} {k : KernelArgs SO3.Mat3 ℕ} {K} (h : KernelSE3.full s opt k = .ok K) :
    KernelSE3.grid s opt k = .ok K.gridH := by
  unfold KernelSE3.full at h
  obtain ⟨g, hg, h⟩ := bind_ok h
  obtain ⟨w, -, h⟩ := bind_ok h
  rw [hg, checkGroups_grid h]; rfl

theorem liftingE3_grid {s opt1 opt2} {k : KernelArgs O3.Elt SizeArg} {K} (h : KernelE3.lifting s opt1 opt2 k = .ok K) :
    KernelE3.grid s opt1 opt2 k = .ok K.gridH := by
  unfold KernelE3.lifting at h
  obtain ⟨g, hg, h⟩ := bind_ok h
  rw [hg, checkGroups_grid h]; rfl

theorem fullE3_grid {s opt1 opt2} {k : KernelArgs O3.Elt SizeArg} {K} (h : KernelE3.full s opt1 opt2 k = .ok K) :
    KernelE3.grid s opt1 opt2 k = .ok K.gridH := by
  unfold KernelE3.full at h
  obtain ⟨g, hg, h⟩ := bind_ok h
  obtain ⟨w, -, h⟩ := bind_ok h
  obtain ⟨w', -, h⟩ := bind_ok h
  rw [hg, checkGroups_grid h]; rfl

/-- `GLiftingConvSE2`, `GConvSE2`, `GSeparableConvSE2`: without `grid_H` the kernel grid consists of the `n` angles of
`so2.uniform_grid(n)`. -/
theorem C72_options_SE2 (k : KernelArgs ℝ ℕ) (c : ConvOpts) (M : Module ℝ 2)
    (h : liftingSE2 k c = .ok M ∨ fullSE2 k c = .ok M) :
    M.permute = c.permute ∧ (∀ g, k.gridH = some g → M.kernel.gridH = g) ∧
    (k.gridH = none → M.kernel.gridH.shape = [k.groupKernelSize] ∧
      ∀ i < k.groupKernelSize, M.kernel.gridH.get [i] = 2 * Real.pi * i / k.groupKernelSize) := by
  have key : M.permute = c.permute ∧ M.kernel.gridH = KernelSE2.grid k := by
    rcases h with h | h <;> obtain ⟨K, hK, -, rfl, hp⟩ := build_ok h
    · exact ⟨hp, liftingSE2_grid hK⟩
    · exact ⟨hp, fullSE2_grid hK⟩
  refine ⟨key.1, fun g hg => ?_, fun hg => ?_⟩
  · rw [key.2]; unfold KernelSE2.grid; rw [hg]; rfl
  · have : M.kernel.gridH = Tensor.ofList (SO2.uniformGrid k.groupKernelSize) := by
      rw [key.2]; unfold KernelSE2.grid; rw [hg]; rfl
    rw [this]
    refine ⟨by show [_] = [_]; rw [SO2.C03_length], fun i hi => ?_⟩
    show (SO2.uniformGrid k.groupKernelSize).getD i default = _
    rw [List.getD_eq_getElem?_getD, SO2.C03_value _ _ hi]; rfl

/-- `GLiftingConvE2`, `GConvE2`, `GSeparableConvE2`: without `grid_H` the kernel grid consists of the `n` rotations and then
the `m` reflections of `o2.uniform_grid((n, m))`. -/
theorem C72_options_E2 (k : KernelArgs O2.Elt SizeArg) (c : ConvOpts) (M : Module O2.Elt 2) (n m : ℕ)
    (hs : sizePair k.groupKernelSize = (n, m)) (h : liftingE2 k c = .ok M ∨ fullE2 k c = .ok M) :
    M.permute = c.permute ∧ (∀ g, k.gridH = some g → M.kernel.gridH = g) ∧
    (k.gridH = none → M.kernel.gridH.shape = [n + m] ∧
      (∀ i < n, M.kernel.gridH.get [i] = (1, 2 * Real.pi * i / n)) ∧
      (∀ i < m, M.kernel.gridH.get [n + i] = (-1, 2 * Real.pi * i / m))) := by
  have key : M.permute = c.permute ∧ M.kernel.gridH = KernelE2.grid k := by
    rcases h with h | h <;> obtain ⟨K, hK, -, rfl, hp⟩ := build_ok h
    · exact ⟨hp, liftingE2_grid hK⟩
    · exact ⟨hp, fullE2_grid hK⟩
  refine ⟨key.1, fun g hg => ?_, fun hg => ?_⟩
  · rw [key.2]; unfold KernelE2.grid; rw [hg]; rfl
  · have : M.kernel.gridH = Tensor.ofList (O2.uniformGrid n m) := by
      rw [key.2]; unfold KernelE2.grid; rw [hg, hs]; rfl
    rw [this]
    obtain ⟨h1, h2, h3⟩ := O2.C11_o2 n m
    refine ⟨by show [_] = [_]; rw [h1], fun i hi => ?_, fun i hi => ?_⟩
    · show (O2.uniformGrid n m).getD i default = _
      rw [List.getD_eq_getElem?_getD, h2 _ hi]; rfl
    · show (O2.uniformGrid n m).getD (n + i) default = _
      rw [List.getD_eq_getElem?_getD, h3 _ hi]; rfl

/-- `GLiftingConvSE3`, `GConvSE3`, `GSeparableConvSE3`: without `grid_H` the kernel grid holds the matrices of the tensor
`so3.uniform_grid(n, "matrix")`. -/
theorem C72_options_SE3 (s : GridCache.Store (Tensor ℝ)) (opt : List SO3.Euler) (k : KernelArgs SO3.Mat3 ℕ) (c : ConvOpts)
    (M : Module SO3.Mat3 3) (h : liftingSE3 s opt k c = .ok M ∨ fullSE3 s opt k c = .ok M) :
    M.permute = c.permute ∧ (∀ g, k.gridH = some g → M.kernel.gridH = g) ∧
    (k.gridH = none → ∃ t, (SO3.uniformGrid s k.groupKernelSize "matrix" opt false).1 = .ok t ∧
      ∀ n, t.shape = [n, 3, 3] → M.kernel.gridH.shape = [n] ∧
        ∀ i (a b : Fin 3), M.kernel.gridH.get [i] a b = t.get [i, a, b]) := by
  have key : M.permute = c.permute ∧ KernelSE3.grid s opt k = .ok M.kernel.gridH := by
    rcases h with h | h <;> obtain ⟨K, hK, -, rfl, hp⟩ := build_ok h
    · exact ⟨hp, liftingSE3_grid hK⟩
    · exact ⟨hp, fullSE3_grid hK⟩
  refine ⟨key.1, fun g hg => ?_, fun hg => ?_⟩
  · have := key.2; unfold KernelSE3.grid at this; rw [hg] at this; cases this; rfl
  · have h2 := key.2
    unfold KernelSE3.grid at h2; rw [hg] at h2
    obtain ⟨t, ht, h2⟩ := bind_ok h2
    refine ⟨t, ht, fun n hn => ?_⟩
    unfold KernelSE3.foldMat at h2
    rw [hn] at h2
    generalize M.kernel.gridH = g at h2
    cases h2
    exact ⟨rfl, fun _ _ _ => rfl⟩

/-- `GLiftingConvE3`, `GConvE3`, `GSeparableConvE3`: without `grid_H` the kernel grid holds the rows of the tensor
`o3.uniform_grid((n, m))`. -/
theorem C72_options_E3 (s : GridCache.Store (Tensor ℝ)) (opt1 opt2 : List SO3.Euler) (k : KernelArgs O3.Elt SizeArg)
    (c : ConvOpts) (M : Module O3.Elt 3) (n m : ℕ) (hs : sizePair k.groupKernelSize = (n, m))
    (h : liftingE3 s opt1 opt2 k c = .ok M ∨ fullE3 s opt1 opt2 k c = .ok M) :
    M.permute = c.permute ∧ (∀ g, k.gridH = some g → M.kernel.gridH = g) ∧
    (k.gridH = none → ∃ t l, O3.uniformGrid s n m opt1 opt2 false = .ok t ∧ t.shape = [l, 10] ∧
      M.kernel.gridH.shape = [l] ∧ ∀ i (a : Fin 10), M.kernel.gridH.get [i] a = t.get [i, a]) := by
  have key : M.permute = c.permute ∧ KernelE3.grid s opt1 opt2 k = .ok M.kernel.gridH := by
    rcases h with h | h <;> obtain ⟨K, hK, -, rfl, hp⟩ := build_ok h
    · exact ⟨hp, liftingE3_grid hK⟩
    · exact ⟨hp, fullE3_grid hK⟩
  refine ⟨key.1, fun g hg => ?_, fun hg => ?_⟩
  · have := key.2; unfold KernelE3.grid at this; rw [hg] at this; cases this; rfl
  · have h2 := key.2
    unfold KernelE3.grid at h2; rw [hg] at h2
    obtain ⟨t, ht, h2⟩ := bind_ok h2
    rw [hs] at ht
    generalize M.kernel.gridH = g at h2 ⊢
    unfold KernelE3.foldElt at h2
    split at h2
    · next l hl => cases h2; exact ⟨t, l, ht, hl, rfl, fun _ _ => rfl⟩
    · cases h2

/-- The constructors succeed on default arguments (so the hypotheses can be met): an SE(2) layer with the default grid. -/
example (n : ℕ) (hn : 0 < n) : ∃ M, fullSE2 (KernelSE2.exArgs n) exOpts = .ok M ∧ M.permute = true ∧
    M.kernel.gridH.shape = [n] := by
  obtain ⟨M, hM⟩ := ex_full n hn
  have := C72_options_SE2 _ _ M (Or.inr hM)
  exact ⟨M, hM, this.1, (this.2.2 rfl).1⟩

end GConv.Conv

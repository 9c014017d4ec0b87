import Verif.Model.Readme
import Verif.Props.Law
import Verif.Props.DefaultSampling
import Verif.Props.DefaultGrids
import Verif.Props.Separable
import Verif.Props.Pooling

/-! # C99: the program in the README -/

namespace GConv.Readme

open Tensor Spec Conv SO3 Net MeasureTheory Random

theorem args_geometry (cin cout k : ℕ) :
    HasGeometry (argsSE3 (args cin cout k) {}) .zeros (List.replicate 3 ⟨k, 1, 1, 0, 0⟩) :=
  (C60_geometry_SE3 _ _ _ _).1.2 ((C61_geometry_int 3 k 1 1 0 "zeros" .zeros (Or.inl ⟨rfl, rfl⟩) _).2 rfl)

theorem geom_ok {k : ℕ} (hk : 0 < k) : ∀ {S : List ℕ}, (∀ s ∈ S, k ≤ s) → GeomOk .zeros (List.replicate S.length ⟨k, 1, 1, 0, 0⟩) S := by
  intro S
  induction S with
  | nil => intro _; exact .nil
  | cons s S ih =>
    intro h
    refine .cons ⟨hk, Nat.one_pos, Nat.one_pos, ?_, ?_⟩ (ih fun t ht => h t (List.mem_cons_of_mem _ ht))
    · have := h s List.mem_cons_self
      unfold Axis.span
      dsimp only
      omega
    · simp [F.padAllowed]

theorem out_eq {k : ℕ} (hk : 0 < k) : ∀ {S : List ℕ}, (∀ s ∈ S, k ≤ s) →
    outDims (List.replicate S.length ⟨k, 1, 1, 0, 0⟩) S = S.map (· - (k - 1)) := by
  intro S
  induction S with
  | nil => intro _; rfl
  | cons s S ih =>
    intro h
    have hs := h s List.mem_cons_self
    show _ :: outDims (List.replicate S.length ⟨k, 1, 1, 0, 0⟩) S = _
    rw [ih fun t ht => h t (List.mem_cons_of_mem _ ht), List.map_cons]
    congr 1
    unfold Axis.out Axis.span
    dsimp only
    rw [Nat.div_one]
    omega

theorem accepted (cin cout k : ℕ) : Accepted (argsSE3 (args cin cout k) {}) := by
  refine ⟨fun l h => ?_, show (0 : ℤ) < 1 by norm_num, one_dvd _, one_dvd _, fun s h => ?_, Or.inl rfl, Or.inr rfl⟩
  · cases (show GroupSize.int 4 = .tuple l from h)
  · cases (show PadArg.int 0 = .str s from h)

/-- the lifting layer can be built; its grid are the 4 shipped rotations. -/
theorem lifting_ok (opt : List Euler) (cin cout k : ℕ) (hk : 0 < k) :
    ∃ M, liftingSE3 initialStore opt (args cin cout k) {} = .ok M ∧ M.kernel.gridH.shape = [4] := by
  obtain ⟨gr, w, hr, hsh, -⟩ := KernelSE3.default_ready opt (args cin cout k) rfl (Or.inl rfl) rfl
    (show 2 ≤ 4 by norm_num) (show 4 ≤ 24 by norm_num) Nat.one_pos hk
  obtain ⟨L, hL⟩ := (C58_accepts _ _ _ [k, k, k] rfl rfl).2 (accepted cin cout k)
  obtain ⟨K, hK⟩ : ∃ K, KernelSE3.lifting initialStore opt (args cin cout k) = .ok K := by
    unfold KernelSE3.lifting
    rw [hr.grid, ok_bind]
    exact ⟨_, if_neg (show ¬(1 : ℕ) = 0 by norm_num)⟩
  have e := liftingSE3_grid hK
  rw [hr.grid] at e
  cases e
  refine ⟨⟨L, K, true⟩, ?_, hsh⟩
  unfold liftingSE3 build
  rw [hK, ok_bind, (liftingSE3_size hK).1]
  show (init _ [k, k, k] >>= _) = _
  rw [hL]
  rfl

/-- the separable layer can be built. -/
theorem full_ok (opt : List Euler) (cin cout k : ℕ) (hk : 0 < k) :
    ∃ M gr wd, fullSE3 initialStore opt (args cin cout k) {} = .ok M ∧ KernelSE3.Ready initialStore opt (args cin cout k) gr wd ∧ gr.shape = [4] := by
  obtain ⟨gr, w, hr, hsh, -⟩ := KernelSE3.default_ready opt (args cin cout k) rfl (Or.inl rfl) rfl
    (show 2 ≤ 4 by norm_num) (show 4 ≤ 24 by norm_num) Nat.one_pos hk
  obtain ⟨L, hL⟩ := (C58_accepts _ _ _ [k, k, k] rfl rfl).2 (accepted cin cout k)
  obtain ⟨M, hM⟩ : ∃ M, fullSE3 initialStore opt (args cin cout k) {} = .ok M := by
    unfold fullSE3 build
    rw [KernelSE3.full_eq hr, ok_bind]
    have : ∀ s, (KernelSE3.base (args cin cout k) gr s).kernelSize = [k, k, k] := fun _ => rfl
    rw [this, hL, ok_bind]
    exact ⟨_, rfl⟩
  exact ⟨M, gr, w, hM, hr, hsh⟩

theorem sub_le {k s : ℕ} (hs : 2 * k - 1 ≤ s) : k ≤ s - (k - 1) := by omega

/-- What the two layers compute with kernels `v`, `vH`, `vS` obtained from the parameters `w`, `wH`, `wS` and the group elements. -/
structure Computes (N cin cmid cout k : ℕ) (S : List ℕ) (gr : Tensor Mat3) (wd : ℝ) (w wH wS x x₂ x₃ : Tensor ℝ) (H₁ H₂ : Tensor Mat3)
    (v vH vS : Tensor ℝ) : Prop where
  /-- the first layer is the lifting convolution with the kernel `v` -/
  first : ∀ b co h o, b < N → co < cmid → h < 4 → InB (S.map (· - (k - 1))) o →
    x₂.get (b :: co :: h :: o) =
      Spec.liftingConv (argsSE3 (args cin cmid k) {}) .zeros (List.replicate 3 ⟨k, 1, 1, 0, 0⟩) S x v none b co h o
  /-- `v` is the masked filter `w`, read at the rotated positions -/
  lifted : ∀ co h ci r s t, co < cmid → h < 4 → ci < cin → r < k → s < k → t < k →
    v.get [co, h, ci, r, s, t] = (Functional.createSphericalMaskR3 k).get [r, s, t] *
      F.sampleAt .bilinear .border [k, k, k] (fun q => w.get (co :: ci :: q))
        ((H₁.get [h]).transpose.mulVec ((Functional.createGridR3 k).get [r, s, t]))
  /-- the second layer is the separable convolution with the kernels `vH`, `vS` -/
  second : ∀ b co h o, b < N → co < cout → h < 4 → InB (S.map (· - 2 * (k - 1))) o →
    x₃.get (b :: co :: h :: o) =
      Spec.separableConv (argsSE3 (args cmid cout k) {}) .zeros (List.replicate 3 ⟨k, 1, 1, 0, 0⟩) (S.map (· - (k - 1))) x₂ vH vS none 4 b co h o
  /-- `vH` is the group filter `wH`, resampled at the relative rotations -/
  group : ∀ co h ci i, co < cout → h < 4 → ci < cmid → i < 4 →
    vH.get [co, h, ci, i, 0, 0, 0] = KernelSE3.value (args cmid cout k) gr wd
      (fun j => wH.get [j, (storedChannel cout cmid co ci).1, (storedChannel cout cmid co ci).2])
      ((H₂.get [h]).transpose * H₁.get [i])
  /-- `vS` is the masked filter `wS`, read at the rotated positions -/
  spatial : ∀ co h r s t, co < cout → h < 4 → r < k → s < k → t < k →
    vS.get [co, h, 0, r, s, t] = (Functional.createSphericalMaskR3 k).get [r, s, t] *
      F.sampleAt .bilinear .border [k, k, k] (fun q => wS.get (co :: 0 :: q))
        ((H₂.get [h]).transpose.mulVec ((Functional.createGridR3 k).get [r, s, t]))

/-- The grid of the group filter and its sampling width do not depend on the call. -/
structure Setting (opt₁ opt₂ : List Euler) (cin cmid cout k : ℕ) (grid gr : Tensor Mat3) (wd : ℝ) : Prop where
  loaded : KernelSE3.grid initialStore opt₁ (args cin cmid k) = .ok grid
  shape : grid.shape = [4]
  ready : KernelSE3.Ready initialStore opt₂ (args cmid cout k) gr wd
  shape' : gr.shape = [4]

/-- For all sizes of the volume that leave room for two kernels, all parameters, all volumes and all draws the program runs; the result has
one number per sample and output channel: the mean over the 4 group elements and all positions of the second feature map. -/
theorem C99_runs (opt₁ opt₂ : List Euler) (N cin cmid cout k X Y Z : ℕ) (hk : 0 < k) (hcin : 0 < cin) (hcout : 0 < cout)
    (hX : 2 * k - 1 ≤ X) (hY : 2 * k - 1 ≤ Y) (hZ : 2 * k - 1 ≤ Z) :
    ∃ grid gr wd, Setting opt₁ opt₂ cin cmid cout k grid gr wd ∧
    ∀ (w wH wS : Tensor ℝ), w.shape = [cmid, cin, k, k, k] → wH.shape = [4, cout, cmid] → wS.shape = [cout, 1, k, k, k] →
    ∀ (q₁ q₂ : Quat) (x : Tensor ℝ), x.shape = [N, cin, X, Y, Z] →
    ∃ x₂ H₁ x₃ H₂ y, features opt₁ opt₂ cin cmid cout k w wH wS q₁ q₂ x = .ok ((x₂, H₁), (x₃, H₂)) ∧
      program opt₁ opt₂ cin cmid cout k w wH wS q₁ q₂ x = .ok y ∧
      x₂.shape = [N, cmid, 4, X - (k - 1), Y - (k - 1), Z - (k - 1)] ∧ H₁ = grid.map (moveSE3 q₁) ∧
      x₃.shape = [N, cout, 4, X - 2 * (k - 1), Y - 2 * (k - 1), Z - 2 * (k - 1)] ∧ H₂ = H₁.map (moveSE3 q₂) ∧
      y.shape = [N, cout, 1] ∧
      (∀ b c, b < N → c < cout → y.get [b, c, 0] =
        meanOver [4, X - 2 * (k - 1), Y - 2 * (k - 1), Z - 2 * (k - 1)] fun i => x₃.get (b :: c :: i)) ∧
      ∃ v vH vS, Computes N cin cmid cout k [X, Y, Z] gr wd w wH wS x x₂ x₃ H₁ H₂ v vH vS := by
  obtain ⟨M, hM, hgs⟩ := lifting_ok opt₁ cin cmid k hk
  obtain ⟨M₂, gr, wd, hM₂, hr, hgr⟩ := full_ok opt₂ cmid cout k hk
  have hgrid : KernelSE3.grid initialStore opt₁ (args cin cmid k) = .ok M.kernel.gridH := by
    obtain ⟨K, hK, -, hMK, -⟩ := build_ok hM
    rw [hMK]
    exact liftingSE3_grid hK
  refine ⟨M.kernel.gridH, gr, wd, ⟨hgrid, hgs, hr, hgr⟩, fun w wH wS hw hwH hwS q₁ q₂ x hx => ?_⟩
  have h1 : ∀ s ∈ [X, Y, Z], k ≤ s := by
    intro s hs
    fin_cases hs <;> show k ≤ _ <;> omega
  have h2 : ∀ s ∈ [X - (k - 1), Y - (k - 1), Z - (k - 1)], k ≤ s := by
    intro s hs
    fin_cases hs <;> show k ≤ _ <;> omega
  have e1 : outDims (List.replicate 3 ⟨k, 1, 1, 0, 0⟩) [X, Y, Z] = [X - (k - 1), Y - (k - 1), Z - (k - 1)] := out_eq hk h1
  have e2 : outDims (List.replicate 3 ⟨k, 1, 1, 0, 0⟩) [X - (k - 1), Y - (k - 1), Z - (k - 1)] =
      [X - (k - 1) - (k - 1), Y - (k - 1) - (k - 1), Z - (k - 1) - (k - 1)] := out_eq hk h2
  have d1 : cin / (args cin cmid k).groups = cin := Nat.div_one _
  have d2 : cmid / (args cmid cout k).groups = cmid := Nat.div_one _
  obtain ⟨v, x₂, l1, l2, l3, l4⟩ := C60_SE3 initialStore opt₁ (args cin cmid k) {} defaultModes hM (args_geometry cin cmid k)
    (geom_ok hk h1) hcin w (by rw [hw]; show _ = [cmid, cin / 1, k, k, k]; rw [Nat.div_one]) none (fun b hb => by cases hb) N x hx none 4 hgs
    (moveSE3 q₁) (M.kernel.gridH.map (moveSE3 q₁)) rfl
  have hx2 : x₂.shape = [N, cmid, 4, X - (k - 1), Y - (k - 1), Z - (k - 1)] := by
    rw [l2]
    show _ :: _ :: _ :: outDims (List.replicate 3 ⟨k, 1, 1, 0, 0⟩) _ = _
    rw [e1]
    rfl
  obtain ⟨vH, vS, x₃, m1, m2, m3, m4, m5⟩ := C62_SE3_partial initialStore opt₂ (args cmid cout k) {} defaultModes gr wd hr hM₂ (args_geometry cmid cout k)
    (S := [X - (k - 1), Y - (k - 1), Z - (k - 1)]) (geom_ok hk h2)
    (fun a ha => by
      obtain rfl := List.eq_of_mem_replicate ha
      exact ⟨rfl, Or.inl ⟨rfl, rfl⟩⟩) hcout wH wS
    (by rw [hwH, hgr]; show _ = [4, cout, cmid / 1]; rw [Nat.div_one]) hwS none (fun b hb => by cases hb) N 4 (by norm_num) x₂
    hx2 (M.kernel.gridH.map (moveSE3 q₁)) hgs none hgs (moveSE3 q₂) ((M.kernel.gridH.map (moveSE3 q₁)).map (moveSE3 q₂)) rfl
  have hf : features opt₁ opt₂ cin cmid cout k w wH wS q₁ q₂ x =
      .ok ((x₂, M.kernel.gridH.map (moveSE3 q₁)), (x₃, (M.kernel.gridH.map (moveSE3 q₁)).map (moveSE3 q₂))) := by
    unfold features
    rw [hM, ok_bind, hM₂, ok_bind, l1, ok_bind]
    dsimp only
    rw [m1, ok_bind]
    rfl
  have e3 : [X - (k - 1) - (k - 1), Y - (k - 1) - (k - 1), Z - (k - 1) - (k - 1)] = [X, Y, Z].map (· - 2 * (k - 1)) := by
    simp only [Nat.sub_sub, two_mul, List.map_cons, List.map_nil]
  have hx3 : x₃.shape = [N, cout, 4, X - 2 * (k - 1), Y - 2 * (k - 1), Z - 2 * (k - 1)] := by
    rw [m2]
    show _ :: _ :: _ :: outDims (List.replicate 3 ⟨k, 1, 1, 0, 0⟩) _ = _
    rw [e2, e3]
    rfl
  obtain ⟨y, p1, p2, p3⟩ := Pooling.C68_avg_global_partial x₃ N cout _ (by simp) hx3
  refine ⟨x₂, _, x₃, _, y, hf, ?_, hx2, rfl, hx3, rfl, p2, p3, v, vH, vS, ⟨?_, ?_, ?_, ?_, ?_⟩⟩
  · unfold program
    rw [hf, ok_bind]
    dsimp only
    rw [p1]
    rfl
  · intro b co h o hb hco hh ho
    exact l3 b co h o hb hco hh (by rw [e1]; exact ho)
  · intro co h ci r s t hco hh hci
    exact l4 co h ci r s t hco hh (by show ci < cin / _; rw [d1]; exact hci)
  · intro b co h o hb hco hh ho
    exact m3 b co h o hb hco hh (by rw [e2, e3]; exact ho)
  · intro co h ci i hco hh hci hi
    have := m4 co h ci i hco hh (by show ci < cmid / _; rw [d2]; exact hci) hi
    rw [this]
    show KernelSE3.value (args cmid cout k) gr wd (fun j => wH.get [j, (storedChannel cout (cmid / 1) co ci).1, (storedChannel cout (cmid / 1) co ci).2]) _ = _
    rw [Nat.div_one]
  · exact m5

/-- The numbers of the README: a batch of 16 volumes with three channels and extents 28, 16 and 32 channels, kernels of extent 5. -/
theorem C99_readme (opt₁ opt₂ : List Euler) (w wH wS : Tensor ℝ) (hw : w.shape = [16, 3, 5, 5, 5]) (hwH : wH.shape = [4, 32, 16])
    (hwS : wS.shape = [32, 1, 5, 5, 5]) (q₁ q₂ : Quat) (x : Tensor ℝ) (hx : x.shape = [16, 3, 28, 28, 28]) :
    ∃ x₂ H₁ x₃ H₂ y, features opt₁ opt₂ 3 16 32 5 w wH wS q₁ q₂ x = .ok ((x₂, H₁), (x₃, H₂)) ∧
      program opt₁ opt₂ 3 16 32 5 w wH wS q₁ q₂ x = .ok y ∧ x₂.shape = [16, 16, 4, 24, 24, 24] ∧ x₃.shape = [16, 32, 4, 20, 20, 20] ∧
      y.shape = [16, 32, 1] := by
  obtain ⟨_, _, _, _, h⟩ := C99_runs opt₁ opt₂ 16 3 16 32 5 28 28 28 (by norm_num) (by norm_num)
    (by norm_num) (by norm_num) (by norm_num) (by norm_num)
  obtain ⟨x₂, H₁, x₃, H₂, y, h1, h2, h3, -, h4, -, h5, -⟩ := h w wH wS hw hwH hwS q₁ q₂ x hx
  exact ⟨x₂, H₁, x₃, H₂, y, h1, h2, h3, h4, h5⟩

/-- The features are invariant under the rotations of the voxel grid, in distribution: a volume turned about an axis of the grid (so that
its extents may be exchanged) gets results with the same distribution. -/
theorem C99_invariant (opt₁ opt₂ : List Euler) (N cin cmid cout k : ℕ) (hk : 2 ≤ k) (hcin : 0 < cin) (hcout : 0 < cout)
    {σ : LatticeSym 3} (hg : IsRotation σ.matrix) {X Y Z X' Y' Z' : ℕ} (hσ : LatticeSym.Matches LatticeSym.ax3 σ [X', Y', Z'] [X, Y, Z])
    (hX : 2 * k - 1 ≤ X) (hY : 2 * k - 1 ≤ Y) (hZ : 2 * k - 1 ≤ Z) (hX' : 2 * k - 1 ≤ X') (hY' : 2 * k - 1 ≤ Y') (hZ' : 2 * k - 1 ≤ Z')
    (w wH wS : Tensor ℝ) (hw : w.shape = [cmid, cin, k, k, k]) (hwH : wH.shape = [4, cout, cmid]) (hwS : wS.shape = [cout, 1, k, k, k])
    (x x' : Tensor ℝ) (hx : MovedTensor LatticeSym.ax3 σ [N, cin] [X', Y', Z'] [X, Y, Z] x x') :
    MovedLaw ((normal 4).prod (Measure.pi fun _ : Fin 1 => normal 4))
      (fun q => program opt₁ opt₂ cin cmid cout k w wH wS q.1 (q.2 0) x)
      (fun q => program opt₁ opt₂ cin cmid cout k w wH wS q.1 (q.2 0) x') (SamePooled N cout) := by
  have hk0 : 0 < k := by omega
  obtain ⟨M, hM, hgs⟩ := lifting_ok opt₁ cin cmid k hk0
  obtain ⟨M₂, gr, wd, hM₂, hr, hgr⟩ := full_ok opt₂ cmid cout k hk0
  have hopt : KernelSE3.grid initialStore opt₂ (args cmid cout k) = KernelSE3.grid initialStore opt₁ (args cmid cout k) := by
    unfold KernelSE3.grid
    show (uniformGrid initialStore 4 "matrix" opt₂ false).1 >>= _ = (uniformGrid initialStore 4 "matrix" opt₁ false).1 >>= _
    rw [RBFCert.loaded 4 (by norm_num) (by norm_num), RBFCert.loaded 4 (by norm_num) (by norm_num)]
  have hr' : KernelSE3.Ready initialStore opt₁ (args cmid cout k) gr wd := { hr with grid := by rw [← hopt]; exact hr.grid }
  have hM₂' : fullSE3 initialStore opt₁ (args cmid cout k) {} = .ok M₂ := by
    rw [← hM₂]
    unfold fullSE3 KernelSE3.full
    rw [hopt]
  have a1 : ∀ s ∈ [X, Y, Z], k ≤ s := by
    intro s hs
    fin_cases hs <;> show k ≤ _ <;> omega
  have a1' : ∀ s ∈ [X', Y', Z'], k ≤ s := by
    intro s hs
    fin_cases hs <;> show k ≤ _ <;> omega
  have a2 : ∀ s ∈ [X - (k - 1), Y - (k - 1), Z - (k - 1)], k ≤ s := by
    intro s hs
    fin_cases hs <;> show k ≤ _ <;> omega
  have a2' : ∀ s ∈ [X' - (k - 1), Y' - (k - 1), Z' - (k - 1)], k ≤ s := by
    intro s hs
    fin_cases hs <;> show k ≤ _ <;> omega
  have b2 : ∀ s ∈ [X - (k - 1), Y - (k - 1), Z - (k - 1)], 1 ≤ s := fun s hs => by have := a2 s hs; omega
  have b2' : ∀ s ∈ [X' - (k - 1), Y' - (k - 1), Z' - (k - 1)], 1 ≤ s := fun s hs => by have := a2' s hs; omega
  have e1 : outDims (List.replicate 3 ⟨k, 1, 1, 0, 0⟩) [X, Y, Z] = [X - (k - 1), Y - (k - 1), Z - (k - 1)] := out_eq hk0 a1
  have e1' : outDims (List.replicate 3 ⟨k, 1, 1, 0, 0⟩) [X', Y', Z'] = [X' - (k - 1), Y' - (k - 1), Z' - (k - 1)] := out_eq hk0 a1'
  have f : firstAxes .zeros (.int 0) (List.replicate 3 ⟨k, 1, 1, 0, 0⟩) = List.replicate 3 ⟨1, 1, 1, 0, 0⟩ := by
    simp [firstAxes, firstAxis]
  have o1 : outDims (List.replicate 3 ⟨1, 1, 1, 0, 0⟩) [X - (k - 1), Y - (k - 1), Z - (k - 1)] = [X - (k - 1), Y - (k - 1), Z - (k - 1)] :=
    out_eq Nat.one_pos b2
  have o1' : outDims (List.replicate 3 ⟨1, 1, 1, 0, 0⟩) [X' - (k - 1), Y' - (k - 1), Z' - (k - 1)] = [X' - (k - 1), Y' - (k - 1), Z' - (k - 1)] :=
    out_eq Nat.one_pos b2'
  have hchain : Chain N (ConvSE3 initialStore opt₁ σ) ([Block.separableSE M₂ id wH wS none].map (Block.draw id))
      ([Block.separableSE M₂ id wH wS none].map (Block.draw id))
      ⟨cmid, 4, [X' - (k - 1), Y' - (k - 1), Z' - (k - 1)], [X - (k - 1), Y - (k - 1), Z - (k - 1)]⟩
      ⟨cout, 4, outDims (List.replicate 3 ⟨k, 1, 1, 0, 0⟩) [X' - (k - 1), Y' - (k - 1), Z' - (k - 1)],
        outDims (List.replicate 3 ⟨k, 1, 1, 0, 0⟩) [X - (k - 1), Y - (k - 1), Z - (k - 1)]⟩ := by
    refine .conv ?_ (.nil _)
    exact ConvSE3.separable (args cmid cout k) {} hk defaultModes gr wd hr' hM₂' (args_geometry cmid cout k)
      (S' := [X' - (k - 1), Y' - (k - 1), Z' - (k - 1)]) (S := [X - (k - 1), Y - (k - 1), Z - (k - 1)])
      (by show GeomOk .zeros (firstAxes .zeros (.int 0) (List.replicate 3 ⟨k, 1, 1, 0, 0⟩)) _; rw [f]; exact geom_ok Nat.one_pos b2)
      ⟨⟨1, 1, 1, 0, 0⟩, f, rfl, fun s _ => one_dvd _⟩
      (by show outDims (firstAxes .zeros (.int 0) (List.replicate 3 ⟨k, 1, 1, 0, 0⟩)) _ = _; rw [f, o1])
      (by show outDims (firstAxes .zeros (.int 0) (List.replicate 3 ⟨k, 1, 1, 0, 0⟩)) _ = _; rw [f, o1'])
      (geom_ok hk0 a2) ⟨⟨k, 1, 1, 0, 0⟩, rfl, rfl, fun s _ => one_dvd _⟩ hcout wH wS
      (by rw [hwH, hgr]; show _ = [4, cout, cmid / 1]; rw [Nat.div_one]) hwS none (fun b hb => by cases hb) (by norm_num) id id
      (fun _ _ => rfl)
  have law := C93_SE3_avg initialStore opt₁ (args cin cmid k) {} hk defaultModes hM (args_geometry cin cmid k) hσ (geom_ok hk0 a1)
    ⟨⟨k, 1, 1, 0, 0⟩, rfl, rfl, fun s _ => one_dvd _⟩ hg hcin w
    (by rw [hw]; show _ = [cmid, cin / 1, k, k, k]; rw [Nat.div_one]) none (fun b hb => by cases hb) N 4 x x' none hgs (fun h => by cases h) hx
    (bs := [Block.separableSE M₂ id wH wS none]) (by rw [e1, e1']; exact hchain)
    (by
      show 0 < (4 :: outDims (List.replicate 3 ⟨k, 1, 1, 0, 0⟩) [X' - (k - 1), Y' - (k - 1), Z' - (k - 1)]).prod
      rw [show outDims (List.replicate 3 ⟨k, 1, 1, 0, 0⟩) [X' - (k - 1), Y' - (k - 1), Z' - (k - 1)] = _ from out_eq hk0 a2']
      refine List.prod_pos fun s hs => ?_
      simp only [List.map_cons, List.map_nil, List.mem_cons, List.not_mem_nil, or_false] at hs
      rcases hs with rfl | rfl | rfl | rfl <;> omega)
  have key : ∀ z (q : Quat × (Fin 1 → Quat)), program opt₁ opt₂ cin cmid cout k w wH wS q.1 (q.2 0) z =
      (M.lift (moveSE3 q.1) w none z none >>= run (drawn moveSE3 [Block.separableSE M₂ id wH wS none] (List.ofFn q.2)) >>= avgPooled) := by
    intro z q
    unfold program features
    rw [hM, ok_bind, hM₂, ok_bind]
    cases M.lift (moveSE3 q.1) w none z none with
    | error e => rfl
    | ok r =>
      show ((M₂.separableSE (moveSE3 (q.2 0)) wH wS none r.1 r.2 none >>= _) >>= _) = (M₂.separableSE (moveSE3 (q.2 0)) wH wS none r.1 r.2 none >>= _) >>= _
      cases M₂.separableSE (moveSE3 (q.2 0)) wH wS none r.1 r.2 none with
      | error e => rfl
      | ok r₂ =>
        show (Pooling.avgGlobal r₂.1 >>= _) = (Pooling.avgGlobal r₂.1).map values
        cases Pooling.avgGlobal r₂.1 <;> rfl
  simp only [key]
  exact law

/-- a quarter turn of the README's volumes, and of boxes. -/
example : IsRotation KernelSE3.quarter.matrix ∧ KernelSE3.quarter.matrix ≠ 1 ∧
    LatticeSym.Matches LatticeSym.ax3 KernelSE3.quarter [28, 28, 28] [28, 28, 28] := by
  refine ⟨KernelSE3.quarter_rotation, fun h => ?_, rfl, rfl, ?_⟩
  · have := congrFun (congrFun h 1) 1
    rw [KernelSE3.quarter_matrix] at this
    simp at this
  · intro c
    fin_cases c <;> rfl

end GConv.Readme

import Verif.Lemmas.RBFQuat
import Verif.Props.DefaultSampling
import Verif.Props.StateSO3
import Verif.Props.Spread

/-! # C87 for `GSubgroupKernelSO3`, C104 for quaternions -/
namespace GConv.RBFCert

open Tensor Spec SO3 SO3.Tables GConv.Interval

/-- the shipped quaternions as real rows. -/
theorem cachedQuats_eq (n : ℕ) (h2 : 2 ≤ n) (h24 : n ≤ 24) : cachedQuats n = some ((quats n).map (Z4.real (10 ^ 11))) := by
  have h := checkQ_true n h2 h24
  unfold checkQ at h
  simp only [Bool.and_eq_true, decide_eq_true_eq] at h
  have hl := h.1.1.1.1.1.1
  unfold cachedQuats quats
  unfold quats at hl
  cases hk : quatCache.lookup n with
  | none => rw [hk] at hl; simp at hl; omega
  | some l => rfl

/-- What the certificate says about the shipped quaternions. -/
theorem quat_grid (n : ℕ) (h2 : 2 ≤ n) (h24 : n ≤ 24) (q : Tensor Quat) (hq : elems q = (cachedQuats n).getD []) (hsh : q.shape = [n]) :
    (∀ i < n, SO3.dist (q.get [i]) (q.get [i]) ≤ 0.0175) ∧
    (∀ i < n, ∀ j < n, i ≠ j → leastAngle n - 0.001 ≤ 2 * SO3.dist (q.get [i]) (q.get [j])) ∧
    ∃ l, nearestNeighbourDistance (elems q) = .ok l ∧
      (Interp.rbfMatrix SO3.dist Interp.RBFgauss (0.8 * mean l) q).det ≠ 0 := by
  have h := checkQ_true n h2 h24
  have hc := cachedQuats_eq n h2 h24
  unfold checkQ at h
  simp only [Bool.and_eq_true, decide_eq_true_eq] at h
  obtain ⟨⟨⟨⟨⟨⟨hl, ha⟩, he⟩, hd⟩, hr⟩, hbig⟩, hw⟩ := h
  rw [List.all_eq_true] at hbig
  rw [hc, Option.getD_some] at hq
  have hlen : (elems q).length = n := by rw [hq, List.length_map, hl]
  have hget : ∀ i < n, q.get [i] = (qRow n i).real (10 ^ 11) := by
    intro i hi
    have h1 : (elems q)[i]'(by rw [hlen]; exact hi) = q.get [i] := by simp [elems]
    rw [← h1]
    have h3 : (elems q)[i]'(by rw [hlen]; exact hi) = ((quats n).map (Z4.real (10 ^ 11)))[i]'(by rw [List.length_map, hl]; exact hi) := by
      congr 1
    rw [h3, List.getElem_map]
    unfold qRow
    rw [getD_lt (by rw [hl]; exact hi)]
  have hel : ∀ i (hi : i < (elems q).length), (elems q)[i] = (qRow n i).real (10 ^ 11) := by
    intro i hi
    rw [← hget i (by rw [← hlen]; exact hi)]
    simp [elems]
  have ang := fun {i j} (hi : i < n) (hj : j < n) => anglesQ_sound (s := 10 ^ 11) ha (by positivity) hi hj
  have off : ∀ i j, i < n → j < n → j ≠ i →
      ((ent n (se3Cert n).T i j - 60 : ℤ) : ℝ) / 200000 ≤ SO3.dist ((qRow n i).real (10 ^ 11)) ((qRow n j).real (10 ^ 11)) ∧
        SO3.dist ((qRow n i).real (10 ^ 11)) ((qRow n j).real (10 ^ 11)) ≤ ((ent n (se3Cert n).T i j + 60 : ℤ) : ℝ) / 200000 := by
    intro i j hi hj hne
    have := ang hi hj
    unfold loQ hiQ at this
    rw [if_neg (Ne.symm hne), if_neg (Ne.symm hne)] at this
    exact this
  have self : ∀ i, i < n → SO3.dist ((qRow n i).real (10 ^ 11)) ((qRow n i).real (10 ^ 11)) ≤ 3500 / 200000 := by
    intro i hi
    have := (ang hi hi).2
    unfold hiQ at this
    rw [if_pos rfl] at this
    push_cast at this
    exact this
  have hmin : ∀ i < n, ∀ j < n, i ≠ j → ent1 (se3Cert n).N i ≤ ent n (se3Cert n).T i j := by
    intro i hi j hj hne
    unfold rowMin at hr
    rw [Bool.and_eq_true] at hr
    have := all2_sound hr.1 hi hj
    rw [Bool.or_eq_true, decide_eq_true_eq, decide_eq_true_eq] at this
    exact this.resolve_left hne
  refine ⟨fun i hi => ?_, fun i hi j hj hne => ?_, _, if_neg (by rw [hlen]; omega), ?_⟩
  · rw [hget i hi]
    refine (self i hi).trans ?_
    norm_num
  · rw [hget i hi, hget j hj]
    have h1 := (off i j hi hj (Ne.symm hne)).1
    have h3 := hmin i hi j hj hne
    have h3 : (ent1 (se3Cert n).N i : ℝ) ≤ ent n (se3Cert n).T i j := by exact_mod_cast h3
    have h4 := (Spread.spread n h2 h24 hi).1
    generalize SO3.dist _ _ = D at h1 ⊢
    push_cast at h1
    linarith
  · have key := nearest_sound (dist := SO3.dist) hr h2 hlen (lo := fun t : ℤ => (((t - 60 : ℤ)) : ℝ) / ((200000 : ℤ) : ℝ))
      (hi := fun t : ℤ => (((t + 60 : ℤ)) : ℝ) / ((200000 : ℤ) : ℝ)) (by
        intro a b hab
        dsimp only
        gcongr) (by
        intro i j hi hj hne
        rw [hel i hi, hel j hj]
        exact_mod_cast off i j (by rw [← hlen]; exact hi) (by rw [← hlen]; exact hj) hne) (by
        intro i hi
        rw [hel i hi]
        refine (self i (by rw [← hlen]; exact hi)).trans ?_
        have h8 := hbig i (List.mem_range.2 (by rw [← hlen]; exact hi))
        rw [decide_eq_true_eq] at h8
        have h8 : (3561 : ℝ) ≤ ent1 (se3Cert n).N i := by exact_mod_cast h8
        push_cast
        gcongr
        linarith)
    have hwid := widths_sound (by omega) (by norm_num) hw key.2.1 key.2.2
    have hq0 : q.shape.headD 0 = n := by rw [hsh]; rfl
    have hmean : mean ((elems q).map fun a => (sortL ((elems q).map fun b => geodesicDistance a b defaultEps)).getD 1 0) =
        ((elems q).map fun a => (sortL ((elems q).map fun b => SO3.dist a b)).getD 1 0).sum / (n : ℝ) := by
      unfold mean
      rw [List.length_map, hlen]
      rfl
    rw [hmean]
    subst hq0
    refine dominant_sound hd _ (fun i j => ?_) fun i j => ?_
    · have := ang i.2 j.2
      rw [← hget i i.2, ← hget j j.2] at this
      exact (entries_sound he i.2 j.2 this.1 this.2 hwid.1 hwid.2).1
    · have := ang i.2 j.2
      rw [← hget i i.2, ← hget j j.2] at this
      exact (entries_sound he i.2 j.2 this.1 this.2 hwid.1 hwid.2).2

end GConv.RBFCert

namespace GConv.KernelSO3

open Tensor Spec SO3 GroupKernel

/-- `GSubgroupKernelSO3` with the default grid, sampling mode and width, for the shipped grids: it is constructed, and its
weights can be evaluated for all parameters and all grids of equal size (see C52). -/
theorem C87_SO3_partial (inC outC n groups : ℕ) (opt : List Euler) (ho : opt.length = n) (mode : String) (hmode : mode = "rbf" ∨ mode = "nearest")
    (h2 : 2 ≤ n) (h24 : n ≤ 24) (hg : 0 < groups) :
    ∃ o, init initialStore opt inC outC n groups mode 0 none = .ok o ∧ o.kernel.groupKernelSize = [n] ∧
      ∀ (weight : Tensor ℝ) (inH outH : Tensor Mat3) (m : ℕ), weight.shape = [n, outC, inC / groups] → inH.shape = [m] → outH.shape = [m] →
        ∃ out, o.kernel.subgroupForward weight inH outH = .ok out ∧ out.shape = [outC, m, inC / groups, m, 1, 1, 1] := by
  obtain ⟨g, hgr, hsh, hel⟩ := C55_SO3_grid opt n (by omega) ho
  rw [if_pos h24] at hel
  obtain ⟨-, -, l, hl, hdet⟩ := RBFCert.quat_grid n h2 h24 g hel hsh
  have hwd : defaultWidth 0 (nearestNeighbourDistance (elems g)) = .ok (0.8 * mean l) := by
    unfold defaultWidth
    rw [if_pos rfl, hl]; rfl
  have hinit : init initialStore opt inC outC n groups mode 0 none = .ok ⟨inC, outC, groups, mode, 0.8 * mean l, g⟩ := by
    unfold init
    rw [hgr, ok_bind, hwd, ok_bind]
    unfold checkGroups
    rw [if_neg (by omega)]
  have h0 : g.shape.headD 0 = n := by rw [hsh]; rfl
  refine ⟨_, hinit, by show [g.shape.headD 0] = _; rw [h0], fun weight inH outH m hw hin hout => ?_⟩
  have hK : subgroup inC outC groups mode 0 g = .ok (Obj.kernel ⟨inC, outC, groups, mode, 0.8 * mean l, g⟩) := by
    rw [← init_kernel initialStore opt inC outC n groups mode 0 g]
    unfold init grid
    rw [ok_bind, hwd, ok_bind]
    unfold checkGroups
    rw [if_neg (by omega)]
    rfl
  obtain ⟨out, e, s, -⟩ := C52_SO3_partial inC outC groups mode 0 g _ hK _ hwd (solvable_of hmode rfl (by rw [h0]; omega) hdet)
    (by rw [h0]; omega) weight inH outH m (by rw [h0]; exact hw) hin hout
  exact ⟨out, e, s⟩

/-- With one rotation the default width cannot be computed and the constructor raises. -/
theorem C87_violated_SO3 (opt : List Euler) (ho : opt.length = 1) (inC outC groups : ℕ) (mode : String) :
    init initialStore opt inC outC 1 groups mode 0 none = .error .indexError := by
  obtain ⟨g, hgr, hsh, hel⟩ := C55_SO3_grid opt 1 le_rfl ho
  unfold init
  rw [hgr, ok_bind]
  unfold defaultWidth
  rw [if_pos rfl]
  have : nearestNeighbourDistance (elems g) = .error .indexError := by
    unfold nearestNeighbourDistance
    rw [if_pos]
    have : (elems g).length = g.shape.headD 0 := by simp [elems]
    rw [this, hsh]
    decide
  rw [this]
  rfl

end GConv.KernelSO3

namespace GConv

open Tensor Spec SO3

/-- The shipped quaternions `so3.uniform_grid(n)`, as they are stored: different rotations are at least `leastAngle n` (minus
a thousandth) apart, and every rotation is much nearer to itself. -/
theorem C104_quat (opt : List Euler) (n : ℕ) (h2 : 2 ≤ n) (h24 : n ≤ 24) (ho : opt.length = n) :
    ∃ t, (uniformGrid initialStore n "quat" opt false).1 = .ok t ∧ t.shape = [n, 4] ∧
      (∀ i < n, 2 * geodesicDistance (fun c => t.get [i, c]) (fun c => t.get [i, c]) defaultEps ≤ 0.035) ∧
      ∀ i < n, ∀ j < n, i ≠ j → leastAngle n - 0.001 ≤ 2 * geodesicDistance (fun c => t.get [i, c]) (fun c => t.get [j, c]) defaultEps := by
  obtain ⟨g, hgr, hsh, hel⟩ := KernelSO3.C55_SO3_grid opt n (by omega) ho
  rw [if_pos h24] at hel
  obtain ⟨h1, h3, -⟩ := RBFCert.quat_grid n h2 h24 g hel hsh
  unfold KernelSO3.grid at hgr
  dsimp only at hgr
  obtain ⟨t, ht, hgr⟩ := bind_ok' hgr
  refine ⟨t, ht, ?_⟩
  split at hgr
  · rename_i k heq
    cases hgr
    cases hsh
    refine ⟨heq, fun i hi => ?_, fun i hi j hj hne => h3 i hi j hj hne⟩
    have : geodesicDistance (fun c => t.get [i, c]) (fun c => t.get [i, c]) defaultEps ≤ 0.0175 := h1 i hi
    linarith
  · cases hgr; cases hsh
  · cases hgr

end GConv

import Verif.Model.Kernel
import Verif.Spec.Kernel
import Verif.Lemmas.Tensor

/-! # C50 – C53: what the kernel classes compute -/

namespace GConv.GroupKernel

open Tensor Spec

variable {G : Type} {d : ℕ}

/-- value of the optional mask at a cell. -/
def maskAt (m : Option (Tensor ℝ)) (x : List ℕ) : ℝ :=
  match m with
  | none => 1
  | some t => t.get x

/-- value of the optional determinant of a group element. -/
def detAt (det : Option (G → ℝ)) (g : G) : ℝ :=
  match det with
  | none => 1
  | some f => f g

/-- the callables act element by element: inverse `inv`, product `mul`, action `act` on vectors,
determinant `det`; grid and mask have the kernel's extents. -/
structure Lawful (K : GroupKernel G d) (inv : G → G) (mul : G → G → G)
    (act : G → (Fin d → ℝ) → (Fin d → ℝ)) (det : Option (G → ℝ)) : Prop where
  inverseH : ∀ H, K.inverseH H = H.map inv
  leftApplyToH : ∀ A B, K.leftApplyToH A B = pairwise mul A B
  leftApplyToRn : ∀ A B, K.leftApplyToRn A B = pairwise act A B
  detH : K.detH = det.map (fun f H => H.map f)
  gridRn : K.gridRn.shape = K.kernelSize
  mask : ∀ m, K.mask = some m → m.shape = K.kernelSize

theorem applyMask_spec {K : GroupKernel G d} (hm : ∀ m, K.mask = some m → m.shape = K.kernelSize)
    (w : Tensor ℝ) (p : List ℕ) (hw : w.shape = p ++ K.kernelSize) :
    ∃ out, K.applyMask w = .ok out ∧ out.shape = p ++ K.kernelSize ∧
      ∀ u x, InB p u → InB K.kernelSize x → out.get (u ++ x) = maskAt K.mask x * w.get (u ++ x) := by
  unfold applyMask maskAt
  cases h : K.mask with
  | none => exact ⟨w, rfl, hw, fun u x _ _ => (one_mul _).symm⟩
  | some m =>
    have hms := hm m h
    refine ⟨_, bzip_right (p := p) hms hw (BInto.refl _), rfl, ?_⟩
    intro u x hu hx
    dsimp only
    rw [hms, hw, bidx_self (p := p) hu.length hx, bidx_full (hu.append hx)]

theorem viewInfer_nil {α : Type} (t : Tensor α) (n m : ℕ) (ht : t.shape = [n]) :
    t.viewInfer [] (1 :: List.replicate m 1) =
      .ok ⟨n :: 1 :: List.replicate m 1, fun idx => t.get (unravel [n] (ravel (n :: 1 :: List.replicate m 1) idx))⟩ := by
  unfold viewInfer
  have e : ([] : List ℕ).prod * (1 :: List.replicate m 1).prod = 1 := by simp
  simp only [e]
  rw [if_neg (by omega)]
  have e2 : t.shape.prod / 1 = n := by rw [ht]; simp
  rw [e2]
  rw [view_ok (by rw [ht]; simp), ht]
  rfl

theorem ravel_ones (n m h : ℕ) : ravel (n :: 1 :: List.replicate m 1) (h :: List.replicate (m + 1) 0) = h := by
  have : ∀ m : ℕ, ravel (List.replicate m 1) (List.replicate m 0) = 0 := by
    intro m
    induction m with
    | zero => rfl
    | succ m ih => simp [List.replicate_succ, ravel, ih]
  have h1 := this (m + 1)
  rw [List.replicate_succ] at h1
  simp only [ravel, h1, List.prod_cons, List.prod_replicate, one_pow, mul_one, Nat.add_zero]

theorem divDet_spec {K : GroupKernel G d} {det : Option (G → ℝ)} (hd : K.detH = det.map (fun f H => H.map f))
    (w : Tensor ℝ) (H : Tensor G) (c n : ℕ) (t : List ℕ) (m : ℕ) (hH : H.shape = [n])
    (hw : w.shape = c :: n :: t) (hm : t.length = m + 1) :
    ∃ out, K.divDet w H m = .ok out ∧ out.shape = c :: n :: t ∧
      ∀ a h x, a < c → h < n → InB t x → out.get (a :: h :: x) = w.get (a :: h :: x) / detAt det (H.get [h]) := by
  unfold divDet detAt
  rw [hd]
  cases det with
  | none => exact ⟨w, rfl, hw, fun a h x _ _ _ => (div_one _).symm⟩
  | some f =>
    simp only [Option.map_some]
    have hv := viewInfer_nil (H.map f) n m hH
    simp only [hv]
    have hb : BInto (n :: 1 :: List.replicate m 1) (n :: t) := by
      refine List.Forall₂.cons (Or.inl rfl) ?_
      have := BInto.ones t
      rwa [hm, List.replicate_succ] at this
    refine ⟨_, bzip_left (p := [c]) (q := n :: t) hw rfl hb, rfl, ?_⟩
    intro a h x ha hh hx
    dsimp only
    rw [hw, bidx_full (by simp [ha, hh, hx])]
    congr 1
    have e : bidx (n :: 1 :: List.replicate m 1) (a :: h :: x) = h :: List.replicate (m + 1) 0 := by
      have := bidx_append (r := n :: 1 :: List.replicate m 1) (u := [a]) (v := h :: x)
        (by simp [hx.length, hm])
      rw [show a :: h :: x = [a] ++ (h :: x) from rfl, this]
      have hz := zip_ones (m + 1) x (by rw [hx.length, hm])
      rw [List.replicate_succ] at hz
      rw [List.zipWith_cons_cons, hz]
      congr 1
      by_cases hn : n = 1
      · rw [if_pos hn]; omega
      · rw [if_neg hn]
    rw [e, ravel_ones]
    have : unravel [n] h = [h] := by simp [unravel]
    rw [this]; rfl

/-! ## C50 -/

theorem C50_lifting {K : GroupKernel G d} {inv mul act det core} (hK : Lawful K inv mul act det)
    (hs : PointwiseSampler K.sampleRn K.kernelSize core)
    (weight : Tensor ℝ) (H : Tensor G) (n : ℕ)
    (hw : weight.shape = [K.outC, K.inC / K.groups] ++ K.kernelSize) (hH : H.shape = [n]) :
    ∃ out, K.liftingForward weight H = .ok out ∧
      out.shape = [K.outC, n, K.inC / K.groups] ++ K.kernelSize ∧
      ∀ co h ci x, co < K.outC → h < n → ci < K.inC / K.groups → InB K.kernelSize x →
        out.get (co :: h :: ci :: x) =
          maskAt K.mask x *
            core (fun r => weight.get (co :: ci :: r)) (act (inv (H.get [h])) (K.gridRn.get x)) /
          detAt det (H.get [h]) := by
  unfold liftingForward
  rw [hH, show [n].headD 0 = n from rfl, hK.inverseH, hK.leftApplyToRn]
  obtain ⟨w1, e1, s1, g1⟩ := hs (weight.repeatInterleave0 n)
    ((pairwise act (H.map inv) K.gridRn).repeat0 K.outC) (K.outC * n) (K.inC / K.groups)
    (by simp [repeatInterleave0, hw]) (by simp [repeat0, pairwise, hK.gridRn, Tensor.map, hH])
  simp only [e1]
  have hprod : w1.shape.prod = ([K.outC, n, K.inC / K.groups] ++ K.kernelSize).prod := by
    rw [s1]; simp [Nat.mul_assoc]
  rw [ok_bind, view_ok hprod, ok_bind]
  obtain ⟨w2, e2, s2, g2⟩ := applyMask_spec hK.mask ⟨[K.outC, n, K.inC / K.groups] ++ K.kernelSize,
    fun idx => w1.get (unravel w1.shape (ravel ([K.outC, n, K.inC / K.groups] ++ K.kernelSize) idx))⟩
    [K.outC, n, K.inC / K.groups] rfl
  rw [e2, ok_bind]
  have hlen : weight.shape.length - 2 = K.kernelSize.length := by rw [hw]; simp
  rw [hlen]
  obtain ⟨w3, e3, s3, g3⟩ := divDet_spec hK.detH w2 H K.outC n (K.inC / K.groups :: K.kernelSize)
    K.kernelSize.length hH (by rw [s2]; rfl) (by simp)
  refine ⟨w3, e3, s3, ?_⟩
  intro co h ci x hco hh hci hx
  rw [g3 co h (ci :: x) hco hh (by simp [hci, hx])]
  have h2 := g2 [co, h, ci] x (by simp [hco, hh, hci]) hx
  simp only [List.cons_append, List.nil_append] at h2
  rw [h2]
  congr 2
  have hv := view_suffix (t := w1) (A := [K.outC * n, K.inC / K.groups]) (B := [K.outC, n, K.inC / K.groups])
    (s := K.kernelSize) (b := [co, h, ci]) (x := x) s1 (by simp [Nat.mul_assoc])
    (by simp [hco, hh, hci]) hx
  simp only [List.cons_append, List.nil_append] at hv
  rw [hv]
  have hidx : unravel [K.outC * n, K.inC / K.groups] (ravel [K.outC, n, K.inC / K.groups] [co, h, ci]) =
      [co * n + h, ci] := by
    have := unravel_ravel (s := [K.outC * n, K.inC / K.groups]) (idx := [co * n + h, ci]) (by
      simp only [InB_cons, InB_nil_nil, and_true]
      exact ⟨by
        calc co * n + h < co * n + n := by omega
          _ = (co + 1) * n := by ring
          _ ≤ K.outC * n := Nat.mul_le_mul_right _ hco, hci⟩)
    rw [← this]
    congr 1
    simp [ravel]; ring
  rw [hidx]
  have hrow : co * n + h < K.outC * n := by
    calc co * n + h < co * n + n := by omega
      _ = (co + 1) * n := by ring
      _ ≤ K.outC * n := Nat.mul_le_mul_right _ hco
  rw [show [co * n + h, ci] ++ x = (co * n + h) :: ci :: x from rfl, g1 _ hrow _ hci x hx]
  have d1 : (co * n + h) / n = co := by
    rw [Nat.add_comm, Nat.add_mul_div_right _ _ (by omega), Nat.div_eq_of_lt hh, Nat.zero_add]
  have d2 : (co * n + h) % n = h := by
    rw [Nat.add_comm, Nat.add_mul_mod_self_right, Nat.mod_eq_of_lt hh]
  simp only [repeatInterleave0, repeat0, pairwise, Tensor.map, hH, List.headD_cons, d1, d2]

/-! ## C51 -/

theorem viewInfer_flat {α : Type} (t : Tensor α) (a b : ℕ) (ht : t.shape = [a, b]) :
    t.viewInfer [] [] = .ok ⟨[a * b], fun idx => t.get (unravel [a, b] (ravel [a * b] idx))⟩ := by
  unfold viewInfer
  simp only [List.prod_nil, Nat.mul_one]
  rw [if_neg (by omega)]
  have e2 : t.shape.prod / 1 = a * b := by rw [ht]; simp
  rw [e2, view_ok (by rw [ht]; simp), ht]
  rfl

theorem viewInfer_rows {α : Type} (t : Tensor α) (k : ℕ) (s : List ℕ) (ht : t.shape = k :: s) (hk : 0 < k) :
    t.viewInfer [k] [] = .ok ⟨[k, s.prod], fun idx => t.get (unravel (k :: s) (ravel [k, s.prod] idx))⟩ := by
  unfold viewInfer
  have e : [k].prod * ([] : List ℕ).prod = k := by simp
  have e1 : t.shape.prod = k * s.prod := by rw [ht]; simp
  simp only [e, e1]
  rw [if_neg (by rw [Nat.mul_mod_right]; omega), Nat.mul_div_cancel_left _ hk]
  rw [view_ok (by rw [e1]; simp), ht]
  rfl

theorem flat_row {a b i j : ℕ} (hi : i < a) (hj : j < b) : i * b + j < a * b := by
  calc i * b + j < i * b + b := by omega
    _ = (i + 1) * b := by ring
    _ ≤ a * b := Nat.mul_le_mul_right _ hi

theorem div_row {b i j : ℕ} (hj : j < b) : (i * b + j) / b = i := by
  rw [Nat.add_comm, Nat.add_mul_div_right _ _ (by omega), Nat.div_eq_of_lt hj, Nat.zero_add]

theorem mod_row {b i j : ℕ} (hj : j < b) : (i * b + j) % b = j := by
  rw [Nat.add_comm, Nat.add_mul_mod_self_right, Nat.mod_eq_of_lt hj]

theorem unravel_two {a b i j : ℕ} (hi : i < a) (hj : j < b) : unravel [a, b] (i * b + j) = [i, j] := by
  have := unravel_ravel (s := [a, b]) (idx := [i, j]) (by simp [hi, hj])
  simpa [ravel] using this

theorem pair_good {mul : G → G → G} {inv : G → G} {Good : G → Prop} {inH outH : Tensor G} {nIn nOut : ℕ}
    (h : ∀ o < nOut, ∀ i < nIn, Good (mul (inv (outH.get [o])) (inH.get [i]))) :
    ∀ j < nOut * nIn, Good ((⟨[nOut * nIn], fun idx => (pairwise mul (outH.map inv) inH).get
      (unravel [nOut, nIn] (ravel [nOut * nIn] idx))⟩ : Tensor G).get [j]) := by
  intro j hj
  have hn : 0 < nIn := by
    rcases Nat.eq_zero_or_pos nIn with h | h
    · subst h; simp at hj
    · exact h
  have := h (j / nIn) (Nat.div_lt_of_lt_mul (by rwa [Nat.mul_comm])) (j % nIn) (Nat.mod_lt _ hn)
  simpa [ravel, unravel, pairwise, Tensor.map] using this

theorem swap_swap (a b c e : ℕ) (x : List ℕ) :
    swapL (swapL (a :: b :: c :: e :: x) 1 3) 0 3 = b :: e :: c :: a :: x := by
  simp [swapL]

theorem transpose_shape (t : Tensor ℝ) (a b c e : ℕ) (x : List ℕ) (h : t.shape = a :: b :: c :: e :: x) :
    ((t.transpose 0 3).transpose 1 3).shape = e :: a :: c :: b :: x := by
  simp [transpose, h, swapL]

theorem transpose_get (t : Tensor ℝ) (a b c e : ℕ) (x : List ℕ) :
    ((t.transpose 0 3).transpose 1 3).get (a :: b :: c :: e :: x) = t.get (b :: e :: c :: a :: x) := by
  simp [transpose, swapL]

/-- reading row `k`, flat channel `c * P + (offset of r)` of the reshaped parameter. -/
theorem reshape_get (t : Tensor ℝ) (k CO CI c : ℕ) (K : ℕ) (ks r : List ℕ)
    (hk : k < K) (hc : c < CO * CI) (hr : InB ks r) :
    t.get (unravel (K :: CO :: CI :: ks) (ravel [K, (CO :: CI :: ks).prod] [k, c * ks.prod + ravel ks r])) =
      t.get (k :: (c / CI) :: (c % CI) :: r) := by
  congr 1
  have hCI : 0 < CI := by
    rcases Nat.eq_zero_or_pos CI with h | h
    · subst h; simp at hc
    · exact h
  have hlt := ravel_lt hr
  have hp : (CO :: CI :: ks).prod = (CO * CI) * ks.prod := by simp [Nat.mul_assoc]
  have hin : InB (K :: CO :: CI :: ks) (k :: (c / CI) :: (c % CI) :: r) := by
    simp only [InB_cons]
    exact ⟨hk, Nat.div_lt_of_lt_mul (by rwa [Nat.mul_comm]), Nat.mod_lt _ hCI, hr⟩
  rw [← unravel_ravel hin]
  congr 1
  have hd := Nat.div_add_mod' c CI
  simp only [ravel, List.prod_cons, List.prod_nil, Nat.mul_one, Nat.add_zero]
  calc k * (CO * (CI * ks.prod)) + (c * ks.prod + ravel ks r)
      = k * (CO * (CI * ks.prod)) + ((c / CI * CI + c % CI) * ks.prod + ravel ks r) := by rw [hd]
    _ = _ := by ring

theorem C51_group {K : GroupKernel G d} {inv mul act det core Good coreH} (hK : Lawful K inv mul act det)
    (hs : PointwiseSampler K.sampleRn K.kernelSize core) (hl : LocalCore K.kernelSize core)
    (hsH : RowwiseSampler K.sampleH K.gridH K.groupKernelDim Good coreH) (hlH : LocalChannel K.groupKernelDim coreH)
    (hpos : 0 < K.groupKernelDim)
    (weight : Tensor ℝ) (inH outH : Tensor G) (nIn nOut : ℕ)
    (hw : weight.shape = [K.groupKernelDim, K.outC, K.inC / K.groups] ++ K.kernelSize)
    (hin : inH.shape = [nIn]) (hout : outH.shape = [nOut])
    (hgood : ∀ o < nOut, ∀ i < nIn, Good (mul (inv (outH.get [o])) (inH.get [i]))) :
    ∃ out, K.forward weight inH outH = .ok out ∧
      out.shape = [K.outC, nOut, K.inC / K.groups, nIn] ++ K.kernelSize ∧
      ∀ co o ci i x, co < K.outC → o < nOut → ci < K.inC / K.groups → i < nIn → InB K.kernelSize x →
        out.get (co :: o :: ci :: i :: x) =
          maskAt K.mask x *
            core (fun r => coreH (fun k => weight.get (k ::
                (storedChannel K.outC (K.inC / K.groups) co ci).1 ::
                (storedChannel K.outC (K.inC / K.groups) co ci).2 :: r))
              (mul (inv (outH.get [o])) (inH.get [i])))
              (act (inv (outH.get [o])) (K.gridRn.get x)) /
          detAt det (outH.get [o]) := by
  unfold forward
  rw [hin, hout, show [nIn].headD 0 = nIn from rfl, show [nOut].headD 0 = nOut from rfl, hK.inverseH]
  dsimp only
  rw [hK.leftApplyToRn, hK.leftApplyToH]
  set CI := K.inC / K.groups with hCI
  set CO := K.outC with hCO
  set KD := K.groupKernelDim with hKD
  rw [viewInfer_flat (pairwise mul (outH.map inv) inH) nOut nIn (by simp [pairwise, Tensor.map, hout, hin]),
    ok_bind, viewInfer_rows weight KD (CO :: CI :: K.kernelSize) hw hpos, ok_bind]
  obtain ⟨w1, e1, s1, g1⟩ := hsH ⟨[nOut * nIn], fun idx => (pairwise mul (outH.map inv) inH).get
      (unravel [nOut, nIn] (ravel [nOut * nIn] idx))⟩
    ⟨[KD, (CO :: CI :: K.kernelSize).prod], fun idx => weight.get (unravel (KD :: CO :: CI :: K.kernelSize)
      (ravel [KD, (CO :: CI :: K.kernelSize).prod] idx))⟩ (nOut * nIn) _ rfl rfl
    (pair_good hgood)
  rw [e1, ok_bind, view_ok (by rw [s1]; simp; left; ring), ok_bind]
  obtain ⟨w2, e2, s2, g2⟩ := hs ⟨[nOut * nIn, CI * CO] ++ K.kernelSize, fun idx => w1.get (unravel w1.shape
      (ravel ([nOut * nIn, CI * CO] ++ K.kernelSize) idx))⟩
    ((pairwise act (outH.map inv) K.gridRn).repeatInterleave0 nIn) (nOut * nIn) (CI * CO) rfl
    (by simp [repeatInterleave0, pairwise, Tensor.map, hout, hK.gridRn])
  rw [e2, ok_bind, view_ok (by rw [s2]; simp [Nat.mul_assoc]), ok_bind]
  set t3 : Tensor ℝ := ⟨[nOut, nIn, CI, CO] ++ K.kernelSize, fun idx => w2.get (unravel w2.shape
      (ravel ([nOut, nIn, CI, CO] ++ K.kernelSize) idx))⟩ with ht3
  have st3 := transpose_shape t3 nOut nIn CI CO K.kernelSize rfl
  obtain ⟨w4, e4, s4, g4⟩ := applyMask_spec hK.mask ((t3.transpose 0 3).transpose 1 3)
    [CO, nOut, CI, nIn] st3
  rw [e4, ok_bind]
  have hlen : weight.shape.length - 2 = K.kernelSize.length + 1 := by rw [hw]; simp
  rw [hlen]
  obtain ⟨w5, e5, s5, g5⟩ := divDet_spec hK.detH w4 outH CO nOut (CI :: nIn :: K.kernelSize)
    (K.kernelSize.length + 1) hout (by rw [s4]; rfl) (by simp)
  refine ⟨w5, e5, s5, ?_⟩
  intro co o ci i x hco ho hci hi hx
  rw [g5 co o (ci :: i :: x) hco ho (by simp [hci, hi, hx])]
  have h4 := g4 [co, o, ci, i] x (by simp [hco, ho, hci, hi]) hx
  simp only [List.cons_append, List.nil_append] at h4
  rw [h4, transpose_get]
  congr 2
  have hv := view_suffix (t := w2) (A := [nOut * nIn, CI * CO]) (B := [nOut, nIn, CI, CO])
    (s := K.kernelSize) (b := [o, i, ci, co]) (x := x) s2 (by simp [Nat.mul_assoc])
    (by simp [hco, ho, hci, hi]) hx
  simp only [List.cons_append, List.nil_append] at hv
  rw [ht3]
  dsimp only
  simp only [List.cons_append, List.nil_append]
  rw [hv]
  have hch : ci * CO + co < CI * CO := flat_row hci hco
  have hrow : o * nIn + i < nOut * nIn := flat_row ho hi
  have hidx : unravel [nOut * nIn, CI * CO] (ravel [nOut, nIn, CI, CO] [o, i, ci, co]) =
      [o * nIn + i, ci * CO + co] := by
    have := unravel_ravel (s := [nOut * nIn, CI * CO]) (idx := [o * nIn + i, ci * CO + co])
      (by simp [hrow, hch])
    rw [← this]
    congr 1
    simp [ravel]; ring
  rw [hidx, show [o * nIn + i, ci * CO + co] ++ x = (o * nIn + i) :: (ci * CO + co) :: x from rfl,
    g2 _ hrow _ hch x hx]
  have hgrid : ((pairwise act (outH.map inv) K.gridRn).repeatInterleave0 nIn).get ((o * nIn + i) :: x) =
      act (inv (outH.get [o])) (K.gridRn.get x) := by
    simp only [repeatInterleave0, pairwise, Tensor.map, div_row hi]
  rw [hgrid]
  apply hl
  intro r hr
  dsimp only
  -- the group-sampled channel
  have hPlt : (ci * CO + co) * K.kernelSize.prod + ravel K.kernelSize r < (CO :: CI :: K.kernelSize).prod := by
    have := flat_row hch (ravel_lt hr)
    calc _ < CI * CO * K.kernelSize.prod := this
      _ = _ := by simp; ring
  have hflat : unravel w1.shape (ravel ([nOut * nIn, CI * CO] ++ K.kernelSize)
      ((o * nIn + i) :: (ci * CO + co) :: r)) =
      [o * nIn + i, (ci * CO + co) * K.kernelSize.prod + ravel K.kernelSize r] := by
    rw [s1]
    have := unravel_ravel (s := [nOut * nIn, (CO :: CI :: K.kernelSize).prod])
      (idx := [o * nIn + i, (ci * CO + co) * K.kernelSize.prod + ravel K.kernelSize r])
      (by simp only [InB_cons, InB_nil_nil, and_true]; exact ⟨hrow, hPlt⟩)
    rw [← this]
    congr 1
    simp only [ravel, List.prod_cons, List.prod_nil, List.cons_append, List.nil_append]; ring
  rw [hflat, g1 _ hrow _ hPlt]
  have hq : (pairwise mul (outH.map inv) inH).get (unravel [nOut, nIn] (ravel [nOut * nIn] [o * nIn + i])) =
      mul (inv (outH.get [o])) (inH.get [i]) := by
    have : ravel [nOut * nIn] [o * nIn + i] = o * nIn + i := by simp [ravel]
    rw [this, unravel_two ho hi]
    rfl
  rw [hq]
  apply hlH
  intro k hk
  exact reshape_get weight k CO CI (ci * CO + co) KD K.kernelSize r hk (by rw [Nat.mul_comm CO CI]; exact hch) hr

/-! ## C52 -/

/-- The group weights for any grid sizes: the returned tensor has shape
`(out_channels, |in_H|, in_channels/groups, |out_H|, ...)` and entry `(co, b, ci, e)` is the weight sampled
at the pair number `b * |out_H| + e` of the list of all pairs ordered by `out_H` first. -/
theorem subgroupWeights_spec {K : GroupKernel G d} {inv mul act det Good coreH} (hK : Lawful K inv mul act det)
    (hsH : RowwiseSampler K.sampleH K.gridH K.groupKernelDim Good coreH) (hlH : LocalChannel K.groupKernelDim coreH)
    (hpos : 0 < K.groupKernelDim) (dims : List ℕ) (hdims : dims.prod = 1)
    (weightH : Tensor ℝ) (inH outH : Tensor G) (nIn nOut : ℕ)
    (hw : weightH.shape = [K.groupKernelDim, K.outC, K.inC / K.groups])
    (hin : inH.shape = [nIn]) (hout : outH.shape = [nOut])
    (hgood : ∀ o < nOut, ∀ i < nIn, Good (mul (inv (outH.get [o])) (inH.get [i]))) :
    ∃ out, K.subgroupWeights weightH inH outH dims = .ok out ∧
      out.shape = [K.outC, nIn, K.inC / K.groups, nOut] ++ dims ∧
      ∀ co b ci e x, co < K.outC → b < nIn → ci < K.inC / K.groups → e < nOut → InB dims x →
        out.get (co :: b :: ci :: e :: x) =
          coreH (fun k => weightH.get [k, (storedChannel K.outC (K.inC / K.groups) co ci).1,
              (storedChannel K.outC (K.inC / K.groups) co ci).2])
            (mul (inv (outH.get [(b * nOut + e) / nIn])) (inH.get [(b * nOut + e) % nIn])) := by
  unfold subgroupWeights
  rw [hin, hout, show [nIn].headD 0 = nIn from rfl, show [nOut].headD 0 = nOut from rfl, hK.inverseH]
  dsimp only
  rw [hK.leftApplyToH]
  set CI := K.inC / K.groups with hCI
  set CO := K.outC with hCO
  set KD := K.groupKernelDim with hKD
  rw [viewInfer_flat (pairwise mul (outH.map inv) inH) nOut nIn (by simp [pairwise, Tensor.map, hout, hin]),
    ok_bind, viewInfer_rows weightH KD (CO :: CI :: []) hw hpos, ok_bind]
  obtain ⟨w1, e1, s1, g1⟩ := hsH ⟨[nOut * nIn], fun idx => (pairwise mul (outH.map inv) inH).get
      (unravel [nOut, nIn] (ravel [nOut * nIn] idx))⟩
    ⟨[KD, (CO :: CI :: []).prod], fun idx => weightH.get (unravel (KD :: CO :: CI :: [])
      (ravel [KD, (CO :: CI :: []).prod] idx))⟩ (nOut * nIn) _ rfl rfl
    (pair_good hgood)
  rw [e1, ok_bind, view_ok (by rw [s1]; simp [hdims]; ring), ok_bind]
  set t3 : Tensor ℝ := ⟨[nIn, nOut, CI, CO] ++ dims, fun idx => w1.get (unravel w1.shape
      (ravel ([nIn, nOut, CI, CO] ++ dims) idx))⟩ with ht3
  refine ⟨_, rfl, transpose_shape t3 nIn nOut CI CO dims rfl, ?_⟩
  intro co b ci e x hco hb hci he hx
  rw [transpose_get]
  have hch : ci * CO + co < CI * CO := flat_row hci hco
  have hch' : ci * CO + co < (CO :: CI :: []).prod := by simpa [Nat.mul_comm] using hch
  have hrow : b * nOut + e < nOut * nIn := by rw [Nat.mul_comm nOut]; exact flat_row hb he
  have hx0 : ravel dims x = 0 := by have := ravel_lt hx; omega
  have hnIn : 0 < nIn := by omega
  have hget : t3.get (b :: e :: ci :: co :: x) = w1.get [b * nOut + e, ci * CO + co] := by
    rw [ht3]; dsimp only
    congr 1
    rw [s1]
    have := unravel_ravel (s := [nOut * nIn, (CO :: CI :: []).prod]) (idx := [b * nOut + e, ci * CO + co])
      (by simp only [InB_cons, InB_nil_nil, and_true]; exact ⟨hrow, hch'⟩)
    rw [← this]
    congr 1
    simp [ravel, hx0, hdims]; ring
  rw [hget, g1 _ hrow _ hch']
  have hq : (pairwise mul (outH.map inv) inH).get (unravel [nOut, nIn] (ravel [nOut * nIn] [b * nOut + e])) =
      mul (inv (outH.get [(b * nOut + e) / nIn])) (inH.get [(b * nOut + e) % nIn]) := by
    have : ravel [nOut * nIn] [b * nOut + e] = b * nOut + e := by simp [ravel]
    rw [this]
    simp [unravel, pairwise, Tensor.map]
  rw [hq]
  apply hlH
  intro k hk
  have := reshape_get weightH k CO CI (ci * CO + co) KD [] [] hk (by rw [Nat.mul_comm CO CI]; exact hch) InB_nil_nil
  simpa [ravel, storedChannel] using this

/-- With as many input as output group elements the subgroup weights pair `out_H[o]^-1 in_H[i]`. -/
theorem C52_subgroup_partial {K : GroupKernel G d} {inv mul act det Good coreH} (hK : Lawful K inv mul act det)
    (hsH : RowwiseSampler K.sampleH K.gridH K.groupKernelDim Good coreH) (hlH : LocalChannel K.groupKernelDim coreH)
    (hpos : 0 < K.groupKernelDim) (hks : K.kernelSize.prod = 1)
    (weight : Tensor ℝ) (inH outH : Tensor G) (n : ℕ)
    (hw : weight.shape = [K.groupKernelDim, K.outC, K.inC / K.groups])
    (hin : inH.shape = [n]) (hout : outH.shape = [n])
    (hgood : ∀ o < n, ∀ i < n, Good (mul (inv (outH.get [o])) (inH.get [i]))) :
    ∃ out, K.subgroupForward weight inH outH = .ok out ∧
      out.shape = [K.outC, n, K.inC / K.groups, n] ++ K.kernelSize ∧
      ∀ co o ci i x, co < K.outC → o < n → ci < K.inC / K.groups → i < n → InB K.kernelSize x →
        out.get (co :: o :: ci :: i :: x) =
          coreH (fun k => weight.get [k, (storedChannel K.outC (K.inC / K.groups) co ci).1,
              (storedChannel K.outC (K.inC / K.groups) co ci).2])
            (mul (inv (outH.get [o])) (inH.get [i])) := by
  obtain ⟨out, h1, h2, h3⟩ := subgroupWeights_spec hK hsH hlH hpos K.kernelSize hks weight inH outH n n hw hin hout hgood
  refine ⟨out, h1, h2, ?_⟩
  intro co o ci i x hco ho hci hi hx
  rw [h3 co o ci i x hco ho hci hi hx, div_row hi, mod_row hi]

/-- `GSeparableKernel.forward` with as many input as output group elements: group weights as above and
spatial weights `mask * [weight(co) sampled at out_H[o]^-1 grid] / det(out_H[o])`. -/
theorem C52_separable_partial {K : GroupKernel G d} {inv mul act det core Good coreH} (hK : Lawful K inv mul act det)
    (hs : PointwiseSampler K.sampleRn K.kernelSize core)
    (hsH : RowwiseSampler K.sampleH K.gridH K.groupKernelDim Good coreH) (hlH : LocalChannel K.groupKernelDim coreH)
    (hpos : 0 < K.groupKernelDim)
    (weightH weight : Tensor ℝ) (inH outH : Tensor G) (n : ℕ)
    (hwH : weightH.shape = [K.groupKernelDim, K.outC, K.inC / K.groups])
    (hw : weight.shape = [K.outC, 1] ++ K.kernelSize)
    (hin : inH.shape = [n]) (hout : outH.shape = [n])
    (hgood : ∀ o < n, ∀ i < n, Good (mul (inv (outH.get [o])) (inH.get [i]))) :
    ∃ wH w, K.separableForward weightH weight inH outH = .ok (wH, w) ∧
      wH.shape = [K.outC, n, K.inC / K.groups, n] ++ List.replicate K.kernelSize.length 1 ∧
      w.shape = [K.outC, n, 1] ++ K.kernelSize ∧
      (∀ co o ci i, co < K.outC → o < n → ci < K.inC / K.groups → i < n →
        wH.get (co :: o :: ci :: i :: List.replicate K.kernelSize.length 0) =
          coreH (fun k => weightH.get [k, (storedChannel K.outC (K.inC / K.groups) co ci).1,
              (storedChannel K.outC (K.inC / K.groups) co ci).2])
            (mul (inv (outH.get [o])) (inH.get [i]))) ∧
      (∀ co o x, co < K.outC → o < n → InB K.kernelSize x →
        w.get (co :: o :: 0 :: x) =
          maskAt K.mask x *
            core (fun r => weight.get (co :: 0 :: r)) (act (inv (outH.get [o])) (K.gridRn.get x)) /
          detAt det (outH.get [o])) := by
  have hones : ∀ m : ℕ, (List.replicate m 1).prod = 1 := by intro m; simp
  obtain ⟨wH, h1, h2, h3⟩ := subgroupWeights_spec hK hsH hlH hpos (List.replicate K.kernelSize.length 1)
    (hones _) weightH inH outH n n hwH hin hout hgood
  unfold separableForward
  rw [h1]
  rw [hout, show [n].headD 0 = n from rfl, hK.inverseH]
  dsimp only
  rw [hK.leftApplyToRn, ok_bind]
  obtain ⟨w1, e1, s1, g1⟩ := hs (weight.repeatInterleave0 n)
    ((pairwise act (outH.map inv) K.gridRn).repeat0 K.outC) (K.outC * n) 1
    (by simp [repeatInterleave0, hw]) (by simp [repeat0, pairwise, hK.gridRn, Tensor.map, hout])
  rw [e1, ok_bind, view_ok (by rw [s1]; simp [Nat.mul_assoc]), ok_bind]
  obtain ⟨w2, e2, s2, g2⟩ := applyMask_spec hK.mask ⟨[K.outC, n, 1] ++ K.kernelSize,
    fun idx => w1.get (unravel w1.shape (ravel ([K.outC, n, 1] ++ K.kernelSize) idx))⟩
    [K.outC, n, 1] rfl
  rw [e2, ok_bind]
  obtain ⟨w3, e3, s3, g3⟩ := divDet_spec hK.detH w2 outH K.outC n (1 :: K.kernelSize)
    K.kernelSize.length hout (by rw [s2]; rfl) (by simp)
  rw [e3, ok_bind]
  refine ⟨wH, w3, rfl, h2, s3, ?_, ?_⟩
  · intro co o ci i hco ho hci hi
    have hz : ∀ m : ℕ, InB (List.replicate m 1) (List.replicate m 0) := by
      intro m; induction m with
      | zero => exact InB_nil_nil
      | succ m ih => simp [List.replicate_succ, ih]
    rw [h3 co o ci i _ hco ho hci hi (hz _), div_row hi, mod_row hi]
  · intro co h x hco hh hx
    rw [g3 co h (0 :: x) hco hh (by simp [hx])]
    have h2 := g2 [co, h, 0] x (by simp [hco, hh]) hx
    simp only [List.cons_append, List.nil_append] at h2
    rw [h2]
    congr 2
    have hv := view_suffix (t := w1) (A := [K.outC * n, 1]) (B := [K.outC, n, 1])
      (s := K.kernelSize) (b := [co, h, 0]) (x := x) s1 (by simp) (by simp [hco, hh]) hx
    simp only [List.cons_append, List.nil_append] at hv
    rw [hv]
    have hrow : co * n + h < K.outC * n := flat_row hco hh
    have hidx : unravel [K.outC * n, 1] (ravel [K.outC, n, 1] [co, h, 0]) = [co * n + h, 0] := by
      have := unravel_ravel (s := [K.outC * n, 1]) (idx := [co * n + h, 0]) (by simp [hrow])
      rw [← this]
      congr 1
      simp [ravel]
    rw [hidx]
    rw [show [co * n + h, 0] ++ x = (co * n + h) :: 0 :: x from rfl, g1 _ hrow _ (by norm_num) x hx]
    simp only [repeatInterleave0, repeat0, pairwise, Tensor.map, hout, List.headD_cons, div_row hh, mod_row hh]

/-- For different numbers of input and output group elements the shape is already wrong: the axes of
`in_H` and `out_H` are exchanged. -/
theorem C52_violated_shape {K : GroupKernel G d} {inv mul act det Good coreH} (hK : Lawful K inv mul act det)
    (hsH : RowwiseSampler K.sampleH K.gridH K.groupKernelDim Good coreH) (hlH : LocalChannel K.groupKernelDim coreH)
    (hpos : 0 < K.groupKernelDim) (hks : K.kernelSize.prod = 1)
    (weight : Tensor ℝ) (inH outH : Tensor G) (nIn nOut : ℕ) (hne : nIn ≠ nOut)
    (hw : weight.shape = [K.groupKernelDim, K.outC, K.inC / K.groups])
    (hin : inH.shape = [nIn]) (hout : outH.shape = [nOut])
    (hgood : ∀ o < nOut, ∀ i < nIn, Good (mul (inv (outH.get [o])) (inH.get [i]))) :
    ∃ out, K.subgroupForward weight inH outH = .ok out ∧
      out.shape ≠ [K.outC, nOut, K.inC / K.groups, nIn] ++ K.kernelSize ∧
      (∀ co b ci e x, co < K.outC → b < nIn → ci < K.inC / K.groups → e < nOut → InB K.kernelSize x →
        out.get (co :: b :: ci :: e :: x) =
          coreH (fun k => weight.get [k, (storedChannel K.outC (K.inC / K.groups) co ci).1,
              (storedChannel K.outC (K.inC / K.groups) co ci).2])
            (mul (inv (outH.get [(b * nOut + e) / nIn])) (inH.get [(b * nOut + e) % nIn]))) := by
  obtain ⟨out, h1, h2, h3⟩ := subgroupWeights_spec hK hsH hlH hpos K.kernelSize hks weight inH outH nIn nOut hw hin hout hgood
  refine ⟨out, h1, ?_, h3⟩
  rw [h2]
  intro h
  have : nIn = nOut := by simpa using congrArg (fun l => l.getD 1 0) h
  exact hne this

/-! ## C53 -/

/-- Every stored channel pair is read by exactly one entry. -/
theorem C53_bijective (CO CI : ℕ) :
    (∀ co ci, co < CO → ci < CI → (storedChannel CO CI co ci).1 < CO ∧ (storedChannel CO CI co ci).2 < CI) ∧
    (∀ p q, p < CO → q < CI → ∃! e : ℕ × ℕ, (e.1 < CO ∧ e.2 < CI) ∧ storedChannel CO CI e.1 e.2 = (p, q)) := by
  unfold storedChannel
  constructor
  · intro co ci hco hci
    have h := flat_row hci hco
    exact ⟨Nat.div_lt_of_lt_mul h, Nat.mod_lt _ (by omega)⟩
  · intro p q hp hq
    have hflat : p * CI + q < CO * CI := flat_row hp hq
    have hCO : 0 < CO := by omega
    refine ⟨((p * CI + q) % CO, (p * CI + q) / CO), ⟨⟨Nat.mod_lt _ hCO, Nat.div_lt_of_lt_mul hflat⟩, ?_⟩, ?_⟩
    · dsimp only
      rw [Nat.div_add_mod', div_row hq, mod_row hq]
    · rintro ⟨co, ci⟩ ⟨⟨h1, h2⟩, h3⟩
      dsimp only at h1 h2 h3
      have e1 := congrArg Prod.fst h3
      have e2 := congrArg Prod.snd h3
      dsimp only at e1 e2
      have : ci * CO + co = p * CI + q := by
        rw [← Nat.div_add_mod' (ci * CO + co) CI, e1, e2]
      rw [← this, div_row h1, mod_row h1]

/-- Entry `(co, ci)` reads the parameter at `(co, ci)` for all entries only when one of the channel
counts is at most one. -/
theorem C53_not_identity (CO CI : ℕ) (h1 : 2 ≤ CO) (h2 : 2 ≤ CI) :
    ∃ co ci, co < CO ∧ ci < CI ∧ storedChannel CO CI co ci ≠ (co, ci) := by
  refine ⟨1, 0, by omega, by omega, ?_⟩
  unfold storedChannel
  rw [Nat.zero_mul, Nat.zero_add, Nat.div_eq_of_lt (by omega : 1 < CI), Nat.mod_eq_of_lt (by omega : 1 < CI)]
  simp

example : storedChannel 3 2 2 1 = (2, 1) ∧ storedChannel 3 2 1 0 = (0, 1) := by decide

end GConv.GroupKernel

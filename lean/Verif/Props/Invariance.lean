import Verif.Props.Interp

/-! # C41 (left invariance of group sampling) and C42 (sampling modes) -/

namespace GConv

open Real Tensor Spec

/-- Two calls agree: same exception, or tensors of the same shape with the same entries in the first
`K` rows. -/
def SameRows (K : ℕ) (a b : Except PyErr (Tensor ℝ)) : Prop :=
  match a, b with
  | .ok x, .ok y => x.shape = y.shape ∧ ∀ i < K, ∀ c, x.get [i, c] = y.get [i, c]
  | .error e, .error e' => e = e'
  | _, _ => False

theorem SameRows.error_iff {K : ℕ} {a b : Except PyErr (Tensor ℝ)} (h : SameRows K a b) (e : PyErr) :
    a = .error e ↔ b = .error e := by
  unfold SameRows at h
  match a, b, h with
  | .ok x, .ok y, _ => constructor <;> (intro h; cases h)
  | .error e1, .error e2, h => subst h; rfl

theorem SameRows.ok {K : ℕ} {a b : Except PyErr (Tensor ℝ)} (h : SameRows K a b) {x : Tensor ℝ}
    (hx : a = .ok x) : ∃ y, b = .ok y ∧ x.shape = y.shape ∧ ∀ i < K, ∀ c, x.get [i, c] = y.get [i, c] := by
  subst hx
  match b, h with
  | .ok y, h => exact ⟨y, rfl, h.1, h.2⟩

theorem topk1_congr (n : ℕ) (d d' : ℕ → ℝ) (h : ∀ j < n, d j = d' j) :
    Interp.topk1 n d = Interp.topk1 n d' := by
  unfold Interp.topk1
  have : (fun i => i < n ∧ ∀ j < n, d i ≤ d j) = (fun i => i < n ∧ ∀ j < n, d' i ≤ d' j) := by
    funext i
    apply propext
    constructor
    · rintro ⟨hi, hm⟩
      exact ⟨hi, fun j hj => by rw [← h i hi, ← h j hj]; exact hm j hj⟩
    · rintro ⟨hi, hm⟩
      exact ⟨hi, fun j hj => by rw [h i hi, h j hj]; exact hm j hj⟩
  simp only [this]

section
variable {G G' : Type}

theorem interpolateRBF_invariant (dist : G → G → ℝ) (dist' : G' → G' → ℝ) (rbf : ℝ → ℝ → ℝ) (w : ℝ)
    (nodes grid : Tensor G) (nodes' grid' : Tensor G') (signal : Tensor ℝ) (K L : ℕ)
    (hK : nodes.shape = [K]) (hL : grid.shape = [L]) (hK' : nodes'.shape = [K]) (hL' : grid'.shape = [L])
    (hgg : ∀ i < L, ∀ j < L, dist' (grid'.get [i]) (grid'.get [j]) = dist (grid.get [i]) (grid.get [j]))
    (hng : ∀ i < K, ∀ j < L, dist' (nodes'.get [i]) (grid'.get [j]) = dist (nodes.get [i]) (grid.get [j])) :
    SameRows K (Interp.interpolateRBF dist rbf w nodes grid signal)
      (Interp.interpolateRBF dist' rbf w nodes' grid' signal) := by
  obtain ⟨gs, gg⟩ := grid
  obtain ⟨gs', gg'⟩ := grid'
  obtain ⟨ns, ng⟩ := nodes
  obtain ⟨ns', ng'⟩ := nodes'
  simp only at hK hL hK' hL' hgg hng
  subst hK hL hK' hL'
  have hm : Interp.rbfMatrix dist rbf w ⟨[L], gg⟩ = Interp.rbfMatrix dist' rbf w ⟨[L], gg'⟩ := by
    ext i j
    simp only [Interp.rbfMatrix, Matrix.of_apply]
    rw [hgg i.val i.isLt j.val j.isLt]
  unfold Interp.interpolateRBF
  rw [← hm]
  by_cases hc : signal.shape.headD 0 ≠ [L].headD 0 ∨ (Interp.rbfMatrix dist rbf w ⟨[L], gg⟩).det = 0
  · simp only [if_pos hc]; rfl
  · simp only [if_neg hc]
    refine ⟨rfl, fun i hi c => ?_⟩
    dsimp only
    apply Finset.sum_congr rfl
    intro j _
    rw [show [i, c].getD 0 0 = i from rfl, hng i hi j.val j.isLt]

theorem interpolateNN_invariant (dist : G → G → ℝ) (dist' : G' → G' → ℝ)
    (nodes grid : Tensor G) (nodes' grid' : Tensor G') (signal : Tensor ℝ) (K L : ℕ)
    (hK : nodes.shape = [K]) (hL : grid.shape = [L]) (hK' : nodes'.shape = [K]) (hL' : grid'.shape = [L])
    (hng : ∀ i < K, ∀ j < L, dist' (nodes'.get [i]) (grid'.get [j]) = dist (nodes.get [i]) (grid.get [j])) :
    SameRows K (Interp.interpolateNN dist nodes grid signal)
      (Interp.interpolateNN dist' nodes' grid' signal) := by
  have hidx : ∀ i < K, Interp.nnIdx dist nodes grid i = Interp.nnIdx dist' nodes' grid' i := by
    intro i hi
    unfold Interp.nnIdx
    rw [hL, hL']
    exact topk1_congr L (fun j => dist (nodes.get [i]) (grid.get [j]))
      (fun j => dist' (nodes'.get [i]) (grid'.get [j])) (fun j hj => (hng i hi j hj).symm)
  have hcond : (grid.shape.headD 0 = 0 ∨ (signal.shape.getD 1 0 ≠ 0 ∧
      ∃ i < nodes.shape.headD 0, signal.shape.headD 0 ≤ Interp.nnIdx dist nodes grid i)) ↔
      (grid'.shape.headD 0 = 0 ∨ (signal.shape.getD 1 0 ≠ 0 ∧
      ∃ i < nodes'.shape.headD 0, signal.shape.headD 0 ≤ Interp.nnIdx dist' nodes' grid' i)) := by
    rw [hK, hK', hL, hL']
    refine or_congr Iff.rfl (and_congr Iff.rfl (exists_congr fun i => and_congr_right fun hi => ?_))
    rw [hidx i hi]
  unfold Interp.interpolateNN
  by_cases hc : (grid.shape.headD 0 = 0 ∨ (signal.shape.getD 1 0 ≠ 0 ∧
      ∃ i < nodes.shape.headD 0, signal.shape.headD 0 ≤ Interp.nnIdx dist nodes grid i))
  · simp only [if_pos hc, if_pos (hcond.1 hc)]; rfl
  · simp only [if_neg hc, if_neg (fun h => hc (hcond.2 h))]
    refine ⟨by simp only [hK, hK'], fun i hi c => ?_⟩
    show signal.get [Interp.nnIdx dist nodes grid i, c] = signal.get [Interp.nnIdx dist' nodes' grid' i, c]
    rw [hidx i hi]

end

/-! ## C41 -/

namespace SO2

theorem C41_so2 (g : ℝ) (grid signal sg : Tensor ℝ) (mode : String) (w : ℝ) (K L : ℕ)
    (hK : grid.shape = [K]) (hL : sg.shape = [L]) :
    SameRows K (gridSample grid signal sg mode w)
      (gridSample (grid.map (leftApplyAngle g)) signal (sg.map (leftApplyAngle g)) mode w) := by
  unfold gridSample
  by_cases h1 : mode = "rbf"
  · rw [if_pos h1, if_pos h1]
    apply interpolateRBF_invariant (K := K) (L := L) <;> try assumption
    · intro i _ j _; exact C06_invariant g _ _ _
    · intro i _ j _; exact C06_invariant g _ _ _
  · rw [if_neg h1, if_neg h1]
    by_cases h2 : mode = "nearest"
    · rw [if_pos h2, if_pos h2]
      apply interpolateNN_invariant (K := K) (L := L) <;> try assumption
      intro i _ j _; exact C06_invariant g _ _ _
    · rw [if_neg h2, if_neg h2]; rfl

/-! ## C42 -/

theorem C42_so2 (grid signal sg : Tensor ℝ) (mode : String) (w : ℝ) :
    (mode ≠ "rbf" → mode ≠ "nearest" → gridSample grid signal sg mode w = .error .valueError) ∧
    ((mode = "rbf" ∨ mode = "nearest") → gridSample grid signal sg mode w ≠ .error .valueError) := by
  unfold gridSample
  constructor
  · intro h1 h2; rw [if_neg h1, if_neg h2]
  · rintro (h | h)
    · rw [if_pos h]
      unfold Interp.interpolateRBF
      by_cases hc : signal.shape.headD 0 ≠ sg.shape.headD 0 ∨
        (Interp.rbfMatrix (fun a b => geodesicDistance a b defaultEps) Interp.RBFgauss w sg).det = 0
      · simp only [if_pos hc]; intro h; cases h
      · simp only [if_neg hc]; intro h; cases h
    · rw [if_neg (by rw [h]; decide), if_pos h]
      unfold Interp.interpolateNN
      split <;> intro h <;> cases h

/-! ## C39, C40 for so2.grid_sample -/

/-- mode "rbf": a query angle equal to grid element `k` returns the signal of element `k`. -/
theorem C39_so2 (grid signal sg out : Tensor ℝ) (w : ℝ) (L : ℕ) (hL : sg.shape = [L])
    (h : gridSample grid signal sg "rbf" w = .ok out)
    (q k : ℕ) (hk : k < L) (hq : grid.get [q] = sg.get [k]) (c : ℕ) :
    out.get [q, c] = signal.get [k, c] := by
  unfold gridSample at h
  rw [if_pos rfl] at h
  exact Interp.C39_reproduces _ _ _ _ _ _ _ L hL h q k hk hq c

/-- mode "rbf", at every query: the value is the Gaussian expansion with the coefficients that solve the
interpolation conditions on the signal grid. -/
theorem C39_so2_value (grid signal sg : Tensor ℝ) (w : ℝ) (K L S : ℕ) (hK : grid.shape = [K])
    (hL : sg.shape = [L]) (hS : signal.shape = [L, S]) (coeff : Fin L → ℕ → ℝ)
    (hc : ∀ (k : Fin L) (c : ℕ), ∑ j : Fin L, Interp.RBFgauss
      (geodesicDistance (sg.get [k.val]) (sg.get [j.val]) defaultEps) w * coeff j c = signal.get [k.val, c])
    (hdet : (Matrix.of fun i j : Fin L => Interp.RBFgauss
      (geodesicDistance (sg.get [i.val]) (sg.get [j.val]) defaultEps) w).det ≠ 0) :
    ∃ out, gridSample grid signal sg "rbf" w = .ok out ∧ out.shape = [K, S] ∧
      ∀ q < K, ∀ c, out.get [q, c] = ∑ j : Fin L, Interp.RBFgauss
        (geodesicDistance (grid.get [q]) (sg.get [j.val]) defaultEps) w * coeff j c := by
  unfold gridSample
  rw [if_pos rfl]
  exact Interp.C39_value _ _ _ _ _ _ K L S hK hL hS coeff hc hdet

/-- mode "nearest": every query returns the signal of a grid element at minimal geodesic distance. -/
theorem C40_so2 (grid signal sg : Tensor ℝ) (w : ℝ) (K L S : ℕ) (hK : grid.shape = [K])
    (hL : sg.shape = [L]) (hS : signal.shape = [L, S]) (h0 : L ≠ 0) :
    ∃ out, gridSample grid signal sg "nearest" w = .ok out ∧ out.shape = [K, S] ∧
      ∀ q < K, ∃ k < L, (∀ j < L, geodesicDistance (grid.get [q]) (sg.get [k]) defaultEps ≤
          geodesicDistance (grid.get [q]) (sg.get [j]) defaultEps) ∧
        ∀ c, out.get [q, c] = signal.get [k, c] := by
  unfold gridSample
  rw [if_neg (by decide), if_pos rfl]
  obtain ⟨out, h1, h2, h3⟩ := Interp.C40_nearest _ grid sg signal K L S hK hL hS h0
  refine ⟨out, h1, h2, fun q hq => ?_⟩
  obtain ⟨k, hk, a, b, -⟩ := h3 q hq
  exact ⟨k, hk, a, b⟩

end SO2

namespace SO3

/-! ## C39, C40 for so3.grid_sample (matrix grids) -/

theorem C39_so3 (grid : Tensor Mat3) (signal : Tensor ℝ) (sg : Tensor Mat3) (out : Tensor ℝ) (w : ℝ)
    (L : ℕ) (hL : sg.shape = [L]) (h : gridSample grid signal sg "rbf" w = .ok out)
    (q k : ℕ) (hk : k < L) (hq : grid.get [q] = sg.get [k]) (c : ℕ) :
    out.get [q, c] = signal.get [k, c] := by
  unfold gridSample gridSampleQuat at h
  rw [if_neg (by decide), if_pos rfl] at h
  exact Interp.C39_reproduces _ _ _ (grid.map matrixToQuat) (sg.map matrixToQuat) _ _ L hL h q k hk
    (congrArg matrixToQuat hq) c

theorem C39_so3_value (grid : Tensor Mat3) (signal : Tensor ℝ) (sg : Tensor Mat3) (w : ℝ) (K L S : ℕ)
    (hK : grid.shape = [K]) (hL : sg.shape = [L]) (hS : signal.shape = [L, S]) (coeff : Fin L → ℕ → ℝ)
    (hc : ∀ (k : Fin L) (c : ℕ), ∑ j : Fin L, Interp.RBFgauss (geodesicDistance
      (matrixToQuat (sg.get [k.val])) (matrixToQuat (sg.get [j.val])) defaultEps) w * coeff j c =
        signal.get [k.val, c])
    (hdet : (Matrix.of fun i j : Fin L => Interp.RBFgauss (geodesicDistance
      (matrixToQuat (sg.get [i.val])) (matrixToQuat (sg.get [j.val])) defaultEps) w).det ≠ 0) :
    ∃ out, gridSample grid signal sg "rbf" w = .ok out ∧ out.shape = [K, S] ∧
      ∀ q < K, ∀ c, out.get [q, c] = ∑ j : Fin L, Interp.RBFgauss (geodesicDistance
        (matrixToQuat (grid.get [q])) (matrixToQuat (sg.get [j.val])) defaultEps) w * coeff j c := by
  unfold gridSample gridSampleQuat
  rw [if_neg (by decide), if_pos rfl]
  exact Interp.C39_value _ _ _ (grid.map matrixToQuat) (sg.map matrixToQuat) _ K L S hK hL hS coeff hc hdet

theorem C40_so3 (grid : Tensor Mat3) (signal : Tensor ℝ) (sg : Tensor Mat3) (w : ℝ) (K L S : ℕ)
    (hK : grid.shape = [K]) (hL : sg.shape = [L]) (hS : signal.shape = [L, S]) (h0 : L ≠ 0) :
    ∃ out, gridSample grid signal sg "nearest" w = .ok out ∧ out.shape = [K, S] ∧
      ∀ q < K, ∃ k < L, (∀ j < L,
          geodesicDistance (matrixToQuat (grid.get [q])) (matrixToQuat (sg.get [k])) defaultEps ≤
          geodesicDistance (matrixToQuat (grid.get [q])) (matrixToQuat (sg.get [j])) defaultEps) ∧
        ∀ c, out.get [q, c] = signal.get [k, c] := by
  unfold gridSample gridSampleQuat
  rw [if_pos rfl]
  obtain ⟨out, h1, h2, h3⟩ := Interp.C40_nearest _ (grid.map matrixToQuat) (sg.map matrixToQuat)
    signal K L S hK hL hS h0
  refine ⟨out, h1, h2, fun q hq => ?_⟩
  obtain ⟨k, hk, a, b, -⟩ := h3 q hq
  exact ⟨k, hk, a, b⟩

theorem matrixToQuat_mul (g R : Mat3) (hg : IsRotation g) (hR : IsRotation R) :
    ∃ s : ℝ, (s = 1 ∨ s = -1) ∧
      matrixToQuat (g * R) = s • hmul (matrixToQuat g) (matrixToQuat R) := by
  obtain ⟨u1, e1⟩ := C16_unit_and_inverse g hg
  obtain ⟨u2, e2⟩ := C16_unit_and_inverse R hR
  have hgR := (C27_closed g R hg hR).1
  obtain ⟨u3, e3⟩ := C16_unit_and_inverse (g * R) hgR
  have hp : quatToMatrix (hmul (matrixToQuat g) (matrixToQuat R)) = g * R := by
    rw [C15_product, e1, e2]
  have hu : IsUnitQuat (hmul (matrixToQuat g) (matrixToQuat R)) := by
    unfold IsUnitQuat
    rw [dot_hmul_left, show dot (matrixToQuat g) (matrixToQuat g) = 1 from u1, one_mul]; exact u2
  rcases (C15_double_cover _ _ u3 hu).1 (e3.trans hp.symm) with h | h
  · exact ⟨1, Or.inl rfl, by rw [h, one_smul]⟩
  · exact ⟨-1, Or.inr rfl, by rw [h]; ext i; simp⟩

theorem geodesic_smul (p q : Quat) (s t eps : ℝ) (hs : s = 1 ∨ s = -1) (ht : t = 1 ∨ t = -1) :
    geodesicDistance (s • p) (t • q) eps = geodesicDistance p q eps := by
  have e : |∑ i, (s • p) i * (t • q) i| = |∑ i, p i * q i| := by
    have : ∑ i, (s • p) i * (t • q) i = (s * t) * ∑ i, p i * q i := by
      rw [Finset.mul_sum]; apply Finset.sum_congr rfl; intro i _; simp; ring
    rw [this, abs_mul]
    rcases hs with rfl | rfl <;> rcases ht with rfl | rfl <;> simp
  unfold geodesicDistance
  rw [e]

theorem matrix_distance_invariant (g A B : Mat3) (hg : IsRotation g) (hA : IsRotation A)
    (hB : IsRotation B) (eps : ℝ) :
    geodesicDistance (matrixToQuat (g * A)) (matrixToQuat (g * B)) eps =
      geodesicDistance (matrixToQuat A) (matrixToQuat B) eps := by
  obtain ⟨s, hs, e1⟩ := matrixToQuat_mul g A hg hA
  obtain ⟨t, ht, e2⟩ := matrixToQuat_mul g B hg hB
  rw [e1, e2, geodesic_smul _ _ _ _ _ hs ht]
  exact (C25_invariant _ _ _ (C16_unit_and_inverse g hg).1 eps).1

theorem C41_so3 (g : Mat3) (hg : IsRotation g) (grid : Tensor Mat3) (signal : Tensor ℝ)
    (sg : Tensor Mat3) (mode : String) (w : ℝ) (K L : ℕ)
    (hK : grid.shape = [K]) (hL : sg.shape = [L])
    (hgr : ∀ i < K, IsRotation (grid.get [i])) (hsg : ∀ i < L, IsRotation (sg.get [i])) :
    SameRows K (gridSample grid signal sg mode w)
      (gridSample (grid.map (leftApplyMatrix g)) signal (sg.map (leftApplyMatrix g)) mode w) := by
  unfold gridSample gridSampleQuat
  by_cases h1 : mode = "nearest"
  · rw [if_pos h1, if_pos h1]
    apply interpolateNN_invariant (K := K) (L := L) <;> try assumption
    intro i hi j hj
    exact matrix_distance_invariant g _ _ hg (hgr i hi) (hsg j hj) _
  · rw [if_neg h1, if_neg h1]
    by_cases h2 : mode = "rbf"
    · rw [if_pos h2, if_pos h2]
      apply interpolateRBF_invariant (K := K) (L := L) <;> try assumption
      · intro i hi j hj
        exact matrix_distance_invariant g _ _ hg (hsg i hi) (hsg j hj) _
      · intro i hi j hj
        exact matrix_distance_invariant g _ _ hg (hgr i hi) (hsg j hj) _
    · rw [if_neg h2, if_neg h2]; rfl

theorem C42_so3 (grid : Tensor Mat3) (signal : Tensor ℝ) (sg : Tensor Mat3) (mode : String) (w : ℝ) :
    (mode ≠ "rbf" → mode ≠ "nearest" → gridSample grid signal sg mode w = .error .valueError) ∧
    ((mode = "rbf" ∨ mode = "nearest") → gridSample grid signal sg mode w ≠ .error .valueError) := by
  unfold gridSample gridSampleQuat
  constructor
  · intro h1 h2; rw [if_neg h2, if_neg h1]
  · rintro (h | h)
    · rw [if_neg (by rw [h]; decide), if_pos h]
      unfold Interp.interpolateRBF
      by_cases hc : signal.shape.headD 0 ≠ (sg.map matrixToQuat).shape.headD 0 ∨
        (Interp.rbfMatrix (fun a b => geodesicDistance a b defaultEps) Interp.RBFgauss w
          (sg.map matrixToQuat)).det = 0
      · simp only [if_pos hc]; intro h; cases h
      · simp only [if_neg hc]; intro h; cases h
    · rw [if_pos h]
      unfold Interp.interpolateNN
      split <;> intro h <;> cases h

end SO3

/-! ## C41 for O(2), O(3): generic coset argument -/

section
variable {G Q : Type} {coef : G → ℝ} {rot : G → Q}
  {samp : ℝ → Tensor Q → Tensor ℝ → Tensor Q → Except PyErr (Tensor ℝ)}

/-- If the rotation sampler is invariant under `a` on `Good` grids and `b` acts on elements by keeping
the coefficient and acting by `a` on the rotation part, the coset sampler is invariant under `b`. -/
theorem cosetSample_invariant_ok (hs : RowSampler samp) (a : Q → Q) (b : G → G) (Good : Q → Prop)
    (hinv : ∀ w (g : Tensor Q) s (sg : Tensor Q) K L, g.shape = [K] → sg.shape = [L] →
      (∀ i < K, Good (g.get [i])) → (∀ i < L, Good (sg.get [i])) →
      SameRows K (samp w g s sg) (samp w (g.map a) s (sg.map a)))
    (hcoefb : ∀ x, coef (b x) = coef x) (hrotb : ∀ x, rot (b x) = a (rot x))
    (grid : Tensor G) (n S nRot nRef : ℕ) (signal : Tensor ℝ) (sg : Tensor G) (wr wf : ℝ)
    (hg : grid.shape = [n]) (hsig : signal.shape = [nRot + nRef, S]) (hsg : sg.shape = [nRot + nRef])
    (hcoef : ∀ i < n, coef (grid.get [i]) = 1 ∨ coef (grid.get [i]) = -1)
    (hgood : ∀ i < n, Good (rot (grid.get [i]))) (hgoods : ∀ i < nRot + nRef, Good (rot (sg.get [i])))
    (okR : nRot ≠ 0 → ∃ q o, samp wr q (signal.slice0 0 nRot) ((sg.slice0 0 nRot).map rot) = .ok o)
    (okF : nRef ≠ 0 → ∃ q o, samp wf q (signal.drop0 nRot) ((sg.drop0 nRot).map rot) = .ok o) :
    SameRows n (cosetSample coef rot samp grid signal sg nRot nRef wr wf)
      (cosetSample coef rot samp (grid.map b) signal (sg.map b) nRot nRef wr wf) := by
  have hle : sg.shape.headD 0 ≤ signal.shape.headD 0 := by rw [hsig, hsg]; rfl
  have e1 : ((sg.map b).slice0 0 nRot).map rot = ((sg.slice0 0 nRot).map rot).map a := by
    simp only [Tensor.map, slice0, Tensor.mk.injEq, true_and]
    funext idx; cases idx <;> simp only [hrotb]
  have e2 : ((sg.map b).drop0 nRot).map rot = ((sg.drop0 nRot).map rot).map a := by
    simp only [Tensor.map, drop0, slice0, Tensor.mk.injEq, true_and]
    funext idx; cases idx <;> simp only [hrotb]
  have g1 : ∀ i < nRot, Good (((sg.slice0 0 nRot).map rot).get [i]) := by
    intro i hi
    have := hgoods i (by omega)
    simpa [Tensor.map, slice0] using this
  have g2 : ∀ i < nRef, Good (((sg.drop0 nRot).map rot).get [i]) := by
    intro i hi
    have := hgoods (nRot + i) (by omega)
    simpa [Tensor.map, drop0, slice0] using this
  have s1 : ((sg.slice0 0 nRot).map rot).shape = [nRot] := by simp [Tensor.map, slice0, hsg]
  have s2 : ((sg.drop0 nRot).map rot).shape = [nRef] := by simp [Tensor.map, drop0, slice0, hsg]
  -- single-query samples agree
  have rowR : ∀ x : Q, Good x → SameRows 1
      (samp wr ⟨[1], fun _ => x⟩ (signal.slice0 0 nRot) ((sg.slice0 0 nRot).map rot))
      (samp wr ⟨[1], fun _ => a x⟩ (signal.slice0 0 nRot) (((sg.slice0 0 nRot).map rot).map a)) :=
    fun x hx => hinv wr ⟨[1], fun _ => x⟩ _ _ 1 nRot rfl s1 (fun _ _ => hx) g1
  have rowF : ∀ x : Q, Good x → SameRows 1
      (samp wf ⟨[1], fun _ => x⟩ (signal.drop0 nRot) ((sg.drop0 nRot).map rot))
      (samp wf ⟨[1], fun _ => a x⟩ (signal.drop0 nRot) (((sg.drop0 nRot).map rot).map a)) :=
    fun x hx => hinv wf ⟨[1], fun _ => x⟩ _ _ 1 nRef rfl s2 (fun _ _ => hx) g2
  have emptyR : SameRows 0
      (samp wr ⟨[0], fun _ => rot (grid.get [])⟩ (signal.slice0 0 nRot) ((sg.slice0 0 nRot).map rot))
      (samp wr ⟨[0], fun _ => a (rot (grid.get []))⟩ (signal.slice0 0 nRot)
        (((sg.slice0 0 nRot).map rot).map a)) :=
    hinv wr ⟨[0], fun _ => rot (grid.get [])⟩ _ _ 0 nRot rfl s1 (fun i hi => by omega) g1
  have emptyF : SameRows 0
      (samp wf ⟨[0], fun _ => rot (grid.get [])⟩ (signal.drop0 nRot) ((sg.drop0 nRot).map rot))
      (samp wf ⟨[0], fun _ => a (rot (grid.get []))⟩ (signal.drop0 nRot)
        (((sg.drop0 nRot).map rot).map a)) :=
    hinv wf ⟨[0], fun _ => rot (grid.get [])⟩ _ _ 0 nRef rfl s2 (fun i hi => by omega) g2
  have okR' : nRot ≠ 0 → ∃ q o, samp wr q (signal.slice0 0 nRot)
      (((sg.map b).slice0 0 nRot).map rot) = .ok o := by
    intro h
    obtain ⟨q, o, ho⟩ := okR h
    obtain ⟨o', ho'⟩ := hs.total (half_le signal sg rot nRot hle).1 ho ⟨[0], fun _ => rot (grid.get [])⟩
    obtain ⟨y, hy, -⟩ := emptyR.ok ho'
    rw [e1]; exact ⟨_, y, hy⟩
  have okF' : nRef ≠ 0 → ∃ q o, samp wf q (signal.drop0 nRot)
      (((sg.map b).drop0 nRot).map rot) = .ok o := by
    intro h
    obtain ⟨q, o, ho⟩ := okF h
    obtain ⟨o', ho'⟩ := hs.total (half_le signal sg rot nRot hle).2 ho ⟨[0], fun _ => rot (grid.get [])⟩
    obtain ⟨y, hy, -⟩ := emptyF.ok ho'
    rw [e2]; exact ⟨_, y, hy⟩
  have sp := cosetSample_spec (coef := coef) (rot := rot) hs grid n S nRot nRef signal sg wr wf hg hsig
    hcoef (fun h0 q' _ _ => by obtain ⟨q, o, ho⟩ := okR h0; exact hs.total (half_le signal sg rot nRot hle).1 ho q')
    (fun h0 q' _ _ => by obtain ⟨q, o, ho⟩ := okF h0; exact hs.total (half_le signal sg rot nRot hle).2 ho q')
  have sp' := cosetSample_spec (coef := coef) (rot := rot) hs (grid.map b) n S nRot nRef signal (sg.map b)
    wr wf hg hsig (by intro i hi; simpa only [Tensor.map, hcoefb] using hcoef i hi)
    (fun h0 q' _ _ => by
      obtain ⟨q, o, ho⟩ := okR' h0; exact hs.total (half_le signal (sg.map b) rot nRot hle).1 ho q')
    (fun h0 q' _ _ => by
      obtain ⟨q, o, ho⟩ := okF' h0; exact hs.total (half_le signal (sg.map b) rot nRot hle).2 ho q')
  have hgb : ∀ i, (grid.map b).get [i] = b (grid.get [i]) := fun i => rfl
  simp only [hgb, hcoefb, hrotb, e1, e2] at sp'
  by_cases hc : (nRot = 0 → ∀ i < n, coef (grid.get [i]) ≠ 1) ∧
      (nRef = 0 → ∀ i < n, coef (grid.get [i]) ≠ -1)
  · obtain ⟨o, h1, h2, h3⟩ := sp.1 hc
    obtain ⟨o', h1', h2', h3'⟩ := sp'.1 hc
    rw [h1, h1']
    refine ⟨h2.trans h2'.symm, fun i hi c => ?_⟩
    rcases hcoef i hi with hci | hci
    · obtain ⟨x, hx, hxc⟩ := (h3 i hi).1 hci
      obtain ⟨x', hx', hxc'⟩ := (h3' i hi).1 hci
      obtain ⟨y, hy, -, hyc⟩ := (rowR _ (hgood i hi)).ok hx
      rw [hx'] at hy
      cases hy
      rw [hxc, hxc', hyc 0 (by norm_num)]
    · obtain ⟨x, hx, hxc⟩ := (h3 i hi).2 hci
      obtain ⟨x', hx', hxc'⟩ := (h3' i hi).2 hci
      obtain ⟨y, hy, -, hyc⟩ := (rowF _ (hgood i hi)).ok hx
      rw [hx'] at hy
      cases hy
      rw [hxc, hxc', hyc 0 (by norm_num)]
  · rw [sp.2 hc, sp'.2 hc]; rfl

/-- The same without assuming that the rotation sampler succeeds: errors agree too. -/
theorem cosetSample_invariant (hs : RowSampler samp) (a : Q → Q) (b : G → G) (Good : Q → Prop)
    (hinv : ∀ w (g : Tensor Q) s (sg : Tensor Q) K L, g.shape = [K] → sg.shape = [L] →
      (∀ i < K, Good (g.get [i])) → (∀ i < L, Good (sg.get [i])) →
      SameRows K (samp w g s sg) (samp w (g.map a) s (sg.map a)))
    (hcoefb : ∀ x, coef (b x) = coef x) (hrotb : ∀ x, rot (b x) = a (rot x))
    (grid : Tensor G) (n S nRot nRef : ℕ) (signal : Tensor ℝ) (sg : Tensor G) (wr wf : ℝ)
    (hg : grid.shape = [n]) (hsig : signal.shape = [nRot + nRef, S]) (hsg : sg.shape = [nRot + nRef])
    (hcoef : ∀ i < n, coef (grid.get [i]) = 1 ∨ coef (grid.get [i]) = -1)
    (hgood : ∀ i < n, Good (rot (grid.get [i]))) (hgoods : ∀ i < nRot + nRef, Good (rot (sg.get [i]))) :
    SameRows n (cosetSample coef rot samp grid signal sg nRot nRef wr wf)
      (cosetSample coef rot samp (grid.map b) signal (sg.map b) nRot nRef wr wf) := by
  have hle : sg.shape.headD 0 ≤ signal.shape.headD 0 := by rw [hsig, hsg]; rfl
  have e1 : ((sg.map b).slice0 0 nRot).map rot = ((sg.slice0 0 nRot).map rot).map a := by
    simp only [Tensor.map, slice0, Tensor.mk.injEq, true_and]
    funext idx; cases idx <;> simp only [hrotb]
  have e2 : ((sg.map b).drop0 nRot).map rot = ((sg.drop0 nRot).map rot).map a := by
    simp only [Tensor.map, drop0, slice0, Tensor.mk.injEq, true_and]
    funext idx; cases idx <;> simp only [hrotb]
  have g1 : ∀ i < nRot, Good (((sg.slice0 0 nRot).map rot).get [i]) := by
    intro i hi
    have := hgoods i (by omega)
    simpa [Tensor.map, slice0] using this
  have g2 : ∀ i < nRef, Good (((sg.drop0 nRot).map rot).get [i]) := by
    intro i hi
    have := hgoods (nRot + i) (by omega)
    simpa [Tensor.map, drop0, slice0] using this
  have s1 : ((sg.slice0 0 nRot).map rot).shape = [nRot] := by simp [Tensor.map, slice0, hsg]
  have s2 : ((sg.drop0 nRot).map rot).shape = [nRef] := by simp [Tensor.map, drop0, slice0, hsg]
  set q0 : Tensor Q := ⟨[0], fun _ => rot (grid.get [])⟩ with hq0
  have emptyR : SameRows 0 (samp wr q0 (signal.slice0 0 nRot) ((sg.slice0 0 nRot).map rot))
      (samp wr (q0.map a) (signal.slice0 0 nRot) (((sg.slice0 0 nRot).map rot).map a)) :=
    hinv wr q0 _ _ 0 nRot rfl s1 (fun i hi => by omega) g1
  have emptyF : SameRows 0 (samp wf q0 (signal.drop0 nRot) ((sg.drop0 nRot).map rot))
      (samp wf (q0.map a) (signal.drop0 nRot) (((sg.drop0 nRot).map rot).map a)) :=
    hinv wf q0 _ _ 0 nRef rfl s2 (fun i hi => by omega) g2
  by_cases okR : nRot ≠ 0 → ∃ q o, samp wr q (signal.slice0 0 nRot) ((sg.slice0 0 nRot).map rot) = .ok o
  · by_cases okF : nRef ≠ 0 → ∃ q o, samp wf q (signal.drop0 nRot) ((sg.drop0 nRot).map rot) = .ok o
    · exact cosetSample_invariant_ok hs a b Good hinv hcoefb hrotb grid n S nRot nRef signal sg wr wf hg
        hsig hsg hcoef hgood hgoods okR okF
    · push Not at okF
      obtain ⟨h0, hF⟩ := okF
      cases he : samp wf q0 (signal.drop0 nRot) ((sg.drop0 nRot).map rot) with
      | ok o => exact absurd he (hF _ _)
      | error e =>
        have he' := (emptyF.error_iff e).1 he
        rw [cosetSample_errF hs grid nRot nRef signal sg wr wf h0 e q0 hle okR he,
          cosetSample_errF hs (grid.map b) nRot nRef signal (sg.map b) wr wf h0 e (q0.map a) hle ?_
            (by rw [e2]; exact he')]
        · rfl
        · intro h
          obtain ⟨q, o, ho⟩ := okR h
          obtain ⟨o', ho'⟩ := hs.total (half_le signal sg rot nRot hle).1 ho q0
          obtain ⟨y, hy, -⟩ := emptyR.ok ho'
          rw [e1]; exact ⟨_, y, hy⟩
  · push Not at okR
    obtain ⟨h0, hR⟩ := okR
    cases he : samp wr q0 (signal.slice0 0 nRot) ((sg.slice0 0 nRot).map rot) with
    | ok o => exact absurd he (hR _ _)
    | error e =>
      have he' := (emptyR.error_iff e).1 he
      rw [cosetSample_errR hs grid nRot nRef signal sg wr wf h0 e q0 hle he,
        cosetSample_errR hs (grid.map b) nRot nRef signal (sg.map b) wr wf h0 e (q0.map a) hle
          (by rw [e1]; exact he')]
      rfl

/-- a rotation sampler that reproduces its nodes makes the coset sampler reproduce its nodes. -/
theorem cosetSample_reproduces (hs : RowSampler samp)
    (hrep : ∀ w (g : Tensor Q) s (sg : Tensor Q) out L, sg.shape = [L] → samp w g s sg = .ok out →
      ∀ q k, k < L → g.get [q] = sg.get [k] → ∀ c, out.get [q, c] = s.get [k, c])
    (grid : Tensor G) (n S nRot nRef : ℕ) (signal : Tensor ℝ) (sg : Tensor G) (wr wf : ℝ)
    (hg : grid.shape = [n]) (hsig : signal.shape = [nRot + nRef, S]) (hsg : sg.shape = [nRot + nRef])
    (hcoef : ∀ i < n, coef (grid.get [i]) = 1 ∨ coef (grid.get [i]) = -1)
    (hrot : ∀ i < nRot, coef (sg.get [i]) = 1) (href : ∀ i < nRef, coef (sg.get [nRot + i]) = -1)
    (out : Tensor ℝ) (h : cosetSample coef rot samp grid signal sg nRot nRef wr wf = .ok out)
    (q k : ℕ) (hq : q < n) (hk : k < nRot + nRef) (he : grid.get [q] = sg.get [k]) (c : ℕ) :
    out.get [q, c] = signal.get [k, c] := by
  have hle : sg.shape.headD 0 ≤ signal.shape.headD 0 := by rw [hsig, hsg]; rfl
  set q0 : Tensor Q := ⟨[0], fun _ => rot (grid.get [])⟩ with hq0
  have okR : nRot ≠ 0 → ∃ q o, samp wr q (signal.slice0 0 nRot) ((sg.slice0 0 nRot).map rot) = .ok o := by
    intro h0
    cases hx : samp wr q0 (signal.slice0 0 nRot) ((sg.slice0 0 nRot).map rot) with
    | ok o => exact ⟨_, o, hx⟩
    | error e =>
      rw [cosetSample_errR hs grid nRot nRef signal sg wr wf h0 e q0 hle hx] at h; cases h
  have okF : nRef ≠ 0 → ∃ q o, samp wf q (signal.drop0 nRot) ((sg.drop0 nRot).map rot) = .ok o := by
    intro h0
    cases hx : samp wf q0 (signal.drop0 nRot) ((sg.drop0 nRot).map rot) with
    | ok o => exact ⟨_, o, hx⟩
    | error e =>
      rw [cosetSample_errF hs grid nRot nRef signal sg wr wf h0 e q0 hle okR hx] at h; cases h
  have sp := cosetSample_spec (coef := coef) (rot := rot) hs grid n S nRot nRef signal sg wr wf hg hsig
    hcoef (fun h0 q' _ _ => by obtain ⟨q, o, ho⟩ := okR h0; exact hs.total (half_le signal sg rot nRot hle).1 ho q')
    (fun h0 q' _ _ => by obtain ⟨q, o, ho⟩ := okF h0; exact hs.total (half_le signal sg rot nRot hle).2 ho q')
  have s1 : ((sg.slice0 0 nRot).map rot).shape = [nRot] := by simp [Tensor.map, slice0, hsg]
  have s2 : ((sg.drop0 nRot).map rot).shape = [nRef] := by simp [Tensor.map, drop0, slice0, hsg]
  by_cases hc : (nRot = 0 → ∀ i < n, coef (grid.get [i]) ≠ 1) ∧
      (nRef = 0 → ∀ i < n, coef (grid.get [i]) ≠ -1)
  · obtain ⟨o, h1, -, h3⟩ := sp.1 hc
    rw [h1] at h; cases h
    by_cases hkR : k < nRot
    · have hc1 : coef (grid.get [q]) = 1 := by rw [he]; exact hrot k hkR
      obtain ⟨x, hx, hxc⟩ := (h3 q hq).1 hc1
      rw [hxc, hrep _ _ _ _ _ nRot s1 hx 0 k hkR (by simp [Tensor.map, slice0, he]) c]
      simp [slice0]
    · obtain ⟨m, rfl⟩ : ∃ m, k = nRot + m := ⟨k - nRot, by omega⟩
      have hm : m < nRef := by omega
      have hc1 : coef (grid.get [q]) = -1 := by rw [he]; exact href m hm
      obtain ⟨x, hx, hxc⟩ := (h3 q hq).2 hc1
      rw [hxc, hrep _ _ _ _ _ nRef s2 hx 0 m hm (by simp [Tensor.map, drop0, slice0, he]) c]
      simp [drop0, slice0]
  · rw [sp.2 hc] at h; cases h

/-- nearest neighbour on each coset. -/
theorem cosetSample_nearest (hs : RowSampler samp) (d : Q → Q → ℝ)
    (hnn : ∀ w (g : Tensor Q) s (sg : Tensor Q) K L S, g.shape = [K] → sg.shape = [L] →
      s.shape = [L, S] → L ≠ 0 → ∃ out, samp w g s sg = .ok out ∧ out.shape = [K, S] ∧
      ∀ q < K, ∃ k < L, (∀ j < L, d (g.get [q]) (sg.get [k]) ≤ d (g.get [q]) (sg.get [j])) ∧
        ∀ c, out.get [q, c] = s.get [k, c])
    (grid : Tensor G) (n S nRot nRef : ℕ) (signal : Tensor ℝ) (sg : Tensor G) (wr wf : ℝ)
    (hg : grid.shape = [n]) (hsig : signal.shape = [nRot + nRef, S]) (hsg : sg.shape = [nRot + nRef])
    (hcoef : ∀ i < n, coef (grid.get [i]) = 1 ∨ coef (grid.get [i]) = -1)
    (hrot : ∀ i < nRot, coef (sg.get [i]) = 1) (href : ∀ i < nRef, coef (sg.get [nRot + i]) = -1)
    (hc : ∀ i < n, ∃ k < nRot + nRef, coef (sg.get [k]) = coef (grid.get [i])) :
    ∃ out, cosetSample coef rot samp grid signal sg nRot nRef wr wf = .ok out ∧ out.shape = [n, S] ∧
      ∀ q < n, ∃ k < nRot + nRef, coef (sg.get [k]) = coef (grid.get [q]) ∧
        (∀ j < nRot + nRef, coef (sg.get [j]) = coef (grid.get [q]) →
          d (rot (grid.get [q])) (rot (sg.get [k])) ≤ d (rot (grid.get [q])) (rot (sg.get [j]))) ∧
        ∀ c, out.get [q, c] = signal.get [k, c] := by
  have s1 : ((sg.slice0 0 nRot).map rot).shape = [nRot] := by simp [Tensor.map, slice0, hsg]
  have s2 : ((sg.drop0 nRot).map rot).shape = [nRef] := by simp [Tensor.map, drop0, slice0, hsg]
  have t1 : (signal.slice0 0 nRot).shape = [nRot, S] := by simp [slice0, hsig]
  have t2 : (signal.drop0 nRot).shape = [nRef, S] := by simp [drop0, slice0, hsig]
  have split : ∀ k < nRot + nRef, (k < nRot ∧ coef (sg.get [k]) = 1) ∨
      (∃ m < nRef, k = nRot + m ∧ coef (sg.get [k]) = -1) := by
    intro k hk
    by_cases h : k < nRot
    · exact Or.inl ⟨h, hrot k h⟩
    · obtain ⟨m, rfl⟩ : ∃ m, k = nRot + m := ⟨k - nRot, by omega⟩
      exact Or.inr ⟨m, by omega, rfl, href m (by omega)⟩
  have sp := (cosetSample_spec (coef := coef) (rot := rot) hs grid n S nRot nRef signal sg wr wf hg hsig
    hcoef
    (fun h0 => by
      intro q' m' hq'
      obtain ⟨o, ho, -⟩ := hnn wr q' _ _ m' nRot S hq' s1 t1 h0
      exact ⟨o, ho⟩)
    (fun h0 => by
      intro q' m' hq'
      obtain ⟨o, ho, -⟩ := hnn wf q' _ _ m' nRef S hq' s2 t2 h0
      exact ⟨o, ho⟩)).1
    ⟨fun h0 i hi hci => by
      obtain ⟨k, hk, e⟩ := hc i hi
      rw [hci] at e
      rcases split k hk with ⟨h, -⟩ | ⟨m, -, -, h⟩
      · omega
      · rw [h] at e; norm_num at e,
     fun h0 i hi hci => by
      obtain ⟨k, hk, e⟩ := hc i hi
      rw [hci] at e
      rcases split k hk with ⟨-, h⟩ | ⟨m, h, -⟩
      · rw [h] at e; norm_num at e
      · omega⟩
  obtain ⟨out, h1, h2, h3⟩ := sp
  refine ⟨out, h1, h2, fun q hq => ?_⟩
  obtain ⟨k0, hk0, e0⟩ := hc q hq
  rcases hcoef q hq with hci | hci
  · have h0 : nRot ≠ 0 := by
      rcases split k0 hk0 with ⟨h, -⟩ | ⟨m, -, -, h⟩
      · omega
      · rw [h, hci] at e0; norm_num at e0
    obtain ⟨x, hx, hxc⟩ := (h3 q hq).1 hci
    obtain ⟨y, hy, -, hyk⟩ := hnn wr ⟨[1], fun _ => rot (grid.get [q])⟩ _ _ 1 nRot S rfl s1 t1 h0
    rw [hx] at hy; cases hy
    obtain ⟨k, hk, hmin, hval⟩ := hyk 0 (by norm_num)
    refine ⟨k, by omega, by rw [hrot k hk, hci], fun j hj hcj => ?_, fun c => ?_⟩
    · rcases split j hj with ⟨h, -⟩ | ⟨m, -, -, h⟩
      · simpa [Tensor.map, slice0] using hmin j h
      · rw [h, hci] at hcj; norm_num at hcj
    · rw [hxc, hval]; simp [slice0]
  · have h0 : nRef ≠ 0 := by
      rcases split k0 hk0 with ⟨-, h⟩ | ⟨m, h, -⟩
      · rw [h, hci] at e0; norm_num at e0
      · omega
    obtain ⟨x, hx, hxc⟩ := (h3 q hq).2 hci
    obtain ⟨y, hy, -, hyk⟩ := hnn wf ⟨[1], fun _ => rot (grid.get [q])⟩ _ _ 1 nRef S rfl s2 t2 h0
    rw [hx] at hy; cases hy
    obtain ⟨k, hk, hmin, hval⟩ := hyk 0 (by norm_num)
    refine ⟨nRot + k, by omega, by rw [href k hk, hci], fun j hj hcj => ?_, fun c => ?_⟩
    · rcases split j hj with ⟨-, h⟩ | ⟨m, hm, rfl, -⟩
      · rw [h, hci] at hcj; norm_num at hcj
      · simpa [Tensor.map, drop0, slice0] using hmin m hm
    · rw [hxc, hval]; simp [drop0, slice0]

end

namespace O2

/-- rotations `(1, t)` applied on the left of query and signal grid. -/
theorem C41_o2 (t : ℝ) (grid : Tensor Elt) (signal : Tensor ℝ) (sg : Tensor Elt)
    (n S nRot nRef : ℕ) (mode : String) (wr wf : ℝ)
    (hg : grid.shape = [n]) (hsig : signal.shape = [nRot + nRef, S]) (hsg : sg.shape = [nRot + nRef])
    (hcoef : ∀ i < n, Valid (grid.get [i])) :
    SameRows n (gridSample grid signal sg nRot nRef mode wr wf)
      (gridSample (grid.map (leftApplyAngle (1, t))) signal (sg.map (leftApplyAngle (1, t)))
        nRot nRef mode wr wf) := by
  apply cosetSample_invariant (SO2.gridSample_row mode) (SO2.leftApplyAngle t) (leftApplyAngle (1, t))
    (fun _ => True) (S := S) <;> try assumption
  · intro w g s sg K L hK hL _ _
    exact SO2.C41_so2 t g s sg mode w K L hK hL
  · intro x; simp [leftApplyAngle]
  · intro x; rfl
  · intros; trivial
  · intros; trivial

/-- o2.grid_sample: an unknown mode raises ValueError whenever the signal grid is not empty. -/
theorem C42_o2 (grid : Tensor Elt) (signal : Tensor ℝ) (sg : Tensor Elt) (nRot nRef : ℕ)
    (mode : String) (wr wf : ℝ) (h1 : mode ≠ "rbf") (h2 : mode ≠ "nearest") (h0 : nRot + nRef ≠ 0) :
    gridSample grid signal sg nRot nRef mode wr wf = .error .valueError := by
  by_cases hR : nRot = 0
  · exact cosetSample_errF_all grid nRot nRef signal sg wr wf (by omega) _
      (fun h => absurd hR h) (fun _ => (SO2.C42_so2 _ _ _ mode wf).1 h1 h2)
  · exact cosetSample_errR_all grid nRot nRef signal sg wr wf hR _
      (fun _ => (SO2.C42_so2 _ _ _ mode wr).1 h1 h2)

/-- mode "rbf" at a query equal to signal grid element `k` (rotations first, then reflections): the
signal of element `k`. -/
theorem C39_o2 (grid : Tensor Elt) (signal : Tensor ℝ) (sg : Tensor Elt) (out : Tensor ℝ)
    (n S nRot nRef : ℕ) (wr wf : ℝ) (hg : grid.shape = [n]) (hsig : signal.shape = [nRot + nRef, S])
    (hsg : sg.shape = [nRot + nRef]) (hval : ∀ i < n, Valid (grid.get [i]))
    (hrot : ∀ i < nRot, (sg.get [i]).1 = 1) (href : ∀ i < nRef, (sg.get [nRot + i]).1 = -1)
    (h : gridSample grid signal sg nRot nRef "rbf" wr wf = .ok out)
    (q k : ℕ) (hq : q < n) (hk : k < nRot + nRef) (he : grid.get [q] = sg.get [k]) (c : ℕ) :
    out.get [q, c] = signal.get [k, c] := by
  refine cosetSample_reproduces (SO2.gridSample_row "rbf") ?_ grid n S nRot nRef signal sg wr wf hg hsig
    hsg hval hrot href out h q k hq hk he c
  intro w g s sg out L hL hs q k hk hq c
  exact SO2.C39_so2 g s sg out w L hL hs q k hk hq c

/-- mode "nearest": the signal of a grid element of the same coset at minimal distance; a query whose coset
has no grid element is covered by `C12`. -/
theorem C40_o2 (grid : Tensor Elt) (signal : Tensor ℝ) (sg : Tensor Elt)
    (n S nRot nRef : ℕ) (wr wf : ℝ) (hg : grid.shape = [n]) (hsig : signal.shape = [nRot + nRef, S])
    (hsg : sg.shape = [nRot + nRef]) (hval : ∀ i < n, Valid (grid.get [i]))
    (hrot : ∀ i < nRot, (sg.get [i]).1 = 1) (href : ∀ i < nRef, (sg.get [nRot + i]).1 = -1)
    (hc : ∀ i < n, ∃ k < nRot + nRef, (sg.get [k]).1 = (grid.get [i]).1) :
    ∃ out, gridSample grid signal sg nRot nRef "nearest" wr wf = .ok out ∧ out.shape = [n, S] ∧
      ∀ q < n, ∃ k < nRot + nRef, (sg.get [k]).1 = (grid.get [q]).1 ∧
        (∀ j < nRot + nRef, (sg.get [j]).1 = (grid.get [q]).1 →
          SO2.geodesicDistance (grid.get [q]).2 (sg.get [k]).2 SO2.defaultEps ≤
            SO2.geodesicDistance (grid.get [q]).2 (sg.get [j]).2 SO2.defaultEps) ∧
        ∀ c, out.get [q, c] = signal.get [k, c] := by
  refine cosetSample_nearest (SO2.gridSample_row "nearest")
    (fun a b => SO2.geodesicDistance a b SO2.defaultEps) ?_ grid n S nRot nRef signal sg wr wf hg hsig
    hsg hval hrot href hc
  intro w g s sg K L S hK hL hS h0
  exact SO2.C40_so2 g s sg w K L S hK hL hS h0

/-- two rotations and one reflection; a query at each of them. -/
example : ∃ out, gridSample ⟨[3], fun i => ([(-1, 0), (1, 1), (1, 0)] : List Elt).getD (i.headD 0) (1, 0)⟩
    ⟨[2 + 1, 1], fun i => (i.headD 0 : ℝ)⟩
    ⟨[2 + 1], fun i => ([(1, 0), (1, 1), (-1, 0)] : List Elt).getD (i.headD 0) (1, 0)⟩ 2 1 "nearest" 1 1 =
      .ok out ∧ out.get [0, 0] = 2 := by
  obtain ⟨out, h, -, hq⟩ := C40_o2
    ⟨[3], fun i => ([(-1, 0), (1, 1), (1, 0)] : List Elt).getD (i.headD 0) (1, 0)⟩
    ⟨[2 + 1, 1], fun i => (i.headD 0 : ℝ)⟩
    ⟨[2 + 1], fun i => ([(1, 0), (1, 1), (-1, 0)] : List Elt).getD (i.headD 0) (1, 0)⟩ 3 1 2 1 1 1
    rfl rfl rfl
    (by intro i hi; interval_cases i <;> simp [Valid])
    (by intro i hi; interval_cases i <;> rfl)
    (by intro i hi; interval_cases i; rfl)
    (by
      intro i hi
      interval_cases i
      · exact ⟨2, by norm_num, rfl⟩
      · exact ⟨0, by norm_num, rfl⟩
      · exact ⟨0, by norm_num, rfl⟩)
  refine ⟨out, h, ?_⟩
  obtain ⟨k, hk, hc, -, hv⟩ := hq 0 (by norm_num)
  rw [hv 0]
  have : k = 2 := by
    have hk3 : k < 3 := hk
    interval_cases k
    · norm_num at hc
    · norm_num at hc
    · rfl
  subst this; norm_num

end O2

namespace O3

open SO3

theorem C41_o3 (g : Elt) (hg1 : coef g = 1) (hgr : IsRotation (rot g)) (grid : Tensor Elt)
    (signal : Tensor ℝ) (sg : Tensor Elt)
    (n S nRot nRef : ℕ) (mode : String) (wr wf : ℝ)
    (hg : grid.shape = [n]) (hsig : signal.shape = [nRot + nRef, S]) (hsg : sg.shape = [nRot + nRef])
    (hval : ∀ i < n, Valid (grid.get [i])) (hvals : ∀ i < nRot + nRef, Valid (sg.get [i])) :
    SameRows n (gridSample grid signal sg nRot nRef mode wr wf)
      (gridSample (grid.map (leftApplyO3 g)) signal (sg.map (leftApplyO3 g))
        nRot nRef mode wr wf) := by
  apply cosetSample_invariant (SO3.gridSample_row mode) (SO3.leftApplyMatrix (rot g)) (leftApplyO3 g)
    IsRotation (S := S) <;> try assumption
  · intro w g' s sg K L hK hL h1 h2
    exact SO3.C41_so3 (rot g) hgr g' s sg mode w K L hK hL h1 h2
  · intro x; rw [(C33_product g x).1, hg1, one_mul]
  · intro x; exact (C33_product g x).2
  · intro i hi; exact (hval i hi).1
  · intro i hi; exact (hval i hi).2
  · intro i hi; exact (hvals i hi).2

/-- o3.grid_sample: an unknown mode raises ValueError whenever the signal grid is not empty. -/
theorem C42_o3 (grid : Tensor Elt) (signal : Tensor ℝ) (sg : Tensor Elt) (nRot nRef : ℕ)
    (mode : String) (wr wf : ℝ) (h1 : mode ≠ "rbf") (h2 : mode ≠ "nearest") (h0 : nRot + nRef ≠ 0) :
    gridSample grid signal sg nRot nRef mode wr wf = .error .valueError := by
  by_cases hR : nRot = 0
  · exact cosetSample_errF_all grid nRot nRef signal sg wr wf (by omega) _
      (fun h => absurd hR h) (fun _ => (SO3.C42_so3 _ _ _ mode wf).1 h1 h2)
  · exact cosetSample_errR_all grid nRot nRef signal sg wr wf hR _
      (fun _ => (SO3.C42_so3 _ _ _ mode wr).1 h1 h2)

/-- mode "rbf" at a query equal to signal grid element `k` (rotations first, then reflections): the
signal of element `k`. -/
theorem C39_o3 (grid : Tensor Elt) (signal : Tensor ℝ) (sg : Tensor Elt) (out : Tensor ℝ)
    (n S nRot nRef : ℕ) (wr wf : ℝ) (hg : grid.shape = [n]) (hsig : signal.shape = [nRot + nRef, S])
    (hsg : sg.shape = [nRot + nRef]) (hval : ∀ i < n, Valid (grid.get [i]))
    (hrot : ∀ i < nRot, coef (sg.get [i]) = 1) (href : ∀ i < nRef, coef (sg.get [nRot + i]) = -1)
    (h : gridSample grid signal sg nRot nRef "rbf" wr wf = .ok out)
    (q k : ℕ) (hq : q < n) (hk : k < nRot + nRef) (he : grid.get [q] = sg.get [k]) (c : ℕ) :
    out.get [q, c] = signal.get [k, c] := by
  refine cosetSample_reproduces (SO3.gridSample_row "rbf") ?_ grid n S nRot nRef signal sg wr wf hg hsig
    hsg (fun i hi => (hval i hi).1) hrot href out h q k hq hk he c
  intro w g s sg out L hL hs q k hk hq c
  exact SO3.C39_so3 g s sg out w L hL hs q k hk hq c

/-- mode "nearest": the signal of a grid element of the same coset at minimal distance; a query whose coset
has no grid element is covered by `C12`. -/
theorem C40_o3 (grid : Tensor Elt) (signal : Tensor ℝ) (sg : Tensor Elt)
    (n S nRot nRef : ℕ) (wr wf : ℝ) (hg : grid.shape = [n]) (hsig : signal.shape = [nRot + nRef, S])
    (hsg : sg.shape = [nRot + nRef]) (hval : ∀ i < n, Valid (grid.get [i]))
    (hrot : ∀ i < nRot, coef (sg.get [i]) = 1) (href : ∀ i < nRef, coef (sg.get [nRot + i]) = -1)
    (hc : ∀ i < n, ∃ k < nRot + nRef, coef (sg.get [k]) = coef (grid.get [i])) :
    ∃ out, gridSample grid signal sg nRot nRef "nearest" wr wf = .ok out ∧ out.shape = [n, S] ∧
      ∀ q < n, ∃ k < nRot + nRef, coef (sg.get [k]) = coef (grid.get [q]) ∧
        (∀ j < nRot + nRef, coef (sg.get [j]) = coef (grid.get [q]) →
          SO3.geodesicDistance (matrixToQuat (rot (grid.get [q]))) (matrixToQuat (rot (sg.get [k]))) SO3.defaultEps ≤
            SO3.geodesicDistance (matrixToQuat (rot (grid.get [q]))) (matrixToQuat (rot (sg.get [j]))) SO3.defaultEps) ∧
        ∀ c, out.get [q, c] = signal.get [k, c] := by
  refine cosetSample_nearest (SO3.gridSample_row "nearest")
    (fun a b => SO3.geodesicDistance (matrixToQuat a) (matrixToQuat b) SO3.defaultEps) ?_ grid n S nRot nRef signal sg wr wf hg hsig
    hsg (fun i hi => (hval i hi).1) hrot href hc
  intro w g s sg K L S hK hL hS h0
  exact SO3.C40_so3 g s sg w K L S hK hL hS h0

end O3
end GConv

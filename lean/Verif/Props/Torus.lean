import Verif.Lemmas.Reading
import Verif.Props.Translation
import Verif.Props.Pooling
import Verif.Props.Modules
import Verif.Model.Network

/-! # C94: networks on the torus

Convolutions with `padding='same'`, `padding_mode='circular'`, activations, batch and instance normalisation in any mode,
in any number and order: rolling the input around the torus rolls the output, for every kernel object and every
configuration (also those for which the pass raises: then both passes raise the same error). -/

namespace GConv.Torus

open Tensor Spec Batch Reading Conv

variable {t : List ℤ} {k : ℕ} {S : List ℕ} {x x' : Tensor ℝ} {G : Type} {d : ℕ}

/-- the layer was made by the constructor from arguments with `padding='same'`, `padding_mode='circular'`, for `d` spatial axes
and a kernel object with the kernel extents of the layer. -/
def CircularSame (d : ℕ) (L : Layer) : Prop :=
  ∃ (a : Args) (ax : List Axis), ax.length = d ∧ HasGeometry a .circular ax ∧ a.padding = .str "same" ∧
    init a (kernelDims ax) = .ok L

theorem maps (t : List ℤ) (S : List ℕ) : Maps (wrap S t) S S := ⟨fun _ => wrap_InB t, rfl, Or.inl rfl⟩

theorem wrap_neg {q : List ℕ} (t : List ℤ) (hq : InB S q) : wrap S t (wrap S (t.map (- ·)) q) = q := by
  refine List.ext_getElem (by rw [wrap_length, hq.length]) fun i h1 h2 => ?_
  rw [wrap_length] at h1
  have e : ∀ (l : List ℕ) (h : i < l.length), l[i] = l.getD i 0 := fun l h => by
    rw [List.getD_eq_getElem?_getD, List.getElem?_eq_getElem h]; rfl
  rw [e, e, wrap_getD t _ h1, wrap_getD _ _ h1]
  have h0 := (InB_iff.1 hq).2 i h1
  have hs : (0 : ℤ) < (S.getD i 0 : ℤ) := by omega
  have h3 := Int.emod_nonneg ((q.getD i 0 : ℤ) + (t.map (- ·)).getD i 0) hs.ne'
  rw [Int.toNat_of_nonneg h3, Int.emod_add_emod]
  have ht : (t.map (- ·)).getD i 0 = - t.getD i 0 := by
    rw [List.getD_eq_getElem?_getD, List.getD_eq_getElem?_getD, List.getElem?_map]
    cases t[i]? <;> simp
  rw [ht, neg_add_cancel_right]
  rw [Int.emod_eq_of_lt (by omega) (by omega)]
  omega

theorem neg_neg (t : List ℤ) : (t.map (- ·)).map (- ·) = t := by
  rw [List.map_map]
  convert List.map_id t
  funext i
  simp

/-- rolling is a bijection of the positions. -/
theorem wrap_bij (t : List ℤ) (S : List ℕ) : BoxBijection S S (wrap S t) := by
  refine ⟨fun q => wrap_InB t, fun i j hi hj e => ?_, fun j hj => ⟨_, wrap_InB _ hj, wrap_neg t hj⟩⟩
  have h : ∀ {q}, InB S q → wrap S (t.map (- ·)) (wrap S t q) = q := fun {q} hq => by
    have := wrap_neg (t.map (- ·)) hq
    rwa [neg_neg] at this
  rw [← h hi, ← h hj, e]

theorem convForward {L : Layer} {a : Args} {ax : List Axis} (hgeo : HasGeometry a .circular ax) (hp : a.padding = .str "same")
    (hL : init a (kernelDims ax) = .ok L) (w : Tensor ℝ) (groups Cout Cg : ℕ) (hw : w.shape = Cout :: Cg :: kernelDims ax)
    (hS : S.length = ax.length) (h : Rolled t 2 S x x') :
    Outcomes2 (fun y y' => Rolled t 2 S y y' ∧ ∃ N M, y.shape = N :: M :: S) (L.convForward x w groups) (L.convForward x' w groups) := by
  obtain ⟨p, hpl, hx, hx', hv⟩ := h
  obtain ⟨N, C, rfl⟩ : ∃ N C, p = [N, C] := by
    rcases p with _ | ⟨N, _ | ⟨C, _ | _⟩⟩ <;> simp at hpl
    exact ⟨N, C, rfl⟩
  have hG := layerGeom_of_init hgeo hL
  rcases convForward_cases hG w groups N C Cout Cg S hS hw with ⟨hg, hC, h0, hd⟩ | he
  · have hS' := C59_same_size hgeo hL hp hg
    obtain ⟨z, e1, e2, e3⟩ := convForward_spec hG hg x w N Cout Cg groups (by rw [hx, hC]; rfl) hw h0 hd
    obtain ⟨z', f1, f2, f3⟩ := convForward_spec hG hg x' w N Cout Cg groups (by rw [hx', hC]; rfl) hw h0 hd
    rw [e1, f1]
    rw [hS'] at e2 f2
    refine .ok ⟨⟨[N, Cout], rfl, e2, f2, fun i q hi hq => ?_⟩, N, Cout, e2⟩
    obtain ⟨b, _, rfl, hb, hi⟩ := InB_cons_left hi
    obtain ⟨co, _, rfl, hco, hi⟩ := InB_cons_left hi
    cases InB_nil_left hi
    show z'.get (b :: co :: q) = z.get (b :: co :: wrap S t q)
    rw [f3 b co q (by rw [hS']; exact hq), e3 b co _ (by rw [hS']; exact wrap_InB t hq)]
    refine Finset.sum_congr rfl fun ci hci => (corr_wrap hg hS' (same_unit hgeo hL hp) hq fun q hq => ?_).symm
    exact (hv [b, _] q (InB_cons.2 ⟨hb, InB_cons.2 ⟨by rw [hC]; exact Batch.channel_lt hd hco (Finset.mem_range.1 hci), InB_nil_nil⟩⟩) hq).symm
  · rw [he x hx, he x' hx']
    exact .error _

section layers
variable {L : Layer} (hL : CircularSame d L) (K : GroupKernel G d) {bias : Option (Tensor ℝ)} (hb : BiasShape bias L.outC d)
include hL hb

theorem groupConv (hS : S.length = d) (w : Tensor ℝ) (N : ℕ) (inH outH : Tensor G) (h : Rolled t 3 S x x') :
    Outcomes2 (RolledLayer t 3 S) (L.groupConv w bias N S x inH outH) (L.groupConv w bias N S x' inH outH) := by
  obtain ⟨a, ax, hax, hgeo, hp, hi⟩ := hL
  obtain ⟨-, -, -, hks, -⟩ := init_fields hgeo hi
  have hv := view (maps t S) h [N, L.inC * inH.shape.headD 0]
  unfold Layer.groupConv
  dsimp only
  generalize e1 : x.view (N :: L.inC * inH.shape.headD 0 :: S) = v1
  generalize e2 : x'.view (N :: L.inC * inH.shape.headD 0 :: S) = v2
  have hv' : Outcomes2 (Rolled t 2 S) v1 v2 := by rw [← e1, ← e2]; exact hv
  cases hv' with
  | error e => exact .error e
  | @ok y y' h =>
    rw [ok_bind, ok_bind]
    have hy : y.shape = N :: L.inC * inH.shape.headD 0 :: S := by
      unfold Tensor.view at e1; split at e1 <;> cases e1; rfl
    have hy' : y'.shape = N :: L.inC * inH.shape.headD 0 :: S := by
      unfold Tensor.view at e2; split at e2 <;> cases e2; rfl
    cases e3 : w.view (L.outC * outH.shape.headD 0 :: L.inC / L.groups * inH.shape.headD 0 :: L.kernelSize) with
    | error e => exact .error e
    | ok w' =>
      have hw' : w'.shape = L.outC * outH.shape.headD 0 :: L.inC / L.groups * inH.shape.headD 0 :: kernelDims ax := by
        unfold Tensor.view at e3; split at e3 <;> cases e3; rw [← hks]
      rw [ok_bind, ok_bind]
      have hc := convForward hgeo hp hi w' L.groups _ _ hw' (hS.trans hax.symm) h
      cases hz : L.convForward y w' L.groups with
      | error e => rw [hz] at hc; generalize L.convForward y' w' L.groups = v at hc; cases hc; exact .error _
      | ok z =>
        rw [hz] at hc
        generalize hz' : L.convForward y' w' L.groups = v at hc
        cases hc with
        | @ok _ z' h =>
          obtain ⟨h, M, M', hM⟩ := h
          have hN : M = N := by
            have hG := layerGeom_of_init hgeo hi
            obtain ⟨hg, hC, h0, hd⟩ := convForward_ok hG (hS.trans hax.symm) hy hw' hz
            obtain ⟨u, g1, g2, -⟩ := convForward_spec hG hg y w' N _ _ L.groups (by rw [hy, hC]) hw' h0 hd
            rw [hz] at g1
            cases g1
            rw [hM] at g2
            exact (List.cons.inj g2).1
          rw [hN] at hM
          rw [ok_bind, ok_bind]
          exact finish (maps t S) hS hb outH h hM

/-- group convolutions. -/
theorem C94_group (hS : S.length = d) (w : Tensor ℝ) (inH outH : Tensor G) (h : Rolled t 3 S x x') :
    Outcomes2 (RolledLayer t 3 S) (L.groupForward K w bias x inH outH) (L.groupForward K w bias x' inH outH) := by
  obtain ⟨p, hp, hx, hx', -⟩ := id h
  obtain ⟨N, C, n, rfl⟩ : ∃ N C n, p = [N, C, n] := by
    rcases p with _ | ⟨N, _ | ⟨C, _ | ⟨n, _ | _⟩⟩⟩ <;> simp at hp
    exact ⟨N, C, n, rfl⟩
  unfold Layer.groupForward
  rw [hx, hx']
  exact Outcomes2.same _ fun w => groupConv hL hb hS w N inH outH h

/-- lifting convolutions. -/
theorem C94_lifting (hS : S.length = d) (w : Tensor ℝ) (H : Tensor G) (h : Rolled t 2 S x x') :
    Outcomes2 (RolledLayer t 3 S) (L.liftingForward K w bias x H) (L.liftingForward K w bias x' H) := by
  obtain ⟨p, hp, hx, hx', -⟩ := id h
  obtain ⟨N, C, rfl⟩ : ∃ N C, p = [N, C] := by
    rcases p with _ | ⟨N, _ | ⟨C, _ | _⟩⟩ <;> simp at hp
    exact ⟨N, C, rfl⟩
  obtain ⟨a, ax, hax, hgeo, hp, hi⟩ := hL
  obtain ⟨-, -, -, hks, -⟩ := init_fields hgeo hi
  unfold Layer.liftingForward
  rw [hx, hx']
  refine Outcomes2.same _ fun w => ?_
  unfold Layer.liftingConv
  cases e3 : w.viewInfer [] (L.inC / L.groups :: L.kernelSize) with
  | error e => exact .error e
  | ok w' =>
    obtain ⟨Cout, hw'⟩ : ∃ Cout, w'.shape = Cout :: L.inC / L.groups :: kernelDims ax := by
      unfold Tensor.viewInfer at e3
      dsimp only at e3
      split at e3
      · cases e3
      · unfold Tensor.view at e3; split at e3 <;> cases e3; exact ⟨_, by rw [← hks]; rfl⟩
    rw [ok_bind, ok_bind]
    have hc := convForward hgeo hp hi w' L.groups _ _ hw' (hS.trans hax.symm) h
    cases hz : L.convForward x w' L.groups with
    | error e => rw [hz] at hc; generalize L.convForward x' w' L.groups = v at hc; cases hc; exact .error _
    | ok z =>
      rw [hz] at hc
      generalize hz' : L.convForward x' w' L.groups = v at hc
      cases hc with
      | @ok _ z' h =>
        obtain ⟨h, M, M', hM⟩ := h
        have hN : M = N := by
          have hG := layerGeom_of_init hgeo hi
          obtain ⟨hg, hC, h0, hd⟩ := convForward_ok hG (hS.trans hax.symm) hx hw' hz
          obtain ⟨u, g1, g2, -⟩ := convForward_spec hG hg x w' N _ _ L.groups (by rw [hx, hC]; rfl) hw' h0 hd
          rw [hz] at g1
          cases g1
          rw [hM] at g2
          exact (List.cons.inj g2).1
        rw [hN] at hM
        rw [ok_bind, ok_bind]
        exact finish (maps t S) hS hb H h hM

end layers

/-! ## normalisation -/

/-- the position moves, the group element stays. -/
theorem head_bij (t : List ℤ) (n : ℕ) (S : List ℕ) : BoxBijection (n :: S) (n :: S) fun i => i.headD 0 :: wrap S t i.tail :=
  Normalization.cons_bij n (wrap_bij t S)

theorem reordered {N C n : ℕ} (hx : x.shape = N :: C :: n :: S) (h : Rolled t 3 S x x') :
    Reordered (fun i => i.headD 0 :: wrap S t i.tail) N C (n :: S) (n :: S) x x' := by
  obtain ⟨p, hp, hxs, hx', hv⟩ := h
  cases prefix_eq hp hx hxs
  refine ⟨hx, hx', fun b c i hb hc hi => ?_⟩
  obtain ⟨k, q, rfl, hk, hq⟩ := InB_cons_left hi
  exact hv [b, c, k] q (InB_cons.2 ⟨hb, InB_cons.2 ⟨hc, InB_cons.2 ⟨hk, InB_nil_nil⟩⟩⟩) hq

theorem rolled {N C n : ℕ} (h : Reordered (fun i => i.headD 0 :: wrap S t i.tail) N C (n :: S) (n :: S) x x') : Rolled t 3 S x x' := by
  obtain ⟨hx, hx', hv⟩ := h
  refine ⟨[N, C, n], rfl, hx, hx', fun i q hi hq => ?_⟩
  obtain ⟨b, _, rfl, hb', hi⟩ := InB_cons_left hi
  obtain ⟨co, _, rfl, hco, hi⟩ := InB_cons_left hi
  obtain ⟨h, _, rfl, hh, hi⟩ := InB_cons_left hi
  cases InB_nil_left hi
  exact hv b co (h :: q) hb' hco (InB_cons.2 ⟨hh, hq⟩)

theorem shape_of (h : Rolled t 3 S x x') : ∃ N C n, x.shape = N :: C :: n :: S ∧ x'.shape = N :: C :: n :: S := by
  obtain ⟨p, hp, hx, hx', -⟩ := h
  obtain ⟨N, C, n, rfl⟩ : ∃ N C n, p = [N, C, n] := by
    rcases p with _ | ⟨N, _ | ⟨C, _ | ⟨n, _ | _⟩⟩⟩ <;> simp at hp
    exact ⟨N, C, n, rfl⟩
  exact ⟨N, C, n, hx, hx'⟩

theorem norm {f : Tensor ℝ → Except PyErr (Tensor ℝ × F.Running)}
    (hf : ∀ N C T ψ x x', T.length = S.length → BoxBijection T T ψ → Reordered ψ N C T T x x' →
      Outcomes2 (fun a b => Reordered ψ N C T T a.1 b.1) (f x) (f x')) (H : Tensor G) (h : Rolled t 3 S x x') :
    Outcomes2 (RolledLayer t 3 S) ((Normalization.folded f x H).map Prod.fst) ((Normalization.folded f x' H).map Prod.fst) := by
  obtain ⟨N, C, n, hx, hx'⟩ := shape_of h
  rcases S with _ | ⟨Z, s⟩
  · unfold Normalization.folded
    rw [hx, hx']
    exact .error _
  · have := folded (fun ψ x x' hψ h => hf N C (n * Z :: s) ψ x x' (by simp) hψ h) H (head_bij t n (Z :: s)) (reordered hx h)
    generalize (Normalization.folded f x H).map Prod.fst = v at this
    generalize (Normalization.folded f x' H).map Prod.fst = v' at this
    cases this with
    | error e => exact .error e
    | ok h => exact .ok ⟨rolled h.1, h.2⟩

/-- batch normalisation, in training and in evaluation mode. -/
theorem C94_batch_norm (a : F.NormArgs) (training : Bool) (r : F.Running) (H : Tensor G) (h : Rolled t 3 S x x') :
    Outcomes2 (RolledLayer t 3 S) ((Normalization.batch d a training r x H).map Prod.fst)
      ((Normalization.batch d a training r x' H).map Prod.fst) :=
  norm (fun _ _ _ _ _ _ _ hψ h => batchNorm d a training r hψ h) H h

/-- instance normalisation, in training and in evaluation mode. -/
theorem C94_instance_norm (hS : S.length = d) (a : F.NormArgs) (training : Bool) (r : F.Running) (H : Tensor G) (h : Rolled t 3 S x x') :
    Outcomes2 (RolledLayer t 3 S) ((Normalization.inst d a training r x H).map Prod.fst)
      ((Normalization.inst d a training r x' H).map Prod.fst) :=
  norm (fun _ _ _ _ _ _ hT hψ h => instNorm d (by rw [hT, hS]) a training r hψ h) H h

/-! ## pooling -/

/-- `GAvgGlobalPool`: the same numbers. -/
theorem C94_avg_global (h : Rolled t 3 S x x') :
    Outcomes2 (fun y y' => SameEntries (Net.values y) (Net.values y')) (Pooling.avgGlobal x) (Pooling.avgGlobal x') := by
  obtain ⟨N, C, n, hx, hx'⟩ := shape_of h
  obtain ⟨-, -, hv⟩ := reordered hx h
  obtain ⟨y, a1, a2, a3⟩ := Pooling.C68_avg_global_partial x N C (n :: S) (by simp) hx
  obtain ⟨y', b1, b2, b3⟩ := Pooling.C68_avg_global_partial x' N C (n :: S) (by simp) hx'
  rw [a1, b1]
  refine .ok ⟨by show y.shape = y'.shape; rw [a2, b2], fun i hi => ?_⟩
  have hi' : InB [N, C, 1] i := by rw [← a2]; exact hi
  obtain ⟨b, _, rfl, hb', hi'⟩ := InB_cons_left hi'
  obtain ⟨c, _, rfl, hc, hi'⟩ := InB_cons_left hi'
  obtain ⟨z, _, rfl, hz, hi'⟩ := InB_cons_left hi'
  cases InB_nil_left hi'
  have : z = 0 := by omega
  subst this
  show y'.get [b, c, 0] = y.get [b, c, 0]
  rw [a3 b c hb' hc, b3 b c hb' hc]
  exact meanOver_bij (head_bij t n S) fun i hi => (hv b c i hb' hc hi).symm

/-- `GMaxGlobalPool`: the same maxima. -/
theorem C94_max_global (h : Rolled t 3 S x x') :
    Outcomes2 (fun y y' => SameEntries (Net.values y) (Net.values y')) (Pooling.maxGlobal x) (Pooling.maxGlobal x') := by
  obtain ⟨N, C, n, hx, hx'⟩ := shape_of h
  obtain ⟨-, -, hv⟩ := reordered hx h
  by_cases hp : 0 < (n :: S).prod
  · obtain ⟨v, i, a1, a2, -, a3⟩ := Pooling.C68_max_global_partial x N C (n :: S) (by simp) hp hx
    obtain ⟨v', i', b1, b2, -, b3⟩ := Pooling.C68_max_global_partial x' N C (n :: S) (by simp) hp hx'
    rw [a1, b1]
    refine .ok ⟨by show v.shape = v'.shape; rw [a2, b2], fun i hi => ?_⟩
    have hi' : InB [N, C, 1] i := by rw [← a2]; exact hi
    obtain ⟨b, _, rfl, hb', hi'⟩ := InB_cons_left hi'
    obtain ⟨c, _, rfl, hc, hi'⟩ := InB_cons_left hi'
    obtain ⟨z, _, rfl, hz, hi'⟩ := InB_cons_left hi'
    cases InB_nil_left hi'
    have : z = 0 := by omega
    subst this
    show v'.get [b, c, 0] = v.get [b, c, 0]
    exact (isMaxOver_unique (a3 b c hb' hc).1 (isMaxOver_bij (head_bij t n S) (fun i hi => (hv b c i hb' hc hi).symm) (b3 b c hb' hc).1)).symm
  · have e : ∀ y : Tensor ℝ, y.shape = N :: C :: n :: S → Pooling.maxGlobal y = .error .indexError := fun y hy => by
      obtain ⟨z, e1, e2, -⟩ := Pooling.flattenFrom_two y N C (n :: S) (by simp) hy
      unfold Pooling.maxGlobal
      rw [e1, ok_bind]
      unfold Tensor.maxDim
      rw [if_neg (by rw [e2]; exact hp)]
      rfl
    rw [e x hx, e x' hx']
    exact .error _

/-! ## networks -/

/-- layers that live on the torus: everything but separable convolutions and convolutions with other paddings. -/
def Periodic : Net.Block G d → Prop
  | .act _ => True
  | .batch _ _ _ => True
  | .inst _ _ _ => True
  | .groupSE M _ _ bias => CircularSame d M.layer ∧ BiasShape bias M.layer.outC d
  | .separableSE _ _ _ _ _ => False
  | .groupE M _ _ bias => CircularSame d M.layer ∧ BiasShape bias M.layer.outC d
  | .separableE _ _ _ _ _ => False

theorem block (hS : S.length = d) (b : Net.Block G d) (hb : Periodic b) (H : Tensor G) (h : Rolled t 3 S x x') :
    Outcomes2 (RolledLayer t 3 S) (b.call x H) (b.call x' H) := by
  cases b with
  | act a => exact act a H h
  | batch a u s => exact C94_batch_norm a u s H h
  | inst a u s => exact C94_instance_norm hS a u s H h
  | groupSE M move w bias => exact C94_group hb.1 M.kernel hb.2 hS w _ _ h
  | separableSE M move wH w bias => exact hb.elim
  | groupE M move w bias => exact C94_group hb.1 M.kernel hb.2 hS w _ _ h
  | separableE M move wH w bias => exact hb.elim

/-- networks of any depth: rolling the input rolls the output; the output grid is the same. -/
theorem C94_network (hS : S.length = d) (bs : List (Net.Block G d)) (hb : ∀ b ∈ bs, Periodic b) (H : Tensor G)
    (h : Rolled t 3 S x x') : Outcomes2 (RolledLayer t 3 S) (Net.run bs (x, H)) (Net.run bs (x', H)) := by
  induction bs generalizing x x' H with
  | nil => exact .ok ⟨h, rfl⟩
  | cons b bs ih =>
    unfold Net.run
    refine Outcomes2.bind (block hS b (hb b (by simp)) H h) fun p q h => ?_
    obtain ⟨p, P⟩ := p
    obtain ⟨q, Q⟩ := q
    obtain ⟨h, e⟩ := h
    cases e
    exact ih (fun b hb' => hb b (by simp [hb'])) _ h

/-- a lifting convolution followed by layers of any kind and number. -/
theorem C94_lifted_network (hS : S.length = d) (M : Module G d) (hM : CircularSame d M.layer) (move : G → G) (w : Tensor ℝ)
    {bias : Option (Tensor ℝ)} (hbias : BiasShape bias M.layer.outC d) (bs : List (Net.Block G d)) (hb : ∀ b ∈ bs, Periodic b)
    (H : Option (Tensor G)) (h : Rolled t 2 S x x') :
    Outcomes2 (RolledLayer t 3 S) (M.lift move w bias x H >>= Net.run bs) (M.lift move w bias x' H >>= Net.run bs) := by
  refine Outcomes2.bind (C94_lifting hM M.kernel hbias hS w _ h) fun p q h => ?_
  obtain ⟨p, P⟩ := p
  obtain ⟨q, Q⟩ := q
  obtain ⟨h, e⟩ := h
  cases e
  exact C94_network hS bs hb _ h

/-- with global pooling at the end the output does not change at all when the image is rolled. -/
theorem C94_classifier (hS : S.length = d) (M : Module G d) (hM : CircularSame d M.layer) (move : G → G) (w : Tensor ℝ)
    {bias : Option (Tensor ℝ)} (hbias : BiasShape bias M.layer.outC d) (bs : List (Net.Block G d)) (hb : ∀ b ∈ bs, Periodic b)
    (H : Option (Tensor G)) (h : Rolled t 2 S x x') :
    Outcomes2 SameEntries (do let p ← M.lift move w bias x H; let q ← Net.run bs p; Net.avgPooled q)
      (do let p ← M.lift move w bias x' H; let q ← Net.run bs p; Net.avgPooled q) ∧
    Outcomes2 SameEntries (do let p ← M.lift move w bias x H; let q ← Net.run bs p; Net.maxPooled q)
      (do let p ← M.lift move w bias x' H; let q ← Net.run bs p; Net.maxPooled q) := by
  have hn := C94_lifted_network hS M hM move w hbias bs hb H h
  have key : ∀ f : Tensor ℝ × Tensor G → Except PyErr (Tensor ℝ),
      (∀ p q, RolledLayer t 3 S p q → Outcomes2 SameEntries (f p) (f q)) →
      Outcomes2 SameEntries (do let p ← M.lift move w bias x H; let q ← Net.run bs p; f q)
        (do let p ← M.lift move w bias x' H; let q ← Net.run bs p; f q) := fun f hf => by
    have := Outcomes2.bind hn hf
    rwa [bind_assoc, bind_assoc] at this
  refine ⟨key _ fun p q h => ?_, key _ fun p q h => ?_⟩
  · have := C94_avg_global h.1
    unfold Net.avgPooled
    generalize Pooling.avgGlobal p.1 = v at this
    generalize Pooling.avgGlobal q.1 = v' at this
    cases this with
    | error e => exact .error e
    | ok h => exact .ok h
  · have := C94_max_global h.1
    unfold Net.maxPooled
    generalize Pooling.maxGlobal p.1 = v at this
    generalize Pooling.maxGlobal q.1 = v' at this
    cases this with
    | error e => exact .error e
    | ok h => exact .ok h

/-! ## the public classes -/

theorem circularSame {nd inC outC ks dil stride : ℕ} {gks : GroupSize} {groups : ℤ} {mode : String}
    (hnd : (mode = "2d" ∧ nd = 2) ∨ (mode = "3d" ∧ nd = 3)) {L : Layer}
    (h : init (argsNd mode nd inC outC ks gks groups stride (.str "same") dil "circular") (List.replicate nd ks) = .ok L) :
    CircularSame nd L := by
  have ha := (C58_accepts (argsNd mode nd inC outC ks gks groups stride (.str "same") dil "circular") _ _ _ rfl rfl).1 ⟨L, h⟩
  have hst : stride = 1 := by
    rcases ha.2.2.2.2.1 "same" rfl with h | ⟨-, h⟩
    · exact absurd h (by decide)
    · exact h _ rfl stride (List.mem_replicate.2 ⟨by omega, rfl⟩)
  subst hst
  have hk : kernelDims (List.replicate nd (sameAxis ks dil)) = List.replicate nd ks := by simp [kernelDims, sameAxis]
  refine ⟨argsNd mode nd inC outC ks gks groups 1 (.str "same") dil "circular", List.replicate nd (sameAxis ks dil), by simp, ⟨?_, hk.symm, by simp [argsNd, sameAxis], by simp [argsNd, sameAxis], ?_,
    Or.inr (Or.inr (Or.inr ⟨rfl, rfl⟩))⟩, rfl, by rw [hk]; exact h⟩
  · rcases hnd with ⟨rfl, rfl⟩ | ⟨rfl, rfl⟩
    · exact Or.inl ⟨rfl, rfl⟩
    · exact Or.inr ⟨rfl, rfl⟩
  · refine Or.inl ⟨rfl, fun a ha => ?_⟩
    rw [(List.mem_replicate.1 ha).2]
    exact ⟨rfl, by unfold sameAxis; simp only; omega⟩

/-- The premade SE(2), SE(3), E(2), E(3) modules made with `padding='same'`, `padding_mode='circular'`. -/
theorem C94_modules (c : ConvOpts) (hp : c.padding = .str "same") (hm : c.paddingMode = "circular")
    (s : GridCache.Store (Tensor ℝ)) (opt opt' : List SO3.Euler) :
    (∀ k M, liftingSE2 k c = .ok M ∨ fullSE2 k c = .ok M → CircularSame 2 M.layer) ∧
    (∀ k M, liftingSE3 s opt k c = .ok M ∨ fullSE3 s opt k c = .ok M → CircularSame 3 M.layer) ∧
    (∀ k M, liftingE2 k c = .ok M ∨ fullE2 k c = .ok M → CircularSame 2 M.layer) ∧
    (∀ k M, liftingE3 s opt opt' k c = .ok M ∨ fullE3 s opt opt' k c = .ok M → CircularSame 3 M.layer) := by
  refine ⟨fun k M h => ?_, fun k M h => ?_, fun k M h => ?_, fun k M h => ?_⟩
  · rcases h with h | h
    · obtain ⟨K, hK, hL, -, -⟩ := build_ok h
      unfold argsSE2 at hL
      rw [hp, hm, liftingSE2_size hK] at hL
      exact circularSame (Or.inl ⟨rfl, rfl⟩) hL
    · obtain ⟨K, hK, hL, -, -⟩ := build_ok h
      unfold argsSE2 at hL
      rw [hp, hm, fullSE2_size hK] at hL
      exact circularSame (Or.inl ⟨rfl, rfl⟩) hL
  · rcases h with h | h
    · obtain ⟨K, hK, hL, -, -⟩ := build_ok h
      unfold argsSE3 at hL
      rw [hp, hm, (liftingSE3_size hK).1] at hL
      exact circularSame (Or.inr ⟨rfl, rfl⟩) hL
    · obtain ⟨K, hK, hL, -, -⟩ := build_ok h
      unfold argsSE3 at hL
      rw [hp, hm, fullSE3_size hK] at hL
      exact circularSame (Or.inr ⟨rfl, rfl⟩) hL
  · rcases h with h | h
    · obtain ⟨K, hK, hL, -, -⟩ := build_ok h
      unfold argsE2 at hL
      rw [hp, hm, liftingE2_size hK] at hL
      exact circularSame (Or.inl ⟨rfl, rfl⟩) hL
    · obtain ⟨K, hK, hL, -, -⟩ := build_ok h
      unfold argsE2 at hL
      rw [hp, hm, fullE2_size hK] at hL
      exact circularSame (Or.inl ⟨rfl, rfl⟩) hL
  · rcases h with h | h
    · obtain ⟨K, hK, hL, -, -⟩ := build_ok h
      unfold argsE3 at hL
      rw [hp, hm, (liftingE3_size hK).1] at hL
      exact circularSame (Or.inr ⟨rfl, rfl⟩) hL
    · obtain ⟨K, hK, hL, -, -⟩ := build_ok h
      unfold argsE3 at hL
      rw [hp, hm, fullE3_size hK] at hL
      exact circularSame (Or.inr ⟨rfl, rfl⟩) hL

/-! ## a case that succeeds -/

/-- `padding='same'`, `padding_mode='circular'`. -/
def circOpts : ConvOpts := { padding := .str "same", paddingMode := "circular", permute := false }

/-- `GReLU`, then `GConvSE2` with kernel extent 5 on three 9 x 8 images: the pass on the rolled images succeeds too, and its
result is the rolled result. -/
example (n : ℕ) (hn : 0 < n) (w input input' inH : Tensor ℝ)
    (hw : w.shape = [(KernelSE2.grid (KernelSE2.exArgs n)).shape.headD 0, 6, 2, 5, 5])
    (hx : input.shape = [3, 4, n, 9, 8]) (hin : inH.shape = [n]) (h : Rolled [2, -3] 3 [9, 8] input input') :
    ∃ M out out', fullSE2 (KernelSE2.exArgs n) circOpts = .ok M ∧
      Net.run [.act .relu, .groupSE M id w none] (input, inH) = .ok (out, inH) ∧
      Net.run [.act .relu, .groupSE M id w none] (input', inH) = .ok (out', inH) ∧
      out.shape = [3, 6, n, 9, 8] ∧ out'.shape = [3, 6, n, 9, 8] ∧
      ∀ b c i u v, b < 3 → c < 6 → i < n → u < 9 → v < 8 →
        out'.get [b, c, i, u, v] = out.get [b, c, i, (u + 2) % 9, (v + 5) % 8] := by
  have ha : Accepted (argsSE2 (KernelSE2.exArgs n) circOpts) := by
    refine ⟨fun l h => (by cases h), (by decide : (0 : ℤ) < 2), (by decide : (2 : ℤ) ∣ (4 : ℕ)), (by decide : (2 : ℤ) ∣ (6 : ℕ)),
      fun s h => ?_, Or.inr (Or.inr (Or.inr rfl)), Or.inl rfl⟩
    cases h
    refine Or.inr ⟨rfl, fun l hl x hx => ?_⟩
    cases hl
    exact (List.mem_replicate.1 hx).2
  obtain ⟨L, hL⟩ := (C58_accepts _ _ _ [5, 5] rfl rfl).2 ha
  have hM : ∃ M : Module ℝ 2, fullSE2 (KernelSE2.exArgs n) circOpts = .ok M ∧ M.permute = false := by
    unfold fullSE2 build
    rw [KernelSE2.full_eq (KernelSE2.exReady n hn), ok_bind]
    have : ∀ s, (KernelSE2.base (KernelSE2.exArgs n) s).kernelSize = [5, 5] := fun _ => rfl
    rw [this, hL, ok_bind]
    exact ⟨_, rfl, rfl⟩
  obtain ⟨M, hM, hMp⟩ := hM
  have hgeo : HasGeometry (argsSE2 (KernelSE2.exArgs n) circOpts) .circular [⟨5, 1, 1, 2, 2⟩, ⟨5, 1, 1, 2, 2⟩] :=
    ⟨Or.inl ⟨rfl, rfl⟩, rfl, rfl, rfl, by
      refine Or.inl ⟨rfl, fun a ha => ?_⟩
      rcases List.mem_pair.1 ha with rfl | rfl <;> exact ⟨rfl, rfl⟩, Or.inr (Or.inr (Or.inr ⟨rfl, rfl⟩))⟩
  have hok : ∀ (s : ℕ), 2 ≤ s → (⟨5, 1, 1, 2, 2⟩ : Axis).Ok .circular s := fun s h2 =>
    ⟨by norm_num, Nat.one_pos, Nat.one_pos, by unfold Axis.span; simp only; omega, by simp [F.padAllowed, h2]⟩
  have hb : BiasShape none 6 2 := fun b hb => by cases hb
  obtain ⟨_, out, o1, o2, -⟩ := C61_SE2 (KernelSE2.exArgs n) circOpts defaultModes 1 (KernelSE2.exReady n hn) hM hgeo
    (S := [9, 8]) (List.Forall₂.cons (hok 9 (by norm_num)) (List.Forall₂.cons (hok 8 (by norm_num)) .nil))
    w (by rw [hw]; simp [KernelSE2.exArgs]) none hb 3 n n (input.map F.relu) hx inH hin none hin id inH rfl
  have e1 : Net.run [.act .relu, .groupSE M id w none] (input, inH) = .ok (out, inH) := by
    unfold Net.run
    show Net.run [.groupSE M id w none] (input.map F.relu, inH) = _
    unfold Net.run
    show (M.groupSE id w none (input.map F.relu) inH none >>= Net.run []) = _
    rw [o1]
    rfl
  have := C94_network (G := ℝ) (d := 2) (t := [2, -3]) (S := [9, 8]) rfl [.act .relu, .groupSE M id w none] (by
    intro b hb
    rcases List.mem_pair.1 hb with rfl | rfl
    · trivial
    · exact ⟨(C94_modules circOpts rfl rfl (fun _ _ => none) [] []).1 _ M (Or.inr hM), fun _ h => by cases h⟩) inH h
  rw [e1] at this
  generalize e2 : Net.run [.act .relu, .groupSE M id w none] (input', inH) = r at this
  cases this with
  | @ok _ q h =>
    obtain ⟨out', H'⟩ := q
    obtain ⟨h, e⟩ := h
    cases e
    have hs : out.shape = [3, 6, n, 9, 8] := o2
    obtain ⟨p, hp, hos, hos', hv⟩ := h
    cases prefix_eq hp hs hos
    refine ⟨M, out, out', hM, e1, e2, hs, hos', fun b c i u v hb hc hi hu hv' => ?_⟩
    have := hv [b, c, i] [u, v] (by simp [hb, hc, hi]) (by simp [hu, hv'])
    have e : wrap [9, 8] [2, -3] [u, v] = [(u + 2) % 9, (v + 5) % 8] := by
      simp only [wrap, List.length_cons, List.length_nil, Nat.reduceAdd, List.ofFn_succ, List.ofFn_zero]
      simp
      omega
    rw [e] at this
    exact this

end GConv.Torus

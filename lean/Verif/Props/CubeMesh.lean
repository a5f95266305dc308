import Verif.Props.SubmeshIntegral
import Verif.Props.Shapes
import Verif.Props.ConvergenceCube
import Verif.Props.SpectralMass

/-!
# Property C104: integrating over the submesh of a hypercube

`submesh_for_shape` cuts the cube with the node tuples of a product of one-dimensional spaces into boxes; an affine map takes the
reference cube to each of them, and a rule on the reference cube becomes a composite rule.
-/

namespace Modepy
open Spec Pytools MeasureTheory Matrix Quadrature

/-- The map takes vertex `k` of the reference cube (`unit_vertices_for_shape`) to node `e[k]`, for every `k`. -/
def Spec.IsCubeMap (d : Nat) (nodes : NdArray ℝ) (e : List Nat) (M : AffineMap d) : Prop :=
  ∃ v, Shape.unitVertices (.hypercube d) = .ok v ∧
    ∀ k < 2 ^ d, ∀ i : Fin d, M.callPoint (fun j => ((v.get [(j : Nat), k] : Int) : ℝ)) i = nodes.get [(i : Nat), e.getD k 0]

/-- Equispaced nodes of orders `ns` on the cube, the elements of their submesh, and for each element an affine map which takes the
reference cube to it. -/
structure Spec.IsCubeMesh (ns : List Nat) (nodes : NdArray ℝ) (elems : List (List Nat)) (M : List Nat → AffineMap ns.length) : Prop where
  dim : 2 ≤ ns.length
  order_pos : ∀ n ∈ ns, 1 ≤ n
  nodes_eq : equispacedNodes (boxSpace ns) (.hypercube ns.length) = .ok nodes
  elems_eq : submeshForShape (.hypercube ns.length) (nodeTuples (boxSpace ns)) = .ok elems
  maps : ∀ e ∈ elems, IsCubeMap ns.length nodes e (M e)

theorem box_nodes (ns : List Nat) (hd : 2 ≤ ns.length) (hpos : ∀ n ∈ ns, 1 ≤ n) :
    ∃ nodes : NdArray ℝ, equispacedNodes (boxSpace ns) (.hypercube ns.length) = .ok nodes ∧
      nodes.shape = [ns.length, (nodeTuples (boxSpace ns)).length] ∧
      ∀ (i : Fin ns.length) (k : Nat), k < (nodeTuples (boxSpace ns)).length → nodes.get [(i : Nat), k] =
        2 * ((((nodeTuples (boxSpace ns)).getD k []).getD i 0 : Nat) : ℝ) / (ns[i] : ℝ) - 1 := by
  set bases : List PNSpace := ns.map fun n => ⟨1, n⟩ with hb
  have hm : bases.map PNSpace.spatialDim = List.replicate ns.length 1 := by
    rw [hb, List.map_map, List.eq_replicate_iff]
    exact ⟨by simp, fun a ha => by simp at ha; exact ha.2.symm⟩
  obtain ⟨A, hA, hsh, hget⟩ := C04_tp (K := ℝ) bases (by
    intro b hbb
    obtain ⟨n, hn, rfl⟩ := List.mem_map.1 hbb
    exact hpos n hn) (by rw [hm]; simp; omega)
  rw [hm] at hA hsh
  refine ⟨A, hA, ?_, fun i k hk => ?_⟩
  · rw [hsh, length_nodeTuples]
    simp [boxSpace, hb]
  · have hi : (i : Nat) < bases.length := by simp [hb]
    have hk' : k < Space.spaceDim (.tp bases) := by rwa [← length_nodeTuples]
    have := hget i hi 0 k (by simp [hb]) hk'
    have hs : ((bases.take i).map PNSpace.spatialDim).sum = i := by
      rw [List.map_take, hm, List.take_replicate]
      simp [i.2.le]
    rw [hs, Nat.add_zero] at this
    rw [this]
    simp [hb, boxSpace]

theorem cubeMap_iff {ns : List Nat} {nodes : NdArray ℝ} (hd : 2 ≤ ns.length) (hpos : ∀ n ∈ ns, 1 ≤ n)
    (hn : equispacedNodes (boxSpace ns) (.hypercube ns.length) = .ok nodes) {e cur : List Nat}
    (hc : IsCubeCell ns.length (nodeTuples (boxSpace ns)) e cur) (M : AffineMap ns.length) :
    IsCubeMap ns.length nodes e M ↔
      M = ⟨Matrix.diagonal fun i => 1 / (ns[i] : ℝ), fun i => (2 * (cur.getD i 0 : ℝ) + 1) / (ns[i] : ℝ) - 1⟩ := by
  obtain ⟨A, hA, -, hget⟩ := box_nodes ns hd hpos
  obtain rfl := Except.ok.inj (hn.symm.trans hA)
  have hn0 : ∀ i : Fin ns.length, (ns[i] : ℝ) ≠ 0 := fun i => by
    have := hpos ns[i] (List.getElem_mem _)
    exact_mod_cast (show ns[i] ≠ 0 by omega)
  have hval : ∀ k < 2 ^ ns.length, ∀ i : Fin ns.length, nodes.get [(i : Nat), e.getD k 0] =
      2 * ((cur.getD i 0 : ℝ) + if k.testBit i then 1 else 0) / (ns[i] : ℝ) - 1 := by
    intro k hk i
    obtain ⟨h1, h2⟩ := hc.2.2 k hk
    rw [hget i _ h1, h2]
    simp [List.getD_eq_getElem?_getD]
  obtain ⟨v, hv, -, hvget⟩ := C11_hypercube_bits ns.length (by omega)
  have hcall : ∀ (N : AffineMap ns.length) (k : Nat), k < 2 ^ ns.length → ∀ i : Fin ns.length,
      N.callPoint (fun j => ((v.get [(j : Nat), k] : Int) : ℝ)) i = ∑ j, N.a i j * (if k.testBit j then 1 else -1) + N.b i := by
    intro N k hk i
    simp only [AffineMap.callPoint, Pi.add_apply, mulVec, dotProduct]
    congr 1
    refine Finset.sum_congr rfl fun j _ => ?_
    rw [hvget j k j.2 hk]
    split <;> simp
  constructor
  · rintro ⟨v', hv', hM⟩
    obtain rfl := Except.ok.inj (hv'.symm.trans hv)
    have h0 : ∀ i, -∑ j, M.a i j + M.b i = 2 * (cur.getD i 0 : ℝ) / (ns[i] : ℝ) - 1 := by
      intro i
      have := hM 0 (by positivity) i
      rw [hcall M 0 (by positivity) i, hval 0 (by positivity) i] at this
      simpa using this
    have ha : ∀ i j, M.a i j = Matrix.diagonal (fun i : Fin ns.length => 1 / (ns[i] : ℝ)) i j := by
      intro i j
      have hk : 2 ^ (j : Nat) < 2 ^ ns.length := Nat.pow_lt_pow_right (by norm_num) j.2
      have := hM _ hk i
      rw [hcall M _ hk i, hval _ hk i] at this
      have hs : ∑ l : Fin ns.length, M.a i l * (if (2 ^ (j : Nat)).testBit l then 1 else -1) = -∑ l, M.a i l + 2 * M.a i j := by
        have : ∀ l : Fin ns.length, M.a i l * (if (2 ^ (j : Nat)).testBit l then 1 else -1) =
            -M.a i l + if j = l then 2 * M.a i l else 0 := by
          intro l
          rw [Nat.testBit_two_pow]
          by_cases hl : j = l
          · subst hl
            simp
            ring
          · have : ¬ (j : Nat) = l := fun h => hl (Fin.ext h)
            simp [this, hl]
        simp only [this]
        rw [Finset.sum_add_distrib, Finset.sum_ite_eq, Finset.sum_neg_distrib]
        simp
      rw [hs, Nat.testBit_two_pow] at this
      have h0i := h0 i
      have hni := hn0 i
      by_cases hij : i = j
      · subst hij
        simp only [decide_true, if_true] at this
        rw [diagonal_apply_eq]
        have e : 2 * ((cur.getD i 0 : ℝ) + 1) / (ns[i] : ℝ) = 2 * (cur.getD i 0 : ℝ) / (ns[i] : ℝ) + 2 * (1 / (ns[i] : ℝ)) := by ring
        linarith
      · have : ¬ (j : Nat) = i := fun h => hij (Fin.ext h).symm
        simp only [this, decide_false, Bool.false_eq_true, if_false, add_zero] at *
        rw [diagonal_apply_ne _ hij]
        linarith
    have hA' : M.a = Matrix.diagonal (fun i : Fin ns.length => 1 / (ns[i] : ℝ)) := by
      ext i j
      exact ha i j
    have hb : M.b = fun i : Fin ns.length => (2 * (cur.getD i 0 : ℝ) + 1) / (ns[i] : ℝ) - 1 := by
      funext i
      have := h0 i
      rw [hA', Finset.sum_eq_single i (fun j _ hj => diagonal_apply_ne _ hj.symm) (fun h => absurd (Finset.mem_univ _) h),
        diagonal_apply_eq] at this
      rw [add_div]
      linarith
    rw [← hA', ← hb]
  · rintro rfl
    refine ⟨v, hv, fun k hk i => ?_⟩
    rw [hcall _ k hk i, hval k hk i]
    show ∑ j, Matrix.diagonal (fun i : Fin ns.length => 1 / (ns[i] : ℝ)) i j * (if k.testBit j then 1 else -1) +
      ((2 * (cur.getD i 0 : ℝ) + 1) / (ns[i] : ℝ) - 1) = _
    rw [Finset.sum_eq_single i (fun j _ hj => by rw [diagonal_apply_ne _ hj.symm, zero_mul])
      (fun h => absurd (Finset.mem_univ _) h), diagonal_apply_eq]
    have := hn0 i
    split <;> field_simp <;> ring

/-- The element maps exist, and they are unique. -/
theorem C104_maps (ns : List Nat) (hd : 2 ≤ ns.length) (hpos : ∀ n ∈ ns, 1 ≤ n) :
    ∃ nodes elems M, IsCubeMesh ns nodes elems M ∧ ∀ M', IsCubeMesh ns nodes elems M' → ∀ e ∈ elems, M' e = M e := by
  obtain ⟨nodes, hn, -, -⟩ := box_nodes ns hd hpos
  obtain ⟨elems, he, -, hcell, -, -⟩ := C07_hypercube_cells ns (by omega)
  choose! cur hcur using fun e (h : e ∈ elems) => hcell e h
  have hiff := fun e (h : e ∈ elems) M => cubeMap_iff hd hpos hn (hcur e h).1 M
  exact ⟨nodes, elems, _, ⟨hd, hpos, hn, he, fun e h => (hiff e h _).2 rfl⟩, fun M' hM' e h => (hiff e h _).1 (hM'.maps e h)⟩

section
variable {d : Nat} {S : Set (Fin d → ℝ)} {elems : List (List Nat)} {M : List Nat → AffineMap d}

/-- The integral over a set covered by affine images of itself, of Jacobians which add up to one. -/
theorem composite_integral (hcs : IsCompact S) {J : ℝ} (hJ : 0 < J) (hlen : elems.length * J = 1)
    (hjac : ∀ e ∈ elems, (M e).jacobian = J) (hcov : S = ⋃ i : Fin elems.length, (M elems[i]).callPoint '' S)
    (f : (Fin d → ℝ) → ℝ) (hf : ContinuousOn f S) :
    (elems.map fun e => |(M e).jacobian| * ∫ y in S, f ((M e).callPoint y)).sum = ∫ x in S, f x := by
  have hj0 : ∀ e ∈ elems, (M e).jacobian ≠ 0 := fun e he => by rw [hjac e he]; exact hJ.ne'
  have hcomp : ∀ i : Fin elems.length, IsCompact ((M elems[i]).callPoint '' S) := fun i => hcs.image (continuous_callPoint _)
  have := integral_of_cover (μ := volume) (fun i : Fin elems.length => (M elems[i]).callPoint '' S)
    (fun i => (hcomp i).measurableSet) S hcov hcs.measure_ne_top ?_ f (hf.integrableOn_compact hcs)
  · rw [← this, sum_map_fin]
    refine Finset.sum_congr rfl fun i _ => ?_
    exact (integral_image_callPoint (M elems[i]) (hj0 _ (List.getElem_mem _)) _ hcs.measurableSet f).symm
  · have hv : ∀ i : Fin elems.length, volume.real ((M elems[i]).callPoint '' S) = J * volume.real S := by
      intro i
      rw [Measure.real, C43_volume, ENNReal.toReal_mul, ENNReal.toReal_ofReal (abs_nonneg _), hjac elems[i] (List.getElem_mem _),
        abs_of_pos hJ]
      rfl
    simp only [hv]
    rw [Finset.sum_const, Finset.card_univ, Fintype.card_fin, nsmul_eq_mul, ← mul_assoc, hlen, one_mul]

/-- The error of a composite rule. -/
theorem mesh_error (hcs : IsCompact S) (hne : S.Nonempty) {J : ℝ} (hJ : 0 < J) (hlen : elems.length * J = 1)
    (hjac : ∀ e ∈ elems, (M e).jacobian = J) (hcov : S = ⋃ i : Fin elems.length, (M elems[i]).callPoint '' S) (q : Quadrature) (m : Nat)
    (hq : ∀ p : MvPolynomial (Fin d) ℝ, p.totalDegree ≤ m → q.call (fun x => MvPolynomial.eval (fun i : Fin d => x.getD i 0) p) =
      ∫ x in S, MvPolynomial.eval x p)
    (hx : ∀ k < q.nnodes, (fun i : Fin d => (q.node k).getD i 0) ∈ S) (f : (Fin d → ℝ) → ℝ) (hf : ContinuousOn f S)
    (δ : ℝ) (hδ : ∀ e ∈ elems, ∃ p : MvPolynomial (Fin d) ℝ, p.totalDegree ≤ m ∧
      ∀ y ∈ S, |f ((M e).callPoint y) - MvPolynomial.eval ((M e).callPoint y) p| ≤ δ) :
    |(elems.map fun e => |(M e).jacobian| * q.call fun x => f ((M e).callPoint fun i => x.getD i 0)).sum - ∫ x in S, f x| ≤
      2 * absWeights q * δ := by
  have hmem : ∀ e ∈ elems, ∀ y ∈ S, (M e).callPoint y ∈ S := by
    intro e he y hy
    obtain ⟨i, hi, rfl⟩ := List.getElem_of_mem he
    rw [hcov, Set.mem_iUnion]
    exact ⟨⟨i, hi⟩, y, hy, rfl⟩
  -- volume at most the sum of the absolute weights
  have hvol : volume.real (S) ≤ absWeights q := by
    have h1 := hq 1 (by simp)
    simp only [map_one, setIntegral_const, smul_eq_mul, mul_one, call, map_range_sum] at h1
    rw [← h1, absWeights, map_range_sum]
    exact Finset.sum_le_sum fun k _ => le_abs_self _
  rw [← composite_integral hcs hJ hlen hjac hcov f hf, sum_map_fin, sum_map_fin, ← Finset.sum_sub_distrib]
  calc _ ≤ ∑ i : Fin elems.length, J * (2 * absWeights q * δ) := by
        refine (Finset.abs_sum_le_sum_abs _ _).trans (Finset.sum_le_sum fun i _ => ?_)
        set e := elems[i] with hee
        have he : e ∈ elems := List.getElem_mem _
        rw [hjac e he, abs_of_pos hJ, ← mul_sub, abs_mul, abs_of_pos hJ]
        refine mul_le_mul_of_nonneg_left ?_ hJ.le
        obtain ⟨p, hp, hpd⟩ := hδ e he
        have hpe := hq (pullback (M e) p) ((totalDegree_pullback _ _).trans hp)
        simp only [eval_pullback, call, map_range_sum] at hpe
        have hcf : ContinuousOn (fun y => f ((M e).callPoint y)) (S) :=
          hf.comp (continuous_callPoint _).continuousOn fun y hy => hmem e he y hy
        have hcp : Continuous fun y => MvPolynomial.eval ((M e).callPoint y) p :=
          (MvPolynomial.continuous_eval p).comp (continuous_callPoint _)
        have e1 : (q.call fun x => f ((M e).callPoint fun i => x.getD i 0)) - ∫ y in S, f ((M e).callPoint y) =
            ∑ k ∈ Finset.range q.nnodes, q.weights.get [k] * (f ((M e).callPoint fun i => (q.node k).getD i 0) -
              MvPolynomial.eval ((M e).callPoint fun i => (q.node k).getD i 0) p) -
            ∫ y in S, (f ((M e).callPoint y) - MvPolynomial.eval ((M e).callPoint y) p) := by
          simp only [mul_sub, call, map_range_sum]
          rw [Finset.sum_sub_distrib, hpe, integral_sub (hcf.integrableOn_compact hcs) (hcp.continuousOn.integrableOn_compact hcs)]
          ring
        have b1 : |∑ k ∈ Finset.range q.nnodes, q.weights.get [k] * (f ((M e).callPoint fun i => (q.node k).getD i 0) -
              MvPolynomial.eval ((M e).callPoint fun i => (q.node k).getD i 0) p)| ≤ absWeights q * δ := by
          rw [absWeights, map_range_sum, Finset.sum_mul]
          refine (Finset.abs_sum_le_sum_abs _ _).trans (Finset.sum_le_sum fun k hk => ?_)
          rw [abs_mul]
          exact mul_le_mul_of_nonneg_left (hpd _ (hx k (Finset.mem_range.1 hk))) (abs_nonneg _)
        have hδ0 : 0 ≤ δ := by
          obtain ⟨v, hv⟩ := hne
          exact (abs_nonneg _).trans (hpd _ hv)
        have b2 : |∫ y in S, (f ((M e).callPoint y) - MvPolynomial.eval ((M e).callPoint y) p)| ≤ absWeights q * δ := by
          have := norm_setIntegral_le_of_norm_le_const (μ := volume) (s := S) hcs.measure_lt_top
            (f := fun y => f ((M e).callPoint y) - MvPolynomial.eval ((M e).callPoint y) p) (C := δ) fun y hy => hpd y hy
          rw [Real.norm_eq_abs] at this
          refine this.trans ?_
          rw [mul_comm]
          exact mul_le_mul_of_nonneg_right hvol hδ0
        rw [e1]
        calc _ ≤ _ := abs_sub _ _
          _ ≤ absWeights q * δ + absWeights q * δ := add_le_add b1 b2
          _ = _ := by ring
    _ = _ := by
        rw [Finset.sum_const, Finset.card_univ, Fintype.card_fin, nsmul_eq_mul, ← mul_assoc, hlen, one_mul]
end

section
variable {ns : List Nat} {nodes : NdArray ℝ} {elems : List (List Nat)} {M : List Nat → AffineMap ns.length}

theorem cubeMesh_facts (h : IsCubeMesh ns nodes elems M) : elems.length = ns.prod ∧
    (∀ e ∈ elems, (M e).jacobian = 1 / (ns.prod : ℝ)) ∧
    (∀ e ∈ elems, ∀ y z i, (M e).callPoint y i - (M e).callPoint z i = (y i - z i) / (ns[i] : ℝ)) ∧
    cubeSet ns.length = ⋃ i : Fin elems.length, (M elems[i]).callPoint '' cubeSet ns.length := by
  obtain ⟨elems', he, hlen, hcell, hall, -⟩ := C07_hypercube_cells ns (by have := h.dim; omega)
  obtain rfl := Except.ok.inj (he.symm.trans h.elems_eq)
  have hiff := fun e cur (hc : IsCubeCell ns.length (nodeTuples (boxSpace ns)) e cur) M => cubeMap_iff h.dim h.order_pos h.nodes_eq hc M
  have hn0 : ∀ i : Fin ns.length, (0 : ℝ) < ns[i] := fun i => by
    have := h.order_pos ns[i] (List.getElem_mem _)
    exact_mod_cast (show 0 < ns[i] by omega)
  have hM : ∀ e ∈ elems', ∀ cur, IsCubeCell ns.length (nodeTuples (boxSpace ns)) e cur → ∀ y i, (M e).callPoint y i =
      (y i + (2 * (cur.getD i 0 : ℝ) + 1)) / (ns[i] : ℝ) - 1 := by
    intro e hee cur hc y i
    rw [(hiff e cur hc _).1 (h.maps e hee)]
    simp only [AffineMap.callPoint, Pi.add_apply, mulVec_diagonal]
    ring
  refine ⟨hlen, fun e hee => ?_, fun e hee y z i => ?_, ?_⟩
  · obtain ⟨cur, hc, -⟩ := hcell e hee
    rw [(hiff e cur hc _).1 (h.maps e hee)]
    show (Matrix.diagonal _).det = _
    rw [det_diagonal, Finset.prod_div_distrib, Finset.prod_const_one]
    congr 1
    rw [Nat.cast_list_prod, ← List.prod_ofFn]
    congr 1
    apply List.ext_getElem <;> simp
  · obtain ⟨cur, hc, -⟩ := hcell e hee
    rw [hM e hee cur hc, hM e hee cur hc]
    ring
  · ext x
    rw [Set.mem_iUnion]
    constructor
    · intro hx
      have hx' : ∀ i : Fin ns.length, -1 ≤ x i ∧ x i ≤ 1 := hx
      obtain ⟨el, hel, e, hee, cur, hc, hcov⟩ := C07_hypercube_cover ns (by have := h.dim; omega) h.order_pos
        (List.ofFn fun i => (x i + 1) / 2 * (ns[i] : ℝ)) (by
          intro i hi
          have h1 : (List.ofFn fun i => (x i + 1) / 2 * (ns[i] : ℝ)).getD i 0 = (x ⟨i, hi⟩ + 1) / 2 * (ns[i] : ℝ) := by
            simp [List.getD_eq_getElem?_getD, hi]
          have h2 : ns.getD i 0 = ns[i] := by simp [List.getD_eq_getElem?_getD, hi]
          rw [h1, h2]
          obtain ⟨h3, h4⟩ := hx' ⟨i, hi⟩
          have h5 : (0 : ℝ) < ns[i] := hn0 ⟨i, hi⟩
          constructor <;> nlinarith)
      obtain rfl := Except.ok.inj (hel.symm.trans h.elems_eq)
      obtain ⟨k, hk, rfl⟩ := List.getElem_of_mem hee
      refine ⟨⟨k, hk⟩, fun i => (x i + 1) * (ns[i] : ℝ) - (2 * (cur.getD i 0 : ℝ) + 1), fun i => ?_, ?_⟩
      · have := hcov i i.2
        rw [show (List.ofFn fun i => (x i + 1) / 2 * (ns[i] : ℝ)).getD i 0 = (x i + 1) / 2 * (ns[i] : ℝ) by
          simp [List.getD_eq_getElem?_getD]] at this
        constructor <;> linarith [this.1, this.2]
      · funext i
        show (M el[k]).callPoint _ i = _
        rw [hM _ hee cur hc]
        have := (hn0 i).ne'
        field_simp
        ring
    · rintro ⟨k, y, hy, rfl⟩
      have hee : elems'[k] ∈ elems' := List.getElem_mem _
      obtain ⟨cur, hc, hlt⟩ := hcell _ hee
      intro i
      rw [hM _ hee cur hc]
      obtain ⟨h1, h2⟩ : -1 ≤ y i ∧ y i ≤ 1 := hy i
      have h3 := hlt i i.2
      rw [show ns.getD i 0 = ns[i] by simp [List.getD_eq_getElem?_getD]] at h3
      have h4 : ((cur.getD i 0 : Nat) : ℝ) + 1 ≤ ns[i] := by exact_mod_cast h3
      have h5 := hn0 i
      have h6 : 0 ≤ (y i + (2 * (cur.getD i 0 : ℝ) + 1)) / (ns[i] : ℝ) := div_nonneg (by linarith [Nat.cast_nonneg (α := ℝ) (cur.getD i 0)]) h5.le
      have h7 : (y i + (2 * (cur.getD i 0 : ℝ) + 1)) / (ns[i] : ℝ) ≤ 2 := by
        rw [div_le_iff₀ h5]
        linarith
      constructor <;> linarith

theorem cubeMesh_cover (h : IsCubeMesh ns nodes elems M) : (0 : ℝ) < 1 / (ns.prod : ℝ) ∧ (elems.length : ℝ) * (1 / (ns.prod : ℝ)) = 1 := by
  have hp : 0 < ns.prod := List.prod_pos fun n hn => h.order_pos n hn
  have hp' : (0 : ℝ) < ns.prod := by exact_mod_cast hp
  refine ⟨by positivity, ?_⟩
  rw [(cubeMesh_facts h).1]
  field_simp

/-- **C104 (integrals).**  The integral over the cube is the sum over the elements of the Jacobian times the integral of the
function on the reference cube; every Jacobian is one over the number of elements. -/
theorem C104_integral (h : IsCubeMesh ns nodes elems M) (f : (Fin ns.length → ℝ) → ℝ) (hf : ContinuousOn f (cubeSet ns.length)) :
    elems.length = ns.prod ∧ (∀ e ∈ elems, (M e).jacobian = 1 / (ns.prod : ℝ)) ∧
    (elems.map fun e => |(M e).jacobian| * ∫ y in cubeSet ns.length, f ((M e).callPoint y)).sum = ∫ x in cubeSet ns.length, f x := by
  obtain ⟨hlen, hjac, -, hcov⟩ := cubeMesh_facts h
  exact ⟨hlen, hjac, composite_integral (compact_cube _) (cubeMesh_cover h).1 (cubeMesh_cover h).2 hjac hcov f hf⟩

/-- **C104 (exactness).**  A rule exact to total degree `m` on the reference cube gives a composite rule exact to degree `m`. -/
theorem C104_exact (h : IsCubeMesh ns nodes elems M) (q : Quadrature) (m : Nat)
    (hq : ∀ p : MvPolynomial (Fin ns.length) ℝ, p.totalDegree ≤ m →
      q.call (fun x => MvPolynomial.eval (fun i : Fin ns.length => x.getD i 0) p) = ∫ x in cubeSet ns.length, MvPolynomial.eval x p)
    (p : MvPolynomial (Fin ns.length) ℝ) (hp : p.totalDegree ≤ m) :
    (elems.map fun e => |(M e).jacobian| * q.call fun x => MvPolynomial.eval ((M e).callPoint fun i => x.getD i 0) p).sum =
      ∫ x in cubeSet ns.length, MvPolynomial.eval x p := by
  rw [← (C104_integral h _ (MvPolynomial.continuous_eval p).continuousOn).2.2]
  congr 1
  refine List.map_congr_left fun e _ => ?_
  have := hq (pullback (M e) p) ((totalDegree_pullback _ _).trans hp)
  simp only [eval_pullback] at this
  rw [this]

/-- **C104 (error).**  If on every element the function is within `δ` of a polynomial of the degree of the rule, then the error of
the composite rule is at most `2 δ` times the sum of the absolute weights. -/
theorem C104_error (h : IsCubeMesh ns nodes elems M) (q : Quadrature) (m : Nat)
    (hq : ∀ p : MvPolynomial (Fin ns.length) ℝ, p.totalDegree ≤ m →
      q.call (fun x => MvPolynomial.eval (fun i : Fin ns.length => x.getD i 0) p) = ∫ x in cubeSet ns.length, MvPolynomial.eval x p)
    (hx : ∀ k < q.nnodes, (fun i : Fin ns.length => (q.node k).getD i 0) ∈ cubeSet ns.length) (f : (Fin ns.length → ℝ) → ℝ)
    (hf : ContinuousOn f (cubeSet ns.length)) (δ : ℝ)
    (hδ : ∀ e ∈ elems, ∃ p : MvPolynomial (Fin ns.length) ℝ, p.totalDegree ≤ m ∧
      ∀ y ∈ cubeSet ns.length, |f ((M e).callPoint y) - MvPolynomial.eval ((M e).callPoint y) p| ≤ δ) :
    |(elems.map fun e => |(M e).jacobian| * q.call fun x => f ((M e).callPoint fun i => x.getD i 0)).sum -
      ∫ x in cubeSet ns.length, f x| ≤ 2 * absWeights q * δ := by
  obtain ⟨hlen, hjac, -, hcov⟩ := cubeMesh_facts h
  exact mesh_error (compact_cube _) ⟨fun _ => 0, fun i => by norm_num⟩ (cubeMesh_cover h).1 (cubeMesh_cover h).2 hjac hcov q m
    hq hx f hf δ hδ
end

/-- **C104 (convergence).**  A rule on the reference cube which is exact for constants and has its nodes in the cube: when all orders
grow, the composite rules converge for every continuous function. -/
theorem C104_converges (d : Nat) (q : Quadrature)
    (hq : ∀ p : MvPolynomial (Fin d) ℝ, p.totalDegree ≤ 0 → q.call (fun x => MvPolynomial.eval (fun i : Fin d => x.getD i 0) p) =
      ∫ x in cubeSet d, MvPolynomial.eval x p)
    (hx : ∀ k < q.nnodes, (fun i : Fin d => (q.node k).getD i 0) ∈ cubeSet d) (f : (Fin d → ℝ) → ℝ) (hf : ContinuousOn f (cubeSet d))
    (ε : ℝ) (hε : 0 < ε) :
    ∃ n₀ : Nat, ∀ (ns : List Nat) (hd : ns.length = d), (∀ n ∈ ns, n₀ ≤ n) → ∀ nodes elems M, IsCubeMesh ns nodes elems M →
      |(elems.map fun e => |(M e).jacobian| * q.call fun x => f fun i => (M e).callPoint (fun i => x.getD i 0) (Fin.cast hd.symm i)).sum -
        ∫ x in cubeSet d, f x| < ε := by
  have hW : 0 ≤ absWeights q := List.sum_nonneg (by
    intro x hx
    obtain ⟨k, -, rfl⟩ := List.mem_map.1 hx
    exact abs_nonneg _)
  set K := 2 * absWeights q + 1 with hK
  have hK0 : 0 < K := by linarith
  have huc := (compact_cube d).uniformContinuousOn_of_continuous hf
  rw [Metric.uniformContinuousOn_iff] at huc
  obtain ⟨s, hs, hfs⟩ := huc (ε / K) (by positivity)
  obtain ⟨n₀, hn₀⟩ := exists_nat_gt (2 / s)
  refine ⟨n₀, fun ns hd hns nodes elems M h => ?_⟩
  subst hd
  have hv : (fun _ : Fin ns.length => (0 : ℝ)) ∈ cubeSet ns.length := fun i => by norm_num
  obtain ⟨-, -, hdiff, hcov⟩ := cubeMesh_facts h
  have hmem : ∀ e ∈ elems, ∀ y ∈ cubeSet ns.length, (M e).callPoint y ∈ cubeSet ns.length := by
    intro e he y hy
    obtain ⟨i, hi, rfl⟩ := List.getElem_of_mem he
    rw [hcov, Set.mem_iUnion]
    exact ⟨⟨i, hi⟩, y, hy, rfl⟩
  have := C104_error h q 0 hq hx f hf (ε / K) (fun e he => ⟨MvPolynomial.C (f ((M e).callPoint fun _ => 0)), by simp, fun y hy => ?_⟩)
  · refine this.trans_lt ?_
    rw [mul_div_assoc', div_lt_iff₀ hK0]
    nlinarith
  · rw [MvPolynomial.eval_C, ← Real.dist_eq]
    refine (hfs _ (hmem e he y hy) _ (hmem e he _ hv) ?_).le
    rw [dist_pi_lt_iff hs]
    intro i
    rw [Real.dist_eq, hdiff e he, sub_zero]
    have hni : (n₀ : ℝ) ≤ ns[i] := by exact_mod_cast hns ns[i] (List.getElem_mem _)
    have h0 : (0 : ℝ) < ns[i] := by
      have := h.order_pos ns[i] (List.getElem_mem _)
      exact_mod_cast (show 0 < ns[i] by omega)
    rw [abs_div, abs_of_pos h0, div_lt_iff₀ h0]
    rw [div_lt_iff₀ hs] at hn₀
    have := abs_le.2 (hy i)
    nlinarith

/-- **C104 (Gauss-Lobatto rules).**  Composite tensor product Gauss-Lobatto rules of order `N ≥ 1` are exact for polynomials of total
degree `2 N - 1` on every submesh of the cube, and converge for every continuous function. -/
theorem C104_gauss_lobatto (ext : Ext) (hext : ext.EighOk) (N d : Nat) (hN : 1 ≤ N) (hd : 2 ≤ d) :
    ∃ q, legendreGaussLobattoTensorProduct ext N d .builtin = .ok q ∧
      (∀ ns : List Nat, ns.length = d → ∀ nodes elems M, IsCubeMesh ns nodes elems M →
        ∀ p : MvPolynomial (Fin ns.length) ℝ, p.totalDegree ≤ 2 * N - 1 →
          (elems.map fun e => |(M e).jacobian| * q.call fun x => MvPolynomial.eval ((M e).callPoint fun i => x.getD i 0) p).sum =
            ∫ x in cubeSet ns.length, MvPolynomial.eval x p) ∧
      ∀ f : (Fin d → ℝ) → ℝ, ContinuousOn f (cubeSet d) → ∀ ε > 0, ∃ n₀ : Nat, ∀ (ns : List Nat) (hl : ns.length = d),
        (∀ n ∈ ns, n₀ ≤ n) → ∀ nodes elems M, IsCubeMesh ns nodes elems M →
        |(elems.map fun e => |(M e).jacobian| * q.call fun x => f fun i => (M e).callPoint (fun i => x.getD i 0) (Fin.cast hl.symm i)).sum -
          ∫ x in cubeSet d, f x| < ε := by
  obtain ⟨q, hq, hnear⟩ := (C84_cube ext hext d).2.1 N hN
  have hex : ∀ p : MvPolynomial (Fin d) ℝ, p.totalDegree ≤ 2 * N - 1 →
      q.call (fun x => MvPolynomial.eval (fun i : Fin d => x.getD i 0) p) = ∫ x in cubeSet d, MvPolynomial.eval x p := by
    intro p hp
    have e : ∀ y : Fin d → ℝ, (fun i : Fin d => (List.ofFn y).getD i 0) = y := fun y => by funext i; simp
    have := hnear (fun x => MvPolynomial.eval (fun i : Fin d => x.getD i 0) p) (by
      simp only [ContinuousCube, e]
      exact (MvPolynomial.continuous_eval p).continuousOn) p hp 0 (fun t _ => by simp only [e]; simp)
    rw [mul_zero] at this
    have h0 := abs_nonpos_iff.1 this
    rw [sub_eq_zero] at h0
    rw [h0, cubeIntegral]
    simp only [e]
  obtain ⟨A, Q, x, w, r, hA, hQ, hAs, hQs, hnodes, hdiag, hws, hqq, hx, h0, h1, hpos, -, hwt, hget, -, -⟩ :=
    lobatto_setup ext hext d N (by omega) hN
  obtain rfl := Except.ok.inj (hq.symm.trans hQ)
  refine ⟨q, hq, fun ns hl nodes elems M h p hp => ?_, fun f hf ε hε => ?_⟩
  · subst hl
    exact C104_exact h q _ hex p hp
  · refine C104_converges d q (fun p hp => hex p (by omega)) (fun k hk => ?_) f hf ε hε
    have hk' : k < (N + 1) ^ d := by
      rw [Quadrature.nnodes, hws] at hk
      exact hk
    intro i
    have : (q.node k).getD i 0 = x (gridDigit N k i) := by
      rw [Quadrature.node, hQs, hAs]
      rw [← hget i k i.2 hk', ← hnodes i k i.2 hk']
      simp [List.getD_eq_getElem?_getD]
    simp only [this]
    exact ⟨h0 ▸ hx.monotone (Fin.zero_le _), h1 ▸ hx.monotone (Fin.le_last _)⟩

/-- An instance: the corner rule on the 3 by 2 boxes of the square. -/
example : ∃ ext : Ext, ext.EighOk ∧ ∃ q, legendreGaussLobattoTensorProduct ext 1 2 .builtin = .ok q ∧
    ∃ nodes elems M, IsCubeMesh [3, 2] nodes elems M ∧ elems.length = 6 ∧
    (elems.map fun e => |(M e).jacobian| * q.call fun x => (M e).callPoint (fun i => x.getD i 0) 0).sum =
      ∫ x in cubeSet 2, x 0 := by
  obtain ⟨ext, hext⟩ := exists_eighOk
  obtain ⟨q, hq, hex, -⟩ := C104_gauss_lobatto ext hext 1 2 le_rfl le_rfl
  obtain ⟨nodes, elems, M, h, -⟩ := C104_maps [3, 2] (by simp) (by simp)
  refine ⟨ext, hext, q, hq, nodes, elems, M, h, (cubeMesh_facts h).1, ?_⟩
  have := hex [3, 2] rfl nodes elems M h (MvPolynomial.X 0) (by simp)
  simp only [MvPolynomial.eval_X] at this
  exact this

end Modepy

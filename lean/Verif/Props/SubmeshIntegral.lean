import Verif.Props.Submesh
import Verif.Props.Composite
import Verif.Props.GrundmannMoeller
import Verif.Proofs.Equilateral
import Verif.Proofs.TableRules
import Verif.Props.Tools

/-!
# Property C97: integrating over the submesh of a simplex

`submesh_for_shape` cuts the simplex into elements; an affine map takes the reference simplex to each of them, and a rule on the
reference simplex becomes a composite rule.
-/

namespace Modepy
open Spec Pytools MeasureTheory Matrix Quadrature

/-- The map takes vertex `j` of the reference simplex (`unit_vertices_for_shape`) to node `e[j]`, for every `j`. -/
def Spec.IsElementMap (d : Nat) (nodes : NdArray ℝ) (e : List Nat) (M : AffineMap d) : Prop :=
  ∀ j ≤ d, ∀ i : Fin d, M.callPoint (fun k => (((Shape.unitVerticesSimplex d).get [(k : Nat), j] : Int) : ℝ)) i = nodes.get [(i : Nat), e.getD j 0]

theorem unitVertices_get (d j : Nat) (i : Fin d) : (Shape.unitVerticesSimplex d).get [(i : Nat), j] = if j = i + 1 then 1 else -1 := by
  simp only [Shape.unitVerticesSimplex]

theorem elementMap_apply {d : Nat} {nodes : NdArray ℝ} {e : List Nat} {M : AffineMap d} (h : IsElementMap d nodes e M) :
    (∀ i j, M.a i j = (nodes.get [(i : Nat), e.getD (j + 1) 0] - nodes.get [(i : Nat), e.getD 0 0]) / 2) ∧
    ∀ y i, M.callPoint y i = nodes.get [(i : Nat), e.getD 0 0] +
      ∑ j : Fin d, (1 + y j) / 2 * (nodes.get [(i : Nat), e.getD (j + 1) 0] - nodes.get [(i : Nat), e.getD 0 0]) := by
  have h0 : ∀ i, ∑ j, M.a i j * (-1) + M.b i = nodes.get [(i : Nat), e.getD 0 0] := by
    intro i
    rw [← h 0 (Nat.zero_le _) i]
    simp only [AffineMap.callPoint, Pi.add_apply, mulVec, dotProduct, unitVertices_get]
    congr 1
    refine Finset.sum_congr rfl fun j _ => ?_
    rw [if_neg (by omega)]
    norm_num
  have ha : ∀ i j, M.a i j = (nodes.get [(i : Nat), e.getD (j + 1) 0] - nodes.get [(i : Nat), e.getD 0 0]) / 2 := by
    intro i j
    have h1 := h (j + 1) (by omega) i
    simp only [AffineMap.callPoint, Pi.add_apply, mulVec, dotProduct, unitVertices_get] at h1
    have e1 : ∑ k : Fin d, M.a i k * (((if (j : Nat) + 1 = k + 1 then 1 else -1 : Int)) : ℝ) = ∑ k, M.a i k * (-1) + 2 * M.a i j := by
      have : ∀ k : Fin d, M.a i k * (((if (j : Nat) + 1 = k + 1 then 1 else -1 : Int)) : ℝ) =
          M.a i k * (-1) + if j = k then 2 * M.a i k else 0 := by
        intro k
        by_cases hk : j = k
        · subst hk
          simp
          ring
        · have : ¬ ((j : Nat) + 1 = k + 1) := fun hh => hk (Fin.ext (by omega))
          rw [if_neg this, if_neg hk]
          simp
      simp only [this]
      rw [Finset.sum_add_distrib, Finset.sum_ite_eq]
      simp
    rw [e1] at h1
    linarith [h0 i]
  refine ⟨ha, fun y i => ?_⟩
  rw [← h0 i]
  simp only [AffineMap.callPoint, Pi.add_apply, mulVec, dotProduct]
  have : ∀ j : Fin d, (1 + y j) / 2 * (nodes.get [(i : Nat), e.getD (j + 1) 0] - (∑ j, M.a i j * (-1) + M.b i)) =
      M.a i j * y j + M.a i j := by
    intro j
    rw [h0 i, ha i j]
    ring
  simp only [this]
  rw [Finset.sum_add_distrib]
  simp
  ring

theorem inHull_fin {d : Nat} (pts : List (List Nat)) (hp : pts.length = d + 1) (x : Fin d → ℝ) :
    InHull pts (List.ofFn x) ↔ ∃ w : Fin (d + 1) → ℝ, (∀ j, 0 ≤ w j) ∧ ∑ j, w j = 1 ∧
      ∀ i, x i = ∑ j, w j * (((pts.getD j []).getD i 0 : Nat) : ℝ) := by
  have hz : ∀ (w : List ℝ) (i : Nat), w.length = d + 1 →
      (List.zipWith (fun c p => c * ((p.getD i 0 : Nat) : ℝ)) w pts).sum =
        ∑ j : Fin (d + 1), w.getD j 0 * (((pts.getD j []).getD i 0 : Nat) : ℝ) := by
    intro w i hw
    rw [← List.sum_ofFn]
    congr 1
    apply List.ext_getElem
    · simp [hw, hp]
    · intro k h1 h2
      simp at h1 h2
      rw [List.getElem_zipWith, List.getElem_ofFn]
      simp [List.getD_eq_getElem?_getD, h1.1, h1.2]
  constructor
  · rintro ⟨w, hw, h0, hs, hx⟩
    rw [hp] at hw
    refine ⟨fun j => w.getD j 0, fun j => ?_, ?_, fun i => ?_⟩
    · have := j.2
      show 0 ≤ w.getD j 0
      rw [List.getD_eq_getElem _ _ (by omega)]
      exact h0 _ (List.getElem_mem _)
    · rw [← hs, ← List.sum_ofFn]
      congr 1
      apply List.ext_getElem
      · simp [hw]
      · intro k h1 h2
        rw [List.getElem_ofFn]
        simp [List.getD_eq_getElem?_getD, h2]
    · have := hx i (by simp)
      rw [hz w i hw] at this
      rw [← this]
      simp [List.getD_eq_getElem?_getD]
  · rintro ⟨w, h0, hs, hx⟩
    refine ⟨List.ofFn w, by simp [hp], fun c hc => ?_, by rw [List.sum_ofFn]; exact hs, fun i hi => ?_⟩
    · obtain ⟨j, rfl⟩ := List.mem_ofFn.1 hc
      exact h0 j
    · have hi' : i < d := by simpa using hi
      rw [hz _ i (by simp)]
      have e1 : (List.ofFn x).getD i 0 = x ⟨i, hi'⟩ := by simp [List.getD_eq_getElem?_getD, hi']
      rw [e1, hx ⟨i, hi'⟩]
      refine Finset.sum_congr rfl fun j _ => ?_
      have e2 : (List.ofFn w).getD j 0 = w j := by
        rw [List.getD_eq_getElem _ _ (by simp; omega), List.getElem_ofFn]
      rw [e2]

theorem getD_map_points (nodes : List (List Nat)) (e : List Nat) (j : Nat) (hj : j < e.length) :
    (elementPoints nodes e).getD j [] = nodes.getD (e.getD j 0) [] := by
  simp [elementPoints, List.getD_eq_getElem?_getD, hj]

theorem hull_algebra {d : Nat} (N T0 : ℝ) (T w : Fin d → ℝ) :
    T0 / N * 2 - 1 + ∑ j, w j * (T j / N * 2 - 1 - (T0 / N * 2 - 1)) =
      ((1 - ∑ j, w j) * T0 + ∑ j, w j * T j) / N * 2 - 1 := by
  have : ∀ j, w j * (T j / N * 2 - 1 - (T0 / N * 2 - 1)) = (w j * T j) * (2 / N) - w j * (T0 / N * 2) := fun j => by ring
  simp only [this, Finset.sum_sub_distrib, ← Finset.sum_mul]
  ring

section
variable {d n : Nat} (hn : 1 ≤ n) {nodes : NdArray ℝ} (hnodes : equispacedNodes (.pn ⟨d, n⟩) (.simplex d) = .ok nodes)
include hn hnodes

theorem submeshNode_get (i k : Nat) :
    nodes.get [i, k] = (((nodeTuples (.pn ⟨d, n⟩)).getD k []).getD i 0 : Nat) / (n : ℝ) * 2 - 1 := by
  simp only [equispacedNodes, equispacedPN, ne_eq, not_true_eq_false, if_false] at hnodes
  rw [if_neg (by omega)] at hnodes
  obtain rfl := Except.ok.inj hnodes
  rfl

/-- The image of the reference simplex is the hull of the element, in index units. -/
theorem elementMap_image (e : List Nat) (he : e.length = d + 1) (M : AffineMap d) (hM : IsElementMap d nodes e M) :
    M.callPoint '' simplexSet d =
      {x | InHull (elementPoints (nodeTuples (.pn ⟨d, n⟩)) e) (List.ofFn fun i => (x i + 1) / 2 * n)} := by
  have hn0 : (n : ℝ) ≠ 0 := by exact_mod_cast (by omega : n ≠ 0)
  have hp : (elementPoints (nodeTuples (.pn ⟨d, n⟩)) e).length = d + 1 := by simp [elementPoints, he]
  have happ := (elementMap_apply hM).2
  simp only [submeshNode_get hn hnodes] at happ
  ext x
  simp only [Set.mem_image, Set.mem_ofPred_eq]
  rw [inHull_fin _ hp]
  have hpt : ∀ (w : Fin (d + 1) → ℝ) (i : Fin d), ∑ j : Fin (d + 1), w j *
      ((((elementPoints (nodeTuples (.pn ⟨d, n⟩)) e).getD j []).getD i 0 : Nat) : ℝ) =
      ∑ j : Fin (d + 1), w j * ((((nodeTuples (.pn ⟨d, n⟩)).getD (e.getD j 0) []).getD i 0 : Nat) : ℝ) := by
    intro w i
    refine Finset.sum_congr rfl fun j _ => ?_
    rw [getD_map_points _ _ _ (by have := j.2; omega)]
  simp only [hpt]
  simp only [Fin.sum_univ_succ, Fin.val_zero, Fin.val_succ]
  constructor
  · rintro ⟨y, hy, rfl⟩
    refine ⟨Fin.cons (1 - ∑ j, (1 + y j) / 2) fun j => (1 + y j) / 2, ?_, ?_, fun i => ?_⟩
    · refine Fin.cases ?_ fun j => ?_
      · simpa using hy.2
      · have := hy.1 j
        simp only [Fin.cons_succ]
        linarith
    · simp
    · rw [happ y i, hull_algebra]
      simp only [Fin.cons_zero, Fin.cons_succ]
      field_simp
      ring
  · rintro ⟨w, h0, hs, hx⟩
    refine ⟨fun j => 2 * w j.succ - 1, ⟨fun j => ?_, ?_⟩, ?_⟩
    · have := h0 j.succ
      linarith
    · have e1 : ∀ j : Fin d, (1 + (2 * w j.succ - 1)) / 2 = w j.succ := fun j => by ring
      simp only [e1]
      linarith [h0 0]
    · funext i
      rw [happ]
      have e1 : ∀ j : Fin d, (1 + (2 * w j.succ - 1)) / 2 = w j.succ := fun j => by ring
      simp only [e1]
      have hxi := hx i
      have hw0 : w 0 = 1 - ∑ j : Fin d, w j.succ := by linarith
      rw [hw0] at hxi
      rw [hull_algebra, ← hxi]
      field_simp
      ring

/-- The Jacobian determinant of the map of an element with edge determinant 1. -/
theorem elementMap_det (e : List Nat) (he : e.length = d + 1) (M : AffineMap d) (hM : IsElementMap d nodes e M)
    (hdet : (edgeMatrix d (elementPoints (nodeTuples (.pn ⟨d, n⟩)) e)).det = 1) : M.jacobian = 1 / (n : ℝ) ^ d := by
  have ha := (elementMap_apply hM).1
  simp only [submeshNode_get hn hnodes] at ha
  have : M.a = ((n : ℝ)⁻¹) • (edgeMatrix d (elementPoints (nodeTuples (.pn ⟨d, n⟩)) e)).map (Int.cast : Int → ℝ) := by
    ext i j
    rw [ha, Matrix.smul_apply, map_apply, edgeMatrix, of_apply, getD_map_points _ _ _ (by omega), getD_map_points _ _ _ (by omega)]
    push_cast
    rw [smul_eq_mul]
    ring
  have hm : ((edgeMatrix d (elementPoints (nodeTuples (.pn ⟨d, n⟩)) e)).map (Int.cast : Int → ℝ)).det = 1 := by
    have := (Int.castRingHom ℝ).map_det (edgeMatrix d (elementPoints (nodeTuples (.pn ⟨d, n⟩)) e))
    rw [hdet] at this
    simpa using this.symm
  rw [AffineMap.jacobian, this, det_smul, hm, Fintype.card_fin, mul_one, inv_pow, one_div]

end

/-- A finite cover whose measures add up to the measure of the union splits integrals. -/
theorem integral_of_cover {α ι : Type*} [MeasurableSpace α] [Fintype ι] {μ : Measure α} (T : ι → Set α) (hT : ∀ i, MeasurableSet (T i))
    (S : Set α) (hS : S = ⋃ i, T i) (hfin : μ S ≠ ⊤) (hsum : ∑ i, μ.real (T i) = μ.real S) (f : α → ℝ) (hf : IntegrableOn f S μ) :
    ∑ i, ∫ x in T i, f x ∂μ = ∫ x in S, f x ∂μ := by
  have hSm : MeasurableSet S := hS ▸ MeasurableSet.iUnion hT
  have hsub : ∀ i, T i ⊆ S := fun i => hS ▸ Set.subset_iUnion T i
  have hTfin : ∀ i, μ (T i) ≠ ⊤ := fun i => ne_top_of_le_ne_top hfin (measure_mono (hsub i))
  have hiT : ∀ i, Integrable ((T i).indicator fun _ => (1 : ℝ)) μ := fun i =>
    (integrable_indicator_iff (hT i)).2 (integrableOn_const (hTfin i))
  have hiS : Integrable (S.indicator fun _ => (1 : ℝ)) μ := (integrable_indicator_iff hSm).2 (integrableOn_const hfin)
  have hle : ∀ x, 0 ≤ (∑ i, (T i).indicator (fun _ => (1 : ℝ)) x) - S.indicator (fun _ => 1) x := by
    intro x
    rw [sub_nonneg]
    have hnn : ∀ i, 0 ≤ (T i).indicator (fun _ => (1 : ℝ)) x := fun i => Set.indicator_nonneg (fun _ _ => zero_le_one) x
    by_cases hx : x ∈ S
    · rw [Set.indicator_of_mem hx]
      rw [hS] at hx
      obtain ⟨i, hi⟩ := Set.mem_iUnion.1 hx
      calc (1 : ℝ) = (T i).indicator (fun _ => (1 : ℝ)) x := by rw [Set.indicator_of_mem hi]
        _ ≤ _ := Finset.single_le_sum (fun i _ => hnn i) (Finset.mem_univ i)
    · rw [Set.indicator_of_notMem hx]
      exact Finset.sum_nonneg fun i _ => hnn i
  have hint : Integrable (fun x => (∑ i, (T i).indicator (fun _ => (1 : ℝ)) x) - S.indicator (fun _ => 1) x) μ :=
    (integrable_finsetSum _ fun i _ => hiT i).sub hiS
  have hz : ∫ x, ((∑ i, (T i).indicator (fun _ => (1 : ℝ)) x) - S.indicator (fun _ => 1) x) ∂μ = 0 := by
    rw [integral_sub (integrable_finsetSum _ fun i _ => hiT i) hiS, integral_finsetSum _ fun i _ => hiT i]
    simp only [integral_indicator (hT _), integral_indicator hSm, setIntegral_const, smul_eq_mul, mul_one]
    rw [hsum, sub_self]
  have hae := (integral_eq_zero_iff_of_nonneg hle hint).1 hz
  rw [← integral_indicator hSm]
  simp only [← integral_indicator (hT _)]
  rw [← integral_finsetSum _ fun i _ => (integrable_indicator_iff (hT i)).2 (hf.mono_set (hsub i))]
  refine integral_congr_ae ?_
  filter_upwards [hae] with x hx
  have e : ∀ U : Set α, U.indicator f x = U.indicator (fun _ => (1 : ℝ)) x * f x := by
    intro U
    by_cases h : x ∈ U
    · simp [h]
    · simp [h]
  simp only [e, ← Finset.sum_mul]
  have : (∑ i, (T i).indicator (fun _ => (1 : ℝ)) x) = S.indicator (fun _ => 1) x := sub_eq_zero.1 hx
  rw [this]

theorem integral_image_callPoint {d : Nat} (M : AffineMap d) (h : M.jacobian ≠ 0) (S : Set (Fin d → ℝ)) (hS : MeasurableSet S)
    (g : (Fin d → ℝ) → ℝ) : ∫ x in M.callPoint '' S, g x = |M.jacobian| * ∫ y in S, g (M.callPoint y) := by
  have hinj : Function.Injective M.callPoint := by
    intro x y hxy
    have hxy' : M.a *ᵥ x = M.a *ᵥ y := add_right_cancel (b := M.b) hxy
    have := congrArg (M.a⁻¹ *ᵥ ·) hxy'
    simpa [Matrix.mulVec_mulVec, Matrix.nonsing_inv_mul _ (isUnit_iff_ne_zero.2 h)] using this
  have hder : ∀ x ∈ S, HasFDerivWithinAt M.callPoint (LinearMap.toContinuousLinearMap (Matrix.toLin' M.a)) S x := by
    intro x _
    have h1 : HasFDerivWithinAt (fun x => LinearMap.toContinuousLinearMap (Matrix.toLin' M.a) x + M.b)
        (LinearMap.toContinuousLinearMap (Matrix.toLin' M.a)) S x :=
      (ContinuousLinearMap.hasFDerivWithinAt _).add_const _
    exact h1
  rw [integral_image_eq_integral_abs_det_fderiv_smul volume hS hder hinj.injOn]
  have hdet : (LinearMap.toContinuousLinearMap (Matrix.toLin' M.a)).det = M.a.det := by
    rw [ContinuousLinearMap.det]
    simp
  rw [hdet]
  simp only [smul_eq_mul]
  rw [integral_const_mul]
  rfl

/-- Elements are hulls of nodes in one cell of the grid. -/
theorem element_box (d n : Nat) (h1 : 1 ≤ d) (h3 : d ≤ 3) (elems : List (List Nat))
    (h : submeshForShape (.simplex d) (nodeTuples (.pn ⟨d, n⟩)) = .ok elems) (e : List Nat) (he : e ∈ elems) :
    ∃ c : Nat → Nat, ∀ j ≤ d, ∀ i < d, c i ≤ (((nodeTuples (.pn ⟨d, n⟩)).getD (e.getD j 0) []).getD i 0) ∧
      (((nodeTuples (.pn ⟨d, n⟩)).getD (e.getD j 0) []).getD i 0) ≤ c i + 1 := by
  obtain ⟨table, ht, hlen, hbound⟩ : ∃ table, simplexOffsets d = some table ∧
      (∀ offs ∈ table, offs.length = d + 1 ∧ ∀ o ∈ offs, o.length = d) ∧ ∀ offs ∈ table, ∀ o ∈ offs, ∀ k ∈ o, k ≤ 1 := by
    interval_cases d <;> exact ⟨_, rfl, by decide, by decide⟩
  simp only [submeshForShape, submeshForSimplex, nodeTuples, nodeTuplesPN, singleValued_gnitsam, ht] at h
  obtain rfl := Except.ok.inj h
  obtain ⟨cur, hcur, offs, ho, hta⟩ := mem_collectElements.1 he
  have hcl : cur.length = d := ((mem_gnitsam d n cur).1 hcur).1
  have hpts := (tryAdd_some hta).2.2.1
  have hel := (tryAdd_some hta).1
  refine ⟨fun i => cur.getD i 0, fun j hj i hi => ?_⟩
  have hj' : j < e.length := by rw [hel, (hlen _ ho).1]; omega
  have hjo : j < offs.length := by rw [(hlen _ ho).1]; omega
  have hg := getD_map_points (gnitsam n d) e j hj'
  simp only [nodeTuples, nodeTuplesPN]
  rw [← hg, hpts]
  have e1 : (offs.map (addTuples cur)).getD j [] = addTuples cur offs[j] := by simp [List.getD_eq_getElem?_getD, hjo]
  have hol := (hlen _ ho).2 _ (List.getElem_mem hjo)
  have hio : i < (offs[j]).length := by omega
  have e2 : (addTuples cur offs[j]).getD i 0 = cur.getD i 0 + (offs[j])[i] := by
    simp [addTuples, List.getD_eq_getElem?_getD, hcl, hi, hio]
  rw [e1, e2]
  have := hbound _ ho _ (List.getElem_mem hjo) _ (List.getElem_mem hio)
  omega

/-- Equispaced nodes of order `n` on the simplex, the elements of their submesh, and for each element the affine map which takes the
reference simplex to it. -/
structure Spec.IsSubmesh (d n : Nat) (nodes : NdArray ℝ) (elems : List (List Nat)) (M : List Nat → AffineMap d) : Prop where
  dim_pos : 1 ≤ d
  dim_le : d ≤ 3
  order_pos : 1 ≤ n
  nodes_eq : equispacedNodes (.pn ⟨d, n⟩) (.simplex d) = .ok nodes
  elems_eq : submeshForShape (.simplex d) (nodeTuples (.pn ⟨d, n⟩)) = .ok elems
  maps : ∀ e ∈ elems, IsElementMap d nodes e (M e)

/-- The element maps exist, and they are unique. -/
theorem C97_maps (d n : Nat) (h1 : 1 ≤ d) (h3 : d ≤ 3) (hn : 1 ≤ n) :
    ∃ nodes elems M, IsSubmesh d n nodes elems M ∧
      ∀ M', IsSubmesh d n nodes elems M' → ∀ e ∈ elems, M' e = M e := by
  obtain ⟨elems, he, -, -⟩ := C06_tessellation d n h1 h3 hn
  obtain ⟨nodes, hnodes⟩ : ∃ nodes : NdArray ℝ, equispacedNodes (.pn ⟨d, n⟩) (.simplex d) = .ok nodes := by
    simp only [equispacedNodes, equispacedPN, ne_eq, not_true_eq_false, if_false]
    rw [if_neg (by omega)]
    exact ⟨_, rfl⟩
  let A : List Nat → Matrix (Fin d) (Fin d) ℝ := fun e =>
    Matrix.of fun i j => (nodes.get [(i : Nat), e.getD (j + 1) 0] - nodes.get [(i : Nat), e.getD 0 0]) / 2
  let M : List Nat → AffineMap d := fun e => ⟨A e, fun i => nodes.get [(i : Nat), e.getD 0 0] + ∑ j, A e i j⟩
  refine ⟨nodes, elems, M, ⟨h1, h3, hn, hnodes, he, fun e _ j hj i => ?_⟩, fun M' hM' e hee => ?_⟩
  · simp only [AffineMap.callPoint, Pi.add_apply, mulVec, dotProduct, unitVertices_get, M]
    rcases j with _ | j
    · simp
    · have hs : ∑ k : Fin d, A e i k * (((if j + 1 = (k : Nat) + 1 then 1 else -1 : Int)) : ℝ) =
          -∑ k, A e i k + 2 * A e i ⟨j, by omega⟩ := by
        have : ∀ k : Fin d, A e i k * (((if j + 1 = (k : Nat) + 1 then 1 else -1 : Int)) : ℝ) =
            -A e i k + if (⟨j, by omega⟩ : Fin d) = k then 2 * A e i k else 0 := by
          intro k
          by_cases hk : (⟨j, by omega⟩ : Fin d) = k
          · subst hk
            simp
            ring
          · have : ¬ (j + 1 = (k : Nat) + 1) := fun hh => hk (Fin.ext (by simp; omega))
            rw [if_neg this, if_neg hk]
            simp
        simp only [this]
        rw [Finset.sum_add_distrib, Finset.sum_ite_eq, Finset.sum_neg_distrib]
        simp
      rw [hs]
      simp only [A, of_apply]
      ring
  · obtain ⟨h1, h2⟩ := elementMap_apply (hM'.maps e hee)
    have ha : (M' e).a = A e := by
      ext i j
      rw [h1]
      rfl
    have hb : (M' e).b = (M e).b := by
      funext i
      have := h2 (fun _ => -1) i
      simp only [AffineMap.callPoint, Pi.add_apply, mulVec, dotProduct, ha] at this
      have e0 : (M e).b i = nodes.get [(i : Nat), e.getD 0 0] + ∑ j, A e i j := rfl
      rw [e0]
      simp only [mul_neg, mul_one, Finset.sum_neg_distrib, add_neg_cancel, zero_div, zero_mul, Finset.sum_const_zero, add_zero] at this
      linarith
    show M' e = ⟨A e, (M e).b⟩
    rw [← ha, ← hb]

section
variable {d n : Nat} {nodes : NdArray ℝ} {elems : List (List Nat)} {M : List Nat → AffineMap d}

theorem sum_map_fin {α : Type*} (l : List α) (g : α → ℝ) : (l.map g).sum = ∑ i : Fin l.length, g l[i] := by
  rw [← List.sum_ofFn]
  congr 1
  apply List.ext_getElem <;> simp

theorem submesh_facts (h : IsSubmesh d n nodes elems M) : elems.length = n ^ d ∧ (∀ e ∈ elems, (M e).jacobian = 1 / (n : ℝ) ^ d) ∧
    simplexSet d = ⋃ i : Fin elems.length, (M elems[i]).callPoint '' simplexSet d := by
  obtain ⟨elems', he, hlen, htess⟩ := C06_tessellation d n h.dim_pos h.dim_le h.order_pos
  obtain rfl := Except.ok.inj (he.symm.trans h.elems_eq)
  have hn0 : (0 : ℝ) < n := by exact_mod_cast h.order_pos
  refine ⟨hlen, fun e hee => elementMap_det h.order_pos h.nodes_eq e (htess.indices e hee).1 (M e) (h.maps e hee) (htess.orientation e hee), ?_⟩
  ext x
  rw [Set.mem_iUnion]
  have hreg : x ∈ simplexSet d ↔ IndexSimplex d n (List.ofFn fun i => (x i + 1) / 2 * n) := by
    simp only [IndexSimplex, List.length_ofFn, true_and, List.sum_ofFn, simplexSet, Set.mem_ofPred_eq]
    refine and_congr ⟨fun hx c hc => ?_, fun hx i => ?_⟩ ?_
    · obtain ⟨i, rfl⟩ := List.mem_ofFn.1 hc
      have := hx i
      exact mul_nonneg (by linarith) hn0.le
    · have := hx _ (List.mem_ofFn.2 ⟨i, rfl⟩)
      have := nonneg_of_mul_nonneg_left this hn0
      linarith
    · rw [← Finset.sum_mul]
      have e1 : ∀ i, (1 + x i) / 2 = (x i + 1) / 2 := fun i => by ring
      simp only [e1]
      constructor
      · intro hh; nlinarith
      · intro hh
        by_contra hc
        push Not at hc
        nlinarith
  rw [hreg, htess.cover]
  simp only [List.length_ofFn, true_and]
  constructor
  · rintro ⟨e, hee, hh⟩
    obtain ⟨i, hi, rfl⟩ := List.getElem_of_mem hee
    refine ⟨⟨i, hi⟩, ?_⟩
    rw [Fin.getElem_fin, elementMap_image h.order_pos h.nodes_eq _ (htess.indices _ hee).1 _ (h.maps _ hee)]
    exact hh
  · rintro ⟨i, hi⟩
    have hee : elems'[i] ∈ elems' := List.getElem_mem _
    rw [elementMap_image h.order_pos h.nodes_eq _ (htess.indices _ hee).1 _ (h.maps _ hee)] at hi
    exact ⟨_, hee, hi⟩

theorem submesh_mem (h : IsSubmesh d n nodes elems M) {e : List Nat} (he : e ∈ elems) {y : Fin d → ℝ} (hy : y ∈ simplexSet d) :
    (M e).callPoint y ∈ simplexSet d := by
  obtain ⟨i, hi, rfl⟩ := List.getElem_of_mem he
  rw [(submesh_facts h).2.2, Set.mem_iUnion]
  exact ⟨⟨i, hi⟩, y, hy, rfl⟩

/-- Two points of one element differ by at most `2 / n` in every coordinate. -/
theorem submesh_diam (h : IsSubmesh d n nodes elems M) {e : List Nat} (he : e ∈ elems) {y z : Fin d → ℝ} (hy : y ∈ simplexSet d)
    (hz : z ∈ simplexSet d) (i : Fin d) : |(M e).callPoint y i - (M e).callPoint z i| ≤ 2 / n := by
  have hn0 : (0 : ℝ) < n := by exact_mod_cast h.order_pos
  obtain ⟨c, hc⟩ := element_box d n h.dim_pos h.dim_le elems h.elems_eq e he
  have key : ∀ y ∈ simplexSet d, (c i : ℝ) / n * 2 - 1 ≤ (M e).callPoint y i ∧ (M e).callPoint y i ≤ ((c i : ℝ) + 1) / n * 2 - 1 := by
    intro y hy
    rw [(elementMap_apply (h.maps e he)).2 y i]
    simp only [submeshNode_get h.order_pos h.nodes_eq]
    rw [hull_algebra]
    set t : Nat → ℝ := fun j => ((((nodeTuples (.pn ⟨d, n⟩)).getD (e.getD j 0) []).getD i 0 : Nat) : ℝ) with ht
    have ht1 : ∀ j ≤ d, (c i : ℝ) ≤ t j ∧ t j ≤ c i + 1 := by
      intro j hj
      have := hc j hj i i.2
      refine ⟨Nat.cast_le.2 this.1, ?_⟩
      have h2 := (Nat.cast_le (α := ℝ)).2 this.2
      rw [Nat.cast_add, Nat.cast_one] at h2
      exact h2
    have hw : ∀ j : Fin d, 0 ≤ (1 + y j) / 2 := fun j => by linarith [hy.1 j]
    have hw0 : 0 ≤ 1 - ∑ j, (1 + y j) / 2 := by linarith [hy.2]
    have lo : (c i : ℝ) ≤ (1 - ∑ j, (1 + y j) / 2) * t 0 + ∑ j : Fin d, (1 + y j) / 2 * t (j + 1) := by
      calc (c i : ℝ) = (1 - ∑ j, (1 + y j) / 2) * c i + ∑ j : Fin d, (1 + y j) / 2 * c i := by rw [← Finset.sum_mul]; ring
        _ ≤ _ := add_le_add (mul_le_mul_of_nonneg_left (ht1 0 (Nat.zero_le _)).1 hw0)
          (Finset.sum_le_sum fun j _ => mul_le_mul_of_nonneg_left (ht1 _ (by omega)).1 (hw j))
    have hi : (1 - ∑ j, (1 + y j) / 2) * t 0 + ∑ j : Fin d, (1 + y j) / 2 * t (j + 1) ≤ c i + 1 := by
      calc _ ≤ (1 - ∑ j, (1 + y j) / 2) * (c i + 1) + ∑ j : Fin d, (1 + y j) / 2 * (c i + 1 : ℝ) :=
          add_le_add (mul_le_mul_of_nonneg_left (ht1 0 (Nat.zero_le _)).2 hw0)
            (Finset.sum_le_sum fun j _ => mul_le_mul_of_nonneg_left (ht1 _ (by omega)).2 (hw j))
        _ = _ := by rw [← Finset.sum_mul]; ring
    constructor
    · gcongr
    · gcongr
  obtain ⟨a1, a2⟩ := key y hy
  obtain ⟨b1, b2⟩ := key z hz
  rw [add_div] at a2 b2
  rw [abs_le]
  have : 1 / (n : ℝ) * 2 = 2 / n := by ring
  constructor <;> nlinarith

/-- **C97 (integrals).**  The integral over the simplex is the sum over the elements of the Jacobian times the integral of the
function on the reference simplex; every Jacobian is `1 / n^d`. -/
theorem C97_integral (h : IsSubmesh d n nodes elems M) (f : (Fin d → ℝ) → ℝ) (hf : ContinuousOn f (simplexSet d)) :
    (elems.map fun e => |(M e).jacobian| * ∫ y in simplexSet d, f ((M e).callPoint y)).sum = ∫ x in simplexSet d, f x := by
  obtain ⟨hlen, hjac, hcov⟩ := submesh_facts h
  have hn0 : (0 : ℝ) < n := by exact_mod_cast h.order_pos
  have hj0 : ∀ e ∈ elems, (M e).jacobian ≠ 0 := fun e he => by rw [hjac e he]; positivity
  have hcomp : ∀ i : Fin elems.length, IsCompact ((M elems[i]).callPoint '' simplexSet d) := fun i =>
    (Table.isCompact_simplexSet d).image (continuous_callPoint _)
  have := integral_of_cover (μ := volume) (fun i : Fin elems.length => (M elems[i]).callPoint '' simplexSet d)
    (fun i => (hcomp i).measurableSet) (simplexSet d) hcov (Table.isCompact_simplexSet d).measure_ne_top ?_ f
    (hf.integrableOn_compact (Table.isCompact_simplexSet d))
  · rw [← this, sum_map_fin]
    refine Finset.sum_congr rfl fun i _ => ?_
    exact (integral_image_callPoint (M elems[i]) (hj0 _ (List.getElem_mem _)) _ (measurable_simplexSet d) f).symm
  · have hv : ∀ i : Fin elems.length, volume.real ((M elems[i]).callPoint '' simplexSet d) =
        1 / (n : ℝ) ^ d * volume.real (simplexSet d) := by
      intro i
      rw [Measure.real, C43_volume, ENNReal.toReal_mul, ENNReal.toReal_ofReal (abs_nonneg _), hjac elems[i] (List.getElem_mem _),
        abs_of_pos (by positivity)]
      rfl
    simp only [hv]
    rw [Finset.sum_const, Finset.card_univ, Fintype.card_fin, hlen, nsmul_eq_mul]
    push_cast
    field_simp

/-- **C97 (exactness).**  A rule which is exact to degree `m` on the reference simplex gives a composite rule which is exact to
degree `m`. -/
theorem C97_exact (h : IsSubmesh d n nodes elems M) (q : Quadrature) (m : Nat)
    (hq : ∀ p : MvPolynomial (Fin d) ℝ, p.totalDegree ≤ m → q.call (fun x => MvPolynomial.eval (fun i : Fin d => x.getD i 0) p) =
      ∫ x in simplexSet d, MvPolynomial.eval x p) (p : MvPolynomial (Fin d) ℝ) (hp : p.totalDegree ≤ m) :
    (elems.map fun e => |(M e).jacobian| * q.call fun x => MvPolynomial.eval ((M e).callPoint fun i => x.getD i 0) p).sum =
      ∫ x in simplexSet d, MvPolynomial.eval x p := by
  rw [← C97_integral h _ (MvPolynomial.continuous_eval p).continuousOn]
  congr 1
  refine List.map_congr_left fun e _ => ?_
  have := hq (pullback (M e) p) ((totalDegree_pullback _ _).trans hp)
  simp only [eval_pullback] at this
  rw [this]

/-- **C97 (error).**  If on every element the function is within `δ` of a polynomial of the degree of the rule, then the error of
the composite rule is at most `2 δ` times the sum of the absolute weights. -/
theorem C97_error (h : IsSubmesh d n nodes elems M) (q : Quadrature) (m : Nat)
    (hq : ∀ p : MvPolynomial (Fin d) ℝ, p.totalDegree ≤ m → q.call (fun x => MvPolynomial.eval (fun i : Fin d => x.getD i 0) p) =
      ∫ x in simplexSet d, MvPolynomial.eval x p)
    (hx : ∀ k < q.nnodes, (fun i : Fin d => (q.node k).getD i 0) ∈ simplexSet d) (f : (Fin d → ℝ) → ℝ) (hf : ContinuousOn f (simplexSet d))
    (δ : ℝ) (hδ : ∀ e ∈ elems, ∃ p : MvPolynomial (Fin d) ℝ, p.totalDegree ≤ m ∧
      ∀ y ∈ simplexSet d, |f ((M e).callPoint y) - MvPolynomial.eval ((M e).callPoint y) p| ≤ δ) :
    |(elems.map fun e => |(M e).jacobian| * q.call fun x => f ((M e).callPoint fun i => x.getD i 0)).sum - ∫ x in simplexSet d, f x| ≤
      2 * absWeights q * δ := by
  obtain ⟨hlen, hjac, -⟩ := submesh_facts h
  have hn0 : (0 : ℝ) < n := by exact_mod_cast h.order_pos
  have hcs := Table.isCompact_simplexSet d
  -- volume at most the sum of the absolute weights
  have hvol : volume.real (simplexSet d) ≤ absWeights q := by
    have h1 := hq 1 (by simp)
    simp only [map_one, setIntegral_const, smul_eq_mul, mul_one, call, map_range_sum] at h1
    rw [← h1, absWeights, map_range_sum]
    exact Finset.sum_le_sum fun k _ => le_abs_self _
  rw [← C97_integral h f hf, sum_map_fin, sum_map_fin, ← Finset.sum_sub_distrib]
  calc _ ≤ ∑ i : Fin elems.length, 1 / (n : ℝ) ^ d * (2 * absWeights q * δ) := by
        refine (Finset.abs_sum_le_sum_abs _ _).trans (Finset.sum_le_sum fun i _ => ?_)
        set e := elems[i] with hee
        have he : e ∈ elems := List.getElem_mem _
        rw [hjac e he, abs_of_pos (by positivity : (0 : ℝ) < 1 / (n : ℝ) ^ d), ← mul_sub, abs_mul, abs_of_pos (by positivity : (0 : ℝ) < 1 / (n : ℝ) ^ d)]
        refine mul_le_mul_of_nonneg_left ?_ (by positivity)
        obtain ⟨p, hp, hpd⟩ := hδ e he
        have hpe := hq (pullback (M e) p) ((totalDegree_pullback _ _).trans hp)
        simp only [eval_pullback, call, map_range_sum] at hpe
        have hcf : ContinuousOn (fun y => f ((M e).callPoint y)) (simplexSet d) :=
          hf.comp (continuous_callPoint _).continuousOn fun y hy => submesh_mem h he hy
        have hcp : Continuous fun y => MvPolynomial.eval ((M e).callPoint y) p :=
          (MvPolynomial.continuous_eval p).comp (continuous_callPoint _)
        have e1 : (q.call fun x => f ((M e).callPoint fun i => x.getD i 0)) - ∫ y in simplexSet d, f ((M e).callPoint y) =
            ∑ k ∈ Finset.range q.nnodes, q.weights.get [k] * (f ((M e).callPoint fun i => (q.node k).getD i 0) -
              MvPolynomial.eval ((M e).callPoint fun i => (q.node k).getD i 0) p) -
            ∫ y in simplexSet d, (f ((M e).callPoint y) - MvPolynomial.eval ((M e).callPoint y) p) := by
          simp only [mul_sub, call, map_range_sum]
          rw [Finset.sum_sub_distrib, hpe, integral_sub (hcf.integrableOn_compact hcs) (hcp.continuousOn.integrableOn_compact hcs)]
          ring
        have b1 : |∑ k ∈ Finset.range q.nnodes, q.weights.get [k] * (f ((M e).callPoint fun i => (q.node k).getD i 0) -
              MvPolynomial.eval ((M e).callPoint fun i => (q.node k).getD i 0) p)| ≤ absWeights q * δ := by
          rw [absWeights, map_range_sum, Finset.sum_mul]
          refine (Finset.abs_sum_le_sum_abs _ _).trans (Finset.sum_le_sum fun k hk => ?_)
          rw [abs_mul]
          exact mul_le_mul_of_nonneg_left (hpd _ (hx k (Finset.mem_range.1 hk))) (abs_nonneg _)
        have hδ0 : 0 ≤ δ := by
          have hv : (fun _ : Fin d => (-1 : ℝ)) ∈ simplexSet d := ⟨fun i => le_rfl, by simp⟩
          exact (abs_nonneg _).trans (hpd _ hv)
        have b2 : |∫ y in simplexSet d, (f ((M e).callPoint y) - MvPolynomial.eval ((M e).callPoint y) p)| ≤ absWeights q * δ := by
          have := norm_setIntegral_le_of_norm_le_const (μ := volume) (s := simplexSet d) hcs.measure_lt_top
            (f := fun y => f ((M e).callPoint y) - MvPolynomial.eval ((M e).callPoint y) p) (C := δ) fun y hy => hpd y hy
          rw [Real.norm_eq_abs] at this
          refine this.trans ?_
          rw [mul_comm]
          exact mul_le_mul_of_nonneg_right hvol hδ0
        rw [e1]
        calc _ ≤ _ := abs_sub _ _
          _ ≤ absWeights q * δ + absWeights q * δ := add_le_add b1 b2
          _ = _ := by ring
    _ = _ := by
        rw [Finset.sum_const, Finset.card_univ, Fintype.card_fin, hlen, nsmul_eq_mul]
        push_cast
        field_simp
end

/-- **C97 (convergence).**  A rule on the reference simplex which is exact for constants and has its nodes in the simplex: under
refinement the composite rules converge for every continuous function. -/
theorem C97_converges (d : Nat) (q : Quadrature)
    (hq : ∀ p : MvPolynomial (Fin d) ℝ, p.totalDegree ≤ 0 → q.call (fun x => MvPolynomial.eval (fun i : Fin d => x.getD i 0) p) =
      ∫ x in simplexSet d, MvPolynomial.eval x p)
    (hx : ∀ k < q.nnodes, (fun i : Fin d => (q.node k).getD i 0) ∈ simplexSet d) (f : (Fin d → ℝ) → ℝ) (hf : ContinuousOn f (simplexSet d))
    (ε : ℝ) (hε : 0 < ε) :
    ∃ n₀, ∀ n ≥ n₀, ∀ nodes elems M, IsSubmesh d n nodes elems M →
      |(elems.map fun e => |(M e).jacobian| * q.call fun x => f ((M e).callPoint fun i => x.getD i 0)).sum - ∫ x in simplexSet d, f x| < ε := by
  have hW : 0 ≤ absWeights q := List.sum_nonneg (by
    intro x hx
    obtain ⟨k, -, rfl⟩ := List.mem_map.1 hx
    exact abs_nonneg _)
  set K := 2 * absWeights q + 1 with hK
  have hK0 : 0 < K := by linarith
  have huc := (Table.isCompact_simplexSet d).uniformContinuousOn_of_continuous hf
  rw [Metric.uniformContinuousOn_iff] at huc
  obtain ⟨s, hs, hfs⟩ := huc (ε / K) (by positivity)
  obtain ⟨n₀, hn₀⟩ := exists_nat_gt (2 / s)
  refine ⟨n₀, fun n hnn nodes elems M h => ?_⟩
  have hn0 : (0 : ℝ) < n := by exact_mod_cast h.order_pos
  have hns : 2 / (n : ℝ) < s := by
    rw [div_lt_iff₀ hn0]
    rw [div_lt_iff₀ hs] at hn₀
    have : (n₀ : ℝ) ≤ n := by exact_mod_cast hnn
    nlinarith
  have hv : (fun _ : Fin d => (-1 : ℝ)) ∈ simplexSet d := ⟨fun i => le_rfl, by simp⟩
  have := C97_error h q 0 hq hx f hf (ε / K) (fun e he => ⟨MvPolynomial.C (f ((M e).callPoint fun _ => -1)), by simp, fun y hy => ?_⟩)
  · refine this.trans_lt ?_
    rw [mul_div_assoc', div_lt_iff₀ hK0]
    nlinarith
  · rw [MvPolynomial.eval_C, ← Real.dist_eq]
    refine (hfs _ (submesh_mem h he hy) _ (submesh_mem h he hv) ?_).le
    refine lt_of_le_of_lt ((dist_pi_le_iff (by positivity)).2 fun i => ?_) hns
    rw [Real.dist_eq]
    exact submesh_diam h he hy hv i

theorem inSimplex_mem {d : Nat} {x : List ℝ} (h : InSimplex d x) : (fun i : Fin d => x.getD i 0) ∈ simplexSet d := by
  obtain ⟨hl, hb⟩ := h
  have e : x = List.ofFn fun i : Fin d => x.getD i 0 := by
    subst hl
    apply List.ext_getElem <;> simp
  constructor
  · intro i
    have := hb (i + 1) (by omega)
    rw [bary] at this
    have e1 : x.getD i (-1) = x.getD i 0 := by simp [List.getD_eq_getElem?_getD, hl]
    rw [e1] at this
    linarith
  · have := hb 0 (Nat.zero_le _)
    rw [bary, e, List.map_ofFn, List.sum_ofFn] at this
    simp only [Function.comp_apply] at this
    linarith

/-- Grundmann-Moeller rules have negative weights; on submeshes they converge for every continuous function and keep their degree. -/
theorem C97_grundmann_moeller (s d : Nat) (hd : d ≠ 0) :
    ∃ q, grundmannMoeller s d = .ok q ∧
      (∀ n nodes elems M, IsSubmesh d n nodes elems M → ∀ p : MvPolynomial (Fin d) ℝ, p.totalDegree ≤ 2 * s + 1 →
        (elems.map fun e => |(M e).jacobian| * q.call fun x => MvPolynomial.eval ((M e).callPoint fun i => x.getD i 0) p).sum =
          ∫ x in simplexSet d, MvPolynomial.eval x p) ∧
      ∀ f : (Fin d → ℝ) → ℝ, ContinuousOn f (simplexSet d) → ∀ ε > 0, ∃ n₀, ∀ n ≥ n₀, ∀ nodes elems M, IsSubmesh d n nodes elems M →
        |(elems.map fun e => |(M e).jacobian| * q.call fun x => f ((M e).callPoint fun i => x.getD i 0)).sum - ∫ x in simplexSet d, f x| < ε := by
  obtain ⟨q, hq, -, hex, -, -, hin, -⟩ := C32_exact s d hd
  refine ⟨q, hq, fun n nodes elems M h p hp => C97_exact h q _ hex p hp, fun f hf ε hε => ?_⟩
  refine C97_converges d q (fun p hp => hex p (by omega)) (fun k hk => ?_) f hf ε hε
  exact inSimplex_mem ⟨(hin k hk).1, fun m hm => ((hin k hk).2 m hm).le⟩

/-- An instance: Grundmann-Moeller rules on the 16 elements of the triangle of order 4. -/
example : ∃ q, grundmannMoeller 1 2 = .ok q ∧ ∃ nodes elems M, IsSubmesh 2 4 nodes elems M ∧ elems.length = 16 ∧
    (elems.map fun e => |(M e).jacobian| * q.call fun x => (M e).callPoint (fun i => x.getD i 0) 0 ^ 3).sum =
      ∫ x in simplexSet 2, x 0 ^ 3 := by
  obtain ⟨q, hq, hex, -⟩ := C97_grundmann_moeller 1 2 (by norm_num)
  obtain ⟨nodes, elems, M, h, -⟩ := C97_maps 2 4 (by norm_num) (by norm_num) (by norm_num)
  refine ⟨q, hq, nodes, elems, M, h, (submesh_facts h).1, ?_⟩
  have := hex 4 nodes elems M h (MvPolynomial.X 0 ^ 3) (by simp)
  have e : ∀ y : Fin 2 → ℝ, MvPolynomial.eval y (MvPolynomial.X 0 ^ 3) = y 0 ^ 3 := fun y => by rw [map_pow, MvPolynomial.eval_X]
  simpa only [e] using this

end Modepy

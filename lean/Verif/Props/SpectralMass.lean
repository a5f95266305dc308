import Verif.Proofs.Grid
import Verif.Props.SummationByParts

/-!
# Properties C80 and C81: spectral elements

The diagonal mass matrix of the tensor product Gauss and Gauss-Lobatto rules.
-/

namespace Modepy
open Spec Matrix NdArray Quadrature

theorem conforms_qn (dims n : Nat) : Conforms (.qn dims n) (.hypercube dims) n := by
  simp [Conforms, Space.flatBases, Shape.flatBases]

theorem spatialDim_qn (dims n : Nat) : (Space.qn dims n).spatialDim = dims := by
  have := conforms_spatialDim (conforms_qn dims n)
  simpa [Shape.dim, Shape.flatBases] using this

theorem length_qn (dims n : Nat) : (nodeTuples (.qn dims n)).length = (n + 1) ^ dims := by
  have : (nodeTuples (.qn dims n)).length = ((List.replicate dims (⟨1, n⟩ : PNSpace)).map PNSpace.spaceDim).prod :=
    length_nodeTuplesTP _
  rw [this]
  simp [PNSpace.spaceDim]

theorem regular_qn (dims n : Nat) (x : List ℝ) (hx : x.length = dims) : RegularFor (.qn dims n) x := by
  refine ⟨hx.trans (spatialDim_qn dims n).symm, ?_⟩
  simp only [Space.flatBases, List.map_replicate]
  induction dims generalizing x with
  | zero => exact .nil
  | succ d ih =>
    obtain _ | ⟨y, x⟩ := x
    · simp at hx
    · simp only [List.replicate_succ, slices, List.take_succ_cons, List.take_zero, List.drop_succ_cons, List.drop_zero]
      exact .cons (by simp [Regular]) (ih x (by simpa using hx))

theorem gridNode_length (dims : Nat) {n : Nat} (x : Fin (n + 1) → ℝ) (k : Nat) : (gridNode dims x k).length = dims := by
  simp [gridNode]

theorem sum_qn (dims n : Nat) (F : Nat → ℝ) :
    ∑ i : Fin (nodeTuples (.qn dims n)).length, F i = ∑ k : Fin ((n + 1) ^ dims), F k := by
  rw [← Finset.sum_range, length_qn, ← Finset.sum_range]

/-- The nodes of the grid in the order of the library. -/
noncomputable def qnNodes (dims : Nat) {n : Nat} (x : Fin (n + 1) → ℝ) (i : Fin (nodeTuples (.qn dims n)).length) : List ℝ :=
  gridNode dims x i

theorem spaceIntegral_qn_mul (dims n : Nat) (P Q : MvPolynomial (Fin dims) ℝ) (f g : List ℝ → ℝ)
    (hf : ∀ y : List ℝ, y.length = dims → f y = polyAt P y) (hg : ∀ y : List ℝ, y.length = dims → g y = polyAt Q y) :
    spaceIntegral (.qn dims n) (fun y => f y * g y) = Spec.cubeIntegral dims (polyAt (P * Q)) := by
  have hi : spaceIntegral (.qn dims n) (fun y => f y * g y) = spaceIntegral (.qn dims n) (polyAt (P * Q)) := by
    apply productIntegral_congr
    intro y hy
    have hy : y.length = dims := by
      rw [hy]
      simp [Space.flatBases]
    rw [hf y hy, hg y hy]
    simp [polyAt]
  rw [hi, spaceIntegral_polyAt (conforms_qn dims n) (by simp [Shape.dim, Shape.flatBases])]
  rfl

theorem degree_qn {dims n : Nat} {P : MvPolynomial (Fin dims) ℝ} (hP : PolyIn (.qn dims n) P) (i : Fin dims) :
    MvPolynomial.degreeOf i P ≤ n := (polyIn_cube (conforms_qn dims n) P).1 hP i

/-- A mass matrix of a product space with the nodes of an exact product rule is diagonal. -/
theorem mass_grid (dims n : Nat) (x w : Fin (n + 1) → ℝ)
    (hex : ∀ e ≤ n + n, ∑ a, w a * x a ^ e = ∫ t in (-1 : ℝ)..1, t ^ e)
    (hu : UnisolventFor (.qn dims n) (qnNodes dims x))
    (M : Matrix (Fin (nodeTuples (.qn dims n)).length) (Fin (nodeTuples (.qn dims n)).length) ℝ)
    (hM : ∀ c e, ∑ i, ∑ j, spacePoly (.qn dims n) c (qnNodes dims x i) * M i j * spacePoly (.qn dims n) e (qnNodes dims x j) =
        spaceIntegral (.qn dims n) (fun y => spacePoly (.qn dims n) c y * spacePoly (.qn dims n) e y)) :
    M = Matrix.diagonal fun i : Fin (nodeTuples (.qn dims n)).length => ∏ l : Fin dims, w (gridDigit n i l) := by
  apply form_unique _ _ hu
  intro c e
  rw [hM]
  obtain ⟨P, hP, hv⟩ := spacePoly_polyAt (.qn dims n) (spatialDim_qn dims n) c
  obtain ⟨Q, hQ, hw⟩ := spacePoly_polyAt (.qn dims n) (spatialDim_qn dims n) e
  rw [spaceIntegral_qn_mul dims n P Q _ _ hv hw, ← gridSum_exact x w hex (P * Q) fun i =>
    (MvPolynomial.degreeOf_mul_le i _ _).trans (add_le_add (degree_qn hP i) (degree_qn hQ i)), gridSum]
  simp only [Matrix.diagonal_apply, mul_ite, ite_mul, mul_zero, zero_mul, Finset.sum_ite_eq, Finset.mem_univ, if_true]
  rw [← sum_qn dims n fun k => (∏ i : Fin dims, w (gridDigit n k i)) * polyAt (P * Q) (gridNode dims x k)]
  refine Finset.sum_congr rfl fun i _ => ?_
  rw [qnNodes, hv _ (gridNode_length ..), hw _ (gridNode_length ..)]
  simp only [polyAt, map_mul]
  ring

/-- The rule with nodes `x` and weights `w` differentiates and integrates by parts on the grid. -/
theorem sbp_grid (dims n : Nat) (x w c : Fin (n + 1) → ℝ)
    (hc : ∀ e ≤ n + n, ∑ a, w a * (e * x a ^ (e - 1)) = ∑ a, c a * x a ^ e)
    (hu : UnisolventFor (.qn dims n) (qnNodes dims x))
    (D : Fin (Space.qn dims n).spatialDim →
      Matrix (Fin (nodeTuples (.qn dims n)).length) (Fin (nodeTuples (.qn dims n)).length) ℝ)
    (hD : ∀ c i, IsGradientAt (Space.qn dims n).spatialDim (spacePoly (.qn dims n) c) (qnNodes dims x i)
        (List.ofFn fun k => ∑ j, D k i j * spacePoly (.qn dims n) c (qnNodes dims x j)))
    (k : Fin (Space.qn dims n).spatialDim) :
    Matrix.diagonal (fun i : Fin (nodeTuples (.qn dims n)).length => ∏ l : Fin dims, w (gridDigit n i l)) * D k +
        (D k)ᵀ * Matrix.diagonal (fun i : Fin (nodeTuples (.qn dims n)).length => ∏ l : Fin dims, w (gridDigit n i l)) =
      Matrix.diagonal fun i : Fin (nodeTuples (.qn dims n)).length =>
        ∏ l : Fin dims, (if (l : Nat) = k then c else w) (gridDigit n i l) := by
  have hk : (k : Nat) < dims := lt_of_lt_of_eq k.2 (spatialDim_qn dims n)
  set k' : Fin dims := ⟨k, hk⟩ with hk'
  apply form_unique _ _ hu
  intro c1 e1
  obtain ⟨P, hP, hv⟩ := spacePoly_polyAt (.qn dims n) (spatialDim_qn dims n) c1
  obtain ⟨Q, hQ, hw⟩ := spacePoly_polyAt (.qn dims n) (spatialDim_qn dims n) e1
  have grad : ∀ (c) (P : MvPolynomial (Fin dims) ℝ),
      (∀ y : List ℝ, y.length = dims → spacePoly (.qn dims n) c y = polyAt P y) → ∀ i,
      ∑ j, D k i j * spacePoly (.qn dims n) c (qnNodes dims x j) = polyAt (MvPolynomial.pderiv k' P) (qnNodes dims x i) := by
    intro c P hv i
    have a := (hD c i).2 k k.2
    have b := isPartial_polyAt P k' (qnNodes dims x i) (gridNode_length ..)
    have e : (fun t => spacePoly (.qn dims n) c ((qnNodes dims x i).set k t)) = fun t => polyAt P ((qnNodes dims x i).set k t) := by
      funext t
      exact hv _ (by rw [List.length_set]; exact gridNode_length ..)
    rw [e] at a
    have := a.unique b
    rw [← this]
    simp [List.getD_eq_getElem?_getD]
  have key := gridSum_pderiv x w c hc (P * Q) k'
    ((MvPolynomial.degreeOf_mul_le k' _ _).trans (add_le_add (degree_qn hP k') (degree_qn hQ k')))
  simp only [gridSum] at key
  rw [← sum_qn dims n fun k => (∏ i : Fin dims, w (gridDigit n k i)) * polyAt (MvPolynomial.pderiv k' (P * Q)) (gridNode dims x k),
    ← sum_qn dims n fun k => (∏ i : Fin dims, (if i = k' then c else w) (gridDigit n k i)) * polyAt (P * Q) (gridNode dims x k)] at key
  have hr : ∑ i, ∑ j, spacePoly (.qn dims n) c1 (qnNodes dims x i) *
        (Matrix.diagonal fun i : Fin (nodeTuples (.qn dims n)).length =>
          ∏ l : Fin dims, (if (l : Nat) = k then c else w) (gridDigit n i l)) i j *
        spacePoly (.qn dims n) e1 (qnNodes dims x j) =
      ∑ i : Fin (nodeTuples (.qn dims n)).length, (∏ l : Fin dims, (if l = k' then c else w) (gridDigit n i l)) *
        polyAt (P * Q) (gridNode dims x i) := by
    simp only [Matrix.diagonal_apply, mul_ite, ite_mul, mul_zero, zero_mul, Finset.sum_ite_eq, Finset.mem_univ, if_true]
    refine Finset.sum_congr rfl fun i _ => ?_
    rw [qnNodes, hv _ (gridNode_length ..), hw _ (gridNode_length ..)]
    simp only [polyAt, map_mul, hk', Fin.ext_iff]
    ring
  rw [hr, ← key]
  simp only [Matrix.add_apply, Matrix.diagonal_mul, Matrix.mul_diagonal, Matrix.transpose_apply, mul_add, add_mul,
    Finset.sum_add_distrib]
  rw [Finset.sum_comm (f := fun i j => spacePoly (.qn dims n) c1 (qnNodes dims x i) *
    (D k j i * ∏ l : Fin dims, w (gridDigit n j l)) * spacePoly (.qn dims n) e1 (qnNodes dims x j)), ← Finset.sum_add_distrib]
  refine Finset.sum_congr rfl fun i _ => ?_
  have g1 := grad c1 P hv i
  have g2 := grad e1 Q hw i
  have v1 : spacePoly (.qn dims n) c1 (qnNodes dims x i) = polyAt P (gridNode dims x i) := hv _ (gridNode_length ..)
  have v2 : spacePoly (.qn dims n) e1 (qnNodes dims x i) = polyAt Q (gridNode dims x i) := hw _ (gridNode_length ..)
  have s1 : ∑ j, spacePoly (.qn dims n) c1 (qnNodes dims x i) * ((∏ l : Fin dims, w (gridDigit n i l)) * D k i j) *
      spacePoly (.qn dims n) e1 (qnNodes dims x j) =
      (∏ l : Fin dims, w (gridDigit n i l)) * (polyAt P (gridNode dims x i) * polyAt (MvPolynomial.pderiv k' Q) (gridNode dims x i)) := by
    rw [← v1, show polyAt (MvPolynomial.pderiv k' Q) (gridNode dims x i) = _ from g2.symm, Finset.mul_sum, Finset.mul_sum]
    exact Finset.sum_congr rfl fun j _ => by ring
  have s2 : ∑ j, spacePoly (.qn dims n) c1 (qnNodes dims x j) * (D k i j * ∏ l : Fin dims, w (gridDigit n i l)) *
      spacePoly (.qn dims n) e1 (qnNodes dims x i) =
      (∏ l : Fin dims, w (gridDigit n i l)) * (polyAt (MvPolynomial.pderiv k' P) (gridNode dims x i) * polyAt Q (gridNode dims x i)) := by
    rw [← v2, show polyAt (MvPolynomial.pderiv k' P) (gridNode dims x i) = _ from g1.symm, Finset.sum_mul, Finset.mul_sum]
    exact Finset.sum_congr rfl fun j _ => by ring
  rw [s1, s2, MvPolynomial.pderiv_mul]
  simp only [polyAt, map_add, map_mul]
  ring

/-! ## Gauss nodes -/

theorem column_gridNode (dims n : Nat) (A : NdArray ℝ) (x : Fin (n + 1) → ℝ)
    (h : ∀ i k, i < dims → k < (n + 1) ^ dims → A.get [i, k] = x ⟨k / (n + 1) ^ i % (n + 1), Nat.mod_lt _ (Nat.succ_pos n)⟩)
    (k : Nat) (hk : k < (n + 1) ^ dims) : column A dims k = gridNode dims x k := by
  apply List.ext_getElem
  · simp [column, gridNode]
  · intro i h1 h2
    have hi : i < dims := by simpa [column] using h1
    simp [column, gridNode, h i k hi hk, gridDigit]

theorem qn_dims (dims n : Nat) : ∀ s ∈ (Space.qn dims n).flatBases, 1 ≤ s.spatialDim ∧ s.spatialDim ≤ 3 := by
  intro s hs
  rw [List.eq_of_mem_replicate hs]
  simp

theorem spectralDiag_replicate (Q : Quadrature) (dims : Nat) (h : Q.factorDims = some (List.replicate dims 1)) :
    spectralDiag Q = .ok Q.weights := by
  simp [spectralDiag, h]

theorem mass_qn (dims n : Nat) (b : Basis ℝ)
    (hb : orthonormalBasisForSpace (.qn dims n) (.hypercube dims) = .ok b ∨ basisForSpace (.qn dims n) (.hypercube dims) = .ok b)
    (nodes : Fin (nodeTuples (.qn dims n)).length → List ℝ) (hl : ∀ i, (nodes i).length = dims)
    (hu : UnisolventFor (.qn dims n) nodes) :
    ∃ M, massMatrixOfBasis b nodes = .ok M ∧ ∀ c e,
      ∑ i, ∑ j, spacePoly (.qn dims n) c (nodes i) * M i j * spacePoly (.qn dims n) e (nodes j) =
        spaceIntegral (.qn dims n) (fun x => spacePoly (.qn dims n) c x * spacePoly (.qn dims n) e x) := by
  rcases hb with hb | hb
  · exact C75_mass _ _ b hb (qn_dims dims n) nodes (fun i => regular_qn dims n _ (hl i)) hu
  · exact C75_mass_basis _ _ b hb (qn_dims dims n) nodes (fun i => regular_qn dims n _ (hl i)) hu

theorem diff_qn (dims n : Nat) (b : Basis ℝ)
    (hb : orthonormalBasisForSpace (.qn dims n) (.hypercube dims) = .ok b ∨ basisForSpace (.qn dims n) (.hypercube dims) = .ok b)
    (h0 : (Space.qn dims n).spatialDim ≠ 0) (nodes : Fin (nodeTuples (.qn dims n)).length → List ℝ) (hl : ∀ i, (nodes i).length = dims)
    (hu : UnisolventFor (.qn dims n) nodes) :
    ∃ D, diffMatricesOf (Space.qn dims n).spatialDim b nodes nodes = .ok D ∧ ∀ c i,
      IsGradientAt (Space.qn dims n).spatialDim (spacePoly (.qn dims n) c) (nodes i)
        (List.ofFn fun k => ∑ j, D k i j * spacePoly (.qn dims n) c (nodes j)) := by
  have hr := fun i => regular_qn dims n _ (hl i)
  rcases hb with hb | hb
  · exact C76_orthonormal _ _ b hb (qn_dims dims n) h0 nodes nodes hr hr hu
  · exact C76_basis _ _ b hb (fun s hs => (qn_dims dims n s hs).1) h0 nodes nodes hr hr hu

/-- **C80 (Gauss nodes).**  For every dimension and order, `LegendreGaussTensorProductQuadrature(n, dims)` has the nodes
`legendre_gauss_tensor_product_nodes(dims, n)`, `spectral_diag_nodal_mass_matrix` of it is accepted, and the matrix with that
diagonal is `mass_matrix` of the (orthonormal) basis of `QN(dims, n)` at those nodes. -/
theorem C80_gauss (ext : Ext) (hext : ext.EighOk) (dims n : Nat) (hd : 0 < dims) (b : Basis ℝ)
    (hb : orthonormalBasisForSpace (.qn dims n) (.hypercube dims) = .ok b ∨ basisForSpace (.qn dims n) (.hypercube dims) = .ok b) :
    ∃ A Q w M, legendreGaussTensorProductNodes ext dims n = .ok A ∧ legendreGaussTensorProduct ext n dims .builtin = .ok Q ∧
      A.shape = [dims, (n + 1) ^ dims] ∧ Q.nodes.shape = A.shape ∧
      (∀ i k, i < dims → k < (n + 1) ^ dims → Q.nodes.get [i, k] = A.get [i, k]) ∧
      spectralDiag Q = .ok w ∧ w.shape = [(n + 1) ^ dims] ∧
      massMatrixOfBasis b (fun i : Fin (nodeTuples (.qn dims n)).length => column A dims i) = .ok M ∧
      ∀ i j, M i j = if i = j then w.get [(i : Nat)] else 0 := by
  obtain ⟨x, w, hok, hex, -, hx, -, -⟩ := compute_facts ext hext gaussParams_zero n
  obtain ⟨A, x', hA, hAs, -, -, ⟨q, hq, hqx⟩, hget, hu⟩ := C70_legendre_gauss ext hext dims n hd
  have hq' := gauss_ok ext 0 0 n false x w hok
  rw [legendreGaussQuadrature, hq'] at hq
  injection hq with hq
  have hxx : x' = x := by
    rw [← hq] at hqx
    funext i
    have h1 := ofFn_get x' i
    have h2 := ofFn_get x i
    rw [← h1, ← h2, ← hqx]
    rfl
  subst hxx
  obtain ⟨Q, hQ, hs1, hs2, hfac, hwt, -, hnodes⟩ := tensor_rule dims n hd x' w (2 * n + 1)
  have hcol : (fun i : Fin (nodeTuples (.qn dims n)).length => column A dims i) = qnNodes dims x' := by
    funext i
    exact column_gridNode dims n A x' hget i (lt_of_lt_of_eq i.2 (length_qn dims n))
  rw [hcol] at hu
  obtain ⟨M, hM, hm⟩ := mass_qn dims n b hb (qnNodes dims x') (fun i => gridNode_length ..) hu
  have hdiag := mass_grid dims n x' w (fun e he => by
    have := hex (Polynomial.X ^ e) (by simp; omega)
    simpa using this) hu M hm
  refine ⟨A, Q, Q.weights, M, hA, ?_, hAs, hs1.trans hAs.symm, ?_, spectralDiag_replicate Q dims hfac, hs2, ?_, ?_⟩
  · rw [legendreGaussTensorProduct, legendreGaussQuadrature, gauss_ok ext 0 0 n true x' w hok]
    exact hQ
  · intro i k hi hk
    rw [hnodes i k hi hk, hget i k hi hk]
    rfl
  · rw [hcol]
    exact hM
  · intro i j
    rw [hdiag, Matrix.diagonal_apply, hwt i (lt_of_lt_of_eq i.2 (length_qn dims n))]

/-! ## Gauss-Lobatto nodes -/

/-- What the Legendre-Gauss-Lobatto rule is. -/
theorem lobatto_rule_facts (ext : Ext) (hext : ext.EighOk) (n : Nat) (hn : 1 ≤ n) :
    ∃ (x w : Fin (n + 1) → ℝ) (r : ℚ), legendreGaussLobattoQuadrature ext n .builtin true =
        .ok ⟨nodes1D x true, ofFn w, some (.num r), none⟩ ∧
      legendreGaussLobattoNodes ext n .builtin false = .ok (ofFn x) ∧ StrictMono x ∧ x 0 = -1 ∧ x (Fin.last n) = 1 ∧
      (∀ a, 0 < w a) ∧ ∀ e ≤ 2 * n - 1, ∑ a, w a * x a ^ e = ∫ t in (-1 : ℝ)..1, t ^ e := by
  obtain ⟨m, rfl⟩ : ∃ m, n = m + 1 := ⟨n - 1, by omega⟩
  obtain ⟨x, v, hok, h0, h1, hmono, -⟩ := lobattoNodes_facts ext hext (α := 0) (β := 0) (by norm_num) (by norm_num) m
  obtain ⟨q, hq, -, hex, -, -, hpos, -⟩ := C29_legendre ext hext (m + 1) hn true
  have hq' := lobatto_ok ext 0 0 m true x hok
  rw [legendreGaussLobattoQuadrature, hq'] at hq
  injection hq with hq
  refine ⟨x, _, _, hq', ?_, hmono, h0, h1, ?_, ?_⟩
  · rw [legendreGaussLobattoNodes, jacobiGaussLobattoNodes, hok]
    rfl
  · intro a
    have := hpos a (by omega)
    rw [← hq] at this
    have e := ofFn_get (fun i : Fin (m + 2) =>
      if (i : Nat) = 0 ∨ (i : Nat) = m + 1 then lobattoEdgeWeight 0 0 m else lobattoInteriorWeight 0 0 m (x i)) a
    exact lt_of_lt_of_eq this e
  · intro e he
    have := hex (Polynomial.X ^ e) (by simpa using he)
    rw [← hq, call_nodes1D] at this
    simpa using this

/-- The derivative weights of the Gauss-Lobatto rule sit at the end points. -/
theorem lobatto_ends (n : Nat) (hn : 1 ≤ n) (x w : Fin (n + 1) → ℝ) (hx : StrictMono x) (h0 : x 0 = -1) (h1 : x (Fin.last n) = 1)
    (hex : ∀ e ≤ 2 * n - 1, ∑ a, w a * x a ^ e = ∫ t in (-1 : ℝ)..1, t ^ e) (e : Nat) (he : e ≤ n + n) :
    ∑ a, w a * (e * x a ^ (e - 1)) = ∑ a, (if x a = 1 then 1 else if x a = -1 then -1 else 0) * x a ^ e := by
  have e1 : ∀ a, x a = 1 ↔ a = Fin.last n := fun a => by rw [← h1]; exact hx.injective.eq_iff
  have e0 : ∀ a, x a = -1 ↔ a = 0 := fun a => by rw [← h0]; exact hx.injective.eq_iff
  have hne : (0 : Fin (n + 1)) ≠ Fin.last n := by
    intro h
    have := congrArg Fin.val h
    simp at this
    omega
  have hr : ∑ a, (if x a = 1 then 1 else if x a = -1 then -1 else 0) * x a ^ e = (1 : ℝ) - (-1) ^ e := by
    have : ∀ a, (if x a = 1 then (1 : ℝ) else if x a = -1 then -1 else 0) * x a ^ e =
        (if a = Fin.last n then 1 else 0) + if a = 0 then -(-1) ^ e else 0 := by
      intro a
      simp only [e1, e0]
      by_cases ha : a = Fin.last n
      · subst ha
        simp [h1, Ne.symm hne]
      · by_cases hb : a = 0
        · subst hb
          simp [ha, h0]
        · simp [ha, hb]
    simp only [this, Finset.sum_add_distrib, Finset.sum_ite_eq', Finset.mem_univ, if_true]
    ring
  rw [hr]
  cases e with
  | zero => simp
  | succ e =>
    have := hex e (by omega)
    rw [integral_pow] at this
    have hp : (e : ℝ) + 1 ≠ 0 := by positivity
    rw [Finset.sum_congr rfl fun a _ => (by simp; ring : w a * (((e + 1 : ℕ) : ℝ) * x a ^ (e + 1 - 1)) = (e + 1) * (w a * x a ^ e)),
      ← Finset.mul_sum, this]
    field_simp
    simp

/-- The nodes, the rule, and the basis on the Gauss-Lobatto grid. -/
theorem lobatto_setup (ext : Ext) (hext : ext.EighOk) (dims n : Nat) (hd : 0 < dims) (hn : 1 ≤ n) :
    ∃ A Q x w r, legendreGaussLobattoTensorProductNodes ext dims n = .ok A ∧
      legendreGaussLobattoTensorProduct ext n dims .builtin = .ok Q ∧
      A.shape = [dims, (n + 1) ^ dims] ∧ Q.nodes.shape = A.shape ∧
      (∀ i k, i < dims → k < (n + 1) ^ dims → Q.nodes.get [i, k] = A.get [i, k]) ∧
      spectralDiag Q = .ok Q.weights ∧ Q.weights.shape = [(n + 1) ^ dims] ∧
      legendreGaussLobattoQuadrature ext n .builtin true = .ok ⟨nodes1D x true, ofFn w, some (.num r), none⟩ ∧
      StrictMono x ∧ x 0 = -1 ∧ x (Fin.last n) = 1 ∧
      (∀ a, 0 < w a) ∧ (∀ e ≤ 2 * n - 1, ∑ a, w a * x a ^ e = ∫ t in (-1 : ℝ)..1, t ^ e) ∧
      (∀ k < (n + 1) ^ dims, Q.weights.get [k] = ∏ i : Fin dims, w (gridDigit n k i)) ∧
      (∀ i k, i < dims → k < (n + 1) ^ dims → A.get [i, k] = x (gridDigit n k i)) ∧
      (fun i : Fin (nodeTuples (.qn dims n)).length => column A dims i) = qnNodes dims x ∧
      UnisolventFor (.qn dims n) (qnNodes dims x) := by
  obtain ⟨x, w, r, hq, hnod, hx, h0, h1, hpos, hex⟩ := lobatto_rule_facts ext hext n hn
  obtain ⟨A, x', hA, hAs, hnod', -, -, -, hget, hu⟩ := C70_legendre_gauss_lobatto ext hext dims n hd
  have hxx : x' = x := by
    rw [hnod] at hnod'
    injection hnod' with h
    funext i
    rw [← ofFn_get x' i, ← ofFn_get x i, h]
  subst hxx
  obtain ⟨Q, hQ, hs1, hs2, hfac, hwt, -, hnodes⟩ := tensor_rule dims n hd x' w r
  have hcol : (fun i : Fin (nodeTuples (.qn dims n)).length => column A dims i) = qnNodes dims x' := by
    funext i
    exact column_gridNode dims n A x' hget i (lt_of_lt_of_eq i.2 (length_qn dims n))
  rw [hcol] at hu
  refine ⟨A, Q, x', w, r, hA, ?_, hAs, hs1.trans hAs.symm, ?_, spectralDiag_replicate Q dims hfac, hs2, hq, hx, h0, h1, hpos, hex,
    hwt, hget, hcol, hu⟩
  · rw [legendreGaussLobattoTensorProduct, hq]
    exact hQ
  · intro i k hi hk
    rw [hnodes i k hi hk, hget i k hi hk]
    rfl

/-- **C81.**  Gauss-Lobatto spectral elements sum by parts: for every dimension and order `n ≥ 1`, with the nodes
`legendre_gauss_lobatto_tensor_product_nodes(dims, n)`, `w = spectral_diag_nodal_mass_matrix` of
`LegendreGaussLobattoTensorProductQuadrature(n, dims)` and the differentiation matrices of the (orthonormal) basis of
`QN(dims, n)`, the matrix `diag(w) D_k + D_kᵀ diag(w)` is diagonal; its entry at a node on the face `x_k = 1` is the product of
the other one-dimensional weights, on `x_k = -1` minus that, and zero at all other nodes. -/
theorem C81_lobatto (ext : Ext) (hext : ext.EighOk) (dims n : Nat) (hd : 0 < dims) (hn : 1 ≤ n) (b : Basis ℝ)
    (hb : orthonormalBasisForSpace (.qn dims n) (.hypercube dims) = .ok b ∨ basisForSpace (.qn dims n) (.hypercube dims) = .ok b) :
    ∃ A Q w q D, legendreGaussLobattoTensorProductNodes ext dims n = .ok A ∧
      legendreGaussLobattoTensorProduct ext n dims .builtin = .ok Q ∧
      A.shape = [dims, (n + 1) ^ dims] ∧ Q.nodes.shape = A.shape ∧
      (∀ i k, i < dims → k < (n + 1) ^ dims → Q.nodes.get [i, k] = A.get [i, k]) ∧
      spectralDiag Q = .ok w ∧ w.shape = [(n + 1) ^ dims] ∧
      legendreGaussLobattoQuadrature ext n .builtin true = .ok q ∧
      diffMatricesOf (Space.qn dims n).spatialDim b (fun i : Fin (nodeTuples (.qn dims n)).length => column A dims i)
        (fun i : Fin (nodeTuples (.qn dims n)).length => column A dims i) = .ok D ∧
      ∀ (k : Fin (Space.qn dims n).spatialDim) (i j : Fin (nodeTuples (.qn dims n)).length), w.get [(i : Nat)] * D k i j + D k j i * w.get [(j : Nat)] =
        if i = j then
          (if A.get [(k : Nat), (i : Nat)] = 1 then 1 else if A.get [(k : Nat), (i : Nat)] = -1 then -1 else 0) *
            ∏ l ∈ (Finset.range dims).erase k, q.weights.get [i / (n + 1) ^ l % (n + 1)]
        else 0 := by
  obtain ⟨A, Q, x, w, r, hA, hQ, hAs, hQs, hnodes, hdiag, hws, hq, hx, h0, h1, hpos, hex, hwt, hget, hcol, hu⟩ :=
    lobatto_setup ext hext dims n hd hn
  obtain ⟨D, hD, hg⟩ := diff_qn dims n b hb (by rw [conforms_spatialDim (conforms_qn dims n)]; simpa [Shape.dim] using hd.ne') (qnNodes dims x) (fun i => gridNode_length ..) hu
  refine ⟨A, Q, _, _, D, hA, hQ, hAs, hQs, hnodes, hdiag, hws, hq, by rw [hcol]; exact hD, ?_⟩
  intro k i j
  have key := congrFun (congrFun (sbp_grid dims n x w _ (lobatto_ends n hn x w hx h0 h1 hex) hu D hg k) i) j
  rw [Matrix.add_apply, Matrix.diagonal_mul, Matrix.mul_diagonal, Matrix.transpose_apply, Matrix.diagonal_apply] at key
  have hlt : ∀ i : Fin (nodeTuples (.qn dims n)).length, (i : Nat) < (n + 1) ^ dims := fun i => lt_of_lt_of_eq i.2 (length_qn dims n)
  rw [hwt i (hlt i), hwt j (hlt j), key]
  refine ite_congr rfl (fun _ => ?_) fun _ => rfl
  have hk : (k : Nat) < dims := lt_of_lt_of_eq k.2 (spatialDim_qn dims n)
  rw [hget k i hk (hlt i), Fin.prod_univ_eq_prod_range (fun l => (if l = (k : Nat) then
      (fun a => if x a = 1 then (1 : ℝ) else if x a = -1 then -1 else 0) else w) (gridDigit n i l)) dims,
    ← Finset.mul_prod_erase _ _ (Finset.mem_range.2 hk), if_pos rfl]
  congr 1
  refine Finset.prod_congr rfl fun l hl => ?_
  rw [if_neg (Finset.ne_of_mem_erase hl)]
  exact (ofFn_get w (gridDigit n i l)).symm

/-- **C80 (Gauss-Lobatto nodes).**  With the Gauss-Lobatto nodes and rule the diagonal matrix is only approximate: it integrates
`u v` exactly when the orders of `u` and `v` add up to at most `2 n - 1`, but `mass_matrix` is not diagonal. -/
theorem C80_lobatto (ext : Ext) (hext : ext.EighOk) (dims n : Nat) (hd : 0 < dims) (hn : 1 ≤ n) (b : Basis ℝ)
    (hb : orthonormalBasisForSpace (.qn dims n) (.hypercube dims) = .ok b ∨ basisForSpace (.qn dims n) (.hypercube dims) = .ok b) :
    ∃ A Q w, ∃ M : Matrix (Fin (nodeTuples (.qn dims n)).length) (Fin (nodeTuples (.qn dims n)).length) ℝ,
      legendreGaussLobattoTensorProductNodes ext dims n = .ok A ∧
      legendreGaussLobattoTensorProduct ext n dims .builtin = .ok Q ∧
      A.shape = [dims, (n + 1) ^ dims] ∧ Q.nodes.shape = A.shape ∧
      (∀ i k, i < dims → k < (n + 1) ^ dims → Q.nodes.get [i, k] = A.get [i, k]) ∧
      spectralDiag Q = .ok w ∧ w.shape = [(n + 1) ^ dims] ∧
      (∀ N N', N + N' ≤ 2 * n - 1 → ∀ c e,
        ∑ k : Fin ((n + 1) ^ dims), w.get [(k : Nat)] *
            (spacePoly (.qn dims N) c (column A dims k) * spacePoly (.qn dims N') e (column A dims k)) =
          Spec.shapeIntegral (.hypercube dims) fun y => spacePoly (.qn dims N) c y * spacePoly (.qn dims N') e y) ∧
      massMatrixOfBasis b (fun i : Fin (nodeTuples (.qn dims n)).length => column A dims i) = .ok M ∧
      ∃ i j, i ≠ j ∧ M i j ≠ 0 := by
  obtain ⟨A, Q, x, w, r, hA, hQ, hAs, hQs, hnodes, hdiag, hws, hq, hx, h0, h1, hpos, hex, hwt, hget, hcol, hu⟩ :=
    lobatto_setup ext hext dims n hd hn
  obtain ⟨M, hM, hm⟩ := mass_qn dims n b hb (qnNodes dims x) (fun i => gridNode_length ..) hu
  refine ⟨A, Q, _, M, hA, hQ, hAs, hQs, hnodes, hdiag, hws, ?_, by rw [hcol]; exact hM, ?_⟩
  · intro N N' hN c e
    obtain ⟨P, hP, hv⟩ := spacePoly_polyAt (.qn dims N) (spatialDim_qn dims N) c
    obtain ⟨R, hR, hw⟩ := spacePoly_polyAt (.qn dims N') (spatialDim_qn dims N') e
    have hi : (Spec.shapeIntegral (.hypercube dims) fun y => spacePoly (.qn dims N) c y * spacePoly (.qn dims N') e y) =
        Spec.cubeIntegral dims (polyAt (P * R)) := by
      apply shapeIntegral_congr (.hypercube dims)
      intro y hy
      have hy : y.length = dims := by simpa [Shape.dim, Shape.flatBases] using hy
      rw [hv y hy, hw y hy]
      simp [polyAt]
    rw [hi, ← gridSum_exact x w hex (P * R) fun i =>
      (MvPolynomial.degreeOf_mul_le i _ _).trans ((add_le_add (degree_qn hP i) (degree_qn hR i)).trans hN), gridSum]
    refine Finset.sum_congr rfl fun k _ => ?_
    rw [column_gridNode dims n A x hget k k.2, hwt k k.2, hv _ (gridNode_length ..), hw _ (gridNode_length ..)]
    simp [polyAt]
  · by_contra hc
    push Not at hc
    obtain ⟨y, v, -, hexG, hvpos, hy, hin, -⟩ := compute_facts ext hext gaussParams_zero n
    set k0 : Fin dims := ⟨0, hd⟩ with hk0
    set F : Fin (n + 1) → MvPolynomial (Fin dims) ℝ := fun m =>
      ∏ a ∈ Finset.univ.erase m, (MvPolynomial.X k0 - MvPolynomial.C (x a)) with hF
    have hdeg : ∀ m, PolyIn (.qn dims n) (F m) := by
      intro m
      rw [polyIn_cube (conforms_qn dims n)]
      intro i
      refine (MvPolynomial.degreeOf_prod_le _ _ _).trans ?_
      refine (Finset.sum_le_card_nsmul _ _ 1 fun a _ => ?_).trans (by simp)
      refine (MvPolynomial.degreeOf_sub_le _ _ _).trans ?_
      simp [MvPolynomial.degreeOf_C, MvPolynomial.degreeOf_X]
      split <;> omega
    have hval : ∀ m (z : List ℝ), polyAt (F m) z = ∏ a ∈ Finset.univ.erase m, (z.getD 0 0 - x a) := by
      intro m z
      simp [hF, polyAt, map_prod, hk0]
    obtain ⟨c, hcv⟩ := polyAt_spacePoly (.qn dims n) (spatialDim_qn dims n) (F (Fin.last n)) (hdeg _)
    obtain ⟨e, hev⟩ := polyAt_spacePoly (.qn dims n) (spatialDim_qn dims n) (F 0) (hdeg _)
    have hz := hm c e
    rw [spaceIntegral_qn_mul dims n (F (Fin.last n)) (F 0) _ _ (fun y hy => (hcv y hy).symm) (fun y hy => (hev y hy).symm),
      ← gridSum_exact y v (fun e he => by
        have := hexG (Polynomial.X ^ e) (by simp; omega)
        simpa using this) (F (Fin.last n) * F 0) fun i =>
      (MvPolynomial.degreeOf_mul_le i _ _).trans (add_le_add (degree_qn (hdeg _) i) (degree_qn (hdeg _) i))] at hz
    have hne : (0 : Fin (n + 1)) ≠ Fin.last n := by
      intro h
      have := congrArg Fin.val h
      simp at this
      omega
    have hl0 : ∑ i, ∑ j, spacePoly (.qn dims n) c (qnNodes dims x i) * M i j * spacePoly (.qn dims n) e (qnNodes dims x j) = 0 := by
      refine Finset.sum_eq_zero fun i _ => Finset.sum_eq_zero fun j _ => ?_
      by_cases hij : i = j
      · subst hij
        rw [← hcv (qnNodes dims x i) (gridNode_length ..), ← hev (qnNodes dims x i) (gridNode_length ..), hval, hval]
        have hg : (qnNodes dims x i).getD 0 0 = x (gridDigit n i 0) := by
          simp [qnNodes, gridNode, List.getD_eq_getElem?_getD, hd]
        rw [hg]
        by_cases hdg : gridDigit n i 0 = 0
        · rw [Finset.prod_eq_zero (i := gridDigit n i 0) (Finset.mem_erase.2 ⟨by rw [hdg]; exact hne, Finset.mem_univ _⟩) (sub_self _)]
          simp
        · rw [mul_comm, Finset.prod_eq_zero (i := gridDigit n i 0) (Finset.mem_erase.2 ⟨hdg, Finset.mem_univ _⟩) (sub_self _), zero_mul]
      · rw [hc i j hij]
        simp
    have hsq : ∀ t : ℝ, (∏ a ∈ Finset.univ.erase (Fin.last n), (t - x a)) * ∏ a ∈ Finset.univ.erase (0 : Fin (n + 1)), (t - x a) =
        -((1 - t ^ 2) * (∏ a ∈ (Finset.univ.erase (Fin.last n)).erase 0, (t - x a)) ^ 2) := by
      intro t
      rw [← Finset.mul_prod_erase _ _ (Finset.mem_erase.2 ⟨hne, Finset.mem_univ (0 : Fin (n + 1))⟩),
        ← Finset.mul_prod_erase _ _ (Finset.mem_erase.2 ⟨hne.symm, Finset.mem_univ (Fin.last n)⟩), Finset.erase_right_comm, h0, h1]
      ring
    have hterm : ∀ k : Fin ((n + 1) ^ dims), (∏ i : Fin dims, v (gridDigit n k i)) *
        polyAt (F (Fin.last n) * F 0) (gridNode dims y k) = -((∏ i : Fin dims, v (gridDigit n k i)) *
          ((1 - y (gridDigit n k 0) ^ 2) * (∏ a ∈ (Finset.univ.erase (Fin.last n)).erase 0, (y (gridDigit n k 0) - x a)) ^ 2)) := by
      intro k
      have hg : (gridNode dims y k).getD 0 0 = y (gridDigit n k 0) := by
        simp [gridNode, List.getD_eq_getElem?_getD, hd]
      have : polyAt (F (Fin.last n) * F 0) (gridNode dims y k) =
          polyAt (F (Fin.last n)) (gridNode dims y k) * polyAt (F 0) (gridNode dims y k) := by simp [polyAt]
      rw [this, hval, hval, hg, hsq]
      ring
    rw [hl0, gridSum, Finset.sum_congr rfl fun k _ => hterm k, Finset.sum_neg_distrib, eq_comm, neg_eq_zero,
      Finset.sum_eq_zero_iff_of_nonneg] at hz
    · have hall : ∀ a : Fin (n + 1), ∃ a', y a = x a' := by
        intro a
        have := hz (finFunctionFinEquiv fun _ => a) (Finset.mem_univ _)
        have hdg : gridDigit n (finFunctionFinEquiv (m := n + 1) (n := dims) fun _ => a) 0 = a := by
          have := congrFun (finFunctionFinEquiv.symm_apply_apply (fun _ : Fin dims => a)) k0
          exact this
        rw [hdg] at this
        have hp := Finset.prod_pos fun (i : Fin dims) (_ : i ∈ Finset.univ) => hvpos (gridDigit n (finFunctionFinEquiv (m := n + 1) (n := dims) fun _ => a) i)
        have h2 : (1 : ℝ) - y a ^ 2 ≠ 0 := by
          have := hin a
          nlinarith
        rcases mul_eq_zero.1 this with h | h
        · exact absurd h hp.ne'
        · rcases mul_eq_zero.1 h with h | h
          · exact absurd h h2
          · obtain ⟨a', -, h⟩ := Finset.prod_eq_zero_iff.1 (pow_eq_zero_iff (two_ne_zero)|>.1 h)
            exact ⟨a', sub_eq_zero.1 h⟩
      choose g hg using hall
      have hinj : Function.Injective g := by
        intro a a' h
        apply hy.injective
        rw [hg, hg, h]
      obtain ⟨a, ha⟩ := (Finite.injective_iff_surjective.1 hinj) 0
      have h3 := hg a
      rw [ha, h0] at h3
      have := (hin a).1
      rw [h3] at this
      exact lt_irrefl _ this
    · intro k _
      have := hin (gridDigit n k 0)
      refine mul_nonneg (Finset.prod_nonneg fun i _ => (hvpos _).le) (mul_nonneg (by nlinarith) (sq_nonneg _))

/-- `orthonormal_basis_for_space(QN(dims, n), Hypercube(dims))` succeeds, and an `eigh` meeting its documentation exists: the
hypotheses are met, for instance, on the square with order three. -/
example : ∃ (ext : Ext) (b : Basis ℝ), ext.EighOk ∧ orthonormalBasisForSpace (.qn 2 3) (.hypercube 2) = .ok b ∧
    ∃ A Q w M, legendreGaussTensorProductNodes ext 2 3 = .ok A ∧ legendreGaussTensorProduct ext 3 2 .builtin = .ok Q ∧
      A.shape = [2, 16] ∧ spectralDiag Q = .ok w ∧
      massMatrixOfBasis b (fun i : Fin (nodeTuples (.qn 2 3)).length => column A 2 i) = .ok M ∧
      ∀ i j, M i j = if i = j then w.get [(i : Nat)] else 0 := by
  obtain ⟨ext, hext⟩ := exists_eighOk
  obtain ⟨b, hb⟩ : ∃ b : Basis ℝ, orthonormalBasisForSpace (.qn 2 3) (.hypercube 2) = .ok b := by
    simp only [orthonormalBasisForSpace, basisForSpaceWith]
    rw [if_neg (by simp [Space.spatialDim, Space.flatBases, Shape.dim, Shape.flatBases]), if_neg (by simp [Space.flatBases, Shape.flatBases])]
    exact ⟨_, rfl⟩
  obtain ⟨A, Q, w, M, h1, h2, h3, -, -, h4, -, h5, h6⟩ := C80_gauss ext hext 2 3 (by norm_num) b (Or.inl hb)
  exact ⟨ext, b, hext, hb, A, Q, w, M, h1, h2, h3, h4, h5, h6⟩

end Modepy

import Verif.Props.LobattoNorm

/-!
# Property C100: the diagonal of the inverse mass matrix bounds point values, weights of quadrature rules and traces
-/

namespace Modepy
open Spec NdArray Matrix MeasureTheory Quadrature Polynomial

/-- The squares of the values at `x` of the polynomials of the space with mean square one. -/
def Spec.unitValues (space : Space) (x : List ℝ) : Set ℝ :=
  {r | ∃ c, spaceIntegral space (fun y => spacePoly space c y * spacePoly space c y) = 1 ∧ r = spacePoly space c x ^ 2}

/-- Cauchy-Schwarz, with the case of equality. -/
theorem greatest_of_sum {space : Space} {C : Matrix (Fin (nodeTuples space).length) (Fin (nodeTuples space).length) ℝ} (hdet : C.det ≠ 0)
    (hC : ∀ k l, spaceIntegral space (fun x => spacePoly space (C k) x * spacePoly space (C l) x) = if k = l then 1 else 0)
    (x : List ℝ) (hx : x.length = space.spatialDim) :
    0 < ∑ k, spacePoly space (C k) x ^ 2 ∧ IsGreatest (unitValues space x) (∑ k, spacePoly space (C k) x ^ 2) := by
  set K := ∑ k, spacePoly space (C k) x ^ 2
  have hcs : ∀ a, combine (fun k => spacePoly space (C k)) a x ^ 2 ≤ (∑ k, a k * a k) * K := by
    intro a
    have := Finset.sum_mul_sq_le_sq_mul_sq Finset.univ a fun k => spacePoly space (C k) x
    simp only [sq] at this
    simp only [combine, sq, K]
    exact this
  have hpos : 0 < K := by
    obtain ⟨c, hc⟩ := exists_one space
    obtain ⟨a, ha⟩ := exists_combine space C hdet c
    have h1 := hcs a
    rw [← ha, hc x hx, one_pow] at h1
    have h0 : 0 ≤ K := Finset.sum_nonneg fun k _ => sq_nonneg _
    rcases h0.lt_or_eq with h | h
    · exact h
    · rw [← h] at h1
      norm_num at h1
  refine ⟨hpos, ⟨(fun k => spacePoly space (C k) x / Real.sqrt K) ᵥ* C, ?_, ?_⟩, ?_⟩
  · have h := integral_combine hC (fun k => spacePoly space (C k) x / Real.sqrt K) fun k => spacePoly space (C k) x / Real.sqrt K
    simp only [combine_represents] at h
    rw [h]
    have : ∀ k, spacePoly space (C k) x / Real.sqrt K * (spacePoly space (C k) x / Real.sqrt K) = spacePoly space (C k) x ^ 2 / K := fun k => by
      rw [div_mul_div_comm, Real.mul_self_sqrt hpos.le, sq]
    simp only [this]
    rw [← Finset.sum_div]
    exact div_self hpos.ne'
  · rw [← combine_represents]
    have : combine (fun k => spacePoly space (C k)) (fun k => spacePoly space (C k) x / Real.sqrt K) x = K / Real.sqrt K := by
      rw [combine, Finset.sum_div]
      exact Finset.sum_congr rfl fun k _ => by ring
    rw [this, div_pow, Real.sq_sqrt hpos.le]
    field_simp
  · rintro r ⟨c, hc, rfl⟩
    obtain ⟨a, ha⟩ := exists_combine space C hdet c
    rw [ha, integral_combine hC] at hc
    have := hcs a
    rw [hc, one_mul, ← ha] at this
    exact this

/-- **C100.**  The sum of the squares of a row of the Vandermonde matrix of an orthonormal basis is the greatest square of a value
at that node of a polynomial of the space with mean square one.  So it does not depend on the basis, and it bounds all values. -/
theorem C100_row {b : Basis ℝ} {space : Space} (hb : IsOrthonormalBasisOf b space)
    (hd : ∀ s ∈ space.flatBases, 1 ≤ s.spatialDim ∧ s.spatialDim ≤ 3) {m : Nat} (nodes : Fin m → List ℝ) (hreg : ∀ i, RegularFor space (nodes i)) :
    ∃ V : Matrix (Fin m) (Fin (nodeTuples space).length) ℝ, IsVandermonde b nodes V ∧
      ∀ i, 0 < ∑ k, V i k ^ 2 ∧ IsGreatest (unitValues space (nodes i)) (∑ k, V i k ^ 2) ∧
        ∀ c, spacePoly space c (nodes i) ^ 2 ≤ (∑ k, V i k ^ 2) * spaceIntegral space fun y => spacePoly space c y * spacePoly space c y := by
  obtain ⟨fs, C, hr, hG⟩ := represents_isOrthonormal hb hd
  refine ⟨vandermonde (fun k => spacePoly space (C k)) nodes,
    ⟨fs, hr.functions, vandermondeRows_eq fs hr.length nodes _ fun k i => hr.value k _ (hreg i)⟩, fun i => ?_⟩
  obtain ⟨h1, h2⟩ := greatest_of_sum hr.det hG (nodes i) (hreg i).1
  refine ⟨h1, h2, fun c => ?_⟩
  obtain ⟨a, ha⟩ := exists_combine space C hr.det c
  rw [ha, integral_combine hG, mul_comm]
  have := Finset.sum_mul_sq_le_sq_mul_sq Finset.univ a fun k => spacePoly space (C k) (nodes i)
  simp only [sq] at this
  simp only [combine, sq]
  exact this

theorem inverseMass_eq {n m : Nat} (b : Basis ℝ) (hw : b.orthonormalityWeight = .ok 1) (fs : List (List ℝ → Py ℝ))
    (hfs : b.functions = .ok fs) (hl : fs.length = n) (nodes : Fin m → List ℝ) (φ : Fin n → List ℝ → ℝ)
    (h : ∀ (k : Fin n) i, (fs.getD k fun _ => .error .IndexError) (nodes i) = .ok (φ k (nodes i))) :
    inverseMassMatrixOf b nodes = .ok (vandermonde φ nodes * (vandermonde φ nodes)ᵀ) := by
  obtain ⟨vs, hvs⟩ := callAll_of_getD fs hl nodes fun k i => ⟨_, h k i⟩
  subst hl
  have e : vandermonde (totalFn fs) nodes = vandermonde φ nodes :=
    vandermonde_congr _ _ _ fun k i => totalFn_of (h k i)
  simp [inverseMassMatrixOf, inverseMassMatrix, hw, hfs, hvs, e]

theorem weight_isOrthonormal {b : Basis ℝ} {space : Space} (hb : IsOrthonormalBasisOf b space)
    (hd : ∀ s ∈ space.flatBases, 1 ≤ s.spatialDim ∧ s.spatialDim ≤ 3) : b.orthonormalityWeight = .ok 1 := by
  obtain ⟨shape, h | h⟩ := hb
  · exact C41_orthonormal_accepted space shape b h
  · rw [C41_basis_for_space space shape b h, if_pos fun s hs => (hd s hs).2]

/-- **C100.**  The diagonal of `inverse_mass_matrix`, at any nodes: the greatest squares of values. -/
theorem C100_inverse_mass {b : Basis ℝ} {space : Space} (hb : IsOrthonormalBasisOf b space)
    (hd : ∀ s ∈ space.flatBases, 1 ≤ s.spatialDim ∧ s.spatialDim ≤ 3) {m : Nat} (nodes : Fin m → List ℝ) (hreg : ∀ i, RegularFor space (nodes i)) :
    ∃ N, inverseMassMatrixOf b nodes = .ok N ∧ ∀ i, IsGreatest (unitValues space (nodes i)) (N i i) := by
  obtain ⟨fs, C, hr, hG⟩ := represents_isOrthonormal hb hd
  refine ⟨_, inverseMass_eq b (weight_isOrthonormal hb hd) fs hr.functions hr.length nodes (fun k => spacePoly space (C k))
    fun k i => hr.value k _ (hreg i), fun i => ?_⟩
  have := (greatest_of_sum hr.det hG (nodes i) (hreg i).1).2
  rw [Matrix.mul_apply]
  convert this using 2
  rw [sq]
  rfl

/-- **C100.**  A rule with nonnegative weights which integrates the products of the space has no weight greater than the inverse
of the diagonal entry of `inverse_mass_matrix` at its node. -/
theorem C100_weights {space : Space} {m : Nat} (y : Fin m → List ℝ) (w : Fin m → ℝ) (hw : ∀ k, 0 ≤ w k) (hex : ExactOnProducts space y w)
    (k : Fin m) (K : ℝ) (hK : IsGreatest (unitValues space (y k)) K) : w k * K ≤ 1 := by
  obtain ⟨c, hc, rfl⟩ := hK.1
  rw [← hc, ← hex, sq]
  exact Finset.single_le_sum (f := fun k => w k * (spacePoly space c (y k) * spacePoly space c (y k)))
    (fun j _ => mul_nonneg (hw j) (mul_self_nonneg _)) (Finset.mem_univ k)

/-- **C100.**  If the rule has as many nodes as the space has modes, `inverse_mass_matrix` is the diagonal matrix of the inverse
weights. -/
theorem C100_square {b : Basis ℝ} {space : Space} (hb : IsOrthonormalBasisOf b space)
    (hd : ∀ s ∈ space.flatBases, 1 ≤ s.spatialDim ∧ s.spatialDim ≤ 3) (y : Fin (nodeTuples space).length → List ℝ)
    (hreg : ∀ i, RegularFor space (y i)) (w : Fin (nodeTuples space).length → ℝ)
    (hex : ExactOnProducts space y w) :
    (∀ i, 0 < w i) ∧ inverseMassMatrixOf b y = .ok (diagonal fun i => (w i)⁻¹) ∧
      ∀ i, IsGreatest (unitValues space (y i)) (w i)⁻¹ := by
  obtain ⟨fs, C, hr, hG⟩ := represents_isOrthonormal hb hd
  have hN := inverseMass_eq b (weight_isOrthonormal hb hd) fs hr.functions hr.length y (fun k => spacePoly space (C k))
    fun k i => hr.value k _ (hreg i)
  set V := vandermonde (fun k => spacePoly space (C k)) y
  have h1 : V * (Vᵀ * diagonal w) = 1 := mul_eq_one_comm.1 (discrete_gram hG y w hex)
  rw [← Matrix.mul_assoc] at h1
  have hne : ∀ i, w i * (V * Vᵀ) i i = 1 := by
    intro i
    have := congrFun (congrFun h1 i) i
    rw [Matrix.mul_diagonal, Matrix.one_apply_eq] at this
    rw [mul_comm]
    exact this
  have hpos : ∀ i, 0 < w i := by
    intro i
    have h2 : 0 ≤ (V * Vᵀ) i i := by
      rw [Matrix.mul_apply]
      exact Finset.sum_nonneg fun k _ => mul_self_nonneg (V i k)
    have h3 := hne i
    by_contra h
    nlinarith [not_lt.1 h]
  have hdiag : V * Vᵀ = diagonal fun i => (w i)⁻¹ := by
    have h2 : diagonal w * diagonal (fun i => (w i)⁻¹) = 1 := by
      rw [Matrix.diagonal_mul_diagonal]
      ext i j
      rcases eq_or_ne i j with rfl | h
      · simp [mul_inv_cancel₀ (hpos i).ne']
      · simp [h]
    calc V * Vᵀ = V * Vᵀ * (diagonal w * diagonal fun i => (w i)⁻¹) := by rw [h2, Matrix.mul_one]
      _ = _ := by rw [← Matrix.mul_assoc, h1, Matrix.one_mul]
  rw [hdiag] at hN
  refine ⟨hpos, hN, fun i => ?_⟩
  obtain ⟨N', hN', hg⟩ := C100_inverse_mass hb hd y hreg
  obtain rfl := Except.ok.inj (hN.symm.trans hN')
  have := hg i
  rwa [Matrix.diagonal_apply_eq] at this

/-- **C100.**  At the Gauss-Legendre tensor product nodes the inverse mass matrix is the inverse of the spectral diagonal mass matrix. -/
theorem C100_gauss (ext : Ext) (hext : ext.EighOk) (d n : Nat) (hd : 0 < d) :
    ∃ A Q w b, legendreGaussTensorProductNodes ext d n = .ok A ∧ legendreGaussTensorProduct ext n d .builtin = .ok Q ∧
      spectralDiag Q = .ok w ∧ IsOrthonormalBasisOf b (.qn d n) ∧
      inverseMassMatrixOf b (fun i : Fin (nodeTuples (.qn d n)).length => column A d i) = .ok (diagonal fun i => (w.get [(i : Nat)])⁻¹) ∧
      ∀ i : Fin (nodeTuples (.qn d n)).length, IsGreatest (unitValues (.qn d n) (column A d i)) (w.get [(i : Nat)])⁻¹ := by
  obtain ⟨A, Q, w, b, hA, hQ, hw, hb, hreg, -, -, hex, -⟩ := C98_gauss_rule ext hext d n hd
  have hfac : ∀ s ∈ (Space.qn d n).flatBases, 1 ≤ s.spatialDim ∧ s.spatialDim ≤ 3 := by
    intro s hs
    simp only [Space.flatBases] at hs
    rw [(List.mem_replicate.1 hs).2]
    simp
  obtain ⟨-, h1, h2⟩ := C100_square hb hfac _ hreg _ hex
  exact ⟨A, Q, w, b, hA, hQ, hw, hb, h1, h2⟩

/-! ## Corners and faces of the cube -/

theorem rise_one : ∀ n : Nat, rise 1 n = n.factorial
  | 0 => by simp [rise]
  | n + 1 => by
    rw [rise, rise_one n, Nat.factorial_succ]
    push_cast
    ring

/-- The orthonormal Legendre polynomials at the ends of the interval. -/
theorem legendre_end (n : Nat) {s : ℝ} (hs : s = 1 ∨ s = -1) : (jpoly 0 0 n).eval s ^ 2 = (2 * n + 1) / 2 := by
  rw [eval_jpoly params_zero, jacobi_eq params_zero, div_pow, Real.sq_sqrt (jacNorm_pos (by norm_num) (by norm_num) n).le, jacNorm_legendre]
  have h1 : jacobiP 0 0 n 1 = 1 := by
    rw [jacobiP_at_one, zero_add, rise_one, div_self (by positivity)]
  have h2 : jacobiP 0 0 n s ^ 2 = 1 := by
    rcases hs with rfl | rfl
    · rw [h1, one_pow]
    · rw [jacobiP_neg 0 0 (by norm_num) (by norm_num) (by norm_num), h1, mul_one, ← pow_mul, mul_comm, pow_mul]
      norm_num
  rw [h2]
  field_simp

theorem sum_legendre_end (n : Nat) {s : ℝ} (hs : s = 1 ∨ s = -1) :
    ∑ j : Fin (n + 1), (jpoly 0 0 j).eval s ^ 2 = ((n : ℝ) + 1) ^ 2 / 2 := by
  have : ∀ m : Nat, ∑ j ∈ Finset.range m, (2 * (j : ℝ) + 1) / 2 = (m : ℝ) ^ 2 / 2 := by
    intro m
    induction m with
    | zero => simp
    | succ m ih =>
      rw [Finset.sum_range_succ, ih]
      push_cast
      ring
  have h := this (n + 1)
  rw [Finset.sum_range] at h
  simp only [legendre_end _ hs]
  rw [h]
  push_cast
  ring

theorem legendre_parity (n : Nat) {τ : ℝ} (hτ : τ = 1 ∨ τ = -1) (t : ℝ) :
    (jpoly 0 0 n).eval (τ * t) = τ ^ n * (jpoly 0 0 n).eval t := by
  rcases hτ with rfl | rfl
  · simp
  · rw [eval_jpoly params_zero, eval_jpoly params_zero, jacobi_eq params_zero, jacobi_eq params_zero, neg_one_mul,
      jacobiP_neg 0 0 (by norm_num) (by norm_num) (by norm_num), mul_div_assoc]

/-- The integral of the square in terms of the coefficients in the products of Legendre polynomials. -/
theorem legendre_square {d n : Nat} (P : MvPolynomial (Fin d) ℝ) (hP : ∀ i, MvPolynomial.degreeOf i P ≤ n)
    (c : (Fin d → Fin (n + 1)) → ℝ) (hc : ∀ y : Fin d → ℝ, MvPolynomial.eval y P = ∑ α, c α * ∏ i, (jpoly 0 0 (α i)).eval (y i)) :
    Spec.cubeIntegral d (polyAt (P * P)) = ∑ α, c α ^ 2 := by
  obtain ⟨ext, hext⟩ := exists_eighOk
  obtain ⟨y, v, -, hexG, -, -, -, -⟩ := compute_facts ext hext gaussParams_zero n
  have hexG' : ∀ e ≤ 2 * n + 1, ∑ a, v a * y a ^ e = ∫ t in (-1 : ℝ)..1, t ^ e := fun e he => by
    have := hexG (X ^ e) (by simpa using he)
    simpa using this
  have hval : gridSum d y (fun _ => v) (polyAt (P * P)) =
      ∑ k : Fin ((n + 1) ^ d), (∏ i : Fin d, v (gridDigit n k i)) *
        (∑ α : Fin d → Fin (n + 1), c α * ∏ i, (jpoly 0 0 (α i)).eval (y (gridDigit n k i))) ^ 2 := by
    rw [gridSum]
    refine Finset.sum_congr rfl fun k _ => ?_
    rw [gridNode, polyAt_ofFn, map_mul, hc, sq]
  rw [← gridSum_exact y v hexG' (P * P) fun i => (MvPolynomial.degreeOf_mul_le i _ _).trans (by have := hP i; omega), hval]
  rw [grid_square y v (fun i t => (jpoly 0 0 i).eval t) (fun _ => 1) (fun i j => ?_) c]
  · simp
  · simp only [← eval_mul]
    rw [rule_polynomial y v hexG' _ (natDegree_mul_le.trans ((add_le_add (natDegree_jpoly _ _ _) (natDegree_jpoly _ _ _)).trans (by omega))),
      legendre_orth]
    simp [Fin.ext_iff]

/-- Every combination of products of Legendre polynomials is a polynomial of bounded degrees. -/
theorem exists_legendre {d n : Nat} (a : (Fin d → Fin (n + 1)) → ℝ) :
    ∃ P : MvPolynomial (Fin d) ℝ, (∀ i, MvPolynomial.degreeOf i P ≤ n) ∧
      ∀ y : Fin d → ℝ, MvPolynomial.eval y P = ∑ α, a α * ∏ i, (jpoly 0 0 (α i)).eval (y i) := by
  refine ⟨∑ α, MvPolynomial.C (a α) * ∏ i, (Polynomial.aeval (MvPolynomial.X i) (jpoly 0 0 (α i))), fun i => ?_, fun y => ?_⟩
  · refine (MvPolynomial.degreeOf_sum_le i _ _).trans (Finset.sup_le fun α _ => ?_)
    refine (MvPolynomial.degreeOf_C_mul_le _ _ _).trans ?_
    refine (MvPolynomial.degreeOf_prod_le i _ _).trans ?_
    have h1 : ∀ j : Fin d, MvPolynomial.degreeOf i (Polynomial.aeval (MvPolynomial.X j : MvPolynomial (Fin d) ℝ) (jpoly 0 0 (α j))) ≤
        if i = j then n else 0 := by
      intro j
      rw [Polynomial.aeval_eq_sum_range]
      refine (MvPolynomial.degreeOf_sum_le i _ _).trans (Finset.sup_le fun e he => ?_)
      rw [MvPolynomial.smul_eq_C_mul]
      refine (MvPolynomial.degreeOf_C_mul_le _ _ _).trans ?_
      split
      · next h =>
        subst h
        rw [MvPolynomial.degreeOf_X_self_pow]
        have h2 := Finset.mem_range.1 he
        have h3 := natDegree_jpoly (0 : ℝ) 0 (α i)
        omega
      · next h => rw [MvPolynomial.degreeOf_X_pow_of_ne e h]
    refine (Finset.sum_le_sum fun j _ => h1 j).trans ?_
    simp
  · rw [map_sum]
    refine Finset.sum_congr rfl fun α _ => ?_
    rw [map_mul, MvPolynomial.eval_C, map_prod]
    congr 1
    refine Finset.prod_congr rfl fun i _ => ?_
    rw [← MvPolynomial.coe_aeval_eq_eval]
    show (MvPolynomial.aeval y) _ = _
    rw [← Polynomial.aeval_algHom_apply, MvPolynomial.aeval_X, Polynomial.coe_aeval_eq_eval]

/-- The polynomials of `QN(d, n)` in terms of their Legendre coefficients: all coefficients occur. -/
theorem legendre_of_poly (d n : Nat) (c : Fin (nodeTuples (.qn d n)).length → ℝ) :
    ∃ a : (Fin d → Fin (n + 1)) → ℝ,
      spaceIntegral (.qn d n) (fun y => spacePoly (.qn d n) c y * spacePoly (.qn d n) c y) = ∑ α, a α ^ 2 ∧
      ∀ y : Fin d → ℝ, spacePoly (.qn d n) c (List.ofFn y) = ∑ α, a α * ∏ i, (jpoly 0 0 (α i)).eval (y i) := by
  obtain ⟨P, hP, hv⟩ := spacePoly_polyAt (.qn d n) (spatialDim_qn d n) c
  obtain ⟨a, ha⟩ := expand_legendre P fun i => degree_qn hP i
  refine ⟨a, ?_, fun y => ?_⟩
  · rw [spaceIntegral_qn_mul d n P P _ _ hv hv, legendre_square P (fun i => degree_qn hP i) a ha]
  · rw [hv _ (by simp), polyAt_ofFn, ha]

theorem poly_of_legendre (d n : Nat) (a : (Fin d → Fin (n + 1)) → ℝ) :
    ∃ c : Fin (nodeTuples (.qn d n)).length → ℝ,
      spaceIntegral (.qn d n) (fun y => spacePoly (.qn d n) c y * spacePoly (.qn d n) c y) = ∑ α, a α ^ 2 ∧
      ∀ y : Fin d → ℝ, spacePoly (.qn d n) c (List.ofFn y) = ∑ α, a α * ∏ i, (jpoly 0 0 (α i)).eval (y i) := by
  obtain ⟨P, hP, ha⟩ := exists_legendre a
  obtain ⟨c, hc⟩ := polyAt_spacePoly (.qn d n) (spatialDim_qn d n) P ((polyIn_cube (conforms_qn d n) P).2 hP)
  refine ⟨c, ?_, fun y => ?_⟩
  · rw [spaceIntegral_qn_mul d n P P _ _ (fun y hy => (hc y hy).symm) (fun y hy => (hc y hy).symm), legendre_square P hP a ha]
  · rw [← hc _ (by simp), polyAt_ofFn, ha]

/-- **C100.**  At a vertex of the cube the greatest square of a value is `((n + 1)^2 / 2)^d`. -/
theorem C100_corner (d n : Nat) (x : Fin d → ℝ) (hx : ∀ i, x i = 1 ∨ x i = -1) :
    IsGreatest (unitValues (.qn d n) (List.ofFn x)) ((((n : ℝ) + 1) ^ 2 / 2) ^ d) := by
  set φ : (Fin d → Fin (n + 1)) → ℝ := fun α => ∏ i, (jpoly 0 0 (α i)).eval (x i)
  have hK : ∑ α, φ α ^ 2 = (((n : ℝ) + 1) ^ 2 / 2) ^ d := by
    have h := Finset.prod_univ_sum (fun _ : Fin d => (Finset.univ : Finset (Fin (n + 1)))) fun i j => (jpoly 0 0 (j : Nat)).eval (x i) ^ 2
    rw [Fintype.piFinset_univ] at h
    simp only [φ, ← Finset.prod_pow]
    rw [← h, Finset.prod_congr rfl fun i _ => sum_legendre_end n (hx i), Finset.prod_const, Finset.card_univ, Fintype.card_fin]
  set K := (((n : ℝ) + 1) ^ 2 / 2) ^ d
  have hpos : 0 < K := by positivity
  constructor
  · obtain ⟨c, h1, h2⟩ := poly_of_legendre d n fun α => φ α / Real.sqrt K
    refine ⟨c, ?_, ?_⟩
    · rw [h1]
      simp only [div_pow, Real.sq_sqrt hpos.le]
      rw [← Finset.sum_div, hK, div_self hpos.ne']
    · have : ∑ α, φ α / Real.sqrt K * φ α = K / Real.sqrt K := by
        rw [← hK, Finset.sum_div]
        exact Finset.sum_congr rfl fun α _ => by ring
      rw [h2 x, this, div_pow, Real.sq_sqrt hpos.le]
      field_simp
  · rintro r ⟨c, hc, rfl⟩
    obtain ⟨a, h1, h2⟩ := legendre_of_poly d n c
    rw [hc] at h1
    have := Finset.sum_mul_sq_le_sq_mul_sq Finset.univ a φ
    rw [← h1, one_mul, hK] at this
    rw [h2 x]
    exact this

/-! ## Traces -/

/-- The integral of the square over a facet. -/
theorem facet_square {e n : Nat} (i : Fin (e + 1)) {s : ℝ} (σ : Equiv.Perm (Fin e)) (τ : Fin e → ℝ)
    (hτ : ∀ j, τ j = 1 ∨ τ j = -1) (c : Fin (nodeTuples (.qn (e + 1) n)).length → ℝ) (a : (Fin (e + 1) → Fin (n + 1)) → ℝ)
    (h2 : ∀ y : Fin (e + 1) → ℝ, spacePoly (.qn (e + 1) n) c (List.ofFn y) = ∑ α, a α * ∏ i, (jpoly 0 0 (α i)).eval (y i)) :
    Spec.cubeIntegral e (fun p => spacePoly (.qn (e + 1) n) c
        (List.ofFn (Fin.insertNth i s (fun j : Fin e => τ j * p.getD (σ j) 0) : Fin (e + 1) → ℝ)) ^ 2) =
      ∑ γ : Fin e → Fin (n + 1), (∑ t : Fin (n + 1), a (Fin.insertNth i t γ) * (jpoly 0 0 t).eval s) ^ 2 := by
  set B : (Fin e → Fin (n + 1)) → ℝ := fun γ => ∑ t : Fin (n + 1), a (Fin.insertNth i t γ) * (jpoly 0 0 t).eval s
  set A : (Fin e → Fin (n + 1)) → ℝ := fun γ => B (γ ∘ σ) * ∏ j, τ j ^ (γ (σ j) : Nat)
  have hval : ∀ y : Fin e → ℝ, spacePoly (.qn (e + 1) n) c (List.ofFn (Fin.insertNth i s (fun j : Fin e => τ j * y (σ j)) : Fin (e + 1) → ℝ)) =
      ∑ γ, A γ * ∏ j, (jpoly 0 0 (γ j)).eval (y j) := by
    intro y
    rw [h2, ← (Fin.insertNthEquiv (fun _ => Fin (n + 1)) i).sum_comp, Fintype.sum_prod_type, Finset.sum_comm,
      ← (Equiv.arrowCongr σ (Equiv.refl (Fin (n + 1)))).symm.sum_comp]
    refine Finset.sum_congr rfl fun γ _ => ?_
    simp only [A, B]
    have e1 : (Equiv.arrowCongr σ (Equiv.refl (Fin (n + 1)))).symm γ = γ ∘ σ := by
      funext j
      simp [Equiv.arrowCongr]
    rw [e1, Finset.sum_mul, Finset.sum_mul]
    refine Finset.sum_congr rfl fun t _ => ?_
    rw [Fin.prod_univ_succAbove _ i]
    simp only [Fin.insertNthEquiv, Equiv.coe_fn_mk, Fin.insertNth_apply_same, Fin.insertNth_apply_succAbove, Function.comp_apply]
    have e2 : ∏ j, (jpoly 0 0 (γ (σ j))).eval (τ j * y (σ j)) = (∏ j, τ j ^ (γ (σ j) : Nat)) * ∏ j, (jpoly 0 0 (γ j)).eval (y j) := by
      rw [← Equiv.prod_comp σ fun j => (jpoly 0 0 (γ j)).eval (y j), ← Finset.prod_mul_distrib]
      exact Finset.prod_congr rfl fun j _ => legendre_parity _ (hτ j) _
    rw [e2]
    ring
  obtain ⟨P, hP, hPa⟩ := exists_legendre A
  have e3 : Spec.cubeIntegral e (fun p => spacePoly (.qn (e + 1) n) c
      (List.ofFn (Fin.insertNth i s (fun j : Fin e => τ j * p.getD (σ j) 0) : Fin (e + 1) → ℝ)) ^ 2) = Spec.cubeIntegral e (polyAt (P * P)) := by
    rw [Spec.cubeIntegral, Spec.cubeIntegral]
    congr 1
    funext y
    have hy : ∀ j : Fin e, (List.ofFn y).getD (σ j) 0 = y (σ j) := fun j => by
      rw [List.getD_eq_getElem _ _ (by simp), List.getElem_ofFn]
    simp only [hy]
    rw [hval, polyAt_ofFn, map_mul, hPa, sq]
  have hA : ∀ γ, A γ ^ 2 = B (γ ∘ σ) ^ 2 := by
    intro γ
    have e4 : (∏ j, τ j ^ (γ (σ j) : Nat)) ^ 2 = 1 := by
      rw [← Finset.prod_pow]
      refine Finset.prod_eq_one fun j _ => ?_
      rw [← pow_mul, mul_comm, pow_mul]
      rcases hτ j with h | h <;> rw [h] <;> norm_num
    simp only [A]
    rw [mul_pow, e4, mul_one]
  rw [e3, legendre_square P hP A hPa]
  refine Eq.trans ?_ ((Equiv.arrowCongr σ (Equiv.refl (Fin (n + 1)))).symm.sum_comp fun γ => B γ ^ 2)
  refine Finset.sum_congr rfl fun γ _ => ?_
  rw [hA]
  rfl

/-- The mean squares over a face of the polynomials of the space with mean square one. -/
def Spec.unitTraces (space : Space) (f : Face) : Set ℝ :=
  {r | ∃ c, spaceIntegral space (fun y => spacePoly space c y * spacePoly space c y) = 1 ∧
    r = Spec.shapeIntegral f.shape fun p => spacePoly space c (okOr [] (f.mapToVolume p)) ^ 2}

theorem trace_greatest {e : Nat} (n : Nat) (i : Fin (e + 1)) {s : ℝ} (hs : s = 1 ∨ s = -1) (σ : Equiv.Perm (Fin e)) (τ : Fin e → ℝ)
    (hτ : ∀ j, τ j = 1 ∨ τ j = -1) (f : Face)
    (hf : ∀ F : List ℝ → ℝ, Spec.shapeIntegral f.shape (fun p => F (okOr [] (f.mapToVolume p))) =
      Spec.cubeIntegral e fun p => F (List.ofFn (Fin.insertNth i s (fun j : Fin e => τ j * p.getD (σ j) 0) : Fin (e + 1) → ℝ))) :
    IsGreatest (unitTraces (.qn (e + 1) n) f) (((n : ℝ) + 1) ^ 2 / 2) := by
  have hK := sum_legendre_end n hs
  set K := ((n : ℝ) + 1) ^ 2 / 2
  have hpos : 0 < K := by positivity
  have hsum : ∀ F : (Fin (e + 1) → Fin (n + 1)) → ℝ, ∑ α, F α = ∑ γ : Fin e → Fin (n + 1), ∑ t : Fin (n + 1), F (Fin.insertNth i t γ) := by
    intro F
    rw [← (Fin.insertNthEquiv (fun _ => Fin (n + 1)) i).sum_comp, Fintype.sum_prod_type, Finset.sum_comm]
    rfl
  constructor
  · obtain ⟨c, h1, h2⟩ := poly_of_legendre (e + 1) n fun α => if Fin.removeNth i α = 0 then (jpoly 0 0 (α i)).eval s / Real.sqrt K else 0
    refine ⟨c, ?_, ?_⟩
    · rw [h1, hsum]
      simp only [Fin.removeNth_insertNth, Fin.insertNth_apply_same]
      rw [Finset.sum_eq_single 0 (fun γ _ h => by simp [h]) (by simp)]
      simp only [if_true, div_pow, Real.sq_sqrt hpos.le]
      rw [← Finset.sum_div, hK, div_self hpos.ne']
    · rw [hf fun x => spacePoly (.qn (e + 1) n) c x ^ 2, facet_square i σ τ hτ c _ h2]
      simp only [Fin.removeNth_insertNth, Fin.insertNth_apply_same]
      rw [Finset.sum_eq_single 0 (fun γ _ h => by simp [h]) (by simp)]
      simp only [if_true]
      have : ∑ t : Fin (n + 1), (jpoly 0 0 t).eval s / Real.sqrt K * (jpoly 0 0 t).eval s = K / Real.sqrt K := by
        rw [← hK, Finset.sum_div]
        exact Finset.sum_congr rfl fun α _ => by ring
      rw [this, div_pow, Real.sq_sqrt hpos.le]
      field_simp
  · rintro r ⟨c, hc, rfl⟩
    obtain ⟨a, h1, h2⟩ := legendre_of_poly (e + 1) n c
    rw [hc, hsum] at h1
    rw [hf fun x => spacePoly (.qn (e + 1) n) c x ^ 2, facet_square i σ τ hτ c a h2, ← one_mul K, h1, Finset.sum_mul]
    refine Finset.sum_le_sum fun γ _ => ?_
    have := Finset.sum_mul_sq_le_sq_mul_sq Finset.univ (fun t : Fin (n + 1) => a (Fin.insertNth i t γ)) fun t => (jpoly 0 0 t).eval s
    rw [hK] at this
    exact this

theorem simplex_cube_one (F : List ℝ → ℝ) : Spec.simplexIntegral 1 F = Spec.cubeIntegral 1 F := by
  rw [simplexIntegral_one, cubeIntegral_one]

theorem facet_two {f : Face} {m : List ℝ → List ℝ} {ν : List ℝ} (h : FaceIs f (.simplex 1) m ν) (n : Nat) (i : Fin 2) {s τ : ℝ}
    (hs : s = 1 ∨ s = -1) (hτ : τ = 1 ∨ τ = -1) (hm : ∀ p, m p = List.ofFn (Fin.insertNth i s (fun _ : Fin 1 => τ * p.getD 0 0) : Fin 2 → ℝ)) :
    IsGreatest (unitTraces (.qn 2 n) f) (((n : ℝ) + 1) ^ 2 / 2) := by
  refine trace_greatest n i hs (Equiv.refl _) (fun _ => τ) (fun _ => hτ) f fun F => ?_
  rw [h.integral, Spec.shapeIntegral, simplex_cube_one]
  congr 1
  funext p
  rw [hm]
  congr 3
  funext j
  fin_cases j
  rfl

theorem facet_three {f : Face} {m : List ℝ → List ℝ} {ν : List ℝ} (h : FaceIs f (.hypercube 2) m ν) (n : Nat) (i : Fin 3) {s : ℝ}
    (hs : s = 1 ∨ s = -1) (σ : Equiv.Perm (Fin 2)) (hm : ∀ p, m p = List.ofFn (Fin.insertNth i s (fun j : Fin 2 => p.getD (σ j) 0) : Fin 3 → ℝ)) :
    IsGreatest (unitTraces (.qn 3 n) f) (((n : ℝ) + 1) ^ 2 / 2) := by
  refine trace_greatest n i hs σ (fun _ => 1) (fun _ => Or.inl rfl) f fun F => ?_
  rw [h.integral, Spec.shapeIntegral]
  congr 1
  funext p
  rw [hm]
  simp only [one_mul]

/-- **C100.**  The trace inequality with its best constant: for every face the library returns for the square and the cube, the
greatest mean square over the face of a polynomial of `QN(d, n)` with mean square one is `(n + 1)^2 / 2`. -/
theorem C100_trace (d : Nat) (h1 : d ≠ 1) (n : Nat) (faces : List Face) (hf : facesForShape (.hypercube d) = .ok faces) (f : Face)
    (hm : f ∈ faces) : IsGreatest (unitTraces (.qn d n) f) (((n : ℝ) + 1) ^ 2 / 2) := by
  match d, h1, hf with
  | 0, _, hf => exact absurd hf (by simp [facesForShape, facesForHypercube, hypercubeFaces])
  | 2, _, hf =>
    obtain ⟨f0, f1, f2, f3, h, h0, h1, h2, h3⟩ := faces_cube_two
    obtain rfl := Except.ok.inj (hf.symm.trans h)
    simp only [List.mem_cons, List.not_mem_nil, or_false] at hm
    rcases hm with rfl | rfl | rfl | rfl
    · exact facet_two h0 n 1 (s := -1) (τ := 1) (by simp) (by simp) fun p => by simp [Fin.insertNth, Fin.succAboveCases]
    · exact facet_two h1 n 1 (s := 1) (τ := -1) (by simp) (by simp) fun p => by simp [Fin.insertNth, Fin.succAboveCases]
    · exact facet_two h2 n 0 (s := -1) (τ := -1) (by simp) (by simp) fun p => by simp
    · exact facet_two h3 n 0 (s := 1) (τ := 1) (by simp) (by simp) fun p => by simp
  | 3, _, hf =>
    obtain ⟨f0, f1, f2, f3, f4, f5, h, h0, h1, h2, h3, h4, h5⟩ := faces_cube_three
    obtain rfl := Except.ok.inj (hf.symm.trans h)
    simp only [List.mem_cons, List.not_mem_nil, or_false] at hm
    rcases hm with rfl | rfl | rfl | rfl | rfl | rfl
    · exact facet_three h0 n 2 (s := -1) (by simp) (Equiv.swap 0 1) fun p => by simp [Fin.insertNth, Fin.succAboveCases]
    · exact facet_three h1 n 2 (s := 1) (by simp) (Equiv.refl _) fun p => by simp [Fin.insertNth, Fin.succAboveCases]
    · exact facet_three h2 n 0 (s := -1) (by simp) (Equiv.swap 0 1) fun p => by simp
    · exact facet_three h3 n 0 (s := 1) (by simp) (Equiv.refl _) fun p => by simp
    · exact facet_three h4 n 1 (s := -1) (by simp) (Equiv.refl _) fun p => by simp [Fin.insertNth, Fin.succAboveCases]
    · exact facet_three h5 n 1 (s := 1) (by simp) (Equiv.swap 0 1) fun p => by simp [Fin.insertNth, Fin.succAboveCases]
  | d + 4, _, hf => exact absurd hf (by simp [facesForShape, facesForHypercube, hypercubeFaces])

/-- The hypotheses are met by the triangle with order two and three nodes, one of them the collapsed vertex, by the square with order two,
whose corner constant is `(9/2)^2`, and by the faces of the cube with order one, whose trace constant is two. -/
example : ∃ b : Basis ℝ, IsOrthonormalBasisOf b (.pn ⟨2, 2⟩) ∧
    (∃ N, inverseMassMatrixOf b (fun i : Fin 3 => [[-1, 1], [0, 0], [1, -1]].getD i []) = .ok N ∧
      IsGreatest (unitValues (.pn ⟨2, 2⟩) [-1, 1]) (N 0 0)) ∧
    IsGreatest (unitValues (.qn 2 2) [1, -1]) ((9 / 2) ^ 2) ∧
    ∃ faces f, facesForShape (.hypercube 3) = .ok faces ∧ f ∈ faces ∧ IsGreatest (unitTraces (.qn 3 1) f) 2 := by
  have hb : IsOrthonormalBasisOf ((orthonormalBasisForSpace (R := ℝ) (.pn ⟨2, 2⟩) (.simplex 2)).toOption.get rfl)
      (.pn ⟨2, 2⟩) := ⟨.simplex 2, Or.inl rfl⟩
  refine ⟨_, hb, ?_, ?_, ?_⟩
  · obtain ⟨N, hN, hg⟩ := C100_inverse_mass hb (by simp [Space.flatBases]) (fun i : Fin 3 => [[-1, 1], [0, 0], [1, -1]].getD i []) (by
      intro i
      fin_cases i <;> simp [RegularFor, Space.spatialDim, Space.flatBases, slices, Regular] <;> norm_num)
    exact ⟨N, hN, hg 0⟩
  · have := C100_corner 2 2 ![1, -1] (by simp [Fin.forall_fin_two])
    norm_num at this ⊢
    exact this
  · obtain ⟨f0, f1, f2, f3, f4, f5, h, -⟩ := faces_cube_three
    refine ⟨_, f4, h, by simp, ?_⟩
    have := C100_trace 3 (by norm_num) 1 _ h f4 (by simp)
    norm_num at this
    exact this

end Modepy

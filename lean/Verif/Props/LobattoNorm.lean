import Verif.Props.DiscreteProjection

/-!
# Property C99: the diagonal mass matrix of Gauss-Lobatto nodes is equivalent to the mass matrix, and interpolation at
Gauss-Lobatto nodes converges
-/

namespace Modepy
open Spec NdArray Matrix MeasureTheory Quadrature Polynomial

/-! ## One dimension -/

/-- The orthonormal Legendre polynomials. -/
theorem legendre_family : OrthFamily (jacobiL params_zero.1 params_zero.2.1) (jpoly 0 0) (gaussA 0 0) (gaussB 0 0)
    (1 / Real.sqrt (jacNorm 0 0 0)) := jacobi_family params_zero (by norm_num)

theorem legendreL (f : ℝ[X]) : jacobiL params_zero.1 params_zero.2.1 f = ∫ t in (-1 : ℝ)..1, f.eval t := by
  rw [jacobiL_apply]
  simp [jacobiWeight]

/-- A rule which is exact for the powers is exact for polynomials. -/
theorem rule_polynomial {n E : Nat} (x w : Fin (n + 1) → ℝ) (hex : ∀ e ≤ E, ∑ a, w a * x a ^ e = ∫ t in (-1 : ℝ)..1, t ^ e)
    (f : ℝ[X]) (hf : f.natDegree ≤ E) : ∑ a, w a * f.eval (x a) = ∫ t in (-1 : ℝ)..1, f.eval t := by
  simp only [eval_eq_sum_range, Finset.mul_sum]
  rw [Finset.sum_comm, intervalIntegral.integral_finsetSum fun i _ => (by
    apply Continuous.intervalIntegrable
    fun_prop)]
  refine Finset.sum_congr rfl fun i hi => ?_
  rw [intervalIntegral.integral_const_mul, ← hex i (by have := Finset.mem_range.1 hi; omega), Finset.mul_sum]
  exact Finset.sum_congr rfl fun a _ => by ring

theorem legendre_orth (i j : Nat) : ∫ t in (-1 : ℝ)..1, (jpoly 0 0 i * jpoly 0 0 j).eval t = if i = j then 1 else 0 := by
  rw [← legendreL]
  exact legendre_family.orth i j

/-- The Gauss-Lobatto rule applied to the square of the Legendre polynomial of degree `n`. -/
theorem lobatto_top {n : Nat} (hn : 1 ≤ n) (x w : Fin (n + 1) → ℝ) (h0 : x 0 = -1) (h1 : x (Fin.last n) = 1)
    (hex : ∀ e ≤ 2 * n - 1, ∑ a, w a * x a ^ e = ∫ t in (-1 : ℝ)..1, t ^ e) :
    ∑ a, w a * (jpoly 0 0 n * jpoly 0 0 n).eval (x a) = 2 + 1 / n := by
  obtain ⟨hd, hc⟩ := legendre_family.leading n
  set p := jpoly 0 0 n with hp
  set l := p.coeff n with hl
  set ω : ℝ[X] := ∏ a, (X - C (x a)) with hω
  have hωm : ω.Monic := monic_prod_of_monic _ _ fun a _ => monic_X_sub_C _
  have hωd : ω.natDegree = n + 1 := by
    rw [hω, natDegree_prod_of_monic _ _ fun a _ => monic_X_sub_C _]
    simp
  have hz : ∀ a, ω.eval (x a) = 0 := by
    intro a
    rw [hω, eval_prod]
    exact Finset.prod_eq_zero (Finset.mem_univ a) (by simp)
  have hn0 : (n : ℝ) ≠ 0 := by positivity
  -- integration by parts
  have hparts : ∫ t in (-1 : ℝ)..1, (ω * derivative p).eval t = -((n + 1) / l) := by
    have h := intervalIntegral.integral_mul_deriv_eq_deriv_mul (a := (-1 : ℝ)) (b := 1) (u := fun t => ω.eval t)
      (v := fun t => p.eval t) (u' := fun t => (derivative ω).eval t) (v' := fun t => (derivative p).eval t)
      (fun t _ => ω.hasDerivAt t) (fun t _ => p.hasDerivAt t)
      ((derivative ω).continuous.intervalIntegrable _ _) ((derivative p).continuous.intervalIntegrable _ _)
    have e1 : ω.eval 1 = 0 := h1 ▸ hz (Fin.last n)
    have e2 : ω.eval (-1) = 0 := h0 ▸ hz 0
    rw [e1, e2, zero_mul, zero_mul, sub_zero, zero_sub] at h
    simp only [eval_mul]
    rw [h]
    congr 1
    have h2 := legendre_family.pair_top n (derivative ω) (by
      refine (natDegree_derivative_le _).trans ?_
      omega)
    rw [legendreL] at h2
    simp only [eval_mul] at h2
    rw [h2, coeff_derivative]
    have : ω.coeff (n + 1) = 1 := by
      rw [← hωd]
      exact hωm
    rw [this, one_mul]
  set f := p * p - C (l / n) * (ω * derivative p) with hf
  have hfd : f.natDegree ≤ 2 * n - 1 := by
    have hle : f.natDegree ≤ 2 * n := by
      refine (natDegree_sub_le _ _).trans (max_le ?_ ?_)
      · exact natDegree_mul_le.trans (by omega)
      · refine (natDegree_C_mul_le _ _).trans (natDegree_mul_le.trans ?_)
        have := natDegree_derivative_le p
        omega
    have hco : f.coeff (2 * n) = 0 := by
      rw [hf, coeff_sub, coeff_C_mul, show 2 * n = n + n by ring, coeff_mul_add_eq_of_natDegree_le hd hd,
        show n + n = (n + 1) + (n - 1) by omega, coeff_mul_add_eq_of_natDegree_le hωd.le (by
          refine (natDegree_derivative_le _).trans ?_
          omega), coeff_derivative]
      have e1 : ω.coeff (n + 1) = 1 := by
        rw [← hωd]
        exact hωm
      have e2 : n - 1 + 1 = n := by omega
      have e3 : ((n - 1 : ℕ) : ℝ) + 1 = n := by exact_mod_cast e2
      rw [e1, e2, e3, one_mul, ← hl]
      field_simp
      ring
    by_contra hlt
    have : f.natDegree = 2 * n := by omega
    have h3 : f ≠ 0 := by
      rintro h
      rw [h] at this
      simp at this
      omega
    have := leadingCoeff_ne_zero.2 h3
    rw [leadingCoeff, ‹f.natDegree = 2 * n›, hco] at this
    exact this rfl
  have hQ := rule_polynomial x w hex f hfd
  have hL : ∫ t in (-1 : ℝ)..1, f.eval t = 1 + (n + 1) / n := by
    rw [← legendreL, hf, map_sub, ← smul_eq_C_mul, map_smul, legendreL, legendreL, hparts, hp, legendre_orth, if_pos rfl, smul_eq_mul]
    field_simp
    ring
  have hS : ∑ a, w a * f.eval (x a) = ∑ a, w a * (p * p).eval (x a) := by
    refine Finset.sum_congr rfl fun a _ => ?_
    rw [hf, eval_sub, eval_mul (p := C _), eval_mul (p := ω), hz]
    simp
  rw [← hS, hQ, hL]
  field_simp
  ring

/-- The Gram matrix of the Legendre polynomials for a Gauss-Lobatto rule. -/
theorem lobatto_gram {n : Nat} (hn : 1 ≤ n) (x w : Fin (n + 1) → ℝ) (h0 : x 0 = -1) (h1 : x (Fin.last n) = 1)
    (hex : ∀ e ≤ 2 * n - 1, ∑ a, w a * x a ^ e = ∫ t in (-1 : ℝ)..1, t ^ e) (i j : Fin (n + 1)) :
    ∑ a, w a * ((jpoly 0 0 i).eval (x a) * (jpoly 0 0 j).eval (x a)) =
      if i = j then (if (i : Nat) = n then 2 + 1 / (n : ℝ) else 1) else 0 := by
  simp only [← eval_mul]
  by_cases hij : (i : Nat) + j ≤ 2 * n - 1
  · rw [rule_polynomial x w hex _ (natDegree_mul_le.trans ((add_le_add (natDegree_jpoly _ _ _) (natDegree_jpoly _ _ _)).trans hij)),
      legendre_orth]
    by_cases h : i = j
    · subst h
      rw [if_pos rfl, if_pos rfl, if_neg (by omega)]
    · rw [if_neg (by simpa [Fin.ext_iff] using h), if_neg h]
  · have hi : (i : Nat) = n := by omega
    have hj : (j : Nat) = n := by omega
    rw [if_pos (Fin.ext (hi.trans hj.symm)), if_pos hi, hi, hj]
    exact lobatto_top hn x w h0 h1 hex

/-! ## Products -/

/-- Powers are combinations of the Legendre polynomials. -/
theorem pow_legendre (n e : Nat) (he : e ≤ n) : ∃ t : Fin (n + 1) → ℝ, ∀ s : ℝ, s ^ e = ∑ j, t j * (jpoly 0 0 j).eval s := by
  have hmem := legendre_family.X_pow_mem e
  have key : ∀ f ∈ Submodule.span ℝ (jpoly 0 0 '' Set.Iic e), ∃ t : Fin (n + 1) → ℝ, ∀ s : ℝ, f.eval s = ∑ j, t j * (jpoly 0 0 j).eval s := by
    intro f hf
    induction hf using Submodule.span_induction with
    | mem f hf =>
      obtain ⟨k, hk, rfl⟩ := hf
      have hk : k ≤ e := hk
      refine ⟨fun j => if (j : Nat) = k then 1 else 0, fun s => ?_⟩
      rw [Finset.sum_eq_single (⟨k, by omega⟩ : Fin (n + 1))]
      · simp
      · intro j _ hj
        show (if (j : Nat) = k then (1 : ℝ) else 0) * _ = 0
        rw [if_neg (by simpa [Fin.ext_iff] using hj), zero_mul]
      · simp
    | zero => exact ⟨0, by simp⟩
    | add f g _ _ h1 h2 =>
      obtain ⟨t, ht⟩ := h1
      obtain ⟨u, hu⟩ := h2
      exact ⟨t + u, fun s => by simp only [eval_add, ht, hu, Pi.add_apply, add_mul, Finset.sum_add_distrib]⟩
    | smul r f _ h1 =>
      obtain ⟨t, ht⟩ := h1
      exact ⟨r • t, fun s => by simp only [eval_smul, ht, Pi.smul_apply, smul_eq_mul, mul_assoc, Finset.mul_sum]⟩
  obtain ⟨t, ht⟩ := key _ hmem
  exact ⟨t, fun s => by rw [← ht s]; simp⟩

/-- A polynomial of degree at most `n` in each variable is a combination of products of Legendre polynomials. -/
theorem expand_legendre {d n : Nat} (P : MvPolynomial (Fin d) ℝ) (hP : ∀ i, MvPolynomial.degreeOf i P ≤ n) :
    ∃ c : (Fin d → Fin (n + 1)) → ℝ, ∀ y : Fin d → ℝ, MvPolynomial.eval y P = ∑ α, c α * ∏ i, (jpoly 0 0 (α i)).eval (y i) := by
  choose t ht using pow_legendre n
  refine ⟨fun α => ∑ m ∈ P.support, P.coeff m * ∏ i, (if h : m i ≤ n then t (m i) h (α i) else 0), fun y => ?_⟩
  rw [MvPolynomial.eval_eq']
  simp only [Finset.sum_mul]
  rw [Finset.sum_comm]
  refine Finset.sum_congr rfl fun m hm => ?_
  have hle : ∀ i, m i ≤ n := fun i => (MvPolynomial.degreeOf_le_iff.1 (hP i)) m hm
  have : ∏ i, y i ^ m i = ∑ α : Fin d → Fin (n + 1), ∏ i, t (m i) (hle i) (α i) * (jpoly 0 0 (α i)).eval (y i) := by
    have h := Finset.prod_univ_sum (fun _ : Fin d => (Finset.univ : Finset (Fin (n + 1)))) fun i a => t (m i) (hle i) a * (jpoly 0 0 a).eval (y i)
    rw [Fintype.piFinset_univ] at h
    rw [← h]
    exact Finset.prod_congr rfl fun i _ => ht _ (hle i) _
  rw [this, Finset.mul_sum]
  refine Finset.sum_congr rfl fun α _ => ?_
  rw [Finset.prod_mul_distrib, mul_assoc]
  congr 2
  exact Finset.prod_congr rfl fun i _ => by rw [dif_pos (hle i)]

/-- A product rule applied to the square of a combination of products of functions orthogonal for its factor. -/
theorem grid_square {d n : Nat} (x w : Fin (n + 1) → ℝ) (φ : Fin (n + 1) → ℝ → ℝ) (l : Fin (n + 1) → ℝ)
    (hg : ∀ i j, ∑ a, w a * (φ i (x a) * φ j (x a)) = if i = j then l i else 0) (c : (Fin d → Fin (n + 1)) → ℝ) :
    ∑ k : Fin ((n + 1) ^ d), (∏ i : Fin d, w (gridDigit n k i)) *
        (∑ α : Fin d → Fin (n + 1), c α * ∏ i, φ (α i) (x (gridDigit n k i))) ^ 2 = ∑ α, c α ^ 2 * ∏ i, l (α i) := by
  have e : ∀ k : Fin ((n + 1) ^ d), (∏ i : Fin d, w (gridDigit n k i)) *
        (∑ α : Fin d → Fin (n + 1), c α * ∏ i, φ (α i) (x (gridDigit n k i))) ^ 2 =
      ∑ α : Fin d → Fin (n + 1), ∑ β : Fin d → Fin (n + 1), c α * c β *
        ∏ i : Fin d, w (gridDigit n k i) * (φ (α i) (x (gridDigit n k i)) * φ (β i) (x (gridDigit n k i))) := by
    intro k
    rw [sq, Finset.sum_mul_sum, Finset.mul_sum]
    refine Finset.sum_congr rfl fun α _ => ?_
    rw [Finset.mul_sum]
    refine Finset.sum_congr rfl fun β _ => ?_
    simp only [Finset.prod_mul_distrib]
    ring
  rw [Finset.sum_congr rfl fun k _ => e k, Finset.sum_comm]
  refine Finset.sum_congr rfl fun α _ => ?_
  rw [Finset.sum_comm, Finset.sum_eq_single α]
  · rw [← Finset.mul_sum, grid_sum (fun i a => w a * (φ (α i) (x a) * φ (α i) (x a))), sq]
    congr 1
    exact Finset.prod_congr rfl fun i _ => by rw [hg, if_pos rfl]
  · intro β _ hβ
    obtain ⟨i, hi⟩ : ∃ i, α i ≠ β i := by
      by_contra h
      push Not at h
      exact hβ (funext fun i => (h i).symm)
    rw [← Finset.mul_sum, grid_sum (fun i a => w a * (φ (α i) (x a) * φ (β i) (x a))), Finset.prod_eq_zero (Finset.mem_univ i), mul_zero]
    rw [hg, if_neg hi]
  · simp

/-- The sum over the Gauss-Lobatto grid and the integral of the square of a polynomial, in terms of its Legendre coefficients. -/
theorem lobatto_square (ext : Ext) (hext : ext.EighOk) {d n : Nat} (hn : 1 ≤ n) (x w : Fin (n + 1) → ℝ) (h0 : x 0 = -1)
    (h1 : x (Fin.last n) = 1) (hex : ∀ e ≤ 2 * n - 1, ∑ a, w a * x a ^ e = ∫ t in (-1 : ℝ)..1, t ^ e)
    (P : MvPolynomial (Fin d) ℝ) (hP : ∀ i, MvPolynomial.degreeOf i P ≤ n) (c : (Fin d → Fin (n + 1)) → ℝ)
    (hc : ∀ y : Fin d → ℝ, MvPolynomial.eval y P = ∑ α, c α * ∏ i, (jpoly 0 0 (α i)).eval (y i)) :
    gridSum d x (fun _ => w) (polyAt (P * P)) = ∑ α, c α ^ 2 * ∏ i, (if (α i : Nat) = n then 2 + 1 / (n : ℝ) else 1) ∧
      Spec.cubeIntegral d (polyAt (P * P)) = ∑ α, c α ^ 2 := by
  have hval : ∀ (x w : Fin (n + 1) → ℝ), gridSum d x (fun _ => w) (polyAt (P * P)) =
      ∑ k : Fin ((n + 1) ^ d), (∏ i : Fin d, w (gridDigit n k i)) *
        (∑ α : Fin d → Fin (n + 1), c α * ∏ i, (jpoly 0 0 (α i)).eval (x (gridDigit n k i))) ^ 2 := by
    intro x w
    rw [gridSum]
    refine Finset.sum_congr rfl fun k _ => ?_
    rw [gridNode, polyAt_ofFn, map_mul, hc, sq]
  constructor
  · rw [hval]
    exact grid_square x w (fun i t => (jpoly 0 0 i).eval t) _ (fun i j => lobatto_gram hn x w h0 h1 hex i j) c
  · obtain ⟨y, v, -, hexG, -, -, -, -⟩ := compute_facts ext hext gaussParams_zero n
    have hexG' : ∀ e ≤ 2 * n + 1, ∑ a, v a * y a ^ e = ∫ t in (-1 : ℝ)..1, t ^ e := fun e he => by
      have := hexG (X ^ e) (by simpa using he)
      simpa using this
    rw [← gridSum_exact y v hexG' (P * P) fun i => (MvPolynomial.degreeOf_mul_le i _ _).trans (by have := hP i; omega), hval]
    rw [grid_square y v (fun i t => (jpoly 0 0 i).eval t) (fun _ => 1) (fun i j => ?_) c]
    · simp
    · simp only [← eval_mul]
      rw [rule_polynomial y v hexG' _ (natDegree_mul_le.trans ((add_le_add (natDegree_jpoly _ _ _) (natDegree_jpoly _ _ _)).trans (by omega))),
        legendre_orth]
      simp [Fin.ext_iff]

/-- The values at unisolvent nodes are arbitrary. -/
theorem exists_values {space : Space} {nodes : Fin (nodeTuples space).length → List ℝ} (hu : UnisolventFor space nodes)
    (u : Fin (nodeTuples space).length → ℝ) : ∃ c, ∀ i, spacePoly space c (nodes i) = u i := by
  have hdet := (unisolvent_iff_det _ _).1 hu
  refine ⟨(vandermonde (fun l : Fin (nodeTuples space).length => monomialValue (nodeTuples space)[l]) nodes)⁻¹ *ᵥ u, fun i => ?_⟩
  rw [spacePoly, ← vandermonde_mulVec (fun l : Fin (nodeTuples space).length => monomialValue (nodeTuples space)[l]) nodes _ i,
    mulVec_mulVec, mul_nonsing_inv _ hdet.isUnit, one_mulVec]

/-- The sums of squares with the diagonal and the consistent mass matrix. -/
theorem lobatto_forms (ext : Ext) (hext : ext.EighOk) {dims n : Nat} (hn : 1 ≤ n) (x w : Fin (n + 1) → ℝ) (h0 : x 0 = -1)
    (h1 : x (Fin.last n) = 1) (hex : ∀ e ≤ 2 * n - 1, ∑ a, w a * x a ^ e = ∫ t in (-1 : ℝ)..1, t ^ e)
    (c : Fin (nodeTuples (.qn dims n)).length → ℝ) :
    ∃ a : (Fin dims → Fin (n + 1)) → ℝ,
      (∑ k : Fin (nodeTuples (.qn dims n)).length, (∏ i : Fin dims, w (gridDigit n k i)) * spacePoly (.qn dims n) c (qnNodes dims x k) ^ 2 =
        ∑ α, a α ^ 2 * ∏ i, (if (α i : Nat) = n then 2 + 1 / (n : ℝ) else 1)) ∧
      spaceIntegral (.qn dims n) (fun y => spacePoly (.qn dims n) c y * spacePoly (.qn dims n) c y) = ∑ α, a α ^ 2 ∧
      ∀ y : Fin dims → ℝ, spacePoly (.qn dims n) c (List.ofFn y) = ∑ α, a α * ∏ i, (jpoly 0 0 (α i)).eval (y i) := by
  obtain ⟨P, hP, hv⟩ := spacePoly_polyAt (.qn dims n) (spatialDim_qn dims n) c
  obtain ⟨a, ha⟩ := expand_legendre P fun i => degree_qn hP i
  obtain ⟨e1, e2⟩ := lobatto_square ext hext hn x w h0 h1 hex P (fun i => degree_qn hP i) a ha
  refine ⟨a, ?_, ?_, fun y => ?_⟩
  · rw [← e1, gridSum]
    refine (sum_qn dims n fun k => (∏ i : Fin dims, w (gridDigit n k i)) * spacePoly (.qn dims n) c (gridNode dims x k) ^ 2).trans ?_
    refine Finset.sum_congr rfl fun k _ => ?_
    rw [hv _ (gridNode_length ..), sq]
    simp [polyAt]
  · rw [spaceIntegral_qn_mul dims n P P _ _ hv hv, e2]
  · rw [hv _ (by simp), polyAt_ofFn, ha]

theorem factor_bounds {n : Nat} (hn : 1 ≤ n) {d : Nat} (α : Fin d → Fin (n + 1)) :
    1 ≤ ∏ i, (if (α i : Nat) = n then 2 + 1 / (n : ℝ) else 1) ∧ ∏ i, (if (α i : Nat) = n then 2 + 1 / (n : ℝ) else 1) ≤ (2 + 1 / (n : ℝ)) ^ d := by
  have hp : (0 : ℝ) ≤ 1 / n := by positivity
  constructor
  · refine Finset.one_le_prod fun i _ => ?_
    split <;> linarith
  · calc ∏ i, (if (α i : Nat) = n then 2 + 1 / (n : ℝ) else 1) ≤ ∏ _i : Fin d, (2 + 1 / (n : ℝ)) := by
          refine Finset.prod_le_prod (fun i _ => ?_) fun i _ => ?_ <;> split <;> linarith
      _ = (2 + 1 / (n : ℝ)) ^ d := by simp

/-- **C99.**  The diagonal mass matrix of Gauss-Lobatto nodes is equivalent to the mass matrix, with sharp constants `1` and
`(2 + 1/n)^dims`. -/
theorem C99_norms (ext : Ext) (hext : ext.EighOk) (dims n : Nat) (hd : 0 < dims) (hn : 1 ≤ n) (b : Basis ℝ)
    (hb : orthonormalBasisForSpace (.qn dims n) (.hypercube dims) = .ok b ∨ basisForSpace (.qn dims n) (.hypercube dims) = .ok b) :
    ∃ A Q w M, legendreGaussLobattoTensorProductNodes ext dims n = .ok A ∧
      legendreGaussLobattoTensorProduct ext n dims .builtin = .ok Q ∧ spectralDiag Q = .ok w ∧
      massMatrixOfBasis b (fun i : Fin (nodeTuples (.qn dims n)).length => column A dims i) = .ok M ∧
      (∀ u : Fin (nodeTuples (.qn dims n)).length → ℝ,
        ∑ i, ∑ j, u i * M i j * u j ≤ ∑ i : Fin (nodeTuples (.qn dims n)).length, w.get [(i : Nat)] * u i ^ 2 ∧
        ∑ i : Fin (nodeTuples (.qn dims n)).length, w.get [(i : Nat)] * u i ^ 2 ≤ (2 + 1 / (n : ℝ)) ^ dims * ∑ i, ∑ j, u i * M i j * u j) ∧
      (∃ u : Fin (nodeTuples (.qn dims n)).length → ℝ, u ≠ 0 ∧ ∑ i : Fin (nodeTuples (.qn dims n)).length, w.get [(i : Nat)] * u i ^ 2 = ∑ i, ∑ j, u i * M i j * u j) ∧
      ∃ u : Fin (nodeTuples (.qn dims n)).length → ℝ, u ≠ 0 ∧ ∑ i : Fin (nodeTuples (.qn dims n)).length, w.get [(i : Nat)] * u i ^ 2 =
        (2 + 1 / (n : ℝ)) ^ dims * ∑ i, ∑ j, u i * M i j * u j := by
  obtain ⟨A, Q, x, w, r, hA, hQ, hAs, hQs, hnodes, hdiag, hws, hq, hx, h0, h1, hpos, hex, hwt, hget, hcol, hu⟩ :=
    lobatto_setup ext hext dims n hd hn
  obtain ⟨M, hM, hm⟩ := mass_qn dims n b hb (qnNodes dims x) (fun i => gridNode_length ..) hu
  have hwt' : ∀ i : Fin (nodeTuples (.qn dims n)).length, Q.weights.get [(i : Nat)] = ∏ l : Fin dims, w (gridDigit n i l) := fun i =>
    hwt i (lt_of_lt_of_eq i.2 (length_qn dims n))
  -- a polynomial with given Legendre coefficients
  have hsharp : ∀ k : Fin (n + 1), ∃ u : Fin (nodeTuples (.qn dims n)).length → ℝ, u ≠ 0 ∧
      ∑ i : Fin (nodeTuples (.qn dims n)).length, Q.weights.get [(i : Nat)] * u i ^ 2 =
        (if (k : Nat) = n then 2 + 1 / (n : ℝ) else 1) ^ dims * ∑ i, ∑ j, u i * M i j * u j := by
    intro k
    set P : MvPolynomial (Fin dims) ℝ := ∏ i, (Polynomial.aeval (MvPolynomial.X i) (jpoly 0 0 k))
    have hPv : ∀ y : Fin dims → ℝ, MvPolynomial.eval y P = ∏ i, (jpoly 0 0 k).eval (y i) := by
      intro y
      rw [map_prod]
      refine Finset.prod_congr rfl fun i _ => ?_
      rw [← MvPolynomial.coe_aeval_eq_eval]
      show (MvPolynomial.aeval y) _ = _
      rw [← Polynomial.aeval_algHom_apply, MvPolynomial.aeval_X, Polynomial.coe_aeval_eq_eval]
    have hdeg : ∀ i, MvPolynomial.degreeOf i P ≤ n := by
      intro i
      refine (MvPolynomial.degreeOf_prod_le i _ _).trans ?_
      have h1 : ∀ j : Fin dims, MvPolynomial.degreeOf i (Polynomial.aeval (MvPolynomial.X j : MvPolynomial (Fin dims) ℝ) (jpoly 0 0 k)) ≤
          if i = j then n else 0 := by
        intro j
        rw [Polynomial.aeval_eq_sum_range]
        refine (MvPolynomial.degreeOf_sum_le i _ _).trans (Finset.sup_le fun e he => ?_)
        rw [MvPolynomial.smul_eq_C_mul]
        refine (MvPolynomial.degreeOf_C_mul_le _ _ _).trans ?_
        split
        · next h =>
          subst h
          rw [MvPolynomial.degreeOf_X_self_pow]
          have h2 := Finset.mem_range.1 he
          have h3 := natDegree_jpoly (0 : ℝ) 0 k
          omega
        · next h => rw [MvPolynomial.degreeOf_X_pow_of_ne e h]
      refine (Finset.sum_le_sum fun j _ => h1 j).trans ?_
      simp
    obtain ⟨c, hc⟩ := polyAt_spacePoly (.qn dims n) (spatialDim_qn dims n) P ((polyIn_cube (conforms_qn dims n) P).2 hdeg)
    obtain ⟨e1, e2⟩ := lobatto_square ext hext hn x w h0 h1 hex P hdeg (fun α => if α = fun _ => k then 1 else 0) fun y => by
      rw [hPv]
      simp
    have hform := hm c c
    rw [spaceIntegral_qn_mul dims n P P _ _ (fun y hy => (hc y hy).symm) (fun y hy => (hc y hy).symm), e2] at hform
    refine ⟨fun i => spacePoly (.qn dims n) c (qnNodes dims x i), fun h => ?_, ?_⟩
    · have h' : ∀ i, spacePoly (.qn dims n) c (qnNodes dims x i) = 0 := fun i => congrFun h i
      simp [h'] at hform
    · rw [hform]
      simp only [hwt']
      refine (sum_qn dims n fun k => (∏ i : Fin dims, w (gridDigit n k i)) * spacePoly (.qn dims n) c (gridNode dims x k) ^ 2).trans ?_
      have h3 : ∑ k : Fin ((n + 1) ^ dims), (∏ i : Fin dims, w (gridDigit n k i)) * spacePoly (.qn dims n) c (gridNode dims x k) ^ 2 =
          gridSum dims x (fun _ => w) (polyAt (P * P)) := by
        rw [gridSum]
        refine Finset.sum_congr rfl fun k _ => ?_
        rw [← hc _ (gridNode_length ..), sq]
        simp [polyAt]
      rw [h3, e1]
      simp
  refine ⟨A, Q, Q.weights, M, hA, hQ, hdiag, by rw [hcol]; exact hM, fun u => ?_, ?_, ?_⟩
  · obtain ⟨c, hc⟩ := exists_values hu u
    obtain ⟨a, e1, e2, -⟩ := lobatto_forms ext hext hn x w h0 h1 hex c
    rw [← hm] at e2
    simp only [hc] at e1 e2
    simp only [hwt']
    rw [e1, e2, Finset.mul_sum]
    constructor
    · refine Finset.sum_le_sum fun α _ => ?_
      have := (factor_bounds hn α).1
      nlinarith [sq_nonneg (a α)]
    · refine Finset.sum_le_sum fun α _ => ?_
      rw [mul_comm]
      exact mul_le_mul_of_nonneg_right (factor_bounds hn α).2 (sq_nonneg _)
  · obtain ⟨u, hu0, h⟩ := hsharp 0
    rw [if_neg (by simp; omega), one_pow, one_mul] at h
    exact ⟨u, hu0, h⟩
  · obtain ⟨u, hu0, h⟩ := hsharp (Fin.last n)
    rw [if_pos (by simp)] at h
    exact ⟨u, hu0, h⟩

/-! ## Interpolation -/

theorem spacePoly_sub (space : Space) (c e : Fin (nodeTuples space).length → ℝ) (x : List ℝ) :
    spacePoly space (c - e) x = spacePoly space c x - spacePoly space e x := by
  simp only [spacePoly, combine, Pi.sub_apply, sub_mul, Finset.sum_sub_distrib]

/-- The mean square error of interpolation at the nodes of a rule with nonnegative weights which does not underestimate squares. -/
theorem interpolation_error {space : Space} {m : Nat} (y : Fin m → List ℝ) (hy : ∀ i, InProduct (domainDims space) (y i)) (w : Fin m → ℝ)
    (hw : ∀ k, 0 ≤ w k) (hvol : ∑ k, w k = spaceIntegral space fun _ => 1)
    (hle : ∀ c, spaceIntegral space (fun x => spacePoly space c x * spacePoly space c x) ≤ ∑ k, w k * spacePoly space c (y k) ^ 2)
    (f : List ℝ → ℝ) (hf : ContinuousOnProduct (domainDims space) f) (p : Fin (nodeTuples space).length → ℝ)
    (hp : ∀ k, spacePoly space p (y k) = f (y k)) (e : Fin (nodeTuples space).length → ℝ) (δ : ℝ)
    (he : ∀ x, InProduct (domainDims space) x → |f x - spacePoly space e x| ≤ δ) :
    spaceIntegral space (fun x => (f x - spacePoly space p x) ^ 2) ≤ 4 * (spaceIntegral space fun _ => 1) * δ ^ 2 := by
  have hsq : ∀ x, InProduct (domainDims space) x → (f x - spacePoly space e x) ^ 2 ≤ δ ^ 2 := fun x hx => by
    rw [← sq_abs]
    exact pow_le_pow_left₀ (abs_nonneg _) (he x hx) 2
  have hone : ∀ r : ℝ, ContinuousOnProduct (domainDims space) fun _ => r := fun _ => continuousOn_const
  have hce := continuous_spacePoly space e
  have hcp := continuous_spacePoly space p
  have h1 : spaceIntegral space (fun x => (spacePoly space e x - spacePoly space p x) ^ 2) ≤ δ ^ 2 * spaceIntegral space fun _ => 1 := by
    have e1 : (fun x => (spacePoly space e x - spacePoly space p x) ^ 2) = fun x => spacePoly space (e - p) x * spacePoly space (e - p) x := by
      funext x
      rw [spacePoly_sub, sq]
    rw [e1, ← hvol, Finset.mul_sum]
    refine (hle (e - p)).trans (Finset.sum_le_sum fun k _ => ?_)
    rw [mul_comm (δ ^ 2), spacePoly_sub, hp]
    refine mul_le_mul_of_nonneg_left ?_ (hw k)
    have := hsq _ (hy k)
    nlinarith
  have h2 : spaceIntegral space (fun x => (f x - spacePoly space e x) ^ 2) ≤ δ ^ 2 * spaceIntegral space fun _ => 1 := by
    have hm := productIntegral_mono (continuousOn_combination hf hce) (hone (δ ^ 2)) hsq
    have hl := productIntegral_linear (hone 1) (hone 1) (δ ^ 2) 0
    simp only [zero_mul, add_zero, mul_one] at hl
    rw [hl] at hm
    exact hm
  have h3 : spaceIntegral space (fun x => (f x - spacePoly space p x) ^ 2) ≤
      spaceIntegral space fun x => 2 * (f x - spacePoly space e x) ^ 2 + 2 * (spacePoly space e x - spacePoly space p x) ^ 2 := by
    refine productIntegral_mono (continuousOn_combination hf hcp)
      (((continuousOn_const (c := (2 : ℝ))).mul (continuousOn_combination hf hce)).add
        ((continuousOn_const (c := (2 : ℝ))).mul (continuousOn_combination hce hcp))) fun x _ => ?_
    nlinarith [sq_nonneg ((f x - spacePoly space e x) - (spacePoly space e x - spacePoly space p x))]
  have h4 : (spaceIntegral space fun x => 2 * (f x - spacePoly space e x) ^ 2 + 2 * (spacePoly space e x - spacePoly space p x) ^ 2) =
      2 * spaceIntegral space (fun x => (f x - spacePoly space e x) ^ 2) +
        2 * spaceIntegral space fun x => (spacePoly space e x - spacePoly space p x) ^ 2 :=
    productIntegral_linear (continuousOn_combination hf hce) (continuousOn_combination hce hcp) 2 2
  rw [h4] at h3
  linarith

/-- **C99.**  The interpolant of a continuous function at the nodes of `legendre_gauss_lobatto_tensor_product_nodes(d, n)` exists,
is unique in `QN(d, n)`, and its mean square error is at most `4 * 2^d` times the square of the distance of the function to the
space. -/
theorem C99_error (ext : Ext) (hext : ext.EighOk) (d n : Nat) (hd : 0 < d) (hn : 1 ≤ n) (f : List ℝ → ℝ) (hf : ContinuousCube d f) :
    ∃ A, legendreGaussLobattoTensorProductNodes ext d n = .ok A ∧
      (∃! p, ∀ k < (n + 1) ^ d, spacePoly (.qn d n) p (column A d k) = f (column A d k)) ∧
      ∀ p, (∀ k < (n + 1) ^ d, spacePoly (.qn d n) p (column A d k) = f (column A d k)) →
        ∀ e δ, (∀ x, InCube d x → |f x - spacePoly (.qn d n) e x| ≤ δ) →
          cubeIntegral d (fun x => (f x - spacePoly (.qn d n) p x) ^ 2) ≤ 4 * 2 ^ d * δ ^ 2 := by
  have hdims : domainDims (.qn d n) = List.replicate d 1 := by simp [domainDims, Space.flatBases]
  have hfp := (continuousCube_iff d f).1 hf
  obtain ⟨A, Q, x, w, r, hA, hQ, hAs, hQs, hnodes, hdiag, hws, hq, hx, h0, h1, hpos, hex, hwt, hget, hcol, hu⟩ :=
    lobatto_setup ext hext d n hd hn
  have hcol' : ∀ k (hk : k < (n + 1) ^ d), column A d k = qnNodes d x ⟨k, hk.trans_eq (length_qn d n).symm⟩ := fun k hk =>
    congrFun hcol ⟨k, hk.trans_eq (length_qn d n).symm⟩
  refine ⟨A, hA, ?_, fun p hp e δ he => ?_⟩
  · obtain ⟨c, hc⟩ := exists_values hu fun i => f (qnNodes d x i)
    refine ⟨c, fun k hk => by rw [hcol' k hk, hc], fun q hq => ?_⟩
    have := hu (q - c) fun i => by
      have h1 := hq i (lt_of_lt_of_eq i.2 (length_qn d n))
      rw [hcol' i (lt_of_lt_of_eq i.2 (length_qn d n))] at h1
      have : spacePoly (.qn d n) (q - c) (qnNodes d x i) = 0 := by
        rw [spacePoly_sub, hc]
        exact sub_eq_zero.2 h1
      exact this
    exact sub_eq_zero.1 this
  · have hin : ∀ a, -1 ≤ x a ∧ x a ≤ 1 := fun a =>
      ⟨by rw [← h0]; exact hx.monotone (Fin.zero_le a), by rw [← h1]; exact hx.monotone (Fin.le_last a)⟩
    have hy : ∀ i, InProduct (domainDims (.qn d n)) (qnNodes d x i) := by
      intro i
      rw [hdims]
      refine inProduct_of_inCube d _ ⟨gridNode_length .., fun c hc => ?_⟩
      obtain ⟨j, rfl⟩ := (List.mem_ofFn (f := fun j : Fin d => x (gridDigit n i j))).1 hc
      exact hin _
    have hvol1 : (spaceIntegral (.qn d n) fun _ => 1) = 2 ^ d := by
      rw [spaceIntegral_one]
      simp [Space.flatBases]
    have hvol : ∑ k : Fin (nodeTuples (.qn d n)).length, (∏ i : Fin d, w (gridDigit n k i)) = spaceIntegral (.qn d n) fun _ => 1 := by
      have hc := gridSum_exact x w hex (1 : MvPolynomial (Fin d) ℝ) (fun i => by rw [← MvPolynomial.C_1, MvPolynomial.degreeOf_C]; omega)
      rw [hvol1, sum_qn d n fun k => ∏ i : Fin d, w (gridDigit n k i)]
      have e1 : (polyAt (1 : MvPolynomial (Fin d) ℝ)) = fun _ => 1 := funext fun x => map_one _
      rw [e1] at hc
      simp only [gridSum, mul_one] at hc
      rw [hc]
      exact volume_cube d
    have := interpolation_error (space := .qn d n) (qnNodes d x) hy (fun k => ∏ i : Fin d, w (gridDigit n k i))
      (fun k => Finset.prod_nonneg fun i _ => (hpos _).le) hvol (fun c => by
        obtain ⟨a, e1, e2, -⟩ := lobatto_forms ext hext hn x w h0 h1 hex c
        rw [e1, e2]
        refine Finset.sum_le_sum fun α _ => ?_
        have := (factor_bounds hn α).1
        nlinarith [sq_nonneg (a α)]) f (by rw [hdims]; exact hfp) p (fun i => by
          have := hp i (lt_of_lt_of_eq i.2 (length_qn d n))
          rwa [hcol' i (lt_of_lt_of_eq i.2 (length_qn d n))] at this) e δ (fun z hz => he z ?_)
    · rw [hvol1] at this
      have hc : ContinuousCube d fun x => (f x - spacePoly (.qn d n) p x) ^ 2 := by
        rw [continuousCube_iff]
        have := continuous_spacePoly (.qn d n) p
        rw [hdims] at this
        exact continuousOn_combination hfp this
      rw [spaceIntegral, show (Space.qn d n).flatBases.map PNSpace.spatialDim = List.replicate d 1 from hdims, productIntegral_cube d _ hc] at this
      exact this
    · rw [hdims] at hz
      exact inCube_of_inProduct d z hz

/-- **C99.**  The interpolants of every continuous function at the nodes of `legendre_gauss_lobatto_tensor_product_nodes(d, n)`
converge to it in the mean square. -/
theorem C99_converges (ext : Ext) (hext : ext.EighOk) (d : Nat) (hd : 0 < d) (f : List ℝ → ℝ) (hf : ContinuousCube d f) (ε : ℝ) (hε : 0 < ε) :
    ∃ N, ∀ n ≥ N, ∃ A, legendreGaussLobattoTensorProductNodes ext d n = .ok A ∧
      (∃! p, ∀ k < (n + 1) ^ d, spacePoly (.qn d n) p (column A d k) = f (column A d k)) ∧
      ∀ p, (∀ k < (n + 1) ^ d, spacePoly (.qn d n) p (column A d k) = f (column A d k)) →
        cubeIntegral d (fun x => (f x - spacePoly (.qn d n) p x) ^ 2) < ε := by
  obtain ⟨δ, hδ, hδε⟩ : ∃ δ : ℝ, 0 < δ ∧ 4 * 2 ^ d * δ ^ 2 < ε := by
    have ht : Filter.Tendsto (fun δ : ℝ => 4 * 2 ^ d * δ ^ 2) (nhdsWithin 0 (Set.Ioi 0)) (nhds (4 * 2 ^ d * 0 ^ 2)) :=
      ((continuous_const.mul (continuous_id.pow 2)).tendsto 0).mono_left nhdsWithin_le_nhds
    rw [show 4 * 2 ^ d * 0 ^ 2 = (0 : ℝ) by ring] at ht
    obtain ⟨δ, h1, h2⟩ := ((ht.eventually (gt_mem_nhds hε)).and self_mem_nhdsWithin).exists
    exact ⟨δ, h2, h1⟩
  obtain ⟨N, hN⟩ := exists_near_space (List.replicate d 1) f ((continuousCube_iff d f).1 hf) δ hδ
  refine ⟨max N 1, fun n hn => ?_⟩
  obtain ⟨e, he⟩ := hN (.qn d n) (by simp [domainDims, Space.flatBases]) (fun s hs => by
    simp only [Space.flatBases] at hs
    rw [(List.mem_replicate.1 hs).2]
    exact (le_max_left _ _).trans hn)
  obtain ⟨A, hA, h1, h2⟩ := C99_error ext hext d n hd ((le_max_right _ _).trans hn) f hf
  exact ⟨A, hA, h1, fun p hp => lt_of_le_of_lt (h2 p hp e δ fun x hx => he x (inProduct_of_inCube d x hx)) hδε⟩

/-- The hypotheses are met on the square with order three, where the constant is `(7/3)^2`; and the interpolants of `|x + y|`
converge. -/
example : ∃ ext : Ext, ext.EighOk ∧ (∃ b : Basis ℝ, basisForSpace (.qn 2 3) (.hypercube 2) = .ok b ∧
      ∃ A M, legendreGaussLobattoTensorProductNodes ext 2 3 = .ok A ∧
        massMatrixOfBasis b (fun i : Fin (nodeTuples (.qn 2 3)).length => column A 2 i) = .ok M) ∧
    ContinuousCube 2 (fun x => |x.getD 0 0 + x.getD 1 0|) ∧
    ∃ N, ∀ n ≥ N, ∃ A p, legendreGaussLobattoTensorProductNodes ext 2 n = .ok A ∧
      (∀ k < (n + 1) ^ 2, spacePoly (.qn 2 n) p (column A 2 k) = |(column A 2 k).getD 0 0 + (column A 2 k).getD 1 0|) ∧
      cubeIntegral 2 (fun x => (|x.getD 0 0 + x.getD 1 0| - spacePoly (.qn 2 n) p x) ^ 2) < 1 / 1000 := by
  obtain ⟨ext, hext⟩ := exists_eighOk
  have hc : ContinuousCube 2 (fun x => |x.getD 0 0 + x.getD 1 0|) := by
    have : Continuous fun x : Fin 2 → ℝ => |x 0 + x 1| := by fun_prop
    refine this.continuousOn.congr fun x _ => ?_
    simp
  refine ⟨ext, hext, ?_, hc, ?_⟩
  · obtain ⟨b, hb⟩ : ∃ b : Basis ℝ, basisForSpace (.qn 2 3) (.hypercube 2) = .ok b := ⟨_, rfl⟩
    obtain ⟨A, Q, w, M, hA, -, -, hM, -⟩ := C99_norms ext hext 2 3 (by norm_num) (by norm_num) b (Or.inr hb)
    exact ⟨b, hb, A, M, hA, hM⟩
  · obtain ⟨N, hN⟩ := C99_converges ext hext 2 (by norm_num) _ hc (1 / 1000) (by norm_num)
    refine ⟨N, fun n hn => ?_⟩
    obtain ⟨A, hA, ⟨p, hp, -⟩, hall⟩ := hN n hn
    exact ⟨A, p, hA, hp, hall p hp⟩

end Modepy

import Mathlib.Algebra.MvPolynomial.Funext
import Mathlib.Order.Interval.Set.Infinite
import Mathlib.MeasureTheory.Integral.Bochner.Set
import Verif.Model.Basis
import Verif.Proofs.TetrahedronGrad
import Verif.Proofs.Spanning
import Verif.Props.Indexing

/-!
# Properties C21–C25: orthonormal modes on triangle and tetrahedron

In exact arithmetic `pkdo_2d` is a polynomial except in the strip `0 < |s-1| < 1e-12`, where
`_rstoab` replaces the collapsed coordinate by `-1` (and similarly `_rsttoabc`).  The statements
quantify over the polynomial with which the function agrees outside that strip and at the collapsed
vertex; it exists and is unique.
-/

namespace Modepy
open Spec MvPolynomial MeasureTheory

/-- `Q` is the polynomial computed by `pkdo_2d((i, j), ·)`: equal outside the tolerance strip and at
the collapsed vertex. -/
def ComputesTri (i j : Nat) (Q : MvPolynomial (Fin 2) ℝ) : Prop :=
  (∀ r s : ℝ, 1e-12 ≤ |s - 1| → pkdo2d i j r s = eval ![r, s] Q) ∧
  pkdo2d i j (-1 : ℝ) 1 = eval ![-1, 1] Q

/-- `Q` is the polynomial computed by `pkdo_3d((i, j, k), ·)`: equal outside the tolerance strips, on
the collapsed edge `s + t = 0`, `r = -1` of the tetrahedron and at its vertex `t = 1`. -/
def ComputesTet (i j k : Nat) (Q : MvPolynomial (Fin 3) ℝ) : Prop :=
  (∀ r s t : ℝ, 1e-10 < |s + t| → 1e-10 < |t - 1| → pkdo3d i j k r s t = eval ![r, s, t] Q) ∧
  (∀ t : ℝ, 1e-10 < |t - 1| → pkdo3d i j k (-1) (-t) t = eval ![-1, -t, t] Q) ∧
  pkdo3d i j k (-1) (-1) (1 : ℝ) = eval ![-1, -1, 1] Q

theorem computesTri_triMode (i j : Nat) : ComputesTri i j (triMode i j) :=
  ⟨fun r s h => pkdo2d_off i j r s h, pkdo2d_vertex i j⟩

theorem computesTet_tetMode (i j k : Nat) : ComputesTet i j k (tetMode i j k) :=
  ⟨fun r s t h1 h2 => pkdo3d_off i j k r s t h1 h2, fun t h => pkdo3d_edge i j k t h,
    pkdo3d_vertex i j k⟩

theorem computesTri_unique {i j : Nat} {Q : MvPolynomial (Fin 2) ℝ} (h : ComputesTri i j Q) :
    Q = triMode i j := by
  refine funext_set (fun _ => Set.Iic (0 : ℝ)) (fun _ => Set.Iic_infinite 0) ?_
  intro x hx
  have h1 : x 1 ≤ 0 := hx 1 (Set.mem_univ _)
  have hb : 1e-12 ≤ |x 1 - 1| := by
    rw [abs_of_neg (by linarith)]; norm_num; linarith
  have e : x = ![x 0, x 1] := by funext k; fin_cases k <;> rfl
  rw [e, ← h.1 _ _ hb, pkdo2d_off i j _ _ hb]

theorem computesTet_unique {i j k : Nat} {Q : MvPolynomial (Fin 3) ℝ} (h : ComputesTet i j k Q) :
    Q = tetMode i j k := by
  refine funext_set (fun _ => Set.Iic (-1 : ℝ)) (fun _ => Set.Iic_infinite (-1)) ?_
  intro x hx
  have h1 : x 1 ≤ -1 := hx 1 (Set.mem_univ _)
  have h2 : x 2 ≤ -1 := hx 2 (Set.mem_univ _)
  have hb1 : 1e-10 < |x 1 + x 2| := by
    rw [abs_of_neg (by linarith)]; norm_num; linarith
  have hb2 : 1e-10 < |x 2 - 1| := by
    rw [abs_of_neg (by linarith)]; norm_num; linarith
  have e : x = ![x 0, x 1, x 2] := by funext k; fin_cases k <;> rfl
  rw [e, ← h.1 _ _ _ hb1 hb2, pkdo3d_off i j k _ _ _ hb1 hb2]

/-- **C21.**  The triangle modes are orthonormal on the reference triangle. -/
theorem C21_orthonormal (i j k l : Nat) (Q Q' : MvPolynomial (Fin 2) ℝ) (hQ : ComputesTri i j Q)
    (hQ' : ComputesTri k l Q') :
    ∫ p in triangle, eval ![p.1, p.2] Q * eval ![p.1, p.2] Q' = if (i, j) = (k, l) then 1 else 0 := by
  rw [computesTri_unique hQ, computesTri_unique hQ', triMode_orthonormal]
  simp only [Prod.mk.injEq]

/-- **C21.**  The polynomial exists (non-vacuity of the hypotheses), is unique, and has total degree at
most `i + j`. -/
theorem C21_polynomial (i j : Nat) :
    ∃! Q : MvPolynomial (Fin 2) ℝ, ComputesTri i j Q ∧ Q.totalDegree ≤ i + j :=
  ⟨triMode i j, ⟨computesTri_triMode i j, totalDegree_triMode i j⟩, fun _ h => computesTri_unique h.1⟩

/-- **C22.**  The tetrahedron modes are orthonormal on the reference tetrahedron. -/
theorem C22_orthonormal (i j k l m n : Nat) (Q Q' : MvPolynomial (Fin 3) ℝ) (hQ : ComputesTet i j k Q)
    (hQ' : ComputesTet l m n Q') :
    ∫ p in tetrahedron, eval ![p.1, p.2.1, p.2.2] Q * eval ![p.1, p.2.1, p.2.2] Q' =
      if (i, j, k) = (l, m, n) then 1 else 0 := by
  rw [computesTet_unique hQ, computesTet_unique hQ', tetMode_orthonormal]
  simp only [Prod.mk.injEq]

/-- **C22.**  The polynomial exists (non-vacuity of the hypotheses), is unique, and has total degree at
most `i + j + k`. -/
theorem C22_polynomial (i j k : Nat) :
    ∃! Q : MvPolynomial (Fin 3) ℝ, ComputesTet i j k Q ∧ Q.totalDegree ≤ i + j + k :=
  ⟨tetMode i j k, ⟨computesTet_tetMode i j k, totalDegree_tetMode i j k⟩,
    fun _ h => computesTet_unique h.1⟩

/-- **C23.**  `grad_pkdo_2d` is the gradient of the mode, outside the tolerance strip and at the
collapsed vertex. -/
theorem C23_gradient (i j : Nat) (Q : MvPolynomial (Fin 2) ℝ) (hQ : ComputesTri i j Q) (r s : ℝ)
    (h : 1e-12 ≤ |s - 1| ∨ (r = -1 ∧ s = 1)) :
    HasDerivAt (fun t => eval ![t, s] Q) (gradPkdo2d i j r s).1 r ∧
    HasDerivAt (fun t => eval ![r, t] Q) (gradPkdo2d i j r s).2 s := by
  rw [computesTri_unique hQ]
  rcases h with h | ⟨rfl, rfl⟩
  · exact grad2d_off i j r s h
  · exact grad2d_vertex i j

/-- **C24.**  `grad_pkdo_3d` is the gradient of the mode, outside the tolerance strips, on the
collapsed edge and at the collapsed vertex. -/
theorem C24_gradient (i j k : Nat) (Q : MvPolynomial (Fin 3) ℝ) (hQ : ComputesTet i j k Q) (r s t : ℝ)
    (h : (1e-10 < |s + t| ∧ 1e-10 < |t - 1|) ∨ (r = -1 ∧ s = -t ∧ 1e-10 < |t - 1|) ∨
      (r = -1 ∧ s = -1 ∧ t = 1)) :
    HasDerivAt (fun x => eval ![x, s, t] Q) (gradPkdo3d i j k r s t).1 r ∧
    HasDerivAt (fun x => eval ![r, x, t] Q) (gradPkdo3d i j k r s t).2.1 s ∧
    HasDerivAt (fun x => eval ![r, s, x] Q) (gradPkdo3d i j k r s t).2.2 t := by
  rw [computesTet_unique hQ]
  rcases h with ⟨h1, h2⟩ | ⟨rfl, rfl, h2⟩ | ⟨rfl, rfl, rfl⟩
  · exact grad3d_off i j k r s t h1 h2
  · exact grad3d_edge i j k t h2
  · exact grad3d_vertex i j k

/-- **C23, C24.**  Non-vacuity: points of each kind in the triangle and the tetrahedron. -/
example : ((-1/3, -1/3) : ℝ × ℝ) ∈ triangle ∧ (1e-12 : ℝ) ≤ |(-1/3) - 1| ∧
    ((-1, -1/2, 1/2) : ℝ × ℝ × ℝ) ∈ tetrahedron ∧ (1e-10 : ℝ) < |1/2 - 1| ∧
    ((-1/2, -1/2, -1/2) : ℝ × ℝ × ℝ) ∈ tetrahedron ∧ (1e-10 : ℝ) < |(-1/2) + (-1/2)| := by
  refine ⟨?_, ?_, ?_, ?_, ?_, ?_⟩
  · simp only [triangle, Set.mem_ofPred_eq]; norm_num
  · rw [abs_of_neg (by norm_num)]; norm_num
  · simp only [tetrahedron, Set.mem_ofPred_eq]; norm_num
  · rw [abs_of_neg (by norm_num)]; norm_num
  · simp only [tetrahedron, Set.mem_ofPred_eq]; norm_num
  · rw [abs_of_neg (by norm_num)]; norm_num

/-! ## Spanning -/

/-- Integration against a polynomial. -/
noncomputable def pairing {σ E : Type*} [MeasurableSpace E] (μ : Measure E) (e : E → σ → ℝ)
    (hint : ∀ p : MvPolynomial σ ℝ, Integrable (fun x => eval (e x) p) μ) (q : MvPolynomial σ ℝ) :
    MvPolynomial σ ℝ →ₗ[ℝ] ℝ where
  toFun p := ∫ x, eval (e x) q * eval (e x) p ∂μ
  map_add' p p' := by
    rw [← integral_add]
    · simp only [map_add, mul_add]
    · simpa only [map_mul] using hint (q * p)
    · simpa only [map_mul] using hint (q * p')
  map_smul' c p := by
    simp only [smul_eval, RingHom.id_apply, smul_eq_mul]
    rw [← integral_const_mul]
    congr 1; funext x; ring

theorem sum_fin_two (m : Fin 2 →₀ ℕ) : (m.sum fun _ e => e) = m 0 + m 1 := by
  rw [Finsupp.sum_fintype _ _ (fun _ => rfl)]; simp [Fin.sum_univ_succ]

theorem sum_fin_three (m : Fin 3 →₀ ℕ) : (m.sum fun _ e => e) = m 0 + m 1 + m 2 := by
  rw [Finsupp.sum_fintype _ _ (fun _ => rfl)]; simp [Fin.sum_univ_succ]; ring

theorem finsupp_two (i j : Nat) :
    (Finsupp.equivFunOnFinite.symm ![i, j]) 0 = i ∧ (Finsupp.equivFunOnFinite.symm ![i, j]) 1 = j := by
  simp

/-- **C25.**  On the triangle: the polynomials computed by the modes with ids of sum at most `N` span
exactly the polynomials of total degree at most `N`, and all modes are linearly independent. -/
theorem C25_triangle (Q : Nat → Nat → MvPolynomial (Fin 2) ℝ) (hQ : ∀ i j, ComputesTri i j (Q i j)) :
    LinearIndependent ℝ (fun p : Nat × Nat => Q p.1 p.2) ∧
    ∀ N : Nat, Submodule.span ℝ {q | ∃ i j, [i, j] ∈ nodeTuples (.pn ⟨2, N⟩) ∧ q = Q i j} =
      restrictTotalDegree (Fin 2) ℝ N := by
  obtain rfl : Q = triMode := by funext i j; exact computesTri_unique (hQ i j)
  have hint : ∀ p : MvPolynomial (Fin 2) ℝ, Integrable (fun x : ℝ × ℝ => eval ![x.1, x.2] p)
      (volume.restrict triangle) := fun p =>
    (continuous_eval2 p).continuousOn.integrableOn_compact triangle_compact
  obtain ⟨hli, hspan⟩ := span_of_biorthogonal (fun m : Fin 2 →₀ ℕ => triMode (m 0) (m 1))
    (fun m => by rw [sum_fin_two]; exact totalDegree_triMode _ _)
    (fun m => pairing (volume.restrict triangle) (fun x : ℝ × ℝ => ![x.1, x.2]) hint
      (triMode (m 0) (m 1)))
    (fun m => by
      show ∫ p in triangle, eval ![p.1, p.2] (triMode (m 0) (m 1)) *
        eval ![p.1, p.2] (triMode (m 0) (m 1)) = _
      rw [triMode_orthonormal, if_pos ⟨rfl, rfl⟩])
    (fun m n hmn => by
      show ∫ p in triangle, eval ![p.1, p.2] (triMode (m 0) (m 1)) *
        eval ![p.1, p.2] (triMode (n 0) (n 1)) = _
      rw [triMode_orthonormal, if_neg]
      intro h
      apply hmn
      ext k; fin_cases k
      · exact h.1
      · exact h.2)
  constructor
  · have hinj : Function.Injective (fun p : Nat × Nat =>
        (Finsupp.equivFunOnFinite.symm ![p.1, p.2] : Fin 2 →₀ ℕ)) := by
      intro p q h
      have h0 := DFunLike.congr_fun h 0
      have h1 := DFunLike.congr_fun h 1
      simp only [Finsupp.equivFunOnFinite_symm_apply_apply, Matrix.cons_val_zero, Matrix.cons_val_one] at h0 h1
      exact Prod.ext h0 h1
    have := hli.comp _ hinj
    simpa [Function.comp_def] using this
  · intro N
    rw [← hspan N]
    congr 1
    ext q
    simp only [Set.mem_ofPred_eq, Set.mem_image, C01_mem]
    constructor
    · rintro ⟨i, j, ⟨-, h⟩, rfl⟩
      refine ⟨Finsupp.equivFunOnFinite.symm ![i, j], ?_, ?_⟩
      · rw [sum_fin_two]; simpa using h
      · simp
    · rintro ⟨m, hm, rfl⟩
      rw [sum_fin_two] at hm
      exact ⟨m 0, m 1, ⟨rfl, by simpa using hm⟩, rfl⟩

/-- **C25.**  On the tetrahedron. -/
theorem C25_tetrahedron (Q : Nat → Nat → Nat → MvPolynomial (Fin 3) ℝ)
    (hQ : ∀ i j k, ComputesTet i j k (Q i j k)) :
    LinearIndependent ℝ (fun p : Nat × Nat × Nat => Q p.1 p.2.1 p.2.2) ∧
    ∀ N : Nat, Submodule.span ℝ {q | ∃ i j k, [i, j, k] ∈ nodeTuples (.pn ⟨3, N⟩) ∧ q = Q i j k} =
      restrictTotalDegree (Fin 3) ℝ N := by
  obtain rfl : Q = tetMode := by funext i j k; exact computesTet_unique (hQ i j k)
  have hint : ∀ p : MvPolynomial (Fin 3) ℝ, Integrable (fun x : ℝ × ℝ × ℝ =>
      eval ![x.1, x.2.1, x.2.2] p) (volume.restrict tetrahedron) := fun p =>
    (continuous_eval3 p).continuousOn.integrableOn_compact tetrahedron_compact
  obtain ⟨hli, hspan⟩ := span_of_biorthogonal (fun m : Fin 3 →₀ ℕ => tetMode (m 0) (m 1) (m 2))
    (fun m => by rw [sum_fin_three]; exact totalDegree_tetMode _ _ _)
    (fun m => pairing (volume.restrict tetrahedron) (fun x : ℝ × ℝ × ℝ => ![x.1, x.2.1, x.2.2]) hint
      (tetMode (m 0) (m 1) (m 2)))
    (fun m => by
      show ∫ p in tetrahedron, eval ![p.1, p.2.1, p.2.2] (tetMode (m 0) (m 1) (m 2)) *
        eval ![p.1, p.2.1, p.2.2] (tetMode (m 0) (m 1) (m 2)) = _
      rw [tetMode_orthonormal, if_pos ⟨rfl, rfl, rfl⟩])
    (fun m n hmn => by
      show ∫ p in tetrahedron, eval ![p.1, p.2.1, p.2.2] (tetMode (m 0) (m 1) (m 2)) *
        eval ![p.1, p.2.1, p.2.2] (tetMode (n 0) (n 1) (n 2)) = _
      rw [tetMode_orthonormal, if_neg]
      intro h
      apply hmn
      ext k; fin_cases k
      · exact h.1
      · exact h.2.1
      · exact h.2.2)
  constructor
  · have hinj : Function.Injective (fun p : Nat × Nat × Nat =>
        (Finsupp.equivFunOnFinite.symm ![p.1, p.2.1, p.2.2] : Fin 3 →₀ ℕ)) := by
      intro p q h
      have h0 := DFunLike.congr_fun h 0
      have h1 := DFunLike.congr_fun h 1
      have h2 := DFunLike.congr_fun h 2
      simp only [Finsupp.equivFunOnFinite_symm_apply_apply, Matrix.cons_val_zero, Matrix.cons_val_one,
        Matrix.cons_val] at h0 h1 h2
      exact Prod.ext h0 (Prod.ext h1 h2)
    have := hli.comp _ hinj
    simpa [Function.comp_def] using this
  · intro N
    rw [← hspan N]
    congr 1
    ext q
    simp only [Set.mem_ofPred_eq, Set.mem_image, C01_mem]
    constructor
    · rintro ⟨i, j, k, ⟨-, h⟩, rfl⟩
      refine ⟨Finsupp.equivFunOnFinite.symm ![i, j, k], ?_, ?_⟩
      · rw [sum_fin_three]; simpa [add_assoc] using h
      · simp
    · rintro ⟨m, hm, rfl⟩
      rw [sum_fin_three] at hm
      exact ⟨m 0, m 1, m 2, ⟨rfl, by simpa [add_assoc] using hm⟩, rfl⟩

/-- **C25.**  On the interval: `jacobi(0, 0, n, ·)` is a polynomial; those with `n ≤ N` span the
polynomials of degree at most `N`. -/
theorem C25_interval (Q : Nat → MvPolynomial (Fin 1) ℝ)
    (hQ : ∀ i (r : ℝ), jacobi 0 0 i r = eval ![r] (Q i)) :
    LinearIndependent ℝ Q ∧
    ∀ N : Nat, Submodule.span ℝ {q | ∃ i, [i] ∈ nodeTuples (.pn ⟨1, N⟩) ∧ q = Q i} =
      restrictTotalDegree (Fin 1) ℝ N := by
  have hev : ∀ (i : Nat) (r : ℝ), eval ![r] (Polynomial.aeval (X 0) (jpoly 0 0 i)) =
      jacobi 0 0 i r := by
    intro i r
    rw [← coe_aeval_eq_eval, RingHom.coe_coe, ← Polynomial.aeval_algHom_apply, aeval_X,
      Polynomial.coe_aeval_eq_eval, eval_jpoly params_zero]
    simp
  obtain rfl : Q = fun i => Polynomial.aeval (X 0) (jpoly 0 0 i) := by
    funext i
    refine MvPolynomial.funext fun x => ?_
    have e : x = ![x 0] := by funext k; fin_cases k; rfl
    rw [e, ← hQ, hev]
  have hsum : ∀ m : Fin 1 →₀ ℕ, (m.sum fun _ e => e) = m 0 := by
    intro m
    rw [Finsupp.sum_fintype _ _ (fun _ => rfl)]; simp
  have hcont : ∀ p : MvPolynomial (Fin 1) ℝ, Continuous fun x : ℝ => eval ![x] p := by
    intro p
    apply (MvPolynomial.continuous_eval p).comp
    apply continuous_pi
    intro k
    fin_cases k
    exact continuous_id
  have hint : ∀ p : MvPolynomial (Fin 1) ℝ, Integrable (fun x : ℝ => eval ![x] p)
      (volume.restrict (Set.Ioc (-1) 1)) := fun p =>
    ((hcont p).continuousOn.integrableOn_compact (isCompact_Icc (a := -1) (b := 1))).mono_set
      Set.Ioc_subset_Icc_self
  have hort : ∀ i j : Nat, ∫ x in Set.Ioc (-1 : ℝ) 1,
      eval ![x] (Polynomial.aeval (X 0) (jpoly 0 0 i) : MvPolynomial (Fin 1) ℝ) *
      eval ![x] (Polynomial.aeval (X 0) (jpoly 0 0 j)) = if i = j then 1 else 0 := by
    intro i j
    simp only [hev]
    rw [← intervalIntegral.integral_of_le (by norm_num)]
    have := jacobi_orthonormal_pow 0 i j
    simpa using this
  obtain ⟨hli, hspan⟩ := span_of_biorthogonal
    (fun m : Fin 1 →₀ ℕ => (Polynomial.aeval (X 0) (jpoly 0 0 (m 0)) : MvPolynomial (Fin 1) ℝ))
    (fun m => by
      rw [hsum]
      exact (totalDegree_aeval_le _ _ (by rw [totalDegree_X])).trans (natDegree_jpoly _ _ _))
    (fun m => pairing (volume.restrict (Set.Ioc (-1 : ℝ) 1)) (fun x : ℝ => ![x]) hint
      (Polynomial.aeval (X 0) (jpoly 0 0 (m 0))))
    (fun m => (hort _ _).trans (if_pos rfl))
    (fun m n hmn => (hort _ _).trans (if_neg fun h => hmn (Finsupp.ext fun k => by fin_cases k; exact h)))
  constructor
  · have hinj : Function.Injective (fun i : Nat =>
        (Finsupp.equivFunOnFinite.symm ![i] : Fin 1 →₀ ℕ)) := by
      intro p q h
      have h0 := DFunLike.congr_fun h 0
      simpa using h0
    have := hli.comp _ hinj
    simpa [Function.comp_def] using this
  · intro N
    rw [← hspan N]
    congr 1
    ext q
    simp only [Set.mem_ofPred_eq, Set.mem_image, C01_mem]
    constructor
    · rintro ⟨i, ⟨-, h⟩, rfl⟩
      refine ⟨Finsupp.equivFunOnFinite.symm ![i], ?_, ?_⟩
      · rw [hsum]; simpa using h
      · simp
    · rintro ⟨m, hm, rfl⟩
      rw [hsum] at hm
      exact ⟨m 0, ⟨rfl, by simpa using hm⟩, rfl⟩

/-- **C25.**  Non-vacuity: the hypotheses hold for the polynomials behind the code. -/
example : ∃ (Q : Nat → Nat → MvPolynomial (Fin 2) ℝ) (Q' : Nat → Nat → Nat → MvPolynomial (Fin 3) ℝ),
    (∀ i j, ComputesTri i j (Q i j)) ∧ (∀ i j k, ComputesTet i j k (Q' i j k)) :=
  ⟨triMode, tetMode, computesTri_triMode, computesTet_tetMode⟩

end Modepy

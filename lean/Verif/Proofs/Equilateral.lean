import Verif.Model.Tools
import Verif.Spec.Equilateral
import Mathlib.MeasureTheory.Function.Jacobian
import Mathlib.Algebra.MvPolynomial.Degrees
import Mathlib.Algebra.MvPolynomial.Monad
import Mathlib.Analysis.Convex.Combination

/-!
# Change of variables between the equilateral and the bi-unit simplex
-/

namespace Modepy
open Spec Matrix MeasureTheory

variable {d : Nat}

theorem callPoint_combo (f : AffineMap d) (x y : Fin d → ℝ) (a b : ℝ) (h : a + b = 1) :
    f.callPoint (a • x + b • y) = a • f.callPoint x + b • f.callPoint y := by
  ext i
  simp only [AffineMap.callPoint, mulVec_add, mulVec_smul, Pi.add_apply, Pi.smul_apply, smul_eq_mul]
  linear_combination (-f.b i) * h

theorem convex_simplexSet (n : Nat) : Convex ℝ (simplexSet n) := by
  intro x hx y hy a b ha hb hab
  refine ⟨fun i => ?_, ?_⟩
  · simp only [Pi.add_apply, Pi.smul_apply, smul_eq_mul]
    nlinarith [mul_nonneg ha (by linarith [hx.1 i] : 0 ≤ x i + 1), mul_nonneg hb (by linarith [hy.1 i] : 0 ≤ y i + 1)]
  · have e : ∑ i, (1 + (a • x + b • y) i) / 2 = a * ∑ i, (1 + x i) / 2 + b * ∑ i, (1 + y i) / 2 := by
      rw [Finset.mul_sum, Finset.mul_sum, ← Finset.sum_add_distrib]
      refine Finset.sum_congr rfl fun i _ => ?_
      simp only [Pi.add_apply, Pi.smul_apply, smul_eq_mul]
      linear_combination (-1 / 2 : ℝ) * hab
    rw [e]
    nlinarith [mul_le_mul_of_nonneg_left hx.2 ha, mul_le_mul_of_nonneg_left hy.2 hb]

theorem measurable_simplexSet (n : Nat) : MeasurableSet (simplexSet n) := by
  have : simplexSet n = (⋂ i, {x : Fin n → ℝ | -1 ≤ x i}) ∩ {x | ∑ i, (1 + x i) / 2 ≤ 1} := by
    ext x; simp [simplexSet]
  rw [this]
  refine (MeasurableSet.iInter fun i => measurableSet_le (by fun_prop) (by fun_prop)).inter
    (measurableSet_le (by fun_prop) (by fun_prop))

theorem continuous_callPoint (f : AffineMap d) : Continuous f.callPoint := by
  unfold AffineMap.callPoint
  exact (Continuous.matrix_mulVec continuous_const continuous_id).add continuous_const

/-- Change of variables for the model's affine maps. -/
theorem integral_callPoint (f : AffineMap d) (h : f.a.det ≠ 0) (S : Set (Fin d → ℝ))
    (hS : S = f.callPoint ⁻¹' simplexSet d) (g : (Fin d → ℝ) → ℝ) :
    ∫ x in simplexSet d, g x = |f.a.det| * ∫ y in S, g (f.callPoint y) := by
  have hinj : Function.Injective f.callPoint := by
    intro x y hxy
    have hxy' : f.a *ᵥ x = f.a *ᵥ y := add_right_cancel (b := f.b) hxy
    have := congrArg (f.a⁻¹ *ᵥ ·) hxy'
    simpa [Matrix.mulVec_mulVec, Matrix.nonsing_inv_mul _ (isUnit_iff_ne_zero.2 h)] using this
  have hsurj : Function.Surjective f.callPoint := by
    intro y
    refine ⟨f.a⁻¹ *ᵥ (y - f.b), ?_⟩
    simp [AffineMap.callPoint, Matrix.mulVec_mulVec, Matrix.mul_nonsing_inv _ (isUnit_iff_ne_zero.2 h)]
  have himg : simplexSet d = f.callPoint '' S := by
    rw [hS, Set.image_preimage_eq _ hsurj]
  have hmeas : MeasurableSet S := by
    rw [hS]
    exact (continuous_callPoint f).measurable (measurable_simplexSet d)
  have hder : ∀ x ∈ S, HasFDerivWithinAt f.callPoint (LinearMap.toContinuousLinearMap (Matrix.toLin' f.a)) S x := by
    intro x _
    have h1 : HasFDerivWithinAt (fun x => LinearMap.toContinuousLinearMap (Matrix.toLin' f.a) x + f.b)
        (LinearMap.toContinuousLinearMap (Matrix.toLin' f.a)) S x :=
      (ContinuousLinearMap.hasFDerivWithinAt _).add_const _
    exact h1
  rw [himg, integral_image_eq_integral_abs_det_fderiv_smul volume hmeas hder hinj.injOn]
  have hdet : (LinearMap.toContinuousLinearMap (Matrix.toLin' f.a)).det = f.a.det := by
    rw [ContinuousLinearMap.det]
    simp
  rw [hdet]
  simp only [smul_eq_mul]
  rw [integral_const_mul]

/-- The polynomial `p ∘ f`. -/
noncomputable def pullback (f : AffineMap d) (p : MvPolynomial (Fin d) ℝ) : MvPolynomial (Fin d) ℝ :=
  MvPolynomial.bind₁ (fun i => ∑ j, MvPolynomial.C (f.a i j) * MvPolynomial.X j + MvPolynomial.C (f.b i)) p

theorem eval_pullback (f : AffineMap d) (p : MvPolynomial (Fin d) ℝ) (y : Fin d → ℝ) :
    MvPolynomial.eval y (pullback f p) = MvPolynomial.eval (f.callPoint y) p := by
  rw [pullback, MvPolynomial.eval, MvPolynomial.eval₂Hom_bind₁, MvPolynomial.eval]
  congr 2
  ext i
  simp [AffineMap.callPoint, Matrix.mulVec, dotProduct]

theorem totalDegree_pullback (f : AffineMap d) (p : MvPolynomial (Fin d) ℝ) :
    (pullback f p).totalDegree ≤ p.totalDegree := by
  have hlin : ∀ i, (∑ j, MvPolynomial.C (f.a i j) * MvPolynomial.X j + MvPolynomial.C (f.b i) :
      MvPolynomial (Fin d) ℝ).totalDegree ≤ 1 := by
    intro i
    refine (MvPolynomial.totalDegree_add _ _).trans (max_le ?_ (by simp))
    refine (MvPolynomial.totalDegree_finsetSum _ _).trans (Finset.sup_le fun j _ => ?_)
    refine (MvPolynomial.totalDegree_mul _ _).trans ?_
    simp
  rw [pullback, MvPolynomial.bind₁, MvPolynomial.aeval_def, MvPolynomial.eval₂_eq']
  refine (MvPolynomial.totalDegree_finsetSum _ _).trans (Finset.sup_le fun m hm => ?_)
  refine (MvPolynomial.totalDegree_mul _ _).trans ?_
  have h1 : (algebraMap ℝ (MvPolynomial (Fin d) ℝ) (p.coeff m)).totalDegree = 0 := by
    rw [MvPolynomial.algebraMap_eq, MvPolynomial.totalDegree_C]
  rw [h1, zero_add]
  refine (MvPolynomial.totalDegree_finset_prod _ _).trans ?_
  have h2 := MvPolynomial.le_totalDegree hm
  refine le_trans ?_ h2
  rw [Finsupp.sum_fintype _ _ (fun _ => rfl)]
  refine Finset.sum_le_sum fun i _ => ?_
  refine (MvPolynomial.totalDegree_pow _ _).trans ?_
  calc m i * _ ≤ m i * 1 := Nat.mul_le_mul_left _ (hlin i)
    _ = m i := mul_one _

theorem hull_subset_preimage (f : AffineMap d) (V : Set (Fin d → ℝ)) (hV : ∀ v ∈ V, f.callPoint v ∈ simplexSet d) :
    convexHull ℝ V ⊆ f.callPoint ⁻¹' simplexSet d := by
  refine convexHull_min hV ?_
  intro x hx y hy a b ha hb hab
  show f.callPoint _ ∈ simplexSet d
  rw [callPoint_combo f x y a b hab]
  exact convex_simplexSet d hx hy ha hb hab

theorem equilateralTriangle_eq : equilateralTriangle = equilateralToUnitMap2.callPoint ⁻¹' simplexSet 2 := by
  have h3 : (0 : ℝ) < √3 := by positivity
  have q3 : √3 ^ 2 = (3 : ℝ) := Real.sq_sqrt (by norm_num)
  have hc : ∀ x : Fin 2 → ℝ, equilateralToUnitMap2.callPoint x =
      ![x 0 - x 1 / √3 - 1 / 3, 2 / √3 * x 1 - 1 / 3] := by
    intro x
    ext i
    fin_cases i <;> simp [AffineMap.callPoint, equilateralToUnitMap2, Matrix.mulVec, dotProduct,
      Fin.sum_univ_succ] <;> ring
  apply Set.Subset.antisymm
  · apply hull_subset_preimage
    intro v hv
    simp only [Set.mem_insert_iff, Set.mem_singleton_iff] at hv
    rcases hv with rfl | rfl | rfl <;> rw [hc] <;> refine ⟨fun i => ?_, ?_⟩ <;>
      simp only [Matrix.cons_val_zero, Matrix.cons_val_one, Fin.sum_univ_two] <;>
      try fin_cases i
    all_goals simp
    all_goals field_simp
    all_goals nlinarith [q3]
  · intro x hx
    have hx' : equilateralToUnitMap2.callPoint x ∈ simplexSet 2 := hx
    rw [hc] at hx'
    obtain ⟨hpos, hsum⟩ := hx'
    have p0 := hpos 0
    have p1 := hpos 1
    simp only [Matrix.cons_val_zero, Matrix.cons_val_one, Fin.sum_univ_two] at p0 p1 hsum
    set u := x 0 - x 1 / √3 - 1 / 3 with hu
    set v := 2 / √3 * x 1 - 1 / 3 with hv
    have hrep : x = ((-(u + v)) / 2) • ![-1, -1 / √3] + (((1 + u) / 2) • ![1, -1 / √3] +
        ((1 + v) / 2) • ![0, 2 / √3]) := by
      ext i
      fin_cases i
      · simp [hu, hv]; field_simp; ring
      · simp [hu, hv]; field_simp; linear_combination (6 * x 1) * q3
    rw [equilateralTriangle, hrep]
    have := (convex_convexHull ℝ ({![-1, -1 / √3], ![1, -1 / √3], ![0, 2 / √3]} : Set (Fin 2 → ℝ))).sum_mem
      (t := Finset.univ) (w := ![(-(u + v)) / 2, (1 + u) / 2, (1 + v) / 2])
      (z := ![![-1, -1 / √3], ![1, -1 / √3], ![0, 2 / √3]]) (by
        intro i _
        fin_cases i <;> simp <;> linarith) (by
        simp [Fin.sum_univ_succ]; ring) (by
        intro i _
        apply subset_convexHull
        fin_cases i <;> simp)
    simpa [Fin.sum_univ_succ] using this

theorem equilateralTetrahedron_eq :
    equilateralTetrahedron = equilateralToUnitMap3.callPoint ⁻¹' simplexSet 3 := by
  have h3 : (0 : ℝ) < √3 := by positivity
  have q3 : √3 ^ 2 = (3 : ℝ) := Real.sq_sqrt (by norm_num)
  have h6 : (0 : ℝ) < √6 := by positivity
  have q6 : √6 ^ 2 = (6 : ℝ) := Real.sq_sqrt (by norm_num)
  have hc : ∀ x : Fin 3 → ℝ, equilateralToUnitMap3.callPoint x =
      ![x 0 - x 1 / √3 - x 2 / √6 - 1 / 2, 2 / √3 * x 1 - x 2 / √6 - 1 / 2, √6 / 2 * x 2 - 1 / 2] := by
    intro x
    ext i
    fin_cases i <;> simp [AffineMap.callPoint, equilateralToUnitMap3, Matrix.mulVec, dotProduct,
      Fin.sum_univ_succ] <;> ring
  apply Set.Subset.antisymm
  · apply hull_subset_preimage
    intro v hv
    simp only [Set.mem_insert_iff, Set.mem_singleton_iff] at hv
    rcases hv with rfl | rfl | rfl | rfl <;> rw [hc] <;> refine ⟨fun i => ?_, ?_⟩ <;>
      simp only [Matrix.cons_val_zero, Matrix.cons_val_one, Fin.sum_univ_three] <;>
      try fin_cases i
    all_goals simp
    all_goals field_simp
    all_goals nlinarith [q3, q6]
  · intro x hx
    have hx' : equilateralToUnitMap3.callPoint x ∈ simplexSet 3 := hx
    rw [hc] at hx'
    obtain ⟨hpos, hsum⟩ := hx'
    have p0 := hpos 0
    have p1 := hpos 1
    have p2 := hpos 2
    simp only [Matrix.cons_val_zero, Matrix.cons_val_one, Matrix.cons_val, Fin.sum_univ_three] at p0 p1 p2 hsum
    set u := x 0 - x 1 / √3 - x 2 / √6 - 1 / 2 with hu
    set v := 2 / √3 * x 1 - x 2 / √6 - 1 / 2 with hv
    set w := √6 / 2 * x 2 - 1 / 2 with hw
    have hrep : x = ((-(1 + u + v + w)) / 2) • ![-1, -1 / √3, -1 / √6] + (((1 + u) / 2) • ![1, -1 / √3, -1 / √6] +
        (((1 + v) / 2) • ![0, 2 / √3, -1 / √6] + ((1 + w) / 2) • ![0, 0, 3 / √6])) := by
      ext i
      fin_cases i
      · simp [hu, hv, hw]; field_simp; linear_combination (-x 2 * √3) * q6
      · simp [hu, hv, hw]; field_simp; linear_combination (4 * √6 * x 1) * q3 - x 2 * √3 * q6
      · simp [hu, hv, hw]; field_simp; nlinarith [q3, q6]
    rw [equilateralTetrahedron, hrep]
    have := (convex_convexHull ℝ ({![-1, -1 / √3, -1 / √6], ![1, -1 / √3, -1 / √6], ![0, 2 / √3, -1 / √6],
        ![0, 0, 3 / √6]} : Set (Fin 3 → ℝ))).sum_mem
      (t := Finset.univ) (w := ![(-(1 + u + v + w)) / 2, (1 + u) / 2, (1 + v) / 2, (1 + w) / 2])
      (z := ![![-1, -1 / √3, -1 / √6], ![1, -1 / √3, -1 / √6], ![0, 2 / √3, -1 / √6], ![0, 0, 3 / √6]]) (by
        intro i _
        fin_cases i <;> simp <;> linarith) (by
        simp [Fin.sum_univ_succ]; ring) (by
        intro i _
        apply subset_convexHull
        fin_cases i <;> simp)
    simpa [Fin.sum_univ_succ] using this

end Modepy

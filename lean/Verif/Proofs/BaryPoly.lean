import Verif.Proofs.Dirichlet
import Verif.Spec.Geometry
import Mathlib.RingTheory.MvPolynomial.Homogeneous
import Mathlib.Topology.Algebra.MvPolynomial

/-!
# Polynomials on the simplex in barycentric form
-/

namespace Modepy
open Spec MvPolynomial MeasureTheory

/-- Barycentric coordinates of a coordinate vector. -/
noncomputable def baryFin {n : Nat} (x : Fin n → ℝ) : Fin (n + 1) → ℝ :=
  Fin.cons (1 - ∑ i, (1 + x i) / 2) fun i => (1 + x i) / 2

theorem baryFin_sum {n : Nat} (x : Fin n → ℝ) : ∑ j, baryFin x j = 1 := by
  rw [Fin.sum_univ_succ]
  simp [baryFin]

theorem baryFin_continuous {n : Nat} (j : Fin (n + 1)) : Continuous fun x : Fin n → ℝ => baryFin x j := by
  refine Fin.cases ?_ (fun i => ?_) j
  · simp only [baryFin, Fin.cons_zero]
    fun_prop
  · simp only [baryFin, Fin.cons_succ]
    fun_prop

/-- The homogeneous barycentric form of a polynomial. -/
noncomputable def baryForm {n : Nat} (d : Nat) (p : MvPolynomial (Fin n) ℝ) : MvPolynomial (Fin (n + 1)) ℝ :=
  ∑ a ∈ p.support, C (p.coeff a) *
    ((∏ i, (C 2 * X i.succ - ∑ j, X j) ^ a i) * (∑ j, X j) ^ (d - ∑ i, a i))

theorem baryForm_homogeneous {n d : Nat} (p : MvPolynomial (Fin n) ℝ) (hp : p.totalDegree ≤ d) :
    (baryForm d p).IsHomogeneous d := by
  apply IsHomogeneous.sum
  intro a ha
  have hle : ∑ i, a i ≤ d := by
    refine le_trans ?_ hp
    have := le_totalDegree ha
    rwa [Finsupp.sum_fintype _ _ (fun _ => rfl)] at this
  have hS : (∑ j : Fin (n + 1), (X j : MvPolynomial (Fin (n + 1)) ℝ)).IsHomogeneous 1 :=
    IsHomogeneous.sum _ _ _ fun j _ => isHomogeneous_X ℝ j
  have h1 : (∏ i, (C 2 * X i.succ - ∑ j, X j : MvPolynomial (Fin (n + 1)) ℝ) ^ a i).IsHomogeneous (∑ i, a i) := by
    have := IsHomogeneous.prod Finset.univ
      (fun i : Fin n => (C 2 * X i.succ - ∑ j, X j : MvPolynomial (Fin (n + 1)) ℝ) ^ a i) (fun i => 1 * a i)
      (fun i _ => ((isHomogeneous_C_mul_X 2 i.succ).sub hS).pow (a i))
    simpa using this
  have h2 := (isHomogeneous_C (Fin (n + 1)) (p.coeff a)).mul (h1.mul (hS.pow (d - ∑ i, a i)))
  have e : 0 + (∑ i, a i + 1 * (d - ∑ i, a i)) = d := by omega
  rwa [e] at h2

theorem eval_baryForm {n d : Nat} (p : MvPolynomial (Fin n) ℝ) (x : Fin n → ℝ) :
    eval (baryFin x) (baryForm d p) = eval x p := by
  rw [baryForm, map_sum, eval_eq']
  apply Finset.sum_congr rfl
  intro a _
  have hs : eval (baryFin x) (∑ j : Fin (n + 1), (X j : MvPolynomial (Fin (n + 1)) ℝ)) = 1 := by
    rw [map_sum]
    simp only [eval_X]
    exact baryFin_sum x
  rw [map_mul, map_mul, map_pow, map_prod, eval_C, hs, one_pow, mul_one]
  congr 1
  apply Finset.prod_congr rfl
  intro i _
  rw [map_pow, map_sub, hs, map_mul, eval_C, eval_X]
  congr 1
  simp only [baryFin, Fin.cons_succ]
  ring

/-- The integral of a barycentric monomial. -/
theorem integral_bary (n : Nat) (α : Fin (n + 1) → Nat) :
    ∫ x in simplexSet n, ∏ j, baryFin x j ^ α j =
      2 ^ n * (∏ j, ((α j).factorial : ℝ)) / (n + ∑ j, α j).factorial := by
  have h := dirichlet n (fun i => α i.succ) (α 0) (h := 1) (by norm_num)
  have hset : simplexH n 1 = simplexSet n := rfl
  rw [hset] at h
  rw [Fin.prod_univ_succ, Fin.sum_univ_succ]
  have e : n + (α 0 + ∑ i : Fin n, α i.succ) = n + ∑ i : Fin n, α i.succ + α 0 := by omega
  rw [e]
  have e2 : (fun x : Fin n → ℝ => ∏ j, baryFin x j ^ α j) = fun x =>
      (∏ i : Fin n, ((1 + x i) / 2) ^ α i.succ) * (1 - ∑ i, (1 + x i) / 2) ^ α 0 := by
    funext x
    rw [Fin.prod_univ_succ]
    simp only [baryFin, Fin.cons_zero, Fin.cons_succ]
    ring
  rw [e2, h, one_pow]
  ring

/-- A linear functional that is right on barycentric monomials of degree `d` is right on all polynomials of
degree at most `d`. -/
theorem exact_of_bary {n d : Nat} {ι : Type} (s : Finset ι) (w : ι → ℝ) (x : ι → Fin n → ℝ)
    (h : ∀ α : Fin (n + 1) → Nat, ∑ j, α j = d →
      ∑ k ∈ s, w k * ∏ j, baryFin (x k) j ^ α j =
        2 ^ n * (∏ j, ((α j).factorial : ℝ)) / (n + d).factorial)
    (p : MvPolynomial (Fin n) ℝ) (hp : p.totalDegree ≤ d) :
    ∑ k ∈ s, w k * eval (x k) p = ∫ y in simplexSet n, eval y p := by
  have hev : ∀ y : Fin n → ℝ, eval y p =
      ∑ a ∈ (baryForm d p).support, (baryForm d p).coeff a * ∏ j, baryFin y j ^ a j := by
    intro y
    rw [← eval_baryForm (d := d) p y, eval_eq']
  have hc : IsCompact (simplexSet n) := simplexH_compact n 1
  simp only [hev]
  rw [integral_finset_sum]
  · simp only [Finset.mul_sum]
    rw [Finset.sum_comm]
    apply Finset.sum_congr rfl
    intro a ha
    have hdeg : ∑ j, a j = d := by
      have := (baryForm_homogeneous p hp) (mem_support_iff.1 ha)
      rw [Finsupp.weight_apply, Finsupp.sum_fintype _ _ (fun _ => by simp)] at this
      simpa using this
    rw [integral_const_mul, integral_bary, hdeg, ← h (fun j => a j) hdeg, Finset.mul_sum]
    apply Finset.sum_congr rfl
    intro k _
    ring
  · intro a _
    refine ContinuousOn.integrableOn_compact hc (Continuous.continuousOn ?_)
    apply continuous_const.mul
    exact continuous_finset_prod _ fun j _ => (baryFin_continuous j).pow _

end Modepy

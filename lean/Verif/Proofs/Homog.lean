import Mathlib.Algebra.Polynomial.Eval.Degree
import Mathlib.Algebra.Polynomial.AlgebraMap
import Mathlib.Algebra.MvPolynomial.Degrees
import Mathlib.Algebra.MvPolynomial.Basic
import Mathlib.Analysis.Calculus.Deriv.Pow
import Mathlib.Analysis.Calculus.Deriv.Mul
import Mathlib.Data.Real.Basic

/-!
# Homogenised polynomials: `v^i p(u/v)` as a polynomial in `u`, `v`
-/

namespace Modepy
open Polynomial

/-- `∑ₖ pₖ uᵏ vⁱ⁻ᵏ`. -/
noncomputable def hom {A : Type*} [CommRing A] [Algebra ℝ A] (p : ℝ[X]) (i : Nat) (u v : A) : A :=
  ∑ k ∈ Finset.range (i + 1), algebraMap ℝ A (p.coeff k) * u ^ k * v ^ (i - k)

theorem hom_map {A B : Type*} [CommRing A] [Algebra ℝ A] [CommRing B] [Algebra ℝ B] (φ : A →ₐ[ℝ] B)
    (p : ℝ[X]) (i : Nat) (u v : A) : φ (hom p i u v) = hom p i (φ u) (φ v) := by
  simp [hom, map_sum, map_mul, map_pow]

theorem hom_eq (p : ℝ[X]) (i : Nat) (hp : p.natDegree ≤ i) (u : ℝ) {v : ℝ} (hv : v ≠ 0) :
    hom p i u v = v ^ i * p.eval (u / v) := by
  rw [eval_eq_sum_range' (show p.natDegree < i + 1 by omega), hom, Finset.mul_sum]
  apply Finset.sum_congr rfl
  intro k hk
  have hk' : k ≤ i := by simpa [Nat.lt_succ_iff] using hk
  obtain ⟨m, rfl⟩ := Nat.exists_eq_add_of_le hk'
  rw [Nat.add_sub_cancel_left, Algebra.algebraMap_self_apply, div_pow, pow_add]
  field_simp

theorem hom_smul (p : ℝ[X]) (i : Nat) (t u v : ℝ) : hom p i (t * u) (t * v) = t ^ i * hom p i u v := by
  rw [hom, hom, Finset.mul_sum]
  apply Finset.sum_congr rfl
  intro k hk
  have hk' : k ≤ i := by simpa [Nat.lt_succ_iff] using hk
  obtain ⟨m, rfl⟩ := Nat.exists_eq_add_of_le hk'
  rw [Nat.add_sub_cancel_left, mul_pow, mul_pow, pow_add]
  ring

/-- Along a line through the origin. -/
theorem hasDerivAt_hom_line (p : ℝ[X]) (i : Nat) (u v : ℝ) (c : ℝ) :
    HasDerivAt (fun t => hom p i ((t - c) * u) ((t - c) * v)) (if i = 1 then hom p 1 u v else 0) c := by
  have e : (fun t => hom p i ((t - c) * u) ((t - c) * v)) = fun t => (t - c) ^ i * hom p i u v := by
    funext t; exact hom_smul p i (t - c) u v
  rw [e]
  have h0 : HasDerivAt (fun t : ℝ => t - c) 1 c := (hasDerivAt_id' c).sub_const c
  have h := (h0.pow i).mul_const (hom p i u v)
  have ev : (if i = 1 then hom p 1 u v else 0) = (i : ℝ) * (c - c) ^ (i - 1) * 1 * hom p i u v := by
    by_cases hi : i = 1
    · subst hi; simp
    · rw [if_neg hi]
      rcases i with _ | _ | i
      · simp
      · omega
      · simp
  rw [ev]; exact h

theorem hom_zero_zero (p : ℝ[X]) (i : Nat) : hom p i (0 : ℝ) 0 = if i = 0 then p.coeff 0 else 0 := by
  have := hom_smul p i 0 0 0
  rcases i with _ | i
  · simp [hom]
  · simpa using this

theorem totalDegree_hom_le {σ : Type*} (p : ℝ[X]) (i : Nat) (u v : MvPolynomial σ ℝ)
    (hu : u.totalDegree ≤ 1) (hv : v.totalDegree ≤ 1) : (hom p i u v).totalDegree ≤ i := by
  rw [hom]
  refine (MvPolynomial.totalDegree_finsetSum _ _).trans (Finset.sup_le ?_)
  intro k hk
  have hk' : k ≤ i := by simpa [Nat.lt_succ_iff] using hk
  refine (MvPolynomial.totalDegree_mul _ _).trans ?_
  have h1 : (algebraMap ℝ (MvPolynomial σ ℝ) (p.coeff k) * u ^ k).totalDegree ≤ k := by
    refine (MvPolynomial.totalDegree_mul _ _).trans ?_
    rw [MvPolynomial.algebraMap_eq, MvPolynomial.totalDegree_C]
    have := MvPolynomial.totalDegree_pow u k
    nlinarith
  have h2 : (v ^ (i - k)).totalDegree ≤ i - k := by
    have := MvPolynomial.totalDegree_pow v (i - k)
    nlinarith
  omega

theorem totalDegree_aeval_le {σ : Type*} (p : ℝ[X]) (x : MvPolynomial σ ℝ) (hx : x.totalDegree ≤ 1) :
    (aeval x p).totalDegree ≤ p.natDegree := by
  rw [aeval_eq_sum_range]
  refine (MvPolynomial.totalDegree_finsetSum _ _).trans (Finset.sup_le ?_)
  intro k hk
  have hk' : k ≤ p.natDegree := by simpa [Nat.lt_succ_iff] using hk
  refine (MvPolynomial.totalDegree_smul_le _ _).trans ?_
  have := MvPolynomial.totalDegree_pow x k
  nlinarith

end Modepy

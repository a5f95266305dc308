import Mathlib.Analysis.SpecialFunctions.Trigonometric.Chebyshev.Basic
import Mathlib.Analysis.SpecialFunctions.Integrals.Basic
import Mathlib.Analysis.Calculus.Deriv.Polynomial
import Mathlib.Topology.Algebra.Polynomial

/-!
# Discrete cosine sums, and integrals of Chebyshev polynomials
-/

namespace Modepy
open Polynomial Polynomial.Chebyshev Finset

/-- `∫ T_l` over `[-1, 1]`. -/
theorem integral_T (l : Nat) : ∫ t in (-1 : ℝ)..1, (T ℝ l).eval t =
    if l % 2 = 0 then 2 / (1 - (l : ℝ) ^ 2) else 0 := by
  match l with
  | 0 => norm_num
  | 1 => simp
  | l + 2 =>
    have hd : ∀ t : ℝ, HasDerivAt (fun t => (T ℝ (l + 3 : ℤ)).eval t / (2 * (l + 3)) -
        (T ℝ (l + 1 : ℤ)).eval t / (2 * (l + 1))) ((T ℝ (l + 2 : ℤ)).eval t) t := by
      intro t
      have h1 := ((T ℝ (l + 3 : ℤ)).hasDerivAt t).div_const (2 * ((l : ℝ) + 3))
      have h2 := ((T ℝ (l + 1 : ℤ)).hasDerivAt t).div_const (2 * ((l : ℝ) + 1))
      refine (h1.fun_sub h2).congr_deriv ?_
      rw [T_derivative_eq_U, T_derivative_eq_U]
      have hU := U_eq_two_mul_T_add_U ℝ (l : ℤ)
      have e1 : ((l : ℤ) + 3 - 1) = l + 2 := by ring
      have e2 : ((l : ℤ) + 1 - 1) = l := by ring
      rw [e1, e2, hU]
      have p1 : (l : ℝ) + 3 ≠ 0 := by positivity
      have p2 : (l : ℝ) + 1 ≠ 0 := by positivity
      simp only [eval_mul, eval_add, eval_ofNat, Int.cast_add, Int.cast_natCast, Int.cast_ofNat, eval_natCast,
        Int.cast_one, eval_one]
      field_simp
      ring
    have hi := intervalIntegral.integral_eq_sub_of_hasDerivAt (a := -1) (b := 1) (fun t _ => hd t)
      ((T ℝ (l + 2 : ℤ)).continuous.intervalIntegrable _ _)
    have e0 : ((l + 2 : Nat) : ℤ) = (l : ℤ) + 2 := by push_cast; ring
    rw [e0, hi]
    simp only [T_eval_one, T_eval_neg_one]
    have p1 : (l : ℝ) + 3 ≠ 0 := by positivity
    have p2 : (l : ℝ) + 1 ≠ 0 := by positivity
    have p3 : (1 - ((l : ℝ) + 2) ^ 2) ≠ 0 := by
      have : (1 - ((l : ℝ) + 2) ^ 2) = -((l + 3) * (l + 1)) := by ring
      rw [this]
      exact neg_ne_zero.2 (mul_ne_zero p1 p2)
    rcases Nat.even_or_odd l with he | ho
    · have q1 : Odd ((l : ℤ) + 3) := by
        have : Even (l : ℤ) := by exact_mod_cast he
        exact this.add_odd (by decide)
      have q2 : Odd ((l : ℤ) + 1) := by
        have : Even (l : ℤ) := by exact_mod_cast he
        exact this.add_odd (by decide)
      rw [Int.negOnePow_odd _ q1, Int.negOnePow_odd _ q2, if_pos (by have := Nat.even_iff.1 he; omega)]
      push_cast
      have : (1 - ((l : ℝ) + 2) ^ 2) = -((l + 3) * (l + 1)) := by ring
      rw [this]
      field_simp
      ring
    · have q1 : Even ((l : ℤ) + 3) := by
        have : Odd (l : ℤ) := by exact_mod_cast ho
        exact this.add_odd (by decide)
      have q2 : Even ((l : ℤ) + 1) := by
        have : Odd (l : ℤ) := by exact_mod_cast ho
        exact this.add_odd (by decide)
      rw [Int.negOnePow_even _ q1, Int.negOnePow_even _ q2, if_neg (by have := Nat.odd_iff.1 ho; omega)]
      push_cast
      ring

/-- Two linear functionals agreeing on the Chebyshev polynomials up to degree `d` agree on all polynomials
of degree at most `d`. -/
theorem eq_of_chebyshev (d : Nat) (A B : ℝ[X] →ₗ[ℝ] ℝ) (h : ∀ l ≤ d, A (T ℝ (l : ℕ)) = B (T ℝ (l : ℕ))) :
    ∀ p : ℝ[X], p.natDegree ≤ d → A p = B p := by
  have key : ∀ k : Nat, ∀ p : ℝ[X], p.natDegree < k → p.natDegree ≤ d → A p = B p := by
    intro k
    induction k with
    | zero => intro p hp; omega
    | succ k ih =>
      intro p hp hd
      have hT : (T ℝ (p.natDegree : ℤ)).natDegree = p.natDegree := by rw [natDegree_T]; rfl
      have hlc : (T ℝ (p.natDegree : ℤ)).leadingCoeff ≠ 0 := by
        rw [Ne, leadingCoeff_eq_zero]
        intro h0
        have := degree_T ℝ (p.natDegree : ℤ)
        rw [h0, degree_zero] at this
        exact absurd this (by simp)
      by_cases hz : p.natDegree = 0
      · rw [natDegree_eq_zero] at hz
        obtain ⟨c, rfl⟩ := hz
        have h0 := h 0 (Nat.zero_le _)
        simp only [Nat.cast_zero, T_zero] at h0
        rw [← mul_one (C c), ← smul_eq_C_mul, map_smul, map_smul, h0]
      · set c := p.leadingCoeff / (T ℝ (p.natDegree : ℤ)).leadingCoeff with hc
        have hlt : (p - c • T ℝ (p.natDegree : ℤ)).natDegree < p.natDegree := by
          have hp0 : p ≠ 0 := by rintro rfl; simp at hz
          have hc0 : c ≠ 0 := div_ne_zero (leadingCoeff_ne_zero.2 hp0) hlc
          by_cases h0 : p - c • T ℝ (p.natDegree : ℤ) = 0
          · rw [h0, natDegree_zero]; omega
          · refine natDegree_lt_natDegree h0 (degree_sub_lt ?_ hp0 ?_)
            · rw [degree_eq_natDegree hp0, smul_eq_C_mul, degree_C_mul hc0, degree_T]
              rfl
            · rw [smul_eq_C_mul, leadingCoeff_mul, leadingCoeff_C, hc, div_mul_cancel₀ _ hlc]
        have h1 := ih (p - c • T ℝ (p.natDegree : ℤ)) (by omega) (by omega)
        rw [map_sub, map_sub, map_smul, map_smul, h _ hd] at h1
        linarith
  intro p hp
  exact key _ p (Nat.lt_succ_self _) hp

/-- `Σ_k cos(q (k + 1/2) π / n)` over a full period. -/
theorem cos_mid_sum {n : Nat} (hn : 0 < n) (q : ℤ) (hq : ¬ (2 * (n : ℤ)) ∣ q) :
    ∑ k ∈ range n, Real.cos (q * ((k + 1 / 2) * Real.pi / n)) = 0 := by
  have hn' : (n : ℝ) ≠ 0 := by positivity
  set a : ℝ := q * Real.pi / (2 * n) with ha
  have hsin : Real.sin a ≠ 0 := by
    intro h0
    obtain ⟨t, ht⟩ := Real.sin_eq_zero_iff.1 h0
    rw [ha] at ht
    have hpi := Real.pi_ne_zero
    have : (t : ℝ) * (2 * n) = q := by
      field_simp at ht
      linarith
    exact hq ⟨t, by have h' : t * (2 * (n : ℤ)) = q := by exact_mod_cast this
                    rw [← h']; ring⟩
  have htel : ∀ m : Nat, Real.sin a * ∑ k ∈ range m, Real.cos (q * ((k + 1 / 2) * Real.pi / n)) =
      Real.sin (2 * m * a) / 2 := by
    intro m
    induction m with
    | zero => simp
    | succ m ih =>
      rw [sum_range_succ, mul_add, ih]
      have e1 : (q : ℝ) * ((m + 1 / 2) * Real.pi / n) = (2 * m * a) + a := by
        rw [ha]; field_simp
      have e2 : 2 * ((m + 1 : Nat) : ℝ) * a = 2 * m * a + a + a := by push_cast; ring
      have e3 := Real.sin_add (2 * m * a + a) a
      have e4 : Real.sin (2 * m * a) = Real.sin (2 * m * a + a) * Real.cos a - Real.cos (2 * m * a + a) * Real.sin a := by
        rw [← Real.sin_sub]; ring_nf
      rw [e1, e2, e3, e4]
      ring
  have := htel n
  have hz : Real.sin (2 * n * a) = 0 := by
    have : 2 * n * a = q * Real.pi := by rw [ha]; field_simp
    rw [this]
    exact Real.sin_int_mul_pi q
  rw [hz, zero_div] at this
  exact (mul_eq_zero.1 this).resolve_left hsin

/-- `Σ''_k cos(q k π / n)`: end points counted half. -/
theorem cos_end_sum {n : Nat} (hn : 0 < n) (q : ℤ) :
    ∑ k ∈ range (n + 1), Real.cos (q * (k * Real.pi / n)) =
      (if (2 * (n : ℤ)) ∣ q then (n : ℝ) else 0) + (1 + Real.cos (q * Real.pi)) / 2 := by
  have hn' : (n : ℝ) ≠ 0 := by positivity
  have hhalf : ∑ k ∈ range (n + 1), Real.cos (q * (k * Real.pi / n)) =
      ∑ k ∈ range n, (Real.cos (q * (k * Real.pi / n)) + Real.cos (q * ((k + 1 : Nat) * Real.pi / n))) / 2 +
        (1 + Real.cos (q * Real.pi)) / 2 := by
    have h1 := sum_range_succ (fun k : Nat => Real.cos (q * (k * Real.pi / n))) n
    have h2 := sum_range_succ' (fun k : Nat => Real.cos (q * (k * Real.pi / n))) n
    have e : (n : ℝ) * Real.pi / n = Real.pi := by field_simp
    rw [e] at h1
    simp only [Nat.cast_zero, zero_mul, zero_div, mul_zero, Real.cos_zero] at h2
    rw [← Finset.sum_div, sum_add_distrib]
    linarith
  rw [hhalf]
  congr 1
  split_ifs with hq
  · obtain ⟨t, rfl⟩ := hq
    have : ∀ k ∈ range n, (Real.cos (((2 * (n : ℤ) * t : ℤ) : ℝ) * (k * Real.pi / n)) +
        Real.cos (((2 * (n : ℤ) * t : ℤ) : ℝ) * ((k + 1 : Nat) * Real.pi / n))) / 2 = 1 := by
      intro k _
      have e : ∀ k : Nat, ((2 * (n : ℤ) * t : ℤ) : ℝ) * (k * Real.pi / n) = ((t * k : ℤ) : ℝ) * (2 * Real.pi) := by
        intro k
        push_cast
        field_simp
      rw [e, e, Real.cos_int_mul_two_pi, Real.cos_int_mul_two_pi]
      norm_num
    rw [sum_congr rfl this]
    simp
  · have hm := cos_mid_sum hn q hq
    have : ∀ k ∈ range n, (Real.cos (q * (k * Real.pi / n)) + Real.cos (q * ((k + 1 : Nat) * Real.pi / n))) / 2 =
        Real.cos (q * ((k + 1 / 2) * Real.pi / n)) * Real.cos (q * (1 / 2 * Real.pi / n)) := by
      intro k _
      have e1 : (q : ℝ) * (k * Real.pi / n) = q * ((k + 1 / 2) * Real.pi / n) - q * (1 / 2 * Real.pi / n) := by ring
      have e2 : (q : ℝ) * ((k + 1 : Nat) * Real.pi / n) =
          q * ((k + 1 / 2) * Real.pi / n) + q * (1 / 2 * Real.pi / n) := by push_cast; ring
      rw [e1, e2, Real.cos_sub, Real.cos_add]
      ring
    rw [sum_congr rfl this, ← sum_mul, hm, zero_mul]

end Modepy

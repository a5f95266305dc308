import Mathlib.Algebra.Polynomial.Reverse
import Mathlib.Algebra.Polynomial.Derivative
import Mathlib.RingTheory.PowerSeries.Derivative
import Mathlib.RingTheory.PowerSeries.WellKnown
import Mathlib.Data.Real.Basic
import Mathlib.Tactic.LinearCombination
import Mathlib.Tactic.FieldSimp

/-!
# The combinatorial identity behind the Grundmann–Möller rules

`∑_b (2b+1)^a t^b = E_a(t) / (1-t)^(a+1)` with a palindromic polynomial `E_a` of degree `a` and
`E_a(1) = 2^a a!`.
-/

namespace Modepy
open Polynomial

/-- The type-B Eulerian polynomials. -/
noncomputable def eulB : Nat → ℝ[X]
  | 0 => 1
  | a + 1 => (1 + C (2 * (a : ℝ) + 1) * X) * eulB a + C 2 * X * (1 - X) * derivative (eulB a)

theorem eulB_coeff_zero (a : Nat) : (eulB (a + 1)).coeff 0 = (eulB a).coeff 0 := by
  simp [eulB, mul_coeff_zero]

theorem eulB_coeff_succ (a k : Nat) : (eulB (a + 1)).coeff (k + 1) =
    (2 * k + 3) * (eulB a).coeff (k + 1) + (2 * a + 1 - 2 * k) * (eulB a).coeff k := by
  have e : eulB (a + 1) = eulB a + C (2 * (a : ℝ) + 1) * (X * eulB a) +
      (C 2 * (X * derivative (eulB a)) - C 2 * (X * (X * derivative (eulB a)))) := by
    rw [eulB]; ring
  have h1 : (X * (X * derivative (eulB a))).coeff (k + 1) = k * (eulB a).coeff k := by
    rw [coeff_X_mul]
    cases k with
    | zero => simp
    | succ k => rw [coeff_X_mul, coeff_derivative]; push_cast; ring
  rw [e]
  simp only [coeff_add, coeff_sub, coeff_C_mul, h1, coeff_X_mul, coeff_derivative]
  ring

theorem eulB_coeff_gt (a k : Nat) (h : a < k) : (eulB a).coeff k = 0 := by
  induction a generalizing k with
  | zero => rw [eulB, coeff_one, if_neg (by omega)]
  | succ a ih =>
    obtain ⟨k, rfl⟩ : ∃ j, k = j + 1 := ⟨k - 1, by omega⟩
    rw [eulB_coeff_succ, ih _ (by omega), ih _ (by omega)]
    ring

theorem eulB_natDegree (a : Nat) : (eulB a).natDegree ≤ a :=
  natDegree_le_iff_coeff_eq_zero.2 fun k hk => eulB_coeff_gt a k hk

theorem eulB_symm (a : Nat) : ∀ i j, i + j = a → (eulB a).coeff i = (eulB a).coeff j := by
  induction a with
  | zero => intro i j h; rw [show i = j by omega]
  | succ a ih =>
    intro i j h
    rcases i with _ | i <;> rcases j with _ | j
    · rfl
    · rw [eulB_coeff_zero, eulB_coeff_succ, eulB_coeff_gt a (j + 1) (by omega), ih 0 j (by omega)]
      have : (j : ℝ) = a := by exact_mod_cast (show j = a by omega)
      rw [this]; ring
    · rw [eulB_coeff_zero, eulB_coeff_succ, eulB_coeff_gt a (i + 1) (by omega), ih i 0 (by omega)]
      have : (i : ℝ) = a := by exact_mod_cast (show i = a by omega)
      rw [this]; ring
    · rw [eulB_coeff_succ, eulB_coeff_succ, ih (i + 1) j (by omega), ih i (j + 1) (by omega)]
      have : (a : ℝ) = i + j + 1 := by exact_mod_cast (show a = i + j + 1 by omega)
      rw [this]; ring

theorem eulB_reflect (a : Nat) : reflect a (eulB a) = eulB a := by
  ext i
  rw [coeff_reflect]
  by_cases h : i ≤ a
  · rw [revAt_le h]
    exact eulB_symm a _ _ (by omega)
  · rw [revAt_eq_self_of_lt (by omega)]

theorem eulB_eval_one (a : Nat) : (eulB a).eval 1 = 2 ^ a * a.factorial := by
  induction a with
  | zero => simp [eulB]
  | succ a ih =>
    rw [eulB, eval_add, eval_mul, ih]
    simp [Nat.factorial_succ]
    ring

/-- `∑_b (2b+1)^a t^b`. -/
noncomputable def oddSeries (a : Nat) : PowerSeries ℝ := PowerSeries.mk fun b => (2 * (b : ℝ) + 1) ^ a

theorem oddSeries_succ (a : Nat) : oddSeries (a + 1) =
    2 * (PowerSeries.X * PowerSeries.derivative ℝ (oddSeries a)) + oddSeries a := by
  ext b
  have h2 : (2 : PowerSeries ℝ) = PowerSeries.C 2 := by
    rw [show (2 : ℝ) = ((2 : Nat) : ℝ) by norm_num, map_natCast]; norm_num
  rw [map_add, h2, PowerSeries.coeff_C_mul]
  cases b with
  | zero => simp [oddSeries, PowerSeries.coeff_zero_X_mul]
  | succ b =>
    rw [PowerSeries.coeff_succ_X_mul, PowerSeries.coeff_derivative]
    simp only [oddSeries, PowerSeries.coeff_mk]
    push_cast
    ring

theorem oddSeries_mul (a : Nat) : oddSeries a * (1 - PowerSeries.X) ^ (a + 1) = (eulB a : PowerSeries ℝ) := by
  induction a with
  | zero =>
    have : oddSeries 0 = PowerSeries.mk 1 := by
      ext b; simp [oddSeries]
    rw [this, pow_one, PowerSeries.mk_one_mul_one_sub_eq_one, eulB]
    simp
  | succ a ih =>
    have hd := congrArg (PowerSeries.derivative ℝ) ih
    have hc : PowerSeries.derivative ℝ (eulB a : PowerSeries ℝ) = (derivative (eulB a) : ℝ[X]) :=
      PowerSeries.derivative_coe _
    rw [hc, Derivation.leibniz, Derivation.leibniz_pow] at hd
    have h1 : PowerSeries.derivative ℝ (1 - PowerSeries.X) = (-1 : PowerSeries ℝ) := by
      rw [map_sub, Derivation.map_one_eq_zero, PowerSeries.derivative_X]; ring
    rw [h1] at hd
    simp only [smul_eq_mul, nsmul_eq_mul, Nat.add_sub_cancel] at hd
    rw [oddSeries_succ, eulB]
    push_cast at hd ⊢
    have c2 : ((C 2 : ℝ[X]) : PowerSeries ℝ) = 2 := by
      rw [Polynomial.coe_C]; exact map_ofNat _ 2
    have c3 : ((C (2 * (a : ℝ) + 1) : ℝ[X]) : PowerSeries ℝ) = 2 * (a : PowerSeries ℝ) + 1 := by
      rw [Polynomial.coe_C, map_add, map_mul, map_one, map_natCast, map_ofNat]
    simp only [Polynomial.coe_C] at c2 c3
    rw [c2, c3, ← hd, ← ih]
    ring

theorem coeff_one_sub_X_pow (m i : Nat) :
    PowerSeries.coeff i ((1 - PowerSeries.X : PowerSeries ℝ) ^ m) = (-1) ^ i * (m.choose i : ℝ) := by
  induction m generalizing i with
  | zero =>
    cases i with
    | zero => simp
    | succ i => simp [PowerSeries.coeff_one]
  | succ m ih =>
    rw [pow_succ, mul_sub, mul_one, map_sub, ih]
    cases i with
    | zero => simp
    | succ i =>
      rw [PowerSeries.coeff_succ_mul_X, ih, Nat.choose_succ_succ]
      push_cast
      ring

/-- Products of palindromic polynomials. -/
theorem prod_eulB {ι : Type} [DecidableEq ι] (s : Finset ι) (α : ι → Nat) :
    (∏ j ∈ s, eulB (α j)).natDegree ≤ ∑ j ∈ s, α j ∧
      reflect (∑ j ∈ s, α j) (∏ j ∈ s, eulB (α j)) = ∏ j ∈ s, eulB (α j) := by
  induction s using Finset.induction_on with
  | empty => simp [reflect_one]
  | insert j s hj ih =>
    rw [Finset.prod_insert hj, Finset.sum_insert hj]
    refine ⟨natDegree_mul_le.trans (Nat.add_le_add (eulB_natDegree _) ih.1), ?_⟩
    rw [reflect_mul _ _ (eulB_natDegree _) ih.1, eulB_reflect, ih.2]

theorem half_sum (P : ℝ[X]) (s : Nat) (hd : P.natDegree ≤ 2 * s + 1) (hr : reflect (2 * s + 1) P = P) :
    2 * ∑ k ∈ Finset.range (s + 1), P.coeff k = P.eval 1 := by
  have h1 : P.eval 1 = ∑ k ∈ Finset.range (2 * s + 2), P.coeff k := by
    rw [eval_eq_sum_range' (show P.natDegree < 2 * s + 2 by omega)]
    simp
  rw [h1, show 2 * s + 2 = (s + 1) + (s + 1) by omega, Finset.sum_range_add _ (s + 1) (s + 1), two_mul]
  congr 1
  rw [← Finset.sum_range_reflect (fun k => P.coeff (s + 1 + k))]
  apply Finset.sum_congr rfl
  intro k hk
  rw [Finset.mem_range] at hk
  conv_lhs => rw [← hr]
  rw [coeff_reflect, revAt_le (by omega)]
  congr 1
  omega

/-- The identity in generating-function form. -/
theorem gm_identity (n s : Nat) (α : Fin (n + 1) → Nat) (hα : ∑ j, α j = 2 * s + 1) :
    ∑ i ∈ Finset.range (s + 1), (-1) ^ i * ((2 * s + 1 + n).choose i : ℝ) *
        PowerSeries.coeff (s - i) (∏ j, oddSeries (α j)) =
      2 ^ (2 * s) * ∏ j, ((α j).factorial : ℝ) := by
  set P := ∏ j, eulB (α j) with hP
  obtain ⟨hd, hr⟩ := prod_eulB Finset.univ α
  rw [hα] at hd hr
  have h1 : (∏ j, oddSeries (α j)) * (1 - PowerSeries.X) ^ (2 * s + 1 + n) * (1 - PowerSeries.X) =
      (P : PowerSeries ℝ) := by
    have e : (P : PowerSeries ℝ) = ∏ j, (eulB (α j) : PowerSeries ℝ) := by
      rw [hP]
      exact map_prod (Polynomial.coeToPowerSeries.ringHom (R := ℝ)) (fun j => eulB (α j)) Finset.univ
    rw [e, ← Finset.prod_congr rfl fun j _ => oddSeries_mul (α j), Finset.prod_mul_distrib,
      Finset.prod_pow_eq_pow_sum, Finset.sum_add_distrib, hα, mul_assoc, ← pow_succ,
      Finset.sum_const, Finset.card_univ, Fintype.card_fin, smul_eq_mul, mul_one, Nat.add_assoc]
  have h2 : (∏ j, oddSeries (α j)) * (1 - PowerSeries.X) ^ (2 * s + 1 + n) =
      (P : PowerSeries ℝ) * PowerSeries.mk 1 := by
    rw [← h1, mul_assoc _ (1 - PowerSeries.X), mul_comm (1 - PowerSeries.X) (PowerSeries.mk 1),
      PowerSeries.mk_one_mul_one_sub_eq_one, mul_one]
  have h3 := congrArg (PowerSeries.coeff s) h2
  rw [mul_comm (∏ j, oddSeries (α j)), PowerSeries.coeff_mul, PowerSeries.coeff_mul,
    Finset.Nat.sum_antidiagonal_eq_sum_range_succ_mk, Finset.Nat.sum_antidiagonal_eq_sum_range_succ_mk] at h3
  simp only [coeff_one_sub_X_pow, PowerSeries.coeff_mk, Pi.one_apply, mul_one, Polynomial.coeff_coe] at h3
  rw [h3]
  have h4 := half_sum P s hd hr
  have h5 : P.eval 1 = 2 ^ (2 * s + 1) * ∏ j, ((α j).factorial : ℝ) := by
    rw [hP, eval_prod, Finset.prod_congr rfl fun j _ => eulB_eval_one (α j), Finset.prod_mul_distrib,
      Finset.prod_pow_eq_pow_sum, hα]
  rw [h5, pow_succ] at h4
  linarith

end Modepy

import Mathlib.Topology.Algebra.MvPolynomial
import Mathlib.Analysis.Calculus.Deriv.Polynomial
import Verif.Props.Jacobi
import Verif.Proofs.Homog

/-!
# `jacobi(α, β, n, ·)` as a polynomial
-/

namespace Modepy
open Spec Polynomial

/-- The polynomial evaluated by `jacobi`. -/
noncomputable def jpoly (α β : ℝ) (n : Nat) : ℝ[X] :=
  C (1 / Real.sqrt (jacNorm α β n)) * (JP α β n).comp (C (1 / 2) * (X - C 1))

theorem eval_jpoly {α β : ℝ} (h : JacobiParams α β) (n : Nat) (x : ℝ) :
    (jpoly α β n).eval x = jacobi α β n x := by
  rw [jacobi_eq h, jacobiP_eq, jpoly]
  simp only [eval_mul, eval_C, eval_comp, eval_sub, eval_X]
  rw [show (1 : ℝ) / 2 * (x - 1) = (x - 1) / 2 by ring]; ring

theorem natDegree_JP (α β : ℝ) (n : Nat) : (JP α β n).natDegree ≤ n := by
  rw [JP]
  refine (natDegree_sum_le _ _).trans ?_
  rw [Finset.fold_max_le]
  refine ⟨Nat.zero_le _, fun k hk => ?_⟩
  have hk' : k ≤ n := by simpa [Nat.lt_succ_iff] using hk
  exact (natDegree_C_mul_X_pow_le _ _).trans hk'

theorem natDegree_jpoly (α β : ℝ) (n : Nat) : (jpoly α β n).natDegree ≤ n := by
  rw [jpoly]
  refine (natDegree_C_mul_le _ _).trans ?_
  refine natDegree_comp_le.trans ?_
  have h1 : (C (1 / 2 : ℝ) * (X - C 1)).natDegree ≤ 1 :=
    (natDegree_C_mul_le _ _).trans (natDegree_X_sub_C_le 1)
  have := natDegree_JP α β n
  nlinarith

theorem eval_derivative_jpoly {α β : ℝ} (h : JacobiParams α β) (n : Nat) (x : ℝ) :
    (derivative (jpoly α β n)).eval x = gradJacobi α β n x := by
  have h1 := (jpoly α β n).hasDerivAt x
  have h2 := C19_derivative α β h n x
  have e : (fun t => (jpoly α β n).eval t) = fun t => jacobi α β n t := by
    funext t; exact eval_jpoly h n t
  rw [e] at h1
  exact h1.unique h2

theorem params_nat (k : Nat) : JacobiParams (k : ℝ) 0 := by
  have hk : (0 : ℝ) ≤ k := Nat.cast_nonneg k
  refine ⟨by linarith, by norm_num, .inl ?_⟩
  rw [abs_of_pos (by linarith)]
  have : (1e-14 : ℝ) ≤ 1 := by norm_num
  linarith

theorem params_zero : JacobiParams 0 0 := by simpa using params_nat 0
theorem params_two (i : Nat) : JacobiParams (2 * i + 1) 0 := by
  have := params_nat (2 * i + 1); push_cast at this; exact this
theorem params_three (i j : Nat) : JacobiParams (2 * (i + j) + 2) 0 := by
  have := params_nat (2 * (i + j) + 2); push_cast at this; exact this

theorem two_rpow_half (i : Nat) : (2 : ℝ) ^ ((i : ℝ) + 0.5) = 2 ^ i * Real.sqrt 2 := by
  rw [Real.rpow_add (by norm_num), Real.rpow_natCast, Real.sqrt_eq_rpow]
  norm_num

/-- Orthonormality with an integer exponent in the weight. -/
theorem jacobi_orthonormal_pow (k : Nat) (m n : Nat) :
    ∫ x in (-1 : ℝ)..1, (1 - x) ^ k * (jacobi (k : ℝ) 0 m x * jacobi (k : ℝ) 0 n x) =
      if m = n then 1 else 0 := by
  rw [← C18_orthonormal (k : ℝ) 0 (params_nat k) m n]
  apply intervalIntegral.integral_congr
  intro x _
  simp only [Real.rpow_natCast, Real.rpow_zero]
  ring

end Modepy

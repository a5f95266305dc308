import Verif.Spec.Jacobi
import Mathlib.Algebra.Polynomial.Derivative
import Mathlib.Algebra.Polynomial.Eval.Degree
import Mathlib.Analysis.Calculus.Deriv.Polynomial
import Mathlib.Analysis.Calculus.Deriv.Comp
import Mathlib.Topology.Algebra.Polynomial
import Mathlib.Tactic.FieldSimp
import Mathlib.Tactic.Ring
import Mathlib.Tactic.LinearCombination
import Mathlib.Tactic.Linarith
import Mathlib.Tactic.Positivity

/-!
# Classical Jacobi polynomials: recurrence, derivative, differential equation
-/

namespace Modepy
open Spec Polynomial

theorem rise_zero (a : ℝ) : rise a 0 = 1 := rfl
theorem rise_succ (a : ℝ) (k : Nat) : rise a (k + 1) = rise a k * (a + k) := rfl

theorem rise_succ_left (a : ℝ) (k : Nat) : rise a (k + 1) = a * rise (a + 1) k := by
  induction k with
  | zero => simp [rise]
  | succ k ih =>
    rw [rise_succ, ih, rise_succ]
    push_cast
    ring

theorem rise_pos {a : ℝ} (h : 0 < a) (k : Nat) : 0 < rise a k := by
  induction k with
  | zero => simp [rise]
  | succ k ih => rw [rise_succ]; positivity

/-- Coefficients without subtraction. -/
theorem jacobiCoeff_add (α β : ℝ) (k m : Nat) :
    jacobiCoeff α β (k + m) k =
      rise ((k + m : Nat) + α + β + 1) k * rise (α + k + 1) m / (k.factorial * m.factorial) := by
  unfold jacobiCoeff
  have h := Nat.add_choose_mul_factorial_mul_factorial k m
  rw [← Nat.choose_symm_add] at h
  have h' : ((k + m).choose k : ℝ) * k.factorial * m.factorial = (k + m).factorial := by
    exact_mod_cast h
  have hk : (k.factorial : ℝ) ≠ 0 := by positivity
  have hm : (m.factorial : ℝ) ≠ 0 := by positivity
  have hkm : ((k + m).factorial : ℝ) ≠ 0 := by positivity
  rw [Nat.add_sub_cancel_left]
  field_simp
  rw [← h']
  ring

theorem jacobiCoeff_eq_zero (α β : ℝ) (n k : Nat) (h : n < k) : jacobiCoeff α β n k = 0 := by
  simp [jacobiCoeff, Nat.choose_eq_zero_of_lt h]

/-- Relation between neighbouring coefficients. -/
theorem jacobiCoeff_succ_right (α β : ℝ) (n k : Nat) :
    (k + 1) * (k + α + 1) * jacobiCoeff α β n (k + 1) =
      (n - k) * (n + k + α + β + 1) * jacobiCoeff α β n k := by
  rcases Nat.lt_or_ge k n with h | h
  · obtain ⟨m, rfl⟩ : ∃ m, n = k + 1 + m := ⟨n - k - 1, by omega⟩
    rw [jacobiCoeff_add]
    have h2 := jacobiCoeff_add α β k (m + 1)
    rw [show k + (m + 1) = k + 1 + m by omega] at h2
    rw [h2, rise_succ, rise_succ_left (α + k + 1) m, Nat.factorial_succ k, Nat.factorial_succ m]
    have hk : (k.factorial : ℝ) ≠ 0 := by positivity
    have hm : (m.factorial : ℝ) ≠ 0 := by positivity
    have hk' : ((k : ℝ) + 1) ≠ 0 := by positivity
    have hm' : ((m : ℝ) + 1) ≠ 0 := by positivity
    rw [show α + ((k + 1 : Nat) : ℝ) + 1 = α + k + 1 + 1 by push_cast; ring]
    push_cast
    field_simp
    ring
  · rw [jacobiCoeff_eq_zero α β n (k + 1) (by omega)]
    rcases Nat.eq_or_lt_of_le h with rfl | h
    · simp
    · rw [jacobiCoeff_eq_zero α β n k h]; simp

/-- Coefficients of the derivative. -/
theorem jacobiCoeff_deriv (α β : ℝ) (n k : Nat) :
    (k + 1) * jacobiCoeff α β (n + 1) (k + 1) =
      (n + α + β + 2) * jacobiCoeff (α + 1) (β + 1) n k := by
  rcases Nat.lt_or_ge n k with h | h
  · rw [jacobiCoeff_eq_zero _ _ _ _ h, jacobiCoeff_eq_zero _ _ _ _ (by omega : n + 1 < k + 1)]
    simp
  · obtain ⟨m, rfl⟩ : ∃ m, n = k + m := ⟨n - k, by omega⟩
    have h1 := jacobiCoeff_add α β (k + 1) m
    rw [show k + 1 + m = k + m + 1 by omega] at h1
    rw [h1, jacobiCoeff_add, rise_succ_left _ k, Nat.factorial_succ k]
    have hk : (k.factorial : ℝ) ≠ 0 := by positivity
    have hm : (m.factorial : ℝ) ≠ 0 := by positivity
    have hk' : ((k : ℝ) + 1) ≠ 0 := by positivity
    rw [show ((k + m + 1 : Nat) : ℝ) + α + β + 1 + 1 = ((k + m : Nat) : ℝ) + (α + 1) + (β + 1) + 1 by
      push_cast; ring, show α + ((k + 1 : Nat) : ℝ) + 1 = α + 1 + k + 1 by push_cast; ring]
    push_cast
    field_simp
    ring

/-- The three-term recurrence, coefficientwise (`k + 1`-st coefficient). -/
theorem jacobiCoeff_rec_succ (α β : ℝ) (hs : -2 < α + β) (n k : Nat) :
    (2 * n + α + β + 3) * (2 * n + α + β + 4) * (2 * n + α + β + 2) *
        (jacobiCoeff α β (n + 1) (k + 1) + 2 * jacobiCoeff α β (n + 1) k) =
      2 * (n + 2) * (n + α + β + 2) * (2 * n + α + β + 2) * jacobiCoeff α β (n + 2) (k + 1) +
      (β ^ 2 - α ^ 2) * (2 * n + α + β + 3) * jacobiCoeff α β (n + 1) (k + 1) +
      2 * (n + 1 + α) * (n + 1 + β) * (2 * n + α + β + 4) * jacobiCoeff α β n (k + 1) := by
  have hn0 : (0 : ℝ) ≤ n := Nat.cast_nonneg n
  rcases Nat.lt_trichotomy k n with h | rfl | h
  · obtain ⟨m, rfl⟩ : ∃ m, n = k + 1 + m := ⟨n - k - 1, by omega⟩
    have e1 := jacobiCoeff_add α β (k + 1) (m + 2)
    have e2 := jacobiCoeff_add α β (k + 1) (m + 1)
    have e3 := jacobiCoeff_add α β k (m + 2)
    have e4 := jacobiCoeff_add α β (k + 1) m
    rw [show k + 1 + (m + 2) = k + 1 + m + 2 by omega] at e1
    rw [show k + 1 + (m + 1) = k + 1 + m + 1 by omega] at e2
    rw [show k + (m + 2) = k + 1 + m + 1 by omega] at e3
    rw [e1, e2, e3, e4]
    have hk : (k.factorial : ℝ) ≠ 0 := by positivity
    have hm : (m.factorial : ℝ) ≠ 0 := by positivity
    have hk' : ((k : ℝ) + 1) ≠ 0 := by positivity
    have hm' : ((m : ℝ) + 1) ≠ 0 := by positivity
    have hm'' : ((m : ℝ) + 1 + 1) ≠ 0 := by positivity
    push_cast at hn0 ⊢
    have hq : (k : ℝ) + 1 + m + 1 + α + β + 1 ≠ 0 := by
      have : (0:ℝ) ≤ k := by positivity
      have : (0:ℝ) ≤ m := by positivity
      linarith
    have hq2 : (k : ℝ) + 1 + m + 1 + α + β ≠ 0 := by
      have : (0:ℝ) ≤ k := by positivity
      have : (0:ℝ) ≤ m := by positivity
      linarith
    -- everything in terms of `V` and `W`
    set V := rise ((k : ℝ) + 1 + m + 1 + α + β + 1) k with hV
    set W := rise (α + (k + 1) + 1) m with hW
    have r1 : rise ((k : ℝ) + 1 + m + 2 + α + β + 1) (k + 1) * (k + 1 + m + 1 + α + β + 1) =
        V * (k + 1 + m + 1 + α + β + 1 + k) * (k + 1 + m + 1 + α + β + 1 + (k + 1)) := by
      have := rise_succ_left ((k : ℝ) + 1 + m + 1 + α + β + 1) (k + 1)
      rw [rise_succ, rise_succ, ← hV] at this
      push_cast at this
      rw [show (k : ℝ) + 1 + m + 2 + α + β + 1 = k + 1 + m + 1 + α + β + 1 + 1 by ring,
        mul_comm, ← this]
    have r2 : rise ((k : ℝ) + 1 + m + 1 + α + β + 1) (k + 1) =
        V * (k + 1 + m + 1 + α + β + 1 + k) := by rw [rise_succ]
    have r4 : rise ((k : ℝ) + 1 + m + α + β + 1) (k + 1) = (k + 1 + m + α + β + 1) * V := by
      rw [rise_succ_left, hV]; congr 2; ring
    have w1 : rise (α + ((k : ℝ) + 1) + 1) (m + 2) =
        W * (α + (k + 1) + 1 + m) * (α + (k + 1) + 1 + (m + 1)) := by
      rw [rise_succ, rise_succ]; push_cast; rfl
    have w2 : rise (α + ((k : ℝ) + 1) + 1) (m + 1) = W * (α + (k + 1) + 1 + m) := by
      rw [rise_succ]
    have w3 : rise (α + (k : ℝ) + 1) (m + 2) = (α + k + 1) * W * (α + (k + 1) + 1 + m) := by
      rw [rise_succ_left, rise_succ, hW, show α + (k : ℝ) + 1 + 1 = α + (k + 1) + 1 by ring]; ring
    have r1' : rise ((k : ℝ) + 1 + m + 2 + α + β + 1) (k + 1) =
        V * (k + 1 + m + 1 + α + β + 1 + k) * (k + 1 + m + 1 + α + β + 1 + (k + 1)) /
          (k + 1 + m + 1 + α + β + 1) := by
      rw [eq_div_iff hq, r1]
    rw [r1', r2, r4, w1, w2, w3, Nat.factorial_succ k, Nat.factorial_succ (m + 1),
      Nat.factorial_succ m]
    push_cast
    field_simp
    ring
  · -- `k = n`
    rw [jacobiCoeff_eq_zero α β k (k + 1) (by omega)]
    have e1 := jacobiCoeff_add α β (k + 1) 1
    have e2 := jacobiCoeff_add α β (k + 1) 0
    have e3 := jacobiCoeff_add α β k 1
    rw [show k + 1 + 1 = k + 2 by omega] at e1
    rw [Nat.add_zero] at e2
    rw [e1, e2, e3]
    simp only [rise_succ, rise_zero, Nat.factorial_succ k, Nat.factorial_zero, Nat.factorial_one]
    have hk : (k.factorial : ℝ) ≠ 0 := by positivity
    have hk' : ((k : ℝ) + 1) ≠ 0 := by positivity
    have hq : (k : ℝ) + 1 + α + β + 1 ≠ 0 := by
      have : (0:ℝ) ≤ k := by positivity
      linarith
    set V := rise ((k : ℝ) + 1 + α + β + 1) k with hV
    have r1 : rise ((k : ℝ) + 2 + α + β + 1) k * (k + 2 + α + β + 1 + k) *
        (k + 1 + α + β + 1) = V * (k + 1 + α + β + 1 + k) * (k + 1 + α + β + 1 + (k + 1)) := by
      have := rise_succ_left ((k : ℝ) + 1 + α + β + 1) (k + 1)
      rw [rise_succ, rise_succ, ← hV, rise_succ] at this
      push_cast at this
      rw [show (k : ℝ) + 2 + α + β + 1 = k + 1 + α + β + 1 + 1 by ring]
      rw [this]
      ring
    have r1' : rise ((k : ℝ) + 2 + α + β + 1) k * (k + 2 + α + β + 1 + k) =
        V * (k + 1 + α + β + 1 + k) * (k + 1 + α + β + 1 + (k + 1)) / (k + 1 + α + β + 1) := by
      rw [eq_div_iff hq, r1]
    push_cast at r1' hV ⊢
    rw [r1', ← hV]
    field_simp
    ring
  · rw [jacobiCoeff_eq_zero α β n (k + 1) (by omega),
      jacobiCoeff_eq_zero α β (n + 1) (k + 1) (by omega)]
    rcases Nat.lt_or_ge (n + 1) k with h2 | h2
    · rw [jacobiCoeff_eq_zero α β (n + 1) k h2, jacobiCoeff_eq_zero α β (n + 2) (k + 1) (by omega)]
      ring
    · obtain rfl : k = n + 1 := by omega
      have e1 := jacobiCoeff_add α β (n + 2) 0
      have e2 := jacobiCoeff_add α β (n + 1) 0
      rw [Nat.add_zero] at e1 e2
      rw [show n + 1 + 1 = n + 2 by omega, e1, e2]
      simp only [rise_zero, Nat.factorial_succ, Nat.factorial_zero]
      have hk : (n.factorial : ℝ) ≠ 0 := by positivity
      have hk' : ((n : ℝ) + 1) ≠ 0 := by positivity
      have hk'' : ((n : ℝ) + 1 + 1) ≠ 0 := by positivity
      have hq : (n : ℝ) + 1 + α + β + 1 ≠ 0 := by linarith
      set V := rise ((n : ℝ) + 1 + α + β + 1) (n + 1) with hV
      have r1 : rise ((n : ℝ) + 2 + α + β + 1) (n + 2) * (n + 1 + α + β + 1) =
          V * (n + 1 + α + β + 1 + (n + 1)) * (n + 1 + α + β + 1 + (n + 2)) := by
        have := rise_succ_left ((n : ℝ) + 1 + α + β + 1) (n + 2)
        rw [rise_succ, rise_succ, ← hV] at this
        push_cast at this
        rw [show (n : ℝ) + 2 + α + β + 1 = n + 1 + α + β + 1 + 1 by ring, mul_comm, ← this]
      have r1' : rise ((n : ℝ) + 2 + α + β + 1) (n + 2) =
          V * (n + 1 + α + β + 1 + (n + 1)) * (n + 1 + α + β + 1 + (n + 2)) /
            (n + 1 + α + β + 1) := by
        rw [eq_div_iff hq, r1]
      push_cast at r1' hV ⊢
      rw [r1', ← hV]
      field_simp
      ring

/-- The three-term recurrence, constant coefficient. -/
theorem jacobiCoeff_rec_zero (α β : ℝ) (n : Nat) :
    (2 * n + α + β + 3) * (2 * n + α + β + 4) * (2 * n + α + β + 2) * jacobiCoeff α β (n + 1) 0 =
      2 * (n + 2) * (n + α + β + 2) * (2 * n + α + β + 2) * jacobiCoeff α β (n + 2) 0 +
      (β ^ 2 - α ^ 2) * (2 * n + α + β + 3) * jacobiCoeff α β (n + 1) 0 +
      2 * (n + 1 + α) * (n + 1 + β) * (2 * n + α + β + 4) * jacobiCoeff α β n 0 := by
  have e := fun m => jacobiCoeff_add α β 0 m
  simp only [Nat.zero_add] at e
  rw [e, e, e]
  simp only [rise_succ, rise_zero, Nat.factorial_succ, Nat.factorial_zero]
  have hk : (n.factorial : ℝ) ≠ 0 := by positivity
  have hk' : ((n : ℝ) + 1) ≠ 0 := by positivity
  have hk'' : ((n : ℝ) + 1 + 1) ≠ 0 := by positivity
  push_cast
  field_simp
  ring

/-- The classical Jacobi polynomial as a polynomial in `y = (x - 1) / 2`. -/
noncomputable def JP (α β : ℝ) (n : Nat) : ℝ[X] :=
  ∑ k ∈ Finset.range (n + 1), C (jacobiCoeff α β n k) * X ^ k

theorem coeff_JP (α β : ℝ) (n k : Nat) : (JP α β n).coeff k = jacobiCoeff α β n k := by
  simp only [JP, finsetSum_coeff, coeff_C_mul, coeff_X_pow]
  rcases Nat.lt_or_ge n k with h | h
  · rw [jacobiCoeff_eq_zero _ _ _ _ h]
    apply Finset.sum_eq_zero
    intro i hi
    have := Finset.mem_range.1 hi
    rw [if_neg (by omega), mul_zero]
  · rw [Finset.sum_eq_single k]
    · simp
    · intro i _ hne
      rw [if_neg (Ne.symm hne), mul_zero]
    · intro hk; simp at hk; omega

theorem jacobiP_eq (α β : ℝ) (n : Nat) (x : ℝ) :
    jacobiP α β n x = (JP α β n).eval ((x - 1) / 2) := by
  simp [jacobiP, JP, eval_finsetSum]

theorem JP_rec (α β : ℝ) (hs : -2 < α + β) (n : Nat) :
    C ((2 * n + α + β + 3) * (2 * n + α + β + 4) * (2 * n + α + β + 2)) *
        (JP α β (n + 1) + C 2 * (X * JP α β (n + 1))) =
      C (2 * (n + 2) * (n + α + β + 2) * (2 * n + α + β + 2)) * JP α β (n + 2) +
      C ((β ^ 2 - α ^ 2) * (2 * n + α + β + 3)) * JP α β (n + 1) +
      C (2 * (n + 1 + α) * (n + 1 + β) * (2 * n + α + β + 4)) * JP α β n := by
  ext k
  cases k with
  | zero =>
    simp only [coeff_add, coeff_JP, mul_coeff_zero, coeff_X_zero, zero_mul, mul_zero,
      add_zero, coeff_C_zero]
    exact jacobiCoeff_rec_zero α β n
  | succ k =>
    simp only [coeff_add, coeff_C_mul, coeff_JP, coeff_X_mul]
    exact jacobiCoeff_rec_succ α β hs n k

theorem JP_deriv (α β : ℝ) (n : Nat) :
    derivative (JP α β (n + 1)) = C (n + α + β + 2) * JP (α + 1) (β + 1) n := by
  ext k
  rw [coeff_derivative, coeff_C_mul, coeff_JP, coeff_JP, mul_comm]
  exact jacobiCoeff_deriv α β n k

theorem JP_zero (α β : ℝ) : JP α β 0 = 1 := by
  simp [JP, jacobiCoeff, rise]

theorem JP_ode (α β : ℝ) (n : Nat) :
    X * derivative (derivative (JP α β n)) + X * (X * derivative (derivative (JP α β n))) +
      C (α + 1) * derivative (JP α β n) + C (α + β + 2) * (X * derivative (JP α β n)) =
      C (n * (n + α + β + 1)) * JP α β n := by
  ext k
  have key := jacobiCoeff_succ_right α β n k
  rcases k with _ | _ | k
  · simp only [coeff_add, mul_coeff_zero, coeff_X_zero, zero_mul, mul_zero, coeff_C_mul,
      coeff_derivative, coeff_JP, coeff_C_zero] at key ⊢
    push_cast at key ⊢
    linear_combination key
  · simp only [coeff_add, coeff_X_mul, mul_coeff_zero, coeff_X_zero, zero_mul, coeff_C_mul,
      coeff_derivative, coeff_JP] at key ⊢
    push_cast at key ⊢
    linear_combination key
  · simp only [coeff_add, coeff_X_mul, coeff_C_mul, coeff_derivative, coeff_JP] at key ⊢
    push_cast at key ⊢
    linear_combination key

/-! ### As functions of `x` -/

theorem jacobiP_zero (α β x : ℝ) : jacobiP α β 0 x = 1 := by
  rw [jacobiP_eq, JP_zero]; simp

theorem jacobiP_one (α β x : ℝ) : jacobiP α β 1 x = (α + β + 2) * x / 2 + (α - β) / 2 := by
  simp only [jacobiP, Finset.sum_range_succ, Finset.sum_range_zero, jacobiCoeff, rise]
  norm_num [rise]
  ring

theorem jacobiP_rec (α β : ℝ) (hs : -2 < α + β) (n : Nat) (x : ℝ) :
    (2 * n + α + β + 3) * (2 * n + α + β + 4) * (2 * n + α + β + 2) * (x * jacobiP α β (n + 1) x) =
      2 * (n + 2) * (n + α + β + 2) * (2 * n + α + β + 2) * jacobiP α β (n + 2) x +
      (β ^ 2 - α ^ 2) * (2 * n + α + β + 3) * jacobiP α β (n + 1) x +
      2 * (n + 1 + α) * (n + 1 + β) * (2 * n + α + β + 4) * jacobiP α β n x := by
  have h := congrArg (eval ((x - 1) / 2)) (JP_rec α β hs n)
  simp only [eval_mul, eval_add, eval_C, eval_X, ← jacobiP_eq] at h
  linear_combination h

theorem jacobiP_hasDerivAt (α β : ℝ) (n : Nat) (x : ℝ) :
    HasDerivAt (jacobiP α β (n + 1)) ((n + α + β + 2) / 2 * jacobiP (α + 1) (β + 1) n x) x := by
  have h1 : HasDerivAt (fun x : ℝ => (x - 1) / 2) (1 / 2) x :=
    ((hasDerivAt_id x).sub_const 1).div_const 2
  have h2 := ((JP α β (n + 1)).hasDerivAt ((x - 1) / 2)).comp x h1
  have h3 : (fun x => (JP α β (n + 1)).eval ((x - 1) / 2)) = jacobiP α β (n + 1) := by
    funext x; rw [jacobiP_eq]
  have h4 : HasDerivAt (jacobiP α β (n + 1))
      ((derivative (JP α β (n + 1))).eval ((x - 1) / 2) * (1 / 2)) x := by
    rw [← h3]; exact h2
  rw [JP_deriv] at h4
  convert h4 using 1
  rw [eval_mul, eval_C, ← jacobiP_eq]
  ring

theorem jacobiP_zero_hasDerivAt (α β x : ℝ) : HasDerivAt (jacobiP α β 0) 0 x := by
  have : jacobiP α β 0 = fun _ => 1 := by funext x; exact jacobiP_zero α β x
  rw [this]
  exact hasDerivAt_const x 1

theorem jacobiP_continuous (α β : ℝ) (n : Nat) : Continuous (jacobiP α β n) := by
  have : jacobiP α β n = fun x => (JP α β n).eval ((x - 1) / 2) := by
    funext x; exact jacobiP_eq α β n x
  rw [this]
  exact (JP α β n).continuous.comp (by fun_prop)

/-- Derivative of `P_n`. -/
noncomputable def dJacobiP (α β : ℝ) (n : Nat) (x : ℝ) : ℝ :=
  (derivative (JP α β n)).eval ((x - 1) / 2) / 2

/-- Second derivative of `P_n`. -/
noncomputable def ddJacobiP (α β : ℝ) (n : Nat) (x : ℝ) : ℝ :=
  (derivative (derivative (JP α β n))).eval ((x - 1) / 2) / 4

theorem hasDerivAt_eval_half (p : ℝ[X]) (x : ℝ) :
    HasDerivAt (fun x => p.eval ((x - 1) / 2)) ((derivative p).eval ((x - 1) / 2) / 2) x := by
  have h1 : HasDerivAt (fun x : ℝ => (x - 1) / 2) (1 / 2) x :=
    ((hasDerivAt_id x).sub_const 1).div_const 2
  have h2 := (p.hasDerivAt ((x - 1) / 2)).comp x h1
  rw [div_eq_mul_one_div]
  exact h2

theorem hasDerivAt_jacobiP (α β : ℝ) (n : Nat) (x : ℝ) :
    HasDerivAt (jacobiP α β n) (dJacobiP α β n x) x := by
  have : jacobiP α β n = fun x => (JP α β n).eval ((x - 1) / 2) := by
    funext x; exact jacobiP_eq α β n x
  rw [this]
  exact hasDerivAt_eval_half _ x

theorem hasDerivAt_dJacobiP (α β : ℝ) (n : Nat) (x : ℝ) :
    HasDerivAt (dJacobiP α β n) (ddJacobiP α β n x) x := by
  have h := (hasDerivAt_eval_half (derivative (JP α β n)) x).div_const 2
  have e : ddJacobiP α β n x =
      (derivative (derivative (JP α β n))).eval ((x - 1) / 2) / 2 / 2 := by
    rw [ddJacobiP]; ring
  rw [e]
  exact h

theorem dJacobiP_succ (α β : ℝ) (n : Nat) (x : ℝ) :
    dJacobiP α β (n + 1) x = (n + α + β + 2) / 2 * jacobiP (α + 1) (β + 1) n x := by
  rw [dJacobiP, JP_deriv, eval_mul, eval_C, ← jacobiP_eq]
  ring

theorem dJacobiP_zero (α β x : ℝ) : dJacobiP α β 0 x = 0 := by
  simp [dJacobiP, JP_zero]

/-- The Jacobi differential equation. -/
theorem jacobiP_ode (α β : ℝ) (n : Nat) (x : ℝ) :
    (1 - x ^ 2) * ddJacobiP α β n x + (β - α - (α + β + 2) * x) * dJacobiP α β n x +
      n * (n + α + β + 1) * jacobiP α β n x = 0 := by
  have h := congrArg (eval ((x - 1) / 2)) (JP_ode α β n)
  simp only [eval_mul, eval_add, eval_C, eval_X, ← jacobiP_eq] at h
  rw [ddJacobiP, dJacobiP]
  linear_combination -h

/-- Reflection. -/
theorem jacobiP_neg (α β : ℝ) (hs : -2 < α + β) (hα : -1 < α) (hβ : -1 < β) (n : Nat) (x : ℝ) :
    jacobiP α β n (-x) = (-1) ^ n * jacobiP β α n x := by
  induction n using Nat.strong_induction_on with
  | _ n ih =>
    match n, ih with
    | 0, _ => simp [jacobiP_zero]
    | 1, _ => rw [jacobiP_one, jacobiP_one]; ring
    | n + 2, ih =>
      have h1 := jacobiP_rec α β hs n (-x)
      have h2 := jacobiP_rec β α (by linarith) n x
      rw [ih n (by omega), ih (n + 1) (by omega)] at h1
      have hn : (0 : ℝ) ≤ n := Nat.cast_nonneg n
      have hc : 2 * ((n : ℝ) + 2) * (n + α + β + 2) * (2 * n + α + β + 2) ≠ 0 := by
        have : 0 < (n : ℝ) + α + β + 2 := by linarith
        have : 0 < 2 * (n : ℝ) + α + β + 2 := by linarith
        positivity
      apply mul_left_cancel₀ hc
      rw [pow_succ, pow_succ] at *
      linear_combination -h1 + (-1) ^ n * h2

/-- Value at the right end. -/
theorem jacobiP_at_one (α β : ℝ) (n : Nat) : jacobiP α β n 1 = rise (α + 1) n / n.factorial := by
  rw [jacobiP, Finset.sum_eq_single 0]
  · simp [jacobiCoeff, rise]
  · intro k _ hk
    simp [hk]
  · simp

end Modepy

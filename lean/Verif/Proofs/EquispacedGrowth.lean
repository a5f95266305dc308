import Mathlib.LinearAlgebra.Lagrange
import Mathlib.Data.Nat.Choose.Cast
import Mathlib.Data.Real.Basic
import Mathlib.Data.Nat.Choose.Sum
import Mathlib.Data.Sign.Basic
import Mathlib.Tactic.FieldSimp
import Mathlib.Tactic.Linarith
import Mathlib.Tactic.Positivity

/-!
# A polynomial that is bounded at equispaced points and large between the first two
-/

namespace Modepy
open Polynomial

theorem half_product (m : Nat) : ((m).factorial : ℝ) / 4 ≤ ∏ j ∈ Finset.range (m + 2), |1 / 2 - (j : ℝ)| := by
  induction m with
  | zero =>
    norm_num [Finset.prod_range_succ, abs_of_nonneg, abs_of_nonpos]
  | succ m ih =>
    rw [Finset.prod_range_succ]
    have e : |1 / 2 - ((m + 2 : ℕ) : ℝ)| = m + 3 / 2 := by
      rw [abs_of_nonpos (by push_cast; linarith [Nat.cast_nonneg (α := ℝ) m])]
      push_cast
      ring
    rw [e, Nat.factorial_succ]
    push_cast
    have h0 : (0 : ℝ) ≤ (m.factorial : ℝ) / 4 := by positivity
    calc ((m : ℝ) + 1) * m.factorial / 4 = (m.factorial : ℝ) / 4 * (m + 1) := by ring
      _ ≤ (m.factorial : ℝ) / 4 * (m + 3 / 2) := mul_le_mul_of_nonneg_left (by linarith) h0
      _ ≤ _ := mul_le_mul_of_nonneg_right ih (by positivity)

theorem distance_product (n k : Nat) (hk : k ≤ n) :
    ∏ j ∈ (Finset.range (n + 1)).erase k, |(k : ℝ) - j| = (k.factorial : ℝ) * (n - k).factorial := by
  have h1 : ∏ j ∈ (Finset.range (n + 1)).erase k, |(k : ℝ) - j| = ∏ j ∈ Finset.range (n + 1), if j = k then 1 else |(k : ℝ) - j| := by
    rw [← Finset.mul_prod_erase (Finset.range (n + 1)) _ (Finset.mem_range.2 (Nat.lt_succ_of_le hk)), if_pos rfl, one_mul]
    exact Finset.prod_congr rfl fun j hj => by rw [if_neg (Finset.ne_of_mem_erase hj)]
  rw [h1, show n + 1 = (k + 1) + (n - k) by omega, Finset.prod_range_add, Finset.prod_range_succ, if_pos rfl, mul_one]
  congr 1
  · rw [← Finset.prod_range_reflect, ← Finset.prod_range_add_one_eq_factorial]
    push_cast
    refine Finset.prod_congr rfl fun j hj => ?_
    have := Finset.mem_range.1 hj
    rw [if_neg (by omega), Nat.sub_sub, Nat.cast_sub (by omega)]
    push_cast
    rw [abs_of_nonneg (by linarith [Nat.cast_nonneg (α := ℝ) j])]
    ring
  · rw [← Finset.prod_range_add_one_eq_factorial]
    push_cast
    refine Finset.prod_congr rfl fun j hj => ?_
    rw [if_neg (by omega), abs_of_nonpos (by linarith [Nat.cast_nonneg (α := ℝ) j])]
    ring

/-- A polynomial that is at most one in absolute value at `n + 1` equispaced points and exponentially large in `n` half way
between the first two of them. -/
theorem equispaced_growth (n : Nat) (hn : 1 ≤ n) : ∃ q : ℝ[X], q.natDegree ≤ n ∧ (∀ k ≤ n, |q.eval (2 * (k : ℝ) / n - 1)| ≤ 1) ∧
    2 ^ n / (4 * (n : ℝ) ^ 2) ≤ q.eval (1 / (n : ℝ) - 1) := by
  have hn0 : (0 : ℝ) < n := by positivity
  set x : ℕ → ℝ := fun k => 2 * (k : ℝ) / n - 1 with hx
  set s := Finset.range (n + 1) with hs
  set t : ℝ := 1 / (n : ℝ) - 1 with ht
  have hinj : Set.InjOn x s := by
    intro a _ b _ h
    simp only [hx] at h
    have : (a : ℝ) = b := by field_simp at h; linarith
    exact_mod_cast this
  set L : ℕ → ℝ[X] := fun k => Lagrange.basis s x k with hL
  have hdeg : ∀ k ∈ s, (L k).natDegree ≤ n := fun k hk => by
    rw [natDegree_eq_of_degree_eq_some (Lagrange.degree_basis hinj hk)]
    simp [hs]
  refine ⟨∑ k ∈ s, C (SignType.sign ((L k).eval t) : ℝ) * L k, ?_, ?_, ?_⟩
  · exact natDegree_sum_le_of_forall_le _ _ fun k hk => (natDegree_C_mul_le _ _).trans (hdeg k hk)
  · intro k hk
    have hks : k ∈ s := Finset.mem_range.2 (Nat.lt_succ_of_le hk)
    rw [eval_finsetSum, Finset.sum_eq_single_of_mem k hks]
    · rw [eval_mul, eval_C]
      have : (L k).eval (2 * (k : ℝ) / n - 1) = 1 := Lagrange.eval_basis_self (v := x) hinj hks
      rw [this, mul_one]
      rcases SignType.trichotomy (SignType.sign ((L k).eval t)) with h | h | h <;> rw [h] <;> simp
    · intro j hj hjk
      rw [eval_mul]
      have : (L j).eval (2 * (k : ℝ) / n - 1) = 0 := Lagrange.eval_basis_of_ne (v := x) hjk hks
      rw [this, mul_zero]
  · rw [eval_finsetSum]
    have hval : ∀ k ∈ s, (C (SignType.sign ((L k).eval t) : ℝ) * L k).eval t = |(L k).eval t| := by
      intro k _
      rw [eval_mul, eval_C, sign_mul_self]
    rw [Finset.sum_congr rfl hval]
    obtain ⟨m, rfl⟩ : ∃ m, n = m + 1 := ⟨n - 1, by omega⟩
    have hW := half_product m
    set W := ∏ j ∈ Finset.range (m + 2), |1 / 2 - (j : ℝ)| with hWd
    have hLk : ∀ k ∈ s, (m.factorial : ℝ) / (4 * ((m + 1 : ℕ) : ℝ)) / (m + 1).factorial * ((m + 1).choose k : ℝ) ≤ |(L k).eval t| := by
      intro k hk
      have hk' : k ≤ m + 1 := Nat.lt_succ_iff.1 (Finset.mem_range.1 hk)
      have e1 : |(L k).eval t| = ∏ j ∈ s.erase k, (|1 / 2 - (j : ℝ)| / |(k : ℝ) - j|) := by
        rw [hL]
        simp only [Lagrange.basis, eval_prod, Finset.abs_prod]
        refine Finset.prod_congr rfl fun j hj => ?_
        have hjk : (k : ℝ) ≠ j := by exact_mod_cast (Finset.ne_of_mem_erase hj).symm
        rw [Lagrange.basisDivisor, eval_mul, eval_C, eval_sub, eval_X, eval_C, ← abs_div]
        congr 1
        have : (k : ℝ) - j ≠ 0 := sub_ne_zero.2 hjk
        simp only [hx, ht]
        have h2 : 2 * (k : ℝ) / ((m + 1 : ℕ) : ℝ) - 1 - (2 * (j : ℝ) / ((m + 1 : ℕ) : ℝ) - 1) = 2 * (k - j) / ((m + 1 : ℕ) : ℝ) := by ring
        have h3 : 1 / ((m + 1 : ℕ) : ℝ) - 1 - (2 * (j : ℝ) / ((m + 1 : ℕ) : ℝ) - 1) = (1 - 2 * j) / ((m + 1 : ℕ) : ℝ) := by ring
        rw [h2, h3]
        field_simp
      have e2 : ∏ j ∈ s.erase k, |1 / 2 - (j : ℝ)| = W / |1 / 2 - (k : ℝ)| := by
        have hne : |1 / 2 - (k : ℝ)| ≠ 0 := by
          rw [abs_ne_zero, sub_ne_zero]
          intro h
          have h2 : (1 : ℝ) = 2 * k := by linarith
          have h3 : (1 : ℕ) = 2 * k := by exact_mod_cast h2
          omega
        rw [eq_div_iff hne, mul_comm]
        exact Finset.mul_prod_erase s (fun j : ℕ => |1 / 2 - (j : ℝ)|) hk
      have hle : |1 / 2 - (k : ℝ)| ≤ ((m + 1 : ℕ) : ℝ) := by
        have h1 : (k : ℝ) ≤ ((m + 1 : ℕ) : ℝ) := by exact_mod_cast hk'
        have h2 : (0 : ℝ) ≤ k := Nat.cast_nonneg k
        have h3 : (1 : ℝ) ≤ ((m + 1 : ℕ) : ℝ) := by push_cast; linarith [Nat.cast_nonneg (α := ℝ) m]
        rw [abs_le]
        constructor <;> linarith
      have hpos : 0 < |1 / 2 - (k : ℝ)| := by
        rw [abs_pos, sub_ne_zero]
        intro h
        have h2 : (1 : ℝ) = 2 * k := by linarith
        have h3 : (1 : ℕ) = 2 * k := by exact_mod_cast h2
        omega
      have hW0 : 0 ≤ W := Finset.prod_nonneg fun j _ => abs_nonneg _
      rw [e1, Finset.prod_div_distrib, e2, distance_product (m + 1) k hk', Nat.cast_choose ℝ hk']
      have hf1 : (0 : ℝ) < k.factorial := by positivity
      have hf2 : (0 : ℝ) < (m + 1 - k).factorial := by positivity
      have hf3 : (0 : ℝ) < (m + 1).factorial := by positivity
      have e3 : (m.factorial : ℝ) / (4 * ((m + 1 : ℕ) : ℝ)) / (m + 1).factorial *
          (((m + 1).factorial : ℝ) / (k.factorial * (m + 1 - k).factorial)) =
          (m.factorial : ℝ) / 4 / ((m + 1 : ℕ) : ℝ) / (k.factorial * (m + 1 - k).factorial) := by
        field_simp
      rw [e3]
      refine div_le_div_of_nonneg_right ?_ (by positivity)
      exact div_le_div₀ hW0 hW hpos hle
    refine le_trans (le_of_eq ?_) (Finset.sum_le_sum hLk)
    rw [← Finset.mul_sum]
    have hc : ∑ k ∈ s, ((m + 1).choose k : ℝ) = 2 ^ (m + 1) := by
      have := Nat.sum_range_choose (m + 1)
      exact_mod_cast this
    rw [hc, Nat.factorial_succ]
    push_cast
    field_simp

end Modepy

import Verif.Props.KronrodEig
import Mathlib.Algebra.Polynomial.Derivative

/-!
# Property C56: Newton refinement of inexact eigenvalues

`_eignewt` refines the values of `eigvalsh` because they are inexact.  From outside the spectrum the refinement moves towards
the nearest eigenvalue, never past it, and each step removes at least the fraction `1/m` of the error.
-/

namespace Modepy
open Polynomial Matrix Finset

/-- One Newton step for a product of linear factors, from a point beyond all roots (`σ = 1` above, `σ = -1` below). -/
theorem newton_step (m : Nat) (μ : Fin m → ℝ) (f : ℝ[X]) (hf : f = ∏ i, (X - C (μ i))) (σ : ℝ) (hσ : σ * σ = 1)
    (top : Fin m) (htop : ∀ i, 0 ≤ σ * (μ top - μ i)) (z : ℝ) (hz : 0 < σ * (z - μ top)) :
    f.derivative.eval z ≠ 0 ∧ 0 ≤ σ * (z - f.eval z / f.derivative.eval z - μ top) ∧
      σ * (z - f.eval z / f.derivative.eval z - μ top) ≤ (1 - 1 / m) * (σ * (z - μ top)) := by
  have hpos : ∀ i, 0 < σ * (z - μ i) := fun i => by nlinarith [htop i]
  have hσ0 : σ ≠ 0 := by rintro rfl; simp at hσ
  have hne : ∀ i, z - μ i ≠ 0 := fun i h => by have := hpos i; rw [h] at this; simp at this
  have hfz : f.eval z = ∏ i, (z - μ i) := by rw [hf, eval_prod]; simp
  have hf0 : f.eval z ≠ 0 := by rw [hfz]; exact prod_ne_zero_iff.2 fun i _ => hne i
  have hd : f.derivative.eval z = f.eval z * ∑ i, 1 / (z - μ i) := by
    rw [hfz, hf, derivative_prod_finset, eval_finsetSum, mul_sum]
    refine sum_congr rfl fun i _ => ?_
    rw [eval_mul, eval_prod]
    simp only [derivative_sub, derivative_X, derivative_C, sub_zero, eval_one, mul_one, eval_sub, eval_X, eval_C]
    rw [← mul_prod_erase univ (fun i => z - μ i) (mem_univ i)]
    field_simp [hne i]
  set S := ∑ i, 1 / (σ * (z - μ i)) with hS
  have hSe : ∑ i, 1 / (z - μ i) = σ * S := by
    rw [hS, mul_sum]
    refine sum_congr rfl fun i _ => ?_
    field_simp [hne i]
  set e := σ * (z - μ top) with he
  have h1 : 1 / e ≤ S := single_le_sum (f := fun i => 1 / (σ * (z - μ i))) (fun i _ => by have := hpos i; positivity) (mem_univ top)
  have h2 : S ≤ m * (1 / e) := by
    rw [hS]
    calc _ ≤ ∑ _i : Fin m, 1 / e := sum_le_sum fun i _ => by
          apply one_div_le_one_div_of_le hz
          rw [he]
          nlinarith [htop i]
      _ = _ := by simp
  have hSpos : 0 < S := lt_of_lt_of_le (by positivity) h1
  have hm : (0 : ℝ) < m := by
    have : 0 < m := top.pos
    exact_mod_cast this
  have hstep : f.eval z / f.derivative.eval z = σ * (1 / S) := by
    rw [hd, hSe]
    field_simp
    linear_combination -hσ
  have hexp : σ * (z - f.eval z / f.derivative.eval z - μ top) = e - 1 / S := by
    rw [hstep, he]
    linear_combination -(1 / S) * hσ
  refine ⟨?_, ?_, ?_⟩
  · rw [hd, hSe]
    exact mul_ne_zero hf0 (mul_ne_zero hσ0 hSpos.ne')
  · rw [hexp, sub_nonneg, one_div_le hSpos hz]
    exact h1
  · rw [hexp]
    have : e / m ≤ 1 / S := by
      rw [div_le_div_iff₀ hm hSpos, one_mul]
      have := mul_le_mul_of_nonneg_left h2 hz.le
      calc e * S ≤ e * (m * (1 / e)) := this
        _ = m := by field_simp
    have e2 : (1 - 1 / (m : ℝ)) * e = e - e / m := by ring
    rw [e2]
    linarith

theorem newtonLoop_between (m : Nat) (μ : Fin m → ℝ) (f : ℝ[X]) (hf : f = ∏ i, (X - C (μ i))) (σ : ℝ) (hσ : σ * σ = 1)
    (top : Fin m) (htop : ∀ i, 0 ≤ σ * (μ top - μ i)) (k : Nat) :
    ∀ z, 0 ≤ σ * (z - μ top) →
      0 ≤ σ * (newtonLoop (fun z => (f.eval z, f.derivative.eval z)) k z - μ top) ∧
      σ * (newtonLoop (fun z => (f.eval z, f.derivative.eval z)) k z - μ top) ≤ σ * (z - μ top) := by
  have hσ0 : σ ≠ 0 := by rintro rfl; simp at hσ
  have hm : (0 : ℝ) < m := by
    have : 0 < m := top.pos
    exact_mod_cast this
  induction k with
  | zero => intro z hz; exact ⟨hz, le_rfl⟩
  | succ k ih =>
    intro z hz
    rcases hz.lt_or_eq with hlt | heq
    · obtain ⟨h1, h2, h3⟩ := newton_step m μ f hf σ hσ top htop z hlt
      have h4 : (1 - 1 / (m : ℝ)) * (σ * (z - μ top)) ≤ σ * (z - μ top) := by
        have : 0 < 1 / (m : ℝ) * (σ * (z - μ top)) := by positivity
        nlinarith
      rw [newtonLoop, if_neg h1]
      simp only
      split
      · exact ⟨h2, h3.trans h4⟩
      · obtain ⟨i1, i2⟩ := ih _ h2
        exact ⟨i1, i2.trans (h3.trans h4)⟩
    · have hz' : z = μ top := by
        have := (mul_eq_zero.1 heq.symm).resolve_left hσ0
        linarith
      have hroot : f.eval z = 0 := by
        rw [hf, eval_prod, hz']
        exact prod_eq_zero (mem_univ top) (by simp)
      rw [newtonLoop_root _ z hroot]
      exact ⟨hz, le_rfl⟩

/-- **C56 (refinement).**  Let `μ` be the eigenvalues of `H`, and let a starting value lie on or beyond the largest (`σ = 1`)
or the smallest (`σ = -1`) eigenvalue `μ top`.  Then the refinement of `_eignewt` ends between that eigenvalue and the start,
with at most `1 - 1/m` times the initial error. -/
theorem C56_newton_monotone (b : Nat → ℝ) (len m : Nat) (μ : Fin m → ℝ)
    (hμ : (eignewtMatrix b m).charpoly = ∏ i, (X - C (μ i))) (σ : ℝ) (hσ : σ = 1 ∨ σ = -1) (top : Fin m)
    (htop : ∀ i, 0 ≤ σ * (μ top - μ i)) (start : ℝ) (hs : 0 ≤ σ * (start - μ top)) :
    0 ≤ σ * (newtonRefine (fun z => eigpoly b len z (some m)) start - μ top) ∧
    σ * (newtonRefine (fun z => eigpoly b len z (some m)) start - μ top) ≤ (1 - 1 / m) * (σ * (start - μ top)) := by
  have hσ2 : σ * σ = 1 := by rcases hσ with rfl | rfl <;> norm_num
  have hσ0 : σ ≠ 0 := by rcases hσ with rfl | rfl <;> norm_num
  have hm : 1 ≤ m := top.pos
  have hmr : (1 : ℝ) ≤ m := by exact_mod_cast hm
  have hc : 0 ≤ 1 - 1 / (m : ℝ) := by
    rw [sub_nonneg, div_le_one (by linarith)]
    exact hmr
  set f := cont (fun i => b i ^ 2) m with hfdef
  have hf : f = ∏ i, (X - C (μ i)) := by rw [hfdef, ← charpoly_eignewtMatrix, hμ]
  have hp : (fun z => eigpoly b len z (some m)) = fun z => (f.eval z, f.derivative.eval z) := by
    funext z
    exact eigpoly_eq b len z m hm
  rw [hp, newtonRefine]
  obtain ⟨l1, l2⟩ := newtonLoop_between m μ f hf σ hσ2 top htop 1000 start hs
  set y := newtonLoop (fun z => (f.eval z, f.derivative.eval z)) 1000 start
  simp only
  rcases l1.lt_or_eq with hlt | heq
  · obtain ⟨h1, h2, h3⟩ := newton_step m μ f hf σ hσ2 top htop y hlt
    rw [if_pos h1]
    exact ⟨h2, h3.trans (mul_le_mul_of_nonneg_left l2 hc)⟩
  · have hy : y = μ top := by
      have := (mul_eq_zero.1 heq.symm).resolve_left hσ0
      linarith
    have hroot : f.eval y = 0 := by
      rw [hf, eval_prod, hy]
      exact prod_eq_zero (mem_univ top) (by simp)
    have he : (if f.derivative.eval y ≠ 0 then y - f.eval y / f.derivative.eval y else y) = y := by
      rw [hroot]
      simp
    rw [he, ← heq]
    exact ⟨le_rfl, mul_nonneg hc hs⟩

/-- The `2 × 2` matrix with off-diagonal entry 1 has the eigenvalues `1` and `-1`; start at 3 above or at -2 below. -/
example : (eignewtMatrix (fun _ => 1) 2).charpoly = ∏ i, (X - C ((![1, -1] : Fin 2 → ℝ) i)) ∧
    (∀ i, 0 ≤ (1 : ℝ) * ((![1, -1] : Fin 2 → ℝ) 0 - (![1, -1] : Fin 2 → ℝ) i)) ∧ 0 ≤ (1 : ℝ) * (3 - (![1, -1] : Fin 2 → ℝ) 0) ∧
    (∀ i, 0 ≤ (-1 : ℝ) * ((![1, -1] : Fin 2 → ℝ) 1 - (![1, -1] : Fin 2 → ℝ) i)) ∧
    0 ≤ (-1 : ℝ) * (-2 - (![1, -1] : Fin 2 → ℝ) 1) := by
  refine ⟨?_, by intro i; fin_cases i <;> norm_num, by norm_num, by intro i; fin_cases i <;> norm_num, by norm_num⟩
  rw [charpoly_eignewtMatrix, cont_add_two]
  simp
  ring

end Modepy

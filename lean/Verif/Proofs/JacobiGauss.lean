import Verif.Proofs.GolubWelsch
import Verif.Proofs.JacobiPoly

/-!
# The Jacobi family satisfies the hypotheses of the Golub–Welsch construction
-/

namespace Modepy
open Spec Polynomial MeasureTheory

/-- Integration of polynomials against the Jacobi weight. -/
noncomputable def jacobiL {α β : ℝ} (hα : -1 < α) (hβ : -1 < β) : ℝ[X] →ₗ[ℝ] ℝ where
  toFun f := ∫ t in (-1 : ℝ)..1, jacobiWeight α β t * f.eval t
  map_add' f g := by
    rw [← intervalIntegral.integral_add (weight_mul_integrable hα hβ f.continuous)
      (weight_mul_integrable hα hβ g.continuous)]
    simp only [eval_add, mul_add]
  map_smul' r f := by
    simp only [RingHom.id_apply, smul_eq_mul]
    rw [← intervalIntegral.integral_const_mul]
    simp only [eval_smul, smul_eq_mul]
    congr 1; funext t; ring

theorem jacobiL_apply {α β : ℝ} (hα : -1 < α) (hβ : -1 < β) (f : ℝ[X]) :
    jacobiL hα hβ f = ∫ t in (-1 : ℝ)..1, jacobiWeight α β t * f.eval t := rfl

theorem jacobiANew_pos {α β : ℝ} (hα : -1 < α) (hβ : -1 < β) (n : Nat) : 0 < jacobiANew α β (n + 1) := by
  have hn : (0 : ℝ) ≤ n := Nat.cast_nonneg n
  rw [jacobiANew]
  push_cast
  have h1 : 0 < 2 * ((n : ℝ) + 1) + α + β := by linarith
  have h2 : 0 < (n : ℝ) + 1 + 1 + α := by linarith
  have h3 : 0 < (n : ℝ) + 1 + 1 + β := by linarith
  have h4 : 0 < (n : ℝ) + 1 + 1 + α + β := by linarith
  have : 0 < (2 * ((n : ℝ) + 1) + α + β + 1) := by linarith
  have : 0 < (2 * ((n : ℝ) + 1) + α + β + 3) := by linarith
  have : 0 < (2 * ((n : ℝ) + 1) + α + β + 2) := by linarith
  have := Real.sqrt_pos.2 (show 0 < (((n : ℝ) + 1 + 1) * (n + 1 + 1 + α + β) * (n + 1 + 1 + α) *
    (n + 1 + 1 + β) / (2 * ((n : ℝ) + 1) + α + β + 1) / (2 * ((n : ℝ) + 1) + α + β + 3)) by positivity)
  positivity

theorem gaussA_add_two (α β : ℝ) (n : Nat) : gaussA α β (n + 2) = jacobiANew α β (n + 1) := by
  rw [gaussA, jacobiANew]
  push_cast
  have e1 : 2 * ((n : ℝ) + 2) + (α + β) = 2 * (n + 1) + α + β + 2 := by ring
  have e2 : 2 * ((n : ℝ) + 1) + α + β + 2 - 1 = 2 * (n + 1) + α + β + 1 := by ring
  have e3 : 2 * ((n : ℝ) + 1) + α + β + 2 + 1 = 2 * (n + 1) + α + β + 3 := by ring
  rw [e1, e2, e3, div_div]
  congr 3
  ring

theorem gaussA_one {α β : ℝ} (h : α + β + 1 ≠ 0) :
    gaussA α β 1 = 2 / (2 + α + β) * Real.sqrt ((α + 1) * (β + 1) / (α + β + 3)) := by
  rw [gaussA]
  push_cast
  have e1 : 2 * (1 : ℝ) + (α + β) = 2 + α + β := by ring
  rw [e1]
  congr 2
  have e2 : 2 + α + β - 1 = α + β + 1 := by ring
  have e3 : 2 + α + β + 1 = α + β + 3 := by ring
  have e4 : (1 : ℝ) * (1 + (α + β)) * (1 + α) * (1 + β) = (α + β + 1) * ((α + 1) * (β + 1)) := by ring
  rw [e2, e3, e4, mul_div_mul_left _ _ h]

theorem gaussA_eq_aOld {α β : ℝ} (h : α + β + 1 ≠ 0) (n : Nat) :
    gaussA α β (n + 1) = jacobiAOld α β (n + 1) := by
  cases n with
  | zero => rw [zero_add, gaussA_one h, jacobiAOld, if_pos rfl]
  | succ n => rw [gaussA_add_two, jacobiAOld, if_neg (by omega)]; rfl

theorem gaussB_succ (α β : ℝ) (n : Nat) : gaussB α β (n + 1) = jacobiBNew α β (n + 1) := by
  rw [gaussB, if_neg (by omega), jacobiBNew]
  push_cast
  have e1 : 2 * ((n : ℝ) + 1) + (α + β) = 2 * (n + 1) + α + β := by ring
  rw [e1]
  congr 1
  ring

theorem gaussA_pos {α β : ℝ} (hα : -1 < α) (hβ : -1 < β) (h : α + β + 1 ≠ 0) (n : Nat) :
    0 < gaussA α β (n + 1) := by
  cases n with
  | zero =>
    have a1 : 0 < α + 1 := by linarith
    have b1 : 0 < β + 1 := by linarith
    have s3 : 0 < α + β + 3 := by linarith
    have s2 : 0 < 2 + α + β := by linarith
    rw [zero_add, gaussA_one h]
    have := Real.sqrt_pos.2 (show 0 < (α + 1) * (β + 1) / (α + β + 3) by positivity)
    positivity
  | succ n => rw [gaussA_add_two]; exact jacobiANew_pos hα hβ n

/-- `gaussT` is the tridiagonal matrix of the recurrence. -/
theorem gaussT_eq (α β : ℝ) (N : Nat) : gaussT α β N = tridiag (gaussA α β) (gaussB α β) N := rfl

theorem jacobi_family {α β : ℝ} (h : JacobiParams α β) (hne : α + β + 1 ≠ 0) :
    OrthFamily (jacobiL h.1 h.2.1) (jpoly α β) (gaussA α β) (gaussB α β)
      (1 / Real.sqrt (jacNorm α β 0)) := by
  obtain ⟨hα, hβ, -⟩ := id h
  have hN := jacNorm_pos hα hβ 0
  have hs := Real.sqrt_pos.2 hN
  have a1 : 0 < α + 1 := by linarith
  have b1 : 0 < β + 1 := by linarith
  have s3 : 0 < α + β + 3 := by linarith
  refine ⟨by positivity, fun n => (gaussA_pos hα hβ hne n).ne', ?_, ?_, ?_, ?_⟩
  · rw [jpoly, JP_zero]; simp
  · apply Polynomial.funext
    intro x
    simp only [eval_mul, eval_X, eval_add, eval_C, eval_jpoly h]
    rw [gaussA_one hne, gaussB, if_pos rfl, jacobi_eq h, jacobi_eq h, jacobiP_zero, jacobiP_one, jacNorm_one,
      Real.sqrt_mul hN.le]
    have hq := Real.sqrt_pos.2 (show 0 < (α + 1) * (β + 1) / (α + β + 3) by positivity)
    set q := Real.sqrt ((α + 1) * (β + 1) / (α + β + 3))
    have s2 : α + β + 2 ≠ 0 := by linarith
    have e2 : 2 + α + β = α + β + 2 := by ring
    rw [e2]
    field_simp
    ring
  · intro n
    apply Polynomial.funext
    intro x
    simp only [eval_mul, eval_X, eval_add, eval_C, eval_jpoly h]
    rw [gaussA_add_two, gaussB_succ, gaussA_eq_aOld hne, jacobi]
    have := (jacobiANew_pos hα hβ n).ne'
    simp only [Duck.cse, Duck.lit, id]
    field_simp
    ring
  · intro m n
    rw [jacobiL_apply, ← C18_orthonormal α β h m n]
    apply intervalIntegral.integral_congr
    intro x _
    simp only [eval_mul, eval_jpoly h, jacobiWeight]
    ring

/-- The integral of the square of a nonzero polynomial against a Jacobi weight is positive. -/
theorem jacobiL_sq_pos {α β : ℝ} (hα : -1 < α) (hβ : -1 < β) (q g : ℝ[X]) (hg : g ≠ 0)
    (hq : ∀ t, -1 < t → t < 1 → 0 < q.eval t) : 0 < jacobiL hα hβ (q * (g * g)) := by
  rw [jacobiL_apply, intervalIntegral.integral_of_le (by norm_num)]
  have hint := weight_mul_integrable hα hβ (q * (g * g)).continuous
  rw [intervalIntegrable_iff_integrableOn_Ioc_of_le (by norm_num)] at hint
  have hint' := hint.mono_set Set.Ioo_subset_Ioc_self
  rw [integral_Ioc_eq_integral_Ioo]
  rw [setIntegral_pos_iff_support_of_nonneg_ae _ hint']
  · have hsub : Set.Ioo (-1 : ℝ) 1 \ (g.roots.toFinset : Set ℝ) ⊆
        (Function.support fun t => jacobiWeight α β t * (q * (g * g)).eval t) ∩ Set.Ioo (-1) 1 := by
      intro t ht
      refine ⟨?_, ht.1⟩
      have hgt : g.eval t ≠ 0 := by
        intro h0
        apply ht.2
        simp [hg, h0]
      have h1 := hq t ht.1.1 ht.1.2
      have h2 : 0 < (1 - t) ^ α := Real.rpow_pos_of_pos (by linarith [ht.1.2]) _
      have h3 : 0 < (1 + t) ^ β := Real.rpow_pos_of_pos (by linarith [ht.1.1]) _
      rw [Function.mem_support, jacobiWeight, eval_mul, eval_mul]
      positivity
    refine lt_of_lt_of_le ?_ (measure_mono hsub)
    rw [measure_diff_null (Set.Finite.measure_zero (Finset.finite_toSet _) _), Real.volume_Ioo]
    norm_num
  · filter_upwards [ae_restrict_mem measurableSet_Ioo] with t ht
    have h1 := hq t ht.1 ht.2
    have h2 : 0 < (1 - t) ^ α := Real.rpow_pos_of_pos (by linarith [ht.2]) _
    have h3 : 0 < (1 + t) ^ β := Real.rpow_pos_of_pos (by linarith [ht.1]) _
    simp only [Pi.zero_apply, jacobiWeight, eval_mul]
    have := mul_self_nonneg (g.eval t)
    positivity

end Modepy

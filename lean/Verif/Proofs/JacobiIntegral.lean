import Verif.Proofs.JacobiModel
import Mathlib.Analysis.SpecialFunctions.Gamma.Beta
import Mathlib.Analysis.SpecialFunctions.Integrals.Basic
import Mathlib.Analysis.SpecialFunctions.Pow.Deriv

/-!
# Integrals against the Jacobi weight
-/

namespace Modepy
open Spec MeasureTheory intervalIntegral

theorem real_beta {u v : ℝ} (hu : 0 < u) (hv : 0 < v) :
    ∫ x in (0 : ℝ)..1, x ^ (u - 1) * (1 - x) ^ (v - 1) =
      Real.Gamma u * Real.Gamma v / Real.Gamma (u + v) := by
  have h := Complex.Gamma_mul_Gamma_eq_betaIntegral (s := u) (t := v) (by simpa) (by simpa)
  have hG := (Real.Gamma_pos_of_pos (add_pos hu hv)).ne'
  rw [eq_div_iff hG]
  have hb : Complex.betaIntegral u v =
      ((∫ x in (0 : ℝ)..1, x ^ (u - 1) * (1 - x) ^ (v - 1) : ℝ) : ℂ) := by
    rw [Complex.betaIntegral, ← intervalIntegral.integral_ofReal]
    apply intervalIntegral.integral_congr
    intro x hx
    rw [Set.uIcc_of_le (by norm_num)] at hx
    simp only
    rw [Complex.ofReal_mul, Complex.ofReal_cpow hx.1, Complex.ofReal_cpow (by linarith [hx.2])]
    push_cast
    rfl
  rw [hb, ← Complex.ofReal_add, Complex.Gamma_ofReal, Complex.Gamma_ofReal, Complex.Gamma_ofReal] at h
  have h' : Real.Gamma u * Real.Gamma v = Real.Gamma (u + v) *
      ∫ x in (0 : ℝ)..1, x ^ (u - 1) * (1 - x) ^ (v - 1) := by
    exact_mod_cast h
  rw [h']
  ring

theorem jacobiWeight_integrable {α β : ℝ} (hα : -1 < α) (hβ : -1 < β) :
    IntervalIntegrable (jacobiWeight α β) volume (-1) 1 := by
  have h1 : IntervalIntegrable (jacobiWeight α β) volume (-1) 0 := by
    have h := (intervalIntegral.intervalIntegrable_rpow' hβ (a := 0) (b := 1)).comp_add_right 1
    norm_num at h
    have hc : ContinuousOn (fun x : ℝ => (1 - x) ^ α) (Set.uIcc (-1) 0) := by
      apply ContinuousOn.rpow_const (by fun_prop)
      intro x hx
      rw [Set.uIcc_of_le (by norm_num)] at hx
      exact .inl (by linarith [hx.2])
    have := h.continuousOn_mul hc
    refine this.congr ?_
    intro x _
    simp [jacobiWeight, add_comm]
  have h2 : IntervalIntegrable (jacobiWeight α β) volume 0 1 := by
    have h := (intervalIntegral.intervalIntegrable_rpow' hα (a := 0) (b := 1)).comp_sub_left 1
    norm_num at h
    have hc : ContinuousOn (fun x : ℝ => (1 + x) ^ β) (Set.uIcc 0 1) := by
      apply ContinuousOn.rpow_const (by fun_prop)
      intro x hx
      rw [Set.uIcc_of_le (by norm_num)] at hx
      exact .inl (by linarith [hx.1])
    have := h.symm.mul_continuousOn hc
    refine this.congr ?_
    intro x _
    simp [jacobiWeight]
  exact h1.trans h2

theorem integral_jacobiWeight {α β : ℝ} (hα : -1 < α) (hβ : -1 < β) :
    ∫ x in (-1 : ℝ)..1, jacobiWeight α β x = jacNorm α β 0 := by
  have hsub := intervalIntegral.integral_comp_mul_add (a := (0 : ℝ)) (b := 1)
    (jacobiWeight α β) (c := 2) (by norm_num) (-1)
  rw [show (2 : ℝ) * 0 + -1 = -1 by norm_num, show (2 : ℝ) * 1 + -1 = 1 by norm_num,
    smul_eq_mul] at hsub
  have hb := real_beta (u := β + 1) (v := α + 1) (by linarith) (by linarith)
  have hcongr : ∫ x in (0 : ℝ)..1, jacobiWeight α β (2 * x + -1) =
      ∫ x in (0 : ℝ)..1, (2 : ℝ) ^ (α + β) * (x ^ (β + 1 - 1) * (1 - x) ^ (α + 1 - 1)) := by
    apply intervalIntegral.integral_congr
    intro x hx
    rw [Set.uIcc_of_le (by norm_num)] at hx
    simp only [jacobiWeight]
    rw [show 1 - (2 * x + -1) = 2 * (1 - x) by ring, show 1 + (2 * x + -1) = 2 * x by ring,
      Real.mul_rpow (by norm_num) (by linarith [hx.2]), Real.mul_rpow (by norm_num) hx.1,
      Real.rpow_add (by norm_num)]
    simp only [add_sub_cancel_right]
    ring
  rw [hcongr, intervalIntegral.integral_const_mul, hb] at hsub
  rw [jacNorm, Real.rpow_add (by norm_num), Real.rpow_one]
  have : ∫ x in (-1 : ℝ)..1, jacobiWeight α β x =
      2 * (2 ^ (α + β) * (Real.Gamma (β + 1) * Real.Gamma (α + 1) / Real.Gamma (β + 1 + (α + 1)))) := by
    linarith
  rw [this, show β + 1 + (α + 1) = α + β + 2 by ring]
  ring

/-- `((1-x²) w)' = (β - α - (α+β+2) x) w` on the open interval. -/
theorem hasDerivAt_weight_succ (α β x : ℝ) (h1 : -1 < x) (h2 : x < 1) :
    HasDerivAt (jacobiWeight (α + 1) (β + 1))
      ((β - α - (α + β + 2) * x) * jacobiWeight α β x) x := by
  have hm : 0 < 1 - x := by linarith
  have hp : 0 < 1 + x := by linarith
  have d1 : HasDerivAt (fun x : ℝ => (1 - x) ^ (α + 1)) (-1 * (α + 1) * (1 - x) ^ (α + 1 - 1)) x :=
    ((hasDerivAt_id x).const_sub 1).rpow_const (.inl hm.ne')
  have d2 : HasDerivAt (fun x : ℝ => (1 + x) ^ (β + 1)) (1 * (β + 1) * (1 + x) ^ (β + 1 - 1)) x :=
    ((hasDerivAt_id x).const_add 1).rpow_const (.inl hp.ne')
  have e : (β - α - (α + β + 2) * x) * jacobiWeight α β x =
      -1 * (α + 1) * (1 - x) ^ (α + 1 - 1) * (1 + x) ^ (β + 1) +
        (1 - x) ^ (α + 1) * (1 * (β + 1) * (1 + x) ^ (β + 1 - 1)) := by
    simp only [jacobiWeight, add_sub_cancel_right]
    rw [Real.rpow_add hm, Real.rpow_add hp, Real.rpow_one, Real.rpow_one]
    ring
  rw [e]
  exact d1.mul d2

theorem jacobiWeight_succ (α β x : ℝ) (h1 : -1 < x) (h2 : x < 1) :
    jacobiWeight (α + 1) (β + 1) x = (1 - x ^ 2) * jacobiWeight α β x := by
  have hm : 0 < 1 - x := by linarith
  have hp : 0 < 1 + x := by linarith
  simp only [jacobiWeight]
  rw [Real.rpow_add hm, Real.rpow_add hp, Real.rpow_one, Real.rpow_one]
  ring

theorem jacobiWeight_succ_Icc {α β : ℝ} (hα : -1 < α) (hβ : -1 < β) (x : ℝ) (h1 : -1 ≤ x)
    (h2 : x ≤ 1) : jacobiWeight (α + 1) (β + 1) x = (1 - x ^ 2) * jacobiWeight α β x := by
  rcases h1.eq_or_lt with rfl | h1
  · simp only [jacobiWeight]
    rw [show (1 : ℝ) + -1 = 0 by norm_num, Real.zero_rpow (by linarith : β + 1 ≠ 0)]
    norm_num
  rcases h2.eq_or_lt with rfl | h2
  · simp only [jacobiWeight]
    rw [sub_self, Real.zero_rpow (by linarith : α + 1 ≠ 0)]
    norm_num
  exact jacobiWeight_succ α β x h1 h2

theorem jacobiWeight_succ_continuousOn {α β : ℝ} (hα : -1 < α) (hβ : -1 < β) :
    ContinuousOn (jacobiWeight (α + 1) (β + 1)) (Set.Icc (-1) 1) := by
  apply ContinuousOn.mul
  · exact ContinuousOn.rpow_const (by fun_prop) fun x _ => .inr (by linarith)
  · exact ContinuousOn.rpow_const (by fun_prop) fun x _ => .inr (by linarith)

theorem weight_mul_integrable {α β : ℝ} (hα : -1 < α) (hβ : -1 < β) {f : ℝ → ℝ}
    (hf : Continuous f) : IntervalIntegrable (fun x => jacobiWeight α β x * f x) volume (-1) 1 :=
  (jacobiWeight_integrable hα hβ).mul_continuousOn hf.continuousOn

/-- Integration by parts against the Jacobi weight, for any `C¹` function `f`. -/
theorem jacobi_parts {α β : ℝ} (hα : -1 < α) (hβ : -1 < β) (n : Nat) (f f' : ℝ → ℝ)
    (hf : ∀ x, HasDerivAt f (f' x) x) (hf' : Continuous f') :
    ∫ x in (-1 : ℝ)..1, jacobiWeight (α + 1) (β + 1) x * (f' x * dJacobiP α β n x) =
      n * (n + α + β + 1) * ∫ x in (-1 : ℝ)..1, jacobiWeight α β x * (f x * jacobiP α β n x) := by
  have hfc : Continuous f := continuous_iff_continuousAt.2 fun x => (hf x).continuousAt
  have hdc : Continuous (dJacobiP α β n) :=
    continuous_iff_continuousAt.2 fun x => (hasDerivAt_dJacobiP α β n x).continuousAt
  have hpc := jacobiP_continuous α β n
  let G : ℝ → ℝ := fun x => jacobiWeight (α + 1) (β + 1) x * (f x * dJacobiP α β n x)
  let g : ℝ → ℝ := fun x => jacobiWeight α β x * ((1 - x ^ 2) * (f' x * dJacobiP α β n x) -
    n * (n + α + β + 1) * (f x * jacobiP α β n x))
  have hderiv : ∀ x ∈ Set.Ioo (-1 : ℝ) 1, HasDerivAt G (g x) x := by
    intro x hx
    have d := (hasDerivAt_weight_succ α β x hx.1 hx.2).mul
      ((hf x).mul (hasDerivAt_dJacobiP α β n x))
    have e : g x = (β - α - (α + β + 2) * x) * jacobiWeight α β x * (f x * dJacobiP α β n x) +
        jacobiWeight (α + 1) (β + 1) x *
          (f' x * dJacobiP α β n x + f x * ddJacobiP α β n x) := by
      simp only [g]
      rw [jacobiWeight_succ α β x hx.1 hx.2]
      have := jacobiP_ode α β n x
      linear_combination (-jacobiWeight α β x * f x) * this
    rw [e]
    exact d
  have hcont : ContinuousOn G (Set.Icc (-1) 1) :=
    (jacobiWeight_succ_continuousOn hα hβ).mul (hfc.mul hdc).continuousOn
  have hint : IntervalIntegrable g volume (-1) 1 :=
    weight_mul_integrable hα hβ (by fun_prop)
  have hftc := intervalIntegral.integral_eq_sub_of_hasDerivAt_of_le (by norm_num) hcont hderiv hint
  have hG1 : G 1 = 0 := by
    simp only [G, jacobiWeight]
    rw [sub_self, Real.zero_rpow (by linarith)]; ring
  have hGm1 : G (-1) = 0 := by
    simp only [G, jacobiWeight]
    rw [show (1 : ℝ) + -1 = 0 by norm_num, Real.zero_rpow (by linarith)]; ring
  rw [hG1, hGm1, sub_zero] at hftc
  have hsplit : ∫ x in (-1 : ℝ)..1, g x =
      (∫ x in (-1 : ℝ)..1, jacobiWeight α β x * ((1 - x ^ 2) * (f' x * dJacobiP α β n x))) -
      n * (n + α + β + 1) * ∫ x in (-1 : ℝ)..1, jacobiWeight α β x * (f x * jacobiP α β n x) := by
    rw [← intervalIntegral.integral_const_mul, ← intervalIntegral.integral_sub]
    · apply intervalIntegral.integral_congr
      intro x _
      simp only [g]
      ring
    · exact weight_mul_integrable hα hβ (by fun_prop)
    · exact (weight_mul_integrable hα hβ (by fun_prop)).const_mul _
  have hw : ∫ x in (-1 : ℝ)..1, jacobiWeight (α + 1) (β + 1) x * (f' x * dJacobiP α β n x) =
      ∫ x in (-1 : ℝ)..1, jacobiWeight α β x * ((1 - x ^ 2) * (f' x * dJacobiP α β n x)) := by
    apply intervalIntegral.integral_congr
    intro x hx
    rw [Set.uIcc_of_le (by norm_num)] at hx
    simp only
    rw [jacobiWeight_succ_Icc hα hβ x hx.1 hx.2]
    ring
  rw [hw]
  linarith

end Modepy

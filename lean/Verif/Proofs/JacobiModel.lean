import Verif.Model.Jacobi
import Verif.Proofs.JacobiClassical

/-!
# `jacobi` is the classical Jacobi polynomial divided by its norm
-/

namespace Modepy
open Spec

/-- Parameters for which `gamma0` is the exact total mass: the special case `|α+β+1| < 1e-14` of the
code is exact only at `α+β+1 = 0`. -/
def Spec.JacobiParams (α β : ℝ) : Prop :=
  -1 < α ∧ -1 < β ∧ (1e-14 ≤ |α + β + 1| ∨ α + β + 1 = 0)

/-- The squared norm of `P_n`. -/
noncomputable def jacNorm (α β : ℝ) : Nat → ℝ
  | 0 => (2 : ℝ) ^ (α + β + 1) * Real.Gamma (α + 1) * Real.Gamma (β + 1) / Real.Gamma (α + β + 2)
  | 1 => jacNorm α β 0 * ((α + 1) * (β + 1) / (α + β + 3))
  | n + 2 => jacNorm α β (n + 1) *
      ((2 * n + α + β + 3) * (n + α + 2) * (n + β + 2) /
        ((2 * n + α + β + 5) * (n + 2) * (n + α + β + 2)))

theorem jacNorm_one (α β : ℝ) :
    jacNorm α β 1 = jacNorm α β 0 * ((α + 1) * (β + 1) / (α + β + 3)) := rfl

theorem jacNorm_pos {α β : ℝ} (hα : -1 < α) (hβ : -1 < β) (n : Nat) : 0 < jacNorm α β n := by
  have a1 : 0 < α + 1 := by linarith
  have b1 : 0 < β + 1 := by linarith
  have s2 : 0 < α + β + 2 := by linarith
  have h0 : 0 < jacNorm α β 0 := by
    have := Real.Gamma_pos_of_pos a1
    have := Real.Gamma_pos_of_pos b1
    have := Real.Gamma_pos_of_pos s2
    have : (0 : ℝ) < 2 ^ (α + β + 1) := Real.rpow_pos_of_pos (by norm_num) _
    rw [jacNorm]; positivity
  induction n using Nat.strong_induction_on with
  | _ n ih =>
    match n, ih with
    | 0, _ => exact h0
    | 1, _ =>
      have : 0 < α + β + 3 := by linarith
      rw [jacNorm]; positivity
    | n + 2, ih =>
      have := ih (n + 1) (by omega)
      have hn : (0 : ℝ) ≤ n := Nat.cast_nonneg n
      have : 0 < 2 * (n : ℝ) + α + β + 3 := by linarith
      have : 0 < 2 * (n : ℝ) + α + β + 5 := by linarith
      have : 0 < (n : ℝ) + α + 2 := by linarith
      have : 0 < (n : ℝ) + β + 2 := by linarith
      have : 0 < (n : ℝ) + α + β + 2 := by linarith
      rw [jacNorm]; positivity

theorem gamma0_eq {α β : ℝ} (h : JacobiParams α β) : jacobiGamma0 α β = jacNorm α β 0 := by
  obtain ⟨hα, hβ, ht⟩ := h
  rw [jacobiGamma0, jacNorm]
  rcases ht with ht | ht
  · rw [if_neg (by linarith)]
    have hne : α + β + 1 ≠ 0 := by
      intro h0; rw [h0] at ht; norm_num at ht
    rw [show α + β + 2 = α + β + 1 + 1 by ring, Real.Gamma_add_one hne]
    have hG : Real.Gamma (α + β + 1) ≠ 0 := by
      have := Real.Gamma_pos_of_pos (show 0 < α + β + 1 + 1 by linarith)
      rw [Real.Gamma_add_one hne] at this
      intro h0; rw [h0] at this; simp at this
    field_simp
  · rw [if_pos (by rw [ht]; norm_num), show α + β + 2 = α + β + 1 + 1 by ring, ht]
    simp [Real.Gamma_one]

theorem gamma1_eq {α β : ℝ} (h : JacobiParams α β) : jacobiGamma1 α β = jacNorm α β 1 := by
  rw [jacobiGamma1, gamma0_eq h, jacNorm_one]; ring

theorem anew_norm {α β : ℝ} (hα : -1 < α) (hβ : -1 < β) (n : Nat) :
    jacobiANew α β (n + 1) * Real.sqrt (jacNorm α β (n + 1)) =
      2 * (n + 2) * (n + α + β + 2) / ((2 * n + α + β + 3) * (2 * n + α + β + 4)) *
        Real.sqrt (jacNorm α β (n + 2)) := by
  have hn : (0 : ℝ) ≤ n := Nat.cast_nonneg n
  have h3 : 0 < 2 * (n : ℝ) + α + β + 3 := by linarith
  have h4 : 0 < 2 * (n : ℝ) + α + β + 4 := by linarith
  have h5 : 0 < 2 * (n : ℝ) + α + β + 5 := by linarith
  have ha : 0 < (n : ℝ) + α + 2 := by linarith
  have hb : 0 < (n : ℝ) + β + 2 := by linarith
  have hs : 0 < (n : ℝ) + α + β + 2 := by linarith
  have hN := jacNorm_pos hα hβ (n + 1)
  set r := (2 * (n : ℝ) + α + β + 3) * (n + α + 2) * (n + β + 2) /
        ((2 * n + α + β + 5) * (n + 2) * (n + α + β + 2)) with hr
  have hr0 : 0 < r := by positivity
  have e1 : jacNorm α β (n + 2) = jacNorm α β (n + 1) * r := rfl
  rw [e1, Real.sqrt_mul hN.le]
  unfold jacobiANew
  simp only
  have e2 : (((n + 1 : Nat) : ℝ) + 1) * ((n + 1 : Nat) + 1 + α + β) * ((n + 1 : Nat) + 1 + α) *
      ((n + 1 : Nat) + 1 + β) / (2 * ((n + 1 : Nat) : ℝ) + α + β + 1) /
      (2 * ((n + 1 : Nat) : ℝ) + α + β + 3) =
      r * ((n + 2) * (n + α + β + 2) / (2 * n + α + β + 3)) ^ 2 := by
    rw [hr]
    push_cast
    have e3 : 2 * ((n : ℝ) + 1) + α + β + 1 = 2 * n + α + β + 3 := by ring
    have e4 : 2 * ((n : ℝ) + 1) + α + β + 3 = 2 * n + α + β + 5 := by ring
    rw [e3, e4]
    field_simp
    ring
  rw [e2, Real.sqrt_mul hr0.le, Real.sqrt_sq (by positivity)]
  push_cast
  have e5 : 2 * ((n : ℝ) + 1) + α + β + 2 = 2 * n + α + β + 4 := by ring
  rw [e5]
  field_simp

theorem aold_norm {α β : ℝ} (hα : -1 < α) (hβ : -1 < β) (n : Nat) :
    jacobiAOld α β (n + 1) * Real.sqrt (jacNorm α β (n + 1)) =
      2 * (n + 1 + α) * (n + 1 + β) / ((2 * n + α + β + 2) * (2 * n + α + β + 3)) *
        Real.sqrt (jacNorm α β n) := by
  have a1 : 0 < α + 1 := by linarith
  have b1 : 0 < β + 1 := by linarith
  have s2 : 0 < α + β + 2 := by linarith
  have s3 : 0 < α + β + 3 := by linarith
  cases n with
  | zero =>
    have hN := jacNorm_pos hα hβ 0
    have hr0 : 0 < (α + 1) * (β + 1) / (α + β + 3) := by positivity
    have e1 : jacNorm α β 1 = jacNorm α β 0 * ((α + 1) * (β + 1) / (α + β + 3)) := jacNorm_one α β
    rw [jacobiAOld, if_pos rfl, e1, Real.sqrt_mul hN.le]
    have hsq := Real.mul_self_sqrt hr0.le
    set q := Real.sqrt ((α + 1) * (β + 1) / (α + β + 3))
    have : 2 / (2 + α + β) * q * (Real.sqrt (jacNorm α β 0) * q) =
        2 / (2 + α + β) * (q * q) * Real.sqrt (jacNorm α β 0) := by ring
    rw [this, hsq]
    have e2 : (2 + α + β) = α + β + 2 := by ring
    rw [e2]
    push_cast
    have e3 : 2 * (0 : ℝ) + α + β + 2 = α + β + 2 := by ring
    have e4 : 2 * (0 : ℝ) + α + β + 3 = α + β + 3 := by ring
    rw [e3, e4]
    field_simp
    ring
  | succ n =>
    have hn : (0 : ℝ) ≤ n := Nat.cast_nonneg n
    have h := anew_norm hα hβ n
    have hN := jacNorm_pos hα hβ (n + 1)
    have h3 : 0 < 2 * (n : ℝ) + α + β + 3 := by linarith
    have h4 : 0 < 2 * (n : ℝ) + α + β + 4 := by linarith
    have h5 : 0 < 2 * (n : ℝ) + α + β + 5 := by linarith
    have ha : 0 < (n : ℝ) + α + 2 := by linarith
    have hb : 0 < (n : ℝ) + β + 2 := by linarith
    have hs : 0 < (n : ℝ) + α + β + 2 := by linarith
    set r := (2 * (n : ℝ) + α + β + 3) * (n + α + 2) * (n + β + 2) /
        ((2 * n + α + β + 5) * (n + 2) * (n + α + β + 2)) with hr
    have hr0 : 0 < r := by positivity
    have e1 : jacNorm α β (n + 2) = jacNorm α β (n + 1) * r := rfl
    have hq : Real.sqrt (jacNorm α β (n + 2)) = Real.sqrt (jacNorm α β (n + 1)) * Real.sqrt r := by
      rw [e1, Real.sqrt_mul hN.le]
    have hsN : 0 < Real.sqrt (jacNorm α β (n + 1)) := Real.sqrt_pos.2 hN
    have hA : jacobiANew α β (n + 1) =
        2 * (n + 2) * (n + α + β + 2) / ((2 * n + α + β + 3) * (2 * n + α + β + 4)) * Real.sqrt r := by
      apply mul_right_cancel₀ hsN.ne'
      rw [h, hq]; ring
    have e6 : jacobiAOld α β (n + 1 + 1) = jacobiANew α β (n + 1) := by simp [jacobiAOld]
    rw [e6, hA, show n + 1 + 1 = n + 2 from rfl, hq]
    have hsq := Real.mul_self_sqrt hr0.le
    set q := Real.sqrt r
    have : ∀ c N : ℝ, c * q * (N * q) = c * (q * q) * N := by intro c N; ring
    rw [this, hsq, hr]
    push_cast
    have e3 : 2 * ((n : ℝ) + 1) + α + β + 2 = 2 * n + α + β + 4 := by ring
    have e4 : 2 * ((n : ℝ) + 1) + α + β + 3 = 2 * n + α + β + 5 := by ring
    rw [e3, e4]
    field_simp
    ring

/-- `jacobi` is the classical polynomial, normalised. -/
theorem jacobi_eq {α β : ℝ} (h : JacobiParams α β) (n : Nat) (x : ℝ) :
    jacobi α β n x = jacobiP α β n x / Real.sqrt (jacNorm α β n) := by
  obtain ⟨hα, hβ, -⟩ := id h
  induction n using Nat.strong_induction_on with
  | _ n ih =>
    match n, ih with
    | 0, _ =>
      rw [jacobi, gamma0_eq h, jacobiP_zero]
      simp [Duck.lit]
    | 1, _ =>
      rw [jacobi, gamma1_eq h, jacobiP_one]
      simp [Duck.lit, Duck.cse]
    | n + 2, ih =>
      rw [jacobi, ih n (by omega), ih (n + 1) (by omega)]
      simp only [Duck.lit, Duck.cse, id]
      have hn : (0 : ℝ) ≤ n := Nat.cast_nonneg n
      have h1 := Real.sqrt_pos.2 (jacNorm_pos hα hβ n)
      have h2 := Real.sqrt_pos.2 (jacNorm_pos hα hβ (n + 1))
      have h3 := Real.sqrt_pos.2 (jacNorm_pos hα hβ (n + 2))
      have k2 : 0 < 2 * (n : ℝ) + α + β + 2 := by linarith
      have k3 : 0 < 2 * (n : ℝ) + α + β + 3 := by linarith
      have k4 : 0 < 2 * (n : ℝ) + α + β + 4 := by linarith
      have ks : 0 < (n : ℝ) + α + β + 2 := by linarith
      have hA := anew_norm hα hβ n
      have hC := aold_norm hα hβ n
      have hrec := jacobiP_rec α β (by linarith) n x
      set N0 := Real.sqrt (jacNorm α β n)
      set N1 := Real.sqrt (jacNorm α β (n + 1))
      set N2 := Real.sqrt (jacNorm α β (n + 2))
      have hA' : jacobiANew α β (n + 1) =
          2 * (n + 2) * (n + α + β + 2) / ((2 * n + α + β + 3) * (2 * n + α + β + 4)) * N2 / N1 := by
        rw [eq_div_iff h2.ne', hA]
      have hC' : jacobiAOld α β (n + 1) =
          2 * (n + 1 + α) * (n + 1 + β) / ((2 * n + α + β + 2) * (2 * n + α + β + 3)) * N0 / N1 := by
        rw [eq_div_iff h2.ne', hC]
      have hB : jacobiBNew α β (n + 1) =
          (β ^ 2 - α ^ 2) / ((2 * n + α + β + 2) * (2 * n + α + β + 4)) := by
        unfold jacobiBNew
        push_cast
        congr 1 <;> ring
      rw [hA', hC', hB]
      field_simp
      linear_combination hrec

theorem JacobiParams.succ {α β : ℝ} (hα : -1 < α) (hβ : -1 < β) :
    JacobiParams (α + 1) (β + 1) := by
  refine ⟨by linarith, by linarith, .inl ?_⟩
  rw [abs_of_pos (by linarith)]
  norm_num
  linarith

theorem jacNorm_succ_params {α β : ℝ} (hα : -1 < α) (hβ : -1 < β) (n : Nat) :
    jacNorm (α + 1) (β + 1) n * (n + α + β + 2) = 4 * (n + 1) * jacNorm α β (n + 1) := by
  have a1 : 0 < α + 1 := by linarith
  have b1 : 0 < β + 1 := by linarith
  have s2 : 0 < α + β + 2 := by linarith
  have s3 : 0 < α + β + 3 := by linarith
  have h0 : jacNorm (α + 1) (β + 1) 0 * (α + β + 2) = 4 * jacNorm α β 1 := by
    rw [jacNorm, jacNorm, jacNorm, Real.Gamma_add_one a1.ne', Real.Gamma_add_one b1.ne',
      show α + 1 + (β + 1) + 1 = (α + β + 1) + 2 by ring, Real.rpow_add (by norm_num),
      show α + 1 + (β + 1) + 2 = α + β + 3 + 1 by ring, Real.Gamma_add_one s3.ne',
      show α + β + 3 = α + β + 2 + 1 by ring, Real.Gamma_add_one s2.ne']
    have := (Real.Gamma_pos_of_pos s2).ne'
    norm_num
    field_simp
  induction n using Nat.strong_induction_on with
  | _ n ih =>
    match n, ih with
    | 0, _ => simpa using h0
    | 1, _ =>
      have e1 : jacNorm (α + 1) (β + 1) 1 =
        jacNorm (α + 1) (β + 1) 0 * ((α + 1 + 1) * (β + 1 + 1) / (α + 1 + (β + 1) + 3)) := jacNorm_one _ _
      have e2 : jacNorm α β 2 = jacNorm α β 1 *
        ((2 * (0 : Nat) + α + β + 3) * ((0 : Nat) + α + 2) * ((0 : Nat) + β + 2) /
        ((2 * (0 : Nat) + α + β + 5) * ((0 : Nat) + 2) * ((0 : Nat) + α + β + 2))) := rfl
      rw [e1, e2]
      have e3 : jacNorm (α + 1) (β + 1) 0 = 4 * jacNorm α β 1 / (α + β + 2) := by
        rw [eq_div_iff s2.ne', h0]
      rw [e3]
      have s5 : 0 < α + β + 5 := by linarith
      have e4 : α + 1 + (β + 1) + 3 = α + β + 5 := by ring
      rw [e4]
      simp only [Nat.cast_zero, Nat.cast_one, mul_zero, zero_add]
      field_simp
      ring
    | n + 2, ih =>
      have hn : (0 : ℝ) ≤ n := Nat.cast_nonneg n
      have hi := ih (n + 1) (by omega)
      have e1 : jacNorm (α + 1) (β + 1) (n + 2) = jacNorm (α + 1) (β + 1) (n + 1) *
        ((2 * n + (α + 1) + (β + 1) + 3) * (n + (α + 1) + 2) * (n + (β + 1) + 2) /
        ((2 * n + (α + 1) + (β + 1) + 5) * (n + 2) * (n + (α + 1) + (β + 1) + 2))) := rfl
      have e2 : jacNorm α β (n + 2 + 1) = jacNorm α β (n + 2) *
        ((2 * (n + 1 : Nat) + α + β + 3) * ((n + 1 : Nat) + α + 2) * ((n + 1 : Nat) + β + 2) /
        ((2 * (n + 1 : Nat) + α + β + 5) * ((n + 1 : Nat) + 2) * ((n + 1 : Nat) + α + β + 2))) := rfl
      rw [e1, e2]
      push_cast at hi ⊢
      have k3 : 0 < (n : ℝ) + 1 + α + β + 2 := by linarith
      have k4 : 0 < (n : ℝ) + 2 + α + β + 2 := by linarith
      have k7 : 0 < 2 * (n : ℝ) + α + β + 7 := by linarith
      have e3 : jacNorm (α + 1) (β + 1) (n + 1) =
          4 * (n + 1 + 1) * jacNorm α β (n + 1 + 1) / (n + 1 + α + β + 2) := by
        rw [eq_div_iff k3.ne', hi]
      rw [e3]
      have e4 : 2 * (n : ℝ) + (α + 1) + (β + 1) + 5 = 2 * n + α + β + 7 := by ring
      have e5 : 2 * ((n : ℝ) + 1) + α + β + 5 = 2 * n + α + β + 7 := by ring
      have e6 : (n : ℝ) + (α + 1) + (β + 1) + 2 = n + 2 + α + β + 2 := by ring
      rw [e4, e5, e6]
      field_simp
      ring

end Modepy

import Verif.Proofs.JacobiIntegral

/-!
# Properties C18, C19, C20: Jacobi polynomials
-/

namespace Modepy
open Spec MeasureTheory intervalIntegral

theorem jacobiP_orthogonal (m n : Nat) : ∀ {α β : ℝ}, -1 < α → -1 < β →
    ∫ x in (-1 : ℝ)..1, jacobiWeight α β x * (jacobiP α β m x * jacobiP α β n x) =
      if m = n then jacNorm α β n else 0 := by
  have base : ∀ (n : Nat) {α β : ℝ}, -1 < α → -1 < β →
      ∫ x in (-1 : ℝ)..1, jacobiWeight α β x * (1 * jacobiP α β (n + 1) x) = 0 := by
    intro n α β hα hβ
    have h := jacobi_parts hα hβ (n + 1) (fun _ => 1) (fun _ => 0) (fun x => hasDerivAt_const x 1)
      continuous_const
    simp only [zero_mul, mul_zero, intervalIntegral.integral_zero] at h
    have hn : (0 : ℝ) ≤ n := Nat.cast_nonneg n
    push_cast at h
    have h1 : (0 : ℝ) < n + 1 := by linarith
    have h2 : (0 : ℝ) < n + 1 + α + β + 1 := by linarith
    rcases mul_eq_zero.1 h.symm with h | h
    · rcases mul_eq_zero.1 h with h | h <;> linarith
    · exact h
  induction m generalizing n with
  | zero =>
    intro α β hα hβ
    cases n with
    | zero =>
      simp only [jacobiP_zero, mul_one, if_true]
      exact integral_jacobiWeight hα hβ
    | succ n =>
      simp only [jacobiP_zero]
      rw [base n hα hβ, if_neg (by omega)]
  | succ m ih =>
    intro α β hα hβ
    cases n with
    | zero =>
      rw [if_neg (by omega), ← base m hα hβ]
      apply intervalIntegral.integral_congr
      intro x _
      simp only [jacobiP_zero]
      ring
    | succ n =>
      have hdc : Continuous (dJacobiP α β (m + 1)) :=
        continuous_iff_continuousAt.2 fun x => (hasDerivAt_dJacobiP α β (m + 1) x).continuousAt
      have h := jacobi_parts hα hβ (n + 1) (jacobiP α β (m + 1)) (dJacobiP α β (m + 1))
        (hasDerivAt_jacobiP α β (m + 1)) hdc
      have hi := ih n (α := α + 1) (β := β + 1) (by linarith) (by linarith)
      have e : ∫ x in (-1 : ℝ)..1, jacobiWeight (α + 1) (β + 1) x *
          (dJacobiP α β (m + 1) x * dJacobiP α β (n + 1) x) =
          (m + α + β + 2) / 2 * ((n + α + β + 2) / 2) *
          ∫ x in (-1 : ℝ)..1, jacobiWeight (α + 1) (β + 1) x *
            (jacobiP (α + 1) (β + 1) m x * jacobiP (α + 1) (β + 1) n x) := by
        rw [← intervalIntegral.integral_const_mul]
        apply intervalIntegral.integral_congr
        intro x _
        simp only [dJacobiP_succ]
        ring
      rw [e, hi] at h
      have hn : (0 : ℝ) ≤ n := Nat.cast_nonneg n
      have h1 : (0 : ℝ) < n + 1 := by linarith
      have h2 : (0 : ℝ) < n + α + β + 2 := by linarith
      have hc : ((n : ℝ) + 1) * (n + α + β + 2) ≠ 0 := by positivity
      apply mul_left_cancel₀ hc
      push_cast at h
      have h' : ((n : ℝ) + 1) * (n + α + β + 2) *
          ∫ x in (-1 : ℝ)..1, jacobiWeight α β x * (jacobiP α β (m + 1) x * jacobiP α β (n + 1) x) =
          ((m : ℝ) + α + β + 2) / 2 * ((n + α + β + 2) / 2) *
            (if m = n then jacNorm (α + 1) (β + 1) n else 0) := by
        rw [h]; ring
      rw [h']
      by_cases hmn : m = n
      · subst hmn
        simp only [if_true]
        have := jacNorm_succ_params hα hβ m
        linear_combination ((m : ℝ) + α + β + 2) / 4 * this
      · rw [if_neg hmn, if_neg (by omega)]
        ring

/-- **C18.**  `jacobi(α, β, n, ·)` are orthonormal with respect to `(1-x)^α (1+x)^β` on `[-1, 1]`, for all
degrees and all real `α, β > -1` (outside the band in which `gamma0` uses the value at `α+β = -1`). -/
theorem C18_orthonormal (α β : ℝ) (h : JacobiParams α β) (m n : Nat) :
    ∫ x in (-1 : ℝ)..1, jacobi α β m x * jacobi α β n x * ((1 - x) ^ α * (1 + x) ^ β) =
      if m = n then 1 else 0 := by
  obtain ⟨hα, hβ, -⟩ := id h
  have hm := Real.sqrt_pos.2 (jacNorm_pos hα hβ m)
  have hn := Real.sqrt_pos.2 (jacNorm_pos hα hβ n)
  have e : ∫ x in (-1 : ℝ)..1, jacobi α β m x * jacobi α β n x * ((1 - x) ^ α * (1 + x) ^ β) =
      (1 / (Real.sqrt (jacNorm α β m) * Real.sqrt (jacNorm α β n))) *
      ∫ x in (-1 : ℝ)..1, jacobiWeight α β x * (jacobiP α β m x * jacobiP α β n x) := by
    rw [← intervalIntegral.integral_const_mul]
    apply intervalIntegral.integral_congr
    intro x _
    simp only [jacobi_eq h, jacobiWeight]
    field_simp
  rw [e, jacobiP_orthogonal m n hα hβ]
  by_cases hmn : m = n
  · subst hmn
    rw [if_pos rfl, if_pos rfl, Real.mul_self_sqrt (jacNorm_pos hα hβ m).le, one_div,
      inv_mul_cancel₀ (jacNorm_pos hα hβ m).ne']
  · rw [if_neg hmn, if_neg hmn, mul_zero]

/-- **C18.**  Non-vacuity: Legendre, Chebyshev (first kind, the special case of `gamma0`) and a case
with distinct non-integer parameters. -/
example : JacobiParams 0 0 ∧ JacobiParams (-1/2) (-1/2) ∧ JacobiParams (1/3) 2 := by
  refine ⟨⟨by norm_num, by norm_num, .inl (by norm_num)⟩, ⟨by norm_num, by norm_num, .inr (by norm_num)⟩,
    ⟨by norm_num, by norm_num, .inl ?_⟩⟩
  rw [abs_of_pos (by norm_num)]; norm_num

/-- **C19.**  `grad_jacobi` is the derivative of `jacobi`. -/
theorem C19_derivative (α β : ℝ) (h : JacobiParams α β) (n : Nat) (x : ℝ) :
    HasDerivAt (fun t => jacobi α β n t) (gradJacobi α β n x) x := by
  obtain ⟨hα, hβ, -⟩ := id h
  have e : (fun t => jacobi α β n t) = fun t => jacobiP α β n t / Real.sqrt (jacNorm α β n) := by
    funext t; exact jacobi_eq h n t
  have hd := (hasDerivAt_jacobiP α β n x).div_const (Real.sqrt (jacNorm α β n))
  have hv : gradJacobi α β n x = dJacobiP α β n x / Real.sqrt (jacNorm α β n) := by
    cases n with
    | zero => simp [gradJacobi, dJacobiP_zero, Duck.lit]
    | succ n =>
      rw [gradJacobi, if_neg (by omega), dJacobiP_succ, Nat.add_sub_cancel,
        jacobi_eq (JacobiParams.succ hα hβ)]
      simp only [Duck.lit, id]
      have hn : (0 : ℝ) ≤ n := Nat.cast_nonneg n
      have h1 : (0 : ℝ) < n + 1 := by linarith
      have h2 : (0 : ℝ) < n + α + β + 2 := by linarith
      have hN := jacNorm_pos hα hβ (n + 1)
      have hN' := jacNorm_pos (show -1 < α + 1 by linarith) (show -1 < β + 1 by linarith) n
      have hk := jacNorm_succ_params hα hβ n
      have hsq : Real.sqrt (((n : ℝ) + 1) * (n + 1 + α + β + 1)) * Real.sqrt (jacNorm α β (n + 1)) =
          (n + α + β + 2) / 2 * Real.sqrt (jacNorm (α + 1) (β + 1) n) := by
        rw [← Real.sqrt_mul (by nlinarith)]
        have : ((n : ℝ) + 1) * (n + 1 + α + β + 1) * jacNorm α β (n + 1) =
            ((n + α + β + 2) / 2) ^ 2 * jacNorm (α + 1) (β + 1) n := by
          linear_combination -((n : ℝ) + α + β + 2) / 4 * hk
        rw [this, Real.sqrt_mul (by positivity), Real.sqrt_sq (by positivity)]
      have p1 := Real.sqrt_pos.2 hN
      have p2 := Real.sqrt_pos.2 hN'
      push_cast
      rw [← mul_div_assoc, div_eq_div_iff p2.ne' p1.ne']
      linear_combination (jacobiP (α + 1) (β + 1) n x) * hsq
  rw [e, hv]
  exact hd

/-- **C19.**  Non-vacuity: the derivative of the first Legendre mode is not zero. -/
example : gradJacobi 0 0 1 (0 : ℝ) ≠ 0 := by
  have hN := jacNorm_pos (show (-1 : ℝ) < 0 + 1 by norm_num) (show (-1 : ℝ) < 0 + 1 by norm_num) 0
  rw [gradJacobi, if_neg (by omega), jacobi_eq (JacobiParams.succ (by norm_num) (by norm_num)),
    jacobiP_zero]
  have := Real.sqrt_pos.2 hN
  simp only [Duck.lit, id]
  positivity

/-- **C20.**  `scaled_jacobi` is the classical Jacobi polynomial. -/
theorem C20_classical (eps : ℝ) (α β : ℝ) (h : JacobiParams α β)
    (heps : 0 < eps) (n : Nat) (hn : n = 0 → eps ≤ |α + β + 1| ∨ α + β + 1 = 0) (x : ℝ) :
    scaledJacobi eps α β n x = jacobiP α β n x := by
  obtain ⟨hα, hβ, -⟩ := id h
  have a1 : 0 < α + 1 := by linarith
  have b1 : 0 < β + 1 := by linarith
  have s2 : 0 < α + β + 2 := by linarith
  have hscal : jacobiScaling eps α β n = jacNorm α β n := by
    -- the closed form for `n ≥ 1`
    have closed : ∀ m : Nat, jacNorm α β (m + 1) =
        (2 : ℝ) ^ (α + β + 1) / (2 * (m + 1 : Nat) + α + β + 1) * Real.Gamma ((m + 1 : Nat) + α + 1) *
          Real.Gamma ((m + 1 : Nat) + β + 1) / Real.Gamma ((m + 1 : Nat) + α + β + 1) /
          ((m + 1).factorial : ℝ) := by
      intro m
      induction m with
      | zero =>
        rw [jacNorm_one, jacNorm]
        have e1 : ((0 + 1 : Nat) : ℝ) + α + 1 = α + 1 + 1 := by push_cast; ring
        have e2 : ((0 + 1 : Nat) : ℝ) + β + 1 = β + 1 + 1 := by push_cast; ring
        have e3 : ((0 + 1 : Nat) : ℝ) + α + β + 1 = α + β + 2 := by push_cast; ring
        have e4 : 2 * ((0 + 1 : Nat) : ℝ) + α + β + 1 = α + β + 3 := by push_cast; ring
        rw [e1, e2, e3, e4, Real.Gamma_add_one a1.ne', Real.Gamma_add_one b1.ne']
        have := (Real.Gamma_pos_of_pos s2).ne'
        have s3 : α + β + 3 ≠ 0 := by linarith
        simp only [zero_add, Nat.factorial_one, Nat.cast_one, div_one]
        field_simp
      | succ m ih =>
        have hm : (0 : ℝ) ≤ m := Nat.cast_nonneg m
        have e0 : jacNorm α β (m + 1 + 1) = jacNorm α β (m + 1) *
          ((2 * m + α + β + 3) * (m + α + 2) * (m + β + 2) /
          ((2 * m + α + β + 5) * (m + 2) * (m + α + β + 2))) := rfl
        rw [e0, ih]
        have e1 : ((m + 1 + 1 : Nat) : ℝ) + α + 1 = (m + α + 2) + 1 := by push_cast; ring
        have e2 : ((m + 1 + 1 : Nat) : ℝ) + β + 1 = (m + β + 2) + 1 := by push_cast; ring
        have e3 : ((m + 1 + 1 : Nat) : ℝ) + α + β + 1 = (m + α + β + 2) + 1 := by push_cast; ring
        have e4 : 2 * ((m + 1 + 1 : Nat) : ℝ) + α + β + 1 = 2 * m + α + β + 5 := by push_cast; ring
        have f1 : ((m + 1 : Nat) : ℝ) + α + 1 = m + α + 2 := by push_cast; ring
        have f2 : ((m + 1 : Nat) : ℝ) + β + 1 = m + β + 2 := by push_cast; ring
        have f3 : ((m + 1 : Nat) : ℝ) + α + β + 1 = m + α + β + 2 := by push_cast; ring
        have f4 : 2 * ((m + 1 : Nat) : ℝ) + α + β + 1 = 2 * m + α + β + 3 := by push_cast; ring
        have p1 : (0 : ℝ) < m + α + 2 := by linarith
        have p2 : (0 : ℝ) < m + β + 2 := by linarith
        have p3 : (0 : ℝ) < m + α + β + 2 := by linarith
        have p4 : (0 : ℝ) < 2 * m + α + β + 3 := by linarith
        have p5 : (0 : ℝ) < 2 * m + α + β + 5 := by linarith
        rw [e1, e2, e3, e4, f1, f2, f3, f4, Real.Gamma_add_one p1.ne', Real.Gamma_add_one p2.ne',
          Real.Gamma_add_one p3.ne', Nat.factorial_succ (m + 1)]
        have := (Real.Gamma_pos_of_pos p3).ne'
        have : ((m + 1).factorial : ℝ) ≠ 0 := by positivity
        push_cast
        have e5 : (m : ℝ) + 1 + 1 = m + 2 := by ring
        rw [e5]
        field_simp
    cases n with
    | zero =>
      rw [jacobiScaling, jacNorm]
      by_cases hz : α + β + 1 = 0
      · rw [if_pos ⟨rfl, by rw [hz]; simpa using heps⟩, show α + β + 2 = α + β + 1 + 1 by ring, hz]
        simp [Real.Gamma_one]
      · have he := (hn rfl).resolve_right hz
        rw [if_neg (by rintro ⟨-, h'⟩; linarith), show α + β + 2 = α + β + 1 + 1 by ring,
          Real.Gamma_add_one hz]
        simp only [Nat.cast_zero, mul_zero, zero_add, Nat.factorial_zero, Nat.cast_one, div_one]
        have hG : Real.Gamma (α + β + 1) ≠ 0 := by
          have := Real.Gamma_pos_of_pos (show 0 < α + β + 1 + 1 by linarith)
          rw [Real.Gamma_add_one hz] at this
          intro h0; rw [h0] at this; simp at this
        field_simp
    | succ n =>
      rw [jacobiScaling, if_neg (by simp), closed]
  rw [scaledJacobi, hscal, jacobi_eq h]
  have hs := Real.sqrt_pos.2 (jacNorm_pos hα hβ n)
  field_simp

theorem binom_eq {a : ℝ} (ha : -1 < a) (n : Nat) : binom (n + a) n = rise (a + 1) n / n.factorial := by
  have hr : ∀ k : Nat, Real.Gamma (k + a + 1) = rise (a + 1) k * Real.Gamma (a + 1) := by
    intro k
    induction k with
    | zero => simp [rise]
    | succ k ih =>
      have hk : (0 : ℝ) ≤ k := Nat.cast_nonneg k
      have e : ((k + 1 : Nat) : ℝ) + a + 1 = (k + a + 1) + 1 := by push_cast; ring
      rw [e, Real.Gamma_add_one (by linarith), ih, rise_succ]; ring
  have := (Real.Gamma_pos_of_pos (show 0 < a + 1 by linarith)).ne'
  have : (n.factorial : ℝ) ≠ 0 := by positivity
  rw [binom, hr, Real.Gamma_nat_eq_factorial, show (n : ℝ) + a - n + 1 = a + 1 by ring]
  field_simp

/-- **C20.**  The documented endpoint values, with `binom` the function of the code. -/
theorem C20_endpoints (eps : ℝ) (α β : ℝ) (h : JacobiParams α β)
    (heps : 0 < eps) (n : Nat) (hn : n = 0 → eps ≤ |α + β + 1| ∨ α + β + 1 = 0) :
    scaledJacobi eps α β n 1 = binom (n + α) n ∧
    scaledJacobi eps α β n (-1) = (-1) ^ n * binom (n + β) n := by
  obtain ⟨hα, hβ, -⟩ := id h
  rw [C20_classical eps α β h heps n hn, C20_classical eps α β h heps n hn,
    jacobiP_neg α β (by linarith) hα hβ, jacobiP_at_one, jacobiP_at_one, binom_eq hα, binom_eq hβ]
  exact ⟨rfl, rfl⟩

/-- **C20.**  Non-vacuity: Legendre of degree 3, Chebyshev of degree 0. -/
example : scaledJacobi (2.3e-14) 0 0 3 1 = 1 ∧ scaledJacobi (2.3e-14) (-1/2) (-1/2) 0 1 = 1 := by
  constructor
  · rw [(C20_endpoints _ 0 0 ⟨by norm_num, by norm_num, .inl (by norm_num)⟩ (by norm_num) 3
      (by omega)).1, binom_eq (by norm_num)]
    norm_num [rise, Nat.factorial]
  · rw [(C20_endpoints _ (-1/2) (-1/2) ⟨by norm_num, by norm_num, .inr (by norm_num)⟩ (by norm_num) 0
      (fun _ => .inr (by norm_num))).1, binom_eq (by norm_num)]
    norm_num [rise, Nat.factorial]

end Modepy

import Verif.Proofs.LegendreMonic
import Verif.Proofs.Kaluza
import Mathlib.RingTheory.Polynomial.Chebyshev
import Mathlib.Analysis.SpecialFunctions.Trigonometric.Chebyshev.RootsExtrema
import Mathlib.MeasureTheory.Integral.DominatedConvergence
import Mathlib.Analysis.Normed.Group.Tannery

/-!
# Functions of the second kind

Chebyshev moments of the Legendre polynomials and the expansion of `∫ p_n(t) / (z - t) dt` in powers of `u`, where
`z = (u + 1/u) / 2`.
-/

namespace Modepy
open Polynomial Finset
open Polynomial.Chebyshev hiding C

/-! ## Chebyshev moments -/

/-- `∫ U_k p_n`. -/
noncomputable def legC (n : Nat) (k : ℤ) : ℝ := legI (U ℝ k * lp n)

theorem legD_U (k : ℤ) : legD (U ℝ k) = X * derivative (U ℝ k) - C ((k * (k + 2) : ℝ)) * U ℝ k := by
  have h := one_sub_X_sq_mul_derivative_derivative_U_eq_poly_in_U (R := ℝ) k
  simp only [Function.iterate_succ, Function.iterate_zero, Function.comp_apply, id] at h
  rw [legD, derivative_mul, h]
  simp only [derivative_sub, derivative_one, derivative_X_pow, map_mul, map_add, map_intCast, Nat.cast_ofNat, map_ofNat]
  ring

theorem derivative_U_sub (k : ℤ) : derivative (U ℝ (k + 1)) - derivative (U ℝ (k - 1)) = C (2 * (k + 1) : ℝ) * U ℝ k := by
  have h := U_eq_two_mul_T_add_U ℝ (k - 1)
  rw [show k - 1 + 2 = k + 1 by ring] at h
  have h2 := T_derivative_eq_U (R := ℝ) (k + 1)
  rw [show k + 1 - 1 = k by ring] at h2
  rw [h]
  simp only [derivative_mul, derivative_ofNat, h2, map_mul, map_add, map_intCast, map_one, map_ofNat]
  push_cast
  ring

theorem derivative_U_add (k : ℤ) :
    derivative (U ℝ (k + 1)) + derivative (U ℝ (k - 1)) = 2 * (X * derivative (U ℝ k)) + 2 * U ℝ k := by
  have h := U_add_two ℝ (k - 1)
  rw [show k - 1 + 2 = k + 1 by ring, show k - 1 + 1 = k by ring] at h
  rw [h]
  simp only [derivative_sub, derivative_mul, derivative_ofNat, derivative_X]
  ring

theorem legC_rec (n : Nat) (k : ℤ) :
    ((k + 2) * (k + 3) - n * (n + 1) : ℝ) * legC n (k + 2) = ((k + 1) * (k + 2) - n * (n + 1)) * legC n k := by
  have key : ∀ k : ℤ, legI (derivative (U ℝ (k + 1)) * lp n) = ((k + 1) * (k + 2) - n * (n + 1)) * legC n k ∧
      legI (derivative (U ℝ (k - 1)) * lp n) = (k * (k + 1) - n * (n + 1)) * legC n k := by
    intro k
    have h1 : legI (legD (U ℝ k) * lp n) = -(n * (n + 1)) * legC n k := by
      rw [← legD_symm, lp_ode, legC]
      rw [show U ℝ k * (C (-(n * (n + 1) : ℝ)) * lp n) = (-(n * (n + 1) : ℝ)) • (U ℝ k * lp n) by
        rw [smul_eq_C_mul]; ring, map_smul, smul_eq_mul]
    rw [legD_U, sub_mul, map_sub, mul_assoc (C _), ← smul_eq_C_mul, map_smul, smul_eq_mul] at h1
    have h2 := congrArg (fun P => legI (P * lp n)) (derivative_U_sub k)
    have h3 := congrArg (fun P => legI (P * lp n)) (derivative_U_add k)
    simp only [sub_mul, add_mul, map_sub, map_add, mul_assoc] at h2 h3
    rw [← smul_eq_C_mul, map_smul, smul_eq_mul] at h2
    have h4 : ∀ P : ℝ[X], legI (2 * P) = 2 * legI P := by
      intro P
      rw [show (2 : ℝ[X]) * P = (2 : ℝ) • P by rw [smul_eq_C_mul, map_ofNat], map_smul, smul_eq_mul]
    rw [h4, h4] at h3
    simp only [mul_assoc] at h1
    rw [← legC] at h1 h2 h3
    constructor <;> linarith
  have h1 := (key k).1
  have h2 := (key (k + 2)).2
  rw [show k + 2 - 1 = k + 1 by ring] at h2
  rw [h2] at h1
  push_cast at h1
  linarith

theorem legC_lt (n k : Nat) (hk : k < n) : legC n k = 0 := by
  rw [legC]
  apply legI_mul_lp_lt
  rw [natDegree_U_natCast]
  exact hk

theorem legC_self (n : Nat) : legC n n = 2 ^ n * lh n := by
  have hd : (U ℝ (n : ℤ)).natDegree = n := natDegree_U_natCast ℝ n
  rw [legC, legI_mul_lp _ n hd.le]
  congr 1
  have := leadingCoeff_U_natCast ℝ n
  rwa [leadingCoeff, hd] at this

theorem legC_pos (n : Nat) : 0 < legC n n := by
  rw [legC_self]
  exact mul_pos (by positivity) (lh_pos n)

theorem legC_odd (n j : Nat) : legC n ((n + 1 + 2 * j : Nat) : ℤ) = 0 := by
  induction j with
  | zero =>
    have h := legC_rec n (n - 1)
    push_cast at h
    rw [show (n : ℤ) - 1 + 2 = n + 1 by ring] at h
    have h2 : (2 * n + 2 : ℝ) * legC n (n + 1) = 0 := by linear_combination h
    rw [show ((n + 1 + 2 * 0 : Nat) : ℤ) = n + 1 by push_cast; ring]
    exact (mul_eq_zero.1 h2).resolve_left (by positivity)
  | succ j ih =>
    have h := legC_rec n ((n + 1 + 2 * j : Nat) : ℤ)
    rw [ih, mul_zero] at h
    rw [show ((n + 1 + 2 * (j + 1) : Nat) : ℤ) = ((n + 1 + 2 * j : Nat) : ℤ) + 2 by push_cast; ring]
    refine (mul_eq_zero.1 h).resolve_left ?_
    push_cast
    have hj : (0 : ℝ) ≤ j := Nat.cast_nonneg j
    have hn : (0 : ℝ) ≤ n := Nat.cast_nonneg n
    nlinarith [mul_nonneg hj hn, mul_nonneg hj hj]

/-- Ratio of consecutive Chebyshev moments. -/
noncomputable def lratio (n ν : Nat) : ℝ :=
  ((2 * ν + 1) * (2 * n + 2 * ν + 2)) / ((2 * ν + 2) * (2 * n + 2 * ν + 3))

/-- Normalised Chebyshev moments. -/
noncomputable def lf (n : Nat) : Nat → ℝ
  | 0 => 1
  | ν + 1 => lf n ν * lratio n ν

theorem lratio_pos (n ν : Nat) : 0 < lratio n ν := by rw [lratio]; positivity

theorem lratio_lt_one (n ν : Nat) : lratio n ν < 1 := by
  rw [lratio, div_lt_one (by positivity)]
  have hj : (0 : ℝ) ≤ ν := Nat.cast_nonneg ν
  have hn : (0 : ℝ) ≤ n := Nat.cast_nonneg n
  nlinarith [mul_nonneg hj hn, mul_nonneg hj hj]

theorem lratio_mono (n ν : Nat) : lratio n ν ≤ lratio n (ν + 1) := by
  rw [lratio, lratio, div_le_div_iff₀ (by positivity) (by positivity)]
  push_cast
  have h1 : (2 * ν + 1 : ℝ) * (2 * ν + 4) ≤ (2 * ν + 3) * (2 * ν + 2) := by ring_nf; linarith
  have h2 : (2 * n + 2 * ν + 2 : ℝ) * (2 * n + 2 * ν + 5) ≤ (2 * n + 2 * ν + 4) * (2 * n + 2 * ν + 3) := by
    ring_nf; linarith
  have := mul_le_mul h1 h2 (by positivity) (by positivity)
  linarith

theorem lf_zero (n : Nat) : lf n 0 = 1 := by rw [lf]
theorem lf_succ (n ν : Nat) : lf n (ν + 1) = lf n ν * lratio n ν := by rw [lf]

theorem lf_pos (n ν : Nat) : 0 < lf n ν := by
  induction ν with
  | zero => rw [lf_zero]; exact one_pos
  | succ ν ih => rw [lf_succ]; exact mul_pos ih (lratio_pos n ν)

theorem lf_log (n ν : Nat) : lf n (ν + 1) * lf n (ν + 1) ≤ lf n ν * lf n (ν + 2) := by
  rw [lf_succ n (ν + 1), lf_succ]
  have := mul_le_mul_of_nonneg_left (lratio_mono n ν)
    (mul_nonneg (lf_pos n ν).le (mul_nonneg (lf_pos n ν).le (lratio_pos n ν).le))
  linarith

theorem lf_anti (n : Nat) : Antitone (lf n) := by
  refine antitone_nat_of_succ_le fun ν => ?_
  rw [lf_succ]
  exact mul_le_of_le_one_right (lf_pos n ν).le (lratio_lt_one n ν).le

theorem lf_le_one (n ν : Nat) : lf n ν ≤ 1 := lf_zero n ▸ lf_anti n (Nat.zero_le ν)

theorem legC_even (n ν : Nat) : legC n ((n + 2 * ν : Nat) : ℤ) = legC n n * lf n ν := by
  induction ν with
  | zero => rw [lf_zero, mul_one]; rfl
  | succ ν ih =>
    have h := legC_rec n ((n + 2 * ν : Nat) : ℤ)
    rw [ih] at h
    rw [show ((n + 2 * (ν + 1) : Nat) : ℤ) = ((n + 2 * ν : Nat) : ℤ) + 2 by push_cast; ring, lf_succ, lratio]
    push_cast at h ⊢
    have e1 : ((n : ℝ) + 2 * ν + 2) * (n + 2 * ν + 3) - n * (n + 1) = (2 * ν + 2) * (2 * n + 2 * ν + 3) := by ring
    have e2 : ((n : ℝ) + 2 * ν + 1) * (n + 2 * ν + 2) - n * (n + 1) = (2 * ν + 1) * (2 * n + 2 * ν + 2) := by ring
    rw [e1, e2] at h
    field_simp
    linarith

/-! ## The expansion of the function of the second kind -/

theorem abs_U_le (k : Nat) (t : ℝ) (ht : |t| ≤ 1) : |(U ℝ (k : ℤ)).eval t| ≤ k + 1 := by
  induction k with
  | zero => simp
  | succ k ih =>
    have h := U_eq_X_mul_U_add_T ℝ (k : ℤ)
    rw [show ((k + 1 : Nat) : ℤ) = (k : ℤ) + 1 by push_cast; ring, h, eval_add, eval_mul, eval_X]
    have h1 := abs_eval_T_real_le_one ((k : ℤ) + 1) ht
    have h2 : |t * (U ℝ (k : ℤ)).eval t| ≤ k + 1 := by
      rw [abs_mul]
      exact (mul_le_of_le_one_left (abs_nonneg _) ht).trans ih
    have := abs_add_le (t * (U ℝ (k : ℤ)).eval t) ((T ℝ ((k : ℤ) + 1)).eval t)
    push_cast
    linarith

theorem summable_geom (r : ℝ) (h0 : 0 ≤ r) (h1 : r < 1) : Summable fun k : Nat => ((k : ℝ) + 1) * r ^ k := by
  have h2 : ‖r‖ < 1 := by rwa [Real.norm_eq_abs, abs_of_nonneg h0]
  have h3 := summable_pow_mul_geometric_of_norm_lt_one 1 h2
  have h4 := summable_geometric_of_lt_one h0 h1
  refine (h3.add h4).congr fun k => ?_
  rw [pow_one]; ring

theorem hasSum_U (t : ℝ) (ht : |t| ≤ 1) (u : ℂ) (hu0 : u ≠ 0) (hu : ‖u‖ < 1) :
    (u + u⁻¹) / 2 - t ≠ 0 ∧
      HasSum (fun k : Nat => 2 * (((U ℝ (k : ℤ)).eval t : ℝ) : ℂ) * u ^ (k + 1)) (1 / ((u + u⁻¹) / 2 - t)) := by
  set a : Nat → ℂ := fun k => (((U ℝ (k : ℤ)).eval t : ℝ) : ℂ) * u ^ k with ha
  have hs : Summable a := by
    refine Summable.of_norm_bounded (summable_geom ‖u‖ (norm_nonneg _) hu) fun k => ?_
    rw [ha, norm_mul, norm_pow, Complex.norm_real, Real.norm_eq_abs]
    exact mul_le_mul_of_nonneg_right (abs_U_le k t ht) (by positivity)
  have hrec : ∀ k, a (k + 2) = 2 * t * u * a (k + 1) - u ^ 2 * a k := by
    intro k
    have h := U_add_two ℝ (k : ℤ)
    simp only [ha]
    rw [show ((k + 2 : Nat) : ℤ) = (k : ℤ) + 2 by push_cast; ring,
      show ((k + 1 : Nat) : ℤ) = (k : ℤ) + 1 by push_cast; ring, h]
    simp only [eval_sub, eval_mul, eval_ofNat, eval_X, Complex.ofReal_sub, Complex.ofReal_mul, Complex.ofReal_ofNat]
    ring
  have hs1 : Summable fun k => a (k + 1) := (summable_nat_add_iff 1).2 hs
  have hs2 : Summable fun k => a (k + 2) := (summable_nat_add_iff 2).2 hs
  have h0 : a 0 = 1 := by simp [ha]
  have h1 : a 1 = 2 * t * u := by simp [ha]
  have e1 : ∑' k, a k = 1 + ∑' k, a (k + 1) := by rw [hs.tsum_eq_zero_add, h0]
  have e2 : ∑' k, a (k + 1) = 2 * t * u + ∑' k, a (k + 2) := by
    rw [hs1.tsum_eq_zero_add, zero_add, h1]
  have e3 : ∑' k, a (k + 2) = 2 * t * u * ∑' k, a (k + 1) - u ^ 2 * ∑' k, a k := by
    rw [← tsum_mul_left, ← tsum_mul_left, ← (hs1.mul_left _).tsum_sub (hs.mul_left _)]
    exact tsum_congr hrec
  set S := ∑' k, a k with hS
  have key : 2 * u * S * ((u + u⁻¹) / 2 - t) = 1 := by
    have : 2 * u * S * ((u + u⁻¹) / 2 - t) = S * (1 - 2 * t * u + u ^ 2) := by
      field_simp
      ring
    rw [this]
    linear_combination e1 + e2 + e3 - (2 * t * u) * e1
  have hne : (u + u⁻¹) / 2 - t ≠ 0 := by
    intro h
    rw [h, mul_zero] at key
    exact zero_ne_one key
  refine ⟨hne, ?_⟩
  have h2 : 1 / ((u + u⁻¹) / 2 - t) = 2 * u * S := by
    rw [eq_comm, eq_div_iff hne]
    exact key
  rw [h2]
  refine (hs.hasSum.mul_left (2 * u)).congr_fun ?_
  intro k
  simp only [ha]
  ring

/-- The function of the second kind `∫ p_n(t) / (z - t) dt`. -/
noncomputable def legQ (n : Nat) (z : ℂ) : ℂ := ∫ t in (-1 : ℝ)..1, (((lp n).eval t : ℝ) : ℂ) * (1 / (z - t))

theorem legQ_hasSum (n : Nat) (u : ℂ) (hu0 : u ≠ 0) (hu : ‖u‖ < 1) :
    HasSum (fun k : Nat => 2 * (legC n k : ℂ) * u ^ (k + 1)) (legQ n ((u + u⁻¹) / 2)) := by
  obtain ⟨M, hM⟩ := isCompact_Icc.exists_bound_of_continuousOn
    (f := fun t => (lp n).eval t) (s := Set.Icc (-1 : ℝ) 1) (lp n).continuous.continuousOn
  have hM0 : 0 ≤ M := (norm_nonneg _).trans (hM 0 (by norm_num))
  have hs : Summable fun k : Nat => M * (2 * (((k : ℝ) + 1) * ‖u‖ ^ k) * ‖u‖) :=
    (((summable_geom ‖u‖ (norm_nonneg _) hu).mul_left 2).mul_right _).mul_left _
  have key := intervalIntegral.hasSum_integral_of_dominated_convergence (μ := MeasureTheory.volume) (a := -1) (b := 1)
    (F := fun (k : Nat) (t : ℝ) => (((lp n).eval t : ℝ) : ℂ) * (2 * (((U ℝ (k : ℤ)).eval t : ℝ) : ℂ) * u ^ (k + 1)))
    (f := fun t : ℝ => (((lp n).eval t : ℝ) : ℂ) * (1 / ((u + u⁻¹) / 2 - t)))
    (fun k _ => M * (2 * (((k : ℝ) + 1) * ‖u‖ ^ k) * ‖u‖)) ?_ ?_ ?_ ?_ ?_
  · refine key.congr_fun ?_
    intro k
    have e : ∀ t : ℝ, (((lp n).eval t : ℝ) : ℂ) * (2 * (((U ℝ (k : ℤ)).eval t : ℝ) : ℂ) * u ^ (k + 1)) =
        2 * u ^ (k + 1) * (((U ℝ (k : ℤ) * lp n).eval t : ℝ) : ℂ) := by
      intro t
      rw [eval_mul]
      push_cast
      ring
    simp only [e]
    rw [intervalIntegral.integral_const_mul, intervalIntegral.integral_ofReal, ← legI_apply, ← legC]
    ring
  · intro k
    refine Continuous.aestronglyMeasurable ?_
    have h1 := (lp n).continuous
    have h2 := (U ℝ (k : ℤ)).continuous
    fun_prop
  · intro k
    refine Filter.Eventually.of_forall fun t ht => ?_
    rw [Set.uIoc_of_le (by norm_num)] at ht
    have ht' : |t| ≤ 1 := abs_le.2 ⟨ht.1.le, ht.2⟩
    rw [norm_mul, norm_mul, norm_mul, norm_pow, Complex.norm_real, Complex.norm_real, Real.norm_eq_abs (eval t (U ℝ (k : ℤ))),
      pow_succ]
    have h1 := hM t ⟨ht.1.le, ht.2⟩
    have h2 := abs_U_le k t ht'
    simp only [Complex.norm_ofNat]
    refine mul_le_mul h1 ?_ (by positivity) hM0
    calc 2 * |eval t (U ℝ (k : ℤ))| * (‖u‖ ^ k * ‖u‖) ≤ 2 * (k + 1) * (‖u‖ ^ k * ‖u‖) := by gcongr
      _ = 2 * ((k + 1) * ‖u‖ ^ k) * ‖u‖ := by ring
  · exact Filter.Eventually.of_forall fun t _ => hs
  · exact intervalIntegrable_const
  · refine Filter.Eventually.of_forall fun t ht => ?_
    rw [Set.uIoc_of_le (by norm_num)] at ht
    exact (hasSum_U t (abs_le.2 ⟨ht.1.le, ht.2⟩) u hu0 hu).2.mul_left _

theorem legC_zero_off (n k : Nat) (hk : k ∉ Set.range fun ν => n + 2 * ν) : legC n k = 0 := by
  rcases Nat.lt_or_ge k n with h | h
  · exact legC_lt n k h
  · by_cases hp : (k - n) % 2 = 0
    · exact absurd ⟨(k - n) / 2, by show n + 2 * ((k - n) / 2) = k; omega⟩ hk
    · rw [show k = n + 1 + 2 * ((k - n - 1) / 2) by omega]
      exact legC_odd n _

theorem legQ_series (n : Nat) (u : ℂ) (hu0 : u ≠ 0) (hu : ‖u‖ < 1) :
    HasSum (fun ν : Nat => 2 * (legC n n : ℂ) * u ^ (n + 1) * ((lf n ν : ℂ) * (u ^ 2) ^ ν)) (legQ n ((u + u⁻¹) / 2)) := by
  have h := legQ_hasSum n u hu0 hu
  have hinj : Function.Injective fun ν => n + 2 * ν := fun a b hab => by
    have : n + 2 * a = n + 2 * b := hab
    omega
  rw [← hinj.hasSum_iff] at h
  · refine h.congr_fun ?_
    intro ν
    simp only [Function.comp_apply]
    rw [legC_even]
    push_cast
    rw [← pow_mul]
    ring
  · intro k hk
    rw [legC_zero_off n k hk]
    simp

/-- `q_n(z) Λ(u²) = 2 c u^{n+1}`. -/
theorem legQ_recip (n : Nat) (u : ℂ) (hu0 : u ≠ 0) (hu : ‖u‖ < 1) :
    (∑' k, (recip (lf n) k : ℂ) * (u ^ 2) ^ k) * legQ n ((u + u⁻¹) / 2) = 2 * legC n n * u ^ (n + 1) := by
  have h := (legQ_series n u hu0 hu).tsum_eq
  rw [tsum_mul_left] at h
  have h2 := recip_tsum (lf n) (lf_zero n) (lf_pos n) (lf_log n) (lf_anti n) (u ^ 2) (by
    rw [norm_pow]
    exact pow_lt_one₀ (norm_nonneg _) hu (by norm_num))
  rw [← h]
  linear_combination (2 * (legC n n : ℂ) * u ^ (n + 1)) * h2

end Modepy

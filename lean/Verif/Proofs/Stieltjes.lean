import Verif.Proofs.LegendreBoundary
import Mathlib.Analysis.SpecialFunctions.Trigonometric.Chebyshev.Basic

/-!
# The Stieltjes polynomial

Its product with the function of the second kind at the zeros of the Legendre polynomial (Szegő, Monegato).
-/

namespace Modepy
open Polynomial Finset Filter Topology
open Polynomial.Chebyshev hiding C

/-- Weight of the `ν`-th term in the Stieltjes polynomial: the constant term counts one half. -/
noncomputable def shalf (n ν : Nat) : ℝ := if 2 * ν < n + 1 then 1 else if 2 * ν = n + 1 then 1 / 2 else 0

theorem shalf_mem (n ν : Nat) : 0 ≤ shalf n ν ∧ shalf n ν ≤ 1 := by
  rw [shalf]; split_ifs <;> norm_num

theorem shalf_zero (n : Nat) : shalf n 0 = 1 := by rw [shalf, if_pos (by omega)]

theorem shalf_off (n ν : Nat) (h : n + 2 ≤ ν) : shalf n ν = 0 := by
  rw [shalf, if_neg (by omega), if_neg (by omega)]

theorem shalf_one_pos (n : Nat) (hn : 1 ≤ n) : 0 < shalf n 1 := by
  rw [shalf]; split_ifs
  · norm_num
  · norm_num
  · omega

/-- The head of the series dominates its tail. -/
theorem head_tail (n : Nat) (hn : 1 ≤ n) (lam : Nat → ℝ) (h0 : lam 0 = 1) (h1 : lam 1 < 0)
    (hs : Summable fun k => |lam k|) (hle : ∑' k, |lam (k + 1)| ≤ 1) (θ : ℝ) (hc : Real.cos (2 * θ) < 1) (w : ℂ)
    (hw : ‖w‖ = 1) :
    ‖∑' k, ((1 - shalf n k : ℝ) : ℂ) * lam k * (w ^ 2) ^ k‖ <
      ∑ k ∈ range (n + 2), shalf n k * lam k * Real.cos (2 * k * θ) := by
  have hs1 : Summable fun k => |lam (k + 1)| := (summable_nat_add_iff 1).2 hs
  set H := ∑ k ∈ range (n + 1), shalf n (k + 1) * |lam (k + 1)| with hH
  have hhead : 1 - H < ∑ k ∈ range (n + 2), shalf n k * lam k * Real.cos (2 * k * θ) := by
    rw [sum_range_succ', shalf_zero, h0]
    simp only [Nat.cast_zero, mul_zero, zero_mul, Real.cos_zero, mul_one]
    rw [hH, sub_eq_neg_add, ← sum_neg_distrib]
    refine add_lt_add_of_lt_of_le (sum_lt_sum ?_ ⟨0, by simp, ?_⟩) le_rfl
    · intro k _
      have a1 := (shalf_mem n (k + 1)).1
      have a2 := Real.abs_cos_le_one (2 * ((k + 1 : Nat) : ℝ) * θ)
      rw [mul_assoc, ← mul_neg]
      refine mul_le_mul_of_nonneg_left ?_ a1
      have : |lam (k + 1) * Real.cos (2 * ((k + 1 : Nat) : ℝ) * θ)| ≤ |lam (k + 1)| := by
        rw [abs_mul]
        exact mul_le_of_le_one_right (abs_nonneg _) a2
      exact (abs_le.1 this).1
    · have a1 := shalf_one_pos n hn
      simp only [zero_add, Nat.cast_one, mul_one]
      rw [abs_of_neg h1, mul_assoc, ← mul_neg, neg_neg]
      refine mul_lt_mul_of_pos_left ?_ a1
      nlinarith
  refine lt_of_le_of_lt ?_ hhead
  have e0 : ∀ k, ‖((1 - shalf n k : ℝ) : ℂ) * lam k * (w ^ 2) ^ k‖ = (1 - shalf n k) * |lam k| := by
    intro k
    rw [norm_mul, norm_mul, norm_pow, norm_pow, hw, Complex.norm_real, Complex.norm_real, Real.norm_eq_abs,
      Real.norm_eq_abs, abs_of_nonneg (by linarith [(shalf_mem n k).2])]
    simp
  have hsT : Summable fun k => (1 - shalf n k) * |lam k| := by
    refine Summable.of_nonneg_of_le (fun k => ?_) (fun k => ?_) hs
    · exact mul_nonneg (by linarith [(shalf_mem n k).2]) (abs_nonneg _)
    · exact mul_le_of_le_one_left (abs_nonneg _) (by linarith [(shalf_mem n k).1])
  have hsT1 : Summable fun k => (1 - shalf n (k + 1)) * |lam (k + 1)| := (summable_nat_add_iff 1).2 hsT
  have hle2 : ‖∑' k, ((1 - shalf n k : ℝ) : ℂ) * lam k * (w ^ 2) ^ k‖ ≤ ∑' k, (1 - shalf n k) * |lam k| :=
    tsum_of_norm_bounded hsT.hasSum fun k => (e0 k).le
  refine hle2.trans ?_
  rw [hsT.tsum_eq_zero_add, shalf_zero, sub_self, zero_mul, zero_add]
  have hfin : ∑' k, shalf n (k + 1) * |lam (k + 1)| = H := by
    rw [tsum_eq_sum (s := range (n + 1))]
    intro k hk
    rw [mem_range, not_lt] at hk
    rw [shalf_off n _ (by omega), zero_mul]
  have hsF : Summable fun k => shalf n (k + 1) * |lam (k + 1)| :=
    summable_of_ne_finset_zero (s := range (n + 1)) fun k hk => by
      rw [mem_range, not_lt] at hk
      rw [shalf_off n _ (by omega), zero_mul]
  have hadd := hsT1.tsum_add hsF
  have e1 : ∑' k, ((1 - shalf n (k + 1)) * |lam (k + 1)| + shalf n (k + 1) * |lam (k + 1)|) = ∑' k, |lam (k + 1)| :=
    tsum_congr fun k => by ring
  rw [e1, hfin] at hadd
  linarith

/-- The Stieltjes polynomial. -/
noncomputable def legE (n : Nat) : ℝ[X] :=
  C ((1 / 2) ^ n) * ∑ ν ∈ range (n + 2), C (shalf n ν * recip (lf n) ν) * T ℝ ((n : ℤ) + 1 - 2 * ν)

theorem eval_legE (n : Nat) (θ : ℝ) : (legE n).eval (Real.cos θ) =
    (1 / 2) ^ n * ∑ ν ∈ range (n + 2), shalf n ν * recip (lf n) ν * Real.cos ((n + 1 - 2 * ν) * θ) := by
  rw [legE, eval_mul, eval_C, eval_finsetSum]
  congr 1
  refine sum_congr rfl fun ν _ => ?_
  rw [eval_mul, eval_C, T_real_cos]
  push_cast
  rfl

theorem lf_one_lt (n : Nat) : recip (lf n) 1 < 0 := by
  rw [recip_one _ (lf_zero n)]
  linarith [lf_pos n 1]

/-- **Positivity.**  At the zeros of `p_n`, the product of the Stieltjes polynomial and the function of the second kind
exceeds `‖p_n‖²`. -/
theorem legE_pos (n : Nat) (hn : 1 ≤ n) (θ : ℝ) (h0 : 0 < θ) (h1 : θ < Real.pi) (hroot : (lp n).eval (Real.cos θ) = 0) :
    lh n < (legE n).eval (Real.cos θ) * legQat n (Real.cos θ) := by
  set w := Complex.exp (θ * Complex.I) with hw
  have hwn : ‖w‖ = 1 := Complex.norm_exp_ofReal_mul_I θ
  have hwne : w ≠ 0 := Complex.exp_ne_zero _
  set lam := recip (lf n) with hlam
  obtain ⟨hs, hle⟩ := recip_summable (lf n) (lf_zero n) (lf_pos n) (lf_log n) (lf_anti n)
  rw [← hlam] at hs hle
  set q := legQat n (Real.cos θ) with hq
  have hb := legQ_boundary n θ h0 h1 hroot
  rw [← hw, ← hlam, ← hq, legC_self] at hb
  have hsin : 0 < Real.sin θ := Real.sin_pos_of_pos_of_lt_pi h0 h1
  have hcos : Real.cos (2 * θ) < 1 := by
    rw [Real.cos_two_mul']
    nlinarith [Real.sin_sq_add_cos_sq θ]
  have hht := head_tail n hn lam (recip_zero _ (lf_zero n)) (lf_one_lt n) hs hle θ hcos w hwn
  set Hc : ℂ := ∑ k ∈ range (n + 2), (shalf n k * lam k : ℝ) * (w ^ 2) ^ k with hHc
  set Rc : ℂ := ∑' k, ((1 - shalf n k : ℝ) : ℂ) * lam k * (w ^ 2) ^ k with hRc
  have hpow : ∀ m : ℤ, w ^ m = Complex.exp (((m * θ : ℝ) : ℂ) * Complex.I) := by
    intro m
    rw [hw, ← Complex.exp_int_mul]
    congr 1
    push_cast
    ring
  have hsplit : ∑' k, (lam k : ℂ) * (w ^ 2) ^ k = Hc + Rc := by
    have hn2 : ∀ k, ‖(w ^ 2) ^ k‖ = 1 := by intro k; rw [norm_pow, norm_pow, hwn]; simp
    have hsR : Summable fun k => ((1 - shalf n k : ℝ) : ℂ) * lam k * (w ^ 2) ^ k := by
      refine Summable.of_norm_bounded hs fun k => ?_
      rw [norm_mul, norm_mul, hn2, mul_one, Complex.norm_real, Complex.norm_real, Real.norm_eq_abs, Real.norm_eq_abs,
        abs_of_nonneg (by linarith [(shalf_mem n k).2])]
      exact mul_le_of_le_one_left (abs_nonneg _) (by linarith [(shalf_mem n k).1])
    have hz : ∀ k ∉ range (n + 2), ((shalf n k * lam k : ℝ) : ℂ) * (w ^ 2) ^ k = 0 := by
      intro k hk
      rw [mem_range, not_lt] at hk
      rw [shalf_off n k hk]
      simp
    have hsF : Summable fun k => ((shalf n k * lam k : ℝ) : ℂ) * (w ^ 2) ^ k := summable_of_ne_finset_zero hz
    have hfe : ∑' k, ((shalf n k * lam k : ℝ) : ℂ) * (w ^ 2) ^ k = Hc := (hasSum_sum_of_ne_finset_zero hz).tsum_eq
    rw [← hfe, hRc, ← hsF.tsum_add hsR]
    refine tsum_congr fun k => ?_
    push_cast
    ring
  set v := w ^ (-((n : ℤ) + 1)) with hv
  have hvn : ‖v‖ = 1 := by rw [hv, norm_zpow, hwn, one_zpow]
  set x := v * Hc with hx
  set y := v * Rc with hy
  have hxy : (x + y) * q = ((2 ^ (n + 1) * lh n : ℝ) : ℂ) := by
    rw [hsplit] at hb
    have hvw : v * w ^ (n + 1) = 1 := by
      rw [hv, ← zpow_natCast, ← zpow_add₀ hwne]
      push_cast
      rw [neg_add_cancel, zpow_zero]
    rw [hx, hy]
    push_cast at hb ⊢
    linear_combination v * hb + 2 * (2 ^ n * (lh n : ℂ)) * hvw
  have hxre : x.re = ∑ k ∈ range (n + 2), shalf n k * lam k * Real.cos ((n + 1 - 2 * k) * θ) := by
    rw [hx, hHc, mul_sum, Complex.re_sum]
    refine sum_congr rfl fun k _ => ?_
    have e : v * (((shalf n k * lam k : ℝ) : ℂ) * (w ^ 2) ^ k) = ((shalf n k * lam k : ℝ) : ℂ) * w ^ (-((n : ℤ) + 1) + 2 * k) := by
      rw [zpow_add₀ hwne, ← hv, zpow_mul, zpow_natCast]
      have : w ^ (2 : ℤ) = w ^ 2 := by norm_cast
      rw [this]
      ring
    rw [e, hpow, Complex.re_ofReal_mul, Complex.exp_ofReal_mul_I_re]
    congr 1
    rw [← Real.cos_neg]
    congr 1
    push_cast
    ring
  have hHre : Hc.re = ∑ k ∈ range (n + 2), shalf n k * lam k * Real.cos (2 * k * θ) := by
    rw [hHc, Complex.re_sum]
    refine sum_congr rfl fun k _ => ?_
    have e : (w ^ 2) ^ k = w ^ ((2 * k : ℕ) : ℤ) := by rw [← pow_mul, zpow_natCast]
    rw [e, hpow, Complex.re_ofReal_mul, Complex.exp_ofReal_mul_I_re]
    push_cast
    rfl
  have hlt : ‖y‖ < ‖x‖ := by
    rw [hx, hy, norm_mul, norm_mul, hvn, one_mul, one_mul]
    refine lt_of_lt_of_le hht ?_
    rw [← hHre]
    exact (le_abs_self _).trans (Complex.abs_re_le_norm _)
  have hq0 : q ≠ 0 := by
    intro hc
    rw [hc] at hxy
    have h3 : (0 : ℝ) = 2 ^ (n + 1) * lh n := by
      have := congrArg Complex.re hxy
      rw [Complex.ofReal_re] at this
      simpa using this
    have := mul_pos (pow_pos (two_pos (α := ℝ)) (n + 1)) (lh_pos n)
    linarith
  have him : x.im + y.im = 0 := by
    have := congrArg Complex.im hxy
    rw [mul_comm, Complex.im_ofReal_mul, Complex.ofReal_im, Complex.add_im] at this
    exact (mul_eq_zero.1 this).resolve_left hq0
  have hre : (x.re + y.re) * q = 2 ^ (n + 1) * lh n := by
    have := congrArg Complex.re hxy
    rw [mul_comm, Complex.re_ofReal_mul, Complex.ofReal_re, Complex.add_re] at this
    linarith
  have hsq : 0 < (x.re - y.re) * (x.re + y.re) := by
    have h3 : ‖y‖ ^ 2 < ‖x‖ ^ 2 := pow_lt_pow_left₀ hlt (norm_nonneg _) (by norm_num)
    rw [Complex.sq_norm, Complex.sq_norm, Complex.normSq_apply, Complex.normSq_apply] at h3
    have : y.im = -x.im := by linarith
    rw [this] at h3
    nlinarith
  have hfin : 0 < (x.re - y.re) * q := by
    have h4 := mul_pos hsq (hre ▸ mul_pos (pow_pos (two_pos (α := ℝ)) (n + 1)) (lh_pos n) : 0 < (x.re + y.re) * q)
    have e : (x.re - y.re) * (x.re + y.re) * ((x.re + y.re) * q) = ((x.re - y.re) * q) * (x.re + y.re) ^ 2 := by ring
    rw [e] at h4
    exact pos_of_mul_pos_left h4 (sq_nonneg _)
  rw [eval_legE, ← hlam, ← hxre]
  have e2 : (2 : ℝ) ^ (n + 1) * ((1 / 2) ^ n * x.re * q - lh n) = (x.re - y.re) * q := by
    have : (2 : ℝ) ^ n * (1 / 2) ^ n = 1 := by rw [← mul_pow]; norm_num
    rw [pow_succ] at hre ⊢
    linear_combination 2 * x.re * q * this + hre
  rw [← e2] at hfin
  have := pos_of_mul_pos_right hfin (by positivity)
  linarith

end Modepy

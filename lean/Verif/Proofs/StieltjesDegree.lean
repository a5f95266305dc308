import Verif.Proofs.Stieltjes
import Mathlib.Analysis.Polynomial.Basic
import Mathlib.Analysis.SpecialFunctions.Log.Basic

/-!
# Degree of the remainder of the Stieltjes polynomial
-/

namespace Modepy
open Polynomial Finset Filter Topology
open Polynomial.Chebyshev hiding C

/-- `∫ p_m(t) / (z - t) dt` for real `z`. -/
noncomputable def legQr (m : Nat) (z : ℝ) : ℝ := ∫ t in (-1 : ℝ)..1, (lp m).eval t * (1 / (z - t))

theorem legQr_eq (m : Nat) (z : ℝ) : legQ m (z : ℂ) = (legQr m z : ℂ) := by
  rw [legQ, legQr, ← intervalIntegral.integral_ofReal]
  congr 1
  funext t
  push_cast
  rfl

theorem legQr_integrable (P : ℝ[X]) (z : ℝ) (hz : 1 < z) :
    IntervalIntegrable (fun t => P.eval t * (1 / (z - t))) MeasureTheory.volume (-1) 1 := by
  apply ContinuousOn.intervalIntegrable
  refine P.continuous.continuousOn.mul (continuousOn_const.div (by fun_prop) ?_)
  intro t ht
  rw [Set.uIcc_of_le (by norm_num)] at ht
  have := ht.2
  linarith

theorem legQr_X (P : ℝ[X]) (z : ℝ) (hz : 1 < z) :
    ∫ t in (-1 : ℝ)..1, (X * P).eval t * (1 / (z - t)) = z * (∫ t in (-1 : ℝ)..1, P.eval t * (1 / (z - t))) - legI P := by
  rw [legI_apply, ← intervalIntegral.integral_const_mul, ← intervalIntegral.integral_sub
    ((legQr_integrable P z hz).const_mul z) (P.continuous.intervalIntegrable _ _)]
  apply intervalIntegral.integral_congr
  intro t ht
  rw [Set.uIcc_of_le (by norm_num)] at ht
  have h2 : z - t ≠ 0 := by have := ht.2; linarith
  simp only [eval_mul, eval_X]
  field_simp
  ring

theorem legQr_one (z : ℝ) (hz : 1 < z) : legQr 1 z = z * legQr 0 z - 2 := by
  rw [legQr, legQr, lp_one, lp_zero, ← legI_one, ← legQr_X 1 z hz, mul_one]

theorem legQr_add_two (m : Nat) (z : ℝ) (hz : 1 < z) :
    legQr (m + 2) z = z * legQr (m + 1) z - lb (m + 1) * legQr m z := by
  have h := legQr_X (lp (m + 1)) z hz
  rw [legI_lp (m + 1) (by omega), sub_zero] at h
  rw [legQr, legQr, ← h, legQr, ← intervalIntegral.integral_const_mul, ← intervalIntegral.integral_sub
    (legQr_integrable _ z hz) ((legQr_integrable _ z hz).const_mul _)]
  congr 1
  funext t
  rw [lp_add_two]
  simp only [eval_sub, eval_mul, eval_C]
  ring

/-- Associated Legendre polynomials. -/
noncomputable def lq (n k : Nat) : ℝ[X] := cont (fun i => lb (n + 2 + i)) k

theorem casoratian (n : Nat) (z : ℝ) (hz : 1 < z) :
    (lp (n + 1)).eval z * legQr n z - (lp n).eval z * legQr (n + 1) z = lh n := by
  induction n with
  | zero =>
    rw [zero_add, lp_one, lp_zero, legQr_one z hz, lh]
    simp
  | succ n ih =>
    rw [show n + 1 + 1 = n + 2 by ring, lp_add_two, legQr_add_two n z hz, lh_succ, ← ih]
    simp only [eval_sub, eval_mul, eval_C, eval_X]
    ring

theorem casoratian_gen (n k : Nat) (z : ℝ) (hz : 1 < z) :
    (lp (n + 1 + k)).eval z * legQr n z - (lp n).eval z * legQr (n + 1 + k) z = lh n * (lq n k).eval z := by
  induction k using Nat.strong_induction_on with
  | _ k ih =>
    match k with
    | 0 => rw [lq, cont_zero, eval_one, mul_one]; exact casoratian n z hz
    | 1 =>
      rw [lq, cont_one, eval_X, show n + 1 + 1 = n + 2 by ring, lp_add_two, legQr_add_two n z hz, ← casoratian n z hz]
      simp only [eval_sub, eval_mul, eval_C, eval_X]
      ring
    | k + 2 =>
      have h1 := ih (k + 1) (by omega)
      have h0 := ih k (by omega)
      rw [lq, cont_add_two, ← lq, ← lq, show n + 1 + (k + 2) = (n + 1 + k) + 2 by ring, lp_add_two,
        legQr_add_two _ z hz, show n + 1 + k + 1 = n + 1 + (k + 1) by ring, show n + 2 + k = n + 1 + (k + 1) by ring]
      simp only [eval_sub, eval_mul, eval_C, eval_X]
      linear_combination z * h1 - lb (n + 1 + (k + 1)) * h0

/-! ## Bounds for large arguments -/

theorem exists_u (z : ℝ) (hz : 2 ≤ z) : ∃ u : ℝ, 0 < u ∧ u ≤ 1 / z ∧ z = (u + u⁻¹) / 2 := by
  have h1 : 0 ≤ z ^ 2 - 1 := by nlinarith
  set s := Real.sqrt (z ^ 2 - 1) with hs
  have hs2 : s ^ 2 = z ^ 2 - 1 := Real.sq_sqrt h1
  have hs0 : 0 ≤ s := Real.sqrt_nonneg _
  have hsz : s < z := by nlinarith
  have hprod : (z - s) * (z + s) = 1 := by linear_combination -hs2
  have hinv : (z - s)⁻¹ = z + s := by
    exact inv_eq_of_mul_eq_one_right hprod
  refine ⟨z - s, by linarith, ?_, ?_⟩
  · rw [le_div_iff₀ (by linarith)]
    nlinarith
  · rw [hinv]; ring

theorem legQr_hasSum (m : Nat) (u : ℝ) (hu0 : 0 < u) (hu : u < 1) :
    HasSum (fun ν : Nat => 2 * legC m m * u ^ (m + 1) * (lf m ν * (u ^ 2) ^ ν)) (legQr m ((u + u⁻¹) / 2)) := by
  have h := legQ_series m (u : ℂ) (by exact_mod_cast hu0.ne') (by
    rw [Complex.norm_real, Real.norm_eq_abs, abs_of_pos hu0]; exact hu)
  have e : ((u : ℂ) + (u : ℂ)⁻¹) / 2 = (((u + u⁻¹) / 2 : ℝ) : ℂ) := by push_cast; rfl
  rw [e, legQr_eq] at h
  rw [← Complex.hasSum_ofReal]
  refine h.congr_fun ?_
  intro ν
  push_cast
  rfl

theorem legQr_lower (m : Nat) (u : ℝ) (hu0 : 0 < u) (hu : u < 1) :
    2 * legC m m * u ^ (m + 1) ≤ legQr m ((u + u⁻¹) / 2) := by
  have h := legQr_hasSum m u hu0 hu
  have hc := legC_pos m
  have := h.summable.le_tsum 0 fun ν _ => by
    have := lf_pos m ν
    positivity
  rw [h.tsum_eq, lf_zero] at this
  simpa using this

theorem legQr_upper (m : Nat) (u : ℝ) (hu0 : 0 < u) (hu : u ≤ 1 / 2) :
    |legQr m ((u + u⁻¹) / 2)| ≤ 4 * legC m m * u ^ (m + 1) := by
  have h := legQr_hasSum m u hu0 (by linarith)
  have hc := legC_pos m
  have hv : u ^ 2 ≤ 1 / 2 := by nlinarith
  have hg := (hasSum_geometric_of_lt_one (show (0 : ℝ) ≤ 1 / 2 by norm_num) (by norm_num)).mul_left
    (2 * legC m m * u ^ (m + 1))
  have hnn : 0 ≤ legQr m ((u + u⁻¹) / 2) := by
    have := legQr_lower m u hu0 (by linarith)
    have h2 : 0 < 2 * legC m m * u ^ (m + 1) := by positivity
    linarith
  rw [abs_of_nonneg hnn]
  have := hasSum_le (fun ν => ?_) h hg
  · refine this.trans (le_of_eq ?_)
    norm_num
    ring
  · refine mul_le_mul_of_nonneg_left ?_ (by positivity)
    calc lf m ν * (u ^ 2) ^ ν ≤ 1 * (1 / 2) ^ ν :=
          mul_le_mul (lf_le_one m ν) (pow_le_pow_left₀ (by positivity) hv ν) (by positivity) (by norm_num)
      _ = (1 / 2) ^ ν := one_mul _

theorem eval_T_u (m : ℤ) (u : ℝ) (hu : 0 < u) : (T ℝ m).eval ((u + u⁻¹) / 2) = (u ^ m + u ^ (-m)) / 2 := by
  have h : (u + u⁻¹) / 2 = Real.cosh (Real.log u) := by rw [Real.cosh_log hu]
  have e : ∀ k : ℤ, u ^ k = Real.exp (k * Real.log u) := by
    intro k
    rw [mul_comm, Real.exp_mul, Real.exp_log hu, Real.rpow_intCast]
  rw [h, T_real_cosh, Real.cosh_eq, e, e]
  push_cast
  rw [neg_mul]

/-- The Stieltjes polynomial approximates `‖p_n‖² / q_n`. -/
theorem legE_approx (n : Nat) (u : ℝ) (hu0 : 0 < u) (hu : u < 1) :
    |lh n / legQr n ((u + u⁻¹) / 2) - (legE n).eval ((u + u⁻¹) / 2)| ≤ 2 * u := by
  set lam := recip (lf n) with hlam
  obtain ⟨hs, hle⟩ := recip_summable (lf n) (lf_zero n) (lf_pos n) (lf_log n) (lf_anti n)
  rw [← hlam] at hs hle
  set q := legQr n ((u + u⁻¹) / 2) with hq
  have hlow := legQr_lower n u hu0 hu
  have hc := legC_pos n
  have hup : 0 < u ^ (n + 1) := by positivity
  have hq0 : 0 < q := lt_of_lt_of_le (by positivity) hlow
  have hu2 : u ^ 2 < 1 := by nlinarith
  -- real form of the reciprocal identity
  have hrec : (∑' k, lam k * (u ^ 2) ^ k) * q = 2 * legC n n * u ^ (n + 1) := by
    have h := legQ_recip n (u : ℂ) (by exact_mod_cast hu0.ne') (by
      rw [Complex.norm_real, Real.norm_eq_abs, abs_of_pos hu0]; exact hu)
    have e : ((u : ℂ) + (u : ℂ)⁻¹) / 2 = (((u + u⁻¹) / 2 : ℝ) : ℂ) := by push_cast; rfl
    rw [e, legQr_eq, ← hq, ← hlam] at h
    have e2 : ∑' k, (lam k : ℂ) * ((u : ℂ) ^ 2) ^ k = ((∑' k, lam k * (u ^ 2) ^ k : ℝ) : ℂ) := by
      rw [Complex.ofReal_tsum]
      refine tsum_congr fun k => ?_
      push_cast
      rfl
    rw [e2] at h
    exact_mod_cast h
  have hs2 : Summable fun k => lam k * (u ^ 2) ^ k := by
    refine Summable.of_norm_bounded hs fun k => ?_
    rw [norm_mul, Real.norm_eq_abs, norm_pow, Real.norm_eq_abs, abs_of_pos (show 0 < u ^ 2 by positivity)]
    exact mul_le_of_le_one_right (abs_nonneg _) (pow_le_one₀ (by positivity) hu2.le)
  have hz : ∀ k : Nat, u ^ (2 * (k : ℤ) - ((n : ℤ) + 1)) = (u ^ (n + 1))⁻¹ * (u ^ 2) ^ k := by
    intro k
    rw [zpow_sub₀ hu0.ne', zpow_mul]
    have e1 : u ^ (2 : ℤ) = u ^ 2 := by norm_cast
    have e2 : u ^ ((n : ℤ) + 1) = u ^ (n + 1) := by norm_cast
    rw [e1, e2, zpow_natCast]
    ring
  have hH1 : HasSum (fun k : Nat => lam k * u ^ (2 * (k : ℤ) - ((n : ℤ) + 1))) (2 ^ (n + 1) * (lh n / q)) := by
    have h := hs2.hasSum.mul_left (u ^ (n + 1))⁻¹
    have e : (u ^ (n + 1))⁻¹ * ∑' k, lam k * (u ^ 2) ^ k = 2 ^ (n + 1) * (lh n / q) := by
      rw [legC_self] at hrec
      rw [mul_div_assoc', eq_div_iff hq0.ne', mul_assoc, hrec]
      field_simp
      ring
    rw [e] at h
    refine h.congr_fun ?_
    intro k
    rw [hz]
    ring
  have hH2 : HasSum (fun k : Nat => shalf n k * lam k * (u ^ ((n : ℤ) + 1 - 2 * k) + u ^ (2 * (k : ℤ) - ((n : ℤ) + 1))))
      (2 ^ (n + 1) * (legE n).eval ((u + u⁻¹) / 2)) := by
    have h : ∀ k ∉ range (n + 2), shalf n k * lam k *
        (u ^ ((n : ℤ) + 1 - 2 * k) + u ^ (2 * (k : ℤ) - ((n : ℤ) + 1))) = 0 := by
      intro k hk
      rw [mem_range, not_lt] at hk
      rw [shalf_off n k hk]
      simp
    have e : ∑ k ∈ range (n + 2), shalf n k * lam k * (u ^ ((n : ℤ) + 1 - 2 * k) + u ^ (2 * (k : ℤ) - ((n : ℤ) + 1))) =
        2 ^ (n + 1) * (legE n).eval ((u + u⁻¹) / 2) := by
      have hp : (2 : ℝ) ^ n * (1 / 2) ^ n = 1 := by rw [← mul_pow]; norm_num
      rw [legE, eval_mul, eval_C, eval_finsetSum, pow_succ, show (2 : ℝ) ^ n * 2 * ((1 / 2) ^ n *
        ∑ i ∈ range (n + 2), eval ((u + u⁻¹) / 2) (C (shalf n i * recip (lf n) i) * T ℝ ((n : ℤ) + 1 - 2 * i))) =
        ((2 : ℝ) ^ n * (1 / 2) ^ n) * (2 * ∑ i ∈ range (n + 2),
          eval ((u + u⁻¹) / 2) (C (shalf n i * recip (lf n) i) * T ℝ ((n : ℤ) + 1 - 2 * i))) by ring, hp, one_mul, mul_sum]
      refine sum_congr rfl fun k _ => ?_
      rw [eval_mul, eval_C, eval_T_u _ u hu0, ← hlam, show -((n : ℤ) + 1 - 2 * k) = 2 * (k : ℤ) - ((n : ℤ) + 1) by ring]
      ring
    rw [← e]
    exact hasSum_sum_of_ne_finset_zero h
  have hH := hH1.sub hH2
  have hbound : ∀ k, ‖lam k * u ^ (2 * (k : ℤ) - ((n : ℤ) + 1)) -
      shalf n k * lam k * (u ^ ((n : ℤ) + 1 - 2 * k) + u ^ (2 * (k : ℤ) - ((n : ℤ) + 1)))‖ ≤ |lam k| * u := by
    intro k
    have hle1 : ∀ j : ℤ, 1 ≤ j → u ^ j ≤ u := by
      intro j hj
      have := zpow_le_zpow_right_of_le_one₀ hu0 hu.le hj
      simpa using this
    have hpos : ∀ j : ℤ, 0 < u ^ j := fun j => zpow_pos hu0 j
    rw [Real.norm_eq_abs, shalf]
    split_ifs with h1 h2
    · have e : lam k * u ^ (2 * (k : ℤ) - ((n : ℤ) + 1)) -
          1 * lam k * (u ^ ((n : ℤ) + 1 - 2 * k) + u ^ (2 * (k : ℤ) - ((n : ℤ) + 1))) =
          -(lam k * u ^ ((n : ℤ) + 1 - 2 * k)) := by ring
      rw [e, abs_neg, abs_mul, abs_of_pos (hpos _)]
      exact mul_le_mul_of_nonneg_left (hle1 _ (by omega)) (abs_nonneg _)
    · have e3 : (n : ℤ) + 1 - 2 * k = 0 := by omega
      have e4 : 2 * (k : ℤ) - ((n : ℤ) + 1) = 0 := by omega
      rw [e3, e4, zpow_zero]
      have : lam k * 1 - 1 / 2 * lam k * (1 + 1) = 0 := by ring
      rw [this, abs_zero]
      positivity
    · rw [zero_mul, zero_mul, sub_zero, abs_mul, abs_of_pos (hpos _)]
      exact mul_le_mul_of_nonneg_left (hle1 _ (by omega)) (abs_nonneg _)
  have hfin := tsum_of_norm_bounded (hs.mul_right u).hasSum hbound
  rw [hH.tsum_eq, Real.norm_eq_abs, tsum_mul_right] at hfin
  have htot : ∑' k, |lam k| ≤ 2 := by
    rw [hs.tsum_eq_zero_add, hlam, recip_zero _ (lf_zero n)]
    rw [hlam] at hle
    simp only [abs_one]
    linarith
  have e5 : 2 ^ (n + 1) * (lh n / q) - 2 ^ (n + 1) * eval ((u + u⁻¹) / 2) (legE n) =
      2 ^ (n + 1) * (lh n / q - eval ((u + u⁻¹) / 2) (legE n)) := by ring
  rw [e5, abs_mul, abs_of_pos (by positivity)] at hfin
  have h1 : (1 : ℝ) ≤ 2 ^ (n + 1) := one_le_pow₀ (by norm_num)
  have h2 := le_mul_of_one_le_left (abs_nonneg (lh n / q - eval ((u + u⁻¹) / 2) (legE n))) h1
  have h3 := mul_le_mul_of_nonneg_right htot hu0.le
  linarith

theorem poly_bound (P : ℝ[X]) (d : Nat) (hd : P.natDegree ≤ d) : ∃ K, 0 ≤ K ∧ ∀ z : ℝ, 1 ≤ z → |P.eval z| ≤ K * z ^ d := by
  refine ⟨∑ i ∈ range (d + 1), |P.coeff i|, sum_nonneg fun _ _ => abs_nonneg _, fun z hz => ?_⟩
  rw [eval_eq_sum_range' (n := d + 1) (by omega), sum_mul]
  refine (abs_sum_le_sum_abs _ _).trans (sum_le_sum fun i hi => ?_)
  rw [abs_mul, abs_of_pos (show 0 < z ^ i by positivity)]
  exact mul_le_mul_of_nonneg_left (pow_le_pow_right₀ hz (by have := mem_range.1 hi; omega)) (abs_nonneg _)

theorem degree_lt_of_bound (P : ℝ[X]) (d : Nat) (K : ℝ) (h : ∀ z : ℝ, 2 ≤ z → |P.eval z| ≤ K * z ^ d) :
    P.degree < (d + 1 : Nat) := by
  have hX : (X ^ (d + 1) : ℝ[X]) ≠ 0 := pow_ne_zero _ X_ne_zero
  have := (div_tendsto_atTop_zero_iff_degree_lt P (X ^ (d + 1)) hX).1 ?_
  · rwa [degree_X_pow] at this
  · have hlim : Tendsto (fun z : ℝ => K * z⁻¹) atTop (𝓝 0) := by
      have := tendsto_inv_atTop_zero (𝕜 := ℝ)
      simpa using this.const_mul K
    refine squeeze_zero_norm' ?_ hlim
    filter_upwards [eventually_ge_atTop 2] with z hz
    have hz0 : 0 < z := by linarith
    rw [eval_pow, eval_X, norm_div, Real.norm_eq_abs, norm_pow, Real.norm_eq_abs, abs_of_pos hz0,
      div_le_iff₀ (by positivity)]
    refine (h z hz).trans (le_of_eq ?_)
    rw [pow_succ]
    field_simp

/-- **Degree of the remainder.** -/
theorem stieltjes_remainder (n k d : Nat) (h1d : n ≤ d + (k + 1)) (h2d : k ≤ d + 1) :
    (lp (n + 1 + k) - legE n * lq n k).degree < (d + 1 : Nat) := by
  obtain ⟨K1, hK1, h1⟩ := poly_bound (lp n) n (lp_monic n).2.le
  obtain ⟨K2, hK2, h2⟩ := poly_bound (lq n k) k (cont_monic _ k).2.le
  have hc := legC_pos n
  have hcm := legC_pos (n + 1 + k)
  refine degree_lt_of_bound (lp (n + 1 + k) - legE n * lq n k) d
    (K1 * (2 * legC (n + 1 + k) (n + 1 + k : Nat) / legC n n) + 2 * K2) ?_
  intro z hz
  obtain ⟨u, hu0, hu1, rfl⟩ := exists_u z hz
  set z := (u + u⁻¹) / 2 with hzdef
  have hz0 : 0 < z := by linarith
  have hu2 : u ≤ 1 / 2 := hu1.trans (by rw [div_le_div_iff₀ hz0 (by norm_num)]; linarith)
  have huz : u * z ≤ 1 := by rwa [le_div_iff₀ hz0] at hu1
  have hcas := casoratian_gen n k z (by linarith)
  have hlow := legQr_lower n u hu0 (by linarith)
  have hupp := legQr_upper (n + 1 + k) u hu0 hu2
  have happ := legE_approx n u hu0 (by linarith)
  rw [← hzdef] at hlow hupp happ
  set q := legQr n z with hq
  set qk := legQr (n + 1 + k) z with hqk
  have hq0 : 0 < q := lt_of_lt_of_le (by positivity) hlow
  have hV : (lp (n + 1 + k) - legE n * lq n k).eval z =
      (lp n).eval z * (qk / q) + (lh n / q - (legE n).eval z) * (lq n k).eval z := by
    rw [eval_sub, eval_mul]
    field_simp
    linear_combination hcas
  rw [hV]
  have b1 : |qk / q| ≤ 2 * legC (n + 1 + k) (n + 1 + k : Nat) / legC n n * u ^ (k + 1) := by
    rw [abs_div, abs_of_pos hq0, div_le_iff₀ hq0]
    refine hupp.trans ?_
    have e : 4 * legC (n + 1 + k) (n + 1 + k : Nat) * u ^ (n + 1 + k + 1) =
        2 * legC (n + 1 + k) (n + 1 + k : Nat) / legC n n * u ^ (k + 1) * (2 * legC n n * u ^ (n + 1)) := by
      field_simp
      ring
    rw [e]
    exact mul_le_mul_of_nonneg_left hlow (by positivity)
  have p1 : z ^ n * u ^ (k + 1) ≤ z ^ d := by
    calc z ^ n * u ^ (k + 1) ≤ z ^ (d + (k + 1)) * u ^ (k + 1) :=
          mul_le_mul_of_nonneg_right (pow_le_pow_right₀ (by linarith) h1d) (by positivity)
      _ = z ^ d * (u * z) ^ (k + 1) := by rw [pow_add, mul_pow]; ring
      _ ≤ z ^ d * 1 := mul_le_mul_of_nonneg_left (pow_le_one₀ (by positivity) huz) (by positivity)
      _ = z ^ d := mul_one _
  have p2 : u * z ^ k ≤ z ^ d := by
    calc u * z ^ k ≤ u * z ^ (d + 1) := mul_le_mul_of_nonneg_left (pow_le_pow_right₀ (by linarith) h2d) hu0.le
      _ = z ^ d * (u * z) := by ring
      _ ≤ z ^ d * 1 := mul_le_mul_of_nonneg_left huz (by positivity)
      _ = z ^ d := mul_one _
  have t1 : |(lp n).eval z * (qk / q)| ≤ K1 * (2 * legC (n + 1 + k) (n + 1 + k : Nat) / legC n n) * z ^ d := by
    rw [abs_mul]
    calc |(lp n).eval z| * |qk / q| ≤ (K1 * z ^ n) * (2 * legC (n + 1 + k) (n + 1 + k : Nat) / legC n n * u ^ (k + 1)) :=
          mul_le_mul (h1 z (by linarith)) b1 (abs_nonneg _) (by positivity)
      _ = K1 * (2 * legC (n + 1 + k) (n + 1 + k : Nat) / legC n n) * (z ^ n * u ^ (k + 1)) := by ring
      _ ≤ _ := mul_le_mul_of_nonneg_left p1 (by positivity)
  have t2 : |(lh n / q - (legE n).eval z) * (lq n k).eval z| ≤ 2 * K2 * z ^ d := by
    rw [abs_mul]
    calc |lh n / q - (legE n).eval z| * |(lq n k).eval z| ≤ (2 * u) * (K2 * z ^ k) :=
          mul_le_mul happ (h2 z (by linarith)) (abs_nonneg _) (by positivity)
      _ = 2 * K2 * (u * z ^ k) := by ring
      _ ≤ _ := mul_le_mul_of_nonneg_left p2 (by positivity)
  refine (abs_add_le _ _).trans ?_
  rw [add_mul]
  exact add_le_add t1 t2

theorem stieltjes_degree (n k : Nat) (hk : 1 ≤ k) (hkn : k + 1 ≤ n) :
    (lp (n + 1 + k) - legE n * lq n k).degree < (n - 1 : Nat) := by
  have := stieltjes_remainder n k (n - 2) (by omega) (by omega)
  rwa [show n - 2 + 1 = n - 1 by omega] at this

end Modepy

import Verif.Proofs.LegendreQ
import Mathlib.Analysis.Normed.Group.Tannery

/-!
# Boundary values of the function of the second kind
-/

namespace Modepy
open Polynomial Finset Filter Topology

/-- The bound behind the radial limit. -/
theorem radial_bound (θ : ℝ) (h0 : 0 < θ) (h1 : θ < Real.pi) (r : ℝ) (hr0 : 0 < r) (hr1 : r < 1) (t : ℝ) :
    |t - Real.cos θ| ≤ (1 + 1 / Real.sin θ) *
      ‖((r : ℂ) * Complex.exp (θ * Complex.I) + ((r : ℂ) * Complex.exp (θ * Complex.I))⁻¹) / 2 - t‖ := by
  have hs : 0 < Real.sin θ := Real.sin_pos_of_pos_of_lt_pi h0 h1
  have hinv : ((r : ℂ) * Complex.exp (θ * Complex.I))⁻¹ = (r⁻¹ : ℝ) * (Real.cos θ - Real.sin θ * Complex.I) := by
    rw [mul_inv, ← Complex.exp_neg, ← neg_mul, ← Complex.ofReal_neg, Complex.exp_mul_I, ← Complex.ofReal_cos,
      ← Complex.ofReal_sin, Real.cos_neg, Real.sin_neg]
    push_cast
    ring
  set z := ((r : ℂ) * Complex.exp (θ * Complex.I) + ((r : ℂ) * Complex.exp (θ * Complex.I))⁻¹) / 2 - t with hz
  have hz2 : z = ((((r + r⁻¹) / 2 * Real.cos θ - t : ℝ)) : ℂ) + (((r - r⁻¹) / 2 * Real.sin θ : ℝ)) * Complex.I := by
    rw [hz, hinv, Complex.exp_mul_I, ← Complex.ofReal_cos, ← Complex.ofReal_sin]
    push_cast
    ring
  have hre : z.re = (r + r⁻¹) / 2 * Real.cos θ - t := by
    rw [hz2, Complex.add_re, Complex.re_ofReal_mul, Complex.ofReal_re, Complex.I_re, mul_zero, add_zero]
  have him : z.im = (r - r⁻¹) / 2 * Real.sin θ := by
    rw [hz2, Complex.add_im, Complex.im_ofReal_mul, Complex.ofReal_im, Complex.I_im, mul_one, zero_add]
  have b1 := Complex.abs_re_le_norm z
  have b2 := Complex.abs_im_le_norm z
  rw [hre] at b1
  rw [him] at b2
  have hri : 1 < r⁻¹ := (one_lt_inv₀ hr0).2 hr1
  have hrr : r * r⁻¹ = 1 := mul_inv_cancel₀ hr0.ne'
  have ha : (r + r⁻¹) / 2 - 1 ≤ (r⁻¹ - r) / 2 := by linarith
  have ha0 : 0 ≤ (r + r⁻¹) / 2 - 1 := by nlinarith
  have b3 : (r⁻¹ - r) / 2 * Real.sin θ ≤ ‖z‖ := by
    refine le_trans ?_ b2
    rw [abs_mul, abs_of_pos hs, abs_of_neg (by linarith)]
    nlinarith
  have b4 : ((r + r⁻¹) / 2 - 1) ≤ 1 / Real.sin θ * ‖z‖ := by
    rw [div_mul_eq_mul_div, le_div_iff₀ hs, one_mul]
    exact (mul_le_mul_of_nonneg_right ha hs.le).trans b3
  have b5 : |t - Real.cos θ| ≤ |(r + r⁻¹) / 2 * Real.cos θ - t| + ((r + r⁻¹) / 2 - 1) := by
    have e : t - Real.cos θ = -((r + r⁻¹) / 2 * Real.cos θ - t) + ((r + r⁻¹) / 2 - 1) * Real.cos θ := by ring
    rw [e]
    refine (abs_add_le _ _).trans ?_
    rw [abs_neg, abs_mul, abs_of_nonneg ha0]
    have := mul_le_of_le_one_right ha0 (Real.abs_cos_le_one θ)
    linarith
  linarith

/-- The value of the function of the second kind at a zero of `p_n`. -/
noncomputable def legQat (n : Nat) (τ : ℝ) : ℝ := -legI (lp n /ₘ (X - C τ))

theorem radial_limit (n : Nat) (θ : ℝ) (h0 : 0 < θ) (h1 : θ < Real.pi) (hroot : (lp n).eval (Real.cos θ) = 0) :
    Tendsto (fun r : ℝ => legQ n (((r : ℂ) * Complex.exp (θ * Complex.I) +
      ((r : ℂ) * Complex.exp (θ * Complex.I))⁻¹) / 2)) (𝓝[<] 1) (𝓝 (legQat n (Real.cos θ) : ℂ)) := by
  set τ := Real.cos θ with hτ
  set w := Complex.exp (θ * Complex.I) with hw
  set π := lp n /ₘ (X - C τ) with hπ
  have hfac : ∀ t, (lp n).eval t = (t - τ) * π.eval t := by
    intro t
    have := mul_divByMonic_eq_iff_isRoot.2 hroot
    rw [← hπ] at this
    conv_lhs => rw [← this]
    simp
  obtain ⟨M, hM⟩ := isCompact_Icc.exists_bound_of_continuousOn
    (f := fun t => π.eval t) (s := Set.Icc (-1 : ℝ) 1) π.continuous.continuousOn
  have hM0 : 0 ≤ M := (norm_nonneg _).trans (hM 0 (by norm_num))
  have hs : 0 < Real.sin θ := Real.sin_pos_of_pos_of_lt_pi h0 h1
  have hwne : w ≠ 0 := Complex.exp_ne_zero _
  have hlim : (legQat n τ : ℂ) = ∫ t in (-1 : ℝ)..1, ((-π.eval t : ℝ) : ℂ) := by
    rw [intervalIntegral.integral_ofReal, intervalIntegral.integral_neg, legQat, legI_apply]
  rw [hlim]
  have hev : ∀ᶠ r : ℝ in 𝓝[<] 1, 0 < r ∧ r < 1 := by
    filter_upwards [self_mem_nhdsWithin, nhdsWithin_le_nhds (lt_mem_nhds (show (0 : ℝ) < 1 by norm_num))] with r a b
    exact ⟨b, a⟩
  refine intervalIntegral.tendsto_integral_filter_of_dominated_convergence (fun _ => M * (1 + 1 / Real.sin θ)) ?_ ?_ ?_ ?_
  · filter_upwards [hev] with r hr
    refine ContinuousOn.aestronglyMeasurable ?_ measurableSet_uIoc
    refine ContinuousOn.mul ?_ ?_
    · exact (Complex.continuous_ofReal.comp (lp n).continuous).continuousOn
    · refine ContinuousOn.div continuousOn_const (by fun_prop) ?_
      intro t ht
      rw [Set.uIoc_of_le (by norm_num)] at ht
      refine (hasSum_U t (abs_le.2 ⟨ht.1.le, ht.2⟩) (r * w) ?_ ?_).1
      · exact mul_ne_zero (by exact_mod_cast hr.1.ne') hwne
      · rw [norm_mul, hw, Complex.norm_exp_ofReal_mul_I, mul_one, Complex.norm_real, Real.norm_eq_abs, abs_of_pos hr.1]
        exact hr.2
  · filter_upwards [hev] with r hr
    refine Eventually.of_forall fun t ht => ?_
    rw [Set.uIoc_of_le (by norm_num)] at ht
    have hb := radial_bound θ h0 h1 r hr.1 hr.2 t
    rw [← hw, ← hτ] at hb
    set Z := ((r : ℂ) * w + ((r : ℂ) * w)⁻¹) / 2 - t with hZ
    have hZ0 : Z ≠ 0 := by
      refine (hasSum_U t (abs_le.2 ⟨ht.1.le, ht.2⟩) (r * w) ?_ ?_).1
      · exact mul_ne_zero (by exact_mod_cast hr.1.ne') hwne
      · rw [norm_mul, hw, Complex.norm_exp_ofReal_mul_I, mul_one, Complex.norm_real, Real.norm_eq_abs, abs_of_pos hr.1]
        exact hr.2
    have hZp : 0 < ‖Z‖ := norm_pos_iff.2 hZ0
    rw [norm_mul, norm_div, norm_one, Complex.norm_real, Real.norm_eq_abs, hfac, abs_mul, mul_one_div, div_le_iff₀ hZp]
    have h2 := hM t ⟨ht.1.le, ht.2⟩
    rw [Real.norm_eq_abs] at h2
    calc |t - τ| * |eval t π| ≤ ((1 + 1 / Real.sin θ) * ‖Z‖) * M := mul_le_mul hb h2 (abs_nonneg _) (by positivity)
      _ = M * (1 + 1 / Real.sin θ) * ‖Z‖ := by ring
  · exact intervalIntegrable_const
  · have hae : ∀ᵐ t : ℝ ∂MeasureTheory.volume, t ≠ τ := MeasureTheory.Measure.ae_ne _ _
    filter_upwards [hae] with t ht _
    have hz : Tendsto (fun r : ℝ => ((r : ℂ) * w + ((r : ℂ) * w)⁻¹) / 2 - t) (𝓝[<] 1) (𝓝 ((w + w⁻¹) / 2 - t)) := by
      have hc : ContinuousAt (fun r : ℝ => ((r : ℂ) * w + ((r : ℂ) * w)⁻¹) / 2 - t) 1 := by
        have h1 : ContinuousAt (fun r : ℝ => (r : ℂ) * w) 1 := by fun_prop
        have h2 := h1.inv₀ (by simpa using hwne)
        exact ((h1.add h2).div_const 2).sub continuousAt_const
      have := hc.tendsto.mono_left (nhdsWithin_le_nhds (s := Set.Iio 1))
      simpa using this
    have hww : (w + w⁻¹) / 2 = (τ : ℂ) := by
      rw [hw, ← Complex.exp_neg, hτ, Complex.ofReal_cos, Complex.cos, neg_mul]
    rw [hww] at hz
    have hne : (τ : ℂ) - t ≠ 0 := by
      rw [← Complex.ofReal_sub]
      exact_mod_cast sub_ne_zero.2 (Ne.symm ht)
    have := (hz.inv₀ hne).const_mul (((lp n).eval t : ℝ) : ℂ)
    simp only [one_div]
    convert this using 2
    rw [hfac, eq_comm]
    field_simp
    push_cast
    ring

theorem radial_series (lam : Nat → ℝ) (hl : Summable fun k => |lam k|) (w : ℂ) (hw : ‖w‖ = 1) :
    Tendsto (fun r : ℝ => ∑' k, (lam k : ℂ) * (((r : ℂ) * w) ^ 2) ^ k) (𝓝[<] 1) (𝓝 (∑' k, (lam k : ℂ) * (w ^ 2) ^ k)) := by
  refine tendsto_tsum_of_dominated_convergence hl ?_ ?_
  · intro k
    have hc : ContinuousAt (fun r : ℝ => (lam k : ℂ) * (((r : ℂ) * w) ^ 2) ^ k) 1 := by fun_prop
    have := hc.tendsto.mono_left (nhdsWithin_le_nhds (s := Set.Iio 1))
    simpa using this
  · have hev : ∀ᶠ r : ℝ in 𝓝[<] 1, 0 < r ∧ r < 1 := by
      filter_upwards [self_mem_nhdsWithin, nhdsWithin_le_nhds (lt_mem_nhds (show (0 : ℝ) < 1 by norm_num))] with r a b
      exact ⟨b, a⟩
    filter_upwards [hev] with r hr k
    rw [norm_mul, norm_pow, norm_pow, norm_mul, hw, mul_one, Complex.norm_real, Complex.norm_real, Real.norm_eq_abs,
      Real.norm_eq_abs, abs_of_pos hr.1]
    refine mul_le_of_le_one_right (abs_nonneg _) (pow_le_one₀ (by positivity) (pow_le_one₀ hr.1.le hr.2.le))

/-- **The boundary identity.** -/
theorem legQ_boundary (n : Nat) (θ : ℝ) (h0 : 0 < θ) (h1 : θ < Real.pi) (hroot : (lp n).eval (Real.cos θ) = 0) :
    (∑' k, (recip (lf n) k : ℂ) * (Complex.exp (θ * Complex.I) ^ 2) ^ k) * (legQat n (Real.cos θ) : ℂ) =
      2 * legC n n * Complex.exp (θ * Complex.I) ^ (n + 1) := by
  have hsum := (recip_summable (lf n) (lf_zero n) (lf_pos n) (lf_log n) (lf_anti n)).1
  have t1 := (radial_series _ hsum _ (Complex.norm_exp_ofReal_mul_I θ)).mul (radial_limit n θ h0 h1 hroot)
  have t2 : Tendsto (fun r : ℝ => 2 * (legC n n : ℂ) * ((r : ℂ) * Complex.exp (θ * Complex.I)) ^ (n + 1)) (𝓝[<] 1)
      (𝓝 (2 * legC n n * Complex.exp (θ * Complex.I) ^ (n + 1))) := by
    have hc : ContinuousAt (fun r : ℝ => 2 * (legC n n : ℂ) * ((r : ℂ) * Complex.exp (θ * Complex.I)) ^ (n + 1)) 1 := by
      fun_prop
    have := hc.tendsto.mono_left (nhdsWithin_le_nhds (s := Set.Iio 1))
    simpa using this
  refine tendsto_nhds_unique t1 (t2.congr' ?_)
  have hev : ∀ᶠ r : ℝ in 𝓝[<] 1, 0 < r ∧ r < 1 := by
    filter_upwards [self_mem_nhdsWithin, nhdsWithin_le_nhds (lt_mem_nhds (show (0 : ℝ) < 1 by norm_num))] with r a b
    exact ⟨b, a⟩
  filter_upwards [hev] with r hr
  rw [← legQ_recip]
  · exact mul_ne_zero (by exact_mod_cast hr.1.ne') (Complex.exp_ne_zero _)
  · rw [norm_mul, Complex.norm_exp_ofReal_mul_I, mul_one, Complex.norm_real, Real.norm_eq_abs, abs_of_pos hr.1]
    exact hr.2

end Modepy

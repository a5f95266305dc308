import Verif.Model.Strip
import Mathlib.MeasureTheory.Integral.IntervalIntegral.FundThmCalculus
import Mathlib.Analysis.Calculus.InverseFunctionTheorem.Deriv
import Mathlib.Analysis.SpecialFunctions.Arsinh
import Mathlib.MeasureTheory.Integral.DominatedConvergence

/-!
# Elliptic integrals and Jacobi functions
-/

namespace Modepy
open Real Set Filter Topology MeasureTheory

section
variable {m : ℝ}

theorem ell_radicand_pos (h1 : m < 1) (θ : ℝ) : 0 < 1 - m * sin θ ^ 2 := by
  have h := sin_sq_le_one θ
  have h0 := sq_nonneg (sin θ)
  rcases le_or_gt m 0 with hm | hm
  · nlinarith
  · nlinarith

theorem continuous_ellIntegrand (h1 : m < 1) : Continuous fun θ : ℝ => 1 / √(1 - m * sin θ ^ 2) := by
  refine Continuous.div continuous_const (by fun_prop) fun θ => ?_
  exact (sqrt_pos.2 (ell_radicand_pos h1 θ)).ne'

theorem ellIntegrand_pos (h1 : m < 1) (θ : ℝ) : 0 < 1 / √(1 - m * sin θ ^ 2) :=
  one_div_pos.2 (sqrt_pos.2 (ell_radicand_pos h1 θ))

theorem ellIntegrand_ge_one (h0 : 0 ≤ m) (h1 : m < 1) (θ : ℝ) : 1 ≤ 1 / √(1 - m * sin θ ^ 2) := by
  rw [le_div_iff₀ (sqrt_pos.2 (ell_radicand_pos h1 θ)), one_mul, sqrt_le_one]
  nlinarith [sq_nonneg (sin θ)]

theorem hasDerivAt_ellipF (h1 : m < 1) (φ : ℝ) : HasDerivAt (ellipF m) (1 / √(1 - m * sin φ ^ 2)) φ :=
  intervalIntegral.integral_hasDerivAt_right ((continuous_ellIntegrand h1).intervalIntegrable _ _)
    (continuous_ellIntegrand h1).stronglyMeasurable.stronglyMeasurableAtFilter (continuous_ellIntegrand h1).continuousAt

theorem ellipF_zero : ellipF m 0 = 0 := by rw [ellipF, intervalIntegral.integral_same]

theorem ellipF_neg (φ : ℝ) : ellipF m (-φ) = -ellipF m φ := by
  have h := intervalIntegral.integral_comp_neg (a := 0) (b := φ) fun θ : ℝ => 1 / √(1 - m * sin θ ^ 2)
  simp only [sin_neg, neg_sq, neg_zero] at h
  rw [ellipF, ellipF, h, intervalIntegral.integral_symm]

theorem strictMono_ellipF (h1 : m < 1) : StrictMono (ellipF m) :=
  strictMono_of_hasDerivAt_pos (fun φ => hasDerivAt_ellipF h1 φ) fun φ => ellIntegrand_pos h1 φ

theorem le_ellipF (h0 : 0 ≤ m) (h1 : m < 1) {φ : ℝ} (hφ : 0 ≤ φ) : φ ≤ ellipF m φ := by
  have h := intervalIntegral.integral_mono_on (μ := volume) (f := fun _ => (1 : ℝ)) hφ (continuous_const.intervalIntegrable _ _)
    ((continuous_ellIntegrand h1).intervalIntegrable _ _) fun θ _ => ellIntegrand_ge_one h0 h1 θ
  simpa [ellipF] using h

theorem surjective_ellipF (h0 : 0 ≤ m) (h1 : m < 1) : Function.Surjective (ellipF m) := by
  have hc : Continuous (ellipF m) := continuous_iff_continuousAt.2 fun φ => (hasDerivAt_ellipF h1 φ).continuousAt
  refine hc.surjective ?_ ?_
  · refine tendsto_atTop_mono' atTop ?_ tendsto_id
    filter_upwards [eventually_ge_atTop 0] with φ hφ using le_ellipF h0 h1 hφ
  · have : Tendsto (fun φ : ℝ => -(ellipF m (-φ))) atBot atBot := by
      refine tendsto_neg_atTop_atBot.comp ?_
      refine tendsto_atTop_mono' atBot ?_ tendsto_neg_atBot_atTop
      filter_upwards [eventually_le_atBot 0] with φ hφ using le_ellipF h0 h1 (by linarith)
    refine this.congr fun φ => ?_
    rw [ellipF_neg, neg_neg]

theorem ellipF_am (h0 : 0 ≤ m) (h1 : m < 1) (u : ℝ) : ellipF m (ellipAm m u) = u :=
  Function.invFun_eq (surjective_ellipF h0 h1 u)

theorem am_ellipF (h1 : m < 1) (φ : ℝ) : ellipAm m (ellipF m φ) = φ :=
  Function.leftInverse_invFun (strictMono_ellipF h1).injective φ

theorem strictMono_am (h0 : 0 ≤ m) (h1 : m < 1) : StrictMono (ellipAm m) := by
  intro u v h
  rw [← (strictMono_ellipF h1).lt_iff_lt, ellipF_am h0 h1, ellipF_am h0 h1]
  exact h

theorem continuous_am (h0 : 0 ≤ m) (h1 : m < 1) : Continuous (ellipAm m) :=
  (strictMono_am h0 h1).monotone.continuous_of_surjective fun φ => ⟨ellipF m φ, am_ellipF h1 φ⟩

theorem hasDerivAt_am (h0 : 0 ≤ m) (h1 : m < 1) (u : ℝ) :
    HasDerivAt (ellipAm m) (√(1 - m * sin (ellipAm m u) ^ 2)) u := by
  have h := (hasDerivAt_ellipF h1 (ellipAm m u)).of_local_left_inverse (g := ellipAm m) (a := u)
    (continuous_am h0 h1).continuousAt (ellIntegrand_pos h1 _).ne' (Eventually.of_forall fun v => ellipF_am h0 h1 v)
  refine h.congr_deriv ?_
  rw [one_div, inv_inv]

theorem am_neg (h0 : 0 ≤ m) (h1 : m < 1) (u : ℝ) : ellipAm m (-u) = -ellipAm m u := by
  apply (strictMono_ellipF h1).injective
  rw [ellipF_am h0 h1, ellipF_neg, ellipF_am h0 h1]

theorem am_ellipk (h1 : m < 1) : ellipAm m (ellipk m) = π / 2 := am_ellipF h1 _

theorem ellipk_ge (h0 : 0 ≤ m) (h1 : m < 1) : π / 2 ≤ ellipk m := le_ellipF h0 h1 (by positivity)

theorem ellipk_pos (h0 : 0 ≤ m) (h1 : m < 1) : 0 < ellipk m := lt_of_lt_of_le (by positivity) (ellipk_ge h0 h1)

theorem ellipk_le (h1 : m < 1) (h0 : 0 ≤ m) : ellipk m ≤ π / 2 / √(1 - m) := by
  have hs : 0 < √(1 - m) := sqrt_pos.2 (by linarith)
  have h := intervalIntegral.integral_mono_on (μ := volume) (g := fun _ => 1 / √(1 - m)) (show (0 : ℝ) ≤ π / 2 by positivity)
    ((continuous_ellIntegrand h1).intervalIntegrable _ _) (continuous_const.intervalIntegrable _ _) fun θ _ => by
      refine one_div_le_one_div_of_le hs (sqrt_le_sqrt ?_)
      nlinarith [sin_sq_le_one θ]
  rw [intervalIntegral.integral_const, smul_eq_mul] at h
  rw [ellipk, ellipF]
  refine h.trans (le_of_eq ?_)
  ring

/-- `K` grows with the parameter. -/
theorem ellipk_lt {m' : ℝ} (hm : m < m') (h1 : m' < 1) : ellipk m < ellipk m' := by
  have h1' : m < 1 := hm.trans h1
  refine intervalIntegral.integral_lt_integral_of_continuousOn_of_le_of_exists_lt (show (0 : ℝ) < π / 2 by positivity)
    (continuous_ellIntegrand h1').continuousOn (continuous_ellIntegrand h1).continuousOn (fun θ _ => ?_)
    ⟨π / 2, ⟨by positivity, le_rfl⟩, ?_⟩
  · refine one_div_le_one_div_of_le (sqrt_pos.2 (ell_radicand_pos h1 θ)) (sqrt_le_sqrt ?_)
    nlinarith [sq_nonneg (sin θ)]
  · refine one_div_lt_one_div_of_lt (sqrt_pos.2 (ell_radicand_pos h1 _)) (sqrt_lt_sqrt (ell_radicand_pos h1 _).le ?_)
    rw [sin_pi_div_two]
    linarith

theorem continuousOn_ellipk : ContinuousOn ellipk (Iio 1) := by
  intro m hm
  rw [mem_Iio] at hm
  obtain ⟨b, hb1, hb2⟩ := exists_between hm
  have key : Continuous fun m : ℝ => ∫ θ in (0 : ℝ)..(π / 2), 1 / √(1 - min m b * sin θ ^ 2) := by
    refine intervalIntegral.continuous_parametric_intervalIntegral_of_continuous' ?_ _ _
    refine Continuous.div continuous_const (by fun_prop) fun p => ?_
    exact (sqrt_pos.2 (ell_radicand_pos ((min_le_right _ _).trans_lt hb2) _)).ne'
  refine ContinuousAt.continuousWithinAt ?_
  refine key.continuousAt.congr ?_
  filter_upwards [Iio_mem_nhds hb1] with x hx
  rw [min_eq_left (le_of_lt hx)]
  rfl

/-- Near `m = 1`, `K` grows at least logarithmically. -/
theorem ellipk_ge_arsinh {ε : ℝ} (h0 : 0 < ε) : arsinh (π / 2 / √ε) ≤ ellipk (1 - ε) := by
  have hm : (1 : ℝ) - ε < 1 := by linarith
  have hs : 0 < √ε := sqrt_pos.2 h0
  -- substitute the complementary angle
  have hsub : ellipk (1 - ε) = ∫ x in (0 : ℝ)..(π / 2), 1 / √(1 - (1 - ε) * cos x ^ 2) := by
    have h := intervalIntegral.integral_comp_sub_left (a := 0) (b := π / 2) (fun θ : ℝ => 1 / √(1 - (1 - ε) * sin θ ^ 2)) (π / 2)
    simp only [sin_pi_div_two_sub, sub_self, sub_zero] at h
    rw [h]
    rfl
  have hder : ∀ x : ℝ, HasDerivAt (fun x => arsinh (x / √ε)) (1 / √(ε + x ^ 2)) x := by
    intro x
    have h := ((hasDerivAt_id x).div_const √ε).arsinh
    refine h.congr_deriv ?_
    simp only [id, smul_eq_mul]
    have h3 : √(ε + x ^ 2) = √ε * √(1 + (x / √ε) ^ 2) := by
      rw [← sqrt_mul h0.le, div_pow, sq_sqrt h0.le]
      congr 1
      field_simp
    rw [h3]
    field_simp
  have hcont : Continuous fun x : ℝ => 1 / √(ε + x ^ 2) :=
    Continuous.div continuous_const (by fun_prop) fun x => (sqrt_pos.2 (by positivity)).ne'
  have hint : ∫ x in (0 : ℝ)..(π / 2), 1 / √(ε + x ^ 2) = arsinh (π / 2 / √ε) := by
    rw [intervalIntegral.integral_eq_sub_of_hasDerivAt (fun x _ => hder x) (hcont.intervalIntegrable _ _)]
    simp
  rw [← hint, hsub]
  have hrad : ∀ x : ℝ, 0 < 1 - (1 - ε) * cos x ^ 2 := by
    intro x
    have := ell_radicand_pos hm (π / 2 - x)
    rwa [sin_pi_div_two_sub] at this
  refine intervalIntegral.integral_mono_on (by positivity) (hcont.intervalIntegrable _ _) ?_ fun x hx => ?_
  · refine Continuous.intervalIntegrable ?_ _ _
    exact Continuous.div continuous_const (by fun_prop) fun x => (sqrt_pos.2 (hrad x)).ne'
  · refine one_div_le_one_div_of_le (sqrt_pos.2 (hrad x)) (sqrt_le_sqrt ?_)
    have h2 : sin x ^ 2 ≤ x ^ 2 := by
      rw [sq_le_sq, abs_of_nonneg (sin_nonneg_of_nonneg_of_le_pi hx.1 (by linarith [hx.2, pi_pos])), abs_of_nonneg hx.1]
      exact sin_le hx.1
    have h3 := sin_sq_add_cos_sq x
    nlinarith [sq_nonneg (cos x), cos_sq_le_one x]

end

end Modepy

import Mathlib.RingTheory.PowerSeries.Inverse
import Mathlib.Algebra.Order.Field.Basic
import Mathlib.Analysis.Normed.Ring.InfiniteSum
import Mathlib.Topology.Algebra.InfiniteSum.Order
import Mathlib.Analysis.SpecificLimits.Normed
import Mathlib.Analysis.Complex.Basic
import Mathlib.Tactic.Positivity
import Mathlib.Tactic.Linarith
import Mathlib.Tactic.FieldSimp

/-!
# Kaluza's theorem

The reciprocal of a power series with log-convex, positive, decreasing coefficients has nonpositive coefficients beyond the
first, whose absolute values sum to at most one.
-/

namespace Modepy
open Finset

/-- Coefficients of the reciprocal power series. -/
noncomputable def recip (f : Nat → ℝ) (n : Nat) : ℝ := PowerSeries.coeff n (PowerSeries.mk f)⁻¹

theorem recip_conv (f : Nat → ℝ) (h0 : f 0 = 1) (n : Nat) :
    ∑ p ∈ antidiagonal n, recip f p.1 * f p.2 = if n = 0 then 1 else 0 := by
  have h : (PowerSeries.mk f)⁻¹ * PowerSeries.mk f = 1 := by
    rw [mul_comm]
    apply PowerSeries.mul_inv_cancel
    rw [← PowerSeries.coeff_zero_eq_constantCoeff_apply, PowerSeries.coeff_mk, h0]
    exact one_ne_zero
  have h2 := congrArg (PowerSeries.coeff n) h
  rw [PowerSeries.coeff_mul, PowerSeries.coeff_one] at h2
  simpa only [recip, PowerSeries.coeff_mk] using h2

theorem recip_conv_range (f : Nat → ℝ) (h0 : f 0 = 1) (n : Nat) :
    ∑ k ∈ range (n + 1), recip f k * f (n - k) = if n = 0 then 1 else 0 := by
  rw [← recip_conv f h0 n, Finset.Nat.sum_antidiagonal_eq_sum_range_succ fun i j => recip f i * f j]

theorem recip_zero (f : Nat → ℝ) (h0 : f 0 = 1) : recip f 0 = 1 := by
  have := recip_conv_range f h0 0
  simpa [h0] using this

theorem recip_one (f : Nat → ℝ) (h0 : f 0 = 1) : recip f 1 = -f 1 := by
  have := recip_conv_range f h0 1
  simp [Finset.sum_range_succ, h0, recip_zero f h0] at this
  linarith

/-- **Kaluza.** -/
theorem recip_nonpos (f : Nat → ℝ) (h0 : f 0 = 1) (hpos : ∀ k, 0 < f k)
    (hlog : ∀ k, f (k + 1) * f (k + 1) ≤ f k * f (k + 2)) (n : Nat) : recip f (n + 1) ≤ 0 := by
  have hmono : Monotone fun k => f (k + 1) / f k := by
    refine monotone_nat_of_le_succ fun k => ?_
    rw [div_le_div_iff₀ (hpos k) (hpos (k + 1))]
    linarith [hlog k]
  induction n using Nat.strong_induction_on with
  | _ n ih =>
    rcases Nat.eq_zero_or_pos n with rfl | hn
    · rw [recip_one f h0]
      linarith [hpos 1]
    · have e1 := recip_conv_range f h0 (n + 1)
      have e2 := recip_conv_range f h0 n
      rw [if_neg (by omega)] at e1 e2
      rw [sum_range_succ, Nat.sub_self, h0, mul_one] at e1
      have e3 : recip f (n + 1) = -∑ k ∈ range (n + 1), recip f k * (f (n + 1 - k) - f (n + 1) / f n * f (n - k)) := by
        have : ∑ k ∈ range (n + 1), recip f k * (f (n + 1 - k) - f (n + 1) / f n * f (n - k)) =
            ∑ k ∈ range (n + 1), recip f k * f (n + 1 - k) -
              f (n + 1) / f n * ∑ k ∈ range (n + 1), recip f k * f (n - k) := by
          rw [mul_sum, ← sum_sub_distrib]
          exact sum_congr rfl fun k _ => by ring
        rw [this, e2]
        linarith
      rw [e3, neg_nonpos]
      refine sum_nonneg fun k hk => ?_
      have hk := mem_range.1 hk
      rcases Nat.eq_zero_or_pos k with rfl | hk0
      · have hne := (hpos n).ne'
        rw [Nat.sub_zero, Nat.sub_zero, div_mul_cancel₀ _ hne, sub_self, mul_zero]
      · obtain ⟨j, rfl⟩ : ∃ j, k = j + 1 := ⟨k - 1, by omega⟩
        have h1 := ih j (by omega)
        have h2 : f (n - (j + 1) + 1) / f (n - (j + 1)) ≤ f (n + 1) / f n := hmono (by omega)
        rw [div_le_iff₀ (hpos _), show n - (j + 1) + 1 = n + 1 - (j + 1) by omega] at h2
        exact mul_nonneg_of_nonpos_of_nonpos h1 (by linarith)

theorem recip_partial (f : Nat → ℝ) (h0 : f 0 = 1) (hpos : ∀ k, 0 < f k)
    (hlog : ∀ k, f (k + 1) * f (k + 1) ≤ f k * f (k + 2)) (hanti : Antitone f) (n : Nat) :
    ∑ k ∈ range n, |recip f (k + 1)| ≤ 1 := by
  rcases Nat.eq_zero_or_pos n with rfl | hn
  · simp
  have e := recip_conv_range f h0 n
  rw [if_neg (by omega), sum_range_succ', recip_zero f h0, one_mul, Nat.sub_zero] at e
  have h1 : f n * ∑ k ∈ range n, |recip f (k + 1)| ≤ f n := by
    rw [mul_sum]
    have : ∑ k ∈ range n, f n * |recip f (k + 1)| ≤ ∑ k ∈ range n, -(recip f (k + 1) * f (n - (k + 1))) := by
      refine sum_le_sum fun k hk => ?_
      have hr := recip_nonpos f h0 hpos hlog k
      rw [abs_of_nonpos hr]
      have := mul_le_mul_of_nonneg_left (hanti (show n - (k + 1) ≤ n by omega)) (neg_nonneg.2 hr)
      linarith
    rw [sum_neg_distrib] at this
    linarith
  have := hpos n
  by_contra hc
  push Not at hc
  have := mul_lt_mul_of_pos_left hc this
  linarith

theorem recip_summable (f : Nat → ℝ) (h0 : f 0 = 1) (hpos : ∀ k, 0 < f k)
    (hlog : ∀ k, f (k + 1) * f (k + 1) ≤ f k * f (k + 2)) (hanti : Antitone f) :
    Summable (fun k => |recip f k|) ∧ ∑' k, |recip f (k + 1)| ≤ 1 := by
  have hs : Summable fun k => |recip f (k + 1)| :=
    summable_of_sum_range_le (fun _ => abs_nonneg _) (recip_partial f h0 hpos hlog hanti)
  exact ⟨(summable_nat_add_iff 1).1 hs,
    Real.tsum_le_of_sum_range_le (fun _ => abs_nonneg _) (recip_partial f h0 hpos hlog hanti)⟩

/-- Inside the unit disc the two series are reciprocal. -/
theorem recip_tsum (f : Nat → ℝ) (h0 : f 0 = 1) (hpos : ∀ k, 0 < f k)
    (hlog : ∀ k, f (k + 1) * f (k + 1) ≤ f k * f (k + 2)) (hanti : Antitone f) (v : ℂ) (hv : ‖v‖ < 1) :
    (∑' k, (recip f k : ℂ) * v ^ k) * ∑' k, (f k : ℂ) * v ^ k = 1 := by
  have hf1 : ∀ k, f k ≤ 1 := fun k => h0 ▸ hanti (Nat.zero_le k)
  have hg : Summable fun k : Nat => ‖v‖ ^ k := summable_geometric_of_lt_one (norm_nonneg _) hv
  have hs1 : Summable fun k => ‖(recip f k : ℂ) * v ^ k‖ := by
    refine Summable.of_nonneg_of_le (fun _ => norm_nonneg _) (fun k => ?_) (recip_summable f h0 hpos hlog hanti).1
    rw [norm_mul, norm_pow, Complex.norm_real, Real.norm_eq_abs]
    exact mul_le_of_le_one_right (abs_nonneg _) (pow_le_one₀ (norm_nonneg _) hv.le)
  have hs2 : Summable fun k => ‖(f k : ℂ) * v ^ k‖ := by
    refine Summable.of_nonneg_of_le (fun _ => norm_nonneg _) (fun k => ?_) hg
    rw [norm_mul, norm_pow, Complex.norm_real, Real.norm_eq_abs, abs_of_pos (hpos k)]
    exact mul_le_of_le_one_left (by positivity) (hf1 k)
  rw [tsum_mul_tsum_eq_tsum_sum_antidiagonal_of_summable_norm hs1 hs2]
  have : ∀ n, ∑ kl ∈ antidiagonal n, (recip f kl.1 : ℂ) * v ^ kl.1 * ((f kl.2 : ℂ) * v ^ kl.2) =
      if n = 0 then 1 else 0 := by
    intro n
    have h := recip_conv f h0 n
    have e : ∑ kl ∈ antidiagonal n, (recip f kl.1 : ℂ) * v ^ kl.1 * ((f kl.2 : ℂ) * v ^ kl.2) =
        ((∑ p ∈ antidiagonal n, recip f p.1 * f p.2 : ℝ) : ℂ) * v ^ n := by
      push_cast
      rw [sum_mul]
      refine sum_congr rfl fun p hp => ?_
      rw [← mem_antidiagonal.1 hp, pow_add]
      ring
    rw [e, h]
    split_ifs with h1
    · rw [h1]; simp
    · simp
  simp only [this]
  rw [tsum_ite_eq]

end Modepy

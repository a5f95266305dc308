import Verif.Spec.Measure
import Mathlib.MeasureTheory.Integral.Prod
import Mathlib.MeasureTheory.Integral.Pi
import Mathlib.MeasureTheory.Integral.IntervalIntegral.FundThmCalculus
import Mathlib.MeasureTheory.Integral.IntervalIntegral.IntegrationByParts
import Mathlib.Analysis.SpecialFunctions.Integrals.Basic

/-!
# Dirichlet's integral over the reference simplex
-/

namespace Modepy
open Spec MeasureTheory Set

/-- `∫_0^h u^a (h-u)^b du = a! b! / (a+b+1)! h^(a+b+1)`. -/
theorem beta_nat (a b : Nat) (h : ℝ) :
    ∫ u in (0 : ℝ)..h, u ^ a * (h - u) ^ b =
      h ^ (a + b + 1) * (a.factorial * b.factorial) / (a + b + 1).factorial := by
  induction b generalizing a with
  | zero =>
    simp only [pow_zero, mul_one, integral_pow, Nat.factorial_zero, Nat.add_zero, Nat.factorial_succ]
    have := Nat.factorial_pos a
    push_cast
    field_simp
    simp
  | succ b ih =>
    have hu : ∀ u ∈ uIcc (0 : ℝ) h, HasDerivAt (fun u : ℝ => u ^ (a + 1) / ((a : ℝ) + 1)) (u ^ a) u := by
      intro u _
      have := (hasDerivAt_pow (a + 1) u).div_const ((a : ℝ) + 1)
      have e : ((a + 1 : Nat) : ℝ) * u ^ (a + 1 - 1) / (a + 1) = u ^ a := by
        rw [Nat.add_sub_cancel]
        push_cast
        field_simp
      rwa [e] at this
    have hv : ∀ u ∈ uIcc (0 : ℝ) h, HasDerivAt (fun u => (h - u) ^ (b + 1)) (-((b + 1) * (h - u) ^ b)) u := by
      intro u _
      have := ((hasDerivAt_id u).const_sub h).pow (b + 1)
      have e : ((b + 1 : Nat) : ℝ) * (h - id u) ^ (b + 1 - 1) * -1 = -((b + 1) * (h - u) ^ b) := by
        rw [Nat.add_sub_cancel, id]
        push_cast
        ring
      rwa [e] at this
    have := intervalIntegral.integral_deriv_mul_eq_sub hu hv
      ((by fun_prop : Continuous fun u : ℝ => u ^ a).intervalIntegrable _ _)
      ((by fun_prop : Continuous fun u : ℝ => -((b + 1) * (h - u) ^ b)).intervalIntegrable _ _)
    rw [intervalIntegral.integral_add] at this
    · have e : (fun u : ℝ => u ^ (a + 1) / (a + 1) * -((b + 1) * (h - u) ^ b)) =
          fun u => (-((b + 1) / (a + 1)) : ℝ) * (u ^ (a + 1) * (h - u) ^ b) := by
        funext u; ring
      rw [e, intervalIntegral.integral_const_mul, ih (a + 1)] at this
      simp only [sub_self, ne_eq, Nat.add_eq_zero_iff, one_ne_zero, and_false, not_false_eq_true, zero_pow, mul_zero,
        zero_div, zero_mul, sub_zero] at this
      have h1 : ∫ u in (0 : ℝ)..h, u ^ a * (h - u) ^ (b + 1) = (b + 1) / (a + 1) *
          (h ^ (a + 1 + b + 1) * ((a + 1).factorial * b.factorial) / (a + 1 + b + 1).factorial) := by
        linarith
      rw [h1, show a + 1 + b + 1 = a + (b + 1) + 1 by omega, Nat.factorial_succ a, Nat.factorial_succ b]
      push_cast
      field_simp
    · exact (by fun_prop : Continuous fun u : ℝ => u ^ a * (h - u) ^ (b + 1)).intervalIntegrable _ _
    · exact (by fun_prop : Continuous fun u : ℝ =>
        u ^ (a + 1) / (a + 1) * -((b + 1) * (h - u) ^ b)).intervalIntegrable _ _

/-- The bi-unit simplex with barycentric sum at most `h`. -/
def simplexH (n : Nat) (h : ℝ) : Set (Fin n → ℝ) := {x | (∀ i, -1 ≤ x i) ∧ ∑ i, (1 + x i) / 2 ≤ h}

theorem simplexH_closed (n : Nat) (h : ℝ) : IsClosed (simplexH n h) := by
  have h1 : IsClosed {x : Fin n → ℝ | ∀ i, -1 ≤ x i} := by
    simp only [ofPred_forall]
    exact isClosed_iInter fun i => isClosed_le continuous_const (continuous_apply i)
  have h2 : IsClosed {x : Fin n → ℝ | ∑ i, (1 + x i) / 2 ≤ h} :=
    isClosed_le (by fun_prop) continuous_const
  exact h1.inter h2

theorem simplexH_compact (n : Nat) (h : ℝ) : IsCompact (simplexH n h) := by
  refine (isCompact_Icc (a := fun _ => (-1 : ℝ)) (b := fun _ => 2 * h - 1)).of_isClosed_subset
    (simplexH_closed n h) ?_
  intro x hx
  refine ⟨fun i => hx.1 i, fun i => ?_⟩
  have := Finset.single_le_sum (f := fun i => (1 + x i) / 2) (fun j _ => by
    have := hx.1 j
    linarith) (Finset.mem_univ i)
  have h2 := hx.2
  simp only at this ⊢
  linarith

theorem simplexH_empty {n : Nat} {h : ℝ} (hh : h < 0) : simplexH n h = ∅ := by
  ext x
  simp only [mem_empty_iff_false, iff_false]
  intro hx
  have : 0 ≤ ∑ i, (1 + x i) / 2 := Finset.sum_nonneg fun i _ => by
    have := hx.1 i
    linarith
  have h2 := hx.2
  linarith

/-- Splitting off the first coordinate. -/
theorem integral_simplexH_succ (n : Nat) (h : ℝ) (f : (Fin (n + 1) → ℝ) → ℝ) (hf : Continuous f) :
    ∫ x in simplexH (n + 1) h, f x =
      ∫ t : ℝ, if -1 ≤ t then ∫ r in simplexH n (h - (1 + t) / 2), f (Fin.cons t r) else 0 := by
  have mp := volume_preserving_piFinSuccAbove (fun _ : Fin (n + 1) => ℝ) 0
  have hm := (simplexH_closed (n + 1) h).measurableSet
  rw [← integral_indicator hm]
  have hint : Integrable (indicator (simplexH (n + 1) h) f) :=
    (integrable_indicator_iff hm).2 (hf.continuousOn.integrableOn_compact (simplexH_compact _ _))
  rw [← mp.symm.integral_comp', Measure.volume_eq_prod, integral_prod]
  · congr 1
    funext t
    have hcons : ∀ r : Fin n → ℝ, (MeasurableEquiv.piFinSuccAbove (fun _ : Fin (n + 1) => ℝ) 0).symm (t, r) =
        Fin.cons t r := by
      intro r
      exact Fin.insertNth_zero' t r
    split_ifs with ht
    · rw [← integral_indicator (simplexH_closed n _).measurableSet]
      congr 1
      funext r
      rw [hcons]
      have hiff : (Fin.cons t r : Fin (n + 1) → ℝ) ∈ simplexH (n + 1) h ↔ r ∈ simplexH n (h - (1 + t) / 2) := by
        constructor
        · rintro ⟨h1, h2⟩
          refine ⟨fun i => h1 i.succ, ?_⟩
          rw [Fin.sum_univ_succ] at h2
          simp only [Fin.cons_zero, Fin.cons_succ] at h2
          linarith
        · rintro ⟨h1, h2⟩
          refine ⟨fun i => Fin.cases ht h1 i, ?_⟩
          rw [Fin.sum_univ_succ]
          simp only [Fin.cons_zero, Fin.cons_succ]
          linarith
      by_cases hr : r ∈ simplexH n (h - (1 + t) / 2)
      · rw [indicator_of_mem hr, indicator_of_mem (hiff.2 hr)]
      · rw [indicator_of_notMem hr, indicator_of_notMem (fun hc => hr (hiff.1 hc))]
    · have : (fun r : Fin n → ℝ => indicator (simplexH (n + 1) h) f
          ((MeasurableEquiv.piFinSuccAbove (fun _ : Fin (n + 1) => ℝ) 0).symm (t, r))) = fun _ => 0 := by
        funext r
        rw [hcons, indicator_of_notMem]
        rintro ⟨h1, -⟩
        exact ht (h1 0)
      rw [this, integral_zero]
  · have := mp.symm.integrable_comp_of_integrable (g := indicator (simplexH (n + 1) h) f) hint
    exact this

/-- **Dirichlet's integral.** -/
theorem dirichlet (n : Nat) (a : Fin n → Nat) (b : Nat) {h : ℝ} (hh : 0 ≤ h) :
    ∫ x in simplexH n h, (∏ i, ((1 + x i) / 2) ^ a i) * (h - ∑ i, (1 + x i) / 2) ^ b =
      2 ^ n * h ^ (n + ∑ i, a i + b) * ((∏ i, ((a i).factorial : ℝ)) * b.factorial) /
        (n + ∑ i, a i + b).factorial := by
  induction n generalizing h with
  | zero =>
    have hu : simplexH 0 h = univ := by
      ext x; simp [simplexH, hh]
    have hb : (b.factorial : ℝ) ≠ 0 := by positivity
    rw [hu, setIntegral_univ]
    rw [volume_pi, Measure.pi_of_empty (x := default), integral_dirac]
    simp [hb]
  | succ n ih =>
    rw [integral_simplexH_succ n h _ (by fun_prop)]
    set m := n + ∑ i : Fin n, a i.succ + b with hm
    have step : ∀ t : ℝ, (if -1 ≤ t then ∫ r in simplexH n (h - (1 + t) / 2),
          (∏ i, ((1 + (Fin.cons t r : Fin (n + 1) → ℝ) i) / 2) ^ a i) *
            (h - ∑ i, (1 + (Fin.cons t r : Fin (n + 1) → ℝ) i) / 2) ^ b else 0) =
        indicator (Icc (-1) (2 * h - 1)) (fun t => ((1 + t) / 2) ^ a 0 * (h - (1 + t) / 2) ^ m *
          (2 ^ n * ((∏ i : Fin n, ((a i.succ).factorial : ℝ)) * b.factorial) / m.factorial)) t := by
      intro t
      split_ifs with ht
      · have e : ∀ r : Fin n → ℝ, (∏ i, ((1 + (Fin.cons t r : Fin (n + 1) → ℝ) i) / 2) ^ a i) *
            (h - ∑ i, (1 + (Fin.cons t r : Fin (n + 1) → ℝ) i) / 2) ^ b =
            ((1 + t) / 2) ^ a 0 * ((∏ i : Fin n, ((1 + r i) / 2) ^ a i.succ) *
              ((h - (1 + t) / 2) - ∑ i : Fin n, (1 + r i) / 2) ^ b) := by
          intro r
          rw [Fin.prod_univ_succ, Fin.sum_univ_succ]
          simp only [Fin.cons_zero, Fin.cons_succ]
          rw [sub_add_eq_sub_sub]
          ring
        simp only [e]
        rw [integral_const_mul]
        by_cases h2 : t ≤ 2 * h - 1
        · rw [indicator_of_mem (show t ∈ Icc (-1) (2 * h - 1) from ⟨ht, h2⟩), ih (fun i => a i.succ) (by linarith)]
          ring
        · rw [indicator_of_notMem (fun hc => h2 hc.2), simplexH_empty (by linarith)]
          simp
      · rw [indicator_of_notMem (fun hc => ht hc.1)]
    simp only [step]
    rw [integral_indicator measurableSet_Icc, integral_Icc_eq_integral_Ioc,
      ← intervalIntegral.integral_of_le (by linarith), intervalIntegral.integral_mul_const]
    have hsub := intervalIntegral.integral_comp_div_add (a := (-1 : ℝ)) (b := 2 * h - 1)
      (fun u => u ^ a 0 * (h - u) ^ m) (c := 2) (by norm_num) (1 / 2)
    have e : ∀ t : ℝ, t / 2 + 1 / 2 = (1 + t) / 2 := fun t => by ring
    simp only [e] at hsub
    rw [hsub, show (1 + -1 : ℝ) / 2 = 0 by norm_num, show (1 + (2 * h - 1)) / 2 = h by ring, beta_nat,
      smul_eq_mul, Fin.prod_univ_succ, Fin.sum_univ_succ,
      show n + 1 + (a 0 + ∑ i : Fin n, a i.succ) + b = a 0 + m + 1 by omega]
    have : (0 : ℝ) < m.factorial := by positivity
    have : (0 : ℝ) < (a 0 + m + 1).factorial := by positivity
    field_simp
    ring

end Modepy

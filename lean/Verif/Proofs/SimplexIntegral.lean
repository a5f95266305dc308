import Mathlib.MeasureTheory.Integral.DominatedConvergence
import Mathlib.MeasureTheory.Integral.Prod
import Mathlib.MeasureTheory.Integral.IntervalIntegral.Basic
import Mathlib.MeasureTheory.Measure.Lebesgue.Basic
import Verif.Spec.Simplex

/-!
# Integrals over the reference triangle and tetrahedron as iterated integrals
-/

namespace Modepy
open Spec MeasureTheory Set

theorem integral_under {Y : Type*} [MeasurableSpace Y] (μ : Measure Y) [SFinite μ] (S : Set Y)
    (hS : MeasurableSet S) (g : Y → ℝ) (hg : ∀ y ∈ S, -1 ≤ g y) (f : ℝ × Y → ℝ)
    (hR : MeasurableSet {p : ℝ × Y | p.2 ∈ S ∧ -1 ≤ p.1 ∧ p.1 ≤ g p.2})
    (hf : IntegrableOn f {p : ℝ × Y | p.2 ∈ S ∧ -1 ≤ p.1 ∧ p.1 ≤ g p.2} (volume.prod μ)) :
    ∫ p in {p : ℝ × Y | p.2 ∈ S ∧ -1 ≤ p.1 ∧ p.1 ≤ g p.2}, f p ∂(volume.prod μ) =
      ∫ y in S, (∫ x in (-1 : ℝ)..g y, f (x, y)) ∂μ := by
  rw [← integral_indicator hR, integral_prod_symm _ ((integrable_indicator_iff hR).2 hf),
    ← integral_indicator hS]
  congr 1
  funext y
  by_cases hy : y ∈ S
  · rw [indicator_of_mem hy, intervalIntegral.integral_of_le (hg y hy),
      ← integral_Icc_eq_integral_Ioc, ← integral_indicator measurableSet_Icc]
    congr 1
    funext x
    by_cases hx : x ∈ Icc (-1) (g y)
    · rw [indicator_of_mem hx, indicator_of_mem]
      exact ⟨hy, hx.1, hx.2⟩
    · rw [indicator_of_notMem hx, indicator_of_notMem]
      intro h
      exact hx ⟨h.2.1, h.2.2⟩
  · rw [indicator_of_notMem hy]
    have : (fun x => indicator {p : ℝ × Y | p.2 ∈ S ∧ -1 ≤ p.1 ∧ p.1 ≤ g p.2} f (x, y)) =
        fun _ => (0 : ℝ) := by
      funext x
      rw [indicator_of_notMem]
      intro h
      exact hy h.1
    rw [this, integral_zero]

theorem triangle_eq : triangle =
    {p : ℝ × ℝ | p.2 ∈ Icc (-1 : ℝ) 1 ∧ -1 ≤ p.1 ∧ p.1 ≤ -p.2} := by
  ext p
  simp only [triangle, mem_setOf_eq, mem_Icc]
  constructor
  · rintro ⟨h1, h2, h3⟩; exact ⟨⟨h2, by linarith⟩, h1, by linarith⟩
  · rintro ⟨⟨h1, h2⟩, h3, h4⟩; exact ⟨h3, h1, by linarith⟩

theorem tetrahedron_eq : tetrahedron =
    {p : ℝ × ℝ × ℝ | p.2 ∈ triangle ∧ -1 ≤ p.1 ∧ p.1 ≤ -1 - p.2.1 - p.2.2} := by
  ext p
  simp only [tetrahedron, triangle, mem_setOf_eq]
  constructor
  · rintro ⟨h1, h2, h3, h4⟩; exact ⟨⟨h2, h3, by linarith⟩, h1, by linarith⟩
  · rintro ⟨⟨h1, h2, h3⟩, h4, h5⟩; exact ⟨h4, h1, h2, by linarith⟩

theorem triangle_closed : IsClosed triangle := by
  have h1 : IsClosed {p : ℝ × ℝ | -1 ≤ p.1} := isClosed_le continuous_const continuous_fst
  have h2 : IsClosed {p : ℝ × ℝ | -1 ≤ p.2} := isClosed_le continuous_const continuous_snd
  have h3 : IsClosed {p : ℝ × ℝ | p.1 + p.2 ≤ 0} := isClosed_le (by fun_prop) continuous_const
  exact h1.inter (h2.inter h3)

theorem tetrahedron_closed : IsClosed tetrahedron := by
  have h1 : IsClosed {p : ℝ × ℝ × ℝ | -1 ≤ p.1} := isClosed_le continuous_const (by fun_prop)
  have h2 : IsClosed {p : ℝ × ℝ × ℝ | -1 ≤ p.2.1} := isClosed_le continuous_const (by fun_prop)
  have h3 : IsClosed {p : ℝ × ℝ × ℝ | -1 ≤ p.2.2} := isClosed_le continuous_const (by fun_prop)
  have h4 : IsClosed {p : ℝ × ℝ × ℝ | p.1 + p.2.1 + p.2.2 ≤ -1} :=
    isClosed_le (by fun_prop) continuous_const
  exact h1.inter (h2.inter (h3.inter h4))

theorem triangle_compact : IsCompact triangle := by
  refine (isCompact_Icc (a := ((-1, -1) : ℝ × ℝ)) (b := (1, 1))).of_isClosed_subset triangle_closed ?_
  rintro ⟨x, y⟩ ⟨h1, h2, h3⟩
  simp only at h1 h2 h3
  exact ⟨⟨h1, h2⟩, ⟨by simp only; linarith, by simp only; linarith⟩⟩

theorem tetrahedron_compact : IsCompact tetrahedron := by
  refine (isCompact_Icc (a := ((-1, -1, -1) : ℝ × ℝ × ℝ)) (b := (1, 1, 1))).of_isClosed_subset
    tetrahedron_closed ?_
  rintro ⟨x, y, z⟩ ⟨h1, h2, h3, h4⟩
  simp only at h1 h2 h3 h4
  exact ⟨⟨h1, h2, h3⟩, ⟨by simp only; linarith, by simp only; linarith, by simp only; linarith⟩⟩

theorem integral_triangle (f : ℝ × ℝ → ℝ) (hf : Continuous f) :
    ∫ p in triangle, f p = ∫ s in (-1 : ℝ)..1, ∫ r in (-1 : ℝ)..-s, f (r, s) := by
  have hi : IntegrableOn f triangle := hf.continuousOn.integrableOn_compact triangle_compact
  have hm := triangle_closed.measurableSet
  rw [intervalIntegral.integral_of_le (by norm_num), ← integral_Icc_eq_integral_Ioc]
  rw [triangle_eq] at hi hm ⊢
  exact integral_under volume (Icc (-1) 1) measurableSet_Icc (fun s => -s)
    (fun y hy => by have := hy.2; linarith) f hm hi

theorem integral_tetrahedron (f : ℝ × ℝ × ℝ → ℝ) (hf : Continuous f) :
    ∫ p in tetrahedron, f p =
      ∫ t in (-1 : ℝ)..1, ∫ s in (-1 : ℝ)..-t, ∫ r in (-1 : ℝ)..(-1 - s - t), f (r, s, t) := by
  have hi : IntegrableOn f tetrahedron := hf.continuousOn.integrableOn_compact tetrahedron_compact
  have hm := tetrahedron_closed.measurableSet
  have hc : Continuous fun q : ℝ × ℝ => ∫ r in (-1 : ℝ)..(-1 - q.1 - q.2), f (r, q) :=
    intervalIntegral.continuous_parametric_intervalIntegral_of_continuous
      (f := fun (q : ℝ × ℝ) r => f (r, q)) (hf.comp (by fun_prop : Continuous fun p : (ℝ × ℝ) × ℝ => (p.2, p.1)))
      (by fun_prop)
  rw [← integral_triangle (fun q : ℝ × ℝ => ∫ r in (-1 : ℝ)..(-1 - q.1 - q.2), f (r, q)) hc]
  rw [tetrahedron_eq] at hi hm ⊢
  exact integral_under volume triangle triangle_closed.measurableSet (fun q => -1 - q.1 - q.2)
    (fun y hy => by have := hy.2.2; linarith) f hm hi

/-- Substitution `r = -1 + (1 + a) h`. -/
theorem integral_collapse (F : ℝ → ℝ) {h : ℝ} (hh : h ≠ 0) :
    ∫ r in (-1 : ℝ)..(-1 + 2 * h), F ((1 + r) / h - 1) = h * ∫ a in (-1 : ℝ)..1, F a := by
  have e : (fun r : ℝ => F ((1 + r) / h - 1)) = fun r => F (r / h - (1 - 1 / h)) := by
    funext r; congr 1; ring
  rw [e, intervalIntegral.integral_comp_div_sub F hh, smul_eq_mul]
  congr 2
  · field_simp; ring
  · field_simp; ring

end Modepy

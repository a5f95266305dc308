import Verif.Props.Gauss
import Mathlib.Analysis.SpecialFunctions.Trigonometric.Chebyshev.ChebyshevGauss

/-!
# Property C28: Gauss–Chebyshev quadrature
-/

namespace Modepy
open Spec Polynomial Polynomial.Chebyshev

theorem chebyshev_weight (t : ℝ) (h : t ∈ Set.Icc (-1 : ℝ) 1) :
    (1 - t) ^ (-0.5 : ℝ) * (1 + t) ^ (-0.5 : ℝ) = √(1 - t ^ 2)⁻¹ := by
  rw [← Real.mul_rpow (by linarith [h.2]) (by linarith [h.1]), show (1 - t) * (1 + t) = 1 - t ^ 2 by ring,
    Real.sqrt_inv, Real.sqrt_eq_rpow, ← Real.rpow_neg (by nlinarith [h.1, h.2])]
  norm_num

theorem chebyshev_compute (ext : Ext) (N : Nat) :
    computeWeightsAndNodes ext N (-0.5) (-0.5) =
      .ok (fun i => Real.cos (Real.pi / (2 * (N + 1)) * (2 * ((N + 1 - (i : Nat) : Nat) : ℝ) - 1)),
        fun _ => Real.pi / (N + 1)) := by
  rw [computeWeightsAndNodes, if_pos (by norm_num)]

theorem chebyshev_sum (N : Nat) (f : ℝ[X]) (hf : f.natDegree ≤ 2 * N + 1) :
    ∑ i : Fin (N + 1), Real.pi / (N + 1) *
      f.eval (Real.cos (Real.pi / (2 * (N + 1)) * (2 * ((N + 1 - (i : Nat) : Nat) : ℝ) - 1))) =
      ∫ t in (-1)..1, f.eval t * ((1 - t) ^ (-0.5 : ℝ) * (1 + t) ^ (-0.5 : ℝ)) := by
  have hdeg : f.degree < 2 * ((N + 1 : Nat) : WithBot ℕ) := by
    refine lt_of_le_of_lt degree_le_natDegree ?_
    have : f.natDegree < 2 * (N + 1) := by omega
    exact_mod_cast this
  have h := integral_eq_sumZeroes (n := N + 1) (P := f) (by omega) hdeg
  rw [integral_measureT, sumZeroes] at h
  have e : ∫ t in (-1 : ℝ)..1, f.eval t * ((1 - t) ^ (-0.5 : ℝ) * (1 + t) ^ (-0.5 : ℝ)) =
      ∫ x in (-1 : ℝ)..1, f.eval x * √(1 - x ^ 2)⁻¹ := by
    apply intervalIntegral.integral_congr
    intro t ht
    rw [Set.uIcc_of_le (by norm_num)] at ht
    simp only [chebyshev_weight t ht]
  rw [e, h, Finset.mul_sum, ← Finset.sum_range_reflect, Finset.sum_range]
  apply Finset.sum_congr rfl
  intro i _
  have hi : (i : Nat) ≤ N := by have := i.2; omega
  have e1 : (N + 1 - 1 - (i : Nat) : Nat) = N - i := by omega
  have e2 : ((N + 1 - (i : Nat) : Nat) : ℝ) = N - i + 1 := by
    rw [Nat.cast_sub (by omega)]; push_cast; ring
  rw [e1, e2, Nat.cast_sub hi]
  push_cast
  have hN : (N : ℝ) + 1 ≠ 0 := by positivity
  congr 3
  field_simp
  ring

theorem chebyshev_exact (ext : Ext) (N : Nat) (fd : Bool) :
    ∃ q, jacobiGaussQuadrature ext (-0.5) (-0.5) N .builtin fd = .ok q ∧
      q.getExactTo = .ok (.num (2 * N + 1)) ∧ ExactWeighted (-0.5) (-0.5) (2 * N + 1) q.call ∧
      q.nodes.shape = (if fd then [1, N + 1] else [N + 1]) ∧ q.weights.shape = [N + 1] ∧
      (∀ k ≤ N, q.weights.get [k] = Real.pi / (N + 1)) ∧
      (∀ k ≤ N, ∃ t, q.node k = [t] ∧ (T ℝ (N + 1)).eval t = 0 ∧ -1 < t ∧ t < 1) ∧
      (∀ j k s t, j < k → k ≤ N → q.node j = [s] → q.node k = [t] → s < t) := by
  have hpi := Real.pi_pos
  -- the angles
  have ang : ∀ k ≤ N, 0 < Real.pi / (2 * (N + 1)) * (2 * ((N + 1 - k : Nat) : ℝ) - 1) ∧
      Real.pi / (2 * (N + 1)) * (2 * ((N + 1 - k : Nat) : ℝ) - 1) < Real.pi := by
    intro k hk
    have h1 : (1 : ℝ) ≤ ((N + 1 - k : Nat) : ℝ) := by exact_mod_cast (by omega : 1 ≤ N + 1 - k)
    have h2 : ((N + 1 - k : Nat) : ℝ) ≤ N + 1 := by exact_mod_cast (by omega : N + 1 - k ≤ N + 1)
    refine ⟨mul_pos (by positivity) (by linarith), ?_⟩
    rw [div_mul_eq_mul_div, div_lt_iff₀ (by positivity)]
    nlinarith
  refine ⟨_, gauss_ok ext _ _ N fd _ _ (chebyshev_compute ext N), rfl, ?_, nodes1D_shape _ fd, rfl, ?_, ?_, ?_⟩
  · intro p hp
    rw [call_nodes1D]
    exact chebyshev_sum N p hp
  · intro k hk
    exact ofFn_get (fun _ : Fin (N + 1) => Real.pi / (N + 1)) ⟨k, by omega⟩
  · intro k hk
    obtain ⟨a1, a2⟩ := ang k hk
    refine ⟨_, node_nodes1D _ _ _ fd _ ⟨k, by omega⟩, ?_, ?_, ?_⟩
    · have := T_real_cos (Real.pi / (2 * (N + 1)) * (2 * ((N + 1 - k : Nat) : ℝ) - 1)) (N + 1 : ℤ)
      simp only
      rw [this]
      apply Real.cos_eq_zero_iff.2
      refine ⟨((N + 1 - k : Nat) : ℤ) - 1, ?_⟩
      push_cast
      have hN : (N : ℝ) + 1 ≠ 0 := by positivity
      field_simp
      ring
    · rw [← Real.cos_pi]
      exact Real.cos_lt_cos_of_nonneg_of_le_pi a1.le le_rfl a2
    · have := Real.cos_lt_cos_of_nonneg_of_le_pi le_rfl a2.le a1
      rwa [Real.cos_zero] at this
  · intro j k s t hjk hk hs ht
    rw [node_nodes1D _ _ _ fd _ ⟨j, by omega⟩] at hs
    rw [node_nodes1D _ _ _ fd _ ⟨k, by omega⟩] at ht
    injection hs with hs; injection ht with ht
    rw [← hs, ← ht]
    obtain ⟨a1, a2⟩ := ang j (by omega)
    obtain ⟨b1, b2⟩ := ang k hk
    apply Real.cos_lt_cos_of_nonneg_of_le_pi b1.le a2.le
    have : ((N + 1 - k : Nat) : ℝ) < ((N + 1 - j : Nat) : ℝ) := by
      exact_mod_cast (by omega : N + 1 - k < N + 1 - j)
    have hp : 0 < Real.pi / (2 * ((N : ℝ) + 1)) := by positivity
    nlinarith

/-- **C28.**  `JacobiGaussQuadrature(-1/2, -1/2, N)` and `ChebyshevGaussQuadrature(N, kind=1)` are the same
rule; it has `N + 1` equal weights, its nodes are the zeros of the Chebyshev polynomial `T_{N+1}` in
ascending order, and it integrates every polynomial of degree at most `exact_to = 2N + 1` exactly against
`(1-x)^(-1/2) (1+x)^(-1/2)`. -/
theorem C28_exact (ext : Ext) (N : Nat) (fd : Bool) :
    ∃ q, jacobiGaussQuadrature ext (-0.5) (-0.5) N .builtin fd = .ok q ∧
      chebyshevGaussQuadrature ext N 1 .builtin fd = .ok q ∧
      q.getExactTo = .ok (.num (2 * N + 1)) ∧ ExactWeighted (-0.5) (-0.5) (2 * N + 1) q.call ∧
      q.nodes.shape = (if fd then [1, N + 1] else [N + 1]) ∧ q.weights.shape = [N + 1] ∧
      (∀ k ≤ N, q.weights.get [k] = Real.pi / (N + 1)) ∧
      (∀ k ≤ N, ∃ t, q.node k = [t] ∧ (T ℝ (N + 1)).eval t = 0 ∧ -1 < t ∧ t < 1) ∧
      (∀ j k s t, j < k → k ≤ N → q.node j = [s] → q.node k = [t] → s < t) := by
  obtain ⟨q, h1, h2⟩ := chebyshev_exact ext N fd
  refine ⟨q, h1, ?_, h2⟩
  rw [chebyshevGaussQuadrature, if_pos rfl, h1]

/-- The second kind is the Gauss–Jacobi rule with parameters `1/2`; other kinds are rejected. -/
theorem C28_second_kind (ext : Ext) (hext : ext.EighOk) (N : Nat) (fd : Bool) :
    ∃ q, chebyshevGaussQuadrature ext N 2 .builtin fd = .ok q ∧
      q.getExactTo = .ok (.num (2 * N + 1)) ∧ ExactWeighted 0.5 0.5 (2 * N + 1) q.call := by
  obtain ⟨q, h1, h2, h3, -⟩ := C27_exact ext hext 0.5 0.5
    ⟨by norm_num, by norm_num, by norm_num [abs_of_pos], by norm_num [abs_of_pos]⟩ N fd
  refine ⟨q, ?_, h2, h3⟩
  rw [chebyshevGaussQuadrature, if_neg (by norm_num), if_pos rfl, h1]

theorem C28_rejects (ext : Ext) (N : Nat) (kind : Int) (b : Backend) (fd : Bool) (h1 : kind ≠ 1)
    (h2 : kind ≠ 2) : chebyshevGaussQuadrature ext N kind b fd = .error .ValueError := by
  rw [chebyshevGaussQuadrature, if_neg h1, if_neg h2]

/-- Gegenbauer rules are the Gauss–Jacobi rules with equal parameters; `alpha = -1/2` is served by the
closed form, so no parameter above `-1` outside a band of width `1e-14` around `-1/2` is rejected. -/
theorem C28_gegenbauer (ext : Ext) (hext : ext.EighOk) (α : ℝ) (hα : -1 < α)
    (h : α = -0.5 ∨ 1e-14 ≤ |α + 0.5|) (N : Nat) (fd : Bool) :
    ∃ q, gaussGegenbauerQuadrature ext α N .builtin fd = .ok q ∧
      q.getExactTo = .ok (.num (2 * N + 1)) ∧ ExactWeighted α α (2 * N + 1) q.call := by
  rcases h with rfl | h
  · obtain ⟨q, h1, h2, h3, -⟩ := chebyshev_exact ext N fd
    exact ⟨q, h1, h2, h3⟩
  · obtain ⟨q, h1, h2, h3, -⟩ := C27_exact ext hext α α ⟨hα, hα, by
      have : α + α + 1 = 2 * (α + 0.5) := by ring
      rw [this, abs_mul, abs_of_pos (by norm_num : (0 : ℝ) < 2)]
      linarith [abs_nonneg (α + 0.5)], by rintro ⟨h', -⟩; linarith⟩ N fd
    exact ⟨q, h1, h2, h3⟩

end Modepy

import Verif.Proofs.Continuant
import Verif.Proofs.KronrodRule
import Mathlib.Analysis.SpecialFunctions.Integrals.Basic
import Mathlib.Analysis.Polynomial.Basic

/-!
# Monic Legendre polynomials

Orthogonality, norms and the differential equation of the monic Legendre polynomials.
-/

namespace Modepy
open Polynomial Finset

/-! ## Functionals with prescribed orthogonal polynomials -/

/-- A functional vanishing on `p₁, …, p_M` makes each `p_k` orthogonal to lower degrees, up to total degree `M`. -/
theorem cont_functional (I : ℝ[X] →ₗ[ℝ] ℝ) (β : Nat → ℝ) (M : Nat) (hI : ∀ k, 1 ≤ k → k ≤ M → I (cont β k) = 0)
    (j k : Nat) (hjk : j < k) (hM : j + k ≤ M) : I (X ^ j * cont β k) = 0 := by
  induction j generalizing k with
  | zero => rw [pow_zero, one_mul]; exact hI k (by omega) (by omega)
  | succ j ih =>
    obtain ⟨l, rfl⟩ : ∃ l, k = l + 1 := ⟨k - 1, by omega⟩
    have e : X ^ (j + 1) * cont β (l + 1) = X ^ j * cont β (l + 2) + β l • (X ^ j * cont β l) := by
      rw [cont_add_two, smul_eq_C_mul]
      ring
    rw [e, map_add, map_smul, ih (l + 2) (by omega) (by omega), ih l (by omega) (by omega)]
    simp

theorem cont_functional_diag (I : ℝ[X] →ₗ[ℝ] ℝ) (β : Nat → ℝ) (M : Nat)
    (hI : ∀ k, 1 ≤ k → k ≤ M → I (cont β k) = 0) (k : Nat) (hM : 2 * k ≤ M) :
    I (X ^ k * cont β k) = (∏ i ∈ range k, β i) * I 1 := by
  induction k with
  | zero => simp
  | succ k ih =>
    have e : X ^ (k + 1) * cont β (k + 1) = X ^ k * cont β (k + 2) + β k • (X ^ k * cont β k) := by
      rw [cont_add_two, smul_eq_C_mul]
      ring
    rw [e, map_add, map_smul, ih (by omega), cont_functional I β M hI k (k + 2) (by omega) (by omega), prod_range_succ]
    simp only [smul_eq_mul]
    ring

theorem functional_eq_sum (I : ℝ[X] →ₗ[ℝ] ℝ) (f g : ℝ[X]) (m : Nat) (hf : f.natDegree ≤ m) :
    I (f * g) = ∑ j ∈ range (m + 1), f.coeff j * I (X ^ j * g) := by
  conv_lhs => rw [f.as_sum_range_C_mul_X_pow' (n := m + 1) (by omega)]
  rw [sum_mul, map_sum]
  refine sum_congr rfl fun j _ => ?_
  rw [mul_assoc, ← smul_eq_C_mul, map_smul, smul_eq_mul]

theorem cont_functional_mul (I : ℝ[X] →ₗ[ℝ] ℝ) (β : Nat → ℝ) (M : Nat)
    (hI : ∀ k, 1 ≤ k → k ≤ M → I (cont β k) = 0) (k : Nat) (hM : 2 * k ≤ M) (f : ℝ[X]) (hf : f.natDegree ≤ k) :
    I (f * cont β k) = f.coeff k * ((∏ i ∈ range k, β i) * I 1) := by
  rw [functional_eq_sum I f _ k hf, sum_range_succ, sum_eq_zero, zero_add, cont_functional_diag I β M hI k hM]
  intro j hj
  have := mem_range.1 hj
  rw [cont_functional I β M hI j k (by omega) (by omega), mul_zero]

/-! ## Legendre -/

/-- `j² / (4 j² - 1)`. -/
noncomputable def lb (j : Nat) : ℝ := (j * j : ℝ) / (4 * j * j - 1)

theorem lb_pos (j : Nat) (hj : 1 ≤ j) : 0 < lb j := by
  have : (1 : ℝ) ≤ j := by exact_mod_cast hj
  rw [lb]
  apply div_pos (by positivity)
  nlinarith

theorem lb_sq (i : Nat) : legendreOffdiag i ^ 2 = lb (i + 1) := by
  rw [legendreOffdiag_sq, lb]

/-- Monic Legendre polynomials. -/
noncomputable def lp (m : Nat) : ℝ[X] := cont (fun i => lb (i + 1)) m

theorem lp_zero : lp 0 = 1 := cont_zero _
theorem lp_one : lp 1 = X := cont_one _
theorem lp_add_two (m : Nat) : lp (m + 2) = X * lp (m + 1) - C (lb (m + 1)) * lp m := cont_add_two _ m
theorem lp_monic (m : Nat) : (lp m).Monic ∧ (lp m).natDegree = m := cont_monic _ m

/-- Integration over `[-1, 1]`. -/
noncomputable def legI : ℝ[X] →ₗ[ℝ] ℝ where
  toFun f := ∫ t in (-1 : ℝ)..1, f.eval t
  map_add' f g := by
    simp only [eval_add]
    exact intervalIntegral.integral_add (f.continuous.intervalIntegrable _ _) (g.continuous.intervalIntegrable _ _)
  map_smul' r f := by
    simp only [eval_smul, smul_eq_mul, RingHom.id_apply, intervalIntegral.integral_const_mul]

theorem legI_apply (f : ℝ[X]) : legI f = ∫ t in (-1 : ℝ)..1, f.eval t := rfl

theorem legI_one : legI 1 = 2 := by
  rw [legI_apply]
  simp
  norm_num

theorem legI_jacobiL (g : ℝ[X]) : jacobiL params_zero.1 params_zero.2.1 g = legI g := by
  rw [jacobiL_apply, legI_apply]
  apply intervalIntegral.integral_congr
  intro t _
  simp [Spec.jacobiWeight]

theorem lp_jpoly (m : Nat) : ∃ K : ℝ, lp m = C K * jpoly 0 0 m := by
  have fam := jacobi_family params_zero (by norm_num)
  have hB : gaussB 0 0 = fun _ => 0 := funext gaussB_legendre
  rw [hB] at fam
  have key : ∀ m, ∃ K, lp m = C K * jpoly 0 0 m ∧ lp (m + 1) = C (gaussA 0 0 (m + 1) * K) * jpoly 0 0 (m + 1) := by
    intro m
    induction m with
    | zero =>
      refine ⟨(1 / Real.sqrt (jacNorm 0 0 0))⁻¹, ?_, ?_⟩
      · rw [fam.p_zero, lp_zero, ← C_mul, inv_mul_cancel₀ fam.c_ne, C_1]
      · have h := fam.rec_zero
        rw [fam.p_zero] at h
        have e : C (1 / Real.sqrt (jacNorm 0 0 0))⁻¹ * C (1 / Real.sqrt (jacNorm 0 0 0)) = (1 : ℝ[X]) := by
          rw [← C_mul, inv_mul_cancel₀ fam.c_ne, C_1]
        rw [lp_one, C_mul]
        simp only [map_zero, zero_mul, add_zero] at h
        linear_combination C (1 / Real.sqrt (jacNorm 0 0 0))⁻¹ * h - X * e
    | succ m ih =>
      obtain ⟨K, h1, h2⟩ := ih
      refine ⟨gaussA 0 0 (m + 1) * K, h2, ?_⟩
      have h := fam.rec_succ m
      simp only [map_zero, zero_mul, add_zero] at h
      rw [lp_add_two, h1, h2, ← lb_sq, ← gaussA_legendre]
      simp only [C_mul, C_pow]
      linear_combination C (gaussA 0 0 (m + 1)) * C K * h
  obtain ⟨K, h, -⟩ := key m
  exact ⟨K, h⟩

theorem legI_lp (m : Nat) (hm : 1 ≤ m) : legI (lp m) = 0 := by
  have fam := jacobi_family params_zero (by norm_num)
  obtain ⟨K, h⟩ := lp_jpoly m
  have h1 := fam.orth m 0
  rw [if_neg (by omega), legI_jacobiL, fam.p_zero, mul_comm, ← smul_eq_C_mul, map_smul, smul_eq_mul] at h1
  rw [h, ← smul_eq_C_mul, map_smul, (mul_eq_zero.1 h1).resolve_left fam.c_ne, smul_zero]

/-- Squared norm of `lp m`. -/
noncomputable def lh (m : Nat) : ℝ := (∏ i ∈ range m, lb (i + 1)) * 2

theorem lh_pos (m : Nat) : 0 < lh m := by
  rw [lh]
  exact mul_pos (prod_pos fun i _ => lb_pos _ (by omega)) two_pos

theorem lh_succ (m : Nat) : lh (m + 1) = lb (m + 1) * lh m := by
  rw [lh, lh, prod_range_succ]
  ring

theorem legI_mul_lp (f : ℝ[X]) (m : Nat) (hf : f.natDegree ≤ m) : legI (f * lp m) = f.coeff m * lh m := by
  have := cont_functional_mul legI (fun i => lb (i + 1)) (2 * m) (fun k h _ => legI_lp k h) m le_rfl f hf
  rwa [legI_one] at this

theorem legI_mul_lp_lt (f : ℝ[X]) (m : Nat) (hf : f.natDegree < m) : legI (f * lp m) = 0 := by
  rw [legI_mul_lp f m hf.le, coeff_eq_zero_of_natDegree_lt hf, zero_mul]

theorem legI_sq_pos (f : ℝ[X]) (hf : f ≠ 0) : 0 < legI (f * f) := by
  rw [legI_apply]
  apply intervalIntegral.integral_pos (by norm_num) (f * f).continuous.continuousOn
  · intro t _
    rw [eval_mul]
    exact mul_self_nonneg _
  · by_contra hc
    push Not at hc
    apply hf
    apply eq_zero_of_infinite_isRoot
    refine (Set.Icc_infinite (show (-1 : ℝ) < 1 by norm_num)).mono fun t ht => ?_
    have := hc t ht
    rw [eval_mul] at this
    exact mul_self_eq_zero.1 (le_antisymm this (mul_self_nonneg _))

/-! ## The differential equation -/

/-- `((1 - x²) f')'`. -/
noncomputable def legD (f : ℝ[X]) : ℝ[X] := derivative ((1 - X ^ 2) * derivative f)

theorem legI_derivative (F : ℝ[X]) : legI (derivative F) = F.eval 1 - F.eval (-1) := by
  rw [legI_apply]
  refine intervalIntegral.integral_eq_sub_of_hasDerivAt (f := fun t => F.eval t) ?_ ?_
  · intro t _
    exact F.hasDerivAt t
  · exact (derivative F).continuous.intervalIntegrable _ _

theorem legD_symm (f g : ℝ[X]) : legI (f * legD g) = legI (legD f * g) := by
  have h := legI_derivative ((1 - X ^ 2) * (f * derivative g - derivative f * g))
  have e : derivative ((1 - X ^ 2) * (f * derivative g - derivative f * g)) = f * legD g - legD f * g := by
    simp only [legD, derivative_mul, derivative_sub]
    ring
  rw [e, map_sub] at h
  simp at h
  linarith

theorem legD_add (f g : ℝ[X]) : legD (f + g) = legD f + legD g := by
  simp only [legD, derivative_add, mul_add]

theorem natDegree_legD (f : ℝ[X]) : (legD f).natDegree ≤ f.natDegree := by
  rcases Nat.eq_zero_or_pos f.natDegree with h | h
  · rw [natDegree_eq_zero.1 h |>.choose_spec.symm]
    simp [legD]
  · have h1 : (1 - X ^ 2 : ℝ[X]).natDegree ≤ 2 := by
      refine (natDegree_sub_le _ _).trans ?_
      simp
    have h2 := natDegree_derivative_le f
    have h3 : ((1 - X ^ 2 : ℝ[X]) * derivative f).natDegree ≤ 2 + (f.natDegree - 1) :=
      natDegree_mul_le.trans (by omega)
    have h4 := natDegree_derivative_le ((1 - X ^ 2 : ℝ[X]) * derivative f)
    rw [legD]
    omega

theorem coeff_legD (f : ℝ[X]) (n : Nat) (hf : f.natDegree ≤ n) : (legD f).coeff n = -(n * (n + 1)) * f.coeff n := by
  have e : legD f = derivative (derivative f) - derivative (X ^ 2 * derivative f) := by
    rw [legD, sub_mul, one_mul, derivative_sub]
  rw [e, coeff_sub, coeff_derivative, coeff_derivative, coeff_derivative,
    coeff_eq_zero_of_natDegree_lt (show f.natDegree < n + 1 + 1 by omega)]
  rcases n with _ | n
  · simp [coeff_X_pow_mul']
  · rw [show n + 1 + 1 = n + 2 by ring, coeff_X_pow_mul, coeff_derivative]
    push_cast
    ring

/-- **Legendre's equation.** -/
theorem lp_ode (n : Nat) : legD (lp n) = C (-(n * (n + 1) : ℝ)) * lp n := by
  obtain ⟨hm, hd⟩ := lp_monic n
  have hc : (lp n).coeff n = 1 := by
    have := hm.coeff_natDegree
    rwa [hd] at this
  set G := legD (lp n) - C (-(n * (n + 1) : ℝ)) * lp n with hG
  have hGn : G.natDegree ≤ n := by
    refine (natDegree_sub_le _ _).trans (max_le ?_ ?_)
    · exact (natDegree_legD _).trans hd.le
    · exact (natDegree_C_mul_le _ _).trans hd.le
  have hGc : G.coeff n = 0 := by
    rw [hG, coeff_sub, coeff_legD _ _ hd.le, coeff_C_mul]
    ring
  have : G = 0 := by
    by_contra hne
    have hlt : G.natDegree < n := by
      refine lt_of_le_of_ne hGn fun he => hne ?_
      rw [← leadingCoeff_eq_zero, leadingCoeff, he, hGc]
    have h1 := legI_mul_lp G G.natDegree le_rfl
    have h2 : legI (G * lp G.natDegree) = 0 := by
      have hd2 := (lp_monic G.natDegree).2
      rw [hG, sub_mul, map_sub, ← hG, ← legD_symm, mul_comm (lp n) (legD _), mul_assoc, mul_comm (lp n),
        legI_mul_lp_lt _ n (by have := natDegree_legD (lp G.natDegree); omega), ← mul_assoc,
        legI_mul_lp_lt _ n (by have := natDegree_C_mul_le (-(n * (n + 1) : ℝ)) (lp G.natDegree); omega), sub_zero]
    rw [h2] at h1
    rcases mul_eq_zero.1 h1.symm with h3 | h3
    · exact hne (leadingCoeff_eq_zero.1 h3)
    · exact (lh_pos _).ne' h3
  exact sub_eq_zero.1 this

end Modepy

import Verif.Model.Pkdo
import Verif.Proofs.JacobiPoly
import Verif.Proofs.SimplexIntegral

/-!
# The polynomials behind `pkdo_2d`
-/

namespace Modepy
open Spec Polynomial MvPolynomial

/-- The polynomial mode `(i, j)` on the triangle. -/
noncomputable def triMode (i j : Nat) : MvPolynomial (Fin 2) ℝ :=
  MvPolynomial.C (Real.sqrt 2) *
    hom (jpoly 0 0 i) i (MvPolynomial.C 2 * (1 + MvPolynomial.X 0) - (1 - MvPolynomial.X 1))
      (1 - MvPolynomial.X 1) *
    Polynomial.aeval (MvPolynomial.X 1) (jpoly (2 * i + 1) 0 j)

theorem totalDegree_lin {σ : Type*} (p : MvPolynomial σ ℝ) (a : ℝ) (hp : p.totalDegree ≤ 1) :
    (MvPolynomial.C a + p).totalDegree ≤ 1 := by
  refine (MvPolynomial.totalDegree_add _ _).trans (max_le ?_ hp)
  rw [MvPolynomial.totalDegree_C]; omega

theorem totalDegree_one_sub_X {σ : Type*} (k : σ) :
    (1 - MvPolynomial.X k : MvPolynomial σ ℝ).totalDegree ≤ 1 := by
  refine (MvPolynomial.totalDegree_sub _ _).trans (max_le ?_ ?_)
  · rw [MvPolynomial.totalDegree_one]; omega
  · rw [MvPolynomial.totalDegree_X]

theorem totalDegree_two_one_add_X {σ : Type*} (k : σ) :
    (MvPolynomial.C 2 * (1 + MvPolynomial.X k) : MvPolynomial σ ℝ).totalDegree ≤ 1 := by
  refine (MvPolynomial.totalDegree_mul _ _).trans ?_
  rw [MvPolynomial.totalDegree_C, zero_add]
  refine (MvPolynomial.totalDegree_add _ _).trans (max_le ?_ ?_)
  · rw [MvPolynomial.totalDegree_one]; omega
  · rw [MvPolynomial.totalDegree_X]

theorem totalDegree_triMode (i j : Nat) : (triMode i j).totalDegree ≤ i + j := by
  rw [triMode]
  refine (MvPolynomial.totalDegree_mul _ _).trans (Nat.add_le_add ?_ ?_)
  · refine (MvPolynomial.totalDegree_mul _ _).trans ?_
    rw [MvPolynomial.totalDegree_C, zero_add]
    apply totalDegree_hom_le
    · exact (MvPolynomial.totalDegree_sub _ _).trans
        (max_le (totalDegree_two_one_add_X 0) (totalDegree_one_sub_X 1))
    · exact totalDegree_one_sub_X 1
  · refine (totalDegree_aeval_le _ _ ?_).trans (natDegree_jpoly _ _ _)
    rw [MvPolynomial.totalDegree_X]

theorem eval_triMode (i j : Nat) (r s : ℝ) :
    MvPolynomial.eval ![r, s] (triMode i j) =
      Real.sqrt 2 * hom (jpoly 0 0 i) i (2 * (1 + r) - (1 - s)) (1 - s) *
        (jpoly (2 * i + 1) 0 j).eval s := by
  rw [← MvPolynomial.coe_aeval_eq_eval]
  rw [triMode, RingHom.coe_coe, map_mul, map_mul, hom_map]
  simp only [map_sub, map_mul, map_add, map_one, MvPolynomial.aeval_C, MvPolynomial.aeval_X,
    Matrix.cons_val_zero, Matrix.cons_val_one, ← Polynomial.aeval_algHom_apply, Algebra.algebraMap_self_apply]
  rw [Polynomial.coe_aeval_eq_eval]

theorem eval_triMode_off (i j : Nat) (r s : ℝ) (hs : s ≠ 1) :
    MvPolynomial.eval ![r, s] (triMode i j) =
      Real.sqrt 2 * ((1 - s) ^ i * jacobi 0 0 i (2 * (1 + r) / (1 - s) - 1)) *
        jacobi (2 * i + 1) 0 j s := by
  have hv : (1 : ℝ) - s ≠ 0 := sub_ne_zero.2 (Ne.symm hs)
  rw [eval_triMode, hom_eq _ _ (natDegree_jpoly _ _ _) _ hv, eval_jpoly params_zero,
    eval_jpoly (params_two i)]
  congr 4
  field_simp

theorem continuous_eval2 (p : MvPolynomial (Fin 2) ℝ) :
    Continuous fun q : ℝ × ℝ => MvPolynomial.eval ![q.1, q.2] p := by
  apply (MvPolynomial.continuous_eval p).comp
  apply continuous_pi
  intro k
  fin_cases k
  · exact continuous_fst
  · exact continuous_snd

theorem triMode_orthonormal (i j k l : Nat) :
    ∫ p in triangle, MvPolynomial.eval ![p.1, p.2] (triMode i j) *
        MvPolynomial.eval ![p.1, p.2] (triMode k l) =
      if i = k ∧ j = l then 1 else 0 := by
  rw [integral_triangle (fun p => MvPolynomial.eval ![p.1, p.2] (triMode i j) *
    MvPolynomial.eval ![p.1, p.2] (triMode k l)) ((continuous_eval2 _).mul (continuous_eval2 _))]
  have inner : ∀ s ∈ Set.uIcc (-1 : ℝ) 1,
      (∫ r in (-1 : ℝ)..-s, MvPolynomial.eval ![r, s] (triMode i j) *
        MvPolynomial.eval ![r, s] (triMode k l)) =
      (if i = k then 1 else 0) * ((1 - s) ^ (i + k + 1) *
        (jacobi (2 * i + 1) 0 j s * jacobi (2 * k + 1) 0 l s)) := by
    intro s hs
    rw [Set.uIcc_of_le (by norm_num)] at hs
    by_cases h1 : s = 1
    · subst h1; simp
    have hv : (1 : ℝ) - s ≠ 0 := sub_ne_zero.2 (Ne.symm h1)
    have hh : (1 - s) / 2 ≠ 0 := div_ne_zero hv (by norm_num)
    have hc := integral_collapse (fun a => jacobi 0 0 i a * jacobi 0 0 k a) hh
    rw [show -1 + 2 * ((1 - s) / 2) = -s by ring] at hc
    have ho : ∫ a in (-1 : ℝ)..1, jacobi 0 0 i a * jacobi 0 0 k a = if i = k then 1 else 0 := by
      have := jacobi_orthonormal_pow 0 i k
      simpa using this
    rw [ho] at hc
    have e : ∀ r : ℝ, MvPolynomial.eval ![r, s] (triMode i j) *
        MvPolynomial.eval ![r, s] (triMode k l) =
        2 * (1 - s) ^ (i + k) * (jacobi (2 * i + 1) 0 j s * jacobi (2 * k + 1) 0 l s) *
        (jacobi 0 0 i ((1 + r) / ((1 - s) / 2) - 1) * jacobi 0 0 k ((1 + r) / ((1 - s) / 2) - 1)) := by
      intro r
      rw [eval_triMode_off i j r s h1, eval_triMode_off k l r s h1,
        show (1 + r) / ((1 - s) / 2) = 2 * (1 + r) / (1 - s) by field_simp]
      have h2 : Real.sqrt 2 * Real.sqrt 2 = 2 := Real.mul_self_sqrt (by norm_num)
      rw [pow_add]
      linear_combination ((1 - s) ^ i * (1 - s) ^ k * jacobi 0 0 i (2 * (1 + r) / (1 - s) - 1) *
        jacobi 0 0 k (2 * (1 + r) / (1 - s) - 1) * jacobi (2 * i + 1) 0 j s *
        jacobi (2 * k + 1) 0 l s) * h2
    simp only [e]
    rw [intervalIntegral.integral_const_mul, hc]
    rw [pow_succ]; ring
  rw [intervalIntegral.integral_congr inner, intervalIntegral.integral_const_mul]
  by_cases hik : i = k
  · subst hik
    have := jacobi_orthonormal_pow (2 * i + 1) j l
    push_cast at this
    rw [if_pos rfl, one_mul, show i + i + 1 = 2 * i + 1 by ring, this]
    simp
  · rw [if_neg hik, if_neg (fun h => hik h.1), zero_mul]

theorem rstoab_off (r s : ℝ) (h : 1e-12 ≤ |s - 1|) :
    rstoab r s = (2 * (1 + r) / (1 - s) - 1, s) := by
  rw [rstoab]
  simp only [Duck.whereGe, Duck.abs, Duck.lit, id]
  rw [if_pos h]

theorem rstoab_vertex (r : ℝ) : rstoab r (1 : ℝ) = (-1, 1) := by
  rw [rstoab]
  simp only [Duck.whereGe, Duck.abs, Duck.lit, id]
  rw [if_neg (by norm_num)]

theorem pkdo2d_off (i j : Nat) (r s : ℝ) (h : 1e-12 ≤ |s - 1|) :
    pkdo2d i j r s = MvPolynomial.eval ![r, s] (triMode i j) := by
  have h1 : s ≠ 1 := by rintro rfl; norm_num at h
  rw [eval_triMode_off i j r s h1, pkdo2d, rstoab_off r s h]
  simp only [Duck.lit, Duck.npow, id]
  ring

theorem hom_jacobi_zero (p : ℝ[X]) (x : ℝ) (hp : p.natDegree ≤ 0) : p.coeff 0 = p.eval x := by
  rw [Polynomial.eq_C_of_natDegree_le_zero hp]; simp

theorem pkdo2d_vertex (i j : Nat) :
    pkdo2d i j (-1 : ℝ) 1 = MvPolynomial.eval ![-1, 1] (triMode i j) := by
  rw [eval_triMode, pkdo2d, rstoab_vertex, show (2 : ℝ) * (1 + -1) - (1 - 1) = 0 by norm_num, sub_self,
    hom_zero_zero, eval_jpoly (params_two i)]
  simp only [Duck.lit, Duck.npow, id, sub_self]
  by_cases hi : i = 0
  · subst hi
    rw [if_pos rfl, hom_jacobi_zero _ (-1) (natDegree_jpoly _ _ _), eval_jpoly params_zero]
    simp
  · rw [if_neg hi, zero_pow hi]; ring

theorem grad2d_off (i j : Nat) (r s : ℝ) (h : 1e-12 ≤ |s - 1|) :
    HasDerivAt (fun t => MvPolynomial.eval ![t, s] (triMode i j)) (gradPkdo2d i j r s).1 r ∧
    HasDerivAt (fun t => MvPolynomial.eval ![r, t] (triMode i j)) (gradPkdo2d i j r s).2 s := by
  have h1 : s ≠ 1 := by rintro rfl; norm_num at h
  have hv : (1 : ℝ) - s ≠ 0 := sub_ne_zero.2 (Ne.symm h1)
  set a : ℝ := 2 * (1 + r) / (1 - s) - 1 with ha
  have hf := C19_derivative 0 0 params_zero i a
  have hg := C19_derivative (2 * i + 1) 0 (params_two i) j s
  have hra : (1 + a) = 2 * (1 + r) / (1 - s) := by rw [ha]; ring
  constructor
  · have e : (fun t => MvPolynomial.eval ![t, s] (triMode i j)) = fun t =>
        Real.sqrt 2 * ((1 - s) ^ i * jacobi 0 0 i (2 * (1 + t) / (1 - s) - 1)) *
          jacobi (2 * i + 1) 0 j s := by
      funext t; exact eval_triMode_off i j t s h1
    have hin : HasDerivAt (fun t : ℝ => 2 * (1 + t) / (1 - s) - 1) (2 / (1 - s)) r := by
      have := ((((hasDerivAt_id' r).const_add 1).const_mul 2).div_const (1 - s)).sub_const 1
      rwa [mul_one] at this
    have hd := ((((HasDerivAt.comp r hf hin).const_mul ((1 - s) ^ i)).const_mul (Real.sqrt 2)).mul_const
      (jacobi (2 * i + 1) 0 j s))
    have ev : (gradPkdo2d i j r s).1 = Real.sqrt 2 * ((1 - s) ^ i * (gradJacobi 0 0 i a * (2 / (1 - s)))) *
        jacobi (2 * i + 1) 0 j s := by
      rw [gradPkdo2d, rstoab_off r s h]
      simp only [Duck.lit, Duck.npow, Duck.cse, id, two_rpow_half]
      rw [← ha]
      cases i with
      | zero => simp [gradJacobi, Duck.lit]
      | succ i =>
        rw [if_neg (by omega), Nat.add_sub_cancel, mul_pow]
        have h5 : (0.5 : ℝ) ^ i * 2 ^ i = 1 := by rw [← mul_pow]; norm_num
        have hx : (1 - s) * (2 / (1 - s)) = 2 := by field_simp
        rw [pow_succ, pow_succ]
        linear_combination (Real.sqrt 2 * gradJacobi 0 0 (i + 1) a *
          jacobi (2 * ((i + 1 : Nat) : ℝ) + 1) 0 j s * (1 - s) ^ i) * (2 * h5 - hx)
    rw [e, ev]
    exact hd
  · have hin : HasDerivAt (fun t : ℝ => 2 * (1 + r) / (1 - t) - 1) (2 * (1 + r) / (1 - s) ^ 2) s := by
      have h0 : HasDerivAt (fun t : ℝ => 1 - t) (-1) s := by
        simpa using (hasDerivAt_id' s).const_sub 1
      have := ((hasDerivAt_const s (2 * (1 + r))).div h0 hv).sub_const 1
      have e2 : (0 * (1 - s) - 2 * (1 + r) * -1) / (1 - s) ^ 2 = 2 * (1 + r) / (1 - s) ^ 2 := by ring
      rw [e2] at this
      exact this
    have hp : HasDerivAt (fun t : ℝ => (1 - t) ^ i) (i * (1 - s) ^ (i - 1) * -1) s := by
      have h0 : HasDerivAt (fun t : ℝ => 1 - t) (-1) s := by
        simpa using (hasDerivAt_id' s).const_sub 1
      exact h0.pow i
    have hd := (((hp.mul (HasDerivAt.comp s hf hin)).const_mul (Real.sqrt 2)).mul hg)
    have ev : (gradPkdo2d i j r s).2 = Real.sqrt 2 * (i * (1 - s) ^ (i - 1) * -1 * jacobi 0 0 i a +
        (1 - s) ^ i * (gradJacobi 0 0 i a * (2 * (1 + r) / (1 - s) ^ 2))) * jacobi (2 * i + 1) 0 j s +
        Real.sqrt 2 * ((1 - s) ^ i * jacobi 0 0 i a) * gradJacobi (2 * i + 1) 0 j s := ?ev
    · rw [ev]
      refine hd.congr_of_eventuallyEq ?_
      filter_upwards [isOpen_ne.mem_nhds h1] with t ht
      exact eval_triMode_off i j r t ht
    · rw [gradPkdo2d, rstoab_off r s h]
      simp only [Duck.lit, Duck.npow, Duck.cse, id, two_rpow_half]
      rw [← ha, hra]
      cases i with
      | zero => simp [gradJacobi, Duck.lit]; ring
      | succ i =>
        rw [if_neg (by omega), if_neg (by omega), Nat.add_sub_cancel]
        simp only [mul_pow]
        have h5 : (0.5 : ℝ) ^ i * 2 ^ i = 1 := by rw [← mul_pow]; norm_num
        have hx : 2 * (1 + r) / (1 - s) ^ 2 * (1 - s) = 2 * (1 + r) / (1 - s) := by field_simp
        rw [pow_succ, pow_succ, pow_succ]
        generalize 2 * (1 + r) / (1 - s) ^ 2 = D2 at hx ⊢
        generalize 2 * (1 + r) / (1 - s) = D1 at hx ⊢
        generalize gradJacobi 0 0 (i + 1) a = dfa
        generalize jacobi 0 0 (i + 1) a = fa
        generalize jacobi (2 * ((i + 1 : Nat) : ℝ) + 1) 0 j s = gb
        generalize gradJacobi (2 * ((i + 1 : Nat) : ℝ) + 1) 0 j s = dgb
        linear_combination (Real.sqrt 2 * (1 - s) ^ i) *
          ((dfa * gb * D1 + fa * dgb * (1 - s) - ((i + 1 : Nat) : ℝ) * fa * gb) * h5 - dfa * gb * hx)

theorem eval_derivative_deg_one (p : ℝ[X]) (hp : p.natDegree ≤ 1) (x : ℝ) :
    (derivative p).eval x = p.coeff 1 ∧ p.eval x = p.coeff 1 * x + p.coeff 0 := by
  rw [Polynomial.eq_X_add_C_of_natDegree_le_one hp]
  simp

theorem hom_one (p : ℝ[X]) (u v : ℝ) : hom p 1 u v = p.coeff 0 * v + p.coeff 1 * u := by
  simp [hom, Finset.sum_range_succ]

theorem grad2d_vertex (i j : Nat) :
    HasDerivAt (fun t => MvPolynomial.eval ![t, 1] (triMode i j)) (gradPkdo2d i j (-1 : ℝ) 1).1 (-1) ∧
    HasDerivAt (fun t => MvPolynomial.eval ![-1, t] (triMode i j)) (gradPkdo2d i j (-1 : ℝ) 1).2 1 := by
  have hdeg := natDegree_jpoly 0 0 i
  constructor
  · have e : (fun t => MvPolynomial.eval ![t, 1] (triMode i j)) = fun t =>
        Real.sqrt 2 * hom (jpoly 0 0 i) i ((t - (-1)) * 2) ((t - (-1)) * 0) *
        (jpoly (2 * i + 1) 0 j).eval 1 := by
      funext t
      rw [eval_triMode, show 2 * (1 + t) - (1 - 1) = (t - (-1)) * 2 by ring,
        show (1 : ℝ) - 1 = (t - (-1)) * 0 by ring]
    have hd := ((hasDerivAt_hom_line (jpoly 0 0 i) i 2 0 (-1)).const_mul (Real.sqrt 2)).mul_const
      ((jpoly (2 * i + 1) 0 j).eval 1)
    have ev : (gradPkdo2d i j (-1 : ℝ) 1).1 =
        Real.sqrt 2 * (if i = 1 then hom (jpoly 0 0 i) 1 2 0 else 0) *
          (jpoly (2 * i + 1) 0 j).eval 1 := by
      rw [gradPkdo2d, rstoab_vertex]
      simp only [Duck.lit, Duck.npow, Duck.cse, id, two_rpow_half]
      rcases i with _ | _ | i
      · simp [gradJacobi, Duck.lit]
      · obtain ⟨h1, -⟩ := eval_derivative_deg_one _ hdeg (-1)
        rw [eval_derivative_jpoly params_zero] at h1
        rw [if_neg (by omega), if_pos rfl, hom_one, ← h1, eval_jpoly (params_two _)]
        simp only [zero_add, Nat.sub_self, pow_zero, pow_one]
        ring
      · rw [if_neg (by omega), if_neg (by omega)]
        simp
    rw [e, ev]
    by_cases hi : i = 1
    · rw [if_pos hi] at hd ⊢
      exact hd
    · rw [if_neg hi] at hd ⊢
      exact hd
  · have e : (fun t => MvPolynomial.eval ![-1, t] (triMode i j)) = fun t =>
        Real.sqrt 2 * hom (jpoly 0 0 i) i ((t - 1) * 1) ((t - 1) * (-1)) *
        (jpoly (2 * i + 1) 0 j).eval t := by
      funext t
      rw [eval_triMode, show 2 * (1 + -1) - (1 - t) = (t - 1) * 1 by ring,
        show (1 : ℝ) - t = (t - 1) * (-1) by ring]
    have hd := ((hasDerivAt_hom_line (jpoly 0 0 i) i 1 (-1) 1).const_mul (Real.sqrt 2)).mul
      ((jpoly (2 * i + 1) 0 j).hasDerivAt 1)
    have ev : (gradPkdo2d i j (-1 : ℝ) 1).2 =
        Real.sqrt 2 * (if i = 1 then hom (jpoly 0 0 i) 1 1 (-1) else 0) *
          (jpoly (2 * i + 1) 0 j).eval 1 +
        Real.sqrt 2 * hom (jpoly 0 0 i) i ((1 - 1) * 1) ((1 - 1) * (-1)) *
          (derivative (jpoly (2 * i + 1) 0 j)).eval 1 := by
      rw [gradPkdo2d, rstoab_vertex]
      simp only [Duck.lit, Duck.npow, Duck.cse, id, two_rpow_half]
      rw [sub_self, zero_mul, zero_mul, hom_zero_zero, eval_jpoly (params_two i),
        eval_derivative_jpoly (params_two i)]
      rcases i with _ | _ | i
      · rw [if_pos rfl, if_pos rfl, if_pos rfl, if_neg (by omega),
          hom_jacobi_zero _ (-1) (natDegree_jpoly _ _ _), eval_jpoly params_zero]
        have : gradJacobi 0 0 0 (-1 : ℝ) = 0 := by simp [gradJacobi, Duck.lit]
        rw [this]
        simp only [pow_zero]
        ring
      · obtain ⟨-, h1⟩ := eval_derivative_deg_one _ hdeg (-1)
        rw [eval_jpoly params_zero] at h1
        rw [if_neg (by omega), if_neg (by omega), if_pos rfl, if_neg (by omega), hom_one, h1]
        simp only [zero_add, Nat.sub_self, pow_zero, pow_one, Nat.cast_one]
        ring
      · rw [if_neg (by omega), if_neg (by omega), if_neg (by omega), if_neg (by omega)]
        simp
    rw [e, ev]
    by_cases hi : i = 1
    · rw [if_pos hi] at hd ⊢
      subst hi
      exact hd
    · rw [if_neg hi] at hd ⊢
      exact hd

end Modepy

import Verif.Props.Christoffel
import Verif.Props.SubmeshIntegral
import Mathlib.Algebra.MvPolynomial.Polynomial

/-!
# Values at the ends of an interval, and integrals over simplices by cones over a face
-/

namespace Modepy
open Spec MeasureTheory Polynomial

/-! ## Extremal polynomials of one variable -/

variable {L : ℝ[X] →ₗ[ℝ] ℝ} {p : ℕ → ℝ[X]} {a b : ℕ → ℝ} {c : ℝ}

theorem OrthFamily.expand (h : OrthFamily L p a b c) (n : Nat) (f : ℝ[X]) (hf : f.natDegree ≤ n) :
    ∃ t : Fin (n + 1) → ℝ, f = ∑ j, C (t j) * p j := by
  have key : ∀ f ∈ Submodule.span ℝ (p '' Set.Iic n), ∃ t : Fin (n + 1) → ℝ, f = ∑ j, C (t j) * p j := by
    intro f hf
    induction hf using Submodule.span_induction with
    | mem f hf =>
      obtain ⟨k, hk, rfl⟩ := hf
      have hk : k ≤ n := hk
      refine ⟨fun j => if (j : Nat) = k then 1 else 0, ?_⟩
      rw [Finset.sum_eq_single (⟨k, by omega⟩ : Fin (n + 1))]
      · simp
      · intro j _ hj
        show C (if (j : Nat) = k then (1 : ℝ) else 0) * _ = 0
        rw [if_neg (by simpa [Fin.ext_iff] using hj), C_0, zero_mul]
      · simp
    | zero => exact ⟨0, by simp⟩
    | add f g _ _ h1 h2 =>
      obtain ⟨t, rfl⟩ := h1
      obtain ⟨u, rfl⟩ := h2
      exact ⟨t + u, by simp only [Pi.add_apply, C_add, add_mul, Finset.sum_add_distrib]⟩
    | smul r f _ h1 =>
      obtain ⟨t, rfl⟩ := h1
      exact ⟨r • t, by simp only [Pi.smul_apply, smul_eq_mul, C_mul, mul_assoc, Finset.smul_sum, smul_eq_C_mul]⟩
  refine key f ?_
  rw [f.as_sum_range_C_mul_X_pow]
  refine Submodule.sum_mem _ fun k hk => ?_
  rw [← smul_eq_C_mul]
  refine Submodule.smul_mem _ _ (Submodule.span_mono (Set.image_mono ?_) (h.X_pow_mem k))
  intro j hj
  have := Finset.mem_range.1 hk
  have hj : j ≤ k := hj
  show j ≤ n
  omega

theorem OrthFamily.square (h : OrthFamily L p a b c) {n : Nat} (t : Fin (n + 1) → ℝ) :
    L ((∑ j, C (t j) * p j) * ∑ j, C (t j) * p j) = ∑ j, t j ^ 2 := by
  rw [Finset.sum_mul_sum, map_sum]
  refine Finset.sum_congr rfl fun i _ => ?_
  rw [map_sum, Finset.sum_eq_single i]
  · rw [show C (t i) * p i * (C (t i) * p i) = (t i * t i) • (p i * p i) by rw [smul_eq_C_mul, C_mul]; ring, map_smul, h.orth, if_pos rfl]
    simp [sq]
  · intro j _ hj
    rw [show C (t i) * p i * (C (t j) * p j) = (t i * t j) • (p i * p j) by rw [smul_eq_C_mul, C_mul]; ring, map_smul, h.orth,
      if_neg (fun h' => hj (Fin.ext h'.symm))]
    simp
  · simp

/-- The value of the kernel polynomial. -/
noncomputable def kernelAt (p : ℕ → ℝ[X]) (n : Nat) (s : ℝ) : ℝ := ∑ j : Fin (n + 1), (p j).eval s ^ 2

theorem OrthFamily.kernel_le (h : OrthFamily L p a b c) (n : Nat) (s : ℝ) (f : ℝ[X]) (hf : f.natDegree ≤ n) :
    f.eval s ^ 2 ≤ kernelAt p n s * L (f * f) := by
  obtain ⟨t, rfl⟩ := h.expand n f hf
  rw [h.square t]
  simp only [eval_finsetSum, eval_mul, eval_C]
  rw [mul_comm]
  exact Finset.sum_mul_sq_le_sq_mul_sq _ _ _

theorem OrthFamily.kernel_eq (h : OrthFamily L p a b c) (n : Nat) (s : ℝ) :
    ∃ f : ℝ[X], f.natDegree ≤ n ∧ f.eval s = kernelAt p n s ∧ L (f * f) = kernelAt p n s := by
  refine ⟨∑ j : Fin (n + 1), C ((p j).eval s) * p j, ?_, ?_, ?_⟩
  · refine natDegree_sum_le_of_forall_le _ _ fun j _ => ?_
    refine (natDegree_C_mul_le _ _).trans ((h.leading j).1.trans ?_)
    have := j.2
    omega
  · simp only [eval_finsetSum, eval_mul, eval_C, kernelAt, sq]
  · rw [h.square]; rfl

/-! ## The kernel for the weight `(1 - t)^e` at both ends -/

theorem jacNorm_nat (e n : Nat) : jacNorm e 0 n = 2 ^ (e + 1) / (2 * n + e + 1) := by
  induction n using Nat.strong_induction_on with
  | _ n ih =>
    match n, ih with
    | 0, _ =>
      have h1 : Real.Gamma ((e : ℝ) + 0 + 2) = ((e : ℝ) + 1) * Real.Gamma ((e : ℝ) + 1) := by
        rw [← Real.Gamma_add_one (by positivity)]
        congr 1; ring
      have h2 : Real.Gamma ((e : ℝ) + 1) ≠ 0 := (Real.Gamma_pos_of_pos (by positivity)).ne'
      rw [jacNorm, h1, add_zero]
      rw [show (2 : ℝ) ^ ((e : ℝ) + 1) = 2 ^ (e + 1) by rw [← Real.rpow_natCast]; push_cast; rfl]
      simp
      field_simp
    | 1, ih =>
      rw [jacNorm_one, ih 0 (by omega)]
      push_cast
      field_simp
      ring
    | n + 2, ih =>
      have : jacNorm e 0 (n + 2) = jacNorm e 0 (n + 1) *
        ((2 * n + e + 0 + 3) * (n + e + 2) * (n + 0 + 2) /
        ((2 * n + e + 0 + 5) * (n + 2) * (n + e + 0 + 2))) := rfl
      rw [this, ih (n + 1) (by omega)]
      push_cast
      field_simp
      ring

theorem rise_nat (e j : Nat) : rise ((e : ℝ) + 1) j = j.factorial * ((j + e).choose e : ℝ) := by
  induction j with
  | zero => simp [rise]
  | succ j ih =>
    rw [rise, ih, Nat.factorial_succ]
    have h2 : ((j + 1 + e).choose e : ℝ) * (j + 1) = (j + e + 1) * ((j + e).choose e) := by
      have h3 : (j + 1 + e).choose e * (j + 1) = (j + e + 1) * (j + e).choose e := by
        rw [show j + 1 + e = j + e + 1 by ring, ← Nat.choose_symm_of_eq_add (show j + e + 1 = (j + 1) + e by ring),
          ← Nat.choose_symm_of_eq_add (show j + e = j + e from rfl)]
        have := Nat.add_one_mul_choose_eq (j + e) j
        linarith
      exact_mod_cast h3
    push_cast
    linear_combination (-(j.factorial : ℝ)) * h2

theorem jacobi_end (e j : Nat) : (jpoly e 0 j).eval (-1) ^ 2 = (2 * j + e + 1) / 2 ^ (e + 1) ∧
    (jpoly e 0 j).eval 1 ^ 2 = (2 * j + e + 1) / 2 ^ (e + 1) * ((j + e).choose e : ℝ) ^ 2 := by
  have he : (0 : ℝ) ≤ e := Nat.cast_nonneg e
  have hj : (j.factorial : ℝ) ≠ 0 := by positivity
  have hp := jacNorm_pos (α := e) (β := 0) (by linarith) (by norm_num) j
  simp only [eval_jpoly (params_nat e), jacobi_eq (params_nat e), div_pow, Real.sq_sqrt hp.le]
  rw [jacNorm_nat]
  have h1 : jacobiP e 0 j 1 = ((j + e).choose e : ℝ) := by
    rw [jacobiP_at_one, rise_nat]; field_simp
  have h2 : jacobiP e 0 j (-1) ^ 2 = 1 := by
    rw [jacobiP_neg e 0 (by linarith) (by linarith) (by norm_num), jacobiP_at_one, zero_add, rise_one, div_self hj, mul_one,
      ← pow_mul, mul_comm, pow_mul]
    norm_num
  rw [h1, h2]
  constructor
  · field_simp
  · field_simp

theorem kernel_left (e n : Nat) : kernelAt (jpoly e 0) n (-1) = (n + 1) * (n + e + 1) / 2 ^ (e + 1) := by
  have : ∀ m : Nat, ∑ j ∈ Finset.range m, (2 * (j : ℝ) + e + 1) / 2 ^ (e + 1) = (m : ℝ) * (m + e) / 2 ^ (e + 1) := by
    intro m
    induction m with
    | zero => simp
    | succ m ih =>
      rw [Finset.sum_range_succ, ih]
      push_cast
      field_simp
      ring
  have h := this (n + 1)
  rw [Finset.sum_range] at h
  simp only [kernelAt, (jacobi_end e _).1]
  rw [h]
  push_cast
  ring

theorem kernel_right (e n : Nat) :
    kernelAt (jpoly e 0) n 1 = (e + 1) * ((n + e + 1).choose (e + 1) : ℝ) ^ 2 / 2 ^ (e + 1) := by
  have : ∀ m : Nat, ∑ j ∈ Finset.range (m + 1), (2 * (j : ℝ) + e + 1) / 2 ^ (e + 1) * ((j + e).choose e : ℝ) ^ 2 =
      (e + 1) * ((m + e + 1).choose (e + 1) : ℝ) ^ 2 / 2 ^ (e + 1) := by
    intro m
    induction m with
    | zero => simp
    | succ m ih =>
      rw [Finset.sum_range_succ, ih]
      have h1 : ((m + 1 + e + 1).choose (e + 1) : ℝ) = ((m + 1 + e).choose e : ℝ) + ((m + 1 + e).choose (e + 1) : ℝ) := by
        rw [Nat.choose_succ_succ]; push_cast; rfl
      have h2 : ((m + 1 + e).choose (e + 1) : ℝ) * (e + 1) = ((m + 1 + e).choose e : ℝ) * (m + 1) := by
        have := Nat.choose_succ_right_eq (m + 1 + e) e
        rw [show m + 1 + e - e = m + 1 by omega] at this
        exact_mod_cast this
      rw [h1, show m + e + 1 = m + 1 + e by ring]
      set A := ((m + 1 + e).choose e : ℝ)
      set B := ((m + 1 + e).choose (e + 1) : ℝ)
      push_cast
      field_simp
      linear_combination (-(2 * A)) * h2
  have h := this n
  rw [Finset.sum_range] at h
  simp only [kernelAt, (jacobi_end e _).2]
  rw [h]

/-! ## Integrals over a simplex along the segments from a vertex to the opposite face -/

/-- The point at height `s` of the segment from the vertex `(1, -1, …, -1)` to the point `(-1, y)` of the opposite face. -/
noncomputable def conePoint {e : Nat} (s : ℝ) (y : Fin e → ℝ) : Fin (e + 1) → ℝ := Fin.cons s fun i => (1 - s) / 2 * (1 + y i) - 1

theorem conePoint_bottom {e : Nat} (y : Fin e → ℝ) : conePoint (-1) y = Fin.cons (-1) y := by
  unfold conePoint
  congr 1
  funext i
  norm_num

theorem conePoint_top {e : Nat} (y : Fin e → ℝ) : conePoint 1 y = (Fin.cons 1 fun _ => -1 : Fin (e + 1) → ℝ) := by
  unfold conePoint
  congr 1
  funext i
  norm_num

theorem continuous_conePoint {e : Nat} : Continuous fun z : ℝ × (Fin e → ℝ) => conePoint z.1 z.2 := by
  refine continuous_pi fun i => ?_
  refine Fin.cases ?_ (fun j => ?_) i
  · exact continuous_fst
  · show Continuous fun z : ℝ × (Fin e → ℝ) => (1 - z.1) / 2 * (1 + z.2 j) - 1
    fun_prop

theorem integral_scaled (e : Nat) {h : ℝ} (hh : 0 < h) (g : (Fin e → ℝ) → ℝ) :
    ∫ r in simplexH e h, g r = h ^ e * ∫ y in simplexSet e, g fun i => h * (1 + y i) - 1 := by
  set M : AffineMap e := ⟨Matrix.diagonal fun _ => h, fun _ => h - 1⟩
  have hM : ∀ y, M.callPoint y = fun i => h * (1 + y i) - 1 := by
    intro y
    funext i
    simp only [AffineMap.callPoint, Matrix.mulVec_diagonal, Pi.add_apply, M]
    ring
  have hj : M.jacobian = h ^ e := by
    simp [AffineMap.jacobian, M, Matrix.det_diagonal]
  have himg : M.callPoint '' simplexSet e = simplexH e h := by
    ext x
    constructor
    · rintro ⟨y, ⟨h1, h2⟩, rfl⟩
      rw [hM]
      refine ⟨fun i => ?_, ?_⟩
      · have := mul_nonneg hh.le (show 0 ≤ 1 + y i by linarith [h1 i])
        show -1 ≤ h * (1 + y i) - 1
        linarith
      · have : ∑ i, (1 + (h * (1 + y i) - 1)) / 2 = h * ∑ i, (1 + y i) / 2 := by
          rw [Finset.mul_sum]
          exact Finset.sum_congr rfl fun i _ => by ring
        show ∑ i, (1 + (h * (1 + y i) - 1)) / 2 ≤ h
        rw [this]
        nlinarith
    · rintro ⟨h1, h2⟩
      refine ⟨fun i => (1 + x i) / h - 1, ⟨fun i => ?_, ?_⟩, ?_⟩
      · have := div_nonneg (show 0 ≤ 1 + x i by linarith [h1 i]) hh.le
        show -1 ≤ (1 + x i) / h - 1
        linarith
      · have : ∑ i, (1 + ((1 + x i) / h - 1)) / 2 = (∑ i, (1 + x i) / 2) / h := by
          rw [Finset.sum_div]
          exact Finset.sum_congr rfl fun i _ => by ring
        show ∑ i, (1 + ((1 + x i) / h - 1)) / 2 ≤ 1
        rw [this, div_le_one hh]
        exact h2
      · rw [hM]
        funext i
        field_simp
        ring
  rw [← himg, integral_image_callPoint M (by rw [hj]; positivity) (simplexSet e) (simplexH_closed e 1).measurableSet, hj, abs_of_pos (by positivity)]
  simp only [hM]

theorem integral_cone (e : Nat) (f : (Fin (e + 1) → ℝ) → ℝ) (hf : Continuous f) :
    ∫ x in simplexSet (e + 1), f x =
      ∫ y in simplexSet e, ∫ s in (-1 : ℝ)..1, ((1 - s) / 2) ^ e * f (conePoint s y) := by
  have h1 : ∫ x in simplexSet (e + 1), f x = ∫ s in Set.Ioo (-1 : ℝ) 1, ∫ y in simplexSet e, ((1 - s) / 2) ^ e * f (conePoint s y) := by
    rw [show simplexSet (e + 1) = simplexH (e + 1) 1 from rfl, integral_simplexH_succ e 1 f hf, ← integral_Icc_eq_integral_Ioo,
      ← setIntegral_eq_integral_of_forall_compl_eq_zero (s := Set.Icc (-1 : ℝ) 1), integral_Icc_eq_integral_Ioo, integral_Icc_eq_integral_Ioo]
    · refine setIntegral_congr_fun measurableSet_Ioo fun s hs => ?_
      show (if -1 ≤ s then ∫ r in simplexH e (1 - (1 + s) / 2), f (Fin.cons s r) else 0) = _
      rw [if_pos hs.1.le, show 1 - (1 + s) / 2 = (1 - s) / 2 by ring, integral_scaled e (by linarith [hs.2]), ← integral_const_mul]
      rfl
    · intro t ht
      split_ifs with h
      · have hlt : 1 < t := by
          by_contra hc
          exact ht ⟨h, not_lt.1 hc⟩
        have : simplexH e (1 - (1 + t) / 2) = ∅ := by
          ext r
          simp only [Set.mem_empty_iff_false, iff_false]
          rintro ⟨h1, h2⟩
          have : 0 ≤ ∑ i, (1 + r i) / 2 := Finset.sum_nonneg fun i _ => by linarith [h1 i]
          linarith
        rw [this, setIntegral_empty]
      · rfl
  have hint : Integrable (Function.uncurry fun (s : ℝ) (y : Fin e → ℝ) => ((1 - s) / 2) ^ e * f (conePoint s y))
      ((volume.restrict (Set.Ioo (-1 : ℝ) 1)).prod (volume.restrict (simplexSet e))) := by
    rw [Measure.prod_restrict]
    refine IntegrableOn.mono_set (t := Set.Icc (-1 : ℝ) 1 ×ˢ simplexSet e) ?_ (Set.prod_mono Set.Ioo_subset_Icc_self le_rfl)
    refine (Continuous.continuousOn ?_).integrableOn_compact (isCompact_Icc.prod (simplexH_compact e 1))
    show Continuous fun z : ℝ × (Fin e → ℝ) => ((1 - z.1) / 2) ^ e * f (conePoint z.1 z.2)
    exact (by fun_prop : Continuous fun z : ℝ × (Fin e → ℝ) => ((1 - z.1) / 2) ^ e).mul (hf.comp continuous_conePoint)
  rw [h1, integral_integral_swap hint]
  congr 1
  funext y
  rw [intervalIntegral.integral_of_le (by norm_num), integral_Ioc_eq_integral_Ioo]

/-- The restriction of a polynomial to such a segment. -/
noncomputable def alongCone {e : Nat} (y : Fin e → ℝ) (P : MvPolynomial (Fin (e + 1)) ℝ) : ℝ[X] :=
  MvPolynomial.aeval (Fin.cons X fun i => C ((1 + y i) / 2) * (1 - X) - 1 : Fin (e + 1) → ℝ[X]) P

theorem eval_alongCone {e : Nat} (y : Fin e → ℝ) (P : MvPolynomial (Fin (e + 1)) ℝ) (s : ℝ) :
    (alongCone y P).eval s = MvPolynomial.eval (conePoint s y) P := by
  have : (Polynomial.evalRingHom s).comp (MvPolynomial.aeval (Fin.cons X fun i => C ((1 + y i) / 2) * (1 - X) - 1 : Fin (e + 1) → ℝ[X])).toRingHom =
      MvPolynomial.eval (conePoint s y) := by
    refine MvPolynomial.ringHom_ext (fun r => by simp) fun i => ?_
    refine Fin.cases ?_ (fun j => ?_) i
    · simp [conePoint]
    · simp [conePoint]
      ring
  exact congrArg (fun φ => φ P) this

theorem natDegree_alongCone {e n : Nat} (y : Fin e → ℝ) (P : MvPolynomial (Fin (e + 1)) ℝ) (hP : P.totalDegree ≤ n) :
    (alongCone y P).natDegree ≤ n := by
  have h := MvPolynomial.aeval_natDegree_le P hP (Fin.cons X fun i => C ((1 + y i) / 2) * (1 - X) - 1 : Fin (e + 1) → ℝ[X]) (n := 1) (by
    intro i
    refine Fin.cases ?_ (fun j => ?_) i
    · simp
    · simp only [Fin.cons_succ]
      compute_degree)
  rw [mul_one] at h
  exact h

theorem weight_nat (e : Nat) (s : ℝ) : jacobiWeight e 0 s = 2 ^ e * ((1 - s) / 2) ^ e := by
  rw [jacobiWeight, Real.rpow_zero, mul_one, Real.rpow_natCast, ← mul_pow]
  congr 1
  ring

theorem family_nat (e : Nat) : OrthFamily (jacobiL (params_nat e).1 (params_nat e).2.1) (jpoly e 0) (gaussA e 0) (gaussB e 0)
    (1 / Real.sqrt (jacNorm e 0 0)) :=
  jacobi_family (params_nat e) (by positivity)

theorem continuous_inner (e : Nat) (g : ℝ × (Fin e → ℝ) → ℝ) (hg : Continuous g) :
    Continuous fun y : Fin e → ℝ => ∫ s in (-1 : ℝ)..1, ((1 - s) / 2) ^ e * (g (s, y) * g (s, y)) := by
  apply intervalIntegral.continuous_parametric_intervalIntegral_of_continuous'
  show Continuous fun z : (Fin e → ℝ) × ℝ => ((1 - z.2) / 2) ^ e * (g (z.2, z.1) * g (z.2, z.1))
  fun_prop

/-- The integral of the square of a polynomial bounds its square at either end of the segments. -/
theorem cone_le {e n : Nat} (P : MvPolynomial (Fin (e + 1)) ℝ) (hP : P.totalDegree ≤ n) (s : ℝ) :
    ∫ y in simplexSet e, MvPolynomial.eval (conePoint s y) P ^ 2 ≤
      2 ^ e * kernelAt (jpoly e 0) n s * ∫ x in simplexSet (e + 1), MvPolynomial.eval x P * MvPolynomial.eval x P := by
  have hc := P.continuous_eval
  rw [integral_cone e (fun x => MvPolynomial.eval x P * MvPolynomial.eval x P) (hc.mul hc), ← integral_const_mul]
  have hcs : IsCompact (simplexSet e) := simplexH_compact e 1
  have hcone : Continuous fun z : ℝ × (Fin e → ℝ) => MvPolynomial.eval (conePoint z.1 z.2) P := hc.comp continuous_conePoint
  clear hc
  refine setIntegral_mono_on ?_ ?_ hcs.measurableSet fun y _ => ?_
  · refine (Continuous.continuousOn ?_).integrableOn_compact hcs
    exact (hcone.comp (by fun_prop : Continuous fun y : Fin e → ℝ => (s, y))).pow 2
  · refine (Continuous.continuousOn ?_).integrableOn_compact hcs
    exact continuous_const.mul (continuous_inner e _ hcone)
  · have h := (family_nat e).kernel_le n s (alongCone y P) (natDegree_alongCone y P hP)
    rw [jacobiL_apply] at h
    simp only [weight_nat, eval_mul, eval_alongCone] at h
    refine h.trans (le_of_eq ?_)
    simp only [mul_assoc]
    rw [intervalIntegral.integral_const_mul]
    ring

/-- The polynomial of the first coordinate for which equality holds. -/
theorem cone_eq (e n : Nat) (s : ℝ) : ∃ P : MvPolynomial (Fin (e + 1)) ℝ, P.totalDegree ≤ n ∧
    (∀ y : Fin e → ℝ, MvPolynomial.eval (conePoint s y) P = kernelAt (jpoly e 0) n s) ∧
    2 ^ e * ∫ x in simplexSet (e + 1), MvPolynomial.eval x P * MvPolynomial.eval x P =
      kernelAt (jpoly e 0) n s * ∫ _ in simplexSet e, (1 : ℝ) := by
  obtain ⟨r, h1, h2, h3⟩ := (family_nat e).kernel_eq n s
  have hev : ∀ x : Fin (e + 1) → ℝ, MvPolynomial.eval x (aeval (MvPolynomial.X 0 : MvPolynomial (Fin (e + 1)) ℝ) r) = r.eval (x 0) := by
    intro x
    rw [Polynomial.aeval_def, Polynomial.hom_eval₂, MvPolynomial.eval_X, Polynomial.eval₂_eq_eval_map]
    have hid : (MvPolynomial.eval x).comp (algebraMap ℝ (MvPolynomial (Fin (e + 1)) ℝ)) = RingHom.id ℝ := by
      ext1 t
      simp
    rw [hid, Polynomial.map_id]
  refine ⟨aeval (MvPolynomial.X 0) r, ?_, fun y => ?_, ?_⟩
  · rw [Polynomial.aeval_eq_sum_range]
    refine (MvPolynomial.totalDegree_finsetSum_le (d := n) fun i hi => ?_)
    refine (MvPolynomial.totalDegree_smul_le _ _).trans ((MvPolynomial.totalDegree_pow _ _).trans ?_)
    have := Finset.mem_range.1 hi
    simp
    omega
  · rw [hev]
    exact h2
  · have hc := (aeval (MvPolynomial.X 0 : MvPolynomial (Fin (e + 1)) ℝ) r).continuous_eval
    rw [integral_cone e (fun x => MvPolynomial.eval x (aeval (MvPolynomial.X 0) r) * MvPolynomial.eval x (aeval (MvPolynomial.X 0) r)) (hc.mul hc)]
    simp only [hev]
    rw [jacobiL_apply] at h3
    simp only [weight_nat, eval_mul, mul_assoc] at h3
    rw [intervalIntegral.integral_const_mul] at h3
    simp only [conePoint, Fin.cons_zero]
    rw [← h3, setIntegral_const, setIntegral_const]
    simp only [smul_eq_mul]
    ring

theorem volume_simplex (e : Nat) : ∫ _ in simplexSet e, (1 : ℝ) = 2 ^ e / e.factorial := by
  have h := dirichlet e (fun _ => 0) 0 (h := 1) zero_le_one
  simp at h
  have : simplexH e 1 = simplexSet e := rfl
  rw [this] at h
  simp
  rw [h]

end Modepy

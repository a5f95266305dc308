import Verif.Props.Symmetry
import Verif.Props.KronrodRule
import Verif.Props.QuadForSpace

/-!
# Property C89: the exact degree of every one-dimensional rule
-/

namespace Modepy
open Polynomial Spec MeasureTheory Polynomial.Chebyshev

/-- The rule integrates all polynomials of degree `D` over `[-1, 1]` but not all of degree `D + 1`. -/
def Spec.DegreeIs (D : Nat) (Q : (List ℝ → ℝ) → ℝ) : Prop := ExactOn D (-1) 1 Q ∧ ¬ ExactOn (D + 1) (-1) 1 Q

theorem call_congr_nodes (q : Quadrature) (f g : List ℝ → ℝ) (h : ∀ k < q.nnodes, f (q.node k) = g (q.node k)) :
    q.call f = q.call g := by
  rw [Quadrature.call, Quadrature.call, sum_map_range_real, sum_map_range_real]
  exact Finset.sum_congr rfl fun k hk => by rw [h k (Finset.mem_range.1 hk)]

theorem call_zero (q : Quadrature) (f : List ℝ → ℝ) (h : ∀ k < q.nnodes, f (q.node k) = 0) : q.call f = 0 := by
  rw [Quadrature.call, sum_map_range_real]
  exact Finset.sum_eq_zero fun k hk => by rw [h k (Finset.mem_range.1 hk), mul_zero]

/-- A nonzero polynomial that is nonnegative on `[-1, 1]` has a positive integral. -/
theorem integral_poly_pos (p : ℝ[X]) (hp : p ≠ 0) (h : ∀ t ∈ Set.Icc (-1 : ℝ) 1, 0 ≤ p.eval t) : 0 < ∫ t in (-1)..1, p.eval t := by
  obtain ⟨c, hc, hr⟩ := ((Set.Icc_infinite (show (-1 : ℝ) < 1 by norm_num)).diff p.roots.toFinset.finite_toSet).nonempty
  refine intervalIntegral.integral_pos (by norm_num) p.continuous.continuousOn (fun t ht => h t ⟨ht.1.le, ht.2⟩) ⟨c, hc, ?_⟩
  refine lt_of_le_of_ne (h c hc) fun e => hr ?_
  simp [hp, e.symm]

/-- **C89 (any rule).**  No rule on `m` nodes is exact to degree `2m`. -/
theorem C89_nodes (q : Quadrature) : ¬ ExactOn (2 * q.nnodes) (-1) 1 q.call := by
  intro h
  let p : ℝ[X] := (∏ k ∈ Finset.range q.nnodes, (X - C ((q.node k).headD 0))) ^ 2
  have hm : p.Monic := (monic_prod_of_monic _ _ fun k _ => monic_X_sub_C _).pow 2
  have hd : p.natDegree ≤ 2 * q.nnodes := by
    refine natDegree_pow_le.trans ?_
    rw [natDegree_prod_of_monic _ _ fun k _ => monic_X_sub_C _]
    simp
  have h1 := h p hd
  rw [call_zero q _ fun k hk => by
    simp only [p, eval_pow, eval_prod, eval_sub, eval_X, eval_C]
    rw [Finset.prod_eq_zero (Finset.mem_range.2 hk) (sub_self _)]
    norm_num] at h1
  have := integral_poly_pos p hm.ne_zero fun t _ => by rw [eval_pow]; positivity
  linarith

theorem exactWeighted_zero (D : Nat) (Q : (List ℝ → ℝ) → ℝ) : ExactWeighted 0 0 D Q ↔ ExactOn D (-1) 1 Q := by
  simp [ExactWeighted, ExactOn]

/-- **C89 (Gauss–Legendre).**  `LegendreGaussQuadrature(N)` has degree `exact_to = 2N + 1` and no more. -/
theorem C89_gauss (ext : Ext) (hext : ext.EighOk) (N : Nat) (fd : Bool) :
    ∃ q, legendreGaussQuadrature ext N .builtin fd = .ok q ∧ q.getExactTo = .ok (.num (2 * N + 1)) ∧ DegreeIs (2 * N + 1) q.call := by
  obtain ⟨q, hq, he, hex, -⟩ := C27_exact ext hext 0 0 gaussParams_zero N fd
  obtain ⟨q', hq', hsharp⟩ := C27_sharp ext hext 0 0 gaussParams_zero N fd
  obtain rfl : q = q' := by rw [hq] at hq'; injection hq'
  rw [exactWeighted_zero] at hex hsharp
  exact ⟨q, hq, he, hex, hsharp⟩

/-- **C89 (Gauss–Lobatto–Legendre).**  `LegendreGaussLobattoQuadrature(N)` has degree `exact_to = 2N - 1` and no more. -/
theorem C89_lobatto (ext : Ext) (hext : ext.EighOk) (N : Nat) (hN : 1 ≤ N) (fd : Bool) :
    ∃ q, legendreGaussLobattoQuadrature ext N .builtin fd = .ok q ∧ q.getExactTo = .ok (.num (2 * N - 1 : Nat)) ∧
      DegreeIs (2 * N - 1) q.call := by
  obtain ⟨q, hq, he, hex, -, hws, -, h0, h1, -⟩ := C29_legendre ext hext N hN fd
  refine ⟨q, hq, he, hex, fun h => ?_⟩
  have hnn : q.nnodes = N + 1 := by rw [Quadrature.nnodes, hws]; rfl
  let π : ℝ[X] := ∏ k ∈ Finset.Ico 1 N, (X - C ((q.node k).headD 0))
  have hπ : π.Monic := monic_prod_of_monic _ _ fun k _ => monic_X_sub_C _
  have hπd : π.natDegree = N - 1 := by
    simp only [π]
    rw [natDegree_prod_of_monic _ _ fun k _ => monic_X_sub_C _]
    simp
  have hne : (1 - X ^ 2 : ℝ[X]) ≠ 0 := by
    intro h
    have := congrArg (eval 0) h
    simp at this
  have hd : ((1 - X ^ 2) * π ^ 2).natDegree ≤ 2 * N - 1 + 1 := by
    refine natDegree_mul_le.trans ?_
    have h2 : (1 - X ^ 2 : ℝ[X]).natDegree ≤ 2 := by compute_degree
    have h3 : (π ^ 2).natDegree ≤ 2 * (N - 1) := by
      refine natDegree_pow_le.trans ?_
      rw [hπd]
    omega
  have h3 := h _ hd
  rw [call_zero q _ fun k hk => by
    rw [hnn] at hk
    rcases Nat.eq_zero_or_pos k with rfl | hk0
    · rw [h0]; simp
    · rcases Nat.lt_or_ge k N with hkN | hkN
      · have : π.eval ((q.node k).headD 0) = 0 := by
          simp only [π, eval_prod, eval_sub, eval_X, eval_C]
          exact Finset.prod_eq_zero (Finset.mem_Ico.2 ⟨hk0, hkN⟩) (sub_self _)
        rw [eval_mul, eval_pow, this]
        norm_num
      · obtain rfl : k = N := by omega
        rw [h1]; simp] at h3
  have := integral_poly_pos ((1 - X ^ 2) * π ^ 2) (mul_ne_zero hne (pow_ne_zero 2 hπ.ne_zero)) fun t ht => by
    rw [eval_mul, eval_pow]
    have : 0 ≤ 1 - t ^ 2 := by nlinarith [ht.1, ht.2]
    simp only [eval_sub, eval_one, eval_pow, eval_X]
    positivity
  linarith

theorem natDegree_T_le (n : Nat) : (T ℝ n).natDegree ≤ n := by
  rw [natDegree_T]
  simp

/-- **C89 (Clenshaw–Curtis).**  The degree is `N` for odd `N` and `N + 1` for even `N`; `exact_to` is `N` in both cases. -/
theorem C89_clenshaw_curtis (N : Nat) (hN : 1 ≤ N) (fd : Bool) :
    ∃ q, clenshawCurtisQuadrature N fd = .ok q ∧ q.getExactTo = .ok (.num N) ∧
      DegreeIs (if Even N then N + 1 else N) q.call := by
  rcases Nat.lt_or_eq_of_le hN with hn | hn
  swap
  · subst hn
    obtain ⟨q, hq, he, hex, -⟩ := C30_exact 1 le_rfl fd
    refine ⟨q, hq, he, ?_⟩
    rw [if_neg (by decide)]
    refine ⟨hex, fun h => ?_⟩
    have h1 := h (X ^ 2) (by simp)
    have h2 := hex 1 (by simp)
    have hq' : clenshawCurtisQuadrature 1 fd = .ok ⟨if fd then (NdArray.ofList [-1, 1]).addDimAxis
        else NdArray.ofList [-1, 1], NdArray.ofList [1, 1], some (.num 1), none⟩ := by
      rw [clenshawCurtisQuadrature, makeClenshawCurtis, if_neg (by omega), if_pos rfl]
      simp
    obtain rfl := Except.ok.inj (hq.symm.trans hq')
    rw [call_ofList [-1, 1] [1, 1] _ fd rfl] at h1
    simp only [eval_pow, eval_X, integral_pow] at h1
    norm_num [Finset.sum_range_succ] at h1
  have hN0 : (N : ℝ) ≠ 0 := by positivity
  obtain ⟨q, hq, he, hex, -⟩ := C30_exact N hN fd
  have hq' := cc_eq hn fd
  -- aliasing
  have key : ∀ j ≤ N, q.call (fun x => (T ℝ (N + j : ℕ)).eval (x.headD 0)) = if (N - j) % 2 = 0 then 2 / (1 - ((N - j : ℕ) : ℝ) ^ 2) else 0 := by
    intro j hj
    rw [← integral_T, ← hex (T ℝ (N - j : ℕ)) ((natDegree_T_le _).trans (by omega))]
    obtain rfl := Except.ok.inj (hq.symm.trans hq')
    rw [call_ofList _ _ _ _ (by simp), call_ofList _ _ _ _ (by simp)]
    simp only [List.length_map, List.length_range]
    apply Finset.sum_congr rfl
    intro k hk
    rw [getD_map_range _ _ (Finset.mem_range.1 hk), getD_map_range _ _ (Finset.mem_range.1 hk), List.headD_cons, T_real_cos, T_real_cos]
    congr 1
    push_cast [Nat.cast_sub hj]
    have e1 : ((N : ℝ) + j) * (k * Real.pi / N) = k * Real.pi + j * (k * Real.pi / N) := by field_simp
    have e2 : ((N : ℝ) - j) * (k * Real.pi / N) = k * Real.pi - j * (k * Real.pi / N) := by field_simp
    rw [e1, e2, Real.cos_add, Real.cos_sub, Real.sin_nat_mul_pi]
    ring
  refine ⟨q, hq, he, ?_⟩
  split_ifs with hpar
  · obtain ⟨q', hq'', -, hex'⟩ := (C88_extra_degree N fd).1 hn hpar
    obtain rfl : q = q' := by rw [hq] at hq''; injection hq''
    refine ⟨hex', fun h => ?_⟩
    have h1 := h (T ℝ (N + 2 : ℕ)) (natDegree_T_le _)
    have hp : N % 2 = 0 := Nat.even_iff.1 hpar
    rw [key 2 hn, integral_T, if_pos (by omega), if_pos (by omega)] at h1
    obtain ⟨M, rfl⟩ : ∃ M, N = M + 2 := ⟨N - 2, by omega⟩
    have hM : M = 0 ∨ 2 ≤ M := by omega
    rw [Nat.add_sub_cancel] at h1
    push_cast at h1
    have a1 : (1 : ℝ) - (M : ℝ) ^ 2 ≠ 0 := by
      rcases hM with rfl | hM
      · norm_num
      · have : (2 : ℝ) ≤ M := by exact_mod_cast hM
        nlinarith
    have a2 : (1 : ℝ) - ((M : ℝ) + 2 + 2) ^ 2 ≠ 0 := by
      have : (0 : ℝ) ≤ M := by positivity
      nlinarith
    rw [div_eq_div_iff a1 a2] at h1
    have : (0 : ℝ) ≤ M := by positivity
    nlinarith
  · refine ⟨hex, fun h => ?_⟩
    have h1 := h (T ℝ (N + 1 : ℕ)) (natDegree_T_le _)
    have hp : N % 2 = 1 := Nat.odd_iff.1 (Nat.not_even_iff_odd.1 hpar)
    rw [key 1 hN, integral_T, if_pos (by omega), if_pos (by omega)] at h1
    obtain ⟨M, rfl⟩ : ∃ M, N = M + 1 := ⟨N - 1, by omega⟩
    have hM : 2 ≤ M := by omega
    rw [Nat.add_sub_cancel] at h1
    push_cast at h1
    have hM' : (2 : ℝ) ≤ M := by exact_mod_cast hM
    have a1 : (1 : ℝ) - (M : ℝ) ^ 2 ≠ 0 := by nlinarith
    have a2 : (1 : ℝ) - ((M : ℝ) + 1 + 1) ^ 2 ≠ 0 := by nlinarith
    rw [div_eq_div_iff a1 a2] at h1
    nlinarith

/-- **C89 (Fejér, first kind).**  On `N` nodes the degree is `N - 1` for even `N` and `N` for odd `N`. -/
theorem C89_fejer_first (N : Nat) (hN : 1 ≤ N) (fd : Bool) :
    ∃ q, fejerQuadrature N 1 fd = .ok q ∧ DegreeIs (if Odd N then N else N - 1) q.call := by
  have hN0 : (N : ℝ) ≠ 0 := by positivity
  obtain ⟨q, hq, hex, -, hws, -, hnode, -⟩ := C31_first N hN fd
  have hnn : q.nnodes = N := by rw [Quadrature.nnodes, hws]; rfl
  have key : ∀ j ≤ N, 1 ≤ j → q.call (fun x => (T ℝ (N + j : ℕ)).eval (x.headD 0)) =
      -if (N - j) % 2 = 0 then 2 / (1 - ((N - j : ℕ) : ℝ) ^ 2) else 0 := by
    intro j hj hj1
    rw [← integral_T, ← hex (T ℝ (N - j : ℕ)) ((natDegree_T_le _).trans (by omega)), eq_neg_iff_add_eq_zero, Quadrature.call, Quadrature.call,
      sum_map_range_real, sum_map_range_real, ← Finset.sum_add_distrib]
    apply Finset.sum_eq_zero
    intro k hk
    rw [hnn, Finset.mem_range] at hk
    rw [hnode k hk, List.headD_cons, T_real_cos, T_real_cos, ← mul_add]
    apply mul_eq_zero_of_right
    push_cast [Nat.cast_sub hj]
    have e1 : ((N : ℝ) + j) * ((k + 0.5) * Real.pi / N) = (k * Real.pi + Real.pi / 2) + j * ((k + 0.5) * Real.pi / N) := by field_simp; ring
    have e2 : ((N : ℝ) - j) * ((k + 0.5) * Real.pi / N) = (k * Real.pi + Real.pi / 2) - j * ((k + 0.5) * Real.pi / N) := by field_simp; ring
    rw [e1, e2, Real.cos_add, Real.cos_sub, Real.cos_add_pi_div_two, Real.sin_nat_mul_pi]
    ring
  refine ⟨q, hq, ?_⟩
  split_ifs with hpar
  · obtain ⟨q', hq'', hex'⟩ := (C88_extra_degree N fd).2.1 hN hpar
    obtain rfl : q = q' := by rw [hq] at hq''; injection hq''
    refine ⟨hex', fun h => ?_⟩
    have h1 := h (T ℝ (N + 1 : ℕ)) (natDegree_T_le _)
    have hp : N % 2 = 1 := Nat.odd_iff.1 hpar
    rw [key 1 hN le_rfl, integral_T, if_pos (by omega), if_pos (by omega)] at h1
    obtain ⟨M, rfl⟩ : ∃ M, N = M + 1 := ⟨N - 1, by omega⟩
    rw [Nat.add_sub_cancel] at h1
    push_cast at h1
    have hM0 : (0 : ℝ) ≤ M := by positivity
    have a1 : (1 : ℝ) - (M : ℝ) ^ 2 ≠ 0 := by
      have hM : M = 0 ∨ 2 ≤ M := by omega
      rcases hM with rfl | hM
      · norm_num
      · have : (2 : ℝ) ≤ M := by exact_mod_cast hM
        nlinarith
    have a2 : (1 : ℝ) - ((M : ℝ) + 1 + 1) ^ 2 ≠ 0 := by nlinarith
    rw [← neg_div, div_eq_div_iff a1 a2] at h1
    nlinarith
  · refine ⟨hex, fun h => ?_⟩
    have hp : N % 2 = 0 := Nat.even_iff.1 (Nat.not_odd_iff_even.1 hpar)
    have h1 := h (T ℝ (N : ℕ)) ((natDegree_T_le _).trans (by omega))
    rw [call_zero q _ fun k hk => by
      rw [hnn] at hk
      rw [hnode k hk, List.headD_cons, T_real_cos]
      have e1 : ((N : ℤ) : ℝ) * ((k + 0.5) * Real.pi / N) = k * Real.pi + Real.pi / 2 := by push_cast; field_simp; ring
      rw [e1, Real.cos_add_pi_div_two, Real.sin_nat_mul_pi, neg_zero], integral_T, if_pos hp] at h1
    have h2 : (2 : ℝ) ≤ N := by exact_mod_cast (by omega : 2 ≤ N)
    have : (1 : ℝ) - (N : ℝ) ^ 2 ≠ 0 := by nlinarith
    have := div_ne_zero (two_ne_zero (α := ℝ)) this
    exact this h1.symm

theorem integral_U (n : Nat) : ∫ t in (-1 : ℝ)..1, (U ℝ (n : ℕ)).eval t = (1 - (-1) ^ (n + 1)) / (n + 1) := by
  have hn : (n : ℝ) + 1 ≠ 0 := by positivity
  have hd : ∀ t ∈ Set.uIcc (-1 : ℝ) 1, HasDerivAt (fun t => (T ℝ (n + 1 : ℤ)).eval t / (n + 1)) ((U ℝ (n : ℕ)).eval t) t := by
    intro t _
    have h := ((T ℝ (n + 1 : ℤ)).hasDerivAt t).div_const ((n : ℝ) + 1)
    rw [T_derivative_eq_U, add_sub_cancel_right] at h
    have e : eval t (((n + 1 : ℤ) : ℝ[X]) * U ℝ (n : ℕ)) / ((n : ℝ) + 1) = (U ℝ (n : ℕ)).eval t := by
      rw [eval_mul]
      have : eval t (((n + 1 : ℤ) : ℝ[X])) = (n : ℝ) + 1 := by
        push_cast
        simp
      rw [this, mul_comm, mul_div_assoc, div_self hn, mul_one]
    rwa [e] at h
  rw [intervalIntegral.integral_eq_sub_of_hasDerivAt hd ((U ℝ (n : ℕ)).continuous.intervalIntegrable _ _), T_eval_one, T_eval_neg_one]
  have : (((Int.negOnePow ((n : ℤ) + 1) : ℤˣ) : ℤ) : ℝ) = (-1) ^ (n + 1) := by
    rcases Nat.even_or_odd (n + 1) with h | h
    · rw [h.neg_one_pow, Int.negOnePow_even _ (by exact_mod_cast h)]
      simp
    · rw [h.neg_one_pow, Int.negOnePow_odd _ (by exact_mod_cast h)]
      simp
  rw [this]
  ring

/-- **C89 (Fejér, second kind).**  With parameter `N`, on `N - 1` nodes, the degree is `N - 2` for odd `N` and `N - 1` for even `N`. -/
theorem C89_fejer_second (N : Nat) (hN : 2 ≤ N) (fd : Bool) :
    ∃ q, fejerQuadrature N 2 fd = .ok q ∧ DegreeIs (if Even N then N - 1 else N - 2) q.call := by
  obtain ⟨q, hq, hex, -, hws, -, -, hU⟩ := C31_second N hN fd
  have hnn : q.nnodes = N - 1 := by rw [Quadrature.nnodes, hws]; rfl
  have hzero : ∀ r : ℝ[X], q.call (fun x => (r * U ℝ (N - 1 : ℕ)).eval (x.headD 0)) = 0 := by
    intro r
    apply call_zero
    intro k hk
    rw [hnn] at hk
    obtain ⟨t, ht, -, -, hr⟩ := hU k hk
    rw [ht, List.headD_cons, eval_mul, hr, mul_zero]
  have hUd : (U ℝ (N - 1 : ℕ)).natDegree ≤ N - 1 := (natDegree_U_natCast ℝ _).le
  refine ⟨q, hq, ?_⟩
  split_ifs with hpar
  · obtain ⟨q', hq'', hex'⟩ := (C88_extra_degree N fd).2.2 hN hpar
    obtain rfl : q = q' := by rw [hq] at hq''; injection hq''
    refine ⟨hex', fun h => ?_⟩
    have h1 := h (X * U ℝ (N - 1 : ℕ)) (by
      refine natDegree_mul_le.trans ?_
      rw [natDegree_X]
      omega)
    rw [hzero] at h1
    obtain ⟨M, rfl⟩ : ∃ M, N = M + 2 := ⟨N - 2, by omega⟩
    have hp : M % 2 = 0 := by have := Nat.even_iff.1 hpar; omega
    have e : (2 : ℝ[X]) * (X * U ℝ (M + 2 - 1 : ℕ)) = U ℝ (M + 2 : ℕ) + U ℝ (M : ℕ) := by
      have := U_add_two ℝ (M : ℤ)
      push_cast at this ⊢
      rw [this]
      ring
    have e2 : ∀ t : ℝ, (X * U ℝ (M + 2 - 1 : ℕ)).eval t = (1 / 2) * ((U ℝ (M + 2 : ℕ)).eval t + (U ℝ (M : ℕ)).eval t) := by
      intro t
      rw [← eval_add, ← e, eval_mul (p := 2)]
      norm_num
      ring
    simp only [e2] at h1
    rw [intervalIntegral.integral_const_mul, intervalIntegral.integral_add ((U ℝ (M + 2 : ℕ)).continuous.intervalIntegrable _ _)
      ((U ℝ (M : ℕ)).continuous.intervalIntegrable _ _), integral_U, integral_U] at h1
    have o1 : Odd (M + 1) := Nat.odd_iff.2 (by omega)
    have o2 : Odd (M + 2 + 1) := Nat.odd_iff.2 (by omega)
    rw [o1.neg_one_pow, o2.neg_one_pow] at h1
    have : (0 : ℝ) < 1 / 2 * ((1 - -1) / (((M + 2 : ℕ) : ℝ) + 1) + (1 - -1) / ((M : ℝ) + 1)) := by
      rw [show (1 : ℝ) - -1 = 2 by norm_num]
      positivity
    linarith
  · refine ⟨hex, fun h => ?_⟩
    have h1 := h (1 * U ℝ (N - 1 : ℕ)) (by rw [one_mul]; omega)
    rw [hzero, one_mul, integral_U] at h1
    have hp : N % 2 = 1 := Nat.odd_iff.1 (Nat.not_even_iff_odd.1 hpar)
    rw [Nat.sub_add_cancel (by omega : 1 ≤ N), (Nat.odd_iff.2 hp).neg_one_pow, show (1 : ℝ) - -1 = 2 by norm_num] at h1
    have : (0 : ℝ) < 2 / (((N - 1 : ℕ) : ℝ) + 1) := by positivity
    linarith

theorem listDot_zero (l w : List ℝ) (h : ∀ t ∈ l, t = 0) : listDot l w = 0 := by
  rw [listDot]
  apply List.sum_eq_zero
  intro v hv
  obtain ⟨i, hi, rfl⟩ := List.getElem_of_mem hv
  rw [List.getElem_zipWith, h _ (List.getElem_mem _), zero_mul]

theorem listDot_reverse (l w : List ℝ) (h : l.length = w.length) : listDot l.reverse w.reverse = listDot l w := by
  rw [listDot, listDot, ← List.reverse_zipWith h, List.sum_reverse]

/-- The Kronrod rule is its own mirror image. -/
theorem kronrod_mirror (eigvalsh : Eigvalsh) (he : EigvalshOk eigvalsh) (n : Nat) (hn : 1 ≤ n) (q : KronrodQuadrature)
    (hq : makeKronrodQuadrature eigvalsh n = .ok q) :
    q.nodes.length = n + 1 ∧ q.gaussQuadrature.nodes.toList1.length = n ∧ ∀ f : ℝ → ℝ, q.call (fun t => f (-t)) = q.call f := by
  have h := hq
  rw [makeKronrodQuadrature] at h
  obtain ⟨X, W, G, -, -, -, -, -, -, -, h8, -⟩ := kronrod_facts eigvalsh he hn
  rw [h8] at h
  obtain rfl := Except.ok.inj h
  obtain ⟨⟨l1, l2, l3, l4, -⟩, ⟨r1, r2, r3, r4, -⟩, -⟩ := C53_assembly (𝕜 := ℝ) (V := ℝ) n ((List.range (n + 1)).map X)
    ((List.range (n + 1)).map fun j => W (X j)) ((List.range ((n + 1) / 2)).map fun i => G (X (1 + 2 * i))) (by simp) (by simp) (by simp)
  refine ⟨l1, l3, fun f => ?_⟩
  have key : ∀ l w : List ℝ, l.length = w.length → l.reverse = l.map Neg.neg → w.reverse = w →
      listDot (l.map fun t => f (-t)) w = listDot (l.map f) w := by
    intro l w hl h1 h2
    rw [← listDot_reverse (l.map f) w (by simpa using hl), h2, ← List.map_reverse, h1, List.map_map]
    rfl
  rw [KronrodQuadrature.call, KronrodQuadrature.call, key _ _ (l3.trans l4.symm) r3 r4, key _ _ (l1.trans l2.symm) r1 r2]

theorem kronrod_call_add (q : KronrodQuadrature) (f g : ℝ → ℝ) : q.call (fun t => f t + g t) = q.call f + q.call g := by
  have key : ∀ l w : List ℝ, listDot (l.map fun t => f t + g t) w = listDot (l.map f) w + listDot (l.map g) w := by
    intro l
    induction l with
    | nil => intro w; simp [listDot]
    | cons a l ih =>
      intro w
      cases w with
      | nil => simp [listDot]
      | cons b w =>
        have := ih w
        simp only [listDot, List.map_cons, List.zipWith_cons_cons, List.sum_cons] at this ⊢
        rw [this]
        ring
  rw [KronrodQuadrature.call, KronrodQuadrature.call, KronrodQuadrature.call, key, key]
  ring

/-- **C89 (Gauss–Kronrod).**  The rule on `2n + 1` nodes declares `exact_to = 3n + 1`.  It integrates odd functions to zero, so for odd
`n` its degree is at least `3n + 2`; its degree is below `4n + 2`. -/
theorem C89_kronrod (eigvalsh : Eigvalsh) (he : EigvalshOk eigvalsh) (n : Nat) (hn : 1 ≤ n) :
    ∃ q, makeKronrodQuadrature eigvalsh n = .ok q ∧ q.exactTo = 3 * n + 1 ∧
      (∀ f : ℝ → ℝ, (∀ t, f (-t) = -f t) → q.call f = 0) ∧
      (∀ p : ℝ[X], p.natDegree ≤ (if Odd n then 3 * n + 2 else 3 * n + 1) → q.call (fun t => p.eval t) = ∫ t in (-1)..1, p.eval t) ∧
      ∃ p : ℝ[X], p.natDegree ≤ 4 * n + 2 ∧ q.call (fun t => p.eval t) ≠ ∫ t in (-1)..1, p.eval t := by
  obtain ⟨q, hq, -, he', hex, -⟩ := C68_rule eigvalsh he hn
  obtain ⟨l1, l2, hmir⟩ := kronrod_mirror eigvalsh he n hn q hq
  rw [he'] at hex
  have hodd : ∀ f : ℝ → ℝ, (∀ t, f (-t) = -f t) → q.call f = 0 := by
    intro f hf
    have h1 := hmir f
    have h2 := kronrod_call_add q f fun t => f (-t)
    simp only [hf, add_neg_cancel] at h1 h2
    have h3 : q.call (fun _ => 0) = 0 := by
      rw [KronrodQuadrature.call, listDot_zero _ _ (by simp), listDot_zero _ _ (by simp), add_zero]
    linarith
  refine ⟨q, hq, he', hodd, fun p hp => ?_, ?_⟩
  · split_ifs at hp with ho
    swap
    · exact hex p hp
    have hD : Odd (3 * n + 2) := by
      obtain ⟨r, rfl⟩ := ho
      exact ⟨3 * r + 2, by ring⟩
    have hsplit : ∀ t, p.eval t = (p.erase (3 * n + 2)).eval t + p.coeff (3 * n + 2) * t ^ (3 * n + 2) := by
      intro t
      conv_lhs => rw [← monomial_add_erase p (3 * n + 2)]
      rw [eval_add, eval_monomial, add_comm]
    have hdeg : (p.erase (3 * n + 2)).natDegree ≤ 3 * n + 1 := by
      rw [natDegree_le_iff_coeff_eq_zero]
      intro N hN
      rw [coeff_erase]
      split_ifs with hc
      · rfl
      · exact coeff_eq_zero_of_natDegree_lt (by omega)
    have hz := hodd (fun t => p.coeff (3 * n + 2) * t ^ (3 * n + 2)) (fun t => by rw [hD.neg_pow]; ring)
    have hi : ∫ t in (-1 : ℝ)..1, p.coeff (3 * n + 2) * t ^ (3 * n + 2) = 0 := by
      rw [intervalIntegral.integral_const_mul, integral_pow, hD.add_one.neg_pow]
      simp
    simp only [hsplit]
    rw [kronrod_call_add, hz, hex _ hdeg, intervalIntegral.integral_add ((p.erase (3 * n + 2)).continuous.intervalIntegrable _ _)
      ((by fun_prop : Continuous fun t : ℝ => p.coeff (3 * n + 2) * t ^ (3 * n + 2)).intervalIntegrable _ _), hi]
  · let l := q.gaussQuadrature.nodes.toList1 ++ q.nodes
    have hm : ((l.map fun t => X - C t).prod ^ 2 : ℝ[X]).Monic := by
      refine Monic.pow ?_ 2
      have : ∀ l : List ℝ, (l.map fun t => (X - C t : ℝ[X])).prod.Monic := by
        intro l
        induction l with
        | nil => simp
        | cons a l ih => simpa using (monic_X_sub_C a).mul ih
      exact this l
    refine ⟨(l.map fun t => X - C t).prod ^ 2, ?_, fun h => ?_⟩
    · have : ∀ l : List ℝ, (l.map fun t => (X - C t : ℝ[X])).prod.natDegree ≤ l.length := by
        intro l
        induction l with
        | nil => simp
        | cons a l ih =>
          rw [List.map_cons, List.prod_cons, List.length_cons]
          refine natDegree_mul_le.trans ?_
          rw [natDegree_X_sub_C]
          omega
      refine natDegree_pow_le.trans ?_
      have h1 := this l
      have h2 : l.length = n + (n + 1) := by simp [l, l1, l2]
      omega
    · have hv : ∀ t ∈ l, ((l.map fun t => X - C t).prod ^ 2 : ℝ[X]).eval t = 0 := by
        intro t ht
        have : (l.map fun t => (X - C t : ℝ[X])).prod.eval t = 0 := by
          rw [← coe_evalRingHom, map_list_prod, List.map_map]
          apply List.prod_eq_zero
          exact List.mem_map.2 ⟨t, ht, by simp⟩
        rw [eval_pow, this]
        norm_num
      rw [KronrodQuadrature.call, listDot_zero _ _ (by
        intro v hv'
        obtain ⟨t, ht, rfl⟩ := List.mem_map.1 hv'
        exact hv t (List.mem_append_left _ ht)), listDot_zero _ _ (by
        intro v hv'
        obtain ⟨t, ht, rfl⟩ := List.mem_map.1 hv'
        exact hv t (List.mem_append_right _ ht))] at h
      have := integral_poly_pos _ hm.ne_zero fun t _ => by rw [eval_pow]; positivity
      linarith

/-- An instance: the midpoint rule, Simpson's rule and the two-point Gauss rule have degree one, three and three. -/
example (ext : Ext) (hext : ext.EighOk) :
    (∃ q, fejerQuadrature 1 1 false = .ok q ∧ DegreeIs 1 q.call) ∧ (∃ q, clenshawCurtisQuadrature 2 false = .ok q ∧ DegreeIs 3 q.call) ∧
      ∃ q, legendreGaussQuadrature ext 1 .builtin false = .ok q ∧ DegreeIs 3 q.call := by
  obtain ⟨q1, h1, d1⟩ := C89_fejer_first 1 le_rfl false
  obtain ⟨q2, h2, -, d2⟩ := C89_clenshaw_curtis 2 (by omega) false
  obtain ⟨q3, h3, -, d3⟩ := C89_gauss ext hext 1 false
  rw [if_pos (by decide)] at d1 d2
  exact ⟨⟨q1, h1, d1⟩, ⟨q2, h2, d2⟩, ⟨q3, h3, d3⟩⟩

end Modepy

import Verif.Props.QuadgkTolerance
import Verif.Props.Sharp

/-!
# Property C91: `quadgk` on polynomials, and integrands that deceive its error estimate
-/

namespace Modepy
open Polynomial Spec

section
variable {𝕜 V : Type} [RCLike 𝕜] [NormedAddCommGroup V] [NormedSpace 𝕜 V]

theorem ruleSum_combo (l v : List ℝ) {ι : Type} (s : Finset ι) (g : ι → ℝ → 𝕜) (c : ι → V) :
    ruleSum 𝕜 l v (fun t => ∑ k ∈ s, g k t • c k) = ∑ k ∈ s, ruleSum 𝕜 l v (g k) • c k := by
  induction l generalizing v with
  | nil => simp [ruleSum]
  | cons t l ih =>
    cases v with
    | nil => simp [ruleSum]
    | cons w v =>
      simp only [ruleSum_cons, ih, Finset.smul_sum, add_smul, Finset.sum_add_distrib, smul_eq_mul, mul_smul]

theorem ruleSum_ofReal (l v : List ℝ) (g : ℝ → ℝ) :
    ruleSum 𝕜 l v (fun t => (g t : 𝕜)) = ((ruleSum ℝ l v g : ℝ) : 𝕜) := by
  induction l generalizing v with
  | nil => simp [ruleSum]
  | cons t l ih =>
    cases v with
    | nil => simp [ruleSum]
    | cons w v =>
      simp only [ruleSum_cons, ih, smul_eq_mul, RCLike.ofReal_add, RCLike.ofReal_mul, RCLike.ofReal_real_eq_id, id_eq]

/-- A rule exact to degree `D` applied to the derivative of a polynomial. -/
theorem ruleSum_derivative (l v : List ℝ) (D : Nat)
    (hex : ∀ p : ℝ[X], p.natDegree ≤ D → ruleSum ℝ l v (fun t => p.eval t) = ∫ t in (-1 : ℝ)..1, p.eval t)
    (q : 𝕜[X]) (hq : q.natDegree ≤ D + 1) :
    ruleSum 𝕜 l v (fun t => q.derivative.eval (t : 𝕜)) = q.eval 1 - q.eval (-1) := by
  have hd : q.derivative.natDegree < D + 1 := by
    have := natDegree_derivative_le q
    omega
  have e1 : ∀ t : ℝ, q.derivative.eval (t : 𝕜) = ∑ k ∈ Finset.range (D + 1), ((t ^ k : ℝ) : 𝕜) • q.derivative.coeff k := by
    intro t
    rw [eval_eq_sum_range' hd]
    refine Finset.sum_congr rfl fun k _ => ?_
    push_cast
    rw [smul_eq_mul, mul_comm]
  simp only [e1]
  rw [ruleSum_combo l v (Finset.range (D + 1)) (fun k t => ((t ^ k : ℝ) : 𝕜)) fun k => q.derivative.coeff k]
  rw [eval_eq_sum_range' (show q.natDegree < D + 1 + 1 by omega) 1,
    eval_eq_sum_range' (show q.natDegree < D + 1 + 1 by omega) (-1), ← Finset.sum_sub_distrib]
  conv_rhs => rw [Finset.sum_range_succ']
  simp only [pow_zero, sub_self, add_zero]
  refine Finset.sum_congr rfl fun k hk => ?_
  have hk' : k ≤ D := by have := Finset.mem_range.1 hk; omega
  have h := hex (X ^ k) (by simpa using hk')
  simp only [eval_pow, eval_X] at h
  rw [ruleSum_ofReal, h, integral_pow, coeff_derivative]
  push_cast
  have : ((k : 𝕜) + 1) ≠ 0 := by exact_mod_cast Nat.succ_ne_zero k
  rw [smul_eq_mul]
  field_simp

/-- The polynomial with coefficients `c 0, …, c D` in `V`. -/
noncomputable def Spec.vpoly (c : Nat → V) (D : Nat) (z : 𝕜) : V := ∑ j ∈ Finset.range (D + 1), z ^ j • c j

/-- Its primitive that vanishes at zero. -/
noncomputable def Spec.vprimitive (c : Nat → V) (D : Nat) (z : 𝕜) : V :=
  ∑ j ∈ Finset.range (D + 1), (z ^ (j + 1) / ((j : 𝕜) + 1)) • c j

/-- A rule exact to degree `D` on `[-1, 1]`, transported to the segment from `a` to `b`. -/
theorem ruleSum_vpoly (l v : List ℝ) (D : Nat)
    (hex : ∀ p : ℝ[X], p.natDegree ≤ D → ruleSum ℝ l v (fun t => p.eval t) = ∫ t in (-1 : ℝ)..1, p.eval t)
    (c : Nat → V) (a b : 𝕜) :
    ((1 / 2 : 𝕜) * (b - a)) • ruleSum 𝕜 l v (fun t => vpoly c D (a + (1 + (t : 𝕜)) * ((1 / 2) * (b - a)))) =
      vprimitive c D b - vprimitive c D a := by
  set s : 𝕜 := (1 / 2) * (b - a) with hs
  simp only [vpoly, vprimitive]
  rw [ruleSum_combo l v (Finset.range (D + 1)) (fun j t => (a + (1 + (t : 𝕜)) * s) ^ j) c, Finset.smul_sum,
    ← Finset.sum_sub_distrib]
  refine Finset.sum_congr rfl fun j hj => ?_
  rw [smul_smul, ← sub_smul]
  congr 1
  have hj' : j ≤ D := by have := Finset.mem_range.1 hj; omega
  have hj0 : ((j : 𝕜) + 1) ≠ 0 := by exact_mod_cast Nat.succ_ne_zero j
  let q : 𝕜[X] := (C a + (1 + X) * C s) ^ (j + 1)
  have hqd : q.natDegree ≤ D + 1 := by
    refine natDegree_pow_le.trans ?_
    have : (C a + (1 + X) * C s : 𝕜[X]).natDegree ≤ 1 := by compute_degree
    nlinarith
  have h := ruleSum_derivative l v D hex q hqd
  have e1 : ∀ t : ℝ, q.derivative.eval (t : 𝕜) = ((a + (1 + (t : 𝕜)) * s) ^ j) * (((j : 𝕜) + 1) * s) := by
    intro t
    simp only [q, derivative_pow, derivative_add, derivative_mul, derivative_C, derivative_one, derivative_X]
    simp
    ring
  have e2 : q.eval 1 = b ^ (j + 1) := by
    simp only [q, eval_pow, eval_add, eval_mul, eval_C, eval_one, eval_X]
    congr 1
    rw [hs]
    ring
  have e3 : q.eval (-1) = a ^ (j + 1) := by
    simp [q]
  rw [e2, e3] at h
  simp only [e1] at h
  have h2 := ruleSum_combo l v (Finset.range 1) (fun _ t => (a + (1 + (t : 𝕜)) * s) ^ j) (fun _ => ((j : 𝕜) + 1) * s)
  simp only [Finset.range_one, Finset.sum_singleton, smul_eq_mul] at h2
  rw [h2] at h
  rw [← sub_div, eq_div_iff hj0, ← h]
  ring

/-- Value and error estimate of one segment for a polynomial. -/
theorem evalrule_vpoly (eigvalsh : Eigvalsh) (he : EigvalshOk eigvalsh) (n : Nat) (hn : 1 ≤ n) (x w gw : List ℝ)
    (hk : kronrod eigvalsh n = .ok (x, w, gw)) (c : Nat → V) (D : Nat) (hD : D ≤ 3 * n + 1) (a b : 𝕜) :
    ∃ seg, evalrule (fun z => some (vpoly c D z)) a b x w gw = .ok seg ∧
      seg.approxIntegral = vprimitive c D b - vprimitive c D a ∧ (D ≤ 2 * n - 1 → seg.errorEst = 0) := by
  obtain ⟨x', w', gw', hk', l1, l2, l3, -, -, h0, -⟩ := (C68_half eigvalsh he).2 n hn
  rw [hk] at hk'
  injection hk' with hk'
  injection hk' with e1 e2
  injection e2 with e2 e3
  subst e1 e2 e3
  obtain ⟨q, hq, -, he', hex, -, -, -, hg, -⟩ := C68_rule eigvalsh he hn
  rw [makeKronrodQuadrature, hk] at hq
  simp only at hq
  injection hq with hq
  subst hq
  have hE := (C53_evalrule (𝕜 := 𝕜) (V := V) n x w gw l1 l2 l3 h0 (fun z => some (vpoly c D z)) a b).1
  simp only at hE
  have hE := hE (fun t _ => by simp)
  simp only [Option.getD_some] at hE
  obtain ⟨⟨a1, a2, a3, a4, a5⟩, -⟩ := C53_assembly (𝕜 := ℝ) (V := ℝ) n x w gw l1 l2 l3
  rw [← ruleSum_append _ _ _ _ (by rw [a3, a4])] at hE
  have hexK : ∀ p : ℝ[X], p.natDegree ≤ D → ruleSum ℝ
      ((assembleKronrod n x w gw).gaussQuadrature.nodes.toList1 ++ (assembleKronrod n x w gw).nodes)
      ((assembleKronrod n x w gw).weightsAtGaussNodes ++ (assembleKronrod n x w gw).weights) (fun t => p.eval t) =
      ∫ t in (-1 : ℝ)..1, p.eval t := by
    intro p hp
    rw [← hex p (hp.trans (by rw [he']; exact hD)), C53_call n x w gw l1 l2 l3, ruleSum_append _ _ _ _ (by rw [a3, a4]),
      (C53_assembly (𝕜 := ℝ) (V := ℝ) n x w gw l1 l2 l3).2.2.2.1]
    simp only [RCLike.ofReal_real_eq_id, id_eq, smul_eq_mul]
  have hval := ruleSum_vpoly _ _ D hexK c a b
  refine ⟨_, hE, hval, fun hD2 => ?_⟩
  have hgv := ruleSum_vpoly _ _ D (fun p hp => hg p (hp.trans hD2)) c a b
  simp only
  rw [hval, hgv, sub_self, norm_zero]

/-- **C91 (exactness).**  On a path of real or complex break points, `quadgk` of order `n ≥ 1` returns, whatever the tolerances
and the budget, the exact integral of every polynomial of degree at most `3n + 1`, scalar or vector valued. -/
theorem C91_exact (eigvalsh : Eigvalsh) (he : EigvalshOk eigvalsh) (q : Heapq (Segment 𝕜 V)) (hq : HeapqOk q)
    (c : Nat → V) (n D : Nat) (hn : 1 ≤ n) (hD : D ≤ 3 * n + 1) (f : 𝕜 → Option V) (s : List 𝕜) (hs : 2 ≤ s.length)
    (hf : ∀ p ∈ consecutive s, AgreeInside f (fun z => some (vpoly c D z)) p.1 p.2)
    (first last : 𝕜) (h1 : s.head? = some first) (h2 : s.getLast? = some last) (abstol reltol : ℝ) (maxevals : Nat) :
    ∃ E N, quadgkFinite eigvalsh q f s abstol reltol maxevals n =
      .ok (vprimitive c D last - vprimitive c D first, E, N) := by
  rw [C82_inside eigvalsh he q hq f _ s hf]
  obtain ⟨I, E, N, hr⟩ := C82_total eigvalsh he q hq (fun z => some (vpoly c D z)) s hs n hn (by simp) abstol reltol maxevals
  obtain ⟨x, w, gw, val, err, T, hk, hA, -, hI, hE, -, hev⟩ :=
    C54_adaptive eigvalsh q hq _ s hs n abstol reltol maxevals I E N hr
  refine ⟨E, N, ?_⟩
  rw [hr, hI, ← (C54_partition val err _ abstol reltol maxevals s first last h1 h2 T N hA).1 V (vprimitive c D)]
  congr 3
  refine List.map_congr_left fun p _ => ?_
  obtain ⟨seg, hseg, hv, -⟩ := evalrule_vpoly eigvalsh he n hn x w gw hk c D hD p.1 p.2
  rw [← hv, hev _ _ _ hseg]

/-- **C91 (one pass).**  For degree at most `2n - 1` the error estimate is zero and no segment is bisected, so that the result
takes `2n + 1` evaluations per segment. -/
theorem C91_one_pass (eigvalsh : Eigvalsh) (he : EigvalshOk eigvalsh) (q : Heapq (Segment 𝕜 V)) (hq : HeapqOk q)
    (c : Nat → V) (n D : Nat) (hn : 1 ≤ n) (hD : D ≤ 2 * n - 1) (f : 𝕜 → Option V) (s : List 𝕜) (hs : 2 ≤ s.length)
    (hf : ∀ p ∈ consecutive s, AgreeInside f (fun z => some (vpoly c D z)) p.1 p.2)
    (first last : 𝕜) (h1 : s.head? = some first) (h2 : s.getLast? = some last) (abstol reltol : ℝ) (habs : 0 ≤ abstol)
    (maxevals : Nat) :
    quadgkFinite eigvalsh q f s abstol reltol maxevals n =
      .ok (vprimitive c D last - vprimitive c D first, 0, (2 * n + 1) * (consecutive s).length) := by
  obtain ⟨E, N, hr⟩ := C91_exact eigvalsh he q hq c n D hn (by omega) f s hs hf first last h1 h2 abstol reltol maxevals
  have hr' := hr
  rw [C82_inside eigvalsh he q hq f _ s hf] at hr'
  obtain ⟨x, w, gw, val, err, T, hk, hA, -, hI, hE, -, hev⟩ :=
    C54_adaptive eigvalsh q hq _ s hs n abstol reltol maxevals _ E N hr'
  have herr : ∀ p, err p = 0 := by
    intro p
    obtain ⟨seg, hseg, -, h⟩ := evalrule_vpoly eigvalsh he n hn x w gw hk c D (by omega) p.1 p.2
    have := h hD
    rw [hev _ _ _ hseg] at this
    exact this
  have hz : ∀ T : List (𝕜 × 𝕜), (T.map err).sum = 0 := by
    intro T
    exact List.sum_eq_zero fun v hv => by
      obtain ⟨p, -, rfl⟩ := List.mem_map.1 hv
      exact herr p
  have hN : N = (2 * n + 1) * (consecutive s).length := by
    cases hA with
    | start => rfl
    | split l a b r N before habs' =>
      rw [hz] at habs'
      linarith
  rw [hr, hE, hz, hN]

end

/-- **C91 (the estimate can be deceived).**  For every order `n ≥ 1` and interval there is a polynomial integrand, non-negative,
of degree `4n + 2` and with integral one, for which `quadgk` returns zero with error estimate zero, whatever the tolerances
(non-negative `abstol`) and the budget: the estimate is not a bound of the error. -/
theorem C91_deceived (eigvalsh : Eigvalsh) (he : EigvalshOk eigvalsh) (q : Heapq (Segment ℝ ℝ)) (hq : HeapqOk q)
    (n : Nat) (hn : 1 ≤ n) (a b : ℝ) (hab : a < b) :
    ∃ p : ℝ[X], p.natDegree = 4 * n + 2 ∧ (∀ t, 0 ≤ p.eval t) ∧ (∫ t in a..b, p.eval t) = 1 ∧
      ∀ abstol reltol : ℝ, 0 ≤ abstol → ∀ maxevals,
        quadgkFinite eigvalsh q (fun t => some (p.eval t)) [a, b] abstol reltol maxevals n = .ok (0, 0, 2 * n + 1) := by
  obtain ⟨x, w, gw, hk, l1, l2, l3, -, -, h0, -⟩ := (C68_half eigvalsh he).2 n hn
  obtain ⟨⟨a1, a2, a3, a4, a5⟩, -⟩ := C53_assembly (𝕜 := ℝ) (V := ℝ) n x w gw l1 l2 l3
  set k := assembleKronrod n x w gw with hkdef
  let l : List ℝ := (k.gaussQuadrature.nodes.toList1 ++ k.nodes).map fun t => a + (1 + t) * ((1 / 2) * (b - a))
  have hl : l.length = 2 * n + 1 := by
    simp only [l, List.length_map, List.length_append, a1, a3]
    omega
  let P : ℝ[X] := (l.map fun t => X - C t).prod
  have hPm : P.Monic := by
    have : ∀ l : List ℝ, (l.map fun t => (X - C t : ℝ[X])).prod.Monic := by
      intro l
      induction l with
      | nil => simp
      | cons a l ih => simpa using (monic_X_sub_C a).mul ih
    exact this l
  have hPd : P.natDegree = 2 * n + 1 := by
    have : ∀ l : List ℝ, (l.map fun t => (X - C t : ℝ[X])).prod.natDegree = l.length := by
      intro l
      induction l with
      | nil => simp
      | cons a l ih =>
        have hm : (l.map fun t => (X - C t : ℝ[X])).prod.Monic := by
          clear ih
          induction l with
          | nil => simp
          | cons a l ih => simpa using (monic_X_sub_C a).mul ih
        rw [List.map_cons, List.prod_cons, List.length_cons, (monic_X_sub_C a).natDegree_mul hm, natDegree_X_sub_C, ih]
        omega
    rw [← hl]
    exact this l
  have hP0 : ∀ t ∈ l, P.eval t = 0 := by
    intro t ht
    rw [← coe_evalRingHom, map_list_prod, List.map_map]
    apply List.prod_eq_zero
    exact List.mem_map.2 ⟨t, ht, by simp⟩
  have hpos : 0 < ∫ t in a..b, (P ^ 2).eval t := by
    have hne : P ^ 2 ≠ 0 := (hPm.pow 2).ne_zero
    have hc : Continuous fun t => (P ^ 2).eval t := (P ^ 2).continuous
    have hex : ∃ t ∈ Set.Icc a b, 0 < (P ^ 2).eval t := by
      by_contra hcon
      push Not at hcon
      apply hne
      apply Polynomial.eq_zero_of_infinite_isRoot
      refine Set.Infinite.mono (fun t ht => ?_) (Set.Icc_infinite hab)
      exact le_antisymm (hcon t ht) (by rw [eval_pow]; exact sq_nonneg _)
    obtain ⟨t, ht, hpt⟩ := hex
    exact intervalIntegral.integral_pos hab hc.continuousOn
      (fun t _ => by rw [eval_pow]; exact sq_nonneg _) ⟨t, ht, hpt⟩
  set J := ∫ t in a..b, (P ^ 2).eval t with hJ
  refine ⟨C J⁻¹ * P ^ 2, ?_, fun t => ?_, ?_, ?_⟩
  · rw [natDegree_C_mul (inv_ne_zero hpos.ne'), hPm.natDegree_pow, hPd]
    omega
  · rw [eval_mul, eval_C, eval_pow]
    exact mul_nonneg (inv_nonneg.2 hpos.le) (sq_nonneg _)
  · simp only [eval_mul, eval_C, intervalIntegral.integral_const_mul]
    exact inv_mul_cancel₀ hpos.ne'
  intro abstol reltol habs maxevals
  set f : ℝ → Option ℝ := fun t => some ((C J⁻¹ * P ^ 2).eval t) with hf
  obtain ⟨I, E, N, hr⟩ := C82_total eigvalsh he q hq f [a, b] (by simp) n hn (by simp [f]) abstol reltol maxevals
  obtain ⟨x', w', gw', val, err, T, hk', hA, -, hI, hE, -, hev⟩ :=
    C54_adaptive eigvalsh q hq f [a, b] (by simp) n abstol reltol maxevals I E N hr
  rw [hk] at hk'
  injection hk' with hk'
  injection hk' with e1 e2
  injection e2 with e2 e3
  subst e1 e2 e3
  have hrule := (C53_evalrule (𝕜 := ℝ) (V := ℝ) n x w gw l1 l2 l3 h0 f a b).1
  simp only at hrule
  have hrule := hrule (fun t _ => by simp [f])
  have hz : ∀ t ∈ k.gaussQuadrature.nodes.toList1 ++ k.nodes,
      (f (a + (1 + (t : ℝ)) * ((1 / 2) * (b - a)))).getD 0 = 0 := by
    intro t ht
    simp only [f, Option.getD_some, eval_mul, eval_pow]
    rw [hP0 _ (List.mem_map.2 ⟨t, ht, rfl⟩)]
    simp
  have hsum : ∀ (l v : List ℝ) (g : ℝ → ℝ), (∀ t ∈ l, g t = 0) → ruleSum ℝ l v g = 0 := by
    intro l
    induction l with
    | nil => intro v g _; simp [ruleSum]
    | cons t l ih =>
      intro v g hg
      cases v with
      | nil => simp [ruleSum]
      | cons w v =>
        rw [ruleSum_cons, hg t (by simp), ih v g fun u hu => hg u (List.mem_cons_of_mem _ hu), smul_zero, add_zero]
  have hseg := hev _ _ _ hrule
  simp only [RCLike.ofReal_real_eq_id, id_eq, ← hkdef] at hseg
  rw [hsum _ _ _ fun t ht => hz t (List.mem_append_left _ ht), hsum _ _ _ fun t ht => hz t (List.mem_append_right _ ht),
    hsum _ _ _ fun t ht => hz t (List.mem_append_left _ ht)] at hseg
  simp only [add_zero, smul_zero, sub_self, norm_zero, Segment.mk.injEq, true_and] at hseg
  obtain ⟨hv, he0⟩ := hseg
  have hT : T = [(a, b)] ∧ N = 2 * n + 1 := by
    clear hr hI hE
    induction hA with
    | start => exact ⟨rfl, by simp [consecutive]⟩
    | split l a' b' r N before habs' _ _ _ ih =>
      rw [ih.1] at habs'
      simp [← he0] at habs'
      linarith
  rw [hr, hI, hE, hT.1, hT.2]
  simp [← hv, ← he0]

/-- `1 + 2 t` integrated from `-1` over `0` to `3`, with a tolerance that can only be met by an exact result. -/
example (eigvalsh : Eigvalsh) (he : EigvalshOk eigvalsh) (q : Heapq (Segment ℝ ℝ)) (hq : HeapqOk q) :
    quadgkFinite eigvalsh q (fun t => some (1 + 2 * t)) [-1, 0, 3] 0 0 1000 2 = .ok (12, 0, 10) := by
  have hF : ∀ t : ℝ, vpoly (𝕜 := ℝ) (fun j => (j : ℝ) + 1) 1 t = 1 + 2 * t := by
    intro t
    simp [vpoly, Finset.sum_range_succ]
    ring
  have h := C91_one_pass eigvalsh he q hq (fun j => (j : ℝ) + 1) 2 1 (by norm_num) (by norm_num)
    (fun t => some (1 + 2 * t)) [-1, 0, 3] (by simp) (fun p _ t _ _ => by simp only [hF]) (-1) 3 rfl rfl 0 0 le_rfl 1000
  rw [h]
  simp [vprimitive, Finset.sum_range_succ, consecutive]
  norm_num

end Modepy

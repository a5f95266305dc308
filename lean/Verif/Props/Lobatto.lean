import Verif.Proofs.Lobatto

/-!
# Property C29: Gauss–Lobatto quadrature
-/

namespace Modepy
open Spec Polynomial

theorem gaussParams_succ {α β : ℝ} (hα : -1 < α) (hβ : -1 < β) : GaussParams (α + 1) (β + 1) := by
  refine ⟨by linarith, by linarith, ?_, ?_⟩
  · rw [abs_of_pos (by linarith)]
    have : (1e-14 : ℝ) ≤ 1 := by norm_num
    linarith
  · rintro ⟨h, -⟩
    rw [abs_of_pos (by norm_num; linarith)] at h
    norm_num at h
    linarith

theorem sum_ends {m : Nat} (g : Fin (m + 2) → ℝ) :
    ∑ i, g i = g 0 + (∑ i : Fin m, g i.succ.castSucc) + g (Fin.last (m + 1)) := by
  rw [Fin.sum_univ_castSucc, Fin.sum_univ_succ]
  rfl

/-- The nodes computed by `jacobi_gauss_lobatto_nodes`, `N = m + 1`. -/
theorem lobattoNodes_facts (ext : Ext) (hext : ext.EighOk) {α β : ℝ} (hα : -1 < α) (hβ : -1 < β) (m : Nat) :
    ∃ (x : Fin (m + 2) → ℝ) (v : Fin m → ℝ), lobattoNodes ext α β (m + 1) .builtin = .ok x ∧
      x 0 = -1 ∧ x (Fin.last (m + 1)) = 1 ∧ StrictMono x ∧
      (∀ i : Fin m, -1 < x i.succ.castSucc ∧ x i.succ.castSucc < 1) ∧
      (∀ i : Fin m, 0 < v i) ∧
      (∀ i : Fin m, (jpoly (α + 1) (β + 1) m).eval (x i.succ.castSucc) = 0) ∧
      (∀ g : ℝ[X], g = 0 ∨ g.natDegree + 1 ≤ 2 * m →
        ∑ i, v i * g.eval (x i.succ.castSucc) =
          ∫ t in (-1)..1, g.eval t * ((1 - t) ^ (α + 1) * (1 + t) ^ (β + 1))) := by
  cases m with
  | zero =>
    refine ⟨_, Fin.elim0, rfl, rfl, rfl, ?_, fun i => i.elim0, fun i => i.elim0, fun i => i.elim0, ?_⟩
    · rw [Fin.strictMono_iff_lt_succ]
      intro i
      fin_cases i
      norm_num
    · rintro g (rfl | hg)
      · simp
      · omega
  | succ k =>
    obtain ⟨z, v, hok, hex, hv, hz, hin, hroot⟩ := compute_facts ext hext (gaussParams_succ hα hβ) k
    let x : Fin (k + 1 + 2) → ℝ := fun i => if (i : Nat) = 0 then -1 else if (i : Nat) = k + 1 + 1 then 1
      else (nodes1D z true).get [0, i - 1]
    have hx : ∀ i : Fin (k + 1), x i.succ.castSucc = z i := by
      intro i
      have hi := i.2
      simp only [x]
      rw [if_neg (by simp), if_neg (by simp; omega)]
      simp [nodes1D, NdArray.addDimAxis, NdArray.ofFn]
      omega
    have h0 : x 0 = -1 := rfl
    have h1 : x (Fin.last (k + 1 + 1)) = 1 := by simp [x]
    refine ⟨x, v, ?_, h0, h1, ?_, ?_, hv, ?_, ?_⟩
    · rw [lobattoNodes, if_neg (by omega), if_pos (by omega), show k + 1 + 1 - 2 = k by omega,
        gauss_ok ext _ _ k true z v hok]
    · rw [Fin.strictMono_iff_lt_succ]
      intro i
      refine Fin.cases ?_ (fun i => ?_) i
      · have : (0 : Fin (k + 1 + 1)).succ = (0 : Fin (k + 1)).succ.castSucc := rfl
        rw [this, hx, show (0 : Fin (k + 1 + 1)).castSucc = 0 from rfl, h0]
        exact (hin 0).1
      · rw [hx]
        refine Fin.lastCases ?_ (fun j => ?_) i
        · rw [show (Fin.last k).succ.succ = Fin.last (k + 1 + 1) from rfl, h1]
          exact (hin _).2
        · have : (j.castSucc).succ.succ = (j.succ).succ.castSucc := rfl
          rw [this, hx]
          exact hz (Fin.castSucc_lt_succ)
    · intro i; rw [hx]; exact hin i
    · intro i; rw [hx]; exact hroot i
    · intro g hg
      simp only [hx]
      apply hex
      rcases hg with rfl | hg
      · simp
      · omega

/-- **C29 (nodes).**  For all real `α, β > -1` and `N ≥ 1`, `jacobi_gauss_lobatto_nodes` returns `N + 1`
strictly increasing nodes from `-1` to `1` for which there are weights integrating every polynomial of
degree at most `2N - 1` exactly against `(1-x)^α (1+x)^β`. -/
theorem C29_nodes (ext : Ext) (hext : ext.EighOk) (α β : ℝ) (hα : -1 < α) (hβ : -1 < β) (N : Nat)
    (hN : 1 ≤ N) :
    ∃ x w : Fin (N + 1) → ℝ, jacobiGaussLobattoNodes ext α β N .builtin false = .ok (NdArray.ofFn x) ∧
      x 0 = -1 ∧ x (Fin.last N) = 1 ∧ StrictMono x ∧
      ∀ f : ℝ[X], f.natDegree ≤ 2 * N - 1 →
        ∑ i, w i * f.eval (x i) = ∫ t in (-1)..1, f.eval t * ((1 - t) ^ α * (1 + t) ^ β) := by
  obtain ⟨m, rfl⟩ : ∃ m, N = m + 1 := ⟨N - 1, by omega⟩
  obtain ⟨x, v, hok, h0, h1, hmono, hin, -, -, hex⟩ := lobattoNodes_facts ext hext hα hβ m
  obtain ⟨wl, wr, hrule⟩ := lobatto_rule hα hβ (fun i => x i.succ.castSucc) v hin hex
  refine ⟨x, Fin.cons wl (Fin.snoc (fun i => v i / (1 - x i.succ.castSucc ^ 2)) wr), ?_, h0, h1, hmono, ?_⟩
  · rw [jacobiGaussLobattoNodes, hok]; rfl
  · intro f hf
    rw [← hrule f (by omega), sum_ends, h0, h1]
    have e1 : ∀ i : Fin m, (Fin.cons wl (Fin.snoc (fun i => v i / (1 - x i.succ.castSucc ^ 2)) wr) :
        Fin (m + 2) → ℝ) i.succ.castSucc = v i / (1 - x i.succ.castSucc ^ 2) := by
      intro i
      rw [show i.succ.castSucc = (i.castSucc).succ from rfl, Fin.cons_succ, Fin.snoc_castSucc]
      rfl
    have e2 : (Fin.cons wl (Fin.snoc (fun i => v i / (1 - x i.succ.castSucc ^ 2)) wr) :
        Fin (m + 2) → ℝ) (Fin.last (m + 1)) = wr := by
      rw [show Fin.last (m + 1) = (Fin.last m).succ from rfl, Fin.cons_succ, Fin.snoc_last]
    simp only [e1, e2]
    rfl

/-! ## Legendre weights -/

theorem jacNorm_legendre (n : Nat) : jacNorm 0 0 n = 2 / (2 * n + 1) := by
  induction n using Nat.strong_induction_on with
  | _ n ih =>
    match n, ih with
    | 0, _ => simp [jacNorm]
    | 1, ih => rw [jacNorm_one, ih 0 (by omega)]; norm_num
    | n + 2, ih =>
      have : jacNorm 0 0 (n + 2) = jacNorm 0 0 (n + 1) *
        ((2 * n + 0 + 0 + 3) * (n + 0 + 2) * (n + 0 + 2) /
        ((2 * n + 0 + 0 + 5) * (n + 2) * (n + 0 + 0 + 2))) := rfl
      rw [this, ih (n + 1) (by omega)]
      push_cast
      field_simp
      ring

theorem derivative_legendre (n : Nat) (x : ℝ) :
    (derivative (jpoly 0 0 (n + 1))).eval x =
      Real.sqrt ((n + 1) * (n + 2)) * (jpoly 1 1 n).eval x := by
  rw [eval_derivative_jpoly params_zero, gradJacobi, if_neg (by omega)]
  have hp : JacobiParams 1 1 := by
    have := JacobiParams.succ (α := 0) (β := 0) (by norm_num) (by norm_num)
    simpa using this
  rw [eval_jpoly hp]
  simp only [Duck.lit, id, zero_add, Nat.add_sub_cancel]
  congr 2
  push_cast
  ring

theorem legendre_ode (n : Nat) :
    derivative ((1 - X ^ 2) * derivative (jpoly 0 0 n)) = C (-(n * (n + 1) : ℝ)) * jpoly 0 0 n := by
  apply Polynomial.funext
  intro x
  have hN := Real.sqrt_pos.2 (jacNorm_pos (show (-1 : ℝ) < 0 by norm_num) (show (-1 : ℝ) < 0 by norm_num) n)
  have h0 : ∀ t, (jpoly 0 0 n).eval t = jacobiP 0 0 n t / Real.sqrt (jacNorm 0 0 n) := fun t => by
    rw [eval_jpoly params_zero, jacobi_eq params_zero]
  have h1 : ∀ t, (derivative (jpoly 0 0 n)).eval t = dJacobiP 0 0 n t / Real.sqrt (jacNorm 0 0 n) := by
    intro t
    have d1 := (jpoly 0 0 n).hasDerivAt t
    have d2 := (hasDerivAt_jacobiP 0 0 n t).div_const (Real.sqrt (jacNorm 0 0 n))
    simp only [h0] at d1
    exact d1.unique d2
  have h2 : (derivative (derivative (jpoly 0 0 n))).eval x = ddJacobiP 0 0 n x / Real.sqrt (jacNorm 0 0 n) := by
    have d1 := (derivative (jpoly 0 0 n)).hasDerivAt x
    have d2 := (hasDerivAt_dJacobiP 0 0 n x).div_const (Real.sqrt (jacNorm 0 0 n))
    simp only [h1] at d1
    exact d1.unique d2
  have ode := jacobiP_ode 0 0 n x
  rw [derivative_mul]
  simp only [derivative_sub, derivative_one, derivative_X_pow, eval_add, eval_mul, eval_sub, eval_one, eval_pow,
    eval_X, eval_C, h0, h1, h2, eval_zero]
  push_cast
  field_simp
  norm_num at ode ⊢
  linear_combination ode

/-- The weights of any Lobatto rule for the Legendre weight, `N = m + 1`. -/
theorem legendre_lobatto_weights {m : Nat} (z w : Fin m → ℝ) (wl wr : ℝ) (hz : Function.Injective z)
    (hin : ∀ i, -1 < z i ∧ z i < 1) (hroot : ∀ i, (jpoly 1 1 m).eval (z i) = 0)
    (hrule : ∀ f : ℝ[X], f.natDegree ≤ 2 * m + 1 →
      wl * f.eval (-1) + (∑ i, w i * f.eval (z i)) + wr * f.eval 1 = jacobiL (α := 0) (β := 0)
        (by norm_num) (by norm_num) f) :
    wl = 2 / ((m + 1) * (m + 2)) ∧ wr = 2 / ((m + 1) * (m + 2)) ∧
      ∀ i, w i = 2 / ((m + 1) * (m + 2)) / jacobiP 0 0 (m + 1) (z i) ^ 2 := by
  have hp11 : JacobiParams 1 1 := by
    have := JacobiParams.succ (α := 0) (β := 0) (by norm_num) (by norm_num)
    simpa using this
  have fam := jacobi_family params_zero (by norm_num)
  have fam1 := jacobi_family hp11 (by norm_num)
  set L := jacobiL (α := 0) (β := 0) params_zero.1 params_zero.2.1 with hL
  set p := jpoly 0 0 (m + 1) with hp
  obtain ⟨hpd, hpc⟩ := fam.leading (m + 1)
  rw [← hp] at hpd
  set κ := p.coeff (m + 1) with hκ
  have hm : (0 : ℝ) < m + 1 := by positivity
  have hm2 : (0 : ℝ) < m + 2 := by positivity
  set σ := Real.sqrt (((m : ℝ) + 1) * (m + 2)) with hσ
  have hσ0 : 0 < σ := Real.sqrt_pos.2 (by positivity)
  have hσ2 : σ * σ = (m + 1) * (m + 2) := Real.mul_self_sqrt (by positivity)
  have hder : derivative p = C σ * jpoly 1 1 m := by
    apply Polynomial.funext
    intro x
    rw [derivative_legendre, eval_mul, eval_C]
  have hdr : ∀ i, (derivative p).eval (z i) = 0 := by
    intro i; rw [hder, eval_mul, hroot, mul_zero]
  set q : ℝ[X] := (1 - X ^ 2) * derivative p with hq
  have hq' : derivative q = C (-((m + 1) * (m + 2) : ℝ)) * p := by
    have := legendre_ode (m + 1)
    push_cast at this
    rw [show (m : ℝ) + 1 + 1 = m + 2 by ring] at this
    exact this
  have hLq : ∀ s : ℝ[X], L (q * s) = jacobiL hp11.1 hp11.2.1 (derivative p * s) := by
    intro s
    rw [hL, jacobiL_apply, jacobiL_apply]
    apply intervalIntegral.integral_congr
    intro t ht
    rw [Set.uIcc_of_le (by norm_num)] at ht
    have := jacobiWeight_succ_Icc (α := 0) (β := 0) (by norm_num) (by norm_num) t ht.1 ht.2
    norm_num at this
    simp only [this, hq, eval_mul, eval_sub, eval_one, eval_pow, eval_X]
    ring
  have hd1 : (derivative p).natDegree ≤ m := (natDegree_derivative_le p).trans (by omega)
  have hqd : q.natDegree ≤ m + 2 := by
    refine natDegree_mul_le.trans ?_
    have : (1 - X ^ 2 : ℝ[X]).natDegree ≤ 2 := (natDegree_sub_le _ _).trans (by simp)
    omega
  have hdcoef : (derivative p).coeff m = (m + 1) * κ := by
    rw [coeff_derivative]; ring
  have hc11 : (jpoly 1 1 m).coeff m = (m + 1) * κ / σ := by
    have := congrArg (fun g => coeff g m) hder
    simp only [coeff_C_mul, hdcoef] at this
    rw [eq_div_iff hσ0.ne', this]; ring
  -- interior weights
  have interior : ∀ i, w i = 2 / ((m + 1) * (m + 2)) / jacobiP 0 0 (m + 1) (z i) ^ 2 := by
    intro i
    obtain ⟨r, hr⟩ : (X - C (z i)) ∣ q := by
      rw [dvd_iff_isRoot, IsRoot.def, hq, eval_mul, hdr, mul_zero]
    obtain ⟨s, hs⟩ : (X - C (z i)) ∣ p - C (p.eval (z i)) := by
      rw [dvd_iff_isRoot, IsRoot.def]; simp
    have hX : (X - C (z i)).natDegree = 1 := natDegree_X_sub_C _
    have hXm := monic_X_sub_C (z i)
    have hrd : r.natDegree ≤ m + 1 := by
      by_cases h0 : r = 0
      · simp [h0]
      · have := hqd
        rw [hr, hXm.natDegree_mul' h0, hX] at this
        omega
    have hsd : s.natDegree ≤ m := by
      by_cases h0 : s = 0
      · simp [h0]
      · have h1 : (p - C (p.eval (z i))).natDegree ≤ m + 1 := (natDegree_sub_le _ _).trans (by simp; omega)
        rw [hs, hXm.natDegree_mul' h0, hX] at h1
        omega
    -- leading coefficients
    have hrc : r.coeff (m + 1) = -((m + 1) * κ) := by
      have := congrArg (fun g => coeff g (m + 2)) hr
      simp only [sub_mul, coeff_sub, coeff_C_mul] at this
      rw [coeff_X_mul, coeff_eq_zero_of_natDegree_lt (show r.natDegree < m + 2 by omega), mul_zero,
        sub_zero, hq, sub_mul, coeff_sub, one_mul, coeff_eq_zero_of_natDegree_lt
          (show (derivative p).natDegree < m + 2 by omega), coeff_X_pow_mul, hdcoef] at this
      rw [← this]; ring
    have hsc : s.coeff m = κ := by
      have := congrArg (fun g => coeff g (m + 1)) hs
      simp only [sub_mul, coeff_sub, coeff_C_mul] at this
      rw [coeff_X_mul, coeff_eq_zero_of_natDegree_lt (show s.natDegree < m + 1 by omega), mul_zero,
        sub_zero, coeff_C, if_neg (by omega), sub_zero] at this
      exact this.symm
    have k1 : L (r * p) = -(m + 1) := by
      rw [fam.pair_top (m + 1) r hrd, hrc, ← hp, ← hκ]
      field_simp
    have k2 : L (r * (p - C (p.eval (z i)))) = m + 2 := by
      have e : r * (p - C (p.eval (z i))) = q * s := by rw [hs, hr]; ring
      rw [e, hLq, hder, mul_assoc, ← smul_eq_C_mul, map_smul, mul_comm, fam1.pair_top m s hsd, hsc, hc11,
        smul_eq_mul]
      field_simp
      linear_combination hσ2
    have k3 : L r * p.eval (z i) = -(2 * m + 3) := by
      have : L (r * (p - C (p.eval (z i)))) = L (r * p) - p.eval (z i) * L r := by
        rw [mul_sub, map_sub, mul_comm r (C _), ← smul_eq_C_mul, map_smul, smul_eq_mul]
      rw [k1, k2] at this
      linarith
    have k4 : r.eval (z i) = -((m + 1) * (m + 2)) * p.eval (z i) := by
      have := congrArg (fun g => eval (z i) (derivative g)) hr
      simp only [derivative_mul, derivative_sub, derivative_X, derivative_C, eval_add, eval_mul, eval_sub, eval_X,
        eval_C, hq', eval_one, eval_zero] at this
      linarith
    have k5 : w i * r.eval (z i) = L r := by
      rw [← hrule r (by omega)]
      have hev : ∀ t, t ≠ z i → q.eval t = 0 → r.eval t = 0 := by
        intro t ht h0
        rw [hr, eval_mul, eval_sub, eval_X, eval_C] at h0
        exact (mul_eq_zero.1 h0).resolve_left (sub_ne_zero.2 ht)
      rw [hev (-1) (hin i).1.ne (by simp [hq]), hev 1 (hin i).2.ne' (by simp [hq]),
        Finset.sum_eq_single i]
      · ring
      · intro j _ hj
        rw [hev (z j) (fun e => hj (hz e)) (by rw [hq, eval_mul, hdr, mul_zero]), mul_zero]
      · simp
    have hpne : p.eval (z i) ≠ 0 := by
      intro h0
      rw [h0, mul_zero] at k3
      have : (0 : ℝ) ≤ m := Nat.cast_nonneg m
      linarith
    have hPp : jacobiP 0 0 (m + 1) (z i) ^ 2 = 2 / (2 * m + 3) * p.eval (z i) ^ 2 := by
      have h1 : p.eval (z i) = jacobiP 0 0 (m + 1) (z i) / Real.sqrt (jacNorm 0 0 (m + 1)) := by
        rw [hp, eval_jpoly params_zero, jacobi_eq params_zero]
      have hN := jacNorm_pos (show (-1 : ℝ) < 0 by norm_num) (show (-1 : ℝ) < 0 by norm_num) (m + 1)
      have h2 := jacNorm_legendre (m + 1)
      push_cast at h2
      rw [show 2 * ((m : ℝ) + 1) + 1 = 2 * m + 3 by ring] at h2
      rw [h1, div_pow, Real.sq_sqrt hN.le, ← h2]
      field_simp
    rw [hPp]
    rw [k4] at k5
    have k6 : w i * (-((m + 1) * (m + 2)) * p.eval (z i)) * p.eval (z i) = -(2 * m + 3) := by
      rw [k5, k3]
    field_simp
    linear_combination -k6
  -- edge weights
  have hcont : ∀ f : ℝ[X], Continuous fun t => f.eval t := fun f => f.continuous
  have hLint : ∀ f : ℝ[X], L f = ∫ t in (-1 : ℝ)..1, f.eval t := by
    intro f
    rw [hL, jacobiL_apply]
    apply intervalIntegral.integral_congr
    intro t _
    simp [jacobiWeight]
  have hFTC : ∀ f : ℝ[X], L (derivative f) = f.eval 1 - f.eval (-1) := by
    intro f
    rw [hLint]
    exact intervalIntegral.integral_eq_sub_of_hasDerivAt (fun t _ => f.hasDerivAt t)
      ((hcont _).intervalIntegrable _ _)
  have hLp : L p = 0 := by
    have h1 := fam.orth_lower (m + 1) 1 (by
      intro k hk
      rw [coeff_one, if_neg (by omega)])
    rwa [one_mul] at h1
  have hode : ∀ t, q.derivative.eval t = -((m + 1) * (m + 2)) * p.eval t := by
    intro t; rw [hq', eval_mul, eval_C]
  have hode2 : ∀ t, q.derivative.eval t = -(2 * t) * (derivative p).eval t +
      (1 - t ^ 2) * (derivative (derivative p)).eval t := by
    intro t
    rw [hq, derivative_mul]
    simp only [derivative_sub, derivative_one, derivative_X_pow, eval_add, eval_mul, eval_sub, eval_one, eval_pow,
      eval_X, eval_C, eval_zero]
    push_cast; ring
  have e1 := (hode2 1).symm.trans (hode 1)
  have e2 := (hode2 (-1)).symm.trans (hode (-1))
  norm_num at e1 e2
  have hp1 : ∀ t, (t = 1 ∨ t = -1) → p.eval t ≠ 0 := by
    intro t ht h0
    have h1 : jacobiP 0 0 (m + 1) t = 0 := by
      have := eval_jpoly params_zero (m + 1) t
      rw [← hp, h0, jacobi_eq params_zero] at this
      have hN := Real.sqrt_pos.2 (jacNorm_pos (show (-1 : ℝ) < 0 by norm_num)
        (show (-1 : ℝ) < 0 by norm_num) (m + 1))
      rcases div_eq_zero_iff.1 this.symm with h | h
      · exact h
      · exact absurd h hN.ne'
    have h2 : jacobiP 0 0 (m + 1) 1 = rise 1 (m + 1) / (m + 1).factorial := by
      have := jacobiP_at_one 0 0 (m + 1)
      rwa [zero_add] at this
    have h3 := rise_pos (show (0 : ℝ) < 1 by norm_num) (m + 1)
    have h4 : (0 : ℝ) < (m + 1).factorial := by positivity
    rcases ht with rfl | rfl
    · rw [h2] at h1
      have : 0 < rise 1 (m + 1) / ((m + 1).factorial : ℝ) := by positivity
      linarith
    · rw [jacobiP_neg 0 0 (by norm_num) (by norm_num) (by norm_num), h2] at h1
      have : rise 1 (m + 1) / ((m + 1).factorial : ℝ) ≠ 0 := by positivity
      rcases mul_eq_zero.1 h1 with h | h
      · exact absurd h (by simp)
      · exact this h
  have hm3 : ((m : ℝ) + 1) * (m + 2) ≠ 0 := by positivity
  refine ⟨?_, ?_, interior⟩
  · have hf := hrule ((1 - X) * derivative p) (by
      refine natDegree_mul_le.trans ?_
      have : (1 - X : ℝ[X]).natDegree ≤ 1 := (natDegree_sub_le _ _).trans (by simp)
      omega)
    have hI : L ((1 - X) * derivative p) = -2 * p.eval (-1) := by
      have h1 := hFTC ((1 - X) * p)
      rw [derivative_mul, map_add] at h1
      simp only [derivative_sub, derivative_one, derivative_X, zero_sub, neg_mul, one_mul, map_neg, hLp, eval_mul,
        eval_sub, eval_one, eval_X] at h1
      rw [neg_zero, zero_add] at h1
      rw [h1]; ring
    rw [hI] at hf
    simp only [eval_mul, hdr, mul_zero, Finset.sum_const_zero, eval_sub, eval_one, eval_X, sub_self, zero_mul,
      add_zero] at hf
    have := hp1 (-1) (.inr rfl)
    rw [eq_div_iff hm3]
    apply mul_right_cancel₀ this
    linear_combination -hf + wl * e2
  · have hf := hrule ((1 + X) * derivative p) (by
      refine natDegree_mul_le.trans ?_
      have : (1 + X : ℝ[X]).natDegree ≤ 1 := (natDegree_add_le _ _).trans (by simp)
      omega)
    have hI : L ((1 + X) * derivative p) = 2 * p.eval 1 := by
      have h1 := hFTC ((1 + X) * p)
      rw [derivative_mul, map_add] at h1
      simp only [derivative_add, derivative_one, derivative_X, zero_add, one_mul, hLp, eval_mul,
        eval_add, eval_one, eval_X] at h1
      rw [h1]; ring
    rw [hI] at hf
    simp only [eval_mul, hdr, mul_zero, Finset.sum_const_zero, eval_add, eval_one, eval_X, add_neg_cancel, zero_mul,
      add_zero, zero_add] at hf
    have := hp1 1 (.inl rfl)
    rw [eq_div_iff hm3]
    apply mul_right_cancel₀ this
    linear_combination hf - wr * e1

theorem lobattoCommonFactor_legendre (n : Nat) : lobattoCommonFactor 0 0 n = 2 / ((n + 1) * (n + 2)) := by
  have hb := binom_eq (a := 2) (by norm_num) n
  have hr : ∀ k : Nat, rise (2 + 1) k = (k + 2).factorial / 2 := by
    intro k
    induction k with
    | zero => simp [rise, Nat.factorial]
    | succ k ih =>
      rw [rise, ih, show k + 1 + 2 = (k + 2) + 1 by omega, Nat.factorial_succ (k + 2)]
      push_cast; ring
  have hb1 : binom ((n : ℝ) + 1) n ≠ 0 := by
    rw [binom_eq (by norm_num)]
    have := rise_pos (show (0 : ℝ) < 1 + 1 by norm_num) n
    positivity
  have h2 : Real.Gamma 2 = 1 := by
    have := Real.Gamma_nat_eq_factorial 1; norm_num at this; simpa using this
  have h3 : Real.Gamma 3 = 2 := by
    have := Real.Gamma_nat_eq_factorial 2; norm_num [Nat.factorial] at this; simpa using this
  rw [lobattoCommonFactor]
  norm_num
  rw [hb, hr, Nat.factorial_succ, Nat.factorial_succ]
  have := Nat.factorial_pos n
  push_cast
  field_simp
  ring

/-- The whole rule, `N = m + 1`. -/
theorem lobatto_ok (ext : Ext) (α β : ℝ) (m : Nat) (fd : Bool) (x : Fin (m + 2) → ℝ)
    (h : lobattoNodes ext α β (m + 1) .builtin = .ok x) :
    jacobiGaussLobattoQuadrature ext α β (m + 1) .builtin fd =
      .ok ⟨nodes1D x fd, NdArray.ofFn fun i : Fin (m + 2) =>
        if (i : Nat) = 0 ∨ (i : Nat) = m + 1 then lobattoEdgeWeight α β m
        else lobattoInteriorWeight α β m (x i), some (.num (2 * (m + 1) - 1)), none⟩ := by
  simp only [jacobiGaussLobattoQuadrature, h]
  rw [if_neg (by omega)]
  congr 3
  all_goals first | rfl | omega | (push_cast; ring)

theorem lobatto_call (ext : Ext) (α β : ℝ) (m : Nat) (fd : Bool) (x : Fin (m + 2) → ℝ)
    (f : List ℝ → ℝ) (e : Option PyVal) :
    Quadrature.call ⟨nodes1D x fd, NdArray.ofFn fun i : Fin (m + 2) =>
        if (i : Nat) = 0 ∨ (i : Nat) = m + 1 then lobattoEdgeWeight α β m
        else lobattoInteriorWeight α β m (x i), e, none⟩ f =
      lobattoEdgeWeight α β m * f [x 0] +
        (∑ i : Fin m, lobattoInteriorWeight α β m (x i.succ.castSucc) * f [x i.succ.castSucc]) +
        lobattoEdgeWeight α β m * f [x (Fin.last (m + 1))] := by
  rw [call_nodes1D, sum_ends]
  congr 1
  · congr 1
    apply Finset.sum_congr rfl
    intro i _
    have hi := i.2
    rw [if_neg (by simp; omega)]
  · simp

/-- **C29 (Legendre).**  `LegendreGaussLobattoQuadrature(N)` with `N ≥ 1` has `N + 1` nodes running strictly
increasing from `-1` to `1`, positive weights, and integrates every polynomial of degree at most
`exact_to = 2N - 1` exactly over `[-1, 1]`; for every `eigh` meeting its documentation. -/
theorem C29_legendre (ext : Ext) (hext : ext.EighOk) (N : Nat) (hN : 1 ≤ N) (fd : Bool) :
    ∃ q, legendreGaussLobattoQuadrature ext N .builtin fd = .ok q ∧
      q.getExactTo = .ok (.num (2 * N - 1 : Nat)) ∧
      (∀ p : ℝ[X], p.natDegree ≤ 2 * N - 1 →
        q.call (fun x => p.eval (x.headD 0)) = ∫ t in (-1)..1, p.eval t) ∧
      q.nodes.shape = (if fd then [1, N + 1] else [N + 1]) ∧ q.weights.shape = [N + 1] ∧
      (∀ k ≤ N, 0 < q.weights.get [k]) ∧ q.node 0 = [-1] ∧ q.node N = [1] ∧
      (∀ j k s t, j < k → k ≤ N → q.node j = [s] → q.node k = [t] → s < t) := by
  obtain ⟨m, rfl⟩ : ∃ m, N = m + 1 := ⟨N - 1, by omega⟩
  have hα : (-1 : ℝ) < 0 := by norm_num
  obtain ⟨x, v, hok, h0, h1, hmono, hin, hv, hroot, hex⟩ := lobattoNodes_facts ext hext hα hα m
  obtain ⟨wl, wr, hrule⟩ := lobatto_rule hα hα (fun i => x i.succ.castSucc) v hin hex
  rw [zero_add] at hroot
  have hinj : Function.Injective fun i : Fin m => x i.succ.castSucc := by
    intro i j hij
    have := hmono.injective hij
    simpa using this
  obtain ⟨hl, hr, hi⟩ := legendre_lobatto_weights (fun i => x i.succ.castSucc) _ wl wr hinj hin hroot (fun f hf => by
    rw [hrule f hf, jacobiL_apply]
    simp [jacobiWeight])
  have hedge : lobattoEdgeWeight 0 0 m = 2 / ((m + 1) * (m + 2)) := by
    rw [lobattoEdgeWeight, lobattoCommonFactor_legendre]; simp
  have hint : ∀ i : Fin m, lobattoInteriorWeight 0 0 m (x i.succ.castSucc) =
      2 / ((m + 1) * (m + 2)) / jacobiP 0 0 (m + 1) (x i.succ.castSucc) ^ 2 := by
    intro i
    have hx := hin i
    have hne : 1 - x i.succ.castSucc ^ 2 ≠ 0 := by nlinarith
    have hf : (4 * ((m : ℝ) + 0 + 1) * (m + 0 + 1) + (0 - 0) ^ 2) / (2 * m + 0 + 0 + 2) ^ 2 = 1 := by
      have : (0 : ℝ) < m + 1 := by positivity
      field_simp
      ring
    have h2 : Real.Gamma 2 = 1 := by
      have := Real.Gamma_nat_eq_factorial 1; norm_num at this; simpa using this
    rw [lobattoInteriorWeight]
    rw [hf, lobattoCommonFactor_legendre, zero_add, h2, C20_classical eps100 0 0 params_zero
      (by rw [eps100]; positivity) (m + 1) (by omega), mul_one, div_mul_cancel₀ _ hne]
  have hpos : ∀ i : Fin m, 0 < lobattoInteriorWeight 0 0 m (x i.succ.castSucc) := by
    intro i
    rw [hint, ← hi i]
    have hx := hin i
    exact div_pos (hv i) (by nlinarith)
  refine ⟨_, lobatto_ok ext 0 0 m fd x hok, ?_, ?_, nodes1D_shape x fd, rfl, ?_, ?_, ?_, ?_⟩
  · simp [Quadrature.getExactTo]
  · intro p hp
    rw [lobatto_call ext, h0, h1]
    have := hrule p (by omega)
    simp only [hint, hedge, hi] at this ⊢
    rw [hl, hr] at this
    simp only [List.headD_cons]
    rw [this]
    simp
  · intro k hk
    have e := ofFn_get (fun i : Fin (m + 2) =>
        if (i : Nat) = 0 ∨ (i : Nat) = m + 1 then lobattoEdgeWeight 0 0 m
        else lobattoInteriorWeight 0 0 m (x i)) ⟨k, by omega⟩
    simp only at e ⊢
    rw [e]
    split_ifs with hc
    · rw [hedge]; positivity
    · have := hpos ⟨k - 1, by omega⟩
      convert this using 3
      ext; simp; omega
  · have := node_nodes1D x (NdArray.ofFn fun i : Fin (m + 2) =>
        if (i : Nat) = 0 ∨ (i : Nat) = m + 1 then lobattoEdgeWeight 0 0 m
        else lobattoInteriorWeight 0 0 m (x i)) (some (.num (2 * (m + 1) - 1))) fd none 0
    rw [h0] at this
    exact this
  · have := node_nodes1D x (NdArray.ofFn fun i : Fin (m + 2) =>
        if (i : Nat) = 0 ∨ (i : Nat) = m + 1 then lobattoEdgeWeight 0 0 m
        else lobattoInteriorWeight 0 0 m (x i)) (some (.num (2 * (m + 1) - 1))) fd none (Fin.last (m + 1))
    rw [h1] at this
    exact this
  · intro j k s t hjk hk hs ht
    rw [node_nodes1D x _ _ fd _ ⟨j, by omega⟩] at hs
    rw [node_nodes1D x _ _ fd _ ⟨k, by omega⟩] at ht
    injection hs with hs; injection ht with ht
    rw [← hs, ← ht]
    exact hmono (show (⟨j, _⟩ : Fin (m + 2)) < ⟨k, _⟩ from hjk)

theorem integral_x_weight {α β : ℝ} (hα : -1 < α) (hβ : -1 < β) :
    jacobiL hα hβ X * (α + β + 2) = jacNorm α β 0 * (β - α) := by
  have h := jacobiP_orthogonal 0 1 hα hβ
  rw [if_neg (by omega)] at h
  have h0 := integral_jacobiWeight hα hβ
  have hL1 : jacobiL hα hβ 1 = jacNorm α β 0 := by
    rw [jacobiL_apply, ← h0]; simp
  have hL : jacobiL hα hβ (C ((α + β + 2) / 2) * X + C ((α - β) / 2) * 1) = 0 := by
    rw [jacobiL_apply, ← h]
    apply intervalIntegral.integral_congr
    intro t _
    simp only [jacobiP_zero, jacobiP_one, eval_add, eval_mul, eval_C, eval_X, eval_one]
    ring
  rw [map_add, ← smul_eq_C_mul, ← smul_eq_C_mul, map_smul, map_smul, hL1, smul_eq_mul, smul_eq_mul] at hL
  linear_combination 2 * hL

/-- **C29 fails** off the Legendre case: the rule is exact to its declared degree for every `N ≥ 1` exactly
when `α = β = 0`.  Already `N = 1` fails when `α ≠ β` (both end weights are equal), and `N = 2` fails when
`α = β ≠ 0`. -/
theorem C29_partial (ext : Ext) (hext : ext.EighOk) (α β : ℝ) (h : JacobiParams α β) :
    (∀ (N : Nat) (q : Quadrature), 1 ≤ N → jacobiGaussLobattoQuadrature ext α β N .builtin false = .ok q →
      ExactWeighted α β (2 * N - 1) q.call) ↔ α = 0 ∧ β = 0 := by
  obtain ⟨hα, hβ, -⟩ := id h
  constructor
  · intro H
    have hab : α = β := by
      obtain ⟨x, v, hok, h0, h1, -⟩ := lobattoNodes_facts ext hext hα hβ 0
      have h2 := H 1 _ le_rfl (lobatto_ok ext α β 0 false x hok) X (by simp)
      rw [lobatto_call ext, h0, h1] at h2
      simp only [List.headD_cons, eval_X, Finset.univ_eq_empty, Finset.sum_empty] at h2
      have h3 := integral_x_weight hα hβ
      rw [jacobiL_apply] at h3
      have h3' : (∫ t in (-1 : ℝ)..1, t * ((1 - t) ^ α * (1 + t) ^ β)) * (α + β + 2) =
          jacNorm α β 0 * (β - α) := by
        rw [← h3]
        congr 1
        apply intervalIntegral.integral_congr
        intro t _
        simp only [eval_X, jacobiWeight]
        ring
      rw [← h2] at h3'
      have h4 := jacNorm_pos hα hβ 0
      have h5 : jacNorm α β 0 * (β - α) = 0 := by rw [← h3']; ring
      rcases mul_eq_zero.1 h5 with h6 | h6
      · exact absurd h6 h4.ne'
      · linarith
    subst hab
    obtain ⟨x, v, hok, h0, h1, -, hin, hv, hroot, hex⟩ := lobattoNodes_facts ext hext hα hα 1
    have hx0 : x (0 : Fin 1).succ.castSucc = 0 := by
      have := hroot 0
      have hJ := JacobiParams.succ hα hα
      rw [eval_jpoly hJ, jacobi_eq hJ, jacobiP_one] at this
      have hN := Real.sqrt_pos.2 (jacNorm_pos hJ.1 hJ.2.1 1)
      rcases div_eq_zero_iff.1 this with h | h
      · have : (α + 2) * x (0 : Fin 1).succ.castSucc = 0 := by linarith
        rcases mul_eq_zero.1 this with h | h
        · linarith
        · exact h
      · exact absurd h hN.ne'
    have h2 := H 2 _ (by omega) (lobatto_ok ext α α 1 false x hok) (1 - X ^ 2)
      ((natDegree_sub_le _ _).trans (by simp))
    rw [lobatto_call ext, h0, h1] at h2
    simp only [List.headD_cons, eval_sub, eval_one, eval_pow, eval_X, Finset.univ_unique,
      Fin.default_eq_zero, Finset.sum_singleton, hx0] at h2
    have h3 : (∫ t in (-1 : ℝ)..1, (1 - t ^ 2) * ((1 - t) ^ α * (1 + t) ^ α)) = jacNorm (α + 1) (α + 1) 0 := by
      rw [← integral_jacobiWeight (by linarith) (by linarith)]
      apply intervalIntegral.integral_congr
      intro t ht
      rw [Set.uIcc_of_le (by norm_num)] at ht
      have := jacobiWeight_succ_Icc hα hα t ht.1 ht.2
      simp only
      rw [this, jacobiWeight]
    rw [h3] at h2
    have a1 : 0 < α + 1 := by linarith
    have hP2 : jacobiP α α 2 0 = -(α + 2) / 4 := by
      have := jacobiP_rec α α (by linarith) 0 0
      rw [jacobiP_zero, jacobiP_one] at this
      norm_num at this
      have hne : (α + α + 2) * (α + α + 2) ≠ 0 := by nlinarith
      apply mul_left_cancel₀ hne
      nlinarith
    have hfr : (4 * (((1 : Nat) : ℝ) + α + 1) * ((1 : Nat) + α + 1) + (α - α) ^ 2) /
        (2 * (1 : Nat) + α + α + 2) ^ 2 = 1 := by
      rw [div_eq_one_iff_eq (by push_cast; nlinarith)]
      push_cast; ring
    have b1 : binom (((1 : Nat) : ℝ) + α + 1) (1 : Nat) = α + 2 := by
      have := binom_eq (a := α + 1) (by linarith) 1
      rw [show ((1 : Nat) : ℝ) + α + 1 = (1 : Nat) + (α + 1) by ring, this]
      norm_num [rise]; ring
    have b2 : binom (((1 : Nat) : ℝ) + α + α + 2) (1 : Nat) = 2 * α + 3 := by
      have := binom_eq (a := α + α + 2) (by linarith) 1
      rw [show ((1 : Nat) : ℝ) + α + α + 2 = (1 : Nat) + (α + α + 2) by ring, this]
      norm_num [rise]; ring
    rw [lobattoInteriorWeight] at h2
    rw [hfr, C20_classical eps100 α α h (by rw [eps100]; positivity) (1 + 1) (by omega),
      hP2, lobattoCommonFactor, b1, b2, jacNorm] at h2
    have g1 : Real.Gamma (α + 1 + 1) = Real.Gamma (α + 2) := by congr 1; ring
    have g2 : Real.Gamma (α + 1 + (α + 1) + 2) = (2 * α + 3) * Real.Gamma (α + α + 3) := by
      rw [show α + 1 + (α + 1) + 2 = (α + α + 3) + 1 by ring, Real.Gamma_add_one (by linarith)]
      ring
    have g3 : (2 : ℝ) ^ (α + 1 + (α + 1) + 1) = 4 * 2 ^ (α + α + 1) := by
      rw [show α + 1 + (α + 1) + 1 = (α + α + 1) + 2 by ring, Real.rpow_add (by norm_num)]
      norm_num; ring
    rw [g1, g2, g3] at h2
    have p1 : (0 : ℝ) < 2 ^ (α + α + 1) := Real.rpow_pos_of_pos (by norm_num) _
    have p2 : 0 < Real.Gamma (α + 2) := Real.Gamma_pos_of_pos (by linarith)
    have p3 : 0 < Real.Gamma (α + α + 3) := Real.Gamma_pos_of_pos (by linarith)
    have p4 : 0 < 2 * α + 3 := by linarith
    have p5 : 0 < α + 2 := by linarith
    clear g2 g3
    generalize Real.Gamma (α + α + 3) = G at h2 p3
    generalize (2 : ℝ) ^ (α + α + 1) = A at h2 p1
    generalize Real.Gamma (α + 2) = B at h2 p2
    have h5 : A * (α + 2) / (α + 2) / (2 * α + 3) * B / G * B * 16 / (α + 2) ^ 2 =
        4 * A * B * B / ((2 * α + 3) * G) := by
      rw [← h2]
      generalize A * (α + 2) / (α + 2) / (2 * α + 3) * B / G * B = K
      field_simp
      ring
    have hα2 : α + 2 ≠ 0 := p5.ne'
    generalize 2 * α + 3 = D at h5 p4
    field_simp at h5
    have h6 : (α + 2) ^ 2 = 4 := by linarith
    have : α = 0 := by nlinarith
    exact ⟨this, this⟩
  · rintro ⟨rfl, rfl⟩ N q hN hq p hp
    obtain ⟨q', hq', -, hex, -⟩ := C29_legendre ext hext N hN false
    rw [legendreGaussLobattoQuadrature, hq] at hq'
    injection hq' with e
    rw [e, hex p hp]
    simp

/-- With fewer than two nodes the constructor raises. -/
theorem C29_rejects (ext : Ext) (α β : ℝ) (b : Backend) (fd : Bool) :
    jacobiGaussLobattoQuadrature ext α β 0 b fd = .error .ValueError := rfl

/-- A concrete instance of the refutation, for any `eigh` that meets its documentation (one exists:
`exists_eighOk`). -/
example (ext : Ext) (hext : ext.EighOk) :
    ∃ (N : Nat) (q : Quadrature), 1 ≤ N ∧ jacobiGaussLobattoQuadrature ext 1 1 N .builtin false = .ok q ∧
      ¬ ExactWeighted 1 1 (2 * N - 1) q.call := by
  have hp11 : JacobiParams 1 1 := by
    have := JacobiParams.succ (α := 0) (β := 0) (by norm_num) (by norm_num)
    simpa using this
  by_contra hc
  have := (C29_partial ext hext 1 1 hp11).1 (by
    intro N q hN hq
    by_contra hne
    exact hc ⟨N, q, hN, hq, hne⟩)
  norm_num at this

end Modepy

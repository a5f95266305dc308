import Verif.Proofs.KronrodExists
import Verif.Proofs.KronrodRule

/-!
# The Kronrod nodes lie inside the interval

The factor added to the Legendre polynomial is the Stieltjes polynomial, which is positive at one.
-/

namespace Modepy
open Polynomial Finset Spec

theorem recip_partial_lt (n m : Nat) (hm : 1 ≤ m) : ∑ k ∈ range m, |recip (lf n) (k + 1)| < 1 := by
  have e := recip_conv_range (lf n) (lf_zero n) m
  rw [if_neg (by omega), sum_range_succ', recip_zero _ (lf_zero n), one_mul, Nat.sub_zero] at e
  have hpos := lf_pos n m
  have h1 : lf n m * ∑ k ∈ range m, |recip (lf n) (k + 1)| < lf n m := by
    rw [mul_sum]
    have : ∑ k ∈ range m, lf n m * |recip (lf n) (k + 1)| < ∑ k ∈ range m, -(recip (lf n) (k + 1) * lf n (m - (k + 1))) := by
      refine sum_lt_sum (fun k hk => ?_) ⟨0, mem_range.2 hm, ?_⟩
      · have hr := recip_nonpos (lf n) (lf_zero n) (lf_pos n) (lf_log n) k
        rw [abs_of_nonpos hr]
        have := mul_le_mul_of_nonneg_left (lf_anti n (show m - (k + 1) ≤ m by omega)) (neg_nonneg.2 hr)
        linarith
      · have hr := lf_one_lt n
        obtain ⟨M, rfl⟩ : ∃ M, m = M + 1 := ⟨m - 1, by omega⟩
        have hlt : lf n (M + 1) < lf n M := by
          rw [lf_succ]
          exact mul_lt_of_lt_one_right (lf_pos n M) (lratio_lt_one n M)
        rw [zero_add, abs_of_neg hr, Nat.add_sub_cancel]
        have := mul_lt_mul_of_pos_left hlt (neg_pos.2 hr)
        linarith
    rw [sum_neg_distrib] at this
    linarith
  by_contra hc
  push Not at hc
  have := mul_le_mul_of_nonneg_left hc hpos.le
  linarith

theorem legE_one_pos (n : Nat) : 0 < (legE n).eval 1 := by
  have h := eval_legE n 0
  rw [Real.cos_zero] at h
  simp only [mul_zero, Real.cos_zero, mul_one] at h
  rw [h]
  refine mul_pos (by positivity) ?_
  rw [sum_range_succ', shalf_zero, recip_zero _ (lf_zero n), one_mul]
  have h1 := recip_partial_lt n (n + 1) (by omega)
  have h2 : -∑ k ∈ range (n + 1), |recip (lf n) (k + 1)| ≤ ∑ k ∈ range (n + 1), shalf n (k + 1) * recip (lf n) (k + 1) := by
    rw [← sum_neg_distrib]
    refine sum_le_sum fun k _ => ?_
    have h3 := shalf_mem n (k + 1)
    have hr := recip_nonpos (lf n) (lf_zero n) (lf_pos n) (lf_log n) k
    rw [abs_of_nonpos hr]
    nlinarith [h3.1, h3.2]
  linarith

theorem legE_orth (n k : Nat) (hn : 1 ≤ n) (hk : k ≤ n) : legI (legE n * lq n k * lp n) = 0 := by
  have hdeg := stieltjes_remainder n k (n - 1) (by omega) (by omega)
  rw [show n - 1 + 1 = n by omega] at hdeg
  have hd : (lp (n + 1 + k) - legE n * lq n k).natDegree < n := by
    by_cases h0 : lp (n + 1 + k) - legE n * lq n k = 0
    · rw [h0, natDegree_zero]; omega
    · rwa [degree_eq_natDegree h0, Nat.cast_lt] at hdeg
  have h1 := legI_mul_lp_lt _ n hd
  have h2 := legI_mul_lp_lt (lp n) (n + 1 + k) (by rw [(lp_monic n).2]; omega)
  rw [sub_mul, map_sub, mul_comm (lp (n + 1 + k)), h2] at h1
  linarith

/-- The Stieltjes polynomial is the only monic polynomial of its degree with its orthogonality. -/
theorem legE_unique (n : Nat) (hn : 1 ≤ n) (E : ℝ[X]) (hE : E.Monic ∧ E.natDegree = n + 1)
    (horth : ∀ k, k ≤ n → legI (E * lq n k * lp n) = 0) : E = legE n := by
  by_contra hc
  set D := legE n - E with hD
  have hD0 : D ≠ 0 := fun h => hc (sub_eq_zero.1 h).symm
  have hdeg : D.natDegree ≤ n := by
    have h0 := stieltjes_remainder n 0 (n - 1) (by omega) (by omega)
    rw [lq, cont_zero, mul_one, Nat.add_zero, show n - 1 + 1 = n by omega] at h0
    have h1 : (lp (n + 1) - legE n).natDegree ≤ n := natDegree_le_of_degree_le h0.le
    have h2 : (lp (n + 1) - X ^ (n + 1)).natDegree ≤ n :=
      Nat.lt_succ_iff.1 (monic_sub_natDegree _ (n + 1) (lp_monic _) (by omega))
    have h3 : (E - X ^ (n + 1)).natDegree ≤ n := Nat.lt_succ_iff.1 (monic_sub_natDegree _ (n + 1) hE (by omega))
    have e : D = (lp (n + 1) - X ^ (n + 1)) - (lp (n + 1) - legE n) - (E - X ^ (n + 1)) := by rw [hD]; ring
    rw [e]
    exact (natDegree_sub_le _ _).trans (max_le ((natDegree_sub_le _ _).trans (max_le h2 h1)) h3)
  set d := D.natDegree with hd
  have hq := cont_monic (fun i => lb (n + 2 + i)) (n - d)
  rw [← lq] at hq
  have hprod : (D * lq n (n - d)).natDegree = n := by
    rw [natDegree_mul hD0 hq.1.ne_zero, hq.2, ← hd]
    omega
  have hz : legI (D * lq n (n - d) * lp n) = 0 := by
    rw [hD, sub_mul, sub_mul, map_sub, legE_orth n _ hn (by omega), horth _ (by omega), sub_zero]
  rw [legI_mul_lp _ n hprod.le] at hz
  have hlc : (D * lq n (n - d)).coeff n ≠ 0 := by
    have : (D * lq n (n - d)).coeff n = (D * lq n (n - d)).leadingCoeff := by rw [leadingCoeff, hprod]
    rw [this, leadingCoeff_ne_zero]
    exact mul_ne_zero hD0 hq.1.ne_zero
  exact (mul_ne_zero hlc (lh_pos n).ne') hz

/-- **The Kronrod nodes lie strictly inside the interval.** -/
theorem kron_interior {n : Nat} (hn : 1 ≤ n) {x : Fin (2 * n + 1) → ℝ}
    {Q : Matrix (Fin (2 * n + 1)) (Fin (2 * n + 1)) ℝ}
    (hE : IsEigh (eignewtMatrix (sqrtShift n (laurieCoefficients n)) (2 * n + 1)) x Q)
    {y : Fin n → ℝ} {U : Matrix (Fin n) (Fin n) ℝ} (hY : IsEigh (eignewtMatrix legendreOffdiag n) y U) (j) :
    -1 < x j ∧ x j < 1 := by
  have hpos := kronrodPositive n hn
  obtain ⟨hx, hy, hxs, -, hxy⟩ := kron_nodes hn hpos hE hY
  set b := sqrtShift n (laurieCoefficients n) with hb
  have hcx := eigenvalue_root hE
  have hcy := eigenvalue_root hY
  rw [charpoly_eignewtMatrix] at hcx hcy
  have hl : cont (fun i => legendreOffdiag i ^ 2) n = lp n := cont_congr _ fun i _ => lb_sq i
  rw [hl] at hcy
  obtain ⟨E, hfac, -⟩ := kron_factor hn hpos
  have c1 : cont (fun i => b i ^ 2) (2 * n + 1) = cont (fun i => laurieCoefficients n (i + 1)) (2 * n + 1) :=
    cont_congr _ fun i hi => kb_sq hpos i (by omega)
  have c2 : cont (fun i => legendreOffdiag i ^ 2) n = cont (fun i => laurieCoefficients n (i + 1)) n :=
    cont_congr _ fun i hi => by rw [← kb_known i (by omega) hn, kb_sq hpos i (by omega)]
  rw [← c1, ← c2, hl] at hfac
  have hcm := cont_monic (fun i => b i ^ 2) (2 * n + 1)
  have hEm : E.Monic := (lp_monic n).1.of_mul_monic_left (hfac ▸ hcm.1)
  have hEd : E.natDegree = n + 1 := by
    have h1 := hcm.2
    rw [hfac, (lp_monic n).1.natDegree_mul hEm, (lp_monic n).2] at h1
    omega
  have horth : ∀ k, k ≤ n → legI (E * lq n k * lp n) = 0 := by
    intro k hk
    have hdeg : (E * lq n k * lp n).natDegree ≤ 2 * ((3 * n + 1) / 2) + 1 := by
      refine natDegree_mul_le.trans ((add_le_add natDegree_mul_le le_rfl).trans ?_)
      rw [hEd, (lp_monic n).2, lq, (cont_monic _ k).2]
      omega
    have hag := legendre_agree (2 * n) ((3 * n + 1) / 2) (by omega) b (fun k hk => kb_known k hk hn) hE _ hdeg
    rw [legI_apply, ← hag]
    refine sum_eq_zero fun i _ => ?_
    have e : E * lq n k * lp n = (lp n * E) * lq n k := by ring
    rw [e, ← hfac, hcx, eval_mul, eval_prod, prod_eq_zero (mem_univ i) (by simp), zero_mul, mul_zero]
  have hEq := legE_unique n hn E ⟨hEm, hEd⟩ horth
  have hroot : ∀ i, (lp n).eval (y i) = 0 := by
    intro i
    rw [hcy, eval_prod]
    exact prod_eq_zero (mem_univ i) (by simp)
  have hc1 : 0 < ∏ j, (1 - x j) := by
    have e : ∏ j, (1 - x j) = (lp n).eval 1 * (legE n).eval 1 := by
      rw [← hEq, ← eval_mul, ← hfac, hcx, eval_prod]
      simp
    rw [e]
    refine mul_pos ?_ (legE_one_pos n)
    rw [hcy, eval_prod]
    refine prod_pos fun i _ => ?_
    rw [eval_sub, eval_X, eval_C]
    linarith [(lp_root_mem n _ (hroot i)).2]
  have hlast : x (Fin.last (2 * n)) < 1 := by
    by_contra hc
    push Not at hc
    rw [Fin.prod_univ_castSucc] at hc1
    have hrest : 0 < ∏ i : Fin (2 * n), (1 - x i.castSucc) := by
      refine prod_pos fun i _ => ?_
      have h1 := (lp_root_mem n _ (hroot ⟨n - 1, by omega⟩)).2
      rw [← hxy] at h1
      have h2 : x i.castSucc ≤ x ⟨2 * (n - 1) + 1, by omega⟩ := hx.monotone (by
        rw [Fin.le_def]
        simp only [Fin.val_castSucc]
        omega)
      simp only at h1
      linarith
    have := (pos_iff_pos_of_mul_pos hc1).1 hrest
    linarith
  have hall : ∀ j, x j < 1 := fun j => lt_of_le_of_lt (hx.monotone (Fin.le_last j)) hlast
  refine ⟨?_, hall j⟩
  have := hall j.rev
  rw [hxs] at this
  linarith

end Modepy

import Verif.Props.LobattoNorm
import Mathlib.LinearAlgebra.Lagrange
import Mathlib.Analysis.Matrix.PosDef

/-!
# The sum of the squares of the Lagrange polynomials of the Gauss-Lobatto nodes
-/

namespace Modepy
open Matrix MeasureTheory Polynomial

/-- The derivative of a Lagrange polynomial of a Gauss-Lobatto node vanishes at that node, if it is not an end point. -/
theorem lobatto_deriv {n : Nat} (x w : Fin (n + 1) → ℝ) (hx : StrictMono x) (h0 : x 0 = -1) (h1 : x (Fin.last n) = 1)
    (hw : ∀ a, 0 < w a) (hex : ∀ e ≤ 2 * n - 1, ∑ a, w a * x a ^ e = ∫ t in (-1 : ℝ)..1, t ^ e)
    (i : Fin (n + 1)) (hi0 : i ≠ 0) (hi1 : i ≠ Fin.last n) :
    (derivative (Lagrange.basis Finset.univ x i)).eval (x i) = 0 := by
  have hinj : Set.InjOn x (Finset.univ : Finset (Fin (n + 1))) := hx.injective.injOn
  set L := Lagrange.basis Finset.univ x i with hL
  have hself : L.eval (x i) = 1 := Lagrange.eval_basis_self hinj (Finset.mem_univ i)
  have hne : ∀ j, j ≠ i → L.eval (x j) = 0 := fun j hj => Lagrange.eval_basis_of_ne hj.symm (Finset.mem_univ j)
  have hdeg : L.natDegree = n := by
    rw [natDegree_eq_of_degree_eq_some (Lagrange.degree_basis hinj (Finset.mem_univ i))]
    simp
  have hr := rule_polynomial x w hex (L * derivative L) (by
    refine natDegree_mul_le.trans ?_
    have := natDegree_derivative_le L
    omega)
  have hint : ∫ t in (-1 : ℝ)..1, (L * derivative L).eval t = L.eval 1 ^ 2 / 2 - L.eval (-1) ^ 2 / 2 := by
    refine intervalIntegral.integral_eq_sub_of_hasDerivAt (f := fun t => L.eval t ^ 2 / 2) (fun t _ => ?_)
      (Continuous.intervalIntegrable (by fun_prop) _ _)
    have := ((L.hasDerivAt t).pow 2).div_const 2
    refine this.congr_deriv ?_
    rw [eval_mul]
    push_cast
    ring
  rw [hint, ← h0, ← h1, hne _ hi1.symm, hne _ hi0.symm, Finset.sum_eq_single i (fun j _ hj => by simp [hne j hj]) (by simp)] at hr
  have := (hw i).ne'
  simpa [hself, this] using hr

/-- The squares of the Lagrange polynomials of the Gauss-Lobatto nodes add up to at most one on the interval. -/
theorem lobatto_fejer {n : Nat} (hn : 1 ≤ n) (x w : Fin (n + 1) → ℝ) (hx : StrictMono x) (h0 : x 0 = -1) (h1 : x (Fin.last n) = 1)
    (hw : ∀ a, 0 < w a) (hex : ∀ e ≤ 2 * n - 1, ∑ a, w a * x a ^ e = ∫ t in (-1 : ℝ)..1, t ^ e)
    (y : ℝ) (hy : |y| ≤ 1) : ∑ j, (Lagrange.basis Finset.univ x j).eval y ^ 2 ≤ 1 := by
  have hinj : Set.InjOn x (Finset.univ : Finset (Fin (n + 1))) := hx.injective.injOn
  set L : Fin (n + 1) → ℝ[X] := fun j => Lagrange.basis Finset.univ x j with hL
  have hself : ∀ i, (L i).eval (x i) = 1 := fun i => Lagrange.eval_basis_self hinj (Finset.mem_univ i)
  have hne : ∀ i j, j ≠ i → (L i).eval (x j) = 0 := fun i j hj => Lagrange.eval_basis_of_ne hj.symm (Finset.mem_univ j)
  have hdeg : ∀ i, (L i).natDegree = n := fun i => by
    rw [natDegree_eq_of_degree_eq_some (Lagrange.degree_basis hinj (Finset.mem_univ i))]
    simp
  set P : ℝ[X] := 1 - ∑ j, L j * L j with hP
  set I : Finset (Fin (n + 1)) := (Finset.univ.erase 0).erase (Fin.last n) with hI
  have hmem : ∀ i, i ∈ I ↔ i ≠ 0 ∧ i ≠ Fin.last n := fun i => by simp [hI, and_comm]
  have hlast : (0 : Fin (n + 1)) ≠ Fin.last n := by
    intro h
    have := congrArg Fin.val h
    simp at this
    omega
  have hcard : I.card = n - 1 := by
    rw [hI, Finset.card_erase_of_mem (by simp [hlast.symm]), Finset.card_erase_of_mem (by simp)]
    simp
  set M : ℝ[X] := ∏ j ∈ I, (X - C (x j)) with hM
  have hMm : M.Monic := monic_prod_of_monic _ _ fun j _ => monic_X_sub_C _
  have hMd : M.natDegree = n - 1 := by
    rw [hM, natDegree_prod_of_monic _ _ fun j _ => monic_X_sub_C _]
    simp [hcard]
  set N : ℝ[X] := (X - C (-1)) * ((X - C 1) * M) with hN
  have hNprod : N = ∏ j, (X - C (x j)) := by
    rw [← Finset.mul_prod_erase Finset.univ _ (Finset.mem_univ (0 : Fin (n + 1))), h0,
      ← Finset.mul_prod_erase (Finset.univ.erase 0) _ (show Fin.last n ∈ _ by simp [hlast.symm]), h1]
  have hNm : N.Monic := (monic_X_sub_C _).mul ((monic_X_sub_C _).mul hMm)
  have hNd : N.natDegree = n + 1 := by
    rw [hNprod, natDegree_prod_of_monic _ _ fun j _ => monic_X_sub_C _]
    simp
  have hcop : ∀ s : Finset (Fin (n + 1)), ∀ F : ℝ[X], (∀ j ∈ s, F.eval (x j) = 0) → ∏ j ∈ s, (X - C (x j)) ∣ F := by
    intro s F hF
    refine Finset.prod_dvd_of_coprime (fun i _ j _ hij => ?_) fun j hj => dvd_iff_isRoot.2 (hF j hj)
    exact pairwise_coprime_X_sub_C hx.injective hij
  have hPx : ∀ i, P.eval (x i) = 0 := by
    intro i
    simp only [hP, eval_sub, eval_one, eval_finsetSum, eval_mul]
    rw [Finset.sum_eq_single i (fun j _ hj => by simp [hne j i hj.symm]) (by simp), hself]
    ring
  obtain ⟨R, hR⟩ : N ∣ P := hNprod ▸ hcop Finset.univ P fun j _ => hPx j
  have hRx : ∀ i ∈ I, R.eval (x i) = 0 := by
    intro i hi
    obtain ⟨hi0, hi1⟩ := (hmem i).1 hi
    have hd : (derivative P).eval (x i) = 0 := by
      simp only [hP, derivative_sub, derivative_one, derivative_sum, derivative_mul, eval_sub, eval_zero, eval_finsetSum, eval_add,
        eval_mul]
      rw [Finset.sum_eq_single i (fun j _ hj => by simp [hne j i hj.symm]) (by simp), hself]
      have := lobatto_deriv x w hx h0 h1 hw hex i hi0 hi1
      simp only [hL]
      rw [this]
      ring
    have hNx : N.eval (x i) = 0 := by
      rw [hNprod, eval_prod]
      exact Finset.prod_eq_zero (Finset.mem_univ i) (by simp)
    rw [hR, derivative_mul, eval_add, eval_mul, eval_mul, hNx, zero_mul, add_zero] at hd
    refine (mul_eq_zero.1 hd).resolve_left ?_
    rw [hNprod, derivative_prod_finset, eval_finsetSum, Finset.sum_eq_single i]
    · simp only [derivative_X_sub_C, mul_one, eval_prod, eval_sub, eval_X, eval_C]
      exact Finset.prod_ne_zero_iff.2 fun j hj => sub_ne_zero.2 fun h => (Finset.ne_of_mem_erase hj) (hx.injective h).symm
    · intro j _ hj
      simp only [derivative_X_sub_C, mul_one, eval_prod, eval_sub, eval_X, eval_C]
      exact Finset.prod_eq_zero (Finset.mem_erase.2 ⟨hj.symm, Finset.mem_univ i⟩) (by simp)
    · simp
  obtain ⟨T, hT⟩ : M ∣ R := hcop I R hRx
  have hPd : P.natDegree ≤ n + n := by
    refine (natDegree_sub_le _ _).trans (max_le (by simp) ?_)
    refine natDegree_sum_le_of_forall_le _ _ fun j _ => ?_
    exact natDegree_mul_le.trans (by rw [hdeg])
  have hPe : P = N * M * T := by rw [hR, hT]; ring
  have hTd : T.natDegree = 0 := by
    by_cases h : T = 0
    · simp [h]
    · have := (hNm.mul hMm).natDegree_mul' h
      rw [hNm.natDegree_mul hMm, hNd, hMd, ← hPe] at this
      omega
  obtain ⟨t, rfl⟩ : ∃ t, C t = T := ⟨_, (eq_C_of_natDegree_eq_zero hTd).symm⟩
  have ht : t ≤ 0 := by
    have hc : P.coeff (n + n) = t := by
      rw [hPe, coeff_mul_C]
      have : (N * M).coeff (n + n) = 1 := by
        have h := (hNm.mul hMm).coeff_natDegree
        rw [hNm.natDegree_mul hMm, hNd, hMd] at h
        rwa [show n + 1 + (n - 1) = n + n by omega] at h
      rw [this, one_mul]
    rw [← hc, hP, coeff_sub, finsetSum_coeff, coeff_one, if_neg (by omega), zero_sub, neg_nonpos]
    refine Finset.sum_nonneg fun j _ => ?_
    rw [coeff_mul_add_eq_of_natDegree_le (hdeg j).le (hdeg j).le]
    exact mul_self_nonneg _
  have hfin : P.eval y = -t * ((1 - y) * (1 + y)) * (M.eval y) ^ 2 := by
    rw [hPe, hN]
    simp
    ring
  have hge : 0 ≤ P.eval y := by
    rw [hfin]
    obtain ⟨ha, hb⟩ := abs_le.1 hy
    have := mul_nonneg (mul_nonneg (neg_nonneg.2 ht) (mul_nonneg (sub_nonneg.2 hb) (by linarith : 0 ≤ 1 + y))) (sq_nonneg (M.eval y))
    exact this
  have : P.eval y = 1 - ∑ j, (L j).eval y ^ 2 := by
    simp only [hP, eval_sub, eval_one, eval_finsetSum, eval_mul, sq]
  rw [this] at hge
  linarith

/-- The values of a polynomial at the Gauss-Lobatto nodes bound its values on the interval. -/
theorem lobatto_bound {n : Nat} (hn : 1 ≤ n) (x w : Fin (n + 1) → ℝ) (hx : StrictMono x) (h0 : x 0 = -1) (h1 : x (Fin.last n) = 1)
    (hw : ∀ a, 0 < w a) (hex : ∀ e ≤ 2 * n - 1, ∑ a, w a * x a ^ e = ∫ t in (-1 : ℝ)..1, t ^ e)
    (q : ℝ[X]) (hq : q.natDegree ≤ n) (y : ℝ) (hy : |y| ≤ 1) : q.eval y ^ 2 ≤ ∑ a, q.eval (x a) ^ 2 := by
  have hinj : Set.InjOn x (Finset.univ : Finset (Fin (n + 1))) := hx.injective.injOn
  have hl := Lagrange.eq_interpolate (s := Finset.univ) (v := x) hinj (f := q) (by
    refine lt_of_le_of_lt degree_le_natDegree ?_
    simp only [Finset.card_univ, Fintype.card_fin]
    exact_mod_cast Nat.lt_succ_of_le hq)
  have he : q.eval y = ∑ a, q.eval (x a) * (Lagrange.basis Finset.univ x a).eval y := by
    conv_lhs => rw [hl, Lagrange.interpolate_apply, eval_finsetSum]
    simp
  have hcs := Finset.sum_mul_sq_le_sq_mul_sq Finset.univ (fun a => q.eval (x a)) fun a => (Lagrange.basis Finset.univ x a).eval y
  rw [he]
  refine hcs.trans ?_
  have h := lobatto_fejer hn x w hx h0 h1 hw hex y hy
  have hp : 0 ≤ ∑ a, q.eval (x a) ^ 2 := Finset.sum_nonneg fun a _ => sq_nonneg _
  nlinarith

/-- Bounds by the values at the nodes carry over from each coordinate to the grid. -/
theorem grid_bound {n : Nat} (x : Fin (n + 1) → ℝ) (φ : Fin (n + 1) → ℝ[X]) (hφ : ∀ a, (φ a).natDegree ≤ n)
    (hb : ∀ q : ℝ[X], q.natDegree ≤ n → ∀ y, |y| ≤ 1 → q.eval y ^ 2 ≤ ∑ a, q.eval (x a) ^ 2) :
    ∀ (d : Nat) (c : (Fin d → Fin (n + 1)) → ℝ) (y : Fin d → ℝ), (∀ i, |y i| ≤ 1) →
      (∑ α, c α * ∏ i, (φ (α i)).eval (y i)) ^ 2 ≤
        ∑ β : Fin d → Fin (n + 1), (∑ α, c α * ∏ i, (φ (α i)).eval (x (β i))) ^ 2 := by
  intro d
  induction d with
  | zero =>
    intro c y _
    simp
  | succ d ih =>
    intro c y hy
    have hsum : ∀ F : (Fin (d + 1) → Fin (n + 1)) → ℝ, ∑ α, F α = ∑ t : Fin (n + 1), ∑ γ : Fin d → Fin (n + 1), F (Fin.cons t γ) := by
      intro F
      rw [← (Fin.consEquiv fun _ : Fin (d + 1) => Fin (n + 1)).sum_comp F, Fintype.sum_prod_type]
      rfl
    have hF : ∀ z : Fin (d + 1) → ℝ, ∑ α, c α * ∏ i, (φ (α i)).eval (z i) =
        ∑ γ : Fin d → Fin (n + 1), (∑ t, c (Fin.cons t γ) * (φ t).eval (z 0)) * ∏ i, (φ (γ i)).eval (z i.succ) := by
      intro z
      rw [hsum, Finset.sum_comm]
      refine Finset.sum_congr rfl fun γ _ => ?_
      rw [Finset.sum_mul]
      refine Finset.sum_congr rfl fun t _ => ?_
      rw [Fin.prod_univ_succ]
      simp
      ring
    have hF' : ∀ z : Fin (d + 1) → ℝ, ∑ α, c α * ∏ i, (φ (α i)).eval (z i) =
        (∑ t, C (∑ γ : Fin d → Fin (n + 1), c (Fin.cons t γ) * ∏ i, (φ (γ i)).eval (z i.succ)) * φ t).eval (z 0) := by
      intro z
      rw [hsum, eval_finsetSum]
      refine Finset.sum_congr rfl fun t _ => ?_
      rw [eval_mul, eval_C, Finset.sum_mul]
      refine Finset.sum_congr rfl fun γ _ => ?_
      rw [Fin.prod_univ_succ]
      simp
      ring
    rw [hF' y]
    refine (hb _ ?_ (y 0) (hy 0)).trans ?_
    · exact natDegree_sum_le_of_forall_le _ _ fun t _ => (natDegree_C_mul_le _ _).trans (hφ t)
    · rw [hsum]
      refine Finset.sum_le_sum fun a _ => ?_
      have e1 := hF' (Fin.cons (x a) fun i => y i.succ)
      simp only [Fin.cons_zero, Fin.cons_succ] at e1
      rw [← e1, hF]
      simp only [Fin.cons_zero, Fin.cons_succ]
      refine (ih _ (fun i => y i.succ) fun i => hy i.succ).trans (le_of_eq ?_)
      refine Finset.sum_congr rfl fun β _ => ?_
      congr 1
      have e2 := hF fun i => x ((Fin.cons a β : Fin (d + 1) → Fin (n + 1)) i)
      simp only [Fin.cons_zero, Fin.cons_succ] at e2
      rw [e2]

/-- A matrix whose rows have length at most one has a determinant of at most one. -/
theorem det_sq_le_one {m : Nat} (A : Matrix (Fin m) (Fin m) ℝ) (hA : ∀ i, ∑ j, A i j ^ 2 ≤ 1) : A.det ^ 2 ≤ 1 := by
  have hpsd : (A * A.conjTranspose).PosSemidef := Matrix.posSemidef_self_mul_conjTranspose A
  have hdet : (A * A.conjTranspose).det = A.det ^ 2 := by
    rw [det_mul, det_conjTranspose, sq]
    simp
  have h1 := hpsd.isHermitian.det_eq_prod_eigenvalues
  have h2 := hpsd.isHermitian.trace_eq_sum_eigenvalues
  have htr : (A * A.conjTranspose).trace ≤ m := by
    simp only [trace, diag, mul_apply, conjTranspose_apply, star_trivial]
    refine (Finset.sum_le_sum fun i _ => (?_ : _ ≤ (1 : ℝ))).trans (by simp)
    simpa only [sq] using hA i
  simp only [RCLike.ofReal_real_eq_id, id_eq] at h1 h2
  rw [← hdet, h1]
  calc ∏ i, hpsd.isHermitian.eigenvalues i ≤ ∏ i, Real.exp (hpsd.isHermitian.eigenvalues i - 1) :=
        Finset.prod_le_prod (fun i _ => hpsd.eigenvalues_nonneg i) fun i _ => by
          have := Real.add_one_le_exp (hpsd.isHermitian.eigenvalues i - 1)
          linarith
    _ = Real.exp (∑ i, (hpsd.isHermitian.eigenvalues i - 1)) := (Real.exp_sum _ _).symm
    _ ≤ 1 := by
      rw [Real.exp_le_one_iff, Finset.sum_sub_distrib, ← h2]
      simp only [Finset.sum_const, Finset.card_univ, Fintype.card_fin, nsmul_eq_mul, mul_one]
      linarith

end Modepy

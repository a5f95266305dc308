import Verif.Proofs.StieltjesDegree
import Verif.Proofs.LaurieExact
import Verif.Proofs.KronrodEmbed
import Mathlib.LinearAlgebra.Lagrange

/-!
# Existence of the Jacobi-Kronrod matrix

The coefficients computed by Laurie's algorithm are positive for every `n`.
-/

namespace Modepy
open Polynomial Finset

/-! ## Zeros of the Legendre polynomials -/

theorem legI_pos (f : ℝ[X]) (hf : f ≠ 0) (hnn : ∀ t ∈ Set.Icc (-1 : ℝ) 1, 0 ≤ f.eval t) : 0 < legI f := by
  rw [legI_apply]
  apply intervalIntegral.integral_pos (by norm_num) f.continuous.continuousOn
  · intro t ht
    exact hnn t ⟨ht.1.le, ht.2⟩
  · by_contra hc
    push Not at hc
    apply hf
    apply eq_zero_of_infinite_isRoot
    refine (Set.Icc_infinite (show (-1 : ℝ) < 1 by norm_num)).mono fun t ht => ?_
    exact le_antisymm (hc t ht) (hnn t ht)

theorem lp_div (n : Nat) (τ : ℝ) (h : (lp n).eval τ = 0) : lp n = (X - C τ) * (lp n /ₘ (X - C τ)) :=
  (mul_divByMonic_eq_iff_isRoot.2 h).symm

theorem lp_root_one_le (n : Nat) (τ : ℝ) (h : (lp n).eval τ = 0) : 1 ≤ n := by
  by_contra hc
  rw [show n = 0 by omega, lp_zero, eval_one] at h
  exact one_ne_zero h

theorem natDegree_lp_div (n : Nat) (τ : ℝ) : (lp n /ₘ (X - C τ)).natDegree = n - 1 := by
  rw [natDegree_divByMonic _ (monic_X_sub_C τ), (lp_monic n).2, natDegree_X_sub_C]

theorem lp_div_ne_zero (n : Nat) (τ : ℝ) (h : (lp n).eval τ = 0) : lp n /ₘ (X - C τ) ≠ 0 := by
  intro hc
  have := lp_div n τ h
  rw [hc, mul_zero] at this
  exact (lp_monic n).1.ne_zero this

theorem lp_root_mem (n : Nat) (τ : ℝ) (h : (lp n).eval τ = 0) : -1 < τ ∧ τ < 1 := by
  set π := lp n /ₘ (X - C τ) with hπ
  have hn := lp_root_one_le n τ h
  have h0 : legI (π * lp n) = 0 := legI_mul_lp_lt π n (by rw [hπ, natDegree_lp_div]; omega)
  have hne := lp_div_ne_zero n τ h
  rw [← hπ] at hne
  rw [lp_div n τ h, ← hπ] at h0
  constructor
  · by_contra hc
    push Not at hc
    have := legI_pos (π * ((X - C τ) * π)) (mul_ne_zero hne (mul_ne_zero (X_sub_C_ne_zero τ) hne)) fun t ht => by
      simp only [eval_mul, eval_sub, eval_X, eval_C]
      have h1 : 0 ≤ t - τ := by linarith [ht.1]
      nlinarith [mul_nonneg h1 (mul_self_nonneg (π.eval t))]
    linarith
  · by_contra hc
    push Not at hc
    have := legI_pos (-(π * ((X - C τ) * π))) (neg_ne_zero.2 (mul_ne_zero hne (mul_ne_zero (X_sub_C_ne_zero τ) hne)))
      fun t ht => by
        simp only [eval_neg, eval_mul, eval_sub, eval_X, eval_C]
        have h1 : 0 ≤ τ - t := by linarith [ht.2]
        nlinarith [mul_nonneg h1 (mul_self_nonneg (π.eval t))]
    rw [map_neg] at this
    linarith

theorem eval_lp_div (n : Nat) (τ : ℝ) (h : (lp n).eval τ = 0) :
    (lp n /ₘ (X - C τ)).eval τ = (derivative (lp n)).eval τ := by
  conv_rhs => rw [lp_div n τ h]
  simp only [derivative_mul, derivative_sub, derivative_X, derivative_C, sub_zero, one_mul, eval_add, eval_mul, eval_sub,
    eval_X, eval_C, sub_self, zero_mul, add_zero]

/-- The Christoffel numbers are positive. -/
theorem legQat_sign (n : Nat) (τ : ℝ) (h : (lp n).eval τ = 0) : legQat n τ * (derivative (lp n)).eval τ < 0 := by
  set π := lp n /ₘ (X - C τ) with hπ
  have hn := lp_root_one_le n τ h
  have hne := lp_div_ne_zero n τ h
  rw [← hπ] at hne
  have hsq := legI_sq_pos π hne
  set g := (π - C (π.eval τ)) /ₘ (X - C τ) with hg
  have hdiv : π - C (π.eval τ) = (X - C τ) * g :=
    (mul_divByMonic_eq_iff_isRoot.2 (show IsRoot (π - C (π.eval τ)) τ by simp [IsRoot])).symm
  have hdeg : g.natDegree < n := by
    rw [hg, natDegree_divByMonic _ (monic_X_sub_C τ), natDegree_sub_C, hπ, natDegree_lp_div, natDegree_X_sub_C]
    omega
  have e : π * π = π.eval τ • π + g * lp n := by
    have h2 := lp_div n τ h
    rw [← hπ] at h2
    rw [smul_eq_C_mul]
    linear_combination π * hdiv - g * h2
  rw [e, map_add, map_smul, legI_mul_lp_lt g n hdeg, add_zero, smul_eq_mul] at hsq
  rw [legQat, ← hπ, ← eval_lp_div n τ h, ← hπ]
  linarith

/-- The Casoratian at a zero. -/
theorem legQat_cas (n : Nat) (τ : ℝ) (h : (lp n).eval τ = 0) : (lp (n + 1)).eval τ * legQat n τ = lh n := by
  set π := lp n /ₘ (X - C τ) with hπ
  have hn := lp_root_one_le n τ h
  set g := (lp (n + 1) - C ((lp (n + 1)).eval τ)) /ₘ (X - C τ) with hg
  have hdiv : lp (n + 1) - C ((lp (n + 1)).eval τ) = (X - C τ) * g :=
    (mul_divByMonic_eq_iff_isRoot.2 (show IsRoot (lp (n + 1) - C ((lp (n + 1)).eval τ)) τ by simp [IsRoot])).symm
  have hdeg : g.natDegree = n := by
    rw [hg, natDegree_divByMonic _ (monic_X_sub_C τ), natDegree_sub_C, (lp_monic _).2, natDegree_X_sub_C]
    omega
  have hcoef : g.coeff n = 1 := by
    have h1 := congrArg (fun P => P.coeff (n + 1)) hdiv
    simp only [coeff_sub, sub_mul, coeff_X_mul, coeff_C_mul] at h1
    rw [coeff_C_succ, coeff_eq_zero_of_natDegree_lt (show g.natDegree < n + 1 by omega)] at h1
    have h2 := (lp_monic (n + 1)).1.coeff_natDegree
    rw [(lp_monic (n + 1)).2] at h2
    linarith
  have h0 : legI (π * lp (n + 1)) = 0 := legI_mul_lp_lt π (n + 1) (by rw [hπ, natDegree_lp_div]; omega)
  have e : π * lp (n + 1) = (lp (n + 1)).eval τ • π + g * lp n := by
    have h2 := lp_div n τ h
    rw [← hπ] at h2
    rw [smul_eq_C_mul]
    linear_combination π * hdiv - g * h2
  rw [e, map_add, map_smul, legI_mul_lp g n hdeg.le, hcoef, one_mul, smul_eq_mul] at h0
  rw [legQat, ← hπ]
  linarith

/-- Weights of the measure that generates the trailing block. -/
noncomputable def kweight (n : Nat) (τ : ℝ) : ℝ :=
  ((lp (n + 1)).eval τ - (legE n).eval τ) / (derivative (lp n)).eval τ

theorem kweight_pos (n : Nat) (τ : ℝ) (h : (lp n).eval τ = 0) : 0 < kweight n τ := by
  obtain ⟨h1, h2⟩ := lp_root_mem n τ h
  have hcos : Real.cos (Real.arccos τ) = τ := Real.cos_arccos h1.le h2.le
  have hpos := legE_pos n (lp_root_one_le n τ h) (Real.arccos τ) (Real.arccos_pos.2 h2)
    (lt_of_le_of_ne (Real.arccos_le_pi τ) fun hc => by
      rw [Real.arccos_eq_pi] at hc
      linarith) (by rw [hcos]; exact h)
  rw [hcos] at hpos
  have hs := legQat_sign n τ h
  have hc := legQat_cas n τ h
  set q := legQat n τ
  set d := (derivative (lp n)).eval τ
  have hq : q ≠ 0 := fun h => by rw [h, zero_mul] at hs; exact lt_irrefl _ hs
  have e : kweight n τ = (lh n - (legE n).eval τ * q) / (q * d) := by
    have hd : (derivative (lp n)).eval τ = d := rfl
    rw [kweight, ← hc, hd]
    field_simp
  rw [e]
  exact div_pos_of_neg_of_neg (by linarith) hs

theorem lp_nodes (n : Nat) (hn : 1 ≤ n) : ∃ y : Fin n → ℝ, StrictMono y ∧ lp n = ∏ i, (X - C (y i)) ∧
    ∀ i, y i.rev = -y i := by
  obtain ⟨N, rfl⟩ : ∃ N, n = N + 1 := ⟨n - 1, by omega⟩
  obtain ⟨ext, hext⟩ := exists_eighOk
  have hE := hext (N + 1) (eignewtMatrix legendreOffdiag (N + 1)) (eignewtMatrix_isSymm _ _)
  set y := (ext.eigh (N + 1) (eignewtMatrix legendreOffdiag (N + 1))).1
  have hy : StrictMono y := eigh_strictMono legendreOffdiag N (fun i _ => (legendreOffdiag_pos i).ne') hE
  have hc := eigenvalue_root hE
  rw [charpoly_eignewtMatrix] at hc
  have hl : cont (fun i => legendreOffdiag i ^ 2) (N + 1) = lp (N + 1) := cont_congr _ fun i _ => lb_sq i
  rw [hl] at hc
  refine ⟨y, hy, hc, fun j => ?_⟩
  have hroot : ∀ i, (lp (N + 1)).eval (y i) = 0 := by
    intro i
    rw [hc, eval_prod]
    exact prod_eq_zero (mem_univ i) (by simp)
  have := roots_unique (lp (N + 1)) (lp_monic _).1.ne_zero (lp_monic _).2.le y (fun i => -y i.rev) hy
    (fun a c hac => neg_lt_neg (hy (Fin.rev_lt_rev.2 hac))) hroot (fun i => by
      rw [lp, cont_neg, ← lp, hroot, mul_zero])
  have h2 := congrFun this j.rev
  simp only [Fin.rev_rev] at h2
  exact h2

/-! ## Orthogonal polynomials of a discrete measure -/

/-- `Σ ω_i F(y_i)`. -/
noncomputable def discI {n : Nat} (y ω : Fin n → ℝ) : ℝ[X] →ₗ[ℝ] ℝ where
  toFun F := ∑ i, ω i * F.eval (y i)
  map_add' F G := by simp only [eval_add, mul_add, sum_add_distrib]
  map_smul' r F := by
    simp only [eval_smul, smul_eq_mul, RingHom.id_apply, mul_sum]
    exact sum_congr rfl fun i _ => by ring

theorem discI_apply {n : Nat} (y ω : Fin n → ℝ) (F : ℝ[X]) : discI y ω F = ∑ i, ω i * F.eval (y i) := rfl

/-- Two consecutive orthogonal polynomials. -/
noncomputable def stieltjesPair (I : ℝ[X] →ₗ[ℝ] ℝ) : Nat → ℝ[X] × ℝ[X]
  | 0 => (1, X)
  | k + 1 => ((stieltjesPair I k).2, X * (stieltjesPair I k).2 -
      C (I ((stieltjesPair I k).2 ^ 2) / I ((stieltjesPair I k).1 ^ 2)) * (stieltjesPair I k).1)

/-- Recurrence coefficients. -/
noncomputable def stieltjesGamma (I : ℝ[X] →ₗ[ℝ] ℝ) (k : Nat) : ℝ :=
  I ((stieltjesPair I k).2 ^ 2) / I ((stieltjesPair I k).1 ^ 2)

theorem stieltjesPair_eq (I : ℝ[X] →ₗ[ℝ] ℝ) (k : Nat) :
    stieltjesPair I k = (cont (stieltjesGamma I) k, cont (stieltjesGamma I) (k + 1)) := by
  induction k with
  | zero => rw [stieltjesPair, cont_zero, cont_one]
  | succ k ih =>
    rw [cont_add_two, stieltjesPair, stieltjesGamma]
    simp only [ih]

theorem stieltjesGamma_eq (I : ℝ[X] →ₗ[ℝ] ℝ) (k : Nat) :
    stieltjesGamma I k = I (cont (stieltjesGamma I) (k + 1) ^ 2) / I (cont (stieltjesGamma I) k ^ 2) := by
  conv_lhs => rw [stieltjesGamma, stieltjesPair_eq]

theorem discI_sq_pos {n : Nat} (y ω : Fin n → ℝ) (hy : Function.Injective y) (hω : ∀ i, 0 < ω i) (P : ℝ[X]) (hP : P ≠ 0)
    (hd : P.natDegree < n) : 0 < discI y ω (P ^ 2) := by
  rw [discI_apply]
  have hnn : ∀ i ∈ univ, 0 ≤ ω i * (P ^ 2).eval (y i) := fun i _ => by
    rw [eval_pow]
    exact mul_nonneg (hω i).le (sq_nonneg _)
  refine lt_of_le_of_ne (sum_nonneg hnn) fun h0 => hP ?_
  have h1 := (sum_eq_zero_iff_of_nonneg hnn).1 h0.symm
  refine eq_zero_of_natDegree_lt_card_of_eval_eq_zero P hy (fun i => ?_) (by rwa [Fintype.card_fin])
  have h2 := h1 i (mem_univ i)
  rw [eval_pow] at h2
  exact pow_eq_zero_iff (two_ne_zero) |>.1 ((mul_eq_zero.1 h2).resolve_left (hω i).ne')

theorem monic_sub_natDegree (P : ℝ[X]) (k : Nat) (hP : P.Monic ∧ P.natDegree = k) (hk : 1 ≤ k) :
    (P - X ^ k).natDegree < k := by
  have h1 : (P - X ^ k).natDegree ≤ k := by
    refine (natDegree_sub_le _ _).trans (max_le hP.2.le ?_)
    rw [natDegree_X_pow]
  have hc : (P - X ^ k).coeff k = 0 := by
    have := hP.1.coeff_natDegree
    rw [hP.2] at this
    rw [coeff_sub, this, coeff_X_pow_self, sub_self]
  refine lt_of_le_of_ne h1 fun he => ?_
  have h3 : P - X ^ k = 0 := by
    rw [← leadingCoeff_eq_zero, leadingCoeff, he, hc]
  rw [h3, natDegree_zero] at he
  omega

/-- **The Stieltjes procedure** for a symmetric discrete measure. -/
theorem stieltjes_orth {n : Nat} (y ω : Fin n → ℝ) (hy : Function.Injective y) (hω : ∀ i, 0 < ω i)
    (hodd : ∀ F : ℝ[X], (∀ x, F.eval (-x) = -F.eval x) → discI y ω F = 0) (k : Nat) (hk : k ≤ n) (f : ℝ[X])
    (hf : f.natDegree < k) : discI y ω (f * cont (stieltjesGamma (discI y ω)) k) = 0 := by
  set I := discI y ω with hI
  set q := cont (stieltjesGamma I) with hq
  have hqm : ∀ k, (q k).Monic ∧ (q k).natDegree = k := cont_monic _
  induction k using Nat.strong_induction_on generalizing f with
  | _ k ih =>
    match k with
    | 0 => omega
    | 1 =>
      apply hodd
      obtain ⟨c, hc⟩ := natDegree_eq_zero.1 (show f.natDegree = 0 by omega)
      intro x
      rw [← hc, hq, cont_one]
      simp
    | k + 2 =>
      rw [functional_eq_sum I f (q (k + 2)) (k + 1) (by omega)]
      refine sum_eq_zero fun j hj => ?_
      have hj := mem_range.1 hj
      rcases Nat.lt_or_ge j (k + 1) with hlt | hge
      · have e : X ^ j * q (k + 2) = X ^ (j + 1) * q (k + 1) - stieltjesGamma I k • (X ^ j * q k) := by
          rw [hq, cont_add_two, smul_eq_C_mul]
          ring
        rw [e, map_sub, map_smul, smul_eq_mul]
        rcases Nat.lt_or_ge j k with hlt2 | hge2
        · rw [ih (k + 1) (by omega) (by omega) _ (by rw [natDegree_X_pow]; omega),
            ih k (by omega) (by omega) _ (by rw [natDegree_X_pow]; omega)]
          simp
        · obtain rfl : j = k := by omega
          have hpow : ∀ m, m ≤ j + 1 → I (X ^ m * q m) = I (q m ^ 2) := by
            intro m hm
            rcases Nat.eq_zero_or_pos m with rfl | hm0
            · rw [hq, cont_zero]; simp
            · have h1 := ih m (by omega) (by omega) (q m - X ^ m) (monic_sub_natDegree _ m (hqm m) hm0)
              rw [sub_mul, map_sub] at h1
              rw [sq]
              linarith
          have hpos := discI_sq_pos y ω hy hω (q j) (hqm j).1.ne_zero (by rw [(hqm j).2]; omega)
          rw [← hI] at hpos
          rw [hpow (j + 1) le_rfl, hpow j (by omega), stieltjesGamma_eq, ← hq, div_mul_cancel₀ _ hpos.ne', sub_self, mul_zero]
      · obtain rfl : j = k + 1 := by omega
        rw [hodd, mul_zero]
        intro x
        rw [eval_mul, eval_mul, hq, cont_neg, eval_pow, eval_pow, eval_X, eval_X, neg_pow]
        have : (-1 : ℝ) ^ (k + 1) * (-1) ^ (k + 2) = -1 := by
          rw [← pow_add, show k + 1 + (k + 2) = 2 * (k + 1) + 1 by ring, pow_succ, pow_mul]
          simp
        linear_combination (x ^ (k + 1) * eval x (cont (stieltjesGamma I) (k + 2))) * this

theorem stieltjes_roots {n : Nat} (y ω : Fin n → ℝ) (hy : Function.Injective y) (hω : ∀ i, 0 < ω i)
    (hodd : ∀ F : ℝ[X], (∀ x, F.eval (-x) = -F.eval x) → discI y ω F = 0) :
    cont (stieltjesGamma (discI y ω)) n = ∏ i, (X - C (y i)) := by
  rcases Nat.eq_zero_or_pos n with rfl | hn
  · simp
  set q := cont (stieltjesGamma (discI y ω)) n with hq
  have hroot : ∀ i, q.eval (y i) = 0 := by
    intro i
    have hdeg : (∏ j ∈ univ.erase i, (X - C (y j))).natDegree = n - 1 := by
      rw [natDegree_prod_of_monic _ _ fun j _ => monic_X_sub_C _]
      simp
    have h := stieltjes_orth y ω hy hω hodd n le_rfl (∏ j ∈ univ.erase i, (X - C (y j))) (by omega)
    rw [discI_apply, sum_eq_single i] at h
    · rw [eval_mul, eval_prod] at h
      have hne : ∏ j ∈ univ.erase i, eval (y i) (X - C (y j)) ≠ 0 := by
        rw [prod_ne_zero_iff]
        intro j hj
        rw [eval_sub, eval_X, eval_C, sub_ne_zero]
        exact fun hc => (mem_erase.1 hj).1 (hy hc).symm
      exact (mul_eq_zero.1 ((mul_eq_zero.1 h).resolve_left (hω i).ne')).resolve_left hne
    · intro j _ hji
      rw [eval_mul, eval_prod, prod_eq_zero (mem_erase.2 ⟨hji, mem_univ j⟩) (by simp), zero_mul, mul_zero]
    · simp
  have hqm := cont_monic (stieltjesGamma (discI y ω)) n
  rw [← hq] at hqm
  have hpm : (∏ i, (X - C (y i))).Monic := monic_prod_of_monic _ _ fun j _ => monic_X_sub_C _
  have hpd : (∏ i, (X - C (y i))).natDegree = n := by
    rw [natDegree_prod_of_monic _ _ fun j _ => monic_X_sub_C _]
    simp
  have hz : q - ∏ i, (X - C (y i)) = 0 := by
    refine eq_zero_of_degree_lt_of_eval_finset_eq_zero (univ.map ⟨y, hy⟩) ?_ ?_
    · rw [card_map, card_univ, Fintype.card_fin]
      have h1 := degree_sub_lt_left (p := q) (q := ∏ i, (X - C (y i)))
        (by rw [degree_eq_natDegree hqm.1.ne_zero, degree_eq_natDegree hpm.ne_zero, hqm.2, hpd]) hqm.1.ne_zero
        (by rw [hqm.1.leadingCoeff, hpm.leadingCoeff])
      rwa [degree_eq_natDegree hqm.1.ne_zero, hqm.2] at h1
    · intro x hx
      obtain ⟨i, -, rfl⟩ := mem_map.1 hx
      rw [Function.Embedding.coeFn_mk, eval_sub, hroot i, eval_prod, prod_eq_zero (mem_univ i) (by simp), sub_zero]
  exact sub_eq_zero.1 hz

/-! ## The Jacobi-Kronrod matrix -/

theorem kweight_lq (n : Nat) (y : Fin n → ℝ) (hy : StrictMono y) (hl : lp n = ∏ i, (X - C (y i))) (k : Nat) (hk : 1 ≤ k)
    (hkn : k + 1 ≤ n) : ∑ i, kweight n (y i) * (lq n k).eval (y i) = 0 := by
  have hroot : ∀ i, (lp n).eval (y i) = 0 := by
    intro i
    rw [hl, eval_prod]
    exact prod_eq_zero (mem_univ i) (by simp)
  have hdeg := stieltjes_degree n k hk hkn
  set V := lp (n + 1 + k) - legE n * lq n k with hV
  have hsum := Lagrange.coeff_eq_sum (s := (univ : Finset (Fin n))) (v := y) hy.injective.injOn (P := V) (by
    rw [card_univ, Fintype.card_fin]
    exact hdeg.trans (by exact_mod_cast (by omega)))
  rw [card_univ, Fintype.card_fin, coeff_eq_zero_of_degree_lt hdeg] at hsum
  rw [hsum]
  refine sum_congr rfl fun i _ => ?_
  have hder : (derivative (lp n)).eval (y i) = ∏ j ∈ univ.erase i, (y i - y j) := by
    rw [hl, derivative_prod_at]
  have hval : V.eval (y i) = ((lp (n + 1)).eval (y i) - (legE n).eval (y i)) * (lq n k).eval (y i) := by
    obtain ⟨j, rfl⟩ : ∃ j, k = j + 1 := ⟨k - 1, by omega⟩
    have hs := cont_split (fun i => lb (i + 1)) n j
    have e1 : (fun i => (fun i => lb (i + 1)) (n + 1 + i)) = fun i => lb (n + 2 + i) :=
      funext fun i => by show lb (n + 1 + i + 1) = _; congr 1; ring
    rw [e1, ← lq, ← lp, ← lp, ← lp] at hs
    have h2 := congrArg (fun P => P.eval (y i)) hs
    simp only [eval_sub, eval_mul, eval_C, hroot i, mul_zero, zero_mul, sub_zero] at h2
    rw [hV, eval_sub, eval_mul, h2]
    ring
  rw [kweight, hval, hder]
  ring

/-- **A Jacobi-Kronrod matrix with positive entries exists.** -/
theorem jacobiKronrod_exists (n : Nat) (hn : 1 ≤ n) : ∃ B : Nat → ℝ, (∀ j, 1 ≤ j → j ≤ 2 * n → 0 < B j) ∧
    (∀ i, i ≤ (3 * n + 1) / 2 → laurieInit n i = B i) ∧
    cont (fun i => B (i + 1)) n = cont (fun i => B (n + 2 + i)) n := by
  obtain ⟨y, hy, hl, hsymm⟩ := lp_nodes n hn
  have hroot : ∀ i, (lp n).eval (y i) = 0 := by
    intro i
    rw [hl, eval_prod]
    exact prod_eq_zero (mem_univ i) (by simp)
  set ω : Fin n → ℝ := fun i => kweight n (y i) + kweight n (y i.rev) with hω
  have hpos : ∀ i, 0 < ω i := fun i => add_pos (kweight_pos n _ (hroot i)) (kweight_pos n _ (hroot i.rev))
  set I := discI y ω with hI
  have hrev : ∀ F : Fin n → ℝ, ∑ i : Fin n, F i.rev = ∑ i, F i := fun F => Equiv.sum_comp Fin.revPerm F
  have hodd : ∀ F : ℝ[X], (∀ x, F.eval (-x) = -F.eval x) → I F = 0 := by
    intro F hF
    have h1 : I F = -I F := by
      conv_lhs => rw [hI, discI_apply, ← hrev]
      rw [hI, discI_apply, ← sum_neg_distrib]
      refine sum_congr rfl fun i _ => ?_
      simp only [hω, Fin.rev_rev]
      rw [hsymm, hF]
      ring
    linarith
  have hlq : ∀ k, 1 ≤ k → k ≤ n - 1 → I (lq n k) = 0 := by
    intro k h1 h2
    rw [hI, discI_apply]
    simp only [hω, add_mul, sum_add_distrib]
    have h3 := kweight_lq n y hy hl k h1 (by omega)
    rw [h3, zero_add, ← hrev]
    simp only [Fin.rev_rev, hsymm]
    have : ∀ i, kweight n (y i) * (lq n k).eval (-y i) = (-1) ^ k * (kweight n (y i) * (lq n k).eval (y i)) := by
      intro i
      rw [lq, cont_neg]
      ring
    simp only [this]
    rw [← mul_sum, h3, mul_zero]
  set γ := stieltjesGamma I with hγ
  have hγpos : ∀ i, i + 1 < n → 0 < γ i := by
    intro i hi
    rw [hγ, stieltjesGamma_eq]
    exact div_pos (discI_sq_pos y ω hy.injective hpos _ (cont_monic _ _).1.ne_zero (by rw [(cont_monic _ _).2]; omega))
      (discI_sq_pos y ω hy.injective hpos _ (cont_monic _ _).1.ne_zero (by rw [(cont_monic _ _).2]; omega))
  have hγn : cont γ n = lp n := by rw [hl]; exact stieltjes_roots y ω hy.injective hpos hodd
  have hγlb : ∀ i, 2 * (i + 1) ≤ n - 1 → γ i = lb (n + 2 + i) := by
    intro i
    induction i using Nat.strong_induction_on with
    | _ i ih =>
      intro hi
      have e1 : cont γ (i + 1) = lq n (i + 1) := cont_congr _ fun j hj => ih j (by omega) (by omega)
      have e0 : cont γ i = lq n i := cont_congr _ fun j hj => ih j (by omega) (by omega)
      have hsq : ∀ m, 2 * m ≤ n - 1 → I (lq n m ^ 2) = (∏ j ∈ range m, lb (n + 2 + j)) * I 1 := by
        intro m hm
        have h := cont_functional_mul I (fun j => lb (n + 2 + j)) (n - 1) hlq m hm (lq n m) (cont_monic _ _).2.le
        have hc : (lq n m).coeff m = 1 := by
          have := (cont_monic (fun j => lb (n + 2 + j)) m).1.coeff_natDegree
          rwa [(cont_monic (fun j => lb (n + 2 + j)) m).2] at this
        rw [hc, one_mul, ← lq] at h
        rw [sq, h]
      have hI1 : I 1 ≠ 0 := by
        have := discI_sq_pos y ω hy.injective hpos 1 one_ne_zero (by rw [natDegree_one]; omega)
        rw [one_pow] at this
        exact this.ne'
      have hprod : ∏ j ∈ range i, lb (n + 2 + j) ≠ 0 :=
        (prod_pos fun j _ => lb_pos _ (by omega)).ne'
      rw [hγ, stieltjesGamma_eq, ← hγ, e1, e0, hsq _ hi, hsq _ (by omega), prod_range_succ]
      field_simp
  set B : Nat → ℝ := fun j => if j ≤ n + 1 then laurieInit n j else γ (j - (n + 2)) with hB
  have hBpos : ∀ j, 1 ≤ j → j ≤ 2 * n → 0 < B j := by
    intro j h1 h2
    simp only [hB]
    split_ifs with h
    · rw [laurieInit, if_neg (by omega), if_pos (by omega)]
      exact lb_pos j h1
    · exact hγpos _ (by omega)
  refine ⟨B, hBpos, ?_, ?_⟩
  · intro i hi
    simp only [hB]
    split_ifs with h
    · rfl
    · rw [hγlb _ (by omega), laurieInit, if_neg (by omega), if_pos hi, show n + 2 + (i - (n + 2)) = i by omega, lb]
  · have e1 : cont (fun i => B (i + 1)) n = lp n := cont_congr _ fun i hi => by
      simp only [hB]
      rw [if_pos (by omega), laurieInit, if_neg (by omega), if_pos (by omega), lb]
    have e2 : cont (fun i => B (n + 2 + i)) n = cont γ n := cont_congr _ fun i hi => by
      simp only [hB]
      rw [if_neg (by omega), show n + 2 + i - (n + 2) = i by omega]
    rw [e1, e2, hγn]

/-- Laurie's algorithm computes it. -/
theorem kronrodPositive (n : Nat) (hn : 1 ≤ n) : Spec.KronrodPositive n := by
  obtain ⟨B, hpos, hinit, hblocks⟩ := jacobiKronrod_exists n hn
  intro j h1 h2
  rw [laurie_unique n hn B (fun j h1 h2 => (hpos j h1 h2).ne') hinit hblocks j h2]
  exact hpos j h1 h2

end Modepy

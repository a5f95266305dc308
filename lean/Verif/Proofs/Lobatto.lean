import Verif.Props.Gauss

/-!
# Gauss–Lobatto rules
-/

namespace Modepy
open Spec Polynomial

section
variable {L : ℝ[X] →ₗ[ℝ] ℝ} {p : ℕ → ℝ[X]} {a b : ℕ → ℝ} {c : ℝ}

theorem OrthFamily.leading (h : OrthFamily L p a b c) (n : Nat) :
    (p n).natDegree ≤ n ∧ (p n).coeff n ≠ 0 := by
  induction n using Nat.strong_induction_on with
  | _ n ih =>
    match n, ih with
    | 0, _ => rw [h.p_zero]; simpa using h.c_ne
    | 1, ih =>
      obtain ⟨d0, c0⟩ := ih 0 (by omega)
      have ha := h.a_ne 0
      simp only [zero_add] at ha
      have e : p 1 = C (a 1)⁻¹ * (X * p 0 - C (b 0) * p 0) := by
        rw [h.rec_zero, add_sub_cancel_right, ← mul_assoc, ← C_mul, inv_mul_cancel₀ ha, C_1, one_mul]
      constructor
      · rw [e]
        refine (natDegree_C_mul_le _ _).trans ((natDegree_sub_le _ _).trans (max_le ?_ ?_))
        · refine natDegree_mul_le.trans ?_
          have := natDegree_X_le (R := ℝ)
          omega
        · exact (natDegree_C_mul_le _ _).trans (by omega)
      · rw [e, coeff_C_mul, coeff_sub, coeff_X_mul, coeff_C_mul,
          coeff_eq_zero_of_natDegree_lt (show (p 0).natDegree < 1 by omega)]
        simpa [ha] using c0
    | n + 2, ih =>
      obtain ⟨d0, -⟩ := ih n (by omega)
      obtain ⟨d1, c1⟩ := ih (n + 1) (by omega)
      have ha := h.a_ne (n + 1)
      have e : p (n + 2) = C (a (n + 2))⁻¹ * (X * p (n + 1) - C (b (n + 1)) * p (n + 1) -
          C (a (n + 1)) * p n) := by
        rw [h.rec_succ, add_sub_right_comm, add_sub_cancel_right, add_sub_cancel_right, ← mul_assoc, ← C_mul,
          inv_mul_cancel₀ ha, C_1, one_mul]
      constructor
      · rw [e]
        refine (natDegree_C_mul_le _ _).trans ((natDegree_sub_le _ _).trans (max_le
          ((natDegree_sub_le _ _).trans (max_le ?_ ?_)) ?_))
        · refine natDegree_mul_le.trans ?_
          have := natDegree_X_le (R := ℝ)
          omega
        · exact (natDegree_C_mul_le _ _).trans (by omega)
        · exact (natDegree_C_mul_le _ _).trans (by omega)
      · rw [e, coeff_C_mul, coeff_sub, coeff_sub, coeff_X_mul, coeff_C_mul, coeff_C_mul,
          coeff_eq_zero_of_natDegree_lt (show (p (n + 1)).natDegree < n + 2 by omega),
          coeff_eq_zero_of_natDegree_lt (show (p n).natDegree < n + 2 by omega)]
        simpa [ha] using c1

theorem OrthFamily.orth_lower (h : OrthFamily L p a b c) (n : Nat) (f : ℝ[X])
    (hf : ∀ k, n ≤ k → f.coeff k = 0) : L (f * p n) = 0 := by
  have hspan : ∀ f ∈ Submodule.span ℝ (p '' Set.Iio n), L (f * p n) = 0 := by
    intro f hf
    induction hf using Submodule.span_induction with
    | mem f hf =>
      obtain ⟨j, hj, rfl⟩ := hf
      have hj' : j < n := hj
      rw [h.orth, if_neg (by omega)]
    | zero => simp
    | add g1 g2 _ _ h1 h2 => rw [add_mul, map_add, h1, h2, add_zero]
    | smul r g _ h1 => rw [smul_mul_assoc, map_smul, h1, smul_zero]
  apply hspan
  have e : f = ∑ k ∈ Finset.range n, C (f.coeff k) * X ^ k := by
    ext k
    rw [finsetSum_coeff]
    simp only [coeff_C_mul_X_pow]
    by_cases hk : k < n
    · rw [Finset.sum_eq_single k (fun j _ hj => by rw [if_neg (Ne.symm hj)]) (fun hk' => by
        exact absurd (Finset.mem_range.2 hk) hk'), if_pos rfl]
    · rw [hf k (by omega), Finset.sum_eq_zero]
      intro j hj
      have := Finset.mem_range.1 hj
      rw [if_neg (by omega)]
  rw [e]
  apply Submodule.sum_mem
  intro k hk
  rw [← smul_eq_C_mul]
  apply Submodule.smul_mem
  have hk' := Finset.mem_range.1 hk
  refine Submodule.span_mono (Set.image_mono ?_) (h.X_pow_mem k)
  intro j hj
  exact lt_of_le_of_lt hj hk'

/-- Pairing with the last polynomial only sees the leading coefficient. -/
theorem OrthFamily.pair_top (h : OrthFamily L p a b c) (n : Nat) (f : ℝ[X]) (hf : f.natDegree ≤ n) :
    L (f * p n) = f.coeff n / (p n).coeff n := by
  obtain ⟨d, hc⟩ := h.leading n
  have h0 := h.orth_lower n (f - C (f.coeff n / (p n).coeff n) * p n) (by
    intro k hk
    rw [coeff_sub, coeff_C_mul]
    rcases Nat.eq_or_lt_of_le hk with rfl | hk
    · field_simp; ring
    · rw [coeff_eq_zero_of_natDegree_lt (show f.natDegree < k by omega),
        coeff_eq_zero_of_natDegree_lt (show (p n).natDegree < k by omega)]; ring)
  rw [sub_mul, map_sub, mul_assoc, ← smul_eq_C_mul, map_smul, h.orth, if_pos rfl] at h0
  simp only [smul_eq_mul, mul_one] at h0
  linarith

end

/-- From a Gauss rule for the weight with both exponents increased to a Lobatto rule. -/
theorem lobatto_rule {α β : ℝ} (hα : -1 < α) (hβ : -1 < β) {m : Nat} (z v : Fin m → ℝ)
    (hz : ∀ i, -1 < z i ∧ z i < 1)
    (hex : ∀ g : ℝ[X], g = 0 ∨ g.natDegree + 1 ≤ 2 * m →
      ∑ i, v i * g.eval (z i) = ∫ t in (-1)..1, g.eval t * ((1 - t) ^ (α + 1) * (1 + t) ^ (β + 1))) :
    ∃ (wl wr : ℝ), ∀ f : ℝ[X], f.natDegree ≤ 2 * m + 1 →
      wl * f.eval (-1) + (∑ i, v i / (1 - z i ^ 2) * f.eval (z i)) + wr * f.eval 1 =
        ∫ t in (-1)..1, f.eval t * ((1 - t) ^ α * (1 + t) ^ β) := by
  have hz' : ∀ i, 1 - z i ^ 2 ≠ 0 := by
    intro i
    obtain ⟨h1, h2⟩ := hz i
    have : 0 < 1 - z i ^ 2 := by nlinarith
    exact this.ne'
  have hI : ∀ f : ℝ[X], ∫ t in (-1)..1, f.eval t * ((1 - t) ^ α * (1 + t) ^ β) = jacobiL hα hβ f := by
    intro f
    rw [jacobiL_apply]
    apply intervalIntegral.integral_congr
    intro t _
    simp only [jacobiWeight]; ring
  refine ⟨jacobiL hα hβ (C (1/2) * (1 - X)) - ∑ i, v i / (1 - z i ^ 2) * ((1 - z i) / 2),
    jacobiL hα hβ (C (1/2) * (1 + X)) - ∑ i, v i / (1 - z i ^ 2) * ((1 + z i) / 2), ?_⟩
  intro f hf
  rw [hI]
  let ℓ : ℝ[X] := C (f.eval (-1)) * (C (1/2) * (1 - X)) + C (f.eval 1) * (C (1/2) * (1 + X))
  have hℓ : ∀ t, ℓ.eval t = f.eval (-1) * ((1 - t) / 2) + f.eval 1 * ((1 + t) / 2) := by
    intro t
    simp only [ℓ, eval_add, eval_mul, eval_C, eval_sub, eval_one, eval_X]; ring
  obtain ⟨g1, hg1⟩ : (X - C 1) ∣ f - ℓ := by
    rw [dvd_iff_isRoot, IsRoot.def, eval_sub, hℓ]; ring
  obtain ⟨g2, hg2⟩ : (X - C (-1)) ∣ g1 := by
    rw [dvd_iff_isRoot, IsRoot.def]
    have := congrArg (eval (-1)) hg1
    rw [eval_sub, hℓ, eval_mul, eval_sub, eval_X, eval_C] at this
    linarith
  have hfact : f - ℓ = (1 - X ^ 2) * (-g2) := by
    rw [hg1, hg2]; simp only [map_neg, map_one]; ring
  set g := -g2 with hg
  have hfe : f = ℓ + (1 - X ^ 2) * g := by rw [← hfact]; ring
  have hgdeg : g = 0 ∨ g.natDegree + 1 ≤ 2 * m := by
    by_cases h0 : g = 0
    · exact .inl h0
    · right
      have hlin : ℓ.natDegree ≤ 1 := by
        refine (natDegree_add_le _ _).trans (max_le ?_ ?_)
        · refine (natDegree_C_mul_le _ _).trans ((natDegree_C_mul_le _ _).trans ?_)
          exact (natDegree_sub_le _ _).trans (by simp)
        · refine (natDegree_C_mul_le _ _).trans ((natDegree_C_mul_le _ _).trans ?_)
          exact (natDegree_add_le _ _).trans (by simp)
      have h2 : (1 - X ^ 2 : ℝ[X]).natDegree = 2 := by
        have : (1 - X ^ 2 : ℝ[X]) = -(X ^ 2 - C 1) := by simp
        rw [this, natDegree_neg, natDegree_X_pow_sub_C]
      have hne : (1 - X ^ 2 : ℝ[X]) ≠ 0 := by intro h; rw [h] at h2; simp at h2
      have h3 : (f - ℓ).natDegree = 2 + g.natDegree := by rw [hfact, natDegree_mul hne h0, h2]
      have h4 : (f - ℓ).natDegree ≤ 2 * m + 1 := (natDegree_sub_le _ _).trans (max_le hf (by omega))
      omega
  have hLg : jacobiL hα hβ ((1 - X ^ 2) * g) = ∑ i, v i * g.eval (z i) := by
    rw [hex g hgdeg, jacobiL_apply]
    apply intervalIntegral.integral_congr
    intro t ht
    rw [Set.uIcc_of_le (by norm_num)] at ht
    have := jacobiWeight_succ_Icc hα hβ t ht.1 ht.2
    simp only [jacobiWeight] at this ⊢
    rw [this]
    simp only [eval_mul, eval_sub, eval_one, eval_pow, eval_X]
    ring
  have hL : jacobiL hα hβ f = f.eval (-1) * jacobiL hα hβ (C (1/2) * (1 - X)) +
      f.eval 1 * jacobiL hα hβ (C (1/2) * (1 + X)) + ∑ i, v i * g.eval (z i) := by
    conv_lhs => rw [hfe]
    rw [map_add, hLg]
    simp only [ℓ]
    rw [map_add, ← smul_eq_C_mul (f.eval (-1)), ← smul_eq_C_mul (f.eval 1), map_smul, map_smul, smul_eq_mul,
      smul_eq_mul]
  have hsum : ∑ i, v i / (1 - z i ^ 2) * f.eval (z i) =
      f.eval (-1) * (∑ i, v i / (1 - z i ^ 2) * ((1 - z i) / 2)) +
      f.eval 1 * (∑ i, v i / (1 - z i ^ 2) * ((1 + z i) / 2)) + ∑ i, v i * g.eval (z i) := by
    rw [Finset.mul_sum, Finset.mul_sum, ← Finset.sum_add_distrib, ← Finset.sum_add_distrib]
    apply Finset.sum_congr rfl
    intro i _
    have e := congrArg (eval (z i)) hfe
    rw [eval_add, hℓ, eval_mul, eval_sub, eval_one, eval_pow, eval_X] at e
    rw [e]
    have := hz' i
    field_simp
  rw [hL, hsum]
  ring

end Modepy

import Verif.Model.ClenshawCurtis
import Verif.Proofs.DiscreteCosine
import Verif.Proofs.QuadArrays
import Verif.Spec.Quadrature

/-!
# Clenshaw–Curtis and Fejér rules: inverse transforms and their entries
-/

namespace Modepy
open Polynomial Polynomial.Chebyshev Finset

/-! ## Rules given by lists -/

theorem call_ofList (x w : List ℝ) (e : Option PyVal) (fd : Bool) (h : x.length = w.length) (f : List ℝ → ℝ) :
    Quadrature.call ⟨if fd then (NdArray.ofList x).addDimAxis else NdArray.ofList x, NdArray.ofList w, e, none⟩ f =
      ∑ k ∈ range w.length, w.getD k 0 * f [x.getD k 0] := by
  rw [Quadrature.call]
  have hn : Quadrature.nnodes ⟨if fd then (NdArray.ofList x).addDimAxis else NdArray.ofList x,
      NdArray.ofList w, e, none⟩ = w.length := by
    cases fd <;> simp [Quadrature.nnodes, NdArray.ofList, NdArray.addDimAxis, h]
  rw [hn, sum_map_range_real]
  apply sum_congr rfl
  intro i _
  cases fd <;> simp [Quadrature.node, NdArray.ofList, NdArray.addDimAxis]

/-- A rule whose values on the cosines `cos(l θ_k)` are the integrals of `T_l` is exact. -/
theorem exactOn_of_cos (d n : Nat) (θ w : Nat → ℝ)
    (h : ∀ l ≤ d, ∑ k ∈ range n, w k * Real.cos (l * θ k) = if l % 2 = 0 then 2 / (1 - (l : ℝ) ^ 2) else 0)
    (p : ℝ[X]) (hp : p.natDegree ≤ d) :
    ∑ k ∈ range n, w k * p.eval (Real.cos (θ k)) = ∫ t in (-1 : ℝ)..1, p.eval t := by
  let A : ℝ[X] →ₗ[ℝ] ℝ := ∑ k ∈ range n, w k • Polynomial.leval (Real.cos (θ k))
  let B : ℝ[X] →ₗ[ℝ] ℝ :=
    { toFun := fun p => ∫ t in (-1 : ℝ)..1, p.eval t
      map_add' := by
        intro p q
        simp only [eval_add]
        exact intervalIntegral.integral_add (p.continuous.intervalIntegrable _ _)
          (q.continuous.intervalIntegrable _ _)
      map_smul' := by
        intro c p
        simp only [eval_smul, smul_eq_mul, RingHom.id_apply]
        exact intervalIntegral.integral_const_mul _ _ }
  have hA : ∀ p : ℝ[X], A p = ∑ k ∈ range n, w k * p.eval (Real.cos (θ k)) := by
    intro p
    simp [A, LinearMap.sum_apply, Polynomial.leval]
  rw [← hA]
  refine eq_of_chebyshev d A B ?_ p hp
  intro l hl
  rw [hA]
  show _ = ∫ t in (-1 : ℝ)..1, (T ℝ (l : ℕ)).eval t
  rw [integral_T, ← h l hl]
  apply sum_congr rfl
  intro k _
  rw [T_real_cos]
  simp

/-! ## The inverse transform -/

theorem ifft_length (v : List ℂ) : (ifft v).length = v.length := by simp [ifft]

theorem sum_map_range_complex (n : Nat) (g : Nat → ℂ) : ((List.range n).map g).sum = ∑ k ∈ range n, g k := rfl

theorem ifft_getD (v : List ℂ) (k : Nat) (hk : k < v.length) : (ifft v).getD k 0 =
    1 / (v.length : ℂ) * ∑ j ∈ range v.length,
      v.getD j 0 * Complex.exp (2 * Real.pi * Complex.I * j * k / v.length) := by
  rw [List.getD_eq_getElem?_getD, List.getElem?_eq_getElem (by rwa [ifft_length])]
  simp only [ifft, List.getElem_map, List.getElem_range, Option.getD_some]
  rfl

theorem exp_reflect {n : Nat} (hn : 0 < n) (j k : Nat) (hj : j ≤ n) :
    Complex.exp (2 * Real.pi * Complex.I * ((n - j : Nat) : ℂ) * k / n) =
      (starRingEnd ℂ) (Complex.exp (2 * Real.pi * Complex.I * j * k / n)) := by
  rw [← Complex.exp_conj]
  have hn' : (n : ℂ) ≠ 0 := by exact_mod_cast hn.ne'
  have e : 2 * Real.pi * Complex.I * ((n - j : Nat) : ℂ) * k / n =
      (starRingEnd ℂ) (2 * Real.pi * Complex.I * j * k / n) + (k : ℤ) * (2 * Real.pi * Complex.I) := by
    simp only [map_mul, map_div₀, Complex.conj_I, Complex.conj_ofReal, map_natCast, Complex.conj_ofNat]
    rw [Nat.cast_sub hj]
    push_cast
    field_simp
    ring
  rw [e, Complex.exp_add, Complex.exp_int_mul_two_pi_mul_I, mul_one]

/-- The inverse transform of a Hermitian sequence is real. -/
theorem ifft_im (v : List ℂ) (h0 : (v.getD 0 0).im = 0)
    (hv : ∀ j, 0 < j → j < v.length → v.getD (v.length - j) 0 = (starRingEnd ℂ) (v.getD j 0)) :
    ∀ z ∈ ifft v, z.im = 0 := by
  intro z hz
  obtain ⟨k, hk, rfl⟩ := List.getElem_of_mem hz
  have hk' : k < v.length := by rwa [ifft_length] at hk
  have hlen : 0 < v.length := by omega
  have e := ifft_getD v k hk'
  rw [List.getD_eq_getElem?_getD, List.getElem?_eq_getElem hk, Option.getD_some] at e
  rw [e]
  have hsum : (∑ j ∈ range v.length,
      v.getD j 0 * Complex.exp (2 * Real.pi * Complex.I * j * k / v.length)).im = 0 := by
    rw [Complex.im_sum]
    obtain ⟨n', hn'⟩ : ∃ n', v.length = n' + 1 := ⟨v.length - 1, by omega⟩
    set a : Nat → ℝ := fun j => (v.getD j 0 * Complex.exp (2 * Real.pi * Complex.I * j * k / v.length)).im with ha
    have hz0 : a 0 = 0 := by
      simp only [ha, Nat.cast_zero, mul_zero, zero_mul, zero_div, Complex.exp_zero, mul_one, h0]
    have hrefl : ∀ j, 0 < j → j < v.length → a (v.length - j) = - a j := by
      intro j h1 h2
      simp only [ha]
      rw [hv j h1 h2, exp_reflect hlen j k h2.le, ← map_mul, Complex.conj_im]
    have hs : ∑ j ∈ range n', a (j + 1) = - ∑ j ∈ range n', a (j + 1) := by
      conv_lhs => rw [← sum_range_reflect]
      rw [← sum_neg_distrib]
      apply sum_congr rfl
      intro j hj
      have := mem_range.1 hj
      rw [← hrefl (j + 1) (by omega) (by omega)]
      congr 1
      omega
    rw [show (∑ j ∈ range v.length, (v.getD j 0 * Complex.exp (2 * Real.pi * Complex.I * j * k / v.length)).im) =
      ∑ j ∈ range v.length, a j from rfl, hn', sum_range_succ']
    have : ∑ j ∈ range n', a (j + 1) = 0 := by linarith
    rw [this, hz0, zero_add]
  have : (1 / (v.length : ℂ)) = ((1 / (v.length : ℝ) : ℝ) : ℂ) := by push_cast; rfl
  rw [this, Complex.im_ofReal_mul, hsum, mul_zero]

theorem assertReal_ok (w : List ℂ) (h : ∀ z ∈ w, z.im = 0) : assertReal w = .ok (w.map Complex.re) := by
  rw [assertReal, if_pos]
  intro z hz
  rw [h z hz]
  norm_num

theorem ifft_re (v : List ℂ) (k : Nat) (hk : k < v.length) : ((ifft v).map Complex.re).getD k 0 =
    1 / (v.length : ℝ) * ∑ j ∈ range v.length,
      (v.getD j 0 * Complex.exp (2 * Real.pi * Complex.I * j * k / v.length)).re := by
  have e := ifft_getD v k hk
  have hk' : k < (ifft v).length := by rwa [ifft_length]
  rw [List.getD_eq_getElem?_getD, List.getElem?_eq_getElem hk', Option.getD_some] at e
  rw [List.getD_eq_getElem?_getD, List.getElem?_map, List.getElem?_eq_getElem hk']
  simp only [Option.map_some, Option.getD_some, e]
  have : (1 / (v.length : ℂ)) = ((1 / (v.length : ℝ) : ℝ) : ℂ) := by push_cast; rfl
  rw [this, Complex.re_ofReal_mul, Complex.re_sum]

theorem exp_eq (n j k : Nat) : Complex.exp (2 * Real.pi * Complex.I * j * k / n) =
    Complex.exp ((2 * j * (k * Real.pi / n) : ℝ) * Complex.I) := by
  congr 1
  push_cast
  ring

theorem getD_ofReal (v : List ℝ) (j : Nat) : ((v.map fun z : ℝ => (z : ℂ)).getD j 0) = ((v.getD j 0 : ℝ) : ℂ) := by
  simp only [List.getD_eq_getElem?_getD, List.getElem?_map]
  cases v[j]? <;> simp

/-- The weights obtained from a real sequence. -/
theorem ifft_re_real (v : List ℝ) (k : Nat) (hk : k < v.length) :
    ((ifft (v.map fun z : ℝ => (z : ℂ))).map Complex.re).getD k 0 =
      1 / (v.length : ℝ) * ∑ j ∈ range v.length, v.getD j 0 * Real.cos (2 * j * (k * Real.pi / v.length)) := by
  rw [ifft_re _ k (by simpa using hk)]
  simp only [List.length_map]
  congr 1
  apply sum_congr rfl
  intro j _
  rw [getD_ofReal, exp_eq, Complex.re_ofReal_mul, Complex.exp_ofReal_mul_I_re]

/-- Applying such weights at the points `cos(k π / n)` to `T_l`. -/
theorem cc_rule {n : Nat} (hn : 0 < n) (V : Nat → ℝ) (hV : ∀ j, 0 < j → j < n → V (n - j) = V j)
    (l : Nat) (hl : l < 2 * n) :
    ∑ k ∈ range (n + 1), (1 / (n : ℝ) * ∑ j ∈ range n, V j * Real.cos (2 * j * (k * Real.pi / n))) *
      Real.cos (l * (k * Real.pi / n)) =
    if l % 2 = 0 then V (l / 2) + 1 / n * ∑ j ∈ range n, V j else 0 := by
  have hn' : (n : ℝ) ≠ 0 := by positivity
  have hswap : ∑ k ∈ range (n + 1), (1 / (n : ℝ) * ∑ j ∈ range n, V j * Real.cos (2 * j * (k * Real.pi / n))) *
      Real.cos (l * (k * Real.pi / n)) =
      1 / n * ∑ j ∈ range n, V j * ∑ k ∈ range (n + 1),
        Real.cos (2 * j * (k * Real.pi / n)) * Real.cos (l * (k * Real.pi / n)) := by
    simp only [mul_sum, sum_mul]
    rw [sum_comm]
    apply sum_congr rfl
    intro j _
    apply sum_congr rfl
    intro k _
    ring
  have hin : ∀ j : Nat, ∑ k ∈ range (n + 1), Real.cos (2 * j * (k * Real.pi / n)) * Real.cos (l * (k * Real.pi / n)) =
      1 / 2 * ((if (2 * (n : ℤ)) ∣ 2 * (j : ℤ) + l then (n : ℝ) else 0) +
        (if (2 * (n : ℤ)) ∣ 2 * (j : ℤ) - l then (n : ℝ) else 0) + (1 + (-1) ^ l)) := by
    intro j
    have h1 := cos_end_sum hn (2 * (j : ℤ) + l)
    have h2 := cos_end_sum hn (2 * (j : ℤ) - l)
    have c1 : Real.cos (((2 * (j : ℤ) + l : ℤ) : ℝ) * Real.pi) = (-1) ^ l := by
      have : ((2 * (j : ℤ) + l : ℤ) : ℝ) * Real.pi = l * Real.pi + (j : ℤ) * (2 * Real.pi) := by push_cast; ring
      rw [this, Real.cos_add_int_mul_two_pi, Real.cos_nat_mul_pi]
    have c2 : Real.cos (((2 * (j : ℤ) - l : ℤ) : ℝ) * Real.pi) = (-1) ^ l := by
      have : ((2 * (j : ℤ) - l : ℤ) : ℝ) * Real.pi = -(l * Real.pi) + (j : ℤ) * (2 * Real.pi) := by push_cast; ring
      rw [this, Real.cos_add_int_mul_two_pi, Real.cos_neg, Real.cos_nat_mul_pi]
    rw [c1] at h1
    rw [c2] at h2
    have hprod : ∀ k ∈ range (n + 1), Real.cos (2 * j * (k * Real.pi / n)) * Real.cos (l * (k * Real.pi / n)) =
        1 / 2 * (Real.cos (((2 * (j : ℤ) + l : ℤ) : ℝ) * (k * Real.pi / n)) +
          Real.cos (((2 * (j : ℤ) - l : ℤ) : ℝ) * (k * Real.pi / n))) := by
      intro k _
      push_cast
      rw [add_mul, sub_mul, Real.cos_add, Real.cos_sub]
      ring
    rw [sum_congr rfl hprod, ← mul_sum, sum_add_distrib, h1, h2]
    ring
  rw [hswap, sum_congr rfl fun j _ => by rw [hin j]]
  split_ifs with hpar
  · obtain ⟨p, rfl⟩ : ∃ p, l = 2 * p := ⟨l / 2, by omega⟩
    have hp : p < n := by omega
    have e1 : ((-1 : ℝ)) ^ (2 * p) = 1 := by simp
    have e2 : 2 * p / 2 = p := by omega
    rw [e1, e2]
    have d1 : ∀ j ∈ range n, ((2 * (n : ℤ)) ∣ 2 * (j : ℤ) + (2 * p : ℕ)) ↔ j = (n - p) % n := by
      intro j hj
      have hj' := mem_range.1 hj
      constructor
      · rintro ⟨t, ht⟩
        push_cast at ht
        have ht' : (j : ℤ) + p = n * t := by linarith
        rcases Nat.eq_zero_or_pos p with h0 | h0
        · subst h0
          rw [Nat.sub_zero, Nat.mod_self]
          have hdv : (n : ℤ) ∣ j := ⟨t, by push_cast at ht'; linarith⟩
          have : n ∣ j := by exact_mod_cast hdv
          exact Nat.eq_zero_of_dvd_of_lt this hj'
        · rw [Nat.mod_eq_of_lt (by omega)]
          have t1 : t = 1 := by
            have a1 : 0 < (n : ℤ) * t := by omega
            have a2 : (n : ℤ) * t < n * 2 := by omega
            have b1 : 0 < t := by
              by_contra hc
              push Not at hc
              nlinarith
            have b2 : t < 2 := by
              by_contra hc
              push Not at hc
              nlinarith
            omega
          subst t1
          omega
      · rintro rfl
        rcases Nat.eq_zero_or_pos p with h0 | h0
        · subst h0; simp
        · rw [Nat.mod_eq_of_lt (by omega)]
          refine ⟨1, ?_⟩
          push_cast [Nat.cast_sub hp.le]
          ring
    have d2 : ∀ j ∈ range n, ((2 * (n : ℤ)) ∣ 2 * (j : ℤ) - (2 * p : ℕ)) ↔ j = p := by
      intro j hj
      have hj' := mem_range.1 hj
      constructor
      · rintro ⟨t, ht⟩
        push_cast at ht
        have ht' : (j : ℤ) - p = n * t := by linarith
        have : t = 0 := by
          have b1 : -1 < t := by
            by_contra hc
            push Not at hc
            nlinarith
          have b2 : t < 1 := by
            by_contra hc
            push Not at hc
            nlinarith
          omega
        subst this
        omega
      · rintro rfl
        simp
    have hsplit : ∀ j ∈ range n, V j * (1 / 2 * ((if (2 * (n : ℤ)) ∣ 2 * (j : ℤ) + (2 * p : ℕ) then (n : ℝ) else 0) +
        (if (2 * (n : ℤ)) ∣ 2 * (j : ℤ) - (2 * p : ℕ) then (n : ℝ) else 0) + (1 + 1))) =
        n / 2 * (if j = (n - p) % n then V j else 0) + n / 2 * (if j = p then V j else 0) + V j := by
      intro j hj
      simp only [d1 j hj, d2 j hj]
      split_ifs <;> ring
    rw [sum_congr rfl hsplit, sum_add_distrib, sum_add_distrib, ← mul_sum, ← mul_sum, sum_ite_eq', sum_ite_eq',
      if_pos (mem_range.2 (Nat.mod_lt _ hn)), if_pos (mem_range.2 hp)]
    have hVp : V ((n - p) % n) = V p := by
      rcases Nat.eq_zero_or_pos p with h0 | h0
      · subst h0; simp
      · rw [Nat.mod_eq_of_lt (by omega)]
        exact hV p h0 hp
    rw [hVp]
    field_simp
    ring
  · have hz : ∀ j ∈ range n, V j * (1 / 2 * ((if (2 * (n : ℤ)) ∣ 2 * (j : ℤ) + l then (n : ℝ) else 0) +
        (if (2 * (n : ℤ)) ∣ 2 * (j : ℤ) - l then (n : ℝ) else 0) + (1 + (-1) ^ l))) = 0 := by
      intro j _
      have o1 : ¬ (2 * (n : ℤ)) ∣ 2 * (j : ℤ) + l := by
        rintro ⟨t, ht⟩
        have : (2 : ℤ) ∣ l := ⟨n * t - j, by linarith⟩
        omega
      have o2 : ¬ (2 * (n : ℤ)) ∣ 2 * (j : ℤ) - l := by
        rintro ⟨t, ht⟩
        have : (2 : ℤ) ∣ l := ⟨j - n * t, by linarith⟩
        omega
      have o3 : ((-1 : ℝ)) ^ l = -1 := Odd.neg_one_pow (Nat.odd_iff.2 (by omega))
      rw [if_neg o1, if_neg o2, o3]
      ring
    rw [sum_congr rfl hz]
    simp

end Modepy

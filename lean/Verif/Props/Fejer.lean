import Verif.Props.ClenshawCurtis

/-!
# Property C31: Fejér quadrature of the first and second kind
-/

namespace Modepy
open Spec Polynomial Polynomial.Chebyshev Finset

/-- Nodes of a rule built from lists. -/
theorem node_ofList (n : Nat) (f : Nat → ℝ) (fd : Bool) (w : NdArray ℝ) (e : Option PyVal) (k : Nat) (hk : k < n) :
    Quadrature.node ⟨if fd then (NdArray.ofList ((List.range n).map f)).addDimAxis
      else NdArray.ofList ((List.range n).map f), w, e, none⟩ k = [f k] := by
  have h := getD_map_range (n := n) f k hk
  cases fd <;> simp only [Quadrature.node, NdArray.ofList, NdArray.addDimAxis, if_true, if_false,
    List.length_cons, List.length_nil, Bool.false_eq_true] <;> simpa using h

/-! ## Second kind -/

theorem make_fejer2_ok {n : Nat} (hn : 2 ≤ n) : makeFejer2 n =
    .ok ((List.range (n - 1)).map fun (k : Nat) => Real.cos ((k + 1 : Nat) * Real.pi / n),
      (List.range (n - 1)).map fun k => seqWeight n (fejerV n) (k + 1)) := by
  have hl := arange_length (n := n) (by omega)
  have hv : ccFold (ccConcat (npArange 1 n 2) (n - n / 2)) = (List.range n).map (fejerV n) := by
    apply list_getD_of (ccFold_length hn)
    intro k hk
    rw [ccFold_getD hn k hk, fejerV]
  obtain ⟨him, hre⟩ := ifft_seq (n := n) (fejerV n) fun j _ h2 => fejerV_symm n j h2
  rw [makeFejer2, if_neg (by omega)]
  simp only [hl, hv]
  rw [assertReal_ok _ fun z hz => him z (List.mem_of_mem_drop hz), List.map_drop, hre]
  simp only
  have e1 : (npArange 1 n 1) = (List.range (n - 1)).map fun k => k + 1 := by
    simp [npArange, Nat.add_comm]
  rw [e1, List.map_map]
  congr 2
  obtain ⟨t, rfl⟩ : ∃ t, n = t + 1 := ⟨n - 1, by omega⟩
  simp [List.range_succ_eq_map]

theorem fejer2_sum {n : Nat} (hn : 2 ≤ n) (l : Nat) (hl : l ≤ n - 2) :
    ∑ k ∈ range (n - 1), seqWeight n (fejerV n) (k + 1) * Real.cos (l * ((k + 1 : Nat) * Real.pi / n)) =
      if l % 2 = 0 then 2 / (1 - (l : ℝ) ^ 2) else 0 := by
  have h := cc_rule (n := n) (by omega) (fejerV n) (fun j _ h2 => fejerV_symm n j h2) l (by omega)
  have h' : (∑ k ∈ range (n + 1), seqWeight n (fejerV n) k * Real.cos (l * (k * Real.pi / n))) = _ := h
  have z0 : seqWeight n (fejerV n) 0 = 0 := by rw [seqWeight_zero, sum_fejerV hn, mul_zero]
  have zn : seqWeight n (fejerV n) n = 0 := by rw [seqWeight_end (by omega), z0]
  rw [sum_range_succ, zn, zero_mul, add_zero] at h'
  have e : n = (n - 1) + 1 := by omega
  rw [show range n = range (n - 1 + 1) from congrArg _ e, sum_range_succ', z0, zero_mul, add_zero] at h'
  rw [h']
  split_ifs with hp
  · rw [← e, sum_fejerV hn, mul_zero, add_zero, fejerV_lt hn _ (by omega)]
    have e2 : (l : ℝ) = 2 * (l / 2 : Nat) := by exact_mod_cast (by omega : l = 2 * (l / 2))
    rw [← e2]
  · rfl

/-- **C31, second kind.**  For every `N ≥ 2`, `FejerQuadrature(N, kind=2)` has `N - 1` nodes, all in the open
interval, and integrates every polynomial of degree at most `N - 2` exactly (it is interpolatory); the
weights are positive. -/
theorem C31_second (N : Nat) (hN : 2 ≤ N) (fd : Bool) :
    ∃ q, fejerQuadrature N 2 fd = .ok q ∧ ExactOn (N - 2) (-1) 1 q.call ∧
      q.nodes.shape = (if fd then [1, N - 1] else [N - 1]) ∧ q.weights.shape = [N - 1] ∧
      (∀ k < N - 1, 0 < q.weights.get [k]) ∧
      (∀ k < N - 1, q.node k = [Real.cos ((k + 1 : Nat) * Real.pi / N)]) ∧
      (∀ k < N - 1, ∃ t, q.node k = [t] ∧ -1 < t ∧ t < 1 ∧ (U ℝ (N - 1 : ℕ)).eval t = 0) := by
  have hq : fejerQuadrature N 2 fd = .ok ⟨if fd then (NdArray.ofList ((List.range (N - 1)).map
        fun (k : Nat) => Real.cos ((k + 1 : Nat) * Real.pi / N))).addDimAxis
      else NdArray.ofList ((List.range (N - 1)).map fun (k : Nat) => Real.cos ((k + 1 : Nat) * Real.pi / N)),
      NdArray.ofList ((List.range (N - 1)).map fun k => seqWeight N (fejerV N) (k + 1)), none, none⟩ := by
    rw [fejerQuadrature]
    simp only [show ¬ ((2 : Int) = 1) by decide, if_false, if_true, make_fejer2_ok hN]
  have hN0 : (0 : ℝ) < N := by exact_mod_cast (by omega : 0 < N)
  have hpi := Real.pi_pos
  have hang : ∀ k < N - 1, 0 < ((k + 1 : Nat) : ℝ) * Real.pi / N ∧ ((k + 1 : Nat) : ℝ) * Real.pi / N < Real.pi := by
    intro k hk
    refine ⟨by positivity, ?_⟩
    rw [div_lt_iff₀ hN0, mul_comm]
    have : ((k + 1 : Nat) : ℝ) < N := by exact_mod_cast (by omega : k + 1 < N)
    nlinarith
  refine ⟨_, hq, ?_, ?_, ?_, ?_, ?_, ?_⟩
  · intro p hp
    rw [call_ofList _ _ _ _ (by simp)]
    simp only [List.length_map, List.length_range]
    have e : ∀ k ∈ range (N - 1), ((List.range (N - 1)).map fun k => seqWeight N (fejerV N) (k + 1)).getD k 0 *
        p.eval ([((List.range (N - 1)).map fun (k : Nat) => Real.cos ((k + 1 : Nat) * Real.pi / N)).getD k 0].headD 0) =
        seqWeight N (fejerV N) (k + 1) * p.eval (Real.cos ((k + 1 : Nat) * Real.pi / N)) := by
      intro k hk
      rw [getD_map_range _ _ (mem_range.1 hk), getD_map_range _ _ (mem_range.1 hk), List.headD_cons]
    rw [sum_congr rfl e]
    exact exactOn_of_cos (N - 2) (N - 1) (fun k => (k + 1 : Nat) * Real.pi / N)
      (fun k => seqWeight N (fejerV N) (k + 1)) (fun l hl => fejer2_sum hN l hl) p hp
  · cases fd <;> simp [NdArray.ofList, NdArray.addDimAxis]
  · simp [NdArray.ofList]
  · intro k hk
    have hw : (NdArray.ofList ((List.range (N - 1)).map fun k => seqWeight N (fejerV N) (k + 1))).get [k] =
        seqWeight N (fejerV N) (k + 1) := getD_map_range _ k hk
    simp only [hw]
    have z0 : ∑ j ∈ range N, fejerV N j = 0 := sum_fejerV hN
    rw [seqWeight]
    refine mul_pos (by positivity) ?_
    rw [← z0]
    apply sum_lt_sum
    · intro j hj
      rcases Nat.eq_zero_or_pos j with h | h
      · subst h; simp
      · have := fejerV_neg hN j h (mem_range.1 hj)
        have := Real.cos_le_one (2 * j * ((k + 1 : Nat) * Real.pi / N))
        nlinarith
    · refine ⟨1, mem_range.2 (by omega), ?_⟩
      have h1 := fejerV_one_neg hN
      have h2 : Real.cos (2 * (1 : ℕ) * ((k + 1 : Nat) * Real.pi / N)) < 1 := by
        refine lt_of_le_of_ne (Real.cos_le_one _) ?_
        intro hc
        obtain ⟨t, ht⟩ := (Real.cos_eq_one_iff _).1 hc
        have hne := hpi.ne'
        obtain ⟨a1, a2⟩ := hang k hk
        have ht' : (t : ℝ) * Real.pi = (k + 1 : Nat) * Real.pi / N := by push_cast at ht ⊢; linarith
        rw [← ht'] at a1 a2
        have b1 : (0 : ℝ) < t := by
          by_contra hcon
          push Not at hcon
          nlinarith
        have b2 : (t : ℝ) < 1 := by
          by_contra hcon
          push Not at hcon
          nlinarith
        have c1 : (0 : ℤ) < t := by exact_mod_cast b1
        have c2 : t < (1 : ℤ) := by exact_mod_cast b2
        omega
      nlinarith
  · intro k hk
    exact node_ofList (N - 1) (fun (k : Nat) => Real.cos ((k + 1 : Nat) * Real.pi / N)) fd _ _ k hk
  · intro k hk
    obtain ⟨a1, a2⟩ := hang k hk
    refine ⟨_, node_ofList (N - 1) (fun (k : Nat) => Real.cos ((k + 1 : Nat) * Real.pi / N)) fd _ _ k hk, ?_, ?_, ?_⟩
    · rw [← Real.cos_pi]
      exact Real.cos_lt_cos_of_nonneg_of_le_pi a1.le (le_refl _) a2
    · rw [← Real.cos_zero]
      exact Real.cos_lt_cos_of_nonneg_of_le_pi (le_refl _) a2.le a1
    · have hs := Real.sin_pos_of_pos_of_lt_pi a1 a2
      have := U_real_cos ((k + 1 : Nat) * Real.pi / N) (N - 1 : ℕ)
      have e : ((((N - 1 : ℕ) : ℤ) : ℝ) + 1) * ((k + 1 : Nat) * Real.pi / N) = (k + 1 : Nat) * Real.pi := by
        have : (((N - 1 : ℕ) : ℤ) : ℝ) + 1 = N := by
          rw [Int.cast_natCast, Nat.cast_sub (by omega)]; push_cast; ring
        rw [this]
        field_simp
      rw [e, Real.sin_nat_mul_pi] at this
      exact (mul_eq_zero.1 this).resolve_right hs.ne'

/-! ## First kind -/

/-- Real coefficients of the first kind. -/
noncomputable def fejerC (n j : Nat) : ℝ := if j < n - n / 2 then 2 / (1 - (2 * (j : ℝ)) ^ 2) else 0

/-- The complex array before folding. -/
noncomputable def fejerW (n : Nat) : List ℂ :=
  (List.range (n - n / 2)).map (fun (k : Nat) => 2 * Complex.exp (Complex.I * Real.pi * k / n) / (1 - 4 * (k : ℂ) ^ 2)) ++
    List.replicate (n / 2 + 1) 0

theorem fejerW_length (n : Nat) : (fejerW n).length = n + 1 := by
  simp [fejerW]
  omega

theorem fejerW_getD (n j : Nat) : (fejerW n).getD j 0 =
    (fejerC n j : ℂ) * Complex.exp ((j * Real.pi / n : ℝ) * Complex.I) := by
  rw [fejerC]
  simp only [fejerW, List.getD_eq_getElem?_getD, List.getElem?_append, List.length_map, List.length_range]
  split_ifs with h
  · simp only [List.getElem?_map, List.getElem?_range h, Option.map_some, Option.getD_some]
    push_cast
    have e : Complex.I * Real.pi * j / n = j * Real.pi / n * Complex.I := by ring
    rw [e]
    ring
  · rw [List.getElem?_replicate]
    split_ifs <;> simp

/-- The folded array of the first kind. -/
noncomputable def fejerV1 (n : Nat) : List ℂ :=
  List.zipWith (fun a b => a + (starRingEnd ℂ) b) (fejerW n).dropLast (sliceBack (fejerW n))

theorem fejerV1_length (n : Nat) : (fejerV1 n).length = n := by
  simp [fejerV1, sliceBack, fejerW_length]

theorem fejerV1_getD (n j : Nat) (hj : j < n) : (fejerV1 n).getD j 0 =
    (fejerW n).getD j 0 + (starRingEnd ℂ) ((fejerW n).getD (n - j) 0) := by
  have hl := fejerW_length n
  simp only [List.getD_eq_getElem?_getD]
  rw [List.getElem?_eq_getElem (by rw [fejerV1_length]; omega), List.getElem?_eq_getElem (by omega),
    List.getElem?_eq_getElem (by omega)]
  simp only [Option.getD_some, fejerV1, sliceBack, List.getElem_zipWith, List.getElem_dropLast, List.getElem_reverse,
    List.getElem_tail, List.length_tail, hl]
  have e : n + 1 - 1 - 1 - j + 1 = n - j := by omega
  simp only [e]

theorem fejerC_end {n : Nat} (hn : 1 ≤ n) : fejerC n n = 0 := by
  rw [fejerC, if_neg (by omega)]

theorem fejerC_zero {n : Nat} (hn : 1 ≤ n) : fejerC n 0 = 2 := by
  rw [fejerC, if_pos (by omega)]
  norm_num

/-- The weights of the first kind. -/
noncomputable def fejerW1 (n k : Nat) : ℝ :=
  1 / (n : ℝ) * (2 * ∑ j ∈ range n, fejerC n j * Real.cos (2 * j * ((k + 0.5) * Real.pi / n)) - 2)

theorem make_fejer1_ok {n : Nat} (hn : 1 ≤ n) : makeFejer1 n =
    .ok ((List.range n).map fun (k : Nat) => Real.cos ((k + 0.5) * Real.pi / n),
      (List.range n).map (fejerW1 n)) := by
  have hl := arange_length hn
  have hn' : (n : ℝ) ≠ 0 := by positivity
  have him : ∀ z ∈ ifft (fejerV1 n), z.im = 0 := by
    apply ifft_im
    · rw [fejerV1_getD n 0 (by omega), Nat.sub_zero, fejerW_getD, fejerW_getD, fejerC_end hn, fejerC_zero hn]
      simp
    · intro j h1 h2
      rw [fejerV1_length] at h2 ⊢
      rw [fejerV1_getD n j h2, fejerV1_getD n (n - j) (by omega), show n - (n - j) = j by omega, map_add,
        Complex.conj_conj, add_comm]
  have hre : (ifft (fejerV1 n)).map Complex.re = (List.range n).map (fejerW1 n) := by
    apply list_getD_of (by simp [ifft_length, fejerV1_length])
    intro k hk
    rw [ifft_re _ k (by rwa [fejerV1_length]), fejerV1_length, fejerW1]
    congr 1
    have hterm : ∀ j ∈ range n, ((fejerV1 n).getD j 0 * Complex.exp (2 * Real.pi * Complex.I * j * k / n)).re =
        fejerC n j * Real.cos (2 * j * ((k + 0.5) * Real.pi / n)) +
          fejerC n (n - j) * Real.cos (2 * ((n - j : Nat) : ℝ) * ((k + 0.5) * Real.pi / n)) := by
      intro j hj
      have hj' := mem_range.1 hj
      have hone : ∀ i : Nat, ((fejerW n).getD i 0 * Complex.exp (2 * Real.pi * Complex.I * i * k / n)).re =
          fejerC n i * Real.cos (2 * i * ((k + 0.5) * Real.pi / n)) := by
        intro i
        rw [fejerW_getD, exp_eq, mul_assoc, ← Complex.exp_add, ← add_mul, ← Complex.ofReal_add,
          Complex.re_ofReal_mul, Complex.exp_ofReal_mul_I_re]
        congr 2
        ring
      rw [fejerV1_getD n j hj', add_mul, Complex.add_re, hone j]
      congr 1
      rw [← hone (n - j)]
      have hx := exp_reflect (n := n) (by omega) (n - j) k (by omega)
      rw [show n - (n - j) = j by omega] at hx
      rw [hx, ← map_mul, Complex.conj_re]
    rw [sum_congr rfl hterm, sum_add_distrib]
    set F : Nat → ℝ := fun j => fejerC n j * Real.cos (2 * j * ((k + 0.5) * Real.pi / n)) with hF
    have e2 : ∑ j ∈ range n, fejerC n (n - j) * Real.cos (2 * ((n - j : Nat) : ℝ) * ((k + 0.5) * Real.pi / n)) =
        ∑ j ∈ range n, F (j + 1) := by
      rw [← sum_range_reflect]
      apply sum_congr rfl
      intro j hj
      have := mem_range.1 hj
      have e : n - (n - 1 - j) = j + 1 := by omega
      simp only [hF, e]
    have s1 := sum_range_succ F n
    have s2 := sum_range_succ' F n
    have f0 : F 0 = 2 := by simp [hF, fejerC_zero hn]
    have fn : F n = 0 := by simp [hF, fejerC_end hn]
    rw [e2]
    show ∑ j ∈ range n, F j + _ = 2 * ∑ j ∈ range n, F j - 2
    linarith
  rw [makeFejer1, if_neg (by omega)]
  simp only [hl]
  have e := assertReal_ok _ him
  rw [fejerV1, fejerW] at e
  rw [e]
  simp only
  congr 2

theorem cos_mid_small {n : Nat} (hn : 1 ≤ n) (q : ℤ) (h1 : -(2 * (n : ℤ)) < q) (h2 : q < 2 * n) :
    ∑ k ∈ range n, Real.cos (q * ((k + 0.5) * Real.pi / n)) = if q = 0 then (n : ℝ) else 0 := by
  split_ifs with h
  · subst h; simp
  · rw [show (0.5 : ℝ) = 1 / 2 by norm_num]
    apply cos_mid_sum (by omega)
    rintro ⟨t, ht⟩
    have b1 : -1 < t := by
      by_contra hc
      push Not at hc
      nlinarith
    have b2 : t < 1 := by
      by_contra hc
      push Not at hc
      nlinarith
    have : t = 0 := by omega
    subst this
    omega

theorem fejer1_sum {n : Nat} (hn : 1 ≤ n) (l : Nat) (hl : l ≤ n - 1) :
    ∑ k ∈ range n, fejerW1 n k * Real.cos (l * ((k + 0.5) * Real.pi / n)) =
      if l % 2 = 0 then 2 / (1 - (l : ℝ) ^ 2) else 0 := by
  have hn' : (n : ℝ) ≠ 0 := by positivity
  have hswap : ∑ k ∈ range n, fejerW1 n k * Real.cos (l * ((k + 0.5) * Real.pi / n)) =
      1 / n * (2 * ∑ j ∈ range n, fejerC n j * ∑ k ∈ range n,
        Real.cos (2 * j * ((k + 0.5) * Real.pi / n)) * Real.cos (l * ((k + 0.5) * Real.pi / n)) -
        2 * ∑ k ∈ range n, Real.cos (l * ((k + 0.5) * Real.pi / n))) := by
    simp only [fejerW1, mul_sum, sum_mul, mul_sub, sub_mul, sum_sub_distrib]
    congr 1
    · rw [sum_comm]
      apply sum_congr rfl
      intro j _
      apply sum_congr rfl
      intro k _
      ring
    · apply sum_congr rfl
      intro k _
      ring
  have hin : ∀ j ∈ range n, fejerC n j * ∑ k ∈ range n,
        Real.cos (2 * j * ((k + 0.5) * Real.pi / n)) * Real.cos (l * ((k + 0.5) * Real.pi / n)) =
      fejerC n j * (1 / 2 * ((if 2 * j + l = 0 then (n : ℝ) else 0) + (if 2 * j = l then (n : ℝ) else 0))) := by
    intro j hj
    by_cases hm : j < n - n / 2
    · congr 1
      have h1 := cos_mid_small hn (2 * (j : ℤ) + l) (by omega) (by omega)
      have h2 := cos_mid_small hn (2 * (j : ℤ) - l) (by omega) (by omega)
      have hprod : ∀ k ∈ range n, Real.cos (2 * j * ((k + 0.5) * Real.pi / n)) * Real.cos (l * ((k + 0.5) * Real.pi / n)) =
          1 / 2 * (Real.cos (((2 * (j : ℤ) + l : ℤ) : ℝ) * ((k + 0.5) * Real.pi / n)) +
            Real.cos (((2 * (j : ℤ) - l : ℤ) : ℝ) * ((k + 0.5) * Real.pi / n))) := by
        intro k _
        push_cast
        generalize ((k : ℝ) + 0.5) * Real.pi / n = θ
        rw [add_mul, sub_mul, Real.cos_add, Real.cos_sub]
        ring
      rw [sum_congr rfl hprod, ← mul_sum, sum_add_distrib, h1, h2]
      congr 2
      · refine if_congr ?_ rfl rfl
        omega
      · refine if_congr ?_ rfl rfl
        omega
    · rw [fejerC, if_neg hm, zero_mul, zero_mul]
  have hl0 := cos_mid_small hn (l : ℤ) (by omega) (by omega)
  rw [Int.cast_natCast] at hl0
  rw [hswap, hl0, sum_congr rfl hin]
  split_ifs with h0 hpar hpar
  · have : l = 0 := by exact_mod_cast h0
    subst this
    have e : ∀ j ∈ range n, fejerC n j * (1 / 2 * ((if 2 * j + 0 = 0 then (n : ℝ) else 0) +
        (if 2 * j = 0 then (n : ℝ) else 0))) = if j = 0 then 2 * (n : ℝ) else 0 := by
      intro j _
      by_cases hj : j = 0
      · subst hj; simp [fejerC_zero hn]; ring
      · rw [if_neg (by omega), if_neg (by omega), if_neg hj]; ring
    rw [sum_congr rfl e, sum_ite_eq', if_pos (mem_range.2 (by omega))]
    field_simp
    norm_num
  · omega
  · have hlne : l ≠ 0 := by rintro rfl; simp at h0
    have e : ∀ j ∈ range n, fejerC n j * (1 / 2 * ((if 2 * j + l = 0 then (n : ℝ) else 0) +
        (if 2 * j = l then (n : ℝ) else 0))) = if j = l / 2 then fejerC n (l / 2) * (n / 2) else 0 := by
      intro j _
      rw [if_neg (by omega)]
      by_cases hj : j = l / 2
      · subst hj
        rw [if_pos (by omega), if_pos rfl]; ring
      · rw [if_neg (by omega), if_neg hj]; ring
    rw [sum_congr rfl e, sum_ite_eq', if_pos (mem_range.2 (by omega)), fejerC, if_pos (by omega)]
    have e2 : (l : ℝ) = 2 * (l / 2 : Nat) := by exact_mod_cast (by omega : l = 2 * (l / 2))
    rw [← e2]
    field_simp
    ring
  · have e : ∀ j ∈ range n, fejerC n j * (1 / 2 * ((if 2 * j + l = 0 then (n : ℝ) else 0) +
        (if 2 * j = l then (n : ℝ) else 0))) = 0 := by
      intro j _
      rw [if_neg (by omega), if_neg (by omega)]; ring
    rw [sum_congr rfl e]
    simp

theorem fejerW1_pos {n : Nat} (hn : 1 ≤ n) (k : Nat) : 0 < fejerW1 n k := by
  have hn' : (0 : ℝ) < n := by exact_mod_cast hn
  rw [fejerW1]
  refine mul_pos (by positivity) ?_
  obtain ⟨t, rfl⟩ : ∃ t, n = t + 1 := ⟨n - 1, by omega⟩
  rw [sum_range_succ', fejerC_zero hn]
  simp only [Nat.cast_zero, mul_zero, zero_mul, Real.cos_zero, mul_one]
  have hge : ∑ j ∈ range t, fejerC (t + 1) (j + 1) ≤ ∑ j ∈ range t, fejerC (t + 1) (j + 1) *
      Real.cos (2 * ((j + 1 : Nat) : ℝ) * ((k + 0.5) * Real.pi / ((t + 1 : Nat) : ℝ))) := by
    apply sum_le_sum
    intro j _
    have hC : fejerC (t + 1) (j + 1) ≤ 0 := by
      rw [fejerC]
      split_ifs
      · have : (1 : ℝ) ≤ (j + 1 : Nat) := by exact_mod_cast (by omega : 1 ≤ j + 1)
        exact div_nonpos_of_nonneg_of_nonpos (by norm_num) (by nlinarith)
      · exact le_refl _
    have := Real.cos_le_one (2 * ((j + 1 : Nat) : ℝ) * ((k + 0.5) * Real.pi / ((t + 1 : Nat) : ℝ)))
    nlinarith
  have hsum : ∀ s : Nat, -1 + 1 / (2 * (s : ℝ) + 1) ≤ ∑ j ∈ range s, fejerC (t + 1) (j + 1) := by
    intro s
    induction s with
    | zero => norm_num
    | succ s ih =>
      rw [sum_range_succ]
      have h1 : -(2 / ((2 * (s : ℝ) + 1) * (2 * s + 3))) ≤ fejerC (t + 1) (s + 1) := by
        rw [fejerC]
        have e : (1 - (2 * ((s + 1 : Nat) : ℝ)) ^ 2) = -((2 * (s : ℝ) + 1) * (2 * s + 3)) := by push_cast; ring
        split_ifs
        · rw [e, div_neg]
        · have : 0 < 2 / ((2 * (s : ℝ) + 1) * (2 * s + 3)) := by positivity
          linarith
      have h2 : 1 / (2 * ((s + 1 : Nat) : ℝ) + 1) = 1 / (2 * (s : ℝ) + 1) - 2 / ((2 * (s : ℝ) + 1) * (2 * s + 3)) := by
        have p1 : 2 * (s : ℝ) + 1 ≠ 0 := by positivity
        have p2 : 2 * (s : ℝ) + 3 ≠ 0 := by positivity
        have e : 2 * ((s + 1 : Nat) : ℝ) + 1 = 2 * s + 3 := by push_cast; ring
        rw [e]
        field_simp
        ring
      linarith
  have h := hsum t
  have : 0 < 1 / (2 * (t : ℝ) + 1) := by positivity
  linarith

/-- **C31, first kind.**  For every `N ≥ 1`, `FejerQuadrature(N, kind=1)` has `N` nodes, the roots of the
Chebyshev polynomial `T_N`, and integrates every polynomial of degree at most `N - 1` exactly (it is
interpolatory); the weights are positive. -/
theorem C31_first (N : Nat) (hN : 1 ≤ N) (fd : Bool) :
    ∃ q, fejerQuadrature N 1 fd = .ok q ∧ ExactOn (N - 1) (-1) 1 q.call ∧
      q.nodes.shape = (if fd then [1, N] else [N]) ∧ q.weights.shape = [N] ∧
      (∀ k < N, 0 < q.weights.get [k]) ∧
      (∀ k < N, q.node k = [Real.cos ((k + 0.5) * Real.pi / N)]) ∧
      (∀ k < N, ∃ t, q.node k = [t] ∧ -1 < t ∧ t < 1 ∧ (T ℝ (N : ℕ)).eval t = 0) := by
  have hq : fejerQuadrature N 1 fd = .ok ⟨if fd then (NdArray.ofList ((List.range N).map
        fun (k : Nat) => Real.cos ((k + 0.5) * Real.pi / N))).addDimAxis
      else NdArray.ofList ((List.range N).map fun (k : Nat) => Real.cos ((k + 0.5) * Real.pi / N)),
      NdArray.ofList ((List.range N).map (fejerW1 N)), none, none⟩ := by
    rw [fejerQuadrature]
    simp only [if_true, make_fejer1_ok hN]
  have hN0 : (0 : ℝ) < N := by exact_mod_cast hN
  have hpi := Real.pi_pos
  refine ⟨_, hq, ?_, ?_, ?_, ?_, ?_, ?_⟩
  · intro p hp
    rw [call_ofList _ _ _ _ (by simp)]
    simp only [List.length_map, List.length_range]
    have e : ∀ k ∈ range N, ((List.range N).map (fejerW1 N)).getD k 0 *
        p.eval ([((List.range N).map fun (k : Nat) => Real.cos ((k + 0.5) * Real.pi / N)).getD k 0].headD 0) =
        fejerW1 N k * p.eval (Real.cos ((k + 0.5) * Real.pi / N)) := by
      intro k hk
      rw [getD_map_range _ _ (mem_range.1 hk), getD_map_range _ _ (mem_range.1 hk), List.headD_cons]
    rw [sum_congr rfl e]
    exact exactOn_of_cos (N - 1) N (fun k => (k + 0.5) * Real.pi / N) (fejerW1 N)
      (fun l hl => fejer1_sum hN l hl) p hp
  · cases fd <;> simp [NdArray.ofList, NdArray.addDimAxis]
  · simp [NdArray.ofList]
  · intro k hk
    have hw : (NdArray.ofList ((List.range N).map (fejerW1 N))).get [k] = fejerW1 N k := getD_map_range _ k hk
    simp only [hw]
    exact fejerW1_pos hN k
  · intro k hk
    exact node_ofList N (fun (k : Nat) => Real.cos ((k + 0.5) * Real.pi / N)) fd _ _ k hk
  · intro k hk
    have a1 : 0 < ((k : ℝ) + 0.5) * Real.pi / N := by positivity
    have a2 : ((k : ℝ) + 0.5) * Real.pi / N < Real.pi := by
      rw [div_lt_iff₀ hN0, mul_comm]
      have : (k : ℝ) + 1 ≤ N := by exact_mod_cast hk
      have : (k : ℝ) + 0.5 < N := by norm_num at this ⊢; linarith
      nlinarith
    refine ⟨_, node_ofList N (fun (k : Nat) => Real.cos ((k + 0.5) * Real.pi / N)) fd _ _ k hk, ?_, ?_, ?_⟩
    · rw [← Real.cos_pi]
      exact Real.cos_lt_cos_of_nonneg_of_le_pi a1.le (le_refl _) a2
    · rw [← Real.cos_zero]
      exact Real.cos_lt_cos_of_nonneg_of_le_pi (le_refl _) a2.le a1
    · rw [T_real_cos]
      have e : (((N : ℕ) : ℤ) : ℝ) * (((k : ℝ) + 0.5) * Real.pi / N) = k * Real.pi + Real.pi / 2 := by
        rw [Int.cast_natCast]
        field_simp
        ring
      rw [e, Real.cos_add_pi_div_two, Real.sin_nat_mul_pi, neg_zero]

/-- Rejected arguments. -/
theorem C31_rejects (fd : Bool) :
    fejerQuadrature 0 1 fd = .error .ValueError ∧ fejerQuadrature 0 2 fd = .error .ValueError ∧
    fejerQuadrature 1 2 fd = .error .ValueError ∧
    ∀ (N : Nat) (kind : Int), kind ≠ 1 → kind ≠ 2 → fejerQuadrature N kind fd = .error .ValueError := by
  refine ⟨by simp [fejerQuadrature, makeFejer1], by simp [fejerQuadrature, makeFejer2],
    by simp [fejerQuadrature, makeFejer2], ?_⟩
  intro N kind h1 h2
  simp [fejerQuadrature, h1, h2]

/-- The constructor passes no `exact_to`: reading the attribute of a Fejér rule always fails, although a
degree of exactness is known (`C31_first`, `C31_second`).  The clause on `exact_to` in C31 is therefore
false of the code. -/
theorem C31_exact_to_missing_partial (N : Nat) (kind : Int) (fd : Bool) (q : Quadrature)
    (h : fejerQuadrature N kind fd = .ok q) : q.getExactTo = .error .AttributeError := by
  rw [fejerQuadrature] at h
  have key : ∀ xw : Py (List ℝ × List ℝ), (match xw with
      | .error e => .error e
      | .ok (x, w) =>
        let x := NdArray.ofList x
        let x := if fd then x.addDimAxis else x
        .ok ⟨x, NdArray.ofList w, none, none⟩ : Py Quadrature) = .ok q → q.exactTo = none := by
    rintro (e | ⟨x, w⟩) h
    · cases h
    · simp only [Except.ok.injEq] at h
      rw [← h]
  rw [Quadrature.getExactTo, key _ h]

/-- An instance: the rules of order 3 integrate `1 + t` (degree 1) to `2`. -/
example : (∃ q, fejerQuadrature 3 1 true = .ok q ∧ q.call (fun x => 1 + x.headD 0) = 2) ∧
    ∃ q, fejerQuadrature 3 2 true = .ok q ∧ q.call (fun x => 1 + x.headD 0) = 2 := by
  have hI : ∫ t in (-1 : ℝ)..1, (1 + X : ℝ[X]).eval t = 2 := by
    simp only [eval_add, eval_one, eval_X]
    rw [intervalIntegral.integral_add (by simp) (by simp)]
    simp
    norm_num
  have hd : (1 + X : ℝ[X]).natDegree ≤ 1 := by
    refine (natDegree_add_le _ _).trans ?_
    simp
  obtain ⟨q, hq, hex, -⟩ := C31_first 3 (by norm_num) true
  obtain ⟨q', hq', hex', -⟩ := C31_second 3 (by norm_num) true
  refine ⟨⟨q, hq, ?_⟩, ⟨q', hq', ?_⟩⟩
  · have := hex (1 + X) (by omega)
    rw [hI] at this
    simpa using this
  · have := hex' (1 + X) (by omega)
    rw [hI] at this
    simpa using this

end Modepy

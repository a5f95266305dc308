import Verif.Proofs.ClenshawCurtis

/-!
# Properties C30 and C31: Clenshaw–Curtis and Fejér quadrature
-/

namespace Modepy
open Spec Polynomial Polynomial.Chebyshev Finset

/-! ## Entries of the arrays -/

theorem arange_length {n : Nat} (hn : 1 ≤ n) : (npArange 1 n 2).length = n / 2 := by
  simp [npArange]
  omega

/-- Entries of `np.concatenate([2 / N / (N - 2), 1 / N[-1:], np.zeros(m)])`. -/
noncomputable def ccW0 (n k : Nat) : ℝ :=
  if k < n / 2 then 2 / (2 * k + 1) / (2 * k - 1) else if k = n / 2 then 1 / (2 * (n / 2 : Nat) - 1) else 0

theorem arange_map {n : Nat} (hn : 1 ≤ n) :
    npArange 1 n 2 = (List.range (n / 2)).map fun k => 1 + 2 * k := by
  have : (n - 1 + (2 - 1)) / 2 = n / 2 := by omega
  rw [npArange, this]

theorem ccConcat_length {n : Nat} (hn : 2 ≤ n) : (ccConcat (npArange 1 n 2) (n - n / 2)).length = n + 1 := by
  have h := arange_length (n := n) (by omega)
  simp only [ccConcat, List.length_append, List.length_map, List.length_drop, List.length_replicate, h]
  omega

theorem ccConcat_getD {n : Nat} (hn : 2 ≤ n) (k : Nat) :
    (ccConcat (npArange 1 n 2) (n - n / 2)).getD k 0 = ccW0 n k := by
  have hr : 1 ≤ n / 2 := by omega
  rw [arange_map (by omega)]
  have hdrop : ((List.range (n / 2)).map fun k => 1 + 2 * k).drop
      (((List.range (n / 2)).map fun k => 1 + 2 * k).length - 1) = [1 + 2 * (n / 2 - 1)] := by
    apply List.ext_getElem
    · simp; omega
    · intro i h1 h2
      simp at h2
      subst h2
      simp
  rw [ccConcat, hdrop, ccW0]
  simp only [List.getD_eq_getElem?_getD, List.getElem?_append, List.length_map, List.length_range,
    List.length_append, List.map_cons, List.map_nil, List.length_cons, List.length_nil, zero_add]
  rcases Nat.lt_trichotomy k (n / 2) with h | h | h
  · rw [if_pos (by omega), if_pos h, if_pos h]
    simp only [List.getElem?_map, List.getElem?_range h, Option.map_some, Option.getD_some]
    push_cast
    congr 1
    · congr 1; ring
    · ring
  · rw [if_pos (by omega), if_neg (by omega), if_neg (by omega), if_pos h]
    have : k - n / 2 = 0 := by omega
    simp only [this, List.getElem?_cons_zero, Option.getD_some]
    have e : ((1 + 2 * (n / 2 - 1) : Nat) : ℝ) = 2 * (n / 2 : Nat) - 1 := by
      rw [Nat.cast_add, Nat.cast_mul, Nat.cast_sub hr]; push_cast; ring
    rw [e]
  · rw [if_neg (by omega), if_neg (by omega), if_neg (by omega), List.getElem?_replicate]
    split_ifs <;> rfl

theorem ccFold_length {n : Nat} (hn : 2 ≤ n) : (ccFold (ccConcat (npArange 1 n 2) (n - n / 2))).length = n := by
  simp [ccFold, sliceBack, ccConcat_length hn]

theorem ccFold_getD {n : Nat} (hn : 2 ≤ n) (k : Nat) (hk : k < n) :
    (ccFold (ccConcat (npArange 1 n 2) (n - n / 2))).getD k 0 = - ccW0 n k - ccW0 n (n - k) := by
  have hl := ccConcat_length hn
  have h1 := ccConcat_getD hn k
  have h2 := ccConcat_getD hn (n - k)
  rw [List.getD_eq_getElem?_getD, List.getElem?_eq_getElem (by omega), Option.getD_some] at h1 h2
  rw [List.getD_eq_getElem?_getD, List.getElem?_eq_getElem (by rw [ccFold_length hn]; omega), Option.getD_some]
  simp only [ccFold, sliceBack, List.getElem_zipWith, List.getElem_dropLast, List.getElem_reverse,
    List.getElem_tail, List.length_tail, hl]
  have e : n + 1 - 1 - 1 - k + 1 = n - k := by omega
  simp only [e, h1, h2]
  ring

theorem ccG_length (n r m : Nat) : (ccG n r m).length = n := by simp [ccG, addAt]

theorem ccG_getD (n r m : Nat) (k : Nat) (hk : k < n) : (ccG n r m).getD k 0 =
    (-1 + (if k = r then (n : ℝ) else 0) + (if k = m then (n : ℝ) else 0)) / ((n : ℝ) ^ 2 - 1 + (n % 2 : Nat)) := by
  simp only [ccG, addAt, List.getD_eq_getElem?_getD, List.getElem?_map]
  by_cases h1 : k = m <;> by_cases h2 : k = r
  · subst h1; subst h2
    simp [hk]
  · subst h1
    simp [hk, h2, List.getElem?_set, Ne.symm h2]
  · subst h2
    simp [hk, h1, List.getElem?_set, Ne.symm h1]
  · simp [hk, h1, h2, List.getElem?_set, Ne.symm h1, Ne.symm h2]

/-! ## Sums of the sequences -/

theorem sum_ccW0_lt (r : Nat) : ∑ k ∈ range r, 2 / (2 * (k : ℝ) + 1) / (2 * k - 1) = -1 - 1 / (2 * r - 1) := by
  induction r with
  | zero => norm_num
  | succ r ih =>
    rw [sum_range_succ, ih]
    have h1 : 2 * (r : ℝ) - 1 ≠ 0 := by
      intro h
      have : 2 * r = 1 := by
        have : 2 * (r : ℝ) = 1 := by linarith
        exact_mod_cast this
      omega
    have h2 : 2 * (r : ℝ) + 1 ≠ 0 := by positivity
    have h3 : 2 * ((r + 1 : Nat) : ℝ) - 1 = 2 * r + 1 := by push_cast; ring
    rw [h3]
    field_simp
    ring

theorem sum_ccW0 {n : Nat} (hn : 2 ≤ n) : ∑ k ∈ range n, ccW0 n k = -1 := by
  have h : ∑ k ∈ range n, ccW0 n k = ∑ k ∈ range (n / 2 + 1), ccW0 n k := by
    symm
    apply sum_subset
    · intro k hk
      have := mem_range.1 hk
      exact mem_range.2 (by omega)
    · intro k _ hk
      have : ¬ k < n / 2 + 1 := fun h => hk (mem_range.2 h)
      rw [ccW0, if_neg (by omega), if_neg (by omega)]
  rw [h, sum_range_succ]
  have e : ∑ k ∈ range (n / 2), ccW0 n k = ∑ k ∈ range (n / 2), 2 / (2 * (k : ℝ) + 1) / (2 * k - 1) := by
    apply sum_congr rfl
    intro k hk
    rw [ccW0, if_pos (mem_range.1 hk)]
  rw [e, sum_ccW0_lt, ccW0, if_neg (by omega), if_pos rfl]
  ring

/-- Fejér's sequence of the second kind. -/
noncomputable def fejerV (n k : Nat) : ℝ := - ccW0 n k - ccW0 n (n - k)

theorem fejerV_symm (n j : Nat) (hj : j < n) : fejerV n (n - j) = fejerV n j := by
  rw [fejerV, fejerV, show n - (n - j) = j by omega]
  ring

theorem sum_fejerV {n : Nat} (hn : 2 ≤ n) : ∑ k ∈ range n, fejerV n k = 0 := by
  have h1 := sum_ccW0 hn
  have h2 : ∑ k ∈ range n, ccW0 n (n - k) = 1 := by
    have hr := sum_range_reflect (fun k => ccW0 n (k + 1)) n
    have e : ∑ k ∈ range n, ccW0 n (n - k) = ∑ k ∈ range n, ccW0 n (n - 1 - k + 1) := by
      apply sum_congr rfl
      intro k hk
      have := mem_range.1 hk
      congr 1
      omega
    rw [e, hr]
    have s1 := sum_range_succ' (ccW0 n) n
    have s2 := sum_range_succ (ccW0 n) n
    have z1 : ccW0 n 0 = -2 := by
      rw [ccW0, if_pos (by omega)]; norm_num
    have z2 : ccW0 n n = 0 := by
      rw [ccW0, if_neg (by omega), if_neg (by omega)]
    rw [z1] at s1
    rw [z2, h1] at s2
    linarith
  have : ∀ k ∈ range n, fejerV n k = -(ccW0 n k + ccW0 n (n - k)) := by
    intro k _; rw [fejerV]; ring
  rw [sum_congr rfl this, sum_neg_distrib, sum_add_distrib, h1, h2]
  ring

theorem fejerV_lt {n : Nat} (hn : 2 ≤ n) (k : Nat) (hk : k < n / 2) : fejerV n k = 2 / (1 - (2 * (k : ℝ)) ^ 2) := by
  rw [fejerV, ccW0, if_pos hk, ccW0, if_neg (by omega), if_neg (by omega), sub_zero, div_div, ← div_neg]
  congr 1
  ring

theorem fejerV_neg {n : Nat} (hn : 2 ≤ n) (k : Nat) (h0 : 0 < k) (hk : k < n) : fejerV n k ≤ 0 := by
  have hW : ∀ j, 0 < j → 0 ≤ ccW0 n j := by
    intro j hj
    have : (1 : ℝ) ≤ j := by exact_mod_cast hj
    rw [ccW0]
    split_ifs with h1 h2
    · exact div_nonneg (by positivity) (by linarith)
    · have : (1 : ℝ) ≤ (n / 2 : Nat) := by exact_mod_cast (by omega : 1 ≤ n / 2)
      exact div_nonneg (by norm_num) (by linarith)
    · exact le_refl _
  rw [fejerV]
  have := hW k h0
  have := hW (n - k) (by omega)
  linarith

theorem fejerV_one_neg {n : Nat} (hn : 2 ≤ n) : fejerV n 1 < 0 := by
  have hW : 0 < ccW0 n 1 := by
    rw [ccW0]
    split_ifs with h1 h2
    · norm_num
    · rw [← h2]; norm_num
    · omega
  have hW' : 0 ≤ ccW0 n (n - 1) := by
    have : (1 : ℝ) ≤ (n - 1 : Nat) := by exact_mod_cast (by omega : 1 ≤ n - 1)
    rw [ccW0]
    split_ifs with h1 h2
    · exact div_nonneg (by positivity) (by linarith)
    · have : (1 : ℝ) ≤ (n / 2 : Nat) := by exact_mod_cast (by omega : 1 ≤ n / 2)
      exact div_nonneg (by norm_num) (by linarith)
    · exact le_refl _
  rw [fejerV]
  linarith

/-- The denominator `n² - 1 + n mod 2`. -/
noncomputable def ccD (n : Nat) : ℝ := (n : ℝ) ^ 2 - 1 + (n % 2 : Nat)

theorem ccD_pos {n : Nat} (hn : 2 ≤ n) : 0 < ccD n := by
  have : (2 : ℝ) ≤ n := by exact_mod_cast hn
  have h : (0 : ℝ) ≤ (n % 2 : Nat) := by positivity
  rw [ccD]
  nlinarith

/-- The Clenshaw–Curtis sequence. -/
noncomputable def ccV (n k : Nat) : ℝ :=
  fejerV n k + (-1 + (if k = n / 2 then (n : ℝ) else 0) + (if k = n - n / 2 then (n : ℝ) else 0)) / ccD n

theorem ccV_symm (n j : Nat) (hn : 2 ≤ n) (h0 : 0 < j) (hj : j < n) : ccV n (n - j) = ccV n j := by
  rw [ccV, ccV, fejerV_symm n j hj]
  have e1 : (n - j = n / 2) ↔ (j = n - n / 2) := by omega
  have e2 : (n - j = n - n / 2) ↔ (j = n / 2) := by omega
  simp only [e1, e2]
  ring

theorem sum_ccV {n : Nat} (hn : 2 ≤ n) : ∑ k ∈ range n, ccV n k = n / ccD n := by
  simp only [ccV, sum_add_distrib, sum_fejerV hn, ← sum_div, sum_ite_eq', sum_const, card_range]
  rw [if_pos (mem_range.2 (by omega)), if_pos (mem_range.2 (by omega))]
  simp

/-- The defining property of the sequence: `V_p + w_0 = ∫ T_{2p}`. -/
theorem ccV_value {n : Nat} (hn : 2 ≤ n) (p : Nat) (hp : p ≤ n / 2) :
    ccV n p + 1 / ccD n = 2 / (1 - (2 * (p : ℝ)) ^ 2) := by
  have hD := (ccD_pos hn).ne'
  rcases Nat.lt_or_eq_of_le hp with h | h
  · rw [ccV, fejerV_lt hn p h, if_neg (by omega), if_neg (by omega)]
    ring
  · subst h
    rw [ccV, fejerV, if_pos rfl]
    rcases Nat.even_or_odd n with he | ho
    · obtain ⟨t, ht⟩ := he
      have e1 : n / 2 = t := by omega
      have e2 : n - t = t := by omega
      rw [e1, if_pos e2.symm, e2, ccW0, if_neg (by omega), if_pos e1.symm, e1]
      have h3 : (n : ℝ) = 2 * t := by rw [ht]; push_cast; ring
      have h4 : n % 2 = 0 := by omega
      have ht1 : (1 : ℝ) ≤ t := by exact_mod_cast (by omega : 1 ≤ t)
      have d1 : 2 * (t : ℝ) - 1 ≠ 0 := by linarith
      have d2 : 2 * (t : ℝ) + 1 ≠ 0 := by positivity
      have hDe : ccD n = (2 * t - 1) * (2 * t + 1) := by rw [ccD, h3, h4]; push_cast; ring
      have hR : 1 - (2 * (t : ℝ)) ^ 2 = -((2 * t - 1) * (2 * t + 1)) := by ring
      rw [hDe, hR, h3]
      field_simp
      ring
    · obtain ⟨t, ht⟩ := ho
      have e1 : n / 2 = t := by omega
      have e2 : n - t = t + 1 := by omega
      rw [e1, e2, if_neg (by omega), ccW0, if_neg (by omega), if_pos e1.symm, e1, ccW0, if_neg (by omega),
        if_neg (by omega)]
      have h3 : (n : ℝ) = 2 * t + 1 := by rw [ht]; push_cast; ring
      have h4 : n % 2 = 1 := by omega
      have ht1 : (1 : ℝ) ≤ t := by exact_mod_cast (by omega : 1 ≤ t)
      have d1 : 2 * (t : ℝ) - 1 ≠ 0 := by linarith
      have d2 : 2 * (t : ℝ) + 1 ≠ 0 := by positivity
      have hDe : ccD n = (2 * t + 1) ^ 2 := by rw [ccD, h3, h4]; push_cast; ring
      have hR : 1 - (2 * (t : ℝ)) ^ 2 = -((2 * t - 1) * (2 * t + 1)) := by ring
      rw [hDe, hR, h3]
      field_simp
      ring

theorem ccV_neg {n : Nat} (hn : 2 ≤ n) (k : Nat) (h0 : 0 < k) (hk : k < n) : ccV n k < 0 := by
  have key : ∀ p, 0 < p → p ≤ n / 2 → ccV n p < 0 := by
    intro p h0 hp
    have := ccV_value hn p hp
    have hD := ccD_pos hn
    have h1 : (1 : ℝ) ≤ p := by exact_mod_cast h0
    have : 2 / (1 - (2 * (p : ℝ)) ^ 2) < 0 := div_neg_of_pos_of_neg (by norm_num) (by nlinarith)
    have : 0 < 1 / ccD n := by positivity
    linarith
  rcases Nat.le_total k (n / 2) with h | h
  · exact key k h0 h
  · rcases Nat.lt_or_ge k (n - n / 2 + 1) with h' | h'
    · by_cases hkn : n - k ≤ n / 2
      · rw [← ccV_symm n k hn h0 hk]
        exact key _ (by omega) hkn
      · exact key k h0 (by omega)
    · rw [← ccV_symm n k hn h0 hk]
      exact key _ (by omega) (by omega)

/-! ## Clenshaw–Curtis -/

/-- The weight at `cos(kπ/n)` computed from a sequence. -/
noncomputable def seqWeight (n : Nat) (V : Nat → ℝ) (k : Nat) : ℝ :=
  1 / (n : ℝ) * ∑ j ∈ range n, V j * Real.cos (2 * j * (k * Real.pi / n))

theorem seqWeight_zero (n : Nat) (V : Nat → ℝ) : seqWeight n V 0 = 1 / n * ∑ j ∈ range n, V j := by
  simp [seqWeight]

theorem seqWeight_end {n : Nat} (hn : 0 < n) (V : Nat → ℝ) : seqWeight n V n = seqWeight n V 0 := by
  rw [seqWeight_zero, seqWeight]
  congr 1
  apply sum_congr rfl
  intro j _
  have hn' : (n : ℝ) ≠ 0 := by positivity
  have : 2 * (j : ℝ) * (n * Real.pi / n) = (j : ℝ) * (2 * Real.pi) := by field_simp
  rw [this, Real.cos_nat_mul_two_pi, mul_one]

/-- Lower bound for the weights when all entries but the first are negative. -/
theorem seqWeight_ge {n : Nat} (hn : 0 < n) (V : Nat → ℝ) (hV : ∀ j, 0 < j → j < n → V j ≤ 0) (k : Nat) :
    seqWeight n V 0 ≤ seqWeight n V k := by
  rw [seqWeight_zero, seqWeight]
  apply mul_le_mul_of_nonneg_left _ (by positivity)
  apply sum_le_sum
  intro j hj
  rcases Nat.eq_zero_or_pos j with h | h
  · subst h; simp
  · have := hV j h (mem_range.1 hj)
    have := Real.cos_le_one (2 * j * (k * Real.pi / n))
    nlinarith

theorem list_getD_of {l : List ℝ} {n : Nat} (h : l.length = n) {f : Nat → ℝ} (hf : ∀ k < n, l.getD k 0 = f k) :
    l = (List.range n).map f := by
  apply List.ext_getElem
  · simp [h]
  · intro i h1 h2
    have := hf i (by omega)
    rw [List.getD_eq_getElem?_getD, List.getElem?_eq_getElem h1, Option.getD_some] at this
    simp [this]

theorem getD_map_range {n : Nat} (f : Nat → ℝ) (k : Nat) (hk : k < n) : ((List.range n).map f).getD k 0 = f k := by
  simp [List.getD_eq_getElem?_getD, hk]

/-- The result of the inverse transform of a real symmetric sequence. -/
theorem ifft_seq {n : Nat} (V : Nat → ℝ) (hV : ∀ j, 0 < j → j < n → V (n - j) = V j) :
    (∀ z ∈ ifft (((List.range n).map V).map fun z : ℝ => (z : ℂ)), z.im = 0) ∧
    (ifft (((List.range n).map V).map fun z : ℝ => (z : ℂ))).map Complex.re =
      (List.range n).map (seqWeight n V) := by
  constructor
  · apply ifft_im
    · rw [getD_ofReal]; exact Complex.ofReal_im _
    · intro j h1 h2
      simp only [List.length_map, List.length_range] at h2 ⊢
      rw [getD_ofReal, getD_ofReal, getD_map_range _ _ (by omega), getD_map_range _ _ (by omega), hV j h1 h2]
      exact (Complex.conj_ofReal _).symm
  · apply list_getD_of (by simp [ifft_length])
    intro k hk
    rw [ifft_re_real _ k (by simpa using hk)]
    simp only [List.length_map, List.length_range]
    rw [seqWeight]
    congr 1
    apply sum_congr rfl
    intro j hj
    rw [getD_map_range _ _ (mem_range.1 hj)]

theorem make_cc_ok {n : Nat} (hn : 2 ≤ n) : makeClenshawCurtis n =
    .ok ((List.range (n + 1)).map fun (k : Nat) => Real.cos (k * Real.pi / n),
      (List.range (n + 1)).map (seqWeight n (ccV n))) := by
  have hl := arange_length (n := n) (by omega)
  have hv : List.zipWith (· + ·) (ccFold (ccConcat (npArange 1 n 2) (n - n / 2))) (ccG n (n / 2) (n - n / 2)) =
      (List.range n).map (ccV n) := by
    apply list_getD_of (by simp [ccFold_length hn, ccG_length])
    intro k hk
    have h1 := ccFold_getD hn k hk
    have h2 := ccG_getD n (n / 2) (n - n / 2) k hk
    simp only [List.getD_eq_getElem?_getD] at h1 h2 ⊢
    rw [List.getElem?_eq_getElem (by rw [ccFold_length hn]; omega), Option.getD_some] at h1
    rw [List.getElem?_eq_getElem (by rw [ccG_length]; omega), Option.getD_some] at h2
    rw [List.getElem?_eq_getElem (by simp [ccFold_length hn, ccG_length, hk]), Option.getD_some,
      List.getElem_zipWith, h1, h2, ccV, fejerV, ccD]
  obtain ⟨him, hre⟩ := ifft_seq (n := n) (ccV n) fun j h1 h2 => ccV_symm n j hn h1 h2
  rw [makeClenshawCurtis, if_neg (by omega), if_neg (by omega)]
  simp only [hl, hv]
  rw [assertReal_ok _ him, hre]
  simp only
  congr 2
  rw [List.range_succ, List.map_append]
  congr 1
  rw [List.map_singleton, seqWeight_end (by omega)]
  obtain ⟨t, rfl⟩ : ∃ t, n = t + 1 := ⟨n - 1, by omega⟩
  simp [List.range_succ_eq_map]

theorem cc_eq {n : Nat} (hn : 2 ≤ n) (fd : Bool) : clenshawCurtisQuadrature n fd =
    .ok ⟨if fd then (NdArray.ofList ((List.range (n + 1)).map fun (k : Nat) => Real.cos (k * Real.pi / n))).addDimAxis
        else NdArray.ofList ((List.range (n + 1)).map fun (k : Nat) => Real.cos (k * Real.pi / n)),
      NdArray.ofList ((List.range (n + 1)).map (seqWeight n (ccV n))), some (.num n), none⟩ := by
  rw [clenshawCurtisQuadrature, make_cc_ok hn]

/-- **C30.**  For every `N ≥ 1`, `ClenshawCurtisQuadrature(N)` has `N + 1` nodes including both end points,
integrates all polynomials of degree at most `exact_to = N` exactly, and its weights are positive. -/
theorem C30_exact (N : Nat) (hN : 1 ≤ N) (fd : Bool) :
    ∃ q, clenshawCurtisQuadrature N fd = .ok q ∧ q.getExactTo = .ok (.num N) ∧ ExactOn N (-1) 1 q.call ∧
      q.nodes.shape = (if fd then [1, N + 1] else [N + 1]) ∧ q.weights.shape = [N + 1] ∧
      (∀ k ≤ N, 0 < q.weights.get [k]) ∧
      (∀ k ≤ N, ∃ t, q.node k = [t] ∧ -1 ≤ t ∧ t ≤ 1) ∧
      (∃ k ≤ N, q.node k = [-1]) ∧ (∃ k ≤ N, q.node k = [1]) := by
  rcases Nat.lt_or_eq_of_le hN with hn | hn
  · have hn : 2 ≤ N := hn
    have hN0 : (N : ℝ) ≠ 0 := by positivity
    have hnode : ∀ (w : NdArray ℝ) (e : Option PyVal), ∀ k ≤ N, Quadrature.node
        ⟨if fd then (NdArray.ofList ((List.range (N + 1)).map fun (k : Nat) => Real.cos (k * Real.pi / N))).addDimAxis
        else NdArray.ofList ((List.range (N + 1)).map fun (k : Nat) => Real.cos (k * Real.pi / N)), w, e, none⟩ k =
        [Real.cos (k * Real.pi / N)] := by
      intro w e k hk
      have h := getD_map_range (n := N + 1) (fun (k : Nat) => Real.cos (k * Real.pi / N)) k (by omega)
      cases fd <;> simp only [Quadrature.node, NdArray.ofList, NdArray.addDimAxis, if_true, if_false,
        List.length_cons, List.length_nil, Bool.false_eq_true] <;> simpa using h
    refine ⟨_, cc_eq hn fd, rfl, ?_, ?_, ?_, ?_, ?_, ?_, ?_⟩
    · intro p hp
      rw [call_ofList _ _ _ _ (by simp)]
      simp only [List.length_map, List.length_range]
      have e : ∀ k ∈ range (N + 1), ((List.range (N + 1)).map (seqWeight N (ccV N))).getD k 0 *
          p.eval ([((List.range (N + 1)).map fun (k : Nat) => Real.cos (k * Real.pi / N)).getD k 0].headD 0) =
          seqWeight N (ccV N) k * p.eval (Real.cos (k * Real.pi / N)) := by
        intro k hk
        rw [getD_map_range _ _ (mem_range.1 hk), getD_map_range _ _ (mem_range.1 hk), List.headD_cons]
      rw [sum_congr rfl e]
      refine exactOn_of_cos N (N + 1) (fun k => k * Real.pi / N) (seqWeight N (ccV N)) ?_ p hp
      intro l hl
      have := cc_rule (n := N) (by omega) (ccV N) (fun j h1 h2 => ccV_symm N j hn h1 h2) l (by omega)
      rw [show (∑ k ∈ range (N + 1), seqWeight N (ccV N) k * Real.cos (l * (k * Real.pi / N))) = _ from this]
      split_ifs with hpar
      · rw [sum_ccV hn]
        have hD := (ccD_pos hn).ne'
        have e1 : 1 / (N : ℝ) * (N / ccD N) = 1 / ccD N := by field_simp
        have e2 : (l : ℝ) = 2 * (l / 2 : Nat) := by exact_mod_cast (by omega : l = 2 * (l / 2))
        rw [e1, ccV_value hn _ (by omega), ← e2]
      · rfl
    · cases fd <;> simp [NdArray.ofList, NdArray.addDimAxis]
    · simp [NdArray.ofList]
    · intro k hk
      have hw : (NdArray.ofList ((List.range (N + 1)).map (seqWeight N (ccV N)))).get [k] = seqWeight N (ccV N) k :=
        getD_map_range _ k (by omega)
      simp only [hw]
      refine lt_of_lt_of_le ?_ (seqWeight_ge (by omega) (ccV N) (fun j h1 h2 => (ccV_neg hn j h1 h2).le) k)
      rw [seqWeight_zero, sum_ccV hn]
      have := ccD_pos hn
      positivity
    · intro k hk
      exact ⟨_, hnode _ _ k hk, Real.neg_one_le_cos _, Real.cos_le_one _⟩
    · refine ⟨N, le_refl _, ?_⟩
      rw [hnode _ _ N (le_refl _), mul_comm, mul_div_assoc, div_self hN0, mul_one, Real.cos_pi]
    · refine ⟨0, Nat.zero_le _, ?_⟩
      rw [hnode _ _ 0 (Nat.zero_le _)]
      simp
  · subst hn
    have hq : clenshawCurtisQuadrature 1 fd = .ok ⟨if fd then (NdArray.ofList [-1, 1]).addDimAxis
        else NdArray.ofList [-1, 1], NdArray.ofList [1, 1], some (.num 1), none⟩ := by
      rw [clenshawCurtisQuadrature, makeClenshawCurtis, if_neg (by omega), if_pos rfl]
      simp
    refine ⟨_, hq, by simp [Quadrature.getExactTo], ?_, ?_, rfl, ?_, ?_, ?_, ?_⟩
    · intro p hp
      rw [call_ofList [-1, 1] [1, 1] _ fd rfl]
      have hp' := Polynomial.eq_X_add_C_of_natDegree_le_one hp
      rw [hp']
      simp only [List.length_cons, List.length_nil, sum_range_succ, sum_range_zero]
      simp only [eval_add, eval_mul, eval_C, eval_X]
      rw [intervalIntegral.integral_add, intervalIntegral.integral_const_mul]
      · simp
        ring
      · exact (continuous_const.mul continuous_id).intervalIntegrable _ _
      · exact continuous_const.intervalIntegrable _ _
    · cases fd <;> rfl
    · intro k hk
      have : k = 0 ∨ k = 1 := by omega
      rcases this with rfl | rfl <;> simp [NdArray.ofList]
    · intro k hk
      have : k = 0 ∨ k = 1 := by omega
      rcases this with rfl | rfl
      · exact ⟨-1, by cases fd <;> simp [Quadrature.node, NdArray.ofList, NdArray.addDimAxis], by norm_num, by norm_num⟩
      · exact ⟨1, by cases fd <;> simp [Quadrature.node, NdArray.ofList, NdArray.addDimAxis], by norm_num, by norm_num⟩
    · exact ⟨0, by omega, by cases fd <;> simp [Quadrature.node, NdArray.ofList, NdArray.addDimAxis]⟩
    · exact ⟨1, by omega, by cases fd <;> simp [Quadrature.node, NdArray.ofList, NdArray.addDimAxis]⟩

/-- Order zero is rejected. -/
theorem C30_rejects (fd : Bool) : clenshawCurtisQuadrature 0 fd = .error .ValueError := by
  simp [clenshawCurtisQuadrature, makeClenshawCurtis]

/-- An instance: Simpson's rule is `N = 2`; it integrates `t²` to `2/3`. -/
example : ∃ q, clenshawCurtisQuadrature 2 true = .ok q ∧ q.call (fun x => x.headD 0 ^ 2) = 2 / 3 := by
  obtain ⟨q, hq, -, hex, -⟩ := C30_exact 2 (by norm_num) true
  refine ⟨q, hq, ?_⟩
  have := hex (X ^ 2) (by simp)
  simp only [eval_pow, eval_X] at this
  rw [this, integral_pow]
  norm_num

end Modepy

import Verif.Proofs.Continuant

/-!
# Laurie's algorithm

For any sequence of positive coefficients computed by the two phases in `kronrod`, the leading and the trailing `n × n`
blocks of the Jacobi-Kronrod matrix have the same characteristic polynomial.
-/

namespace Modepy
open Polynomial

/-! ## Mixed moments -/

/-- Coefficients of the leading polynomials in the basis of the trailing ones. -/
def mixC (B : Nat → ℝ) (n : Nat) : Nat → Nat → ℝ
  | 0, k => if k = 0 then 1 else 0
  | 1, k => if k = 1 then 1 else 0
  | l + 2, k => (if k = 0 then 0 else mixC B n (l + 1) (k - 1)) + B (n + 2 + k) * mixC B n (l + 1) (k + 1) -
      B (l + 1) * mixC B n l k

theorem mixC_zero (B : Nat → ℝ) (n k : Nat) : mixC B n 0 k = if k = 0 then 1 else 0 := by rw [mixC]
theorem mixC_one (B : Nat → ℝ) (n k : Nat) : mixC B n 1 k = if k = 1 then 1 else 0 := by rw [mixC]
theorem mixC_add_two (B : Nat → ℝ) (n l k : Nat) : mixC B n (l + 2) k =
    (if k = 0 then 0 else mixC B n (l + 1) (k - 1)) + B (n + 2 + k) * mixC B n (l + 1) (k + 1) -
      B (l + 1) * mixC B n l k := by rw [mixC]

theorem mixC_facts (B : Nat → ℝ) (n l : Nat) : (∀ k, l < k → mixC B n l k = 0) ∧ mixC B n l l = 1 ∧
    ∀ k, (l + k) % 2 = 1 → mixC B n l k = 0 := by
  induction l using Nat.strong_induction_on with
  | _ l ih =>
    match l with
    | 0 =>
      refine ⟨fun k hk => ?_, ?_, fun k hk => ?_⟩
      · rw [mixC_zero, if_neg (by omega)]
      · rw [mixC_zero, if_pos rfl]
      · rw [mixC_zero, if_neg (by omega)]
    | 1 =>
      refine ⟨fun k hk => ?_, ?_, fun k hk => ?_⟩
      · rw [mixC_one, if_neg (by omega)]
      · rw [mixC_one, if_pos rfl]
      · rw [mixC_one, if_neg (by omega)]
    | l + 2 =>
      obtain ⟨a1, b1, c1⟩ := ih (l + 1) (by omega)
      obtain ⟨a0, b0, c0⟩ := ih l (by omega)
      refine ⟨fun k hk => ?_, ?_, fun k hk => ?_⟩
      · rw [mixC_add_two, if_neg (by omega), a1 _ (by omega), a1 _ (by omega), a0 _ (by omega)]
        ring
      · rw [mixC_add_two, if_neg (by omega), a1 (l + 2 + 1) (by omega), a0 _ (by omega), show l + 2 - 1 = l + 1 by omega, b1]
        ring
      · rw [mixC_add_two, c1 (k + 1) (by omega), c0 k (by omega)]
        by_cases h : k = 0
        · rw [if_pos h]; ring
        · rw [if_neg h, c1 (k - 1) (by omega)]; ring

/-- The trailing polynomials satisfy their recurrence. -/
theorem X_mul_cont (γ : Nat → ℝ) (k : Nat) :
    X * cont γ k = cont γ (k + 1) + (if k = 0 then 0 else C (γ (k - 1)) * cont γ (k - 1)) := by
  cases k with
  | zero => simp
  | succ k =>
    rw [if_neg (by omega), Nat.add_sub_cancel, cont_add_two]
    ring

/-- The leading polynomial in the basis of the trailing ones. -/
theorem cont_expand (B : Nat → ℝ) (n l : Nat) :
    cont (fun i => B (i + 1)) l =
      ∑ k ∈ Finset.range (l + 1), C (mixC B n l k) * cont (fun i => B (n + 2 + i)) k := by
  set q := cont (fun i => B (n + 2 + i)) with hq
  induction l using Nat.strong_induction_on with
  | _ l ih =>
    match l with
    | 0 => simp [mixC_zero, hq]
    | 1 => simp [mixC_one, hq]
    | l + 2 =>
      have a1 := (mixC_facts B n (l + 1)).1
      have a0 := (mixC_facts B n l).1
      rw [cont_add_two, ih (l + 1) (by omega), ih l (by omega), Finset.mul_sum]
      have e1 : ∀ k, X * (C (mixC B n (l + 1) k) * q k) = C (mixC B n (l + 1) k) * q (k + 1) +
          C (if k = 0 then 0 else B (n + 1 + k) * mixC B n (l + 1) k) * q (k - 1) := by
        intro k
        have := X_mul_cont (fun i => B (n + 2 + i)) k
        rw [← hq] at this
        by_cases h : k = 0
        · subst h
          rw [if_pos rfl] at this
          rw [if_pos rfl]
          simp only [map_zero]
          linear_combination C (mixC B n (l + 1) 0) * this
        · rw [if_neg h, show n + 2 + (k - 1) = n + 1 + k by omega] at this
          rw [if_neg h, C_mul]
          linear_combination C (mixC B n (l + 1) k) * this
      simp only [e1, Finset.sum_add_distrib]
      have s1 : ∑ k ∈ Finset.range (l + 1 + 1), C (mixC B n (l + 1) k) * q (k + 1) =
          ∑ k ∈ Finset.range (l + 2 + 1), C (if k = 0 then 0 else mixC B n (l + 1) (k - 1)) * q k := by
        rw [Finset.sum_range_succ' _ (l + 2)]
        simp
      have s2 : ∑ k ∈ Finset.range (l + 1 + 1), C (if k = 0 then 0 else B (n + 1 + k) * mixC B n (l + 1) k) * q (k - 1) =
          ∑ k ∈ Finset.range (l + 2 + 1), C (B (n + 2 + k) * mixC B n (l + 1) (k + 1)) * q k := by
        rw [Finset.sum_range_succ' _ (l + 1), Finset.sum_range_succ _ (l + 2), Finset.sum_range_succ _ (l + 1),
          a1 (l + 2 + 1) (by omega), a1 (l + 1 + 1) (by omega)]
        simp only [Nat.add_eq_zero_iff, one_ne_zero, and_false, if_false, Nat.add_sub_cancel, if_true, map_zero, zero_mul,
          mul_zero, add_zero]
        apply Finset.sum_congr rfl
        intro k _
        rw [show n + 1 + (k + 1) = n + 2 + k by ring]
      have s3 : ∑ k ∈ Finset.range (l + 1), C (mixC B n l k) * q k =
          ∑ k ∈ Finset.range (l + 2 + 1), C (mixC B n l k) * q k := by
        rw [Finset.sum_range_succ _ (l + 2), Finset.sum_range_succ _ (l + 1), a0 _ (by omega), a0 _ (by omega)]
        simp
      rw [s1, s2, s3, Finset.mul_sum, ← Finset.sum_add_distrib, ← Finset.sum_sub_distrib]
      apply Finset.sum_congr rfl
      intro k _
      rw [mixC_add_two]
      simp only [map_add, map_sub, map_mul]
      ring

/-- Squared norms of the trailing polynomials. -/
noncomputable def mixH (B : Nat → ℝ) (n k : Nat) : ℝ := ∏ i ∈ Finset.range (k + 1), B (n + 1 + i)

/-- Mixed moments `σ_{k,l}`. -/
noncomputable def mixS (B : Nat → ℝ) (n k l : Nat) : ℝ := mixH B n k * mixC B n l k

/-- `σ_{k-1,l}`, zero for `k = 0`. -/
noncomputable def mixT (B : Nat → ℝ) (n k l : Nat) : ℝ := if k = 0 then 0 else mixS B n (k - 1) l

theorem mixH_succ (B : Nat → ℝ) (n k : Nat) : mixH B n (k + 1) = mixH B n k * B (n + 1 + (k + 1)) := by
  rw [mixH, Finset.prod_range_succ, mixH]

theorem mixT_succ (B : Nat → ℝ) (n k l : Nat) : mixT B n (k + 1) l = mixS B n k l := by simp [mixT]

/-- The recurrence of the mixed moments. -/
theorem mixS_rec (B : Nat → ℝ) (n k l : Nat) :
    mixS B n k (l + 2) = mixS B n (k + 1) (l + 1) + B (n + 1 + k) * mixT B n k (l + 1) - B (l + 1) * mixS B n k l := by
  have h1 := mixH_succ B n k
  rw [show n + 1 + (k + 1) = n + 2 + k by ring] at h1
  simp only [mixS, mixT, mixC_add_two]
  cases k with
  | zero =>
    simp only [if_true]
    rw [h1]
    ring
  | succ k =>
    have h2 := mixH_succ B n k
    simp only [Nat.add_eq_zero_iff, one_ne_zero, and_false, if_false, Nat.add_sub_cancel]
    rw [h1, h2]
    ring

theorem mixS_one (B : Nat → ℝ) (n k : Nat) :
    mixS B n k 1 = mixS B n (k + 1) 0 + B (n + 1 + k) * mixT B n k 0 := by
  simp only [mixS, mixT, mixC_zero, mixC_one]
  match k with
  | 0 => simp
  | 1 =>
    have := mixH_succ B n 0
    simp only [Nat.add_eq_zero_iff, one_ne_zero, and_false, if_false, if_true, Nat.sub_self]
    rw [show (0 + 1) = 1 by rfl] at this
    rw [this]
    ring
  | k + 2 => simp

theorem mixS_gt (B : Nat → ℝ) (n k l : Nat) (h : l < k) : mixS B n k l = 0 := by
  rw [mixS, (mixC_facts B n l).1 k h, mul_zero]

theorem mixS_odd (B : Nat → ℝ) (n k l : Nat) (h : (l + k) % 2 = 1) : mixS B n k l = 0 := by
  rw [mixS, (mixC_facts B n l).2.2 k h, mul_zero]

theorem mixS_diag (B : Nat → ℝ) (n k : Nat) : mixS B n k k = mixH B n k := by
  rw [mixS, (mixC_facts B n k).2.1, mul_one]

/-! ## Phase one -/

/-- Row `k` of antidiagonal `e - 1`. -/
noncomputable def antiRow (B : Nat → ℝ) (n e k : Nat) : ℝ := if k + 1 ≤ e then mixS B n k (e - 1 - k) else 0

theorem antiRow_zero (B : Nat → ℝ) (n e k : Nat) (h : e ≤ 2 * k) : antiRow B n e k = 0 := by
  rw [antiRow]
  split_ifs with h1
  · exact mixS_gt B n _ _ (by omega)
  · rfl

theorem antiRow_rec (B : Nat → ℝ) (n m k : Nat) (hk : k ≤ m) :
    antiRow B n (m + 2) k = antiRow B n (m + 2) (k + 1) +
      (B (k + n + 1) * (if k = 0 then 0 else antiRow B n m (k - 1)) - B (m - k) * antiRow B n m k) := by
  obtain ⟨l, rfl⟩ : ∃ l, m = k + l := ⟨m - k, by omega⟩
  simp only [antiRow]
  rw [if_pos (by omega), if_pos (by omega), show k + l + 2 - 1 - k = l + 1 by omega,
    show k + l + 2 - 1 - (k + 1) = l by omega, show k + l - k = l by omega]
  have e1 : (if k = 0 then 0 else if k - 1 + 1 ≤ k + l then mixS B n (k - 1) (k + l - 1 - (k - 1)) else 0) =
      mixT B n k l := by
    rw [mixT]
    by_cases h : k = 0
    · rw [if_pos h, if_pos h]
    · rw [if_neg h, if_neg h, if_pos (by omega), show k + l - 1 - (k - 1) = l by omega]
  rw [e1, show k + n + 1 = n + 1 + k by ring]
  cases l with
  | zero =>
    rw [if_neg (by omega), mul_zero, sub_zero]
    exact mixS_one B n k
  | succ l =>
    rw [if_pos (by omega), show k + (l + 1) - 1 - k = l by omega, mixS_rec]
    ring

/-- The array holding row `k` at index `k + 1`. -/
noncomputable def antiArr (B : Nat → ℝ) (n e : Nat) : Nat → ℝ := fun i => if i = 0 then 0 else antiRow B n e (i - 1)

theorem phase1_inner (B b : Nat → ℝ) (n m K : Nat) (hK : K ≤ m + 1) (h2 : m + 2 ≤ 2 * K)
    (hb : ∀ i, i ≤ m ∨ i ≤ K + n → b i = B i) (j : Nat) (hj : j ≤ K) :
    (List.range' j (K - j)).reverse.foldl (lauriePhase1Inner b n m) (0, antiArr B n m) =
      (antiRow B n (m + 2) j, fun i => if j + 1 ≤ i ∧ i ≤ K then antiRow B n (m + 2) (i - 1) else antiArr B n m i) := by
  obtain ⟨d, rfl⟩ : ∃ d, K = j + d := ⟨K - j, by omega⟩
  rw [Nat.add_sub_cancel_left]
  induction d generalizing j with
  | zero =>
    simp only [List.range'_zero, List.reverse_nil, List.foldl_nil, Nat.add_zero]
    rw [antiRow_zero B n _ _ (by omega)]
    congr 1
    funext i
    rw [if_neg (by omega)]
  | succ d ih =>
    have ih := ih (j + 1) (by omega) (by omega) (fun i hi => hb i (by omega)) (by omega)
    rw [List.range'_succ, List.reverse_cons, List.foldl_append, ih]
    simp only [List.foldl_cons, List.foldl_nil, lauriePhase1Inner]
    have hu : antiRow B n (m + 2) (j + 1) + (b (j + n + 1) *
        (if j + 1 + 1 ≤ j ∧ j ≤ j + 1 + d then antiRow B n (m + 2) (j - 1) else antiArr B n m j) -
        b (m - j + 1 - 1) *
        (if j + 1 + 1 ≤ j + 1 ∧ j + 1 ≤ j + 1 + d then antiRow B n (m + 2) (j + 1 - 1) else antiArr B n m (j + 1))) =
        antiRow B n (m + 2) j := by
      rw [if_neg (by omega), if_neg (by omega), hb (j + n + 1) (by omega), hb (m - j + 1 - 1) (by omega),
        antiRow_rec B n m j (by omega), Nat.add_sub_cancel]
      simp only [antiArr, Nat.add_eq_zero_iff, one_ne_zero, and_false, if_false, Nat.add_sub_cancel]
    rw [hu]
    congr 1
    funext i
    by_cases h : i = j + 1
    · subst h
      rw [Function.update_self, if_pos (by omega), Nat.add_sub_cancel]
    · rw [Function.update_of_ne h]
      by_cases h3 : j + 1 + 1 ≤ i ∧ i ≤ j + 1 + d
      · rw [if_pos h3, if_pos (by omega)]
      · rw [if_neg h3, if_neg (by omega)]

theorem phase1_step (B b : Nat → ℝ) (n m : Nat) (hm : m + 2 ≤ n) (hb : ∀ i, i ≤ (3 * n + 1) / 2 → b i = B i) :
    lauriePhase1Step b n (antiArr B n m, antiArr B n (m + 1)) m = (antiArr B n (m + 1), antiArr B n (m + 2)) := by
  have h := phase1_inner B b n m ((m + 1) / 2 + 1) (by omega) (by omega) (fun i hi => hb i (by omega)) 0 (by omega)
  rw [Nat.sub_zero, ← List.range_eq_range'] at h
  simp only [lauriePhase1Step, h]
  congr 1
  funext i
  simp only [antiArr]
  by_cases h0 : i = 0
  · subst h0
    simp
  · rw [if_neg h0, if_neg h0]
    by_cases h1 : i ≤ (m + 1) / 2 + 1
    · rw [if_pos (by omega)]
    · rw [if_neg (by omega), antiRow_zero B n _ _ (by omega), antiRow_zero B n _ _ (by omega)]

theorem phase1 (B b : Nat → ℝ) (n : Nat) (hb : ∀ i, i ≤ (3 * n + 1) / 2 → b i = B i) (r : Nat) (hr : r + 1 ≤ n) :
    (List.range r).foldl (lauriePhase1Step b n) (fun _ => 0, Function.update (fun _ => 0) 1 (b (n + 1))) =
      (antiArr B n r, antiArr B n (r + 1)) := by
  induction r with
  | zero =>
    simp only [List.range_zero, List.foldl_nil]
    congr 1
    · funext i
      simp only [antiArr]
      split_ifs
      · rfl
      · rw [antiRow_zero B n _ _ (by omega)]
    · funext i
      simp only [antiArr]
      by_cases h0 : i = 1
      · subst h0
        rw [Function.update_self, hb _ (by omega)]
        simp [antiRow, mixS, mixH, mixC_zero]
      · rw [Function.update_of_ne h0]
        split_ifs
        · rfl
        · rw [antiRow_zero B n _ _ (by omega)]
  | succ r ih =>
    rw [List.range_succ, List.foldl_append, ih (by omega)]
    exact phase1_step B b n r (by omega) hb

/-! ## The shift -/

theorem shift_fold (s : Nat → ℝ) (K j : Nat) (hj : j ≤ K) :
    (List.range' j (K - j)).reverse.foldl (fun s j => Function.update s (j + 1) (s j)) s =
      fun i => if j + 1 ≤ i ∧ i ≤ K then s (i - 1) else s i := by
  obtain ⟨d, rfl⟩ : ∃ d, K = j + d := ⟨K - j, by omega⟩
  rw [Nat.add_sub_cancel_left]
  induction d generalizing j with
  | zero =>
    funext i
    simp only [List.range'_zero, List.reverse_nil, List.foldl_nil]
    rw [if_neg (by omega)]
  | succ d ih =>
    rw [List.range'_succ, List.reverse_cons, List.foldl_append, ih (j + 1) (by omega)]
    simp only [List.foldl_cons, List.foldl_nil]
    funext i
    by_cases h : i = j + 1
    · subst h
      rw [Function.update_self, if_neg (by omega), if_pos (by omega), Nat.add_sub_cancel]
    · rw [Function.update_of_ne h]
      by_cases h3 : j + 1 + 1 ≤ i ∧ i ≤ j + 1 + d
      · rw [if_pos h3, if_pos (by omega)]
      · rw [if_neg h3, if_neg (by omega)]

theorem laurieShift_eq (n : Nat) (s : Nat → ℝ) :
    laurieShift n s = fun i => if 1 ≤ i ∧ i ≤ n / 2 + 1 then s (i - 1) else s i := by
  have := shift_fold s (n / 2 + 1) 0 (by omega)
  rw [Nat.sub_zero, ← List.range_eq_range'] at this
  exact this

/-! ## Phase two -/

theorem phase2_inner (B b s : Nat → ℝ) (n d : Nat) (hd : d + 2 ≤ n)
    (hb : ∀ i, i < (n + d + 1) / 2 + n + 1 → b i = B i)
    (hs : ∀ i, 1 ≤ i → 2 * i + d ≤ n + 2 → s i = mixT B n (d + i - 1) (n - i)) (r : Nat) (hr : 2 * r + d ≤ n) :
    (List.range' d r).foldl (lauriePhase2Inner b n (n - 1 + d)) (0, s) =
      (mixS B n (d + r) (n - r) - mixS B n d n,
        fun i => if 1 ≤ i ∧ i ≤ r then mixS B n (d + i) (n - i) - mixS B n d n else s i) := by
  induction r with
  | zero =>
    simp only [List.range'_zero, List.foldl_nil, Nat.add_zero, Nat.sub_zero, sub_self]
    congr 1
    funext i
    rw [if_neg (by omega)]
  | succ r ih =>
    rw [List.range'_1_concat, List.foldl_append, ih (by omega)]
    simp only [List.foldl_cons, List.foldl_nil, lauriePhase2Inner]
    have e1 : n - (n - 1 + d - (d + r) + 1) = r := by omega
    have e2 : n - 1 + d - (d + r) + 1 - 1 = n - 1 - r := by omega
    rw [e1, e2, if_neg (by omega), if_neg (by omega), hb _ (by omega), hb _ (by omega), hs (r + 1) (by omega) (by omega),
      hs (r + 2) (by omega) (by omega)]
    have hu : mixS B n (d + r) (n - r) - mixS B n d n - (B (d + r + n + 1) * mixT B n (d + (r + 1) - 1) (n - (r + 1)) -
        B (n - 1 - r) * mixT B n (d + (r + 2) - 1) (n - (r + 2))) =
        mixS B n (d + (r + 1)) (n - (r + 1)) - mixS B n d n := by
      obtain ⟨l, hl⟩ : ∃ l, n = l + 2 + r := ⟨n - 2 - r, by omega⟩
      have := mixS_rec B n (d + r) l
      rw [show n - r = l + 2 by omega, show n - (r + 1) = l + 1 by omega, show n - (r + 2) = l by omega,
        show n - 1 - r = l + 1 by omega, show d + (r + 1) - 1 = d + r by omega, show d + (r + 2) - 1 = d + r + 1 by omega,
        mixT_succ, show d + r + n + 1 = n + 1 + (d + r) by ring, show d + (r + 1) = d + r + 1 by ring]
      linarith
    rw [hu]
    congr 1
    funext i
    by_cases h : i = r + 1
    · subst h
      rw [Function.update_self, if_pos (by omega)]
    · rw [Function.update_of_ne h]
      by_cases h3 : 1 ≤ i ∧ i ≤ r
      · rw [if_pos h3, if_pos (by omega)]
      · rw [if_neg h3, if_neg (by omega)]

/-- Later steps change no coefficient of low index. -/
theorem phase2_stable (n : Nat) (st : LaurieState) (m len : Nat) :
    ∀ i, i < (m + 2) / 2 + n + 1 → ((List.range' m len).foldl (lauriePhase2Step n) st).b i = st.b i := by
  induction len generalizing m st with
  | zero => intro i _; rfl
  | succ len ih =>
    intro i hi
    rw [List.range'_succ, List.foldl_cons, ih _ _ i (by omega)]
    simp only [lauriePhase2Step]
    split_ifs with h
    · rw [Function.update_of_ne (by omega)]
    · rfl

/-- The invariant of the second phase before step `d` (`m = n - 1 + d`). -/
structure Phase2Inv (B : Nat → ℝ) (n d : Nat) (st : LaurieState) : Prop where
  s_eq : ∀ i, 1 ≤ i → 2 * i + d ≤ n + 2 → st.s i = mixT B n (d + i - 1) (n - i)
  t_eq : ∀ i, 1 ≤ i → 2 * i + d ≤ n + 1 → st.t i = mixT B n (d + i) (n - i)
  zero : ∀ k < d, mixS B n k n = 0

theorem phase2_step (B : Nat → ℝ) (n d : Nat) (hd : d + 2 ≤ n) (st : LaurieState) (h : Phase2Inv B n d st)
    (hb : ∀ i, i < (n + d + 1) / 2 + n + 1 → st.b i = B i)
    (hb' : ∀ i, i < (n + d + 2) / 2 + n + 1 → (lauriePhase2Step n st (n - 1 + d)).b i = B i)
    (hpos : ∀ k < n, mixH B n k ≠ 0) : Phase2Inv B n (d + 1) (lauriePhase2Step n st (n - 1 + d)) := by
  have e0 : n - 1 + d + 1 - n = d := by omega
  have e1 : (n - 1 + d - 1) / 2 + 1 - d = (n - d) / 2 := by omega
  have hin := phase2_inner B st.b st.s n d hd hb h.s_eq ((n - d) / 2) (by omega)
  have hstep : lauriePhase2Step n st (n - 1 + d) =
      ⟨if 2 * ((n - 1 + d + 1) / 2) ≠ n - 1 + d then
        Function.update st.b ((n - 1 + d + 1) / 2 + n + 1)
          ((fun i => if 1 ≤ i ∧ i ≤ (n - d) / 2 then mixS B n (d + i) (n - i) - mixS B n d n else st.s i)
              (n - (n - 1 + d - (n - 1 + d + 1) / 2 + 2) + 1) /
            (fun i => if 1 ≤ i ∧ i ≤ (n - d) / 2 then mixS B n (d + i) (n - i) - mixS B n d n else st.s i)
              (n - (n - 1 + d - (n - 1 + d + 1) / 2 + 2) + 2))
        else st.b, st.t,
        fun i => if 1 ≤ i ∧ i ≤ (n - d) / 2 then mixS B n (d + i) (n - i) - mixS B n d n else st.s i⟩ := by
    rw [lauriePhase2Step, e0, e1, hin]
  -- the moment assumed to vanish does
  have hzero : mixS B n d n = 0 := by
    by_cases hpar : (n + d) % 2 = 1
    · exact mixS_odd B n d n hpar
    · obtain ⟨R, hR⟩ : ∃ R, n = d + 2 * R := ⟨(n - d) / 2, by omega⟩
      have hlast := hb' ((n - 1 + d + 1) / 2 + n + 1) (by omega)
      rw [hstep] at hlast
      simp only at hlast
      rw [if_pos (by omega), Function.update_self, show n - (n - 1 + d - (n - 1 + d + 1) / 2 + 2) + 1 = R by omega,
        show n - (n - 1 + d - (n - 1 + d + 1) / 2 + 2) + 2 = R + 1 by omega, if_pos (by omega), if_neg (by omega),
        h.s_eq (R + 1) (by omega) (by omega)] at hlast
      have hK : n - R = d + R := by omega
      rw [hK, show n - (R + 1) = d + R - 1 by omega, show d + (R + 1) - 1 = d + R - 1 + 1 by omega, mixT_succ, mixS_diag,
        mixS_diag, show (n - 1 + d + 1) / 2 + n + 1 = n + 1 + (d + R - 1 + 1) by omega] at hlast
      have hH := mixH_succ B n (d + R - 1)
      rw [show d + R - 1 + 1 = d + R by omega] at hH hlast
      have hne := hpos (d + R - 1) (by omega)
      rw [div_eq_iff hne] at hlast
      rw [hH] at hlast
      linarith
  rw [hstep]
  refine ⟨?_, ?_, ?_⟩
  · intro i h1 h2
    simp only
    rw [h.t_eq i h1 (by omega), show d + 1 + i - 1 = d + i by omega]
  · intro i h1 h2
    simp only
    rw [if_pos (by omega), hzero, sub_zero, show d + 1 + i = d + i + 1 by ring, mixT_succ]
  · intro k hk
    rcases Nat.lt_succ_iff_lt_or_eq.1 hk with h3 | h3
    · exact h.zero k h3
    · rw [h3]; exact hzero

/-- **Laurie's theorem for the code.**  If the computed coefficients `b[1..2n]` are positive, the leading block
(off-diagonal squares `b[1..n-1]`) and the trailing block (`b[n+2..2n]`) have the same characteristic polynomial. -/
theorem laurie_blocks (n : Nat) (hn : 1 ≤ n) (hpos : ∀ j, 1 ≤ j → j ≤ 2 * n → 0 < laurieCoefficients n j) :
    cont (fun i => laurieCoefficients n (i + 1)) n = cont (fun i => laurieCoefficients n (n + 2 + i)) n := by
  set B := laurieCoefficients n with hB
  have hH : ∀ k < n, mixH B n k ≠ 0 := by
    intro k hk
    rw [mixH, Finset.prod_ne_zero_iff]
    intro i hi
    have := Finset.mem_range.1 hi
    exact (hpos _ (by omega) (by omega)).ne'
  -- the states of the second phase
  set st1 := (List.range (n - 1)).foldl (lauriePhase1Step (laurieInit n) n)
    (fun _ => 0, Function.update (fun _ => 0) 1 (laurieInit n (n + 1))) with hst1
  set st0 : LaurieState := ⟨laurieInit n, laurieShift n st1.1, st1.2⟩ with hst0
  have hlen : 2 * n - 2 - (n - 1) = n - 1 := by omega
  have hfinal : B = ((List.range' (n - 1) (n - 1)).foldl (lauriePhase2Step n) st0).b := by
    rw [hB, laurieCoefficients, hlen]
  have hstable : ∀ r ≤ n - 1, ∀ i, i < (n + r + 1) / 2 + n + 1 →
      ((List.range' (n - 1) r).foldl (lauriePhase2Step n) st0).b i = B i := by
    intro r hr i hi
    rw [hfinal]
    have : List.range' (n - 1) (n - 1) = List.range' (n - 1) r ++ List.range' (n - 1 + r) (n - 1 - r) := by
      rw [List.range'_append_1]
      congr 1
      omega
    rw [this, List.foldl_append]
    exact (phase2_stable n _ (n - 1 + r) (n - 1 - r) i (by omega)).symm
  have hinit : ∀ i, i ≤ (3 * n + 1) / 2 → laurieInit n i = B i := by
    intro i hi
    exact hstable 0 (by omega) i (by omega)
  have hph1 := phase1 B (laurieInit n) n hinit (n - 1) (by omega)
  rw [← hst1] at hph1
  have hinv : ∀ r ≤ n - 1, Phase2Inv B n r ((List.range' (n - 1) r).foldl (lauriePhase2Step n) st0) := by
    intro r
    induction r with
    | zero =>
      intro _
      refine ⟨?_, ?_, by omega⟩
      · intro i h1 h2
        simp only [List.range'_zero, List.foldl_nil, hst0]
        rw [laurieShift_eq, hph1]
        simp only
        rw [if_pos (by omega)]
        obtain ⟨j, rfl⟩ : ∃ j, i = j + 1 := ⟨i - 1, by omega⟩
        rw [show 0 + (j + 1) - 1 = j by omega, Nat.add_sub_cancel]
        simp only [antiArr, mixT]
        by_cases h0 : j = 0
        · rw [if_pos h0, if_pos h0]
        · rw [if_neg h0, if_neg h0, antiRow]
          split_ifs with h3
          · rw [show n - 1 - 1 - (j - 1) = n - (j + 1) by omega]
          · rw [mixS_gt]
            omega
      · intro i h1 h2
        simp only [List.range'_zero, List.foldl_nil, hst0]
        rw [hph1]
        simp only [antiArr]
        obtain ⟨j, rfl⟩ : ∃ j, i = j + 1 := ⟨i - 1, by omega⟩
        rw [if_neg (by omega), show 0 + (j + 1) = j + 1 by omega, mixT_succ, antiRow, Nat.add_sub_cancel, if_pos (by omega),
          show n - 1 + 1 - 1 - j = n - (j + 1) by omega]
    | succ r ih =>
      intro hr
      have h1 := ih (by omega)
      have h2 := hstable r (by omega)
      have h3 := hstable (r + 1) (by omega)
      rw [List.range'_1_concat, List.foldl_append] at h3 ⊢
      exact phase2_step B n r (by omega) _ h1 h2 h3 hH
  have hz := (hinv (n - 1) le_rfl).zero
  have hzero : ∀ k < n, mixC B n n k = 0 := by
    intro k hk
    rcases Nat.lt_or_ge k (n - 1) with h1 | h1
    · have := hz k h1
      rw [mixS] at this
      exact (mul_eq_zero.1 this).resolve_left (hH k hk)
    · exact (mixC_facts B n n).2.2 k (by omega)
  rw [cont_expand B n n, Finset.sum_range_succ, Finset.sum_eq_zero, (mixC_facts B n n).2.1]
  · simp
  · intro k hk
    rw [hzero k (Finset.mem_range.1 hk)]
    simp

/-- The known coefficients survive. -/
theorem laurie_known (n j : Nat) (h1 : 1 ≤ j) (h2 : j ≤ (3 * n + 1) / 2) :
    laurieCoefficients n j = (j * j : ℝ) / (4 * j * j - 1) := by
  have := phase2_stable n ⟨laurieInit n, laurieShift n ((List.range (n - 1)).foldl (lauriePhase1Step (laurieInit n) n)
    (fun _ => 0, Function.update (fun _ => 0) 1 (laurieInit n (n + 1)))).1, ((List.range (n - 1)).foldl
    (lauriePhase1Step (laurieInit n) n) (fun _ => 0, Function.update (fun _ => 0) 1 (laurieInit n (n + 1)))).2⟩
    (n - 1) (2 * n - 2 - (n - 1)) j (by omega)
  rw [laurieCoefficients, this]
  simp only [laurieInit]
  rw [if_neg (by omega), if_pos h2]

/-- Every array access in `kronrod` is in range and every difference of indices is nonnegative (`b` has `2n + 1` entries,
`s` and `t` have `n / 2 + 2`), so that modelling arrays as functions of a natural number loses nothing. -/
theorem laurie_indices (n : Nat) (hn : 1 ≤ n) :
    ((3 * n + 1) / 2 < 2 * n + 1 ∧ n + 1 < 2 * n + 1 ∧ 1 < n / 2 + 2) ∧
    (∀ m < n - 1, ∀ k ≤ (m + 1) / 2, k ≤ m ∧ k + n + 1 < 2 * n + 1 ∧ m - k < 2 * n + 1 ∧ k + 1 < n / 2 + 2) ∧
    (∀ j ≤ n / 2, j + 1 < n / 2 + 2) ∧
    (∀ m, n - 1 ≤ m → m < 2 * n - 2 →
      n ≤ m + 1 ∧ 1 ≤ m ∧
      (∀ k, m + 1 - n ≤ k → k ≤ (m - 1) / 2 →
        k ≤ m ∧ m - k + 1 ≤ n ∧ k + n + 1 < 2 * n + 1 ∧ n - (m - k + 1) + 2 < n / 2 + 2) ∧
      (2 * ((m + 1) / 2) ≠ m → (m + 1) / 2 + n + 1 < 2 * n + 1 ∧ m - (m + 1) / 2 + 2 ≤ n ∧
        n - (m - (m + 1) / 2 + 2) + 2 < n / 2 + 2)) := by
  refine ⟨by omega, ?_, by omega, ?_⟩
  · intro m hm k hk
    omega
  · intro m h1 h2
    refine ⟨by omega, by omega, ?_, ?_⟩
    · intro k h3 h4
      omega
    · intro h3
      omega

end Modepy

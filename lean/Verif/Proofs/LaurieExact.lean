import Verif.Proofs.Laurie

/-!
# Laurie's algorithm finds every Jacobi-Kronrod matrix

If a Jacobi-Kronrod matrix with nonzero off-diagonal entries exists, the two phases in `kronrod` compute it.
-/

namespace Modepy
open Polynomial

theorem monic_sum_zero (q : Nat → ℝ[X]) (hq : ∀ k, (q k).Monic ∧ (q k).natDegree = k) (a : Nat → ℝ) (n : Nat)
    (h : ∑ k ∈ Finset.range n, C (a k) * q k = 0) : ∀ k < n, a k = 0 := by
  induction n with
  | zero => intro k hk; omega
  | succ n ih =>
    have hn : a n = 0 := by
      have := congrArg (fun P => P.coeff n) h
      simp only [coeff_zero, finsetSum_coeff, coeff_C_mul] at this
      rw [Finset.sum_range_succ, Finset.sum_eq_zero, zero_add] at this
      · have h1 : (q n).coeff n = 1 := by
          have := (hq n).1.coeff_natDegree
          rwa [(hq n).2] at this
        rwa [h1, mul_one] at this
      · intro k hk
        rw [coeff_eq_zero_of_natDegree_lt, mul_zero]
        rw [(hq k).2]
        exact Finset.mem_range.1 hk
    rw [Finset.sum_range_succ, hn] at h
    simp only [map_zero, zero_mul, add_zero] at h
    intro k hk
    rcases Nat.lt_succ_iff_lt_or_eq.1 hk with h1 | h1
    · exact ih h k h1
    · rw [h1]; exact hn

/-- The update of one step of the second phase is the entry of the Jacobi-Kronrod matrix. -/
theorem phase2_value (B : Nat → ℝ) (n d : Nat) (hd : d + 2 ≤ n) (st : LaurieState) (h : Phase2Inv B n d st)
    (hb : ∀ i, i < (n + d + 1) / 2 + n + 1 → st.b i = B i)
    (hzero : mixS B n d n = 0) (hpos : ∀ k < n, mixH B n k ≠ 0) (i : Nat) (hi : i < (n + d + 2) / 2 + n + 1) :
    (lauriePhase2Step n st (n - 1 + d)).b i = B i := by
  have e0 : n - 1 + d + 1 - n = d := by omega
  have e1 : (n - 1 + d - 1) / 2 + 1 - d = (n - d) / 2 := by omega
  have hin := phase2_inner B st.b st.s n d hd hb h.s_eq ((n - d) / 2) (by omega)
  rw [lauriePhase2Step, e0, e1, hin]
  simp only
  by_cases hpar : (n + d) % 2 = 1
  · rw [if_neg (by omega)]
    exact hb i (by omega)
  · obtain ⟨R, hR⟩ : ∃ R, n = d + 2 * R := ⟨(n - d) / 2, by omega⟩
    rw [if_pos (by omega)]
    by_cases hi2 : i = (n - 1 + d + 1) / 2 + n + 1
    · rw [hi2, Function.update_self, show n - (n - 1 + d - (n - 1 + d + 1) / 2 + 2) + 1 = R by omega,
        show n - (n - 1 + d - (n - 1 + d + 1) / 2 + 2) + 2 = R + 1 by omega, if_pos (by omega), if_neg (by omega),
        h.s_eq (R + 1) (by omega) (by omega), hzero, sub_zero]
      have hK : n - R = d + R := by omega
      rw [hK, show n - (R + 1) = d + R - 1 by omega, show d + (R + 1) - 1 = d + R - 1 + 1 by omega, mixT_succ, mixS_diag,
        mixS_diag, show (n - 1 + d + 1) / 2 + n + 1 = n + 1 + (d + R - 1 + 1) by omega]
      have hH := mixH_succ B n (d + R - 1)
      rw [show d + R - 1 + 1 = d + R by omega] at hH ⊢
      have hne := hpos (d + R - 1) (by omega)
      rw [hH, mul_div_cancel_left₀ _ hne]
    · rw [Function.update_of_ne hi2]
      exact hb i (by omega)

/-- The state after the first phase and `r` steps of the second. -/
noncomputable def laurieState (n r : Nat) : LaurieState :=
  let st := (List.range (n - 1)).foldl (lauriePhase1Step (laurieInit n) n)
    (fun _ => 0, Function.update (fun _ => 0) 1 (laurieInit n (n + 1)))
  (List.range' (n - 1) r).foldl (lauriePhase2Step n) ⟨laurieInit n, laurieShift n st.1, st.2⟩

theorem laurieState_last (n : Nat) : laurieCoefficients n = (laurieState n (n - 1)).b := by
  rw [laurieCoefficients, show 2 * n - 2 - (n - 1) = n - 1 by omega]
  rfl

theorem mixH_ne (B : Nat → ℝ) (n : Nat) (hne : ∀ j, 1 ≤ j → j ≤ 2 * n → B j ≠ 0) (k : Nat) (hk : k < n) : mixH B n k ≠ 0 := by
  rw [mixH, Finset.prod_ne_zero_iff]
  intro i hi
  have := Finset.mem_range.1 hi
  exact hne _ (by omega) (by omega)

theorem laurie_states (n : Nat) (B : Nat → ℝ) (hne : ∀ j, 1 ≤ j → j ≤ 2 * n → B j ≠ 0)
    (hinit : ∀ i, i ≤ (3 * n + 1) / 2 → laurieInit n i = B i)
    (hblocks : cont (fun i => B (i + 1)) n = cont (fun i => B (n + 2 + i)) n) (hn : 1 ≤ n) (r : Nat) (hr : r ≤ n - 1) :
    Phase2Inv B n r (laurieState n r) ∧ ∀ i, i < (n + r + 1) / 2 + n + 1 → (laurieState n r).b i = B i := by
  have hH := mixH_ne B n hne
  have hz : ∀ k < n, mixS B n k n = 0 := by
    have h0 := cont_expand B n n
    rw [Finset.sum_range_succ, (mixC_facts B n n).2.1, ← hblocks] at h0
    have h1 : ∑ k ∈ Finset.range n, C (mixC B n n k) * cont (fun i => B (n + 2 + i)) k = 0 := by
      simp only [map_one, one_mul] at h0
      linear_combination -h0
    intro k hk
    rw [mixS, monic_sum_zero _ (cont_monic _) _ n h1 k hk, mul_zero]
  have hph1 := phase1 B (laurieInit n) n hinit (n - 1) (by omega)
  rw [laurieState, hph1]
  simp only
  induction r with
  | zero =>
    refine ⟨⟨?_, ?_, by omega⟩, fun i hi => hinit i (by omega)⟩
    · intro i h1 h2
      simp only [List.range'_zero, List.foldl_nil]
      rw [laurieShift_eq]
      simp only
      rw [if_pos (by omega)]
      obtain ⟨j, rfl⟩ : ∃ j, i = j + 1 := ⟨i - 1, by omega⟩
      rw [show 0 + (j + 1) - 1 = j by omega, Nat.add_sub_cancel]
      simp only [antiArr, mixT]
      by_cases h0 : j = 0
      · rw [if_pos h0, if_pos h0]
      · rw [if_neg h0, if_neg h0, antiRow]
        split_ifs with h3
        · rw [show n - 1 - 1 - (j - 1) = n - (j + 1) by omega]
        · rw [mixS_gt]
          omega
    · intro i h1 h2
      simp only [List.range'_zero, List.foldl_nil]
      simp only [antiArr]
      obtain ⟨j, rfl⟩ : ∃ j, i = j + 1 := ⟨i - 1, by omega⟩
      rw [if_neg (by omega), show 0 + (j + 1) = j + 1 by omega, mixT_succ, antiRow, Nat.add_sub_cancel, if_pos (by omega),
        show n - 1 + 1 - 1 - j = n - (j + 1) by omega]
  | succ r ih =>
    obtain ⟨h1, h2⟩ := ih (by omega)
    rw [List.range'_1_concat, List.foldl_append]
    have h3 := phase2_value B n r (by omega) _ h1 h2 (hz r (by omega)) hH
    exact ⟨phase2_step B n r (by omega) _ h1 h2 h3 hH, fun i hi => h3 i (by omega)⟩

/-- **Converse of Laurie's theorem.**  A sequence with nonzero entries that starts with the Legendre coefficients and
whose leading and trailing blocks have the same characteristic polynomial is the one computed. -/
theorem laurie_unique (n : Nat) (hn : 1 ≤ n) (B : Nat → ℝ) (hne : ∀ j, 1 ≤ j → j ≤ 2 * n → B j ≠ 0)
    (hinit : ∀ i, i ≤ (3 * n + 1) / 2 → laurieInit n i = B i)
    (hblocks : cont (fun i => B (i + 1)) n = cont (fun i => B (n + 2 + i)) n) (j : Nat) (hj : j ≤ 2 * n) :
    laurieCoefficients n j = B j := by
  rw [laurieState_last]
  exact (laurie_states n B hne hinit hblocks hn (n - 1) le_rfl).2 j (by omega)

/-- The divisors of the second phase do not vanish. -/
theorem laurie_divisors (n : Nat) (hn : 1 ≤ n) (B : Nat → ℝ) (hne : ∀ j, 1 ≤ j → j ≤ 2 * n → B j ≠ 0)
    (hinit : ∀ i, i ≤ (3 * n + 1) / 2 → laurieInit n i = B i)
    (hblocks : cont (fun i => B (i + 1)) n = cont (fun i => B (n + 2 + i)) n) (r : Nat) (hr : r < n - 1)
    (hodd : 2 * ((n - 1 + r + 1) / 2) ≠ n - 1 + r) :
    (lauriePhase2Step n (laurieState n r) (n - 1 + r)).t (n - (n - 1 + r - (n - 1 + r + 1) / 2 + 2) + 2) ≠ 0 := by
  obtain ⟨h, hb⟩ := laurie_states n B hne hinit hblocks hn r (by omega)
  set st := laurieState n r
  have hin := phase2_inner B st.b st.s n r (by omega) hb h.s_eq ((n - r) / 2) (by omega)
  rw [lauriePhase2Step, show n - 1 + r + 1 - n = r by omega, show (n - 1 + r - 1) / 2 + 1 - r = (n - r) / 2 by omega, hin]
  obtain ⟨R, hR⟩ : ∃ R, n = r + 2 * R := ⟨(n - r) / 2, by omega⟩
  simp only
  rw [show n - (n - 1 + r - (n - 1 + r + 1) / 2 + 2) + 2 = R + 1 by omega, if_neg (by omega),
    h.s_eq (R + 1) (by omega) (by omega), show n - (R + 1) = r + R - 1 by omega,
    show r + (R + 1) - 1 = r + R - 1 + 1 by omega, mixT_succ, mixS_diag]
  exact mixH_ne B n hne _ (by omega)

end Modepy

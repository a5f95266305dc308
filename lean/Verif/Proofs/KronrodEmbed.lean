import Verif.Proofs.Laurie
import Verif.Props.KronrodGauss
import Mathlib.Algebra.Polynomial.BigOperators
import Mathlib.Algebra.Polynomial.Roots
import Mathlib.Order.Interval.Finset.Fin

/-!
# The Jacobi-Kronrod matrix: embedding of the Gauss nodes, symmetry, weights
-/

namespace Modepy
open Polynomial Matrix Finset

/-! ## Wronskian type inequalities -/

/-- `p_{m+1}' p_m - p_{m+1} p_m' > 0`. -/
theorem cont_wronskian (β : Nat → ℝ) (m : Nat) (hβ : ∀ i < m, 0 < β i) (x : ℝ) :
    0 < (derivative (cont β (m + 1))).eval x * (cont β m).eval x -
      (cont β (m + 1)).eval x * (derivative (cont β m)).eval x := by
  induction m with
  | zero => simp
  | succ m ih =>
    have h := ih fun i hi => hβ i (by omega)
    have e : (derivative (cont β (m + 1 + 1))).eval x * (cont β (m + 1)).eval x -
        (cont β (m + 1 + 1)).eval x * (derivative (cont β (m + 1))).eval x =
        (cont β (m + 1)).eval x ^ 2 + β m * ((derivative (cont β (m + 1))).eval x * (cont β m).eval x -
      (cont β (m + 1)).eval x * (derivative (cont β m)).eval x) := by
      rw [cont_add_two]
      simp only [derivative_sub, derivative_mul, derivative_X, derivative_C, eval_sub, eval_add, eval_mul, eval_X, eval_C,
        eval_one]
      simp
      ring
    rw [e]
    have := mul_pos (hβ m (by omega)) h
    have := sq_nonneg ((cont β (m + 1)).eval x)
    linarith

/-- The same for the matrix without its first row. -/
theorem cont_wronskian_first (m : Nat) (β : Nat → ℝ) (hβ : ∀ i < m, 0 < β i) (x : ℝ) :
    0 < (derivative (cont β (m + 1))).eval x * (cont (fun i => β (i + 1)) m).eval x -
      (cont β (m + 1)).eval x * (derivative (cont (fun i => β (i + 1)) m)).eval x := by
  induction m generalizing β with
  | zero => simp
  | succ m ih =>
    have h := ih (fun i => β (i + 1)) fun i hi => hβ (i + 1) (by omega)
    have e : (derivative (cont β (m + 1 + 1))).eval x * (cont (fun i => β (i + 1)) (m + 1)).eval x -
        (cont β (m + 1 + 1)).eval x * (derivative (cont (fun i => β (i + 1)) (m + 1))).eval x =
        (cont (fun i => β (i + 1)) (m + 1)).eval x ^ 2 +
          β 0 * ((derivative (cont (fun i => β (i + 1)) (m + 1))).eval x * (cont (fun i => β (i + 1 + 1)) m).eval x -
      (cont (fun i => β (i + 1)) (m + 1)).eval x * (derivative (cont (fun i => β (i + 1 + 1)) m)).eval x) := by
      rw [cont_first]
      simp only [derivative_sub, derivative_mul, derivative_X, derivative_C, eval_sub, eval_add, eval_mul, eval_X, eval_C,
        eval_one]
      simp
      ring
    rw [e]
    have := mul_pos (hβ 0 (by omega)) h
    have := sq_nonneg ((cont (fun i => β (i + 1)) (m + 1)).eval x)
    linarith

/-! ## Signs at sorted roots -/

theorem prod_sign {M : Nat} (x : Fin M → ℝ) (hx : StrictMono x) (j : Fin M) :
    0 < (-1) ^ (M - 1 - j) * ∏ k ∈ univ.erase j, (x j - x k) := by
  have hsplit : (univ.erase j : Finset (Fin M)) = Iio j ∪ Ioi j := by
    ext k
    simp only [mem_erase, mem_univ, and_true, mem_union, mem_Iio, mem_Ioi]
    exact ⟨fun h => lt_or_gt_of_ne h, fun h => h.elim ne_of_lt ne_of_gt⟩
  have hdisj : Disjoint (Iio j) (Ioi j) := by
    rw [Finset.disjoint_left]
    intro k h1 h2
    rw [mem_Iio] at h1
    rw [mem_Ioi] at h2
    exact absurd h1 (not_lt.2 h2.le)
  rw [hsplit, prod_union hdisj]
  have h1 : 0 < ∏ k ∈ Iio j, (x j - x k) := prod_pos fun k hk => sub_pos.2 (hx (mem_Iio.1 hk))
  have h2 : ∏ k ∈ Ioi j, (x j - x k) = (-1) ^ (M - 1 - j) * ∏ k ∈ Ioi j, (x k - x j) := by
    have : ∀ k ∈ Ioi j, x j - x k = (-1) * (x k - x j) := fun k _ => by ring
    rw [prod_congr rfl this, prod_mul_distrib, prod_const, Fin.card_Ioi]
  have h3 : 0 < ∏ k ∈ Ioi j, (x k - x j) := prod_pos fun k hk => sub_pos.2 (hx (mem_Ioi.1 hk))
  rw [h2]
  have e : ((-1 : ℝ)) ^ (M - 1 - j) * ((∏ k ∈ Iio j, (x j - x k)) * ((-1) ^ (M - 1 - j) * ∏ k ∈ Ioi j, (x k - x j))) =
      ((-1 : ℝ) ^ (M - 1 - j) * (-1) ^ (M - 1 - j)) * ((∏ k ∈ Iio j, (x j - x k)) * ∏ k ∈ Ioi j, (x k - x j)) := by ring
  rw [e, ← mul_pow]
  simp only [mul_neg, mul_one, neg_neg, one_pow, one_mul]
  exact mul_pos h1 h3

theorem derivative_prod_at {M : Nat} (x : Fin M → ℝ) (j : Fin M) :
    (derivative (∏ i, (X - C (x i)))).eval (x j) = ∏ k ∈ univ.erase j, (x j - x k) := by
  rw [← mul_prod_erase univ _ (mem_univ j), derivative_mul]
  simp only [derivative_sub, derivative_X, derivative_C, sub_zero, one_mul, eval_add, eval_mul, eval_sub, eval_X, eval_C,
    sub_self, zero_mul, add_zero, eval_prod]

/-- A strictly increasing sequence of `n` odd numbers below `2n + 1` is `1, 3, …, 2n - 1`. -/
theorem odd_seq {n : Nat} (j : Fin n → Fin (2 * n + 1)) (hj : StrictMono j) (ho : ∀ i, (j i : Nat) % 2 = 1) (i : Fin n) :
    (j i : Nat) = 2 * i + 1 := by
  let g : Fin n → Fin n := fun i => ⟨((j i : Nat) - 1) / 2, by have := (j i).2; have := ho i; omega⟩
  have hg : StrictMono g := by
    intro a b hab
    have h1 : (j a : Nat) < j b := hj hab
    have h2 := ho a
    have h3 := ho b
    show ((j a : Nat) - 1) / 2 < ((j b : Nat) - 1) / 2
    omega
  have hid : g = id := by
    apply (StrictMono.range_inj hg strictMono_id).1
    rw [(Finite.injective_iff_surjective.1 hg.injective).range_eq]
    simp
  have := congrArg Fin.val (congrFun hid i)
  simp only [g, id] at this
  have := ho i
  omega

/-! ## The coefficients -/

theorem sqrtShift_eq (n : Nat) (b : Nat → ℝ) (j : Nat) :
    sqrtShift n b j = if j < 2 * n then Real.sqrt (b (j + 1)) else b j := by
  have : ∀ c, (List.range c).foldl (fun b j => Function.update b j (Real.sqrt (b (j + 1)))) b =
      fun i => if i < c then Real.sqrt (b (i + 1)) else b i := by
    intro c
    induction c with
    | zero => simp
    | succ c ih =>
      rw [List.range_succ, List.foldl_append, ih]
      funext i
      simp only [List.foldl_cons, List.foldl_nil]
      rw [if_neg (by omega)]
      by_cases h : i = c
      · subst h
        rw [Function.update_self, if_pos (by omega)]
      · rw [Function.update_of_ne h]
        by_cases h2 : i < c
        · rw [if_pos h2, if_pos (by omega)]
        · rw [if_neg h2, if_neg (by omega)]
  rw [sqrtShift, this]

/-- The hypothesis of the results on `kronrod(n)`: the coefficients under the square roots are positive. -/
def Spec.KronrodPositive (n : Nat) : Prop := ∀ j, 1 ≤ j → j ≤ 2 * n → 0 < laurieCoefficients n j
open Spec

variable {n : Nat}

theorem kb_pos (h : KronrodPositive n) (j : Nat) (hj : j < 2 * n) : 0 < sqrtShift n (laurieCoefficients n) j := by
  rw [sqrtShift_eq, if_pos hj]
  exact Real.sqrt_pos.2 (h _ (by omega) (by omega))

theorem kb_sq (h : KronrodPositive n) (j : Nat) (hj : j < 2 * n) :
    sqrtShift n (laurieCoefficients n) j ^ 2 = laurieCoefficients n (j + 1) := by
  rw [sqrtShift_eq, if_pos hj, Real.sq_sqrt (h _ (by omega) (by omega)).le]

theorem kb_known (j : Nat) (hj : j < (3 * n + 1) / 2) (hn : 1 ≤ n) :
    sqrtShift n (laurieCoefficients n) j = legendreOffdiag j := by
  rw [sqrtShift_eq, if_pos (by omega), laurie_known n (j + 1) (by omega) (by omega), ← Real.sqrt_sq (legendreOffdiag_pos j).le,
    legendreOffdiag_sq]

/-- The characteristic polynomial of the Jacobi-Kronrod matrix is divisible by that of its leading block; at the roots of
the latter its derivative is negative. -/
theorem kron_factor (hn : 1 ≤ n) (h : KronrodPositive n) :
    let β := fun i => laurieCoefficients n (i + 1)
    ∃ E : ℝ[X], cont β (2 * n + 1) = cont β n * E ∧
      ∀ y, (cont β n).eval y = 0 → (derivative (cont β (2 * n + 1))).eval y < 0 := by
  intro β
  obtain ⟨N, rfl⟩ : ∃ N, n = N + 1 := ⟨n - 1, by omega⟩
  have hblocks : cont β (N + 1) = cont (fun i => β (N + 1 + 1 + i)) (N + 1) := by
    have := laurie_blocks (N + 1) hn h
    rw [show (fun i => laurieCoefficients (N + 1) (N + 1 + 2 + i)) = fun i => β (N + 1 + 1 + i) from
      funext fun i => by simp only [β]; congr 1; ring] at this
    exact this
  have hβ : ∀ i, i < 2 * (N + 1) → 0 < β i := fun i hi => h (i + 1) (by omega) (by omega)
  have hs := cont_split β N (N + 1)
  have hf := cont_first (fun i => β (N + 1 + i)) N
  have e1 : (fun i => β (N + 1 + (i + 1))) = fun i => β (N + 1 + 1 + i) := funext fun i => by congr 1; ring
  have e2 : (fun i => β (N + 2 + i)) = fun i => β (N + 1 + 1 + i) := funext fun i => by congr 1
  have e3 : (fun i => β (N + 1 + (i + 2))) = fun i => β (N + 1 + 1 + (i + 1)) := funext fun i => by congr 1; ring
  rw [e1, e3, ← hblocks] at hf
  rw [e2, ← hblocks, show N + 1 + 1 = N + 2 from rfl, hf, show N + 1 + (N + 2) = 2 * (N + 1) + 1 by ring] at hs
  set P := cont β (N + 1) with hP
  set P1 := cont β N with hP1
  set P2 := cont (fun i => β (N + 2 + (i + 1))) N with hP2
  refine ⟨X * P - C (β (N + 1)) * P2 - C (β N) * P1, ?_, ?_⟩
  · rw [hs, Nat.add_zero]
    ring
  · intro y hy
    have w1 := cont_wronskian β N (fun i hi => hβ i (by omega)) y
    have w2 := cont_wronskian_first N (fun i => β (N + 2 + i)) (fun i hi => hβ _ (by omega)) y
    rw [← hP, hy, zero_mul, sub_zero, ← hP1] at w1
    rw [show cont (fun i => β (N + 2 + i)) (N + 1) = P from hblocks.symm, hy, zero_mul, sub_zero, ← hP2] at w2
    have hd : (derivative (cont β (2 * (N + 1) + 1))).eval y =
        -(β (N + 1) * ((derivative P).eval y * P2.eval y) + β N * ((derivative P).eval y * P1.eval y)) := by
      rw [hs, Nat.add_zero]
      simp only [derivative_sub, derivative_mul, derivative_X, derivative_C, eval_sub, eval_add, eval_mul, eval_X, eval_C,
        eval_one, hy]
      ring
    rw [hd]
    have := mul_pos (hβ (N + 1) (by omega)) w2
    have := mul_pos (hβ N (by omega)) w1
    linarith

/-- Nodes of the Jacobi-Kronrod matrix: increasing, symmetric, the odd ones are the Gauss nodes. -/
theorem kron_nodes (hn : 1 ≤ n) (h : KronrodPositive n) {x : Fin (2 * n + 1) → ℝ}
    {Q : Matrix (Fin (2 * n + 1)) (Fin (2 * n + 1)) ℝ}
    (hE : IsEigh (eignewtMatrix (sqrtShift n (laurieCoefficients n)) (2 * n + 1)) x Q)
    {y : Fin n → ℝ} {U : Matrix (Fin n) (Fin n) ℝ} (hY : IsEigh (eignewtMatrix legendreOffdiag n) y U) :
    StrictMono x ∧ StrictMono y ∧ (∀ j, x j.rev = -x j) ∧ (∀ i, y i.rev = -y i) ∧
      ∀ i : Fin n, x ⟨2 * i + 1, by omega⟩ = y i := by
  set b := sqrtShift n (laurieCoefficients n) with hb
  have hx : StrictMono x := eigh_strictMono b (2 * n) (fun i hi => (kb_pos h i hi).ne') hE
  have hy : StrictMono y := by
    obtain ⟨N, rfl⟩ : ∃ N, n = N + 1 := ⟨n - 1, by omega⟩
    exact eigh_strictMono legendreOffdiag N (fun i _ => (legendreOffdiag_pos i).ne') hY
  have hsymm : ∀ (β : Nat → ℝ) (m : Nat) (z : Fin m → ℝ), StrictMono z → cont β m = ∏ i, (X - C (z i)) →
      ∀ j, z j.rev = -z j := by
    intro β m z hz hc j
    have hroot : ∀ i, (cont β m).eval (z i) = 0 := by
      intro i
      rw [hc, eval_prod]
      exact prod_eq_zero (mem_univ i) (by simp)
    have := roots_unique (cont β m) (cont_monic β m).1.ne_zero (cont_monic β m).2.le z (fun i => -z i.rev) hz
      (fun a c hac => neg_lt_neg (hz (Fin.rev_lt_rev.2 hac))) hroot (fun i => by rw [cont_neg, hroot, mul_zero])
    have h2 := congrFun this j.rev
    simp only [Fin.rev_rev] at h2
    exact h2
  have hcx := eigenvalue_root hE
  have hcy := eigenvalue_root hY
  rw [charpoly_eignewtMatrix] at hcx hcy
  refine ⟨hx, hy, hsymm _ _ x hx hcx, hsymm _ _ y hy hcy, ?_⟩
  obtain ⟨E, hfac, hneg⟩ := kron_factor hn h
  have c1 : cont (fun i => b i ^ 2) (2 * n + 1) = cont (fun i => laurieCoefficients n (i + 1)) (2 * n + 1) :=
    cont_congr _ fun i hi => kb_sq h i (by omega)
  have c2 : cont (fun i => legendreOffdiag i ^ 2) n = cont (fun i => laurieCoefficients n (i + 1)) n :=
    cont_congr _ fun i hi => by rw [← kb_known i (by omega) hn, kb_sq h i (by omega)]
  rw [c1] at hcx
  rw [c2] at hcy
  have hyroot : ∀ i, (cont (fun i => laurieCoefficients n (i + 1)) n).eval (y i) = 0 := by
    intro i
    rw [hcy, eval_prod]
    exact prod_eq_zero (mem_univ i) (by simp)
  have hex : ∀ i, ∃ j, x j = y i := by
    intro i
    have h0 : (∏ j, (X - C (x j))).eval (y i) = 0 := by rw [← hcx, hfac, eval_mul, hyroot, zero_mul]
    rw [eval_prod, prod_eq_zero_iff] at h0
    obtain ⟨j, -, hj⟩ := h0
    exact ⟨j, by simp at hj; linarith⟩
  choose j hj using hex
  have hjm : StrictMono j := by
    intro a c hac
    have := hy hac
    rw [← hj a, ← hj c] at this
    exact hx.lt_iff_lt.1 this
  have hodd : ∀ i, (j i : Nat) % 2 = 1 := by
    intro i
    have h1 := hneg (y i) (hyroot i)
    rw [hcx, ← hj i, derivative_prod_at] at h1
    have h2 := prod_sign x hx (j i)
    by_contra hc
    have heven : Even (2 * n + 1 - 1 - (j i : Nat)) := by
      have := (j i).2
      rw [Nat.even_iff]
      omega
    rw [heven.neg_one_pow, one_mul] at h2
    linarith
  intro i
  have := odd_seq j hjm hodd i
  rw [← hj i]
  congr 1
  exact Fin.ext this.symm

theorem eigvecRaw_neg (b : Nat → ℝ) (z : ℝ) (k : Nat) : eigvecRaw b (-z) k = (-1) ^ k * eigvecRaw b z k := by
  induction k using Nat.strong_induction_on with
  | _ k ih =>
    match k with
    | 0 => simp [eigvecRaw]
    | 1 => simp [eigvecRaw]; ring
    | k + 2 =>
      rw [eigvecRaw, eigvecRaw, ih k (by omega), ih (k + 1) (by omega)]
      ring

theorem weight_neg (b : Nat → ℝ) (len m : Nat) (hm : 1 ≤ m) (z : ℝ) :
    2 * (eigvec1 b len (-z) (some m)).headD 0 ^ 2 = 2 * (eigvec1 b len z (some m)).headD 0 ^ 2 := by
  have e : ∀ z, (eigvec1 b len z (some m)).headD 0 = (eigvec1 b len z (some m)).getD 0 0 := by
    intro z
    cases eigvec1 b len z (some m) <;> rfl
  rw [e, e, eigvec1_getD b len _ m hm 0 hm, eigvec1_getD b len _ m hm 0 hm]
  have hs : ∑ k ∈ range m, eigvecRaw b (-z) k ^ 2 = ∑ k ∈ range m, eigvecRaw b z k ^ 2 := by
    apply sum_congr rfl
    intro k _
    rw [eigvecRaw_neg, mul_pow, ← pow_mul, mul_comm k 2, pow_mul]
    simp
  rw [hs]
  simp [eigvecRaw]

end Modepy

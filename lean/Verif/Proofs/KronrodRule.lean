import Verif.Props.KronrodEig
import Verif.Proofs.GolubWelschAgree

/-!
# Rules built from a symmetric tridiagonal matrix with zero diagonal
-/

namespace Modepy
open Polynomial Matrix Spec

theorem eignewtMatrix_eq_tridiag (b : Nat → ℝ) (N : Nat) :
    eignewtMatrix b (N + 1) = tridiag (fun k => b (k - 1)) (fun _ => 0) N := by
  ext i j
  simp only [eignewtMatrix, tridiag, of_apply]
  by_cases h : j = i
  · subst h
    rw [if_pos rfl, if_neg (by omega), if_neg (by omega)]
  · have h' : (j : Nat) ≠ i := fun e => h (Fin.ext e)
    rw [if_neg h]
    by_cases h1 : (i : Nat) + 1 = j
    · rw [if_pos h1, if_neg (by omega), if_pos h1.symm, Nat.add_sub_cancel]
    · rw [if_neg h1]
      by_cases h2 : (j : Nat) + 1 = i
      · rw [if_pos h2, if_pos h2, ← h2, Nat.add_sub_cancel]
      · rw [if_neg h2, if_neg h2, if_neg (by omega)]

theorem gaussA_legendre (k : Nat) : gaussA 0 0 (k + 1) = legendreOffdiag k := by
  rw [gaussA, legendreOffdiag]
  have hk : (0 : ℝ) < ((k + 1 : Nat) : ℝ) := by positivity
  set x : ℝ := ((k + 1 : Nat) : ℝ)
  have h1 : 1 ≤ x := by simp [x]
  have hpos : 0 < 4 * x * x - 1 := by nlinarith
  have e : x * (x + (0 + 0)) * (x + 0) * (x + 0) / ((2 * x + (0 + 0) - 1) * (2 * x + (0 + 0) + 1)) =
      (x ^ 2) ^ 2 / (4 * x * x - 1) := by
    rw [div_eq_div_iff (by nlinarith) hpos.ne']
    ring
  rw [e, Real.sqrt_div (by positivity), Real.sqrt_sq (by positivity)]
  have := Real.sqrt_pos.2 hpos
  field_simp
  ring

theorem gaussB_legendre (k : Nat) : gaussB 0 0 k = 0 := by
  rw [gaussB]
  split_ifs <;> simp

/-- Eigenvector columns are multiples of the raw vector of `_eigvec1`. -/
theorem eigh_column_raw (b : Nat → ℝ) (N : Nat) (hb : ∀ i < N, b i ≠ 0) {x : Fin (N + 1) → ℝ}
    {Q : Matrix (Fin (N + 1)) (Fin (N + 1)) ℝ} (hE : IsEigh (eignewtMatrix b (N + 1)) x Q) (i : Fin (N + 1)) :
    (∀ k : Fin (N + 1), Q k i = Q 0 i * eigvecRaw b (x i) k) ∧
      Q 0 i ^ 2 * ∑ k ∈ Finset.range (N + 1), eigvecRaw b (x i) k ^ 2 = 1 := by
  obtain ⟨u, hu, huv⟩ := extend_get fun k => Q k i
  have hrow : ∀ n, n < N → (if n = 0 then 0 else b (n - 1) * u (n - 1)) + b n * u (n + 1) = x i * u n := by
    intro n hn
    have h1 := congrFun (congrFun hE.eig ⟨n, by omega⟩) i
    rw [Matrix.mul_apply, Matrix.mul_diagonal] at h1
    have h2 := eignewtMatrix_row b (N + 1) u ⟨n, by omega⟩
    simp only [huv] at h2
    rw [h1, if_pos (show n + 1 < N + 1 by omega)] at h2
    rw [← h2, show u n = Q ⟨n, by omega⟩ i from huv ⟨n, by omega⟩]
    ring
  have key : ∀ k ≤ N, u k = u 0 * eigvecRaw b (x i) k := by
    intro k
    induction k using Nat.strong_induction_on with
    | _ k ih =>
      match k, ih with
      | 0, _ => intro _; simp [eigvecRaw]
      | 1, _ =>
        intro hk
        have r := hrow 0 (by omega)
        simp only [if_true, zero_add] at r
        have hb0 := hb 0 (by omega)
        rw [eigvecRaw]
        field_simp
        linarith
      | k + 2, ih =>
        intro hk
        have r := hrow (k + 1) (by omega)
        rw [if_neg (by omega), Nat.add_sub_cancel] at r
        have i1 := ih (k + 1) (by omega) (by omega)
        have i0 := ih k (by omega) (by omega)
        have hb1 := hb (k + 1) (by omega)
        rw [eigvecRaw]
        field_simp
        rw [i1, i0] at r
        linear_combination r
  have h0 : u 0 = Q 0 i := huv 0
  have hk : ∀ k : Fin (N + 1), Q k i = Q 0 i * eigvecRaw b (x i) k := by
    intro k
    have := key k (by omega)
    rwa [huv, h0] at this
  refine ⟨hk, ?_⟩
  have := congrFun (congrFun hE.orth i) i
  rw [Matrix.mul_apply, Matrix.one_apply_eq] at this
  rw [← this, Finset.mul_sum, ← Fin.sum_univ_eq_sum_range (fun k => Q 0 i ^ 2 * eigvecRaw b (x i) k ^ 2)]
  apply Finset.sum_congr rfl
  intro k _
  rw [transpose_apply, hk k]
  ring

/-- The weight computed by `_eigvec1` is the Golub–Welsch weight. -/
theorem eigvec1_weight (b : Nat → ℝ) (len N : Nat) (hb : ∀ i < N, b i ≠ 0) {x : Fin (N + 1) → ℝ}
    {Q : Matrix (Fin (N + 1)) (Fin (N + 1)) ℝ} (hE : IsEigh (eignewtMatrix b (N + 1)) x Q) (i : Fin (N + 1)) :
    2 * (eigvec1 b len (x i) (some (N + 1))).headD 0 ^ 2 = 2 * Q 0 i ^ 2 ∧ 0 < Q 0 i ^ 2 := by
  have h := (eigh_column_raw b N hb hE i).2
  have hpos := eigvecRaw_sq_pos b (x i) (N + 1) (by omega)
  have hq : Q 0 i ^ 2 = 1 / ∑ k ∈ Finset.range (N + 1), eigvecRaw b (x i) k ^ 2 := by
    rw [eq_div_iff hpos.ne']
    exact h
  refine ⟨?_, by rw [hq]; positivity⟩
  have h0 := eigvec1_getD b len (x i) (N + 1) (by omega) 0 (by omega)
  have e : (eigvec1 b len (x i) (some (N + 1))).headD 0 = (eigvec1 b len (x i) (some (N + 1))).getD 0 0 := by
    cases eigvec1 b len (x i) (some (N + 1)) <;> rfl
  rw [e, h0, hq, div_pow, Real.sq_sqrt hpos.le]
  simp [eigvecRaw]

/-- Eigenvalues are simple. -/
theorem eigh_strictMono (b : Nat → ℝ) (N : Nat) (hb : ∀ i < N, b i ≠ 0) {x : Fin (N + 1) → ℝ}
    {Q : Matrix (Fin (N + 1)) (Fin (N + 1)) ℝ} (hE : IsEigh (eignewtMatrix b (N + 1)) x Q) : StrictMono x := by
  refine hE.sorted.strictMono_of_injective ?_
  intro i j hij
  by_contra hne
  have hi := eigh_column_raw b N hb hE i
  have hj := eigh_column_raw b N hb hE j
  have := congrFun (congrFun hE.orth i) j
  rw [Matrix.mul_apply, Matrix.one_apply_ne hne] at this
  have h2 : Q 0 i * Q 0 j * ∑ k ∈ Finset.range (N + 1), eigvecRaw b (x i) k ^ 2 = 0 := by
    rw [← this, Finset.mul_sum, ← Fin.sum_univ_eq_sum_range (fun k => Q 0 i * Q 0 j * eigvecRaw b (x i) k ^ 2)]
    apply Finset.sum_congr rfl
    intro k _
    rw [transpose_apply, hi.1 k, hj.1 k, ← hij]
    ring
  have hpos := eigvecRaw_sq_pos b (x i) (N + 1) (by omega)
  rcases mul_eq_zero.1 h2 with h3 | h3
  · rcases mul_eq_zero.1 h3 with h4 | h4
    · have := hi.2
      rw [h4] at this
      norm_num at this
    · have := hj.2
      rw [h4] at this
      norm_num at this
  · exact hpos.ne' h3

/-- If the first `m` off-diagonal entries are those of the Legendre polynomials, the rule is exact up to degree `2m + 1`. -/
theorem legendre_agree (N m : Nat) (hm : m ≤ N) (b : Nat → ℝ) (hb : ∀ k < m, b k = legendreOffdiag k)
    {x : Fin (N + 1) → ℝ} {Q : Matrix (Fin (N + 1)) (Fin (N + 1)) ℝ} (hE : IsEigh (eignewtMatrix b (N + 1)) x Q)
    (f : ℝ[X]) (hf : f.natDegree ≤ 2 * m + 1) :
    ∑ i, 2 * Q 0 i ^ 2 * f.eval (x i) = ∫ t in (-1)..1, f.eval t := by
  have fam := jacobi_family params_zero (by norm_num)
  have hB : gaussB 0 0 = fun _ => 0 := funext gaussB_legendre
  rw [hB] at fam
  have hL : ∀ g : ℝ[X], jacobiL params_zero.1 params_zero.2.1 g = ∫ t in (-1)..1, g.eval t := by
    intro g
    rw [jacobiL_apply]
    apply intervalIntegral.integral_congr
    intro t _
    simp [jacobiWeight]
  have hc : ∀ q : ℝ, q ^ 2 / (1 / Real.sqrt (jacNorm 0 0 0)) ^ 2 = 2 * q ^ 2 := by
    intro q
    have hn : jacNorm 0 0 0 = 2 := by
      have h1 := fam.orth 0 0
      rw [if_pos rfl, fam.p_zero, hL] at h1
      have hpos := jacNorm_pos params_zero.1 params_zero.2.1 0
      have h2 : ((1 : ℝ) / Real.sqrt (jacNorm 0 0 0)) * (1 / Real.sqrt (jacNorm 0 0 0)) = 1 / jacNorm 0 0 0 := by
        rw [div_mul_div_comm, Real.mul_self_sqrt hpos.le, one_mul]
      simp only [eval_mul, eval_C, h2, intervalIntegral.integral_const] at h1
      norm_num at h1
      field_simp at h1
      linarith
    rw [hn, div_pow, Real.sq_sqrt (by norm_num)]
    ring
  rw [eignewtMatrix_eq_tridiag] at hE
  rcases Nat.lt_or_ge m N with hlt | hge
  · have := fam.exact_agree N m hlt (fun k => b (k - 1)) (by
      intro k h1 h2
      obtain ⟨j, rfl⟩ : ∃ j, k = j + 1 := ⟨k - 1, by omega⟩
      rw [gaussA_legendre]
      exact hb j (by omega)) hE f hf
    rw [hL] at this
    rw [← this]
    exact Finset.sum_congr rfl fun i _ => by rw [hc]
  · have hmN : m = N := by omega
    subst hmN
    have hT : tridiag (fun k => b (k - 1)) (fun _ => 0) m = tridiag (gaussA 0 0) (fun _ => 0) m := by
      ext i j
      simp only [tridiag, of_apply]
      by_cases h : j = i
      · rw [if_pos h, if_pos h]
      · rw [if_neg h, if_neg h]
        by_cases h1 : (j : Nat) + 1 = i
        · rw [if_pos h1, if_pos h1, ← h1, gaussA_legendre]
          exact hb j (by omega)
        · rw [if_neg h1, if_neg h1]
          by_cases h2 : (j : Nat) = i + 1
          · rw [if_pos h2, if_pos h2, gaussA_legendre]
            exact hb i (by omega)
          · rw [if_neg h2, if_neg h2]
    rw [hT] at hE
    have := fam.exact m hE f hf
    rw [hL] at this
    rw [← this]
    exact Finset.sum_congr rfl fun i _ => by rw [hc]

theorem legendreOffdiag_pos (i : Nat) : 0 < legendreOffdiag i := by
  rw [← gaussA_legendre]
  exact gaussA_pos (by norm_num) (by norm_num) (by norm_num) i

theorem legendreOffdiag_sq (i : Nat) :
    legendreOffdiag i ^ 2 = ((i + 1 : Nat) : ℝ) * (i + 1 : Nat) / (4 * (i + 1 : Nat) * (i + 1 : Nat) - 1) := by
  rw [legendreOffdiag, div_pow, Real.sq_sqrt]
  · ring
  · have h1 : (1 : ℝ) ≤ ((i + 1 : Nat) : ℝ) := by simp
    nlinarith

end Modepy

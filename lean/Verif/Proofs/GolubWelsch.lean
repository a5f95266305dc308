import Verif.Model.Gauss
import Mathlib.Algebra.Polynomial.Module.Basic
import Mathlib.Algebra.Polynomial.BigOperators
import Mathlib.RingTheory.Polynomial.Basic
import Mathlib.LinearAlgebra.Matrix.NonsingularInverse

/-!
# The Golub–Welsch construction for an orthonormal family with a three-term recurrence
-/

namespace Modepy
open Matrix Polynomial

/-- An orthonormal family of polynomials for the functional `L`, with three-term recurrence
coefficients `a`, `b`. -/
structure OrthFamily (L : ℝ[X] →ₗ[ℝ] ℝ) (p : ℕ → ℝ[X]) (a b : ℕ → ℝ) (c : ℝ) : Prop where
  c_ne : c ≠ 0
  a_ne : ∀ n, a (n + 1) ≠ 0
  p_zero : p 0 = C c
  rec_zero : X * p 0 = C (a 1) * p 1 + C (b 0) * p 0
  rec_succ : ∀ n, X * p (n + 1) = C (a (n + 2)) * p (n + 2) + C (b (n + 1)) * p (n + 1) +
    C (a (n + 1)) * p n
  orth : ∀ m n, L (p m * p n) = if m = n then 1 else 0

/-- The symmetric tridiagonal matrix with diagonal `b` and off-diagonal `a`. -/
def tridiag (a b : ℕ → ℝ) (N : Nat) : Matrix (Fin (N + 1)) (Fin (N + 1)) ℝ :=
  Matrix.of fun n j =>
    if j = n then b n
    else if (j : Nat) + 1 = n then a n
    else if (j : Nat) = n + 1 then a (n + 1)
    else 0

theorem tridiag_isSymm (a b : ℕ → ℝ) (N : Nat) : (tridiag a b N).IsSymm := by
  ext i j
  simp only [tridiag, transpose_apply, of_apply]
  by_cases h : i = j
  · subst h; rfl
  · rw [if_neg h, if_neg (Ne.symm h)]
    have h' : (i : Nat) ≠ j := fun e => h (Fin.ext e)
    by_cases h1 : (i : Nat) + 1 = j
    · rw [if_pos h1, if_neg (by omega), if_pos h1.symm, h1]
    · rw [if_neg h1]
      by_cases h2 : (i : Nat) = j + 1
      · rw [if_pos h2, if_pos h2.symm, h2]
      · rw [if_neg h2, if_neg (by omega), if_neg (by omega)]

/-- A row of `T v`, with `v` extended by zero. -/
theorem tridiag_row (a b : ℕ → ℝ) (N : Nat) (u : ℕ → ℝ) (hu : u (N + 1) = 0) (n : Fin (N + 1)) :
    ∑ j : Fin (N + 1), tridiag a b N n j * u j =
      b n * u n + (if (n : Nat) = 0 then 0 else a n * u (n - 1)) + a (n + 1) * u (n + 1) := by
  have h1 : ∀ j : Fin (N + 1), tridiag a b N n j * u j =
      (if (j : Nat) = n then b n * u n else 0) +
      (if (n : Nat) = 0 then 0 else if (j : Nat) = n - 1 then a n * u (n - 1) else 0) +
      (if (j : Nat) = n + 1 then a (n + 1) * u (n + 1) else 0) := by
    intro j
    simp only [tridiag, of_apply]
    by_cases e1 : j = n
    · subst e1
      rw [if_pos rfl, if_pos rfl, if_neg (by omega : ¬ (j : Nat) = j + 1)]
      by_cases e2 : (j : Nat) = 0
      · rw [if_pos e2]; ring
      · rw [if_neg e2, if_neg (by omega)]; ring
    · have e1' : (j : Nat) ≠ n := fun e => e1 (Fin.ext e)
      rw [if_neg e1, if_neg e1']
      by_cases e2 : (j : Nat) + 1 = n
      · rw [if_pos e2, if_neg (by omega), if_pos (by omega), if_neg (by omega),
          show (j : Nat) = n - 1 by omega]; ring
      · rw [if_neg e2]
        by_cases e3 : (j : Nat) = n + 1
        · rw [if_pos e3, if_pos e3]
          by_cases e4 : (n : Nat) = 0
          · rw [if_pos e4, e3]; ring
          · rw [if_neg e4, if_neg (by omega), e3]; ring
        · rw [if_neg e3, if_neg e3]
          by_cases e4 : (n : Nat) = 0
          · rw [if_pos e4]; ring
          · rw [if_neg e4, if_neg (by omega)]; ring
  rw [Finset.sum_congr rfl fun j _ => h1 j, Finset.sum_add_distrib, Finset.sum_add_distrib]
  have hn := n.2
  have s1 : ∑ j : Fin (N + 1), (if (j : Nat) = n then b n * u n else 0) = b n * u n := by
    rw [Fin.sum_univ_eq_sum_range (fun j => if j = (n : Nat) then b n * u n else 0),
      Finset.sum_ite_eq', if_pos (by simp; omega)]
  have s2 : ∑ j : Fin (N + 1), (if (n : Nat) = 0 then 0 else
      if (j : Nat) = n - 1 then a n * u (n - 1) else 0) =
      if (n : Nat) = 0 then 0 else a n * u (n - 1) := by
    by_cases e : (n : Nat) = 0
    · simp [e]
    · simp only [if_neg e]
      rw [Fin.sum_univ_eq_sum_range (fun j => if j = (n : Nat) - 1 then a n * u (n - 1) else 0),
        Finset.sum_ite_eq', if_pos (Finset.mem_range.2 (by omega))]
  have s3 : ∑ j : Fin (N + 1), (if (j : Nat) = n + 1 then a (n + 1) * u (n + 1) else 0) =
      a (n + 1) * u (n + 1) := by
    rw [Fin.sum_univ_eq_sum_range (fun j => if j = (n : Nat) + 1 then a (n + 1) * u (n + 1) else 0),
      Finset.sum_ite_eq']
    by_cases e : (n : Nat) + 1 < N + 1
    · rw [if_pos (by simpa using e)]
    · rw [if_neg (by simpa using e), show (n : Nat) + 1 = N + 1 by omega, hu, mul_zero]
  rw [s1, s2, s3]

section
variable {L : ℝ[X] →ₗ[ℝ] ℝ} {p : ℕ → ℝ[X]} {a b : ℕ → ℝ} {c : ℝ}

/-- An eigenvector is a multiple of the vector of values of the family at the eigenvalue. -/
theorem OrthFamily.eigvec (h : OrthFamily L p a b c) (N : Nat) (u : ℕ → ℝ) (hu : u (N + 1) = 0) (x : ℝ)
    (hx : ∀ n : Fin (N + 1), ∑ j : Fin (N + 1), tridiag a b N n j * u j = x * u n) :
    ∀ k ≤ N + 1, u k * c = u 0 * (p k).eval x := by
  have hrow : ∀ n ≤ N, b n * u n + (if n = 0 then 0 else a n * u (n - 1)) + a (n + 1) * u (n + 1) =
      x * u n := by
    intro n hn
    have := hx ⟨n, by omega⟩
    rwa [tridiag_row a b N u hu] at this
  have e0 := congrArg (eval x) h.rec_zero
  simp only [eval_mul, eval_X, eval_add, eval_C] at e0
  have hp0 : (p 0).eval x = c := by rw [h.p_zero, eval_C]
  intro k
  induction k using Nat.strong_induction_on with
  | _ k ih =>
    match k, ih with
    | 0, _ => intro _; rw [hp0]
    | 1, _ =>
      intro hk
      have r := hrow 0 (by omega)
      simp only [if_true] at r
      rw [hp0] at e0
      have h1 := h.a_ne 0
      simp only [zero_add] at h1 r
      apply mul_left_cancel₀ h1
      linear_combination c * r + u 0 * e0
    | k + 2, ih =>
      intro hk
      have r := hrow (k + 1) (by omega)
      rw [if_neg (by omega), Nat.add_sub_cancel] at r
      have i1 := ih (k + 1) (by omega) (by omega)
      have i0 := ih k (by omega) (by omega)
      have e := congrArg (eval x) (h.rec_succ k)
      simp only [eval_mul, eval_X, eval_add, eval_C] at e
      apply mul_left_cancel₀ (h.a_ne (k + 1))
      linear_combination c * r + u 0 * e - a (k + 1) * i0 + (x - b (k + 1)) * i1

theorem extend_get {N : Nat} (v : Fin (N + 1) → ℝ) :
    ∃ u : ℕ → ℝ, u (N + 1) = 0 ∧ ∀ i : Fin (N + 1), u i = v i :=
  ⟨fun k => if hk : k < N + 1 then v ⟨k, hk⟩ else 0, by simp, fun i => dif_pos i.2⟩

/-- Eigenvectors of `eigh`. -/
theorem OrthFamily.eigh_column (h : OrthFamily L p a b c) (N : Nat) {x : Fin (N + 1) → ℝ}
    {Q : Matrix (Fin (N + 1)) (Fin (N + 1)) ℝ} (hE : IsEigh (tridiag a b N) x Q) (i : Fin (N + 1)) :
    (∀ k : Fin (N + 1), Q k i * c = Q 0 i * (p k).eval (x i)) ∧
      Q 0 i ≠ 0 ∧ (p (N + 1)).eval (x i) = 0 := by
  obtain ⟨u, hu, huv⟩ := extend_get fun k => Q k i
  have key := h.eigvec N u hu (x i) (by
    intro n
    have := congrFun (congrFun hE.eig n) i
    rw [Matrix.mul_apply, Matrix.mul_diagonal] at this
    simp only [huv]
    rw [this]; ring)
  have h0 : u 0 = Q 0 i := huv 0
  have hk : ∀ k : Fin (N + 1), Q k i * c = Q 0 i * (p k).eval (x i) := by
    intro k
    have := key k (by have := k.2; omega)
    rwa [huv, h0] at this
  have hne : Q 0 i ≠ 0 := by
    intro hz
    have hcol : ∀ k, Q k i = 0 := by
      intro k
      have := hk k
      rw [hz, zero_mul] at this
      exact (mul_eq_zero.1 this).resolve_right h.c_ne
    have := congrFun (congrFun hE.orth i) i
    rw [Matrix.mul_apply] at this
    simp [hcol] at this
  refine ⟨hk, hne, ?_⟩
  have := key (N + 1) le_rfl
  rw [hu, zero_mul, h0] at this
  exact (mul_eq_zero.1 this.symm).resolve_left hne

theorem OrthFamily.X_mul_mem (h : OrthFamily L p a b c) (n : Nat) (f : ℝ[X])
    (hf : f ∈ Submodule.span ℝ (p '' Set.Iic n)) : X * f ∈ Submodule.span ℝ (p '' Set.Iic (n + 1)) := by
  have hp : ∀ m ≤ n + 1, p m ∈ Submodule.span ℝ (p '' Set.Iic (n + 1)) := fun m hm =>
    Submodule.subset_span ⟨m, hm, rfl⟩
  induction hf using Submodule.span_induction with
  | mem f hf =>
    obtain ⟨m, hm, rfl⟩ := hf
    have hm' : m ≤ n := hm
    cases m with
    | zero =>
      rw [h.rec_zero, ← smul_eq_C_mul, ← smul_eq_C_mul]
      exact add_mem (Submodule.smul_mem _ _ (hp 1 (by omega))) (Submodule.smul_mem _ _ (hp 0 (by omega)))
    | succ m =>
      rw [h.rec_succ, ← smul_eq_C_mul, ← smul_eq_C_mul, ← smul_eq_C_mul]
      exact add_mem (add_mem (Submodule.smul_mem _ _ (hp _ (by omega)))
        (Submodule.smul_mem _ _ (hp _ (by omega)))) (Submodule.smul_mem _ _ (hp _ (by omega)))
  | zero => simp
  | add f g _ _ hf hg => rw [mul_add]; exact add_mem hf hg
  | smul r f _ hf => rw [mul_smul_comm]; exact Submodule.smul_mem _ _ hf

theorem OrthFamily.X_pow_mem (h : OrthFamily L p a b c) (n : Nat) :
    (X ^ n : ℝ[X]) ∈ Submodule.span ℝ (p '' Set.Iic n) := by
  induction n with
  | zero =>
    have : (X ^ 0 : ℝ[X]) = c⁻¹ • p 0 := by
      rw [h.p_zero, smul_C, smul_eq_mul, inv_mul_cancel₀ h.c_ne, pow_zero, C_1]
    rw [this]
    exact Submodule.smul_mem _ _ (Submodule.subset_span ⟨0, by simp, rfl⟩)
  | succ n ih =>
    rw [pow_succ']
    exact h.X_mul_mem n _ ih

/-- **Golub–Welsch.**  The rule with nodes the eigenvalues and weights `Q₀ᵢ² / p₀²` reproduces `L` on all
polynomials of degree at most `2N + 1`. -/
theorem OrthFamily.exact (h : OrthFamily L p a b c) (N : Nat) {x : Fin (N + 1) → ℝ}
    {Q : Matrix (Fin (N + 1)) (Fin (N + 1)) ℝ} (hE : IsEigh (tridiag a b N) x Q)
    (f : ℝ[X]) (hf : f.natDegree ≤ 2 * N + 1) :
    ∑ i, Q 0 i ^ 2 / c ^ 2 * f.eval (x i) = L f := by
  have hQ : Q * Qᵀ = 1 := mul_eq_one_comm.1 hE.orth
  -- the rule as a linear functional
  let W : ℝ[X] →ₗ[ℝ] ℝ := ∑ i, (Q 0 i ^ 2 / c ^ 2) • ((aeval (x i)).toLinearMap)
  have hW : ∀ g, W g = ∑ i, Q 0 i ^ 2 / c ^ 2 * g.eval (x i) := by
    intro g; simp [W, aeval_def, eval₂_eq_eval_map]
  have hpp : ∀ j ≤ N + 1, ∀ k ≤ N, W (p j * p k) = L (p j * p k) := by
    intro j hj k hk
    rw [hW, h.orth]
    by_cases hj' : j = N + 1
    · rw [if_neg (by omega)]
      apply Finset.sum_eq_zero
      intro i _
      rw [eval_mul, hj', (h.eigh_column N hE i).2.2]; ring
    · have e : ∀ i, Q 0 i ^ 2 / c ^ 2 * (p j * p k).eval (x i) =
          Q ⟨j, by omega⟩ i * Q ⟨k, by omega⟩ i := by
        intro i
        have hc := (h.eigh_column N hE i).1
        have h1 := hc ⟨j, by omega⟩
        have h2 := hc ⟨k, by omega⟩
        simp only at h1 h2
        have hcn := h.c_ne
        rw [eval_mul, div_mul_eq_mul_div, div_eq_iff (by positivity)]
        linear_combination -(Q 0 i * (p j).eval (x i)) * h2 - (Q ⟨k, by omega⟩ i * c) * h1
      simp only [e]
      have := congrFun (congrFun hQ ⟨j, by omega⟩) ⟨k, by omega⟩
      rw [Matrix.mul_apply] at this
      simp only [transpose_apply] at this
      rw [this, Matrix.one_apply]
      simp [Fin.ext_iff]
  have hspan : ∀ f ∈ Submodule.span ℝ (p '' Set.Iic (N + 1)), ∀ g ∈ Submodule.span ℝ (p '' Set.Iic N),
      W (f * g) = L (f * g) := by
    intro f hf g hg
    induction hf using Submodule.span_induction with
    | mem f hf =>
      obtain ⟨j, hj, rfl⟩ := hf
      induction hg using Submodule.span_induction with
      | mem g hg =>
        obtain ⟨k, hk, rfl⟩ := hg
        exact hpp j hj k hk
      | zero => simp
      | add g1 g2 _ _ h1 h2 => rw [mul_add, map_add, map_add, h1, h2]
      | smul r g _ h1 => rw [mul_smul_comm, map_smul, map_smul, h1]
    | zero => simp
    | add g1 g2 _ _ h1 h2 => rw [add_mul, map_add, map_add, h1, h2]
    | smul r g _ h1 => rw [smul_mul_assoc, map_smul, map_smul, h1]
  have hmono : ∀ m ≤ 2 * N + 1, W (X ^ m) = L (X ^ m) := by
    intro m hm
    have : (X ^ m : ℝ[X]) = X ^ (min m (N + 1)) * X ^ (m - min m (N + 1)) := by
      rw [← pow_add]; congr 1; omega
    rw [this]
    have mono : ∀ {i j : Nat}, i ≤ j →
        Submodule.span ℝ (p '' Set.Iic i) ≤ Submodule.span ℝ (p '' Set.Iic j) := fun hij =>
      Submodule.span_mono (Set.image_mono (Set.Iic_subset_Iic.2 hij))
    exact hspan _ (mono (by omega) (h.X_pow_mem _)) _ (mono (by omega) (h.X_pow_mem _))
  rw [← hW]
  rw [f.as_sum_range_C_mul_X_pow, map_sum, map_sum]
  apply Finset.sum_congr rfl
  intro m hm
  rw [← smul_eq_C_mul, map_smul, map_smul, hmono m (by
    have := Finset.mem_range.1 hm; omega)]

/-- If `L` is positive on squares (times `s - x`/`x - r`), the nodes are distinct and lie in
`(r, s)`. -/
theorem OrthFamily.nodes (h : OrthFamily L p a b c) (N : Nat) {x : Fin (N + 1) → ℝ}
    {Q : Matrix (Fin (N + 1)) (Fin (N + 1)) ℝ} (hE : IsEigh (tridiag a b N) x Q) (r s : ℝ)
    (hs : ∀ g : ℝ[X], g ≠ 0 → 0 < L ((C s - X) * (g * g)))
    (hr : ∀ g : ℝ[X], g ≠ 0 → 0 < L ((X - C r) * (g * g))) :
    StrictMono x ∧ ∀ i, r < x i ∧ x i < s := by
  let g : Fin (N + 1) → ℝ[X] := fun i => ∏ k ∈ Finset.univ.erase i, (X - C (x k))
  have hg : ∀ i, (g i).natDegree = N := by
    intro i
    rw [natDegree_prod_of_monic _ _ fun k _ => monic_X_sub_C _]
    simp
  have hg0 : ∀ i, g i ≠ 0 := fun i => (monic_prod_of_monic _ _ fun k _ => monic_X_sub_C _).ne_zero
  have hev : ∀ i j, j ≠ i → (g i).eval (x j) = 0 := by
    intro i j hij
    rw [eval_prod]
    exact Finset.prod_eq_zero (Finset.mem_erase.2 ⟨hij, Finset.mem_univ j⟩) (by simp)
  have hsum : ∀ (q : ℝ[X]), q.natDegree ≤ 1 → ∀ i,
      Q 0 i ^ 2 / c ^ 2 * (q.eval (x i) * ((g i).eval (x i)) ^ 2) = L (q * (g i * g i)) := by
    intro q hq i
    rw [← h.exact N hE (q * (g i * g i)), Finset.sum_eq_single i]
    · rw [eval_mul, eval_mul]; ring
    · intro j _ hj
      rw [eval_mul, eval_mul, hev i j hj]; ring
    · simp
    · refine natDegree_mul_le.trans ?_
      have := natDegree_mul_le (p := g i) (q := g i)
      rw [hg] at this
      omega
  have d1 : (C s - X : ℝ[X]).natDegree ≤ 1 :=
    (natDegree_sub_le _ _).trans (by simp)
  have d2 : (X - C r : ℝ[X]).natDegree ≤ 1 := natDegree_X_sub_C_le r
  have key : ∀ i, (r < x i ∧ x i < s) ∧ (g i).eval (x i) ≠ 0 := by
    intro i
    have hw : 0 ≤ Q 0 i ^ 2 / c ^ 2 := by positivity
    have h1 := hs (g i) (hg0 i)
    have h2 := hr (g i) (hg0 i)
    rw [← hsum _ d1 i] at h1
    rw [← hsum _ d2 i] at h2
    simp only [eval_sub, eval_C, eval_X] at h1 h2
    have hsq : 0 ≤ ((g i).eval (x i)) ^ 2 := sq_nonneg _
    refine ⟨⟨?_, ?_⟩, ?_⟩
    · by_contra hle
      have : (x i - r) * ((g i).eval (x i)) ^ 2 ≤ 0 :=
        mul_nonpos_of_nonpos_of_nonneg (by linarith) hsq
      have := mul_nonpos_of_nonneg_of_nonpos hw this
      linarith
    · by_contra hle
      have : (s - x i) * ((g i).eval (x i)) ^ 2 ≤ 0 :=
        mul_nonpos_of_nonpos_of_nonneg (by linarith) hsq
      have := mul_nonpos_of_nonneg_of_nonpos hw this
      linarith
    · intro h0
      rw [h0] at h1
      simp at h1
  refine ⟨hE.sorted.strictMono_of_injective ?_, fun i => (key i).1⟩
  intro i j hij
  by_contra hne
  apply (key i).2
  rw [hij]
  exact hev i j (Ne.symm hne)

end
end Modepy

import Verif.Proofs.GolubWelsch

/-!
# Golub–Welsch with a matrix whose first entries only are those of an orthonormal family
-/

namespace Modepy
open Matrix Polynomial

variable {L : ℝ[X] →ₗ[ℝ] ℝ} {p : ℕ → ℝ[X]} {a b : ℕ → ℝ} {c : ℝ}

/-- Two functionals that agree on the products `p_j p_k`, `j ≤ m + 1`, `k ≤ m`, agree up to degree `2m + 1`. -/
theorem OrthFamily.eq_of_products (h : OrthFamily L p a b c) (m : Nat) (W : ℝ[X] →ₗ[ℝ] ℝ)
    (hpp : ∀ j ≤ m + 1, ∀ k ≤ m, W (p j * p k) = L (p j * p k)) (f : ℝ[X]) (hf : f.natDegree ≤ 2 * m + 1) :
    W f = L f := by
  have hspan : ∀ f ∈ Submodule.span ℝ (p '' Set.Iic (m + 1)), ∀ g ∈ Submodule.span ℝ (p '' Set.Iic m),
      W (f * g) = L (f * g) := by
    intro f hf g hg
    induction hf using Submodule.span_induction with
    | mem f hf =>
      obtain ⟨j, hj, rfl⟩ := hf
      induction hg using Submodule.span_induction with
      | mem g hg =>
        obtain ⟨k, hk, rfl⟩ := hg
        exact hpp j hj k hk
      | zero => simp
      | add g1 g2 _ _ h1 h2 => rw [mul_add, map_add, map_add, h1, h2]
      | smul r g _ h1 => rw [mul_smul_comm, map_smul, map_smul, h1]
    | zero => simp
    | add g1 g2 _ _ h1 h2 => rw [add_mul, map_add, map_add, h1, h2]
    | smul r g _ h1 => rw [smul_mul_assoc, map_smul, map_smul, h1]
  have hmono : ∀ d ≤ 2 * m + 1, W (X ^ d) = L (X ^ d) := by
    intro d hm
    have : (X ^ d : ℝ[X]) = X ^ (min d (m + 1)) * X ^ (d - min d (m + 1)) := by
      rw [← pow_add]; congr 1; omega
    rw [this]
    have mono : ∀ {i j : Nat}, i ≤ j →
        Submodule.span ℝ (p '' Set.Iic i) ≤ Submodule.span ℝ (p '' Set.Iic j) := fun hij =>
      Submodule.span_mono (Set.image_mono (Set.Iic_subset_Iic.2 hij))
    exact hspan _ (mono (by omega) (h.X_pow_mem _)) _ (mono (by omega) (h.X_pow_mem _))
  rw [f.as_sum_range_C_mul_X_pow, map_sum, map_sum]
  apply Finset.sum_congr rfl
  intro d hm
  rw [← smul_eq_C_mul, map_smul, map_smul, hmono d (by
    have := Finset.mem_range.1 hm; omega)]

/-- If the first `m` off-diagonal entries of a tridiagonal matrix (and the diagonal) are those of the family, the rule with
nodes its eigenvalues and weights `Q₀ᵢ² / p₀²` reproduces `L` up to degree `2m + 1`. -/
theorem OrthFamily.exact_agree (h : OrthFamily L p a b c) (N m : Nat) (hm : m < N) (a' : ℕ → ℝ)
    (hag : ∀ k, 1 ≤ k → k ≤ m → a' k = a k) {x : Fin (N + 1) → ℝ}
    {Q : Matrix (Fin (N + 1)) (Fin (N + 1)) ℝ} (hE : IsEigh (tridiag a' b N) x Q)
    (f : ℝ[X]) (hf : f.natDegree ≤ 2 * m + 1) :
    ∑ i, Q 0 i ^ 2 / c ^ 2 * f.eval (x i) = L f := by
  have hQ : Q * Qᵀ = 1 := mul_eq_one_comm.1 hE.orth
  have hQ' : ∀ j k : Fin (N + 1), ∑ i, Q j i * Q k i = if j = k then 1 else 0 := by
    intro j k
    have := congrFun (congrFun hQ j) k
    rw [Matrix.mul_apply] at this
    simp only [transpose_apply] at this
    rw [this, Matrix.one_apply]
  -- entries of the eigenvectors
  have hcol : ∀ i : Fin (N + 1), (∀ k (hk : k ≤ m), Q ⟨k, by omega⟩ i * c = Q 0 i * (p k).eval (x i)) ∧
      a' (m + 1) * Q ⟨m + 1, by omega⟩ i * c = a (m + 1) * (Q 0 i * (p (m + 1)).eval (x i)) := by
    intro i
    obtain ⟨u, hu, huv⟩ := extend_get fun k => Q k i
    have hrow : ∀ n ≤ N, b n * u n + (if n = 0 then 0 else a' n * u (n - 1)) + a' (n + 1) * u (n + 1) =
        x i * u n := by
      intro n hn
      have h1 := congrFun (congrFun hE.eig ⟨n, by omega⟩) i
      rw [Matrix.mul_apply, Matrix.mul_diagonal] at h1
      have h2 := tridiag_row a' b N u hu ⟨n, by omega⟩
      simp only [huv] at h2
      rw [h1] at h2
      rw [← h2, show u n = Q ⟨n, by omega⟩ i from huv ⟨n, by omega⟩]
      ring
    have e0 := congrArg (eval (x i)) h.rec_zero
    simp only [eval_mul, eval_X, eval_add, eval_C] at e0
    have hp0 : (p 0).eval (x i) = c := by rw [h.p_zero, eval_C]
    rw [hp0] at e0
    have key : ∀ k ≤ m, u k * c = u 0 * (p k).eval (x i) := by
      intro k
      induction k using Nat.strong_induction_on with
      | _ k ih =>
        match k, ih with
        | 0, _ => intro _; rw [hp0]
        | 1, _ =>
          intro hk
          have r := hrow 0 (by omega)
          simp only [if_true] at r
          have h1 := h.a_ne 0
          simp only [zero_add] at h1 r
          rw [hag 1 le_rfl hk] at r
          apply mul_left_cancel₀ h1
          linear_combination c * r + u 0 * e0
        | k + 2, ih =>
          intro hk
          have r := hrow (k + 1) (by omega)
          rw [if_neg (by omega), Nat.add_sub_cancel, hag (k + 1) (by omega) (by omega),
            hag (k + 1 + 1) (by omega) (by omega)] at r
          have i1 := ih (k + 1) (by omega) (by omega)
          have i0 := ih k (by omega) (by omega)
          have e := congrArg (eval (x i)) (h.rec_succ k)
          simp only [eval_mul, eval_X, eval_add, eval_C] at e
          apply mul_left_cancel₀ (h.a_ne (k + 1))
          linear_combination c * r + u 0 * e - a (k + 1) * i0 + (x i - b (k + 1)) * i1
    have h0 : u 0 = Q 0 i := huv 0
    refine ⟨fun k hk => ?_, ?_⟩
    · have := key k hk
      rwa [show u k = Q ⟨k, by omega⟩ i from huv ⟨k, by omega⟩, h0] at this
    · rw [← h0, ← show u (m + 1) = Q ⟨m + 1, by omega⟩ i from huv ⟨m + 1, by omega⟩]
      cases m with
      | zero =>
        have r := hrow 0 (by omega)
        simp only [if_true] at r
        linear_combination c * r + u 0 * e0
      | succ k =>
        have r := hrow (k + 1) (by omega)
        rw [if_neg (by omega), Nat.add_sub_cancel, hag (k + 1) (by omega) (by omega)] at r
        have i1 := key (k + 1) (by omega)
        have i0 := key k (by omega)
        have e := congrArg (eval (x i)) (h.rec_succ k)
        simp only [eval_mul, eval_X, eval_add, eval_C] at e
        linear_combination c * r + u 0 * e - a (k + 1) * i0 + (x i - b (k + 1)) * i1
  let W : ℝ[X] →ₗ[ℝ] ℝ := ∑ i, (Q 0 i ^ 2 / c ^ 2) • ((aeval (x i)).toLinearMap)
  have hW : ∀ g, W g = ∑ i, Q 0 i ^ 2 / c ^ 2 * g.eval (x i) := by
    intro g; simp [W, aeval_def, eval₂_eq_eval_map]
  have hc := h.c_ne
  rw [← hW]
  refine h.eq_of_products m W ?_ f hf
  intro j hj k hk
  rw [hW, h.orth]
  by_cases hj' : j = m + 1
  · rw [if_neg (by omega), hj']
    have ha := h.a_ne m
    have : ∀ i, Q 0 i ^ 2 / c ^ 2 * (p (m + 1) * p k).eval (x i) =
        a' (m + 1) / a (m + 1) * (Q ⟨m + 1, by omega⟩ i * Q ⟨k, by omega⟩ i) := by
      intro i
      obtain ⟨h1, h2⟩ := hcol i
      have h1 := h1 k hk
      rw [eval_mul, div_mul_eq_mul_div, div_mul_eq_mul_div, div_eq_div_iff (by positivity) ha]
      linear_combination -(Q 0 i * (p k).eval (x i)) * h2 - a' (m + 1) * Q ⟨m + 1, by omega⟩ i * c * h1
    simp only [this]
    rw [← Finset.mul_sum, hQ', if_neg (by simp; omega), mul_zero]
  · have : ∀ i, Q 0 i ^ 2 / c ^ 2 * (p j * p k).eval (x i) = Q ⟨j, by omega⟩ i * Q ⟨k, by omega⟩ i := by
      intro i
      obtain ⟨h1, -⟩ := hcol i
      have h2 := h1 k hk
      have h1 := h1 j (by omega)
      rw [eval_mul, div_mul_eq_mul_div, div_eq_iff (by positivity)]
      linear_combination -(Q 0 i * (p j).eval (x i)) * h2 - (Q ⟨k, by omega⟩ i * c) * h1
    simp only [this]
    rw [hQ']
    simp [Fin.ext_iff]

end Modepy

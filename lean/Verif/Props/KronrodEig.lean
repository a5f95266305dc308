import Verif.Proofs.Continuant
import Verif.Props.Gauss

/-!
# Property C56: the tridiagonal eigenvalue helpers of the Kronrod construction
-/

namespace Modepy
open Polynomial Matrix

/-! ## `_eigpoly` -/

theorem eigpoly_fold (b : Nat → ℝ) (z : ℝ) (m : Nat) :
    (List.range' 2 m).foldl (eigpolyStep b z) ⟨z, 1, 1, 0⟩ =
      ⟨(cont (fun i => b i ^ 2) (m + 1)).eval z, (derivative (cont (fun i => b i ^ 2) (m + 1))).eval z,
        (cont (fun i => b i ^ 2) m).eval z, (derivative (cont (fun i => b i ^ 2) m)).eval z⟩ := by
  induction m with
  | zero => simp
  | succ m ih =>
    rw [List.range'_1_concat, List.foldl_append, ih]
    simp only [List.foldl_cons, List.foldl_nil, eigpolyStep, Nat.add_sub_cancel_left, cont_add_two,
      derivative_sub, derivative_mul, derivative_X, derivative_C, eval_sub, eval_mul, eval_add, eval_X, eval_C, eval_one, eval_zero]
    congr 1
    ring

theorem eigpoly_eq (b : Nat → ℝ) (len : Nat) (z : ℝ) (m : Nat) (hm : 1 ≤ m) :
    eigpoly b len z (some m) = ((cont (fun i => b i ^ 2) m).eval z, (derivative (cont (fun i => b i ^ 2) m)).eval z) := by
  have h : m + 1 - 2 = m - 1 := by omega
  simp only [eigpoly, Option.getD_some, h, eigpoly_fold, Nat.sub_add_cancel hm]

/-- **C56 (characteristic polynomial).**  `_eigpoly(b, z, m)` returns `det(z I - H)` and its derivative in `z`, for the
symmetric `m × m` matrix `H` with zero diagonal and off-diagonal entries `b`. -/
theorem C56_charpoly (b : Nat → ℝ) (len : Nat) (z : ℝ) (m : Nat) (hm : 1 ≤ m) :
    eigpoly b len z (some m) =
      ((z • (1 : Matrix (Fin m) (Fin m) ℝ) - eignewtMatrix b m).det,
        deriv (fun y => (y • (1 : Matrix (Fin m) (Fin m) ℝ) - eignewtMatrix b m).det) z) := by
  have h : ∀ y : ℝ, (y • (1 : Matrix (Fin m) (Fin m) ℝ) - eignewtMatrix b m).det =
      (cont (fun i => b i ^ 2) m).eval y := by
    intro y
    rw [← charpoly_eignewtMatrix, Matrix.eval_charpoly]
    congr 2
    ext i j
    simp [Matrix.scalar_apply, Matrix.diagonal_apply, Matrix.one_apply]
  simp only [h, eigpoly_eq b len z m hm, Polynomial.deriv]

/-- The default `m = len(b) + 1`. -/
theorem C56_default (b : Nat → ℝ) (len : Nat) (z : ℝ) : eigpoly b len z none = eigpoly b len z (some (len + 1)) ∧
    eigvec1 b len z none = eigvec1 b len z (some (len + 1)) := ⟨rfl, rfl⟩

/-! ## `_eigvec1` -/

theorem eigvecRaw_eq (b : Nat → ℝ) (z : ℝ) (m : Nat) (hb : ∀ i, i < m → b i ≠ 0) :
    ∀ k ≤ m, (∏ i ∈ Finset.range k, b i) * eigvecRaw b z k = (cont (fun i => b i ^ 2) k).eval z := by
  intro k
  induction k using Nat.strong_induction_on with
  | _ k ih =>
    match k with
    | 0 => simp [eigvecRaw]
    | 1 =>
      intro h
      have := hb 0 (by omega)
      simp [eigvecRaw]
      field_simp
    | k + 2 =>
      intro h
      have h0 := ih k (by omega) (by omega)
      have h1 := ih (k + 1) (by omega) (by omega)
      rw [Finset.prod_range_succ] at h1
      have hb1 := hb (k + 1) (by omega)
      rw [cont_add_two, eval_sub, eval_mul, eval_mul, eval_X, eval_C, ← h0, ← h1, Finset.prod_range_succ,
        Finset.prod_range_succ, eigvecRaw]
      field_simp
      ring

theorem eigvecRaw_rec (b : Nat → ℝ) (z : ℝ) (k : Nat) (hb : b k ≠ 0) :
    b k * eigvecRaw b z (k + 1) + (if k = 0 then 0 else b (k - 1) * eigvecRaw b z (k - 1)) = z * eigvecRaw b z k := by
  cases k with
  | zero =>
    simp [eigvecRaw]
    field_simp
  | succ k =>
    simp only [Nat.add_sub_cancel, Nat.add_eq_zero_iff, one_ne_zero, and_false, if_false]
    rw [show k + 1 + 1 = k + 2 by ring, eigvecRaw]
    field_simp
    ring

theorem eignewtMatrix_row (b : Nat → ℝ) (m : Nat) (u : Nat → ℝ) (i : Fin m) :
    ∑ j : Fin m, eignewtMatrix b m i j * u j =
      (if (i : Nat) = 0 then 0 else b (i - 1) * u (i - 1)) + (if (i : Nat) + 1 < m then b i * u (i + 1) else 0) := by
  have h1 : ∀ j : Fin m, eignewtMatrix b m i j * u j =
      (if (i : Nat) = 0 then 0 else if (j : Nat) = i - 1 then b (i - 1) * u (i - 1) else 0) +
      (if (j : Nat) = i + 1 then b i * u (i + 1) else 0) := by
    intro j
    simp only [eignewtMatrix, of_apply]
    by_cases e1 : (i : Nat) + 1 = j
    · rw [if_pos e1, if_pos e1.symm, e1]
      by_cases e2 : (i : Nat) = 0
      · rw [if_pos e2, zero_add]
      · rw [if_neg e2, if_neg (by omega), zero_add]
    · rw [if_neg e1, if_neg (by omega : ¬ (j : Nat) = i + 1)]
      by_cases e2 : (j : Nat) + 1 = i
      · rw [if_pos e2, if_neg (by omega), if_pos (by omega), ← e2]
        simp
      · rw [if_neg e2]
        by_cases e3 : (i : Nat) = 0
        · simp [e3]
        · rw [if_neg e3, if_neg (by omega)]
          simp
  rw [Finset.sum_congr rfl fun j _ => h1 j, Finset.sum_add_distrib]
  have hi := i.2
  have s2 : ∑ j : Fin m, (if (i : Nat) = 0 then 0 else
      if (j : Nat) = i - 1 then b (i - 1) * u (i - 1) else 0) =
      if (i : Nat) = 0 then 0 else b (i - 1) * u (i - 1) := by
    by_cases e : (i : Nat) = 0
    · simp [e]
    · simp only [if_neg e]
      rw [Fin.sum_univ_eq_sum_range (fun j => if j = (i : Nat) - 1 then b (i - 1) * u (i - 1) else 0),
        Finset.sum_ite_eq', if_pos (Finset.mem_range.2 (by omega))]
  have s3 : ∑ j : Fin m, (if (j : Nat) = i + 1 then b i * u (i + 1) else 0) =
      if (i : Nat) + 1 < m then b i * u (i + 1) else 0 := by
    rw [Fin.sum_univ_eq_sum_range (fun j => if j = (i : Nat) + 1 then b i * u (i + 1) else 0),
      Finset.sum_ite_eq']
    simp
  rw [s2, s3]

theorem eigvecRaw_sq_pos (b : Nat → ℝ) (z : ℝ) (m : Nat) (hm : 1 ≤ m) :
    0 < ∑ k ∈ Finset.range m, eigvecRaw b z k ^ 2 := by
  refine Finset.sum_pos' (fun k _ => sq_nonneg _) ⟨0, Finset.mem_range.2 hm, ?_⟩
  simp [eigvecRaw]

theorem eigvec1_getD (b : Nat → ℝ) (len : Nat) (z : ℝ) (m : Nat) (hm : 1 ≤ m) (k : Nat) (hk : k < m) :
    (eigvec1 b len z (some m)).getD k 0 = eigvecRaw b z k / Real.sqrt (∑ k ∈ Finset.range m, eigvecRaw b z k ^ 2) := by
  have hsum : (((List.range m).map (eigvecRaw b z)).map fun x => x ^ 2).sum =
      ∑ k ∈ Finset.range m, eigvecRaw b z k ^ 2 := by
    rw [List.map_map]
    rfl
  by_cases h1 : m > 1
  · simp only [eigvec1, Option.getD_some, if_pos h1, hsum]
    simp [List.getD_eq_getElem?_getD, hk]
  · have : m = 1 := by omega
    subst this
    have : k = 0 := by omega
    subst this
    simp [eigvec1, eigvecRaw]

theorem eigvec1_length (b : Nat → ℝ) (len : Nat) (z : ℝ) (m : Nat) : (eigvec1 b len z (some m)).length = m := by
  simp only [eigvec1, Option.getD_some]
  split <;> simp

/-- **C56 (eigenvector).**  For nonzero off-diagonal entries, `_eigvec1(b, z, m)` has `m` entries, positive first entry and
unit length, and solves all rows but the last of `H v = z v`; it is an eigenvector exactly when `z` is an eigenvalue. -/
theorem C56_vector (b : Nat → ℝ) (len : Nat) (z : ℝ) (m : Nat) (hm : 1 ≤ m) (hb : ∀ i, i + 1 < m → b i ≠ 0) :
    let v : Fin m → ℝ := fun k => (eigvec1 b len z (some m)).getD k 0
    (eigvec1 b len z (some m)).length = m ∧ 0 < (eigvec1 b len z (some m)).getD 0 0 ∧ ∑ k, v k ^ 2 = 1 ∧
      (∀ i : Fin m, (i : Nat) + 1 < m → (eignewtMatrix b m).mulVec v i = z * v i) ∧
      ((eignewtMatrix b m).mulVec v = z • v ↔ (z • (1 : Matrix (Fin m) (Fin m) ℝ) - eignewtMatrix b m).det = 0) := by
  intro v
  have hv : ∀ k : Fin m, v k = eigvecRaw b z k / Real.sqrt (∑ k ∈ Finset.range m, eigvecRaw b z k ^ 2) :=
    fun k => eigvec1_getD b len z m hm k k.2
  have hpos := eigvecRaw_sq_pos b z m hm
  have hs := Real.sqrt_pos.2 hpos
  set S := ∑ k ∈ Finset.range m, eigvecRaw b z k ^ 2 with hS
  have hmul : ∀ i : Fin m, (eignewtMatrix b m).mulVec v i =
      ((if (i : Nat) = 0 then 0 else b (i - 1) * eigvecRaw b z (i - 1)) +
        (if (i : Nat) + 1 < m then b i * eigvecRaw b z (i + 1) else 0)) / Real.sqrt S := by
    intro i
    rw [Matrix.mulVec, dotProduct, ← eignewtMatrix_row b m (eigvecRaw b z) i, Finset.sum_div]
    apply Finset.sum_congr rfl
    intro j _
    rw [hv]
    ring
  have hrow : ∀ i : Fin m, (i : Nat) + 1 < m → (eignewtMatrix b m).mulVec v i = z * v i := by
    intro i hi
    have := eigvecRaw_rec b z i (hb i hi)
    rw [hmul, hv, if_pos hi, add_comm, this]
    ring
  refine ⟨eigvec1_length b len z m, ?_, ?_, hrow, ?_⟩
  · rw [eigvec1_getD b len z m hm 0 (by omega)]
    simp only [eigvecRaw]
    positivity
  · simp only [hv, div_pow, Real.sq_sqrt hpos.le, ← Finset.sum_div]
    rw [Fin.sum_univ_eq_sum_range (fun k => eigvecRaw b z k ^ 2)]
    exact div_self hpos.ne'
  · have hdet : (z • (1 : Matrix (Fin m) (Fin m) ℝ) - eignewtMatrix b m).det = (cont (fun i => b i ^ 2) m).eval z := by
      have h1 := C56_charpoly b len z m hm
      rw [eigpoly_eq b len z m hm] at h1
      exact (congrArg Prod.fst h1).symm
    rw [hdet]
    obtain ⟨m, rfl⟩ : ∃ k, m = k + 1 := ⟨m - 1, by omega⟩
    have hraw := eigvecRaw_eq b z m (fun i hi => hb i (by omega))
    have hprod : ∏ i ∈ Finset.range m, b i ≠ 0 :=
      Finset.prod_ne_zero_iff.2 fun i hi => hb i (by have := Finset.mem_range.1 hi; omega)
    -- the last row
    have hlast : (∏ i ∈ Finset.range m, b i) * Real.sqrt S *
        (z * v (Fin.last m) - (eignewtMatrix b (m + 1)).mulVec v (Fin.last m)) =
        (cont (fun i => b i ^ 2) (m + 1)).eval z := by
      rw [hmul, hv]
      simp only [Fin.val_last, lt_irrefl, if_false, add_zero]
      cases m with
      | zero =>
        simp [eigvecRaw]
        field_simp
      | succ k =>
        rw [if_neg (by omega), Nat.add_sub_cancel, show k + 1 + 1 = k + 2 by ring, cont_add_two, eval_sub, eval_mul, eval_mul,
          eval_X, eval_C, ← hraw (k + 1) le_rfl, ← hraw k (by omega), Finset.prod_range_succ]
        field_simp
    constructor
    · intro he
      have := congrFun he (Fin.last m)
      rw [Pi.smul_apply, smul_eq_mul] at this
      rw [← hlast, this, sub_self, mul_zero]
    · intro h0
      rw [h0] at hlast
      have h1 : z * v (Fin.last m) - (eignewtMatrix b (m + 1)).mulVec v (Fin.last m) = 0 := by
        rcases mul_eq_zero.1 hlast with h | h
        · exact absurd h (mul_ne_zero hprod hs.ne')
        · exact h
      funext i
      by_cases hi : (i : Nat) + 1 < m + 1
      · exact hrow i hi
      · have : i = Fin.last m := Fin.ext (by simp; omega)
        rw [this]
        simp only [Pi.smul_apply, smul_eq_mul]
        linarith

/-! ## `_eignewt` -/

theorem newtonLoop_root (p : ℝ → ℝ × ℝ) (z : ℝ) (hz : (p z).1 = 0) : ∀ k, newtonLoop p k z = z
  | 0 => rfl
  | k + 1 => by
    simp only [newtonLoop, hz, zero_div, sub_zero]
    rw [newtonLoop_root p z hz k]
    split_ifs <;> rfl

/-- The contract of `numpy.linalg.eigvalsh`: ascending eigenvalues, with multiplicity (there is an orthonormal eigenbasis in
that order). -/
def EigvalshOk (eigvalsh : Eigvalsh) : Prop :=
  ∀ (m : Nat) (T : Matrix (Fin m) (Fin m) ℝ), T.IsSymm → ∃ Q, IsEigh T (eigvalsh m T) Q

theorem exists_eigvalshOk : ∃ eigvalsh : Eigvalsh, EigvalshOk eigvalsh := by
  obtain ⟨ext, h⟩ := exists_eighOk
  exact ⟨fun m T => (ext.eigh m T).1, fun m T hT => ⟨_, h m T hT⟩⟩

theorem eignewtMatrix_isSymm (b : Nat → ℝ) (m : Nat) : (eignewtMatrix b m).IsSymm := by
  ext i j
  simp only [eignewtMatrix, transpose_apply, of_apply]
  by_cases h1 : (i : Nat) + 1 = j
  · rw [if_neg (by omega), if_pos h1, if_pos h1]
  · by_cases h2 : (j : Nat) + 1 = i
    · rw [if_pos h2, if_neg h1, if_pos h2]
    · rw [if_neg h2, if_neg h1, if_neg h1, if_neg h2]

theorem eigenvalue_root {m : Nat} {T : Matrix (Fin m) (Fin m) ℝ} {x : Fin m → ℝ} {Q : Matrix (Fin m) (Fin m) ℝ}
    (h : IsEigh T x Q) : T.charpoly = ∏ i, (X - C (x i)) := by
  have hQ : Q * Qᵀ = 1 := mul_eq_one_comm.1 h.orth
  have hT : T = Q * Matrix.diagonal x * Qᵀ := by
    rw [← h.eig, Matrix.mul_assoc, hQ, Matrix.mul_one]
  let U : (Matrix (Fin m) (Fin m) ℝ)ˣ := ⟨Q, Qᵀ, hQ, h.orth⟩
  have hinv : Qᵀ = (U.val)⁻¹ := (Matrix.inv_eq_right_inv hQ).symm
  have h2 : T = U.val * Matrix.diagonal x * (U.val)⁻¹ := by rw [← hinv]; exact hT
  rw [h2, Matrix.charpoly_units_conj, Matrix.charpoly_of_upperTriangular _ (Matrix.blockTriangular_diagonal x)]
  simp

/-- `_eignewt` returns the first of the exact eigenvalues. -/
theorem eignewt_eq (eigvalsh : Eigvalsh) (h : EigvalshOk eigvalsh) (b : Nat → ℝ) (m n : Nat) :
    eignewt eigvalsh b m n = (List.ofFn (eigvalsh m (eignewtMatrix b m))).take n := by
  obtain ⟨Q, hQ⟩ := h m (eignewtMatrix b m) (eignewtMatrix_isSymm b m)
  have hsort : (List.ofFn (eigvalsh m (eignewtMatrix b m))).mergeSort = List.ofFn (eigvalsh m (eignewtMatrix b m)) := by
    apply List.mergeSort_of_pairwise
    have := hQ.sorted
    rw [List.pairwise_ofFn]
    intro i j hij
    simpa using this hij.le
  simp only [eignewt, hsort]
  conv_rhs => rw [← List.map_id ((List.ofFn (eigvalsh m (eignewtMatrix b m))).take n)]
  apply List.map_congr_left
  intro z hz
  have hz := List.mem_of_mem_take hz
  rw [List.mem_ofFn] at hz
  obtain ⟨i, rfl⟩ := hz
  have hm : 1 ≤ m := by have := i.2; omega
  have h0 : (eigpoly b (m - 1) (eigvalsh m (eignewtMatrix b m) i) (some m)).1 = 0 := by
    rw [eigpoly_eq b _ _ m hm]
    simp only
    rw [← charpoly_eignewtMatrix, eigenvalue_root hQ, eval_prod]
    exact Finset.prod_eq_zero (Finset.mem_univ i) (by simp)
  simp only [newtonRefine, id_eq]
  rw [newtonLoop_root (fun z => eigpoly b (m - 1) z (some m)) _ h0, h0]
  simp

/-- **C56 (Newton refinement).**  Starting from the exact eigenvalues delivered by `eigvalsh`, `_eignewt(b, m, n)` returns the
`n` smallest eigenvalues of `H`, in ascending order. -/
theorem C56_newton (eigvalsh : Eigvalsh) (h : EigvalshOk eigvalsh) (b : Nat → ℝ) (m n : Nat) :
    ∃ x : Fin m → ℝ, Monotone x ∧ (eignewtMatrix b m).charpoly = ∏ i, (X - C (x i)) ∧
      eignewt eigvalsh b m n = (List.ofFn x).take n := by
  obtain ⟨Q, hQ⟩ := h m (eignewtMatrix b m) (eignewtMatrix_isSymm b m)
  refine ⟨_, hQ.sorted, eigenvalue_root hQ, eignewt_eq eigvalsh h b m n⟩

/-- The hypotheses hold for the three point matrix with `b = (1/2, 1/3)`: `det(z I - H) = z³ - (1/4 + 1/9) z`. -/
example : eigpoly (fun i => if i = 0 then 1 / 2 else 1 / 3) 2 2 (some 3) = (8 - 2 * (1 / 4 + 1 / 9), 12 - (1 / 4 + 1 / 9)) := by
  norm_num [eigpoly, eigpolyStep, List.range']

end Modepy

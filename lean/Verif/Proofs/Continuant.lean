import Mathlib.LinearAlgebra.Matrix.Charpoly.Basic
import Mathlib.Algebra.Polynomial.Derivative
import Mathlib.Algebra.Polynomial.Monic
import Mathlib.Data.Real.Basic
import Mathlib.Tactic.LinearCombination
import Mathlib.Tactic.FieldSimp
import Verif.Model.Kronrod

/-!
# Characteristic polynomials of symmetric tridiagonal matrices with zero diagonal
-/

namespace Modepy
open Polynomial Matrix

/-- The polynomials with `p₀ = 1`, `p₁ = X`, `p_{m+2} = X p_{m+1} - β_m p_m`. -/
noncomputable def cont (β : Nat → ℝ) : Nat → ℝ[X]
  | 0 => 1
  | 1 => X
  | m + 2 => X * cont β (m + 1) - C (β m) * cont β m

@[simp] theorem cont_zero (β : Nat → ℝ) : cont β 0 = 1 := by rw [cont]
@[simp] theorem cont_one (β : Nat → ℝ) : cont β 1 = X := by rw [cont]
theorem cont_add_two (β : Nat → ℝ) (m : Nat) :
    cont β (m + 2) = X * cont β (m + 1) - C (β m) * cont β m := by rw [cont]

theorem cont_congr {β γ : Nat → ℝ} (m : Nat) (h : ∀ i, i + 1 < m → β i = γ i) : cont β m = cont γ m := by
  induction m using Nat.strong_induction_on with
  | _ m ih =>
    match m with
    | 0 => simp
    | 1 => simp
    | m + 2 =>
      rw [cont_add_two, cont_add_two, ih (m + 1) (by omega) fun i hi => h i (by omega),
        ih m (by omega) fun i hi => h i (by omega), h m (by omega)]

/-- Splitting at position `m`. -/
theorem cont_split (β : Nat → ℝ) (m k : Nat) :
    cont β (m + 1 + (k + 1)) = cont β (m + 1) * cont (fun i => β (m + 1 + i)) (k + 1) -
      C (β m) * cont β m * cont (fun i => β (m + 2 + i)) k := by
  induction k using Nat.strong_induction_on with
  | _ k ih =>
    match k with
    | 0 =>
      rw [show m + 1 + (0 + 1) = m + 2 by ring, cont_add_two]
      simp
      ring
    | 1 =>
      rw [show m + 1 + (1 + 1) = (m + 1) + 2 by ring, cont_add_two, show m + 1 + 1 = m + 2 by ring, cont_add_two,
        cont_add_two]
      simp
      ring
    | k + 2 =>
      have e1 : cont β (m + 1 + (k + 2 + 1)) =
          X * cont β (m + 1 + (k + 1 + 1)) - C (β (m + 2 + k)) * cont β (m + 1 + (k + 1)) := by
        rw [show m + 1 + (k + 2 + 1) = (m + 2 + k) + 2 by ring, cont_add_two]
        rw [show m + 2 + k + 1 = m + 1 + (k + 1 + 1) by ring, show m + 1 + (k + 1) = m + 2 + k by ring]
      have e2 : cont (fun i => β (m + 1 + i)) (k + 2 + 1) =
          X * cont (fun i => β (m + 1 + i)) (k + 1 + 1) - C (β (m + 2 + k)) * cont (fun i => β (m + 1 + i)) (k + 1) := by
        rw [show k + 2 + 1 = (k + 1) + 2 by ring, cont_add_two, show m + 1 + (k + 1) = m + 2 + k by ring]
      rw [e1, e2, cont_add_two (fun i => β (m + 2 + i)) k, ih (k + 1) (by omega), ih k (by omega)]
      ring

/-- Expansion at the first row. -/
theorem cont_first (β : Nat → ℝ) (k : Nat) :
    cont β (k + 2) = X * cont (fun i => β (i + 1)) (k + 1) - C (β 0) * cont (fun i => β (i + 2)) k := by
  have := cont_split β 0 k
  rw [show 0 + 1 + (k + 1) = k + 2 by ring] at this
  rw [this]
  simp [Nat.add_comm]

theorem cont_monic (β : Nat → ℝ) (m : Nat) : (cont β m).Monic ∧ (cont β m).natDegree = m := by
  induction m using Nat.strong_induction_on with
  | _ m ih =>
    match m with
    | 0 => simp
    | 1 => exact ⟨by rw [cont_one]; exact monic_X, by simp⟩
    | m + 2 =>
      obtain ⟨h1, d1⟩ := ih (m + 1) (by omega)
      obtain ⟨h0, d0⟩ := ih m (by omega)
      have hm : (X * cont β (m + 1)).Monic := monic_X.mul h1
      have hd : (X * cont β (m + 1)).natDegree = m + 2 := by
        rw [natDegree_X_mul h1.ne_zero, d1]
      have hlt : (C (β m) * cont β m).degree < (X * cont β (m + 1)).degree := by
        rw [degree_eq_natDegree hm.ne_zero, hd]
        refine lt_of_le_of_lt degree_le_natDegree ?_
        have := natDegree_C_mul_le (β m) (cont β m)
        rw [d0] at this
        exact_mod_cast (by omega : (C (β m) * cont β m).natDegree < m + 2)
      rw [cont_add_two]
      refine ⟨hm.sub_of_left hlt, ?_⟩
      rw [← hd]
      exact natDegree_eq_of_degree_eq (degree_sub_eq_left_of_degree_lt hlt)

theorem cont_neg (β : Nat → ℝ) (m : Nat) (x : ℝ) : (cont β m).eval (-x) = (-1) ^ m * (cont β m).eval x := by
  induction m using Nat.strong_induction_on with
  | _ m ih =>
    match m with
    | 0 => simp
    | 1 => simp
    | m + 2 =>
      rw [cont_add_two]
      simp only [eval_sub, eval_mul, eval_X, eval_C]
      rw [ih (m + 1) (by omega), ih m (by omega)]
      ring

theorem det_tridiag_first {R : Type} [CommRing R] (m : Nat) (A : Matrix (Fin (m + 2)) (Fin (m + 2)) R)
    (hr : ∀ j : Fin m, A 0 j.succ.succ = 0) (hc : ∀ i : Fin m, A i.succ.succ 0 = 0) :
    A.det = A 0 0 * (A.submatrix Fin.succ Fin.succ).det -
      A 0 1 * A 1 0 * (A.submatrix (fun i : Fin m => i.succ.succ) (fun i : Fin m => i.succ.succ)).det := by
  have h2 : (A.submatrix Fin.succ (Fin.succAbove 1)).det =
      A 1 0 * (A.submatrix (fun i : Fin m => i.succ.succ) (fun i : Fin m => i.succ.succ)).det := by
    rw [det_succ_column_zero, Fin.sum_univ_succ, Finset.sum_eq_zero]
    · simp only [submatrix_apply, Fin.val_zero, pow_zero, one_mul, Fin.succAbove_zero, add_zero, submatrix_submatrix]
      have e0 : (Fin.succAbove (1 : Fin (m + 2)) 0) = 0 := rfl
      rw [e0]
      congr 2
    · intro i _
      have e0 : (Fin.succAbove (1 : Fin (m + 2)) 0) = 0 := rfl
      simp only [submatrix_apply, e0, hc]
      ring
  rw [det_succ_row_zero, Fin.sum_univ_succ, Fin.sum_univ_succ, Finset.sum_eq_zero]
  · simp only [Fin.val_zero, pow_zero, one_mul, Fin.succAbove_zero, add_zero, Fin.succ_zero_eq_one, Fin.val_one, pow_one,
      neg_mul]
    rw [h2]
    ring
  · intro j _
    rw [hr]
    ring

/-- The characteristic polynomial of the matrix of `_eignewt`. -/
theorem charpoly_eignewtMatrix (b : Nat → ℝ) (m : Nat) :
    (eignewtMatrix b m).charpoly = cont (fun i => b i ^ 2) m := by
  induction m using Nat.strong_induction_on generalizing b with
  | _ m ih =>
    match m with
    | 0 => simp [Matrix.charpoly]
    | 1 =>
      rw [Matrix.charpoly, Matrix.det_fin_one, Matrix.charmatrix_apply]
      simp [eignewtMatrix]
    | m + 2 =>
      rw [Matrix.charpoly, det_tridiag_first m]
      · rw [cont_first]
        have e1 : ((eignewtMatrix b (m + 2)).charmatrix.submatrix Fin.succ Fin.succ) =
            (eignewtMatrix (fun i => b (i + 1)) (m + 1)).charmatrix := by
          ext1 i j
          simp [charmatrix_apply, eignewtMatrix, Matrix.diagonal_apply]
        have e2 : ((eignewtMatrix b (m + 2)).charmatrix.submatrix (fun i : Fin m => i.succ.succ)
            (fun i : Fin m => i.succ.succ)) = (eignewtMatrix (fun i => b (i + 2)) m).charmatrix := by
          ext1 i j
          simp [charmatrix_apply, eignewtMatrix, Matrix.diagonal_apply]
        have h1 := ih (m + 1) (by omega) (fun i => b (i + 1))
        have h2 := ih m (by omega) (fun i => b (i + 2))
        rw [Matrix.charpoly] at h1 h2
        rw [e1, e2, h1, h2]
        simp [eignewtMatrix]
        left
        ring
      · intro j
        rw [charmatrix_apply]
        simp [eignewtMatrix, Fin.ext_iff]
      · intro j
        rw [charmatrix_apply]
        simp [eignewtMatrix, Fin.ext_iff]

end Modepy

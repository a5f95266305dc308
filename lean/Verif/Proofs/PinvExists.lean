import Mathlib.Analysis.Matrix.Spectrum
import Mathlib.LinearAlgebra.Matrix.DotProduct
import Mathlib.Algebra.Order.Star.Real
import Verif.Model.Matrices

/-! Every real matrix has a Moore-Penrose pseudoinverse, so the contract `IsPinv` for `scipy.linalg.pinv` can be met. -/

namespace Modepy

open Matrix

theorem exists_symm_pinv {n : Nat} (G : Matrix (Fin n) (Fin n) ℝ) (hG : G.IsHermitian) :
    ∃ H : Matrix (Fin n) (Fin n) ℝ, G * H * G = G ∧ H * G * H = H ∧ H * G = G * H ∧ Hᵀ = H := by
  have hs := hG.spectral_theorem
  set f := Unitary.conjStarAlgAut ℝ _ hG.eigenvectorUnitary with hf
  set d : Fin n → ℝ := RCLike.ofReal ∘ hG.eigenvalues with hd
  refine ⟨f (diagonal fun i => (d i)⁻¹), ?_, ?_, ?_, ?_⟩
  · rw [hs, ← map_mul, ← map_mul, diagonal_mul_diagonal, diagonal_mul_diagonal]
    congr 2
    funext i
    exact mul_inv_mul_cancel (d i)
  · rw [hs, ← map_mul, ← map_mul, diagonal_mul_diagonal, diagonal_mul_diagonal]
    congr 2
    funext i
    by_cases h : d i = 0
    · simp [h]
    · rw [inv_mul_cancel₀ h, one_mul]
  · rw [hs, ← map_mul, ← map_mul, diagonal_mul_diagonal, diagonal_mul_diagonal]
    congr 2
    funext i
    exact mul_comm _ _
  · rw [← conjTranspose_eq_transpose_of_trivial, ← star_eq_conjTranspose, ← map_star, star_eq_conjTranspose,
      diagonal_conjTranspose]
    rfl

theorem exists_isPinv {m n : Nat} (A : Matrix (Fin m) (Fin n) ℝ) : ∃ P, IsPinv A P := by
  have hG : (Aᵀ * A).IsHermitian := by
    rw [Matrix.IsHermitian, conjTranspose_eq_transpose_of_trivial, transpose_mul, transpose_transpose]
  obtain ⟨H, h1, h2, h3, h4⟩ := exists_symm_pinv (Aᵀ * A) hG
  have hgt : (Aᵀ * A)ᵀ = Aᵀ * A := by rw [transpose_mul, transpose_transpose]
  have hpa : (H * (Aᵀ * A))ᵀ = H * (Aᵀ * A) := by rw [transpose_mul, hgt, h4, h3]
  have hA : A - A * (H * (Aᵀ * A)) = 0 := by
    rw [← conjTranspose_mul_self_eq_zero, conjTranspose_eq_transpose_of_trivial, transpose_sub, transpose_mul, hpa,
      Matrix.sub_mul, Matrix.mul_sub, Matrix.mul_sub]
    have e1 : Aᵀ * (A * (H * (Aᵀ * A))) = Aᵀ * A := by
      rw [← Matrix.mul_assoc, ← Matrix.mul_assoc, h1]
    have e2 : H * (Aᵀ * A) * Aᵀ * A = Aᵀ * A := by rw [h3, Matrix.mul_assoc, h1]
    have e3 : H * (Aᵀ * A) * Aᵀ * (A * (H * (Aᵀ * A))) = Aᵀ * A := by
      rw [Matrix.mul_assoc, e1, h3, h1]
    rw [e1, e2, e3]
    simp
  refine ⟨H * Aᵀ, ⟨?_, ?_, ?_, ?_⟩⟩
  · rw [Matrix.mul_assoc, Matrix.mul_assoc H]
    exact (sub_eq_zero.1 hA).symm
  · rw [Matrix.mul_assoc H, ← Matrix.mul_assoc, h2]
  · rw [transpose_mul, transpose_mul, transpose_transpose, h4, Matrix.mul_assoc]
  · rw [Matrix.mul_assoc]
    exact hpa

end Modepy

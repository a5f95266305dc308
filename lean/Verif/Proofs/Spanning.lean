import Mathlib.RingTheory.MvPolynomial.Basic
import Mathlib.LinearAlgebra.FiniteDimensional.Lemmas
import Mathlib.LinearAlgebra.Dimension.Constructions
import Mathlib.Data.Real.Basic

/-!
# Families of polynomials with biorthogonal functionals span the polynomials of bounded degree
-/

namespace Modepy
open MvPolynomial

theorem span_of_biorthogonal {σ : Type*} [Finite σ] (Q : (σ →₀ ℕ) → MvPolynomial σ ℝ)
    (hdeg : ∀ m, (Q m).totalDegree ≤ m.sum fun _ e => e)
    (φ : (σ →₀ ℕ) → MvPolynomial σ ℝ →ₗ[ℝ] ℝ) (h1 : ∀ m, φ m (Q m) = 1)
    (h0 : ∀ m n, m ≠ n → φ m (Q n) = 0) :
    LinearIndependent ℝ Q ∧ ∀ N : Nat,
      Submodule.span ℝ (Q '' {m | (m.sum fun _ e => e) ≤ N}) = restrictTotalDegree σ ℝ N := by
  have hli : LinearIndependent ℝ Q := by
    rw [linearIndependent_iff']
    intro s g hg i hi
    have := congrArg (φ i) hg
    rw [map_sum, map_zero, Finset.sum_eq_single i] at this
    · simpa [h1] using this
    · intro b _ hb
      rw [map_smul, h0 i b (Ne.symm hb), smul_zero]
    · exact fun h => absurd hi h
  refine ⟨hli, fun N => ?_⟩
  have hfin : Set.Finite {m : σ →₀ ℕ | (m.sum fun _ e => e) ≤ N} := by
    have := (Set.Finite.pi' fun _ : σ => Set.finite_le_nat N).preimage
      (DFunLike.coe_injective (F := σ →₀ ℕ)).injOn
    refine this.subset ?_
    intro m hm k
    have h1 : m k ≤ m.sum fun _ e => e := by
      by_cases hk : k ∈ m.support
      · exact Finset.single_le_sum (f := fun k => m k) (fun _ _ => Nat.zero_le _) hk
      · rw [Finsupp.notMem_support_iff.1 hk]; exact Nat.zero_le _
    exact h1.trans hm
  have : Fintype {m : σ →₀ ℕ | (m.sum fun _ e => e) ≤ N} := hfin.fintype
  have hle : Submodule.span ℝ (Q '' {m | (m.sum fun _ e => e) ≤ N}) ≤ restrictTotalDegree σ ℝ N := by
    rw [Submodule.span_le]
    rintro p ⟨m, hm, rfl⟩
    rw [SetLike.mem_coe, mem_restrictTotalDegree]
    exact (hdeg m).trans hm
  apply Submodule.eq_of_le_of_finrank_le hle
  have h1 : Module.finrank ℝ (restrictTotalDegree σ ℝ N) =
      Fintype.card {m : σ →₀ ℕ | (m.sum fun _ e => e) ≤ N} :=
    Module.finrank_eq_card_basis (basisRestrictSupport ℝ _)
  have h2 := finrank_span_eq_card (R := ℝ) (hli.comp (Subtype.val :
    {m : σ →₀ ℕ | (m.sum fun _ e => e) ≤ N} → _) Subtype.val_injective)
  rw [h1, ← h2, Set.range_comp, Subtype.range_coe]

end Modepy

import Verif.Proofs.JacobiGauss
import Verif.Spec.Quadrature
import Verif.Proofs.QuadArrays
import Mathlib.Analysis.Matrix.Spectrum
import Mathlib.Data.Fin.Tuple.Sort
import Mathlib.Order.Fin.Basic

/-!
# Property C27: Gauss–Jacobi quadrature
-/

namespace Modepy
open Spec Polynomial Matrix

/-! ## The contract of `eigh` can be met -/

theorem exists_isEigh {n : Nat} (T : Matrix (Fin n) (Fin n) ℝ) (hT : T.IsSymm) :
    ∃ x Q, IsEigh T x Q := by
  have hH : T.IsHermitian := by
    rw [Matrix.IsHermitian, conjTranspose_eq_transpose_of_trivial]; exact hT
  let σ := Tuple.sort hH.eigenvalues
  let U : Matrix (Fin n) (Fin n) ℝ := hH.eigenvectorUnitary
  have hU : Uᵀ * U = 1 := by
    have := hH.eigenvectorUnitary.2
    rw [mem_unitaryGroup_iff'] at this
    rwa [star_eq_conjTranspose, conjTranspose_eq_transpose_of_trivial] at this
  have hTU : T * U = U * diagonal hH.eigenvalues := by
    have h := hH.spectral_theorem
    rw [Unitary.conjStarAlgAut_apply] at h
    have hs : (star (hH.eigenvectorUnitary) : Matrix (Fin n) (Fin n) ℝ) * U = 1 := by
      rw [star_eq_conjTranspose, conjTranspose_eq_transpose_of_trivial]; exact hU
    calc T * U = (U * diagonal (RCLike.ofReal ∘ hH.eigenvalues) *
          (star (hH.eigenvectorUnitary) : Matrix (Fin n) (Fin n) ℝ)) * U := by
            conv_lhs => rw [h]
      _ = U * diagonal (RCLike.ofReal ∘ hH.eigenvalues) := by rw [Matrix.mul_assoc, hs, Matrix.mul_one]
      _ = U * diagonal hH.eigenvalues := by congr 1
  refine ⟨hH.eigenvalues ∘ σ, U.submatrix id σ, ?_, ?_, Tuple.monotone_sort _⟩
  · have := submatrix_mul_equiv Uᵀ U σ (Equiv.refl _) σ
    rw [hU, submatrix_one_equiv] at this
    rw [transpose_submatrix]
    exact this
  · ext i j
    have := congrFun (congrFun hTU i) (σ j)
    rw [Matrix.mul_apply, Matrix.mul_diagonal] at this
    rw [Matrix.mul_apply, Matrix.mul_diagonal]
    exact this

/-- There are external routines meeting the contract assumed below. -/
theorem exists_eighOk : ∃ ext : Ext, ext.EighOk := by
  classical
  refine ⟨⟨fun n T => if h : T.IsSymm then ((exists_isEigh T h).choose, (exists_isEigh T h).choose_spec.choose)
    else (0, 0), fun _ _ _ => (0, 0)⟩, ?_⟩
  intro n T hT
  simp only [dif_pos hT]
  exact (exists_isEigh T hT).choose_spec.choose_spec

/-! ## C27 -/

/-- The parameters for which `compute_weights_and_nodes` uses the eigenvalue algorithm. -/
def Spec.GaussParams (α β : ℝ) : Prop :=
  -1 < α ∧ -1 < β ∧ 1e-14 ≤ |α + β + 1| ∧ ¬ (|α + 0.5| < 1e-14 ∧ |β + 0.5| < 1e-14)

theorem Spec.GaussParams.jacobi {α β : ℝ} (h : GaussParams α β) : JacobiParams α β :=
  ⟨h.1, h.2.1, .inl h.2.2.1⟩

theorem Spec.GaussParams.ne {α β : ℝ} (h : GaussParams α β) : α + β + 1 ≠ 0 := by
  intro h0
  have := h.2.2.1
  rw [h0] at this
  norm_num at this

theorem compute_ok (ext : Ext) {α β : ℝ} (h : GaussParams α β) (N : Nat) :
    computeWeightsAndNodes ext N α β = .ok ((ext.eigh (N + 1) (gaussT α β N)).1,
      fun i => (ext.eigh (N + 1) (gaussT α β N)).2 0 i ^ 2 / (1 / Real.sqrt (jacNorm α β 0)) ^ 2) := by
  have h1 : (1.0e-14 : ℝ) = 1e-14 := by norm_num
  rw [computeWeightsAndNodes, if_neg (by rw [h1]; exact h.2.2.2), if_neg (by
    rw [h1, show (1.0 : ℝ) = 1 by norm_num]; have := h.2.2.1; linarith)]
  simp only [jacobi_eq h.jacobi, jacobiP_zero]

/-- Everything about the computed nodes and weights. -/
theorem compute_facts (ext : Ext) (hext : ext.EighOk) {α β : ℝ} (h : GaussParams α β) (N : Nat) :
    ∃ x w : Fin (N + 1) → ℝ, computeWeightsAndNodes ext N α β = .ok (x, w) ∧
      (∀ f : ℝ[X], f.natDegree ≤ 2 * N + 1 →
        ∑ i, w i * f.eval (x i) = ∫ t in (-1)..1, f.eval t * ((1 - t) ^ α * (1 + t) ^ β)) ∧
      (∀ i, 0 < w i) ∧ StrictMono x ∧ (∀ i, -1 < x i ∧ x i < 1) ∧
      (∀ i, (jpoly α β (N + 1)).eval (x i) = 0) := by
  obtain ⟨hα, hβ, -, -⟩ := id h
  have fam := jacobi_family h.jacobi h.ne
  have hE := hext (N + 1) (gaussT α β N) (tridiag_isSymm _ _ N)
  rw [gaussT_eq] at hE
  have hN := Real.sqrt_pos.2 (jacNorm_pos hα hβ 0)
  refine ⟨_, _, compute_ok ext h N, ?_, ?_, ?_⟩
  · intro f hf
    have := fam.exact N hE f hf
    rw [jacobiL_apply] at this
    rw [gaussT_eq, this]
    apply intervalIntegral.integral_congr
    intro t _
    simp only [jacobiWeight]
    ring
  · intro i
    have := (fam.eigh_column N hE i).2.1
    rw [gaussT_eq]
    positivity
  · have := fam.nodes N hE (-1) 1
      (fun g hg => jacobiL_sq_pos _ _ _ g hg fun t _ h2 => by simp; linarith)
      (fun g hg => jacobiL_sq_pos _ _ _ g hg fun t h1 _ => by simp; linarith)
    exact ⟨this.1, this.2, fun i => (fam.eigh_column N hE i).2.2⟩

/-- The rule object, for either value of `force_dim_axis`. -/
theorem gauss_ok (ext : Ext) (α β : ℝ) (N : Nat) (fd : Bool) (x w : Fin (N + 1) → ℝ)
    (h : computeWeightsAndNodes ext N α β = .ok (x, w)) :
    jacobiGaussQuadrature ext α β N .builtin fd =
      .ok ⟨nodes1D x fd, NdArray.ofFn w, some (.num (2 * N + 1)), none⟩ := by
  simp only [jacobiGaussQuadrature, h]
  rfl

/-- **C27.**  `JacobiGaussQuadrature(α, β, N)` has `N + 1` nodes (array shape `(N+1,)` or `(1, N+1)`),
integrates every polynomial of degree at most `exact_to = 2N + 1` exactly against `(1-x)^α (1+x)^β`,
has positive weights, and its nodes are distinct, ascending and inside `(-1, 1)`; for every `eigh`
meeting its documentation. -/
theorem C27_exact (ext : Ext) (hext : ext.EighOk) (α β : ℝ) (h : GaussParams α β) (N : Nat) (fd : Bool) :
    ∃ q, jacobiGaussQuadrature ext α β N .builtin fd = .ok q ∧
      q.getExactTo = .ok (.num (2 * N + 1)) ∧ ExactWeighted α β (2 * N + 1) q.call ∧
      q.nodes.shape = (if fd then [1, N + 1] else [N + 1]) ∧ q.weights.shape = [N + 1] ∧
      (∀ k ≤ N, 0 < q.weights.get [k]) ∧
      (∀ k ≤ N, ∃ t, q.node k = [t] ∧ -1 < t ∧ t < 1) ∧
      (∀ j k s t, j < k → k ≤ N → q.node j = [s] → q.node k = [t] → s < t) := by
  obtain ⟨x, w, hok, hex, hw, hx, hin, -⟩ := compute_facts ext hext h N
  refine ⟨_, gauss_ok ext α β N fd x w hok, rfl, ?_, nodes1D_shape x fd, rfl, ?_, ?_, ?_⟩
  · intro p hp
    rw [call_nodes1D]
    exact hex p hp
  · intro k hk
    have := ofFn_get w ⟨k, by omega⟩
    simp only at this ⊢
    rw [this]
    exact hw _
  · intro k hk
    exact ⟨_, node_nodes1D x _ _ fd _ ⟨k, by omega⟩, hin _⟩
  · intro j k s t hjk hk hs ht
    rw [node_nodes1D x _ _ fd _ ⟨j, by omega⟩] at hs
    rw [node_nodes1D x _ _ fd _ ⟨k, by omega⟩] at ht
    injection hs with hs; injection ht with ht
    rw [← hs, ← ht]
    exact hx (show (⟨j, _⟩ : Fin (N + 1)) < ⟨k, _⟩ from hjk)

/-- The weights sum to the total mass of the weight function. -/
theorem C27_mass (ext : Ext) (hext : ext.EighOk) (α β : ℝ) (h : GaussParams α β) (N : Nat) (fd : Bool) :
    ∃ q, jacobiGaussQuadrature ext α β N .builtin fd = .ok q ∧
      ((List.range (N + 1)).map fun k => q.weights.get [k]).sum =
        ∫ t in (-1)..1, ((1 - t) ^ α * (1 + t) ^ β) := by
  obtain ⟨x, w, hok, hex, -⟩ := compute_facts ext hext h N
  refine ⟨_, gauss_ok ext α β N fd x w hok, ?_⟩
  have := hex 1 (by simp)
  simp only [eval_one, mul_one, one_mul] at this
  rw [← this, sum_map_range_real, Finset.sum_range]
  simp only [ofFn_get]

/-- `exact_to` cannot be larger: the square of the next Jacobi polynomial, of degree `2N + 2`, is not
integrated exactly. -/
theorem C27_sharp (ext : Ext) (hext : ext.EighOk) (α β : ℝ) (h : GaussParams α β) (N : Nat) (fd : Bool) :
    ∃ q, jacobiGaussQuadrature ext α β N .builtin fd = .ok q ∧ ¬ ExactWeighted α β (2 * N + 2) q.call := by
  obtain ⟨x, w, hok, -, -, -, -, hroot⟩ := compute_facts ext hext h N
  refine ⟨_, gauss_ok ext α β N fd x w hok, ?_⟩
  intro hx
  have h1 := hx (jpoly α β (N + 1) * jpoly α β (N + 1)) (by
    refine natDegree_mul_le.trans ?_
    have := natDegree_jpoly α β (N + 1)
    omega)
  rw [call_nodes1D] at h1
  have h2 := C18_orthonormal α β h.jacobi (N + 1) (N + 1)
  simp only [eval_mul, List.headD_cons, hroot, eval_jpoly h.jacobi, mul_zero, Finset.sum_const_zero] at h1
  simp only [eval_jpoly h.jacobi] at h1 hroot
  rw [h2] at h1
  simp at h1

/-- Strictly increasing sequences of `N + 1` roots of a nonzero polynomial of degree at most `N + 1`. -/
theorem roots_unique {n : Nat} (p : ℝ[X]) (hp : p ≠ 0) (hd : p.natDegree ≤ n) (x y : Fin n → ℝ)
    (hx : StrictMono x) (hy : StrictMono y) (h1 : ∀ i, p.eval (x i) = 0) (h2 : ∀ i, p.eval (y i) = 0) :
    x = y := by
  have hall : ∀ z : Fin n → ℝ, StrictMono z → (∀ i, p.eval (z i) = 0) →
      Set.range z = (p.roots.toFinset : Set ℝ) := by
    intro z hz hr
    have hsub : Finset.image z Finset.univ ⊆ p.roots.toFinset := by
      intro t ht
      obtain ⟨i, -, rfl⟩ := Finset.mem_image.1 ht
      simp [hp, hr i]
    have hcard : p.roots.toFinset.card ≤ (Finset.image z Finset.univ).card := by
      rw [Finset.card_image_of_injective _ hz.injective]
      simp only [Finset.card_univ, Fintype.card_fin]
      exact (Multiset.toFinset_card_le _).trans ((card_roots' p).trans hd)
    rw [← Finset.eq_of_subset_of_card_le hsub hcard]
    simp
  exact (StrictMono.range_inj hx hy).1 ((hall x hx h1).trans (hall y hy h2).symm)

theorem jpoly_ne_zero {α β : ℝ} (h : JacobiParams α β) (n : Nat) : jpoly α β n ≠ 0 := by
  intro h0
  have := C18_orthonormal α β h n n
  simp only [← eval_jpoly h, h0, eval_zero, zero_mul, if_true] at this
  simp at this

/-- The rule does not depend on which `eigh` is used: nodes and weights are determined. -/
theorem C27_unique (ext ext' : Ext) (hext : ext.EighOk) (hext' : ext'.EighOk) (α β : ℝ)
    (h : GaussParams α β) (N : Nat) :
    computeWeightsAndNodes ext N α β = computeWeightsAndNodes ext' N α β := by
  obtain ⟨x, w, hok, hex, -, hx, -, hr⟩ := compute_facts ext hext h N
  obtain ⟨x', w', hok', hex', -, hx', -, hr'⟩ := compute_facts ext' hext' h N
  have hxx : x = x' := roots_unique _ (jpoly_ne_zero h.jacobi (N + 1)) (natDegree_jpoly _ _ _) x x' hx hx' hr hr'
  subst hxx
  have hww : w = w' := by
    funext i
    let g : ℝ[X] := ∏ k ∈ Finset.univ.erase i, (X - C (x k))
    have hg : g.natDegree = N := by
      rw [natDegree_prod_of_monic _ _ fun k _ => monic_X_sub_C _]
      simp
    have h0 : ∀ j, j ≠ i → g.eval (x j) = 0 := by
      intro j hij
      rw [eval_prod]
      exact Finset.prod_eq_zero (Finset.mem_erase.2 ⟨hij, Finset.mem_univ j⟩) (by simp)
    have h1 : g.eval (x i) ≠ 0 := by
      rw [eval_prod, Finset.prod_ne_zero_iff]
      intro k hk
      rw [eval_sub, eval_X, eval_C, sub_ne_zero]
      exact fun e => (Finset.mem_erase.1 hk).1 (hx.injective e).symm
    have e1 := hex g (by omega)
    have e2 := hex' g (by omega)
    rw [Finset.sum_eq_single i (fun j _ hj => by rw [h0 j hj, mul_zero]) (by simp)] at e1 e2
    exact mul_right_cancel₀ h1 (e1.trans e2.symm)
  rw [hok, hok', hww]

/-- `α + β = -1` is rejected outside the Chebyshev case. -/
theorem C27_rejects (ext : Ext) (α β : ℝ) (h : |α + β + 1| < 1e-14)
    (h' : ¬ (|α + 0.5| < 1e-14 ∧ |β + 0.5| < 1e-14)) (N : Nat) (fd : Bool) :
    jacobiGaussQuadrature ext α β N .builtin fd = .error .ValueError := by
  have h1 : (1.0e-14 : ℝ) = 1e-14 := by norm_num
  have : computeWeightsAndNodes ext N α β = .error .ValueError := by
    rw [computeWeightsAndNodes, if_neg (by rw [h1]; exact h'), if_pos (by
      rw [h1, show (1.0 : ℝ) = 1 by norm_num]; exact h)]
  simp only [jacobiGaussQuadrature, this]

/-- **C27.**  Non-vacuity: Legendre, Chebyshev of the second kind and unequal parameters; an `eigh`
meeting the contract exists; a rejected pair. -/
example : (∃ ext : Ext, ext.EighOk) ∧ GaussParams 0 0 ∧ GaussParams 0.5 0.5 ∧ GaussParams (-1/3) 2 ∧
    |(-1/3 : ℝ) + -2/3 + 1| < 1e-14 := by
  refine ⟨exists_eighOk, ⟨by norm_num, by norm_num, by norm_num, ?_⟩, ⟨by norm_num, by norm_num, ?_, ?_⟩,
    ⟨by norm_num, by norm_num, ?_, ?_⟩, ?_⟩ <;> norm_num [abs_of_pos]

end Modepy

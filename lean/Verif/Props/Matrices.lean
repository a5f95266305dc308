import Verif.Model.Matrices
import Verif.Spec.Interpolation
import Verif.Spec.Calculus
import Verif.Proofs.TensorNodes
import Mathlib.LinearAlgebra.Matrix.ToLinearEquiv
import Mathlib.Analysis.Calculus.Deriv.Add
import Mathlib.Analysis.Calculus.Deriv.Mul
import Mathlib.Tactic.FieldSimp

/-!
# Properties C38, C39, C41, C42: matrices
-/

namespace Modepy
open Matrix Spec

variable {K : Type*} [Field K] {X Y : Type*}

/-! ## Vandermonde matrices and unisolvence -/

theorem vandermonde_mulVec {m n : Nat} (φ : Fin n → X → K) (x : Fin m → X) (c : Fin n → K) (i : Fin m) :
    (vandermonde φ x *ᵥ c) i = combine φ c (x i) := by
  simp only [Matrix.mulVec, dotProduct, vandermonde, of_apply, combine]
  exact Finset.sum_congr rfl fun j _ => mul_comm _ _

theorem unisolvent_iff_det {n : Nat} (φ : Fin n → X → K) (x : Fin n → X) :
    Unisolvent φ x ↔ (vandermonde φ x).det ≠ 0 := by
  rw [ne_eq, ← Matrix.exists_mulVec_eq_zero_iff]
  constructor
  · rintro h ⟨v, hv, hz⟩
    exact hv (h v fun i => by rw [← vandermonde_mulVec, hz]; rfl)
  · intro h c hc
    by_contra hne
    exact h ⟨c, hne, funext fun i => by rw [vandermonde_mulVec, hc i]; rfl⟩

theorem isUnit_det {n : Nat} {φ : Fin n → X → K} {x : Fin n → X} (h : Unisolvent φ x) :
    IsUnit (vandermonde φ x).det := ((unisolvent_iff_det φ x).1 h).isUnit

theorem npSolve_ok {n m : Nat} {A : Matrix (Fin n) (Fin n) K} (h : A.det ≠ 0)
    (B : Matrix (Fin n) (Fin m) K) : npSolve A B = .ok (A⁻¹ * B) := if_neg h

/-! ## C38 -/

theorem castCols_rfl {n p : Nat} (A : Matrix (Fin p) (Fin n) K) : castCols rfl A = A := rfl

theorem resample_one {n : Nat} : (Matrix.of fun i j : Fin n => if i = j then (1 : K) else 0) = 1 := by
  ext i j; simp [Matrix.one_apply]

theorem resamplingMatrix_square {n p : Nat} (φ : Fin n → X → K) (new : Fin p → X) (old : Fin n → X)
    (ls : Bool) (P : Matrix (Fin n) (Fin n) K) (h : Unisolvent φ old) :
    resamplingMatrix φ new old ls P = .ok (vandermonde φ new * (vandermonde φ old)⁻¹) := by
  have hd := (unisolvent_iff_det φ old).1 h
  simp only [resamplingMatrix, dif_pos, castCols_rfl, resample_one, Matrix.mul_one]
  rw [npSolve_ok (by rwa [det_transpose])]
  simp [transpose_nonsing_inv]

/-- **C38 (interpolation).**  If the old nodes determine the functions in the span uniquely, the
resampling matrix exists and takes the values at the old nodes of every function in the span to its
values at the new nodes. -/
theorem C38_reproduces {n p : Nat} (φ : Fin n → X → K) (new : Fin p → X) (old : Fin n → X) (ls : Bool)
    (P : Matrix (Fin n) (Fin n) K) (h : Unisolvent φ old) :
    ∃ R, resamplingMatrix φ new old ls P = .ok R ∧
      ∀ (c : Fin n → K) (i : Fin p), ∑ j, R i j * combine φ c (old j) = combine φ c (new i) := by
  refine ⟨_, resamplingMatrix_square φ new old ls P h, ?_⟩
  intro c i
  have e : (fun j => combine φ c (old j)) = vandermonde φ old *ᵥ c :=
    funext fun j => (vandermonde_mulVec φ old c j).symm
  have : ((vandermonde φ new * (vandermonde φ old)⁻¹) *ᵥ fun j => combine φ c (old j)) i =
      combine φ c (new i) := by
    rw [e, mulVec_mulVec, Matrix.mul_assoc, nonsing_inv_mul _ (isUnit_det h), Matrix.mul_one,
      vandermonde_mulVec]
  exact this

/-- Otherwise (square but not unisolvent) `numpy` raises `LinAlgError`. -/
theorem C38_not_unisolvent {n p : Nat} (φ : Fin n → X → K) (new : Fin p → X) (old : Fin n → X)
    (ls : Bool) (P : Matrix (Fin n) (Fin n) K) (h : ¬ Unisolvent φ old) :
    resamplingMatrix φ new old ls P = .error .LinAlgError := by
  have hd : (vandermonde φ old).det = 0 := by
    by_contra hc; exact h ((unisolvent_iff_det φ old).2 hc)
  simp [resamplingMatrix, dif_pos, castCols_rfl, npSolve, hd]

/-- Resampling to the same nodes is the identity. -/
theorem C38_identity {n : Nat} (φ : Fin n → X → K) (old : Fin n → X) (ls : Bool)
    (P : Matrix (Fin n) (Fin n) K) (h : Unisolvent φ old) :
    resamplingMatrix φ old old ls P = .ok 1 := by
  rw [resamplingMatrix_square φ old old ls P h, mul_nonsing_inv _ (isUnit_det h)]

/-- Resampling `a → b` followed by `b → c` is resampling `a → c`. -/
theorem C38_compose {n p : Nat} (φ : Fin n → X → K) (a b : Fin n → X) (c : Fin p → X) (ls : Bool)
    (P : Matrix (Fin n) (Fin n) K) (ha : Unisolvent φ a) (hb : Unisolvent φ b) :
    ∃ Rab Rbc, resamplingMatrix φ b a ls P = .ok Rab ∧ resamplingMatrix φ c b ls P = .ok Rbc ∧
      resamplingMatrix φ c a ls P = .ok (Rbc * Rab) := by
  refine ⟨_, _, resamplingMatrix_square φ b a ls P ha, resamplingMatrix_square φ c b ls P hb, ?_⟩
  rw [resamplingMatrix_square φ c a ls P ha]
  congr 1
  rw [Matrix.mul_assoc, ← Matrix.mul_assoc (vandermonde φ b)⁻¹,
    nonsing_inv_mul _ (isUnit_det hb), Matrix.one_mul]

/-- **C38 (least squares).**  With more nodes than functions and `least_squares_ok`, functions in the
span are still reproduced exactly. -/
theorem C38_least_squares {n p m : Nat} (φ : Fin n → X → K) (new : Fin p → X) (old : Fin m → X)
    (P : Matrix (Fin n) (Fin m) K) (hP : IsPinv (vandermonde φ old) P) (hmn : m ≠ n)
    (h : Unisolvent φ old) :
    ∃ R, resamplingMatrix φ new old true P = .ok R ∧
      ∀ (c : Fin n → K) (i : Fin p), ∑ j, R i j * combine φ c (old j) = combine φ c (new i) := by
  refine ⟨vandermonde φ new * P, by simp [resamplingMatrix, hmn, resample_one], ?_⟩
  intro c i
  have e : (fun j => combine φ c (old j)) = vandermonde φ old *ᵥ c :=
    funext fun j => (vandermonde_mulVec φ old c j).symm
  have hinj : ∀ v : Fin n → K, vandermonde φ old *ᵥ v = 0 → v = 0 := fun v hv =>
    h v fun i => by rw [← vandermonde_mulVec, hv]; rfl
  have hPc : P *ᵥ (vandermonde φ old *ᵥ c) = c := by
    have : P *ᵥ (vandermonde φ old *ᵥ c) - c = 0 := by
      apply hinj
      rw [mulVec_sub, mulVec_mulVec, mulVec_mulVec, hP.apa, sub_self]
    exact sub_eq_zero.1 this
  have : ((vandermonde φ new * P) *ᵥ fun j => combine φ c (old j)) i = combine φ c (new i) := by
    rw [e, ← mulVec_mulVec, hPc, vandermonde_mulVec]
  exact this

/-- The least squares result is the best approximation: for arbitrary nodal values `u` the residual of
the fitted coefficients is orthogonal to the span at the old nodes. -/
theorem C38_least_squares_normal_equations {n p m : Nat} (φ : Fin n → X → K) (new : Fin p → X)
    (old : Fin m → X) (P : Matrix (Fin n) (Fin m) K) (hP : IsPinv (vandermonde φ old) P)
    (hmn : m ≠ n) (u : Fin m → K) :
    ∃ R c, resamplingMatrix φ new old true P = .ok R ∧
      (∀ i, ∑ j, R i j * u j = combine φ c (new i)) ∧
      ∀ l : Fin n, ∑ j, (u j - combine φ c (old j)) * φ l (old j) = 0 := by
  refine ⟨vandermonde φ new * P, P *ᵥ u, by simp [resamplingMatrix, hmn, resample_one], ?_, ?_⟩
  · intro i
    have : ((vandermonde φ new * P) *ᵥ u) i = combine φ (P *ᵥ u) (new i) := by
      rw [← mulVec_mulVec, vandermonde_mulVec]
    exact this
  · intro l
    have h1 : (vandermonde φ old)ᵀ * (vandermonde φ old * P) = (vandermonde φ old)ᵀ := by
      have := congrArg transpose hP.apa
      rw [transpose_mul, hP.symm_ap] at this
      exact this
    have h2 : ((vandermonde φ old)ᵀ *ᵥ (u - vandermonde φ old *ᵥ (P *ᵥ u))) l = 0 := by
      rw [mulVec_sub, mulVec_mulVec, mulVec_mulVec, Matrix.mul_assoc, h1, sub_self]; rfl
    have e : vandermonde φ old *ᵥ (P *ᵥ u) = fun j => combine φ (P *ᵥ u) (old j) :=
      funext fun j => vandermonde_mulVec φ old (P *ᵥ u) j
    rw [e] at h2
    have e2 : ((vandermonde φ old)ᵀ *ᵥ (u - fun j => combine φ (P *ᵥ u) (old j))) l =
        ∑ j, φ l (old j) * (u j - combine φ (P *ᵥ u) (old j)) := rfl
    rw [e2] at h2
    rw [← h2]
    exact Finset.sum_congr rfl fun j _ => mul_comm _ _

/-- A non-square problem without `least_squares_ok` is rejected. -/
theorem C38_nonsquare_error {n p m : Nat} (φ : Fin n → X → K) (new : Fin p → X) (old : Fin m → X)
    (P : Matrix (Fin n) (Fin m) K) (hmn : m ≠ n) :
    resamplingMatrix φ new old false P = .error .RuntimeError := by
  simp [resamplingMatrix, hmn]

/-- Non-vacuity: `1, x` at two distinct points. -/
theorem unisolvent_example : Unisolvent (fun (j : Fin 2) (x : ℚ) => x ^ (j : Nat)) ![0, 1] := by
  rw [unisolvent_iff_det, det_fin_two]
  simp [vandermonde]

/-! ## C39 -/

theorem differentiationMatrices_ok {n p d : Nat} (φ : Fin n → X → K) (g : Fin n → X → Fin d → K)
    (nodes : Fin p → X) (from_ : Fin n → X) (hn : n ≠ 0) (h0 : d ≠ 0) (h : Unisolvent φ from_) :
    differentiationMatrices φ g nodes from_ = .ok fun k =>
      (Matrix.of fun i j => g j (nodes i) k) * (vandermonde φ from_)⁻¹ := by
  have hd := (unisolvent_iff_det φ from_).1 h
  have hd' : (vandermonde φ from_)ᵀ.det ≠ 0 := by rwa [det_transpose]
  simp only [differentiationMatrices, dif_pos, castCols_rfl, multiVandermonde, hn, h0, or_self, if_false]
  have e : (List.finRange d).map (fun k => npSolve (vandermonde φ from_)ᵀ
      ((Matrix.of fun i j => g j (nodes i) k) : Matrix (Fin p) (Fin n) K)ᵀ) =
      ((List.finRange d).map fun k => ((vandermonde φ from_)ᵀ⁻¹ *
        ((Matrix.of fun i j => g j (nodes i) k) : Matrix (Fin p) (Fin n) K)ᵀ)).map
        (fun a => (Except.ok a : Py _)) := by
    rw [List.map_map]
    exact List.map_congr_left fun k _ => npSolve_ok hd' _
  rw [e, collect_ok]
  simp only
  congr 1
  funext k
  have : (((List.finRange d).map fun k => ((vandermonde φ from_)ᵀ⁻¹ *
        ((Matrix.of fun i j => g j (nodes i) k) : Matrix (Fin p) (Fin n) K)ᵀ)).getD k 0) =
      ((vandermonde φ from_)ᵀ⁻¹ *
        ((Matrix.of fun i j => g j (nodes i) k) : Matrix (Fin p) (Fin n) K)ᵀ) := by
    simp [List.getD_eq_getElem?_getD]
  rw [this, transpose_mul, transpose_transpose, transpose_nonsing_inv, transpose_transpose]

/-- The values of the differentiation matrices, for any base field. -/
theorem C39_values {n p d : Nat} (φ : Fin n → X → K) (g : Fin n → X → Fin d → K)
    (nodes : Fin p → X) (from_ : Fin n → X) (hn : n ≠ 0) (h0 : d ≠ 0) (h : Unisolvent φ from_) :
    ∃ D, differentiationMatrices φ g nodes from_ = .ok D ∧
      ∀ (k : Fin d) (c : Fin n → K) (i : Fin p),
        ∑ j, D k i j * combine φ c (from_ j) = combine (fun j x => g j x k) c (nodes i) := by
  refine ⟨_, differentiationMatrices_ok φ g nodes from_ hn h0 h, ?_⟩
  intro k c i
  have e : (fun j => combine φ c (from_ j)) = vandermonde φ from_ *ᵥ c :=
    funext fun j => (vandermonde_mulVec φ from_ c j).symm
  have : (((Matrix.of fun i j => g j (nodes i) k) * (vandermonde φ from_)⁻¹) *ᵥ
      fun j => combine φ c (from_ j)) i = combine (fun j x => g j x k) c (nodes i) := by
    rw [e, mulVec_mulVec, Matrix.mul_assoc, nonsing_inv_mul _ (isUnit_det h), Matrix.mul_one,
      ← vandermonde_mulVec]
    rfl
  exact this

/-- **C39.**  Let the gradients be the partial derivatives of the basis functions at the nodes.  Then
matrix `k` takes the values at `from_nodes` of every function in the span to its `k`-th partial
derivatives at `nodes`. -/
theorem C39_differentiates {n p d : Nat} (φ : Fin n → List ℝ → ℝ) (g : Fin n → List ℝ → Fin d → ℝ)
    (nodes : Fin p → List ℝ) (from_ : Fin n → List ℝ) (hn : n ≠ 0) (h0 : d ≠ 0) (h : Unisolvent φ from_)
    (hg : ∀ j i, IsGradientAt d (φ j) (nodes i) (List.ofFn (g j (nodes i)))) :
    ∃ D, differentiationMatrices φ g nodes from_ = .ok D ∧
      ∀ (c : Fin n → ℝ) (i : Fin p), IsGradientAt d (combine φ c) (nodes i)
        (List.ofFn fun k => ∑ j, D k i j * combine φ c (from_ j)) := by
  obtain ⟨D, hD, hv⟩ := C39_values φ g nodes from_ hn h0 h
  refine ⟨D, hD, fun c i => ⟨by simp, fun k hk => ?_⟩⟩
  have hval : (List.ofFn fun k => ∑ j, D k i j * combine φ c (from_ j)).getD k 0 =
      ∑ j, c j * g j (nodes i) ⟨k, hk⟩ := by
    rw [List.getD_eq_getElem?_getD, List.getElem?_ofFn]
    simp only [hk, dif_pos, Option.getD_some]
    exact hv ⟨k, hk⟩ c i
  rw [hval]
  have hs : ∀ j : Fin n, HasDerivAt (fun t => c j * φ j ((nodes i).set k t))
      (c j * g j (nodes i) ⟨k, hk⟩) ((nodes i).getD k 0) := by
    intro j
    have := (hg j i).2 k hk
    rw [List.getD_eq_getElem?_getD, List.getElem?_ofFn] at this
    simp only [hk, dif_pos, Option.getD_some] at this
    exact this.const_mul _
  have := HasDerivAt.fun_sum (u := Finset.univ) fun j _ => hs j
  exact this

/-- Gradients without components, that is functions on a point, are rejected. -/
theorem C39_dimension_zero {n p m : Nat} (φ : Fin n → X → K) (g : Fin n → X → Fin 0 → K) (nodes : Fin p → X)
    (from_ : Fin m → X) : differentiationMatrices φ g nodes from_ = .error .ValueError := by
  simp [differentiationMatrices, multiVandermonde]

/-- A node count different from the number of functions is rejected, and so are nodes that do not
determine the interpolant. -/
theorem C39_errors {n p m d : Nat} (φ : Fin n → X → K) (g : Fin n → X → Fin (d + 1) → K)
    (nodes : Fin p → X) (from_ : Fin m → X) :
    (m ≠ n → differentiationMatrices φ g nodes from_ = .error .ValueError) ∧
    ((hmn : m = n) → n ≠ 0 → ¬ Unisolvent φ (from_ ∘ Fin.cast hmn.symm) →
      differentiationMatrices φ g nodes from_ = .error .LinAlgError) := by
  constructor
  · intro h; simp [differentiationMatrices, h]
  · intro hmn hn hu
    subst hmn
    have hd : (vandermonde φ from_).det = 0 := by
      by_contra hc; exact hu ((unisolvent_iff_det φ from_).2 hc)
    simp only [differentiationMatrices, dif_pos, castCols_rfl, multiVandermonde, hn, Nat.succ_ne_zero, or_self, if_false,
      List.finRange_succ, List.map_cons, npSolve, det_transpose, hd, if_true, collect]

/-! ## C41 -/

/-- **C41 (inverse pair, symmetry).**  For an orthonormal basis (weight one) and unisolvent nodes both
matrices exist, are symmetric and are inverse to each other. -/
theorem C41_inverse {n : Nat} (φ : Fin n → X → ℝ) (x : Fin n → X) (h : Unisolvent φ x) :
    ∃ A M, inverseMassMatrix (.ok 1) φ x = .ok A ∧ massMatrix (.ok 1) φ x = .ok M ∧
      A * M = 1 ∧ M * A = 1 ∧ Aᵀ = A ∧ Mᵀ = M := by
  have hd := (unisolvent_iff_det φ x).1 h
  have hA : (vandermonde φ x * (vandermonde φ x)ᵀ).det ≠ 0 := by
    rw [det_mul, det_transpose]; exact mul_ne_zero hd hd
  refine ⟨vandermonde φ x * (vandermonde φ x)ᵀ, (vandermonde φ x * (vandermonde φ x)ᵀ)⁻¹,
    by simp [inverseMassMatrix], by simp [massMatrix, inverseMassMatrix, npInv, hd],
    mul_nonsing_inv _ hA.isUnit, nonsing_inv_mul _ hA.isUnit, by simp [transpose_mul], ?_⟩
  rw [transpose_nonsing_inv, transpose_mul, transpose_transpose]

/-- **C41 (inner products).**  Let `I` be an integral for which the basis is orthonormal and which is
linear on the products of basis functions.  Then `uᵀ M v` is the inner product of the interpolants of
the nodal values `u` and `v`; in particular `M i j` is the inner product of the Lagrange functions. -/
theorem C41_inner_product {n : Nat} (φ : Fin n → X → ℝ) (x : Fin n → X) (h : Unisolvent φ x)
    (I : (X → ℝ) → ℝ)
    (hlin : ∀ a : Fin n → Fin n → ℝ, I (fun y => ∑ i, ∑ j, a i j * (φ i y * φ j y)) =
      ∑ i, ∑ j, a i j * I (fun y => φ i y * φ j y))
    (horth : ∀ i j, I (fun y => φ i y * φ j y) = if i = j then 1 else 0) :
    ∃ M, massMatrix (.ok 1) φ x = .ok M ∧
      ∀ c d : Fin n → ℝ, ∑ i, ∑ j, combine φ c (x i) * M i j * combine φ d (x j) =
        I (fun y => combine φ c y * combine φ d y) := by
  have hd := (unisolvent_iff_det φ x).1 h
  refine ⟨(vandermonde φ x * (vandermonde φ x)ᵀ)⁻¹,
    by simp [massMatrix, inverseMassMatrix, npInv, hd], ?_⟩
  intro c d
  set V := vandermonde φ x with hV
  have hVu : IsUnit V.det := hd.isUnit
  have e1 : (fun j => combine φ c (x j)) = V *ᵥ c :=
    funext fun j => (vandermonde_mulVec φ x c j).symm
  have e2 : (fun j => combine φ d (x j)) = V *ᵥ d :=
    funext fun j => (vandermonde_mulVec φ x d j).symm
  have hL : ∑ i, ∑ j, combine φ c (x i) * (V * Vᵀ)⁻¹ i j * combine φ d (x j) =
      (V *ᵥ c) ⬝ᵥ ((V * Vᵀ)⁻¹ *ᵥ (V *ᵥ d)) := by
    rw [← e1, ← e2]
    simp only [dotProduct, Matrix.mulVec, Finset.mul_sum, mul_assoc]
  have hinv : (V * Vᵀ)⁻¹ *ᵥ (V *ᵥ d) = Vᵀ⁻¹ *ᵥ d := by
    rw [Matrix.mul_inv_rev, mulVec_mulVec, Matrix.mul_assoc, nonsing_inv_mul _ hVu, Matrix.mul_one]
  have hR : (V *ᵥ c) ⬝ᵥ (Vᵀ⁻¹ *ᵥ d) = c ⬝ᵥ d := by
    rw [dotProduct_mulVec, ← transpose_nonsing_inv, vecMul_transpose, mulVec_mulVec,
      nonsing_inv_mul _ hVu, one_mulVec]
  rw [hL, hinv, hR]
  have hI : (fun y => combine φ c y * combine φ d y) =
      fun y => ∑ i, ∑ j, (c i * d j) * (φ i y * φ j y) := by
    funext y
    simp only [combine, Finset.sum_mul_sum]
    refine Finset.sum_congr rfl fun i _ => Finset.sum_congr rfl fun j _ => by ring
  rw [hI, hlin]
  simp [horth, dotProduct]

/-- The entries: `M i j` is the inner product of the Lagrange functions of nodes `i` and `j`. -/
theorem C41_entries {n : Nat} (φ : Fin n → X → ℝ) (x : Fin n → X) (h : Unisolvent φ x)
    (I : (X → ℝ) → ℝ)
    (hlin : ∀ a : Fin n → Fin n → ℝ, I (fun y => ∑ i, ∑ j, a i j * (φ i y * φ j y)) =
      ∑ i, ∑ j, a i j * I (fun y => φ i y * φ j y))
    (horth : ∀ i j, I (fun y => φ i y * φ j y) = if i = j then 1 else 0)
    (ℓ : Fin n → X → ℝ) (hℓ : IsLagrangeBasis φ x ℓ) :
    ∃ M, massMatrix (.ok 1) φ x = .ok M ∧ ∀ i j, M i j = I (fun y => ℓ i y * ℓ j y) := by
  obtain ⟨M, hM, hip⟩ := C41_inner_product φ x h I hlin horth
  refine ⟨M, hM, fun i j => ?_⟩
  obtain ⟨C, hC, hδ⟩ := hℓ
  rw [hC i, hC j, ← hip (C i) (C j)]
  simp only [← hC, hδ]
  simp

/-- Any other claimed weight, and bases that raise `BasisNotOrthonormal`, are rejected with `NotImplementedError`; other
exceptions of `orthonormality_weight()` are passed on. -/
theorem C41_errors {m n : Nat} (φ : Fin n → X → ℝ) (x : Fin m → X) (w : ℝ) (hw : w ≠ 1) :
    massMatrix (.ok w) φ x = .error .NotImplementedError ∧
      massMatrix (.error .BasisNotOrthonormal) φ x = .error .NotImplementedError ∧
      inverseMassMatrix (.ok w) φ x = .error .NotImplementedError ∧
      inverseMassMatrix (.error .BasisNotOrthonormal) φ x = .error .NotImplementedError ∧
      ∀ e, e ≠ .BasisNotOrthonormal → massMatrix (.error e) φ x = .error e ∧ inverseMassMatrix (.error e) φ x = .error e := by
  refine ⟨by simp [massMatrix, inverseMassMatrix, hw], by simp [massMatrix, inverseMassMatrix],
    by simp [inverseMassMatrix, hw], by simp [inverseMassMatrix], fun e he => ?_⟩
  cases e <;> simp_all [massMatrix, inverseMassMatrix]

/-! ## C42 -/

/-- Lagrange functions exist for unisolvent nodes, with coefficients the rows of `V⁻ᵀ`, and they are
the only ones. -/
theorem lagrange_coeffs {n : Nat} (φ : Fin n → X → K) (x : Fin n → X) (h : Unisolvent φ x)
    (ℓ : Fin n → X → K) (hℓ : IsLagrangeBasis φ x ℓ) (i : Fin n) (y : X) :
    ℓ i y = ∑ j, (vandermonde φ x)ᵀ⁻¹ i j * φ j y := by
  obtain ⟨C, hC, hδ⟩ := hℓ
  have hCi : C i = fun j => (vandermonde φ x)ᵀ⁻¹ i j := by
    have h1 : vandermonde φ x *ᵥ C i = fun j => if i = j then 1 else 0 := by
      funext j
      rw [vandermonde_mulVec, ← hC, hδ]
    have h2 : C i = (vandermonde φ x)⁻¹ *ᵥ (fun j => if i = j then 1 else 0) := by
      rw [← h1, mulVec_mulVec, nonsing_inv_mul _ (isUnit_det h), one_mulVec]
    rw [h2]
    funext j
    simp [Matrix.mulVec, dotProduct, ← transpose_nonsing_inv]
  rw [hC, combine, hCi]

theorem lagrange_exists {n : Nat} (φ : Fin n → X → K) (x : Fin n → X) (h : Unisolvent φ x) :
    ∃ ℓ, IsLagrangeBasis φ x ℓ := by
  refine ⟨fun i => combine φ fun j => (vandermonde φ x)ᵀ⁻¹ i j, _, fun i => rfl, fun i j => ?_⟩
  have e : (fun j => (vandermonde φ x)ᵀ⁻¹ i j) = (vandermonde φ x)⁻¹ *ᵥ (Pi.single i 1) := by
    funext j
    simp [← transpose_nonsing_inv]
  show combine φ (fun j => (vandermonde φ x)ᵀ⁻¹ i j) (x j) = _
  rw [e, ← vandermonde_mulVec, mulVec_mulVec, mul_nonsing_inv _ (isUnit_det h), one_mulVec,
    Pi.single_apply]
  simp [eq_comm]

/-- **C42 (test matrix).**  With the test functions being the interpolation functions, entry `(i, j)`
is `wⱼ ℓᵢ(rⱼ)` (node map applied first), so `A u` is `∑ⱼ wⱼ ℓᵢ(rⱼ) uⱼ`. -/
theorem C42_test_matrix {q n : Nat} (r : Fin q → X) (w : Fin q → K) (φ : Fin n → Y → K)
    (x : Fin n → Y) (map : X → Y) (h : Unisolvent φ x) (ℓ : Fin n → Y → K)
    (hℓ : IsLagrangeBasis φ x ℓ) :
    ∃ A, nodalQuadratureTestMatrix r w φ φ x map = .ok A ∧
      ∀ (u : Fin q → K) (i : Fin n), ∑ j, A i j * u j = ∑ j, w j * ℓ i (map (r j)) * u j := by
  have hd : (vandermonde φ x)ᵀ.det ≠ 0 := by
    rw [det_transpose]; exact (unisolvent_iff_det φ x).1 h
  refine ⟨_, by
    simp only [nodalQuadratureTestMatrix, dif_pos]
    exact npSolve_ok hd _, ?_⟩
  intro u i
  refine Finset.sum_congr rfl fun j _ => ?_
  congr 1
  rw [lagrange_coeffs φ x h ℓ hℓ, Matrix.mul_apply, Finset.mul_sum]
  refine Finset.sum_congr rfl fun k _ => ?_
  simp only [vandermonde, transpose_apply, of_apply, Function.comp]
  ring

/-- General form: test functions different from the interpolation functions are combined with the
interpolation functions' Lagrange coefficients. -/
theorem C42_test_matrix_general {q n : Nat} (r : Fin q → X) (w : Fin q → K) (test φ : Fin n → Y → K)
    (x : Fin n → Y) (map : X → Y) (h : Unisolvent φ x) (C : Fin n → Fin n → K)
    (hC : ∀ i j, combine φ (C i) (x j) = if i = j then 1 else 0) :
    ∃ A, nodalQuadratureTestMatrix r w test φ x map = .ok A ∧
      ∀ i j, A i j = w j * combine test (C i) (map (r j)) := by
  have hd : (vandermonde φ x)ᵀ.det ≠ 0 := by
    rw [det_transpose]; exact (unisolvent_iff_det φ x).1 h
  refine ⟨_, by
    simp only [nodalQuadratureTestMatrix, dif_pos]
    exact npSolve_ok hd _, ?_⟩
  intro i j
  have hCi : C i = fun j => (vandermonde φ x)ᵀ⁻¹ i j := by
    have h1 : vandermonde φ x *ᵥ C i = fun j => if i = j then 1 else 0 := by
      funext j
      rw [vandermonde_mulVec, hC]
    have h2 : C i = (vandermonde φ x)⁻¹ *ᵥ (fun j => if i = j then 1 else 0) := by
      rw [← h1, mulVec_mulVec, nonsing_inv_mul _ (isUnit_det h), one_mulVec]
    rw [h2]
    funext j
    simp [Matrix.mulVec, dotProduct, ← transpose_nonsing_inv]
  rw [Matrix.mul_apply, combine, hCi, Finset.mul_sum]
  refine Finset.sum_congr rfl fun k _ => ?_
  simp only [vandermonde, transpose_apply, of_apply, Function.comp]
  ring

/-- **C42 (bilinear form).**  Entry `(i, j)` is `∑ₖ wₖ ψᵢ(rₖ) φⱼ(rₖ)` for the Lagrange functions `ψ` of
the output nodes and `φ` of the input nodes. -/
theorem C42_bilinear_form {q n m : Nat} (r : Fin q → X) (w : Fin q → K) (test : Fin n → Y → K)
    (trial : Fin m → X → K) (xin : Fin m → X) (xout : Fin n → Y) (map : X → Y)
    (hin : Unisolvent trial xin) (hout : Unisolvent test xout)
    (ψ : Fin n → Y → K) (hψ : IsLagrangeBasis test xout ψ)
    (ℓ : Fin m → X → K) (hℓ : IsLagrangeBasis trial xin ℓ) :
    ∃ A, nodalQuadratureBilinearFormMatrix r w test trial test trial xin xout map = .ok A ∧
      ∀ i j, A i j = ∑ k, ψ i (map (r k)) * ℓ j (r k) * w k := by
  have hdo : (vandermonde test xout)ᵀ.det ≠ 0 := by
    rw [det_transpose]; exact (unisolvent_iff_det test xout).1 hout
  have hdi := (unisolvent_iff_det trial xin).1 hin
  refine ⟨_, by
    simp only [nodalQuadratureBilinearFormMatrix, dif_pos]
    have : npInv (vandermonde trial (xin ∘ Fin.cast rfl)) = .ok (vandermonde trial xin)⁻¹ :=
      if_neg hdi
    rw [this]
    exact npSolve_ok hdo _, ?_⟩
  intro i j
  simp only [lagrange_coeffs test xout hout ψ hψ, lagrange_coeffs trial xin hin ℓ hℓ]
  rw [← Matrix.mul_assoc, Matrix.mul_apply]
  simp only [Matrix.mul_apply]
  have hL : ∀ k, (vandermonde trial xin)ᵀ⁻¹ j k = (vandermonde trial xin)⁻¹ k j := by
    intro k; rw [← transpose_nonsing_inv, transpose_apply]
  simp only [hL]
  simp only [of_apply, vandermonde, Finset.sum_mul, Finset.mul_sum, Function.comp]
  rw [Finset.sum_congr rfl fun b _ => Finset.sum_comm, Finset.sum_comm]
  refine Finset.sum_congr rfl fun k _ => Finset.sum_congr rfl fun b _ =>
    Finset.sum_congr rfl fun a _ => by ring

/-- Node counts that do not match the number of interpolation functions are rejected. -/
theorem C42_errors {q n m : Nat} (r : Fin q → X) (w : Fin q → K) (test φ : Fin n → Y → K)
    (x : Fin m → Y) (map : X → Y) (h : n ≠ m) :
    nodalQuadratureTestMatrix r w test φ x map = .error .ValueError ∧
    nodalQuadMassMatrixForFace map r w test x = .error .ValueError := by
  simp [nodalQuadratureTestMatrix, nodalQuadMassMatrixForFace, h]

theorem C42_bilinear_errors {q n m no ni : Nat} (r : Fin q → X) (w : Fin q → K)
    (test itest : Fin n → Y → K) (trial itrial : Fin m → X → K) (xin : Fin ni → X) (xout : Fin no → Y)
    (map : X → Y) (h : n ≠ no ∨ m ≠ ni) :
    nodalQuadratureBilinearFormMatrix r w test trial itest itrial xin xout map =
      .error .ValueError := by
  unfold nodalQuadratureBilinearFormMatrix
  split
  · split
    · rename_i h1 h2; rcases h with h | h <;> contradiction
    · rfl
  · rfl

/-- The deprecated volume matrix agrees with its replacement. -/
theorem C42_deprecated_quad_mass {q n m : Nat} (r : Fin q → X) (w : Fin q → K) (test : Fin n → X → K)
    (x : Fin m → X) :
    nodalQuadMassMatrix r w test x = nodalQuadratureTestMatrix r w test test x id := by
  unfold nodalQuadMassMatrix nodalQuadratureTestMatrix
  split <;> rfl

/-- The deprecated face matrix on quadrature values agrees with its replacement with
`test_function_node_map=face.map_to_volume`. -/
theorem C42_deprecated_quad_mass_face {q n m : Nat} (r : Fin q → X) (w : Fin q → K)
    (test : Fin n → Y → K) (x : Fin m → Y) (map : X → Y) :
    nodalQuadMassMatrixForFace map r w test x = nodalQuadratureTestMatrix r w test test x map := by
  unfold nodalQuadMassMatrixForFace nodalQuadratureTestMatrix
  split <;> rfl

/-- The deprecated nodal face mass matrix agrees with the bilinear form matrix. -/
theorem C42_deprecated_mass_face {q n m : Nat} (r : Fin q → X) (w : Fin q → K) (trial : Fin m → X → K)
    (test : Fin n → Y → K) (xv : Fin n → Y) (xf : Fin m → X) (map : X → Y) :
    nodalMassMatrixForFace map r w trial test xv xf =
      nodalQuadratureBilinearFormMatrix r w test trial test trial xf xv map := by
  simp only [nodalMassMatrixForFace, nodalQuadratureBilinearFormMatrix, dif_pos]
  rfl

/-- Non-vacuity: Lagrange functions for the example. -/
example : ∃ ℓ, IsLagrangeBasis (fun (j : Fin 2) (x : ℚ) => x ^ (j : Nat)) ![0, 1] ℓ :=
  lagrange_exists _ _ unisolvent_example

end Modepy

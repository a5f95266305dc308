import Verif.Props.DiffAlgebra
import Verif.Props.Lebesgue

/-!
# Property C85: resampling is quasi-optimal

The error of interpolating an arbitrary function with `resampling_matrix` is at most `1 + Λ` times the error of any
approximation from the space, `Λ` the row sums of absolute values, for which `estimate_lebesgue_constant` is the maximum over
its sample lattice.
-/

namespace Modepy
open Spec Matrix

/-- The rows of a resampling matrix are the values of the Lagrange polynomials. -/
theorem resample_lagrange (space : Space) {p : Nat} (newNodes : Fin p → List ℝ) (oldNodes : Fin (nodeTuples space).length → List ℝ)
    (R : Matrix (Fin p) (Fin (nodeTuples space).length) ℝ)
    (hR : ∀ c i, ∑ j, R i j * spacePoly space c (oldNodes j) = spacePoly space c (newNodes i))
    (ℓ : Fin (nodeTuples space).length → List ℝ → ℝ)
    (hℓ : IsLagrangeBasis (fun l : Fin (nodeTuples space).length => monomialValue (nodeTuples space)[l]) oldNodes ℓ)
    (i : Fin p) (j : Fin (nodeTuples space).length) : R i j = ℓ j (newNodes i) := by
  obtain ⟨D, hD, hδ⟩ := hℓ
  have h1 := hR (D j) i
  have h2 : ∀ y, spacePoly space (D j) y = ℓ j y := fun y => by rw [hD j]; rfl
  simp only [h2, hδ] at h1
  rw [← h1]
  simp

/-- **C85.**  Resampling from unisolvent nodes: the rows add up to one and hold the values of the Lagrange polynomials; for an
arbitrary function `f` and any member `q` of the space that is within `ε` of `f` at the old nodes and at a new node, the
resampled value is within `(1 + Σ_j |R_ij|) ε` of the value of `f` at the new node; and the factor cannot be improved: data
bounded by one attain the row sum. -/
theorem C85_resampling (space : Space) (b : Basis ℝ) (hb : IsBasisOf b space) {p : Nat} (newNodes : Fin p → List ℝ)
    (oldNodes : Fin (nodeTuples space).length → List ℝ)
    (hn : ∀ i, RegularFor space (newNodes i)) (ho : ∀ i, RegularFor space (oldNodes i)) (hu : UnisolventFor space oldNodes)
    (ls : Bool) (pinv : (n : Nat) → Matrix (Fin (nodeTuples space).length) (Fin n) ℝ → Matrix (Fin n) (Fin (nodeTuples space).length) ℝ) :
    ∃ R, resamplingMatrixOf b newNodes oldNodes ls pinv = .ok R ∧
      (∀ i, ∑ j, R i j = 1) ∧
      (∀ ℓ, IsLagrangeBasis (fun l : Fin (nodeTuples space).length => monomialValue (nodeTuples space)[l]) oldNodes ℓ →
        ∀ i j, R i j = ℓ j (newNodes i)) ∧
      (∀ (f : List ℝ → ℝ) (c : Fin (nodeTuples space).length → ℝ) (ε : ℝ) (i : Fin p),
        (∀ j, |f (oldNodes j) - spacePoly space c (oldNodes j)| ≤ ε) → |f (newNodes i) - spacePoly space c (newNodes i)| ≤ ε →
        |∑ j, R i j * f (oldNodes j) - f (newNodes i)| ≤ (1 + ∑ j, |R i j|) * ε) ∧
      ∀ i, ∃ y : Fin (nodeTuples space).length → ℝ, (∀ j, |y j| ≤ 1) ∧ ∑ j, R i j * y j = ∑ j, |R i j| := by
  obtain ⟨R, hok, hR⟩ := C77_resampling space b hb newNodes oldNodes hn ho hu ls pinv
  refine ⟨R, hok, fun i => ?_, fun ℓ hℓ i j => resample_lagrange space newNodes oldNodes R hR ℓ hℓ i j,
    fun f c ε i h1 h2 => ?_, fun i => ⟨fun j => SignType.sign (R i j), fun j => ?_, ?_⟩⟩
  · have h := congrFun (resample_nodal space newNodes oldNodes hn ho R hR (MvPolynomial.C 1) (polyIn_C space 1)) i
    simpa [mulVec, dotProduct, nodal, polyAt] using h
  · have e : ∑ j, R i j * f (oldNodes j) - f (newNodes i) =
        ∑ j, R i j * (f (oldNodes j) - spacePoly space c (oldNodes j)) - (f (newNodes i) - spacePoly space c (newNodes i)) := by
      simp only [mul_sub, Finset.sum_sub_distrib, hR]
      ring
    rw [e, add_mul, one_mul, add_comm ε]
    refine (abs_sub _ _).trans (add_le_add ((Finset.abs_sum_le_sum_abs _ _).trans ?_) h2)
    rw [Finset.sum_mul]
    refine Finset.sum_le_sum fun j _ => ?_
    rw [abs_mul]
    exact mul_le_mul_of_nonneg_left (h1 j) (abs_nonneg _)
  · rcases lt_trichotomy (R i j) 0 with h | h | h <;> simp [h]
  · refine Finset.sum_congr rfl fun j _ => ?_
    rw [mul_comm]
    exact sign_mul_self _

theorem regular_of_mem_lattice (shape : Shape) (hs : Constructible shape) (n N : Nat) (hN : N ≤ 10 ^ 10) (space : Space)
    (hsp : Space.forShape shape (.int n) = .ok space) (x : List ℝ) (hx : x ∈ lattice shape N) : RegularFor space x := by
  obtain ⟨space', -, h1, -, h3, h4⟩ := space_basis shape hs n
  obtain rfl : space' = space := by rw [h1] at hsp; exact Except.ok.inj hsp
  have hdims : space'.flatBases.map PNSpace.spatialDim = shape.flatBases := by
    rw [h4, List.map_map]; exact List.map_id _
  obtain ⟨parts, hp, rfl⟩ := hx
  refine ⟨?_, ?_⟩
  · have hd : shape.dim = shape.flatBases.sum := by cases shape <;> simp [Shape.dim, Shape.flatBases]
    rw [h3, hd, List.length_map]
    clear hd hdims h4
    generalize shape.flatBases = ds at hp
    induction hp with
    | nil => simp
    | cons h _ ih => simp [ih, h.1]
  · rw [hdims, slices_flatten (P := fun _ p => p.sum ≤ N) _ hp, List.forall₂_map_right_iff]
    exact hp.imp fun d p h => regular_lattice hN p h.1 h.2

/-- **C85 (Lebesgue constant).**  With `Λ = estimate_lebesgue_constant(n, nodes, shape)`, resampling any function from the nodes
to points of the sample lattice of that estimate (`30 n` subdivisions in two dimensions, `10 n` otherwise) is within
`(1 + Λ) ε` of the function whenever a member of the space is within `ε` of it at the nodes and the sample point. -/
theorem C85_lebesgue (shape : Shape) (hs : Constructible shape) (n : Nat) (hn : n ≤ 10 ^ 8) (space : Space)
    (hsp : Space.forShape shape (.int n) = .ok space) (b : Basis ℝ) (hb : IsBasisOf b space) (nodes : NdArray ℝ)
    (hsh : nodes.shape = [shape.dim, space.spaceDim])
    (hreg : ∀ k < space.spaceDim, RegularFor space (column nodes shape.dim k))
    (hu : UnisolventFor space fun i : Fin (nodeTuples space).length => column nodes shape.dim i)
    {p : Nat} (samples : Fin p → List ℝ) (hl : ∀ i, samples i ∈ lattice shape (sampleOrder shape n)) (ls : Bool)
    (pinv : (n : Nat) → Matrix (Fin (nodeTuples space).length) (Fin n) ℝ → Matrix (Fin n) (Fin (nodeTuples space).length) ℝ) :
    ∃ Λ R, estimateLebesgueConstant n nodes shape false = .ok Λ ∧
      resamplingMatrixOf b samples (fun i : Fin (nodeTuples space).length => column nodes shape.dim i) ls pinv = .ok R ∧
      (∀ i, ∑ j, |R i j| ≤ Λ) ∧
      ∀ (f : List ℝ → ℝ) (c : Fin (nodeTuples space).length → ℝ) (ε : ℝ) (i : Fin p),
        (∀ j : Fin (nodeTuples space).length,
          |f (column nodes shape.dim j) - spacePoly space c (column nodes shape.dim j)| ≤ ε) →
        |f (samples i) - spacePoly space c (samples i)| ≤ ε →
        |∑ j, R i j * f (column nodes shape.dim j) - f (samples i)| ≤ (1 + Λ) * ε := by
  obtain ⟨ℓ, hℓ⟩ := lagrange_exists _ _ hu
  obtain ⟨Λ, hΛ, hmax, -⟩ := C73_value shape hs n hn space hsp nodes hsh hreg ℓ hℓ
  have hN : sampleOrder shape n ≤ 10 ^ 10 := by
    rw [sampleOrder]
    split_ifs <;> omega
  obtain ⟨R, hR, -, h2, h3, -⟩ := C85_resampling space b hb samples _
    (fun i => regular_of_mem_lattice shape hs n _ hN space hsp _ (hl i))
    (fun i : Fin (nodeTuples space).length => hreg i (by rw [← length_nodeTuples]; exact i.2)) hu ls pinv
  have hle : ∀ i, ∑ j, |R i j| ≤ Λ := by
    intro i
    refine hmax.2 ⟨samples i, hl i, ?_⟩
    exact Finset.sum_congr rfl fun j _ => by rw [h2 ℓ hℓ]
  refine ⟨Λ, R, hΛ, hR, hle, fun f c ε i h1 h2 => (h3 f c ε i h1 h2).trans ?_⟩
  have hε : 0 ≤ ε := (abs_nonneg _).trans h2
  exact mul_le_mul_of_nonneg_right (by linarith [hle i]) hε

/-- Non-vacuity: cubics times quadratics on a triangle times an interval, resampled to any point of the domain off the
tolerance strips. -/
example : ∃ (b : Basis ℝ) (nodes : Fin (nodeTuples (.tp [⟨2, 3⟩, ⟨1, 2⟩])).length → List ℝ) (R : Matrix (Fin 1) _ ℝ),
    IsBasisOf b (.tp [⟨2, 3⟩, ⟨1, 2⟩]) ∧
    resamplingMatrixOf b (fun _ : Fin 1 => [1 / 7, -1 / 3, 1 / 5]) nodes false (fun _ A => Aᵀ) = .ok R ∧ ∑ j, R 0 j = 1 := by
  obtain ⟨A, -, hreg, hu⟩ := equispaced_regular [⟨2, 3⟩, ⟨1, 2⟩] (by simp) (by simp)
  have hb : IsBasisOf ((orthonormalBasisForSpace (R := ℝ) (.tp [⟨2, 3⟩, ⟨1, 2⟩]) (.tp [2, 1])).toOption.get rfl)
      (.tp [⟨2, 3⟩, ⟨1, 2⟩]) := ⟨.tp [2, 1], Or.inl ⟨rfl, by simp [Space.flatBases]⟩⟩
  obtain ⟨R, hR, h1, -⟩ := C85_resampling _ _ hb (fun _ : Fin 1 => [1 / 7, -1 / 3, 1 / 5]) _ (fun i => by
    refine ⟨rfl, ?_⟩
    simp only [Space.flatBases, List.map_cons, List.map_nil, slices, List.take_succ_cons, List.take_zero, List.drop_succ_cons,
      List.drop_zero]
    refine .cons ?_ (.cons ?_ .nil)
    · simp only [Regular]
      left; norm_num
    · simp [Regular]) hreg hu false (fun _ A => Aᵀ)
  exact ⟨_, _, R, hb, hR, h1 0⟩

end Modepy

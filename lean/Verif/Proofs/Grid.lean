import Verif.Proofs.SpacePoly
import Verif.Props.EdgeClustered
import Verif.Props.Lobatto

/-!
# Tensor product grids

Sums over the nodes of a tensor product of a one-dimensional rule with itself, and the arrays `TensorProductQuadrature` builds
for it.
-/

namespace Modepy
open Spec MvPolynomial NdArray Quadrature

/-- The index, in the one-dimensional rule with `n + 1` nodes, of coordinate `i` of node `k`. -/
def gridDigit (n k i : Nat) : Fin (n + 1) := ⟨k / (n + 1) ^ i % (n + 1), Nat.mod_lt _ (Nat.succ_pos n)⟩

theorem grid_sum {d n : Nat} (g : Fin d → Fin (n + 1) → ℝ) :
    ∑ k : Fin ((n + 1) ^ d), ∏ j : Fin d, g j (gridDigit n k j) = ∏ j, ∑ a, g j a := by
  rw [Finset.prod_univ_sum, Fintype.piFinset_univ, ← (finFunctionFinEquiv (m := n + 1) (n := d)).symm.sum_comp]
  rfl

/-- The node `k` of the grid. -/
def gridNode (d : Nat) {n : Nat} (x : Fin (n + 1) → ℝ) (k : Nat) : List ℝ := List.ofFn fun i : Fin d => x (gridDigit n k i)

/-- Applying a product rule with one weight vector per coordinate. -/
noncomputable def gridSum (d : Nat) {n : Nat} (x : Fin (n + 1) → ℝ) (w : Fin d → Fin (n + 1) → ℝ) (F : List ℝ → ℝ) : ℝ :=
  ∑ k : Fin ((n + 1) ^ d), (∏ i, w i (gridDigit n k i)) * F (gridNode d x k)

theorem polyAt_ofFn {d : Nat} (P : MvPolynomial (Fin d) ℝ) (y : Fin d → ℝ) : polyAt P (List.ofFn y) = eval y P := by
  rw [polyAt]
  congr 2
  funext i
  simp [List.getD_eq_getElem?_getD]

theorem gridSum_polyAt {d n : Nat} (x : Fin (n + 1) → ℝ) (w : Fin d → Fin (n + 1) → ℝ) (P : MvPolynomial (Fin d) ℝ) :
    gridSum d x w (polyAt P) = ∑ m ∈ P.support, coeff m P * ∏ j, ∑ a, w j a * x a ^ m j := by
  simp only [gridSum, gridNode, polyAt_ofFn, eval_eq', Finset.mul_sum]
  rw [Finset.sum_comm]
  refine Finset.sum_congr rfl fun m _ => ?_
  rw [← grid_sum, Finset.mul_sum]
  refine Finset.sum_congr rfl fun k _ => ?_
  rw [Finset.prod_mul_distrib]
  ring

theorem cubeIntegral_monomial {d : Nat} (m : Fin d →₀ ℕ) :
    Spec.cubeIntegral d (monomialValue (List.ofFn fun i => m i)) = ∏ i, ∫ t in (-1 : ℝ)..1, t ^ m i := by
  have hset : cubeSet d = Set.univ.pi fun _ : Fin d => Set.Icc (-1 : ℝ) 1 := by
    ext x
    simp only [cubeSet, Set.mem_ofPred_eq, Set.mem_pi, Set.mem_univ, true_implies, Set.mem_Icc]
  have hval : ∀ x : Fin d → ℝ, monomialValue (List.ofFn fun i => m i) (List.ofFn x) = ∏ i, x i ^ m i := by
    intro x
    rw [← one_mul (monomialValue _ _), ← polyAt_monomial m 1 _ (by simp), polyAt_ofFn, eval_monomial, one_mul]
    exact Finsupp.prod_fintype _ _ (by simp)
  rw [Spec.cubeIntegral]
  simp only [hval]
  rw [hset, MeasureTheory.volume_pi, MeasureTheory.Measure.restrict_pi_pi,
    MeasureTheory.integral_fintype_prod_eq_prod (fun (i : Fin d) (s : ℝ) => s ^ m i)]
  refine Finset.prod_congr rfl fun i _ => ?_
  rw [intervalIntegral.integral_of_le (by norm_num), ← MeasureTheory.integral_Icc_eq_integral_Ioc]

/-- A product rule is exact for the polynomials whose degree in each coordinate the factors are exact for. -/
theorem gridSum_exact {d n E : Nat} (x w : Fin (n + 1) → ℝ) (hex : ∀ e ≤ E, ∑ a, w a * x a ^ e = ∫ t in (-1 : ℝ)..1, t ^ e)
    (P : MvPolynomial (Fin d) ℝ) (hP : ∀ i, degreeOf i P ≤ E) :
    gridSum d x (fun _ => w) (polyAt P) = Spec.cubeIntegral d (polyAt P) := by
  rw [gridSum_polyAt, cubeIntegral_polyAt]
  refine Finset.sum_congr rfl fun m hm => ?_
  rw [cubeIntegral_monomial]
  congr 1
  exact Finset.prod_congr rfl fun j _ => hex _ ((degreeOf_le_iff.1 (hP j)) m hm)

/-- Replacing the weights in one coordinate by weights for the derivative. -/
theorem gridSum_pderiv {d n E : Nat} (x w c : Fin (n + 1) → ℝ)
    (hc : ∀ e ≤ E, ∑ a, w a * (e * x a ^ (e - 1)) = ∑ a, c a * x a ^ e)
    (P : MvPolynomial (Fin d) ℝ) (k : Fin d) (hP : degreeOf k P ≤ E) :
    gridSum d x (fun _ => w) (polyAt (pderiv k P)) = gridSum d x (fun i => if i = k then c else w) (polyAt P) := by
  have key : ∀ (m : Fin d →₀ ℕ) (a : ℝ), m k ≤ E → gridSum d x (fun _ => w) (polyAt (pderiv k (MvPolynomial.monomial m a))) =
      a * ∏ j, ∑ b, (if j = k then c else w) b * x b ^ m j := by
    intro m a hm
    have : ∀ (r : Fin d →₀ ℕ) (a : ℝ), gridSum d x (fun _ => w) (polyAt (MvPolynomial.monomial r a)) =
        a * ∏ j, ∑ b, w b * x b ^ r j := by
      intro r a
      rw [gridSum_polyAt]
      classical
      by_cases ha : a = 0
      · simp [ha]
      · rw [support_monomial, if_neg ha]
        simp
    rw [pderiv_monomial, this, mul_assoc]
    congr 1
    rw [← Finset.mul_prod_erase _ _ (Finset.mem_univ k), ← Finset.mul_prod_erase _ _ (Finset.mem_univ k), ← mul_assoc]
    congr 1
    · rw [if_pos rfl, ← hc _ hm, Finset.mul_sum]
      refine Finset.sum_congr rfl fun b _ => ?_
      simp
      ring
    · refine Finset.prod_congr rfl fun j hj => ?_
      have hj := Finset.ne_of_mem_erase hj
      rw [if_neg hj]
      simp [Finsupp.single_apply, Ne.symm hj]
  have hlin : ∀ (s : Finset (Fin d →₀ ℕ)) (Q : (Fin d →₀ ℕ) → MvPolynomial (Fin d) ℝ),
      gridSum d x (fun _ => w) (polyAt (∑ m ∈ s, Q m)) = ∑ m ∈ s, gridSum d x (fun _ => w) (polyAt (Q m)) := by
    intro s Q
    simp only [gridSum, polyAt, map_sum, Finset.mul_sum]
    exact Finset.sum_comm
  conv_lhs => rw [P.as_sum, map_sum, hlin]
  rw [gridSum_polyAt]
  exact Finset.sum_congr rfl fun m hm => key m _ ((degreeOf_le_iff.1 hP) m hm)

/-! ## The arrays -/

theorem minExact_replicate (dims : Nat) (e : ℚ) : ∃ r, minExact (List.replicate dims (some (.num e))) = .ok r := by
  cases dims with
  | zero => exact ⟨_, rfl⟩
  | succ d =>
    obtain ⟨m, -, h, -⟩ := C34_exact_to.1 (List.replicate (d + 1) (.num e)) (by simp) (by
      intro a ha
      rw [List.eq_of_mem_replicate ha]
      trivial)
    exact ⟨_, by simpa using h⟩

/-- The tensor product of a one-dimensional rule with itself. -/
theorem tensor_rule (dims n : Nat) (hd : 0 < dims) (x w : Fin (n + 1) → ℝ) (e : ℚ) :
    ∃ Q, Quadrature.tensorProduct (List.replicate dims ⟨nodes1D x true, ofFn w, some (.num e), none⟩) = .ok Q ∧
      Q.nodes.shape = [dims, (n + 1) ^ dims] ∧ Q.weights.shape = [(n + 1) ^ dims] ∧
      Q.factorDims = some (List.replicate dims 1) ∧
      (∀ k < (n + 1) ^ dims, Q.weights.get [k] = ∏ i : Fin dims, w (gridDigit n k i)) ∧
      (∀ k < (n + 1) ^ dims, Q.node k = gridNode dims x k) ∧
      ∀ i k, i < dims → k < (n + 1) ^ dims → Q.nodes.get [i, k] = x (gridDigit n k i) := by
  set q : Quadrature := ⟨nodes1D x true, ofFn w, some (.num e), none⟩ with hq
  have hdim : q.dim = 1 := by simp [hq, Quadrature.dim, nodes1D, NdArray.addDimAxis, ofFn]
  have hnn : q.nnodes = n + 1 := rfl
  have hws : WellShaped q := by
    refine ⟨n + 1, rfl, Or.inr ⟨1, ?_⟩⟩
    simp [hq, nodes1D, NdArray.addDimAxis, ofFn]
  obtain ⟨r, hr⟩ := minExact_replicate dims e
  obtain ⟨Q, hQ, -, hs1, hs2, hfac, hw, hn, -⟩ := C34_iterated (List.replicate dims q)
    (fun a ha => by rw [List.eq_of_mem_replicate ha]; exact hws) (by
      intro h
      rw [List.map_replicate, hdim] at h
      simp at h
      omega) r (by rw [List.map_replicate]; exact hr)
  simp only [List.map_replicate, hdim, hnn, List.sum_replicate, List.prod_replicate, smul_eq_mul, mul_one,
    List.length_replicate] at hs1 hs2 hfac hw hn
  have hQn : Q.nnodes = (n + 1) ^ dims := by simp [Quadrature.nnodes, hs2]
  rw [hQn] at hw hn
  have e2 : ∀ i k, i < dims → Spec.digit (List.replicate dims (n + 1)) k i = gridDigit n k i := by
    intro i k hi
    simp [Spec.digit, List.take_replicate, Nat.min_eq_left hi.le, hi, gridDigit]
  have hnode : ∀ k < (n + 1) ^ dims, Q.node k = gridNode dims x k := by
    intro k hk
    rw [hn k hk, gridNode]
    have : ((List.range dims).map fun i => ((List.replicate dims q).getD i Quadrature.zeroDimensional).node
        (Spec.digit (List.replicate dims (n + 1)) k i)) = (List.range dims).map fun i => [x (gridDigit n k i)] := by
      apply List.map_congr_left
      intro i hi
      have hi := List.mem_range.1 hi
      rw [e2 i k hi, List.getD_replicate _ hi]
      exact node_nodes1D x _ _ true _ _
    have fl : ∀ l : List Nat, (l.map fun i => [x (gridDigit n k i)]).flatten = l.map fun i => x (gridDigit n k i) := by
      intro l
      induction l with
      | nil => rfl
      | cons a l ih => simp [ih]
    rw [this, fl]
    apply List.ext_getElem
    · simp
    · intro i h1 h2
      simp
  refine ⟨Q, hQ, hs1, hs2, hfac, ?_, hnode, ?_⟩
  · intro k hk
    rw [hw k hk, ← List.prod_ofFn]
    congr 1
    apply List.ext_getElem
    · simp
    · intro i h1 h2
      have hi : i < dims := by simpa using h1
      simp only [List.getElem_map, List.getElem_range, List.getElem_ofFn]
      rw [e2 i k hi, List.getD_replicate _ hi]
      exact ofFn_get w _
  · intro i k hi hk
    have := hnode k hk
    have h2 : (Q.node k)[i]? = (gridNode dims x k)[i]? := by rw [this]
    simp only [Quadrature.node, hs1, gridNode] at h2
    simpa [hi] using h2

end Modepy

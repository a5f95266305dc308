import Verif.Model.ModalDecay
import Verif.Props.Basis
import Verif.Props.Pkdo
import Verif.Props.Matrices

/-!
# Property C57: degree vectors and the tail coefficient estimator
-/

namespace Modepy
open Spec NdArray MvPolynomial

/-! ## Degrees are the total degrees of the basis functions -/

/-- A linearly independent family graded by degree has exactly these degrees. -/
theorem totalDegree_eq_of_graded {σ ι : Type*} (Q : ι → MvPolynomial σ ℝ) (deg : ι → Nat) (hli : LinearIndependent ℝ Q)
    (hspan : ∀ N, Submodule.span ℝ {q | ∃ i, deg i ≤ N ∧ q = Q i} = restrictTotalDegree σ ℝ N) (i : ι) :
    (Q i).totalDegree = deg i := by
  apply le_antisymm
  · rw [← mem_restrictTotalDegree, ← hspan]
    exact Submodule.subset_span ⟨i, le_rfl, rfl⟩
  · by_contra hlt
    push Not at hlt
    have hmem : Q i ∈ restrictTotalDegree σ ℝ (deg i - 1) := by
      rw [mem_restrictTotalDegree]
      omega
    rw [← hspan] at hmem
    have : {q | ∃ j, deg j ≤ deg i - 1 ∧ q = Q j} = Q '' {j | deg j ≤ deg i - 1} := by
      ext q
      simp only [Set.mem_ofPred_eq, Set.mem_image]
      constructor
      · rintro ⟨j, h, rfl⟩
        exact ⟨j, h, rfl⟩
      · rintro ⟨j, h, rfl⟩
        exact ⟨j, h, rfl⟩
    rw [this] at hmem
    refine hli.notMem_span_image ?_ hmem
    simp only [Set.mem_ofPred_eq]
    omega

/-- **C57 (interval).**  Mode `n` of the orthonormal basis has degree exactly `n`. -/
theorem C57_degree_interval (Q : Nat → MvPolynomial (Fin 1) ℝ) (hQ : ∀ i (r : ℝ), jacobi 0 0 i r = eval ![r] (Q i)) (n : Nat) :
    (Q n).totalDegree = n := by
  obtain ⟨hli, hspan⟩ := C25_interval Q hQ
  refine totalDegree_eq_of_graded Q (fun n => n) hli (fun N => ?_) n
  rw [← hspan N]
  congr 1
  ext q
  simp [C01_mem]

/-- **C57 (triangle).**  The mode with id `(i, j)` has total degree exactly `i + j`. -/
theorem C57_degree_triangle (i j : Nat) (Q : MvPolynomial (Fin 2) ℝ) (hQ : ComputesTri i j Q) :
    Q.totalDegree = i + j := by
  rw [computesTri_unique hQ]
  obtain ⟨hli, hspan⟩ := C25_triangle triMode computesTri_triMode
  refine totalDegree_eq_of_graded (fun p : Nat × Nat => triMode p.1 p.2) (fun p => p.1 + p.2) hli (fun N => ?_) (i, j)
  rw [← hspan N]
  congr 1
  ext q
  simp [C01_mem]

/-- **C57 (tetrahedron).**  The mode with id `(i, j, k)` has total degree exactly `i + j + k`. -/
theorem C57_degree_tetrahedron (i j k : Nat) (Q : MvPolynomial (Fin 3) ℝ) (hQ : ComputesTet i j k Q) :
    Q.totalDegree = i + j + k := by
  rw [computesTet_unique hQ]
  obtain ⟨hli, hspan⟩ := C25_tetrahedron tetMode computesTet_tetMode
  refine totalDegree_eq_of_graded (fun p : Nat × Nat × Nat => tetMode p.1 p.2.1 p.2.2) (fun p => p.1 + p.2.1 + p.2.2) hli
    (fun N => ?_) (i, j, k)
  rw [← hspan N]
  congr 1
  ext q
  simp [C01_mem, add_assoc]

/-- **C57 (simplices).**  Entry `k` of the degree vector is the sum of mode id `k`, which is the total degree of function
`k` (`C57_degree_*` for the orthonormal modes). -/
theorem C57_simplex {R : Type} (forPN : PNSpace → Basis R) (s : PNSpace) :
    ∃ L, degreeVector forPN (.pn s) = .ok L ∧ L.length = s.spaceDim ∧
      ∀ (k : Nat) (mid : List Nat), (nodeTuples (.pn s))[k]? = some mid → L[k]? = some mid.sum := by
  refine ⟨_, rfl, ?_, ?_⟩
  · rw [degreeVectorSimplex, List.length_map]
    exact length_nodeTuplesPN s
  · intro k mid h
    rw [degreeVectorSimplex, List.getElem?_map]
    have h' : (Pytools.gnitsam s.order s.spatialDim)[k]? = some mid := h
    rw [h', Option.map_some]

/-! ## Tensor products -/

theorem foldl_max_spec : ∀ (l : List Nat) (a : Nat), (l.foldl max a ∈ a :: l) ∧ ∀ v ∈ a :: l, v ≤ l.foldl max a
  | [], a => by simp
  | b :: l, a => by
      obtain ⟨h1, h2⟩ := foldl_max_spec l (max a b)
      rw [List.foldl_cons]
      constructor
      · rcases List.mem_cons.1 h1 with h | h
        · rw [h]
          rcases max_choice a b with e | e <;> rw [e] <;> simp
        · simp [h]
      · intro v hv
        have hm := h2 (max a b) (by simp)
        rcases List.mem_cons.1 hv with rfl | hv
        · exact (le_max_left _ _).trans hm
        · rcases List.mem_cons.1 hv with rfl | hv
          · exact (le_max_right _ _).trans hm
          · exact h2 v (by simp [hv])

theorem pyMax_spec (l : List Nat) (h : l ≠ []) : ∃ m, pyMax l = .ok m ∧ m ∈ l ∧ ∀ v ∈ l, v ≤ m := by
  cases l with
  | nil => exact absurd rfl h
  | cons a l => exact ⟨_, rfl, foldl_max_spec l a⟩

/-- **C57 (tensor products).**  For bases with any degree vectors, entry `k` of the degree vector of their tensor product is
the largest of the degrees of the base functions selected by the mixed-radix digits of `k` (the ones mode `k` is the
product of). -/
theorem C57_tensor_product (dvs : List (List Nat)) (hne : dvs ≠ []) :
    ∃ L, degreeVectorTP (dvs.map List.length) dvs = .ok L ∧ L.length = (dvs.map List.length).prod ∧
      ∀ k < (dvs.map List.length).prod, L.getD k 0 ∈ pick dvs 0 k ∧ ∀ v ∈ pick dvs 0 k, v ≤ L.getD k 0 := by
  have hpick : ∀ k, pick dvs 0 k ≠ [] := by
    intro k h
    have := congrArg List.length h
    simp only [length_pick, List.length_nil, List.length_eq_zero_iff] at this
    exact hne this
  choose M hM1 hM2 hM3 using fun k => pyMax_spec (pick dvs 0 k) (hpick k)
  refine ⟨(List.range (dvs.map List.length).prod).map M, ?_, by simp, ?_⟩
  · unfold degreeVectorTP
    rw [modeIndexTuples_eq, List.map_map, size_eq_prod]
    have : ∀ k ∈ List.range (dvs.map List.length).prod,
        (degreeTPEntry dvs ∘ unravelF (dvs.map List.length)) k = .ok (M k) := by
      intro k hk
      have hz : List.zipWith (fun j (ov : List Nat) => entryAt ov j) (unravelF (dvs.map List.length) k) dvs = (pick dvs 0 k).map .ok := by
        rw [← zipWith_unravel_pick]
        apply List.ext_getElem
        · simp
        · intro i h1 h2
          have hi : i < dvs.length := by simp at h2; omega
          have hlen : (unravelF (dvs.map List.length) k).length = dvs.length := by simp
          have hlt : (unravelF (dvs.map List.length) k)[i]'(by omega) < dvs[i].length := by
            have hd := unravelF_eq_map_digit (dvs.map List.length) k
            simp only [hd, List.getElem_map, List.getElem_range]
            unfold digit
            have hg : (dvs.map List.length).getD i 1 = dvs[i].length := by
              simp [List.getD_eq_getElem?_getD, hi]
            rw [hg]
            apply Nat.mod_lt
            have hpos : 0 < (dvs.map List.length).prod := by
              have := List.mem_range.1 hk
              omega
            rw [List.prod_pos_iff_forall_pos_nat] at hpos
            exact hpos _ (List.mem_map.2 ⟨dvs[i], List.getElem_mem _, rfl⟩)
          simp only [List.getElem_zipWith, List.getElem_map]
          rw [entryAt, List.getElem?_eq_getElem hlt, List.getD_eq_getElem?_getD, List.getElem?_eq_getElem hlt]
          rfl
      simp only [Function.comp, degreeTPEntry, hz]
      rw [if_neg (by simp), collect_ok]
      exact hM1 k
    rw [List.map_congr_left this]
    have e : (List.range (dvs.map List.length).prod).map (fun k => (Except.ok (M k) : Py Nat)) =
        ((List.range (dvs.map List.length).prod).map M).map .ok := by rw [List.map_map]; rfl
    exact (congrArg collect e).trans (collect_ok _)
  · intro k hk
    have : ((List.range (dvs.map List.length).prod).map M).getD k 0 = M k := by
      simp [List.getD_eq_getElem?_getD, hk]
    rw [this]
    exact ⟨hM2 k, hM3 k⟩

/-- An empty tensor product (a zero-dimensional hypercube) has no degree vector. -/
theorem C57_empty_product : degreeVectorTP [] [] = .error .ValueError := by rfl

/-- **C57 (all spaces of the default basis).**  For every product of simplices of positive dimension the degree vector exists,
has `space_dim` entries in mode order, each the maximum of the total degrees of the factors of that mode. -/
theorem C57_space (bases : List PNSpace) (hne : bases ≠ []) (hdim : ∀ s ∈ bases, 1 ≤ s.spatialDim) :
    ∃ L, degreeVector (R := ℝ) basisPN (.tp bases) = .ok L ∧ L.length = (Space.tp bases).spaceDim ∧
      ∀ k < (Space.tp bases).spaceDim,
        let degs := pick (bases.map fun s => (nodeTuples (.pn s)).map List.sum) 0 k
        L.getD k 0 ∈ degs ∧ ∀ v ∈ degs, v ≤ L.getD k 0 := by
  choose! ids fs gs h1 h2 h3 h4 h5 h6 h7 h8 h9 using C14_simplex
  have hcol : collect (bases.map fun s => (basisPN s : Basis ℝ).functions) = .ok (bases.map fs) := by
    have e : (bases.map fun s => (basisPN s : Basis ℝ).functions) = (bases.map fs).map .ok := by
      rw [List.map_map]
      exact List.map_congr_left fun s hs => h2 s (hdim s hs)
    rw [e, collect_ok]
  have hlen : (bases.map fs).map List.length = (bases.map fun s => (nodeTuples (.pn s)).map List.sum).map List.length := by
    rw [List.map_map, List.map_map]
    refine List.map_congr_left fun s hs => ?_
    simp only [Function.comp, List.length_map]
    rw [h7 s (hdim s hs)]
    exact (length_nodeTuplesPN s).symm
  have hprod : ((bases.map fun s => (nodeTuples (.pn s)).map List.sum).map List.length).prod = (Space.tp bases).spaceDim := by
    rw [List.map_map]
    change _ = (bases.map PNSpace.spaceDim).prod
    congr 1
    refine List.map_congr_left fun s _ => ?_
    simp only [Function.comp, List.length_map]
    exact length_nodeTuplesPN s
  obtain ⟨L, hL, hl, hk⟩ := C57_tensor_product (bases.map fun s => (nodeTuples (.pn s)).map List.sum) (by simpa using hne)
  refine ⟨L, ?_, by rw [hl, hprod], by rw [← hprod]; exact hk⟩
  unfold degreeVector
  simp only [Space.flatBases, hcol]
  rw [hlen]
  exact hL

/-! ## The estimator matrix -/

/-- **C57 (estimator).**  For nodes at which the basis can be interpolated: applied to the nodal values of `Σ c_j φ_j`, the
matrix returns exactly the coefficients, in mode order, of the modes whose degree exceeds the largest degree minus
`n_tail_orders`. -/
theorem C57_estimator {X : Type} {n : Nat} (functions : Fin n → X → ℝ) (nodes : Fin n → X) (tail : Int)
    (degrees : List Nat) (hlen : degrees.length = n) (hn : 0 < n) (hu : (vandermonde functions nodes).det ≠ 0) :
    ∃ rows maxDeg, estimatorMatrix functions nodes tail degrees = .ok rows ∧
      maxDeg ∈ degrees ∧ (∀ v ∈ degrees, v ≤ maxDeg) ∧
      ∀ c : Fin n → ℝ, rows.map (fun row => ∑ i, row i * ∑ j, c j * functions j (nodes i)) =
        ((List.finRange n).filter fun (j : Fin n) => decide ((degrees.getD j 0 : Int) > (maxDeg : Int) - tail)).map c := by
  obtain ⟨m, hm, hmem, hmax⟩ := pyMax_spec degrees (by
    intro h
    rw [h] at hlen
    simp at hlen
    omega)
  have hcast : castCols rfl (vandermonde functions nodes) = vandermonde functions nodes := by
    ext i j
    rfl
  refine ⟨((List.finRange n).filter fun (i : Fin n) =>
    decide ((degrees.getD i 0 : Int) > (m : Int) - tail)).map fun i => (vandermonde functions nodes)⁻¹ i, m, ?_, hmem, hmax, ?_⟩
  · unfold estimatorMatrix
    rw [dif_pos rfl, hcast, npInv, if_neg hu]
    simp only [hm, hlen, ne_eq, not_true_eq_false, if_false]
  · intro c
    rw [List.map_map]
    refine List.map_congr_left fun j _ => ?_
    simp only [Function.comp]
    have hV : IsUnit (vandermonde functions nodes).det := isUnit_iff_ne_zero.2 hu
    have h1 : (fun i => ∑ j, c j * functions j (nodes i)) = (vandermonde functions nodes).mulVec c := by
      funext i
      simp only [Matrix.mulVec, dotProduct, vandermonde, Matrix.of_apply]
      exact Finset.sum_congr rfl fun j _ => mul_comm _ _
    have h2 : ∑ i, (vandermonde functions nodes)⁻¹ j i * ∑ j, c j * functions j (nodes i) =
        ((vandermonde functions nodes)⁻¹.mulVec (fun i => ∑ j, c j * functions j (nodes i))) j := rfl
    rw [h2, h1, Matrix.mulVec_mulVec, Matrix.nonsing_inv_mul _ hV, Matrix.one_mulVec]

/-- **C57.**  Where interpolation is impossible, or the counts differ, the call raises. -/
theorem C57_estimator_rejects {X : Type} {m n : Nat} (functions : Fin n → X → ℝ) (nodes : Fin m → X) (tail : Int)
    (degrees : List Nat) (h : ∀ e : m = n, (castCols e (vandermonde functions nodes)).det = 0) :
    estimatorMatrix functions nodes tail degrees = .error .LinAlgError := by
  unfold estimatorMatrix
  split
  · rename_i e
    rw [npInv, if_pos (h e)]
  · rfl

/-- Non-vacuity: `1, x` at the nodes `±1`; the tail of one order is the coefficient of `x`. -/
example : ∃ rows, estimatorMatrix (![fun _ => 1, fun x => x] : Fin 2 → ℝ → ℝ) (![-1, 1] : Fin 2 → ℝ) 1 [0, 1] = .ok rows ∧
    ∀ c : Fin 2 → ℝ, rows.map (fun row => ∑ i, row i * ∑ j, c j *
      (![fun _ => 1, fun x => x] : Fin 2 → ℝ → ℝ) j ((![-1, 1] : Fin 2 → ℝ) i)) = [c 1] := by
  obtain ⟨rows, m, h, hm, hmax, hc⟩ := C57_estimator (![fun _ => 1, fun x => x] : Fin 2 → ℝ → ℝ) (![-1, 1] : Fin 2 → ℝ)
    1 [0, 1] rfl (by norm_num) (by
      simp [Matrix.det_fin_two, vandermonde])
  refine ⟨rows, h, fun c => ?_⟩
  rw [hc c]
  have : m = 1 := by
    have := hmax 1 (by simp)
    simp at hm
    omega
  subst this
  rfl

end Modepy

import Verif.Proofs.WarpLower
import Verif.Props.EdgeClustered
import Verif.Props.SumFactorization

/-!
# Property C101: matrices on edge-clustered nodes

The nodes that discontinuous Galerkin codes use together with the orthonormal basis: where they lie, and what the mass,
differentiation and resampling matrices built on them are, with no assumption on the nodes left.
-/

namespace Modepy
open Spec NdArray

/-- The entries of a tuple, with the one of corner zero in front. -/
theorem tupleCoord_entries {d n : Nat} (t : List Nat) :
    tupleCoord d n t = fun p => (((fun p : Fin (d + 1) => (fullTuple n t).getD p 0) p : ℕ) : ℝ) / n := rfl

theorem sum_entries {d n : Nat} {t : List Nat} (hl : t.length = d) (hs : t.sum ≤ n) :
    ∑ p : Fin (d + 1), (fullTuple n t).getD p 0 = n := fullTuple_entries hl hs

/-- **C101 (where the nodes are).**  Edge-clustered nodes of the interval of any order, and of triangle and tetrahedron of
order at most five, lie in the closed element: the barycentric coordinate of a corner is zero where the node's tuple has a
zero and positive elsewhere, on triangle and tetrahedron at least `1 / 30`. -/
theorem C101_in_simplex (ext : Ext) (hext : ext.EighOk) (so : SetOrder) (d n : Nat) (hd : 1 ≤ d ∧ d ≤ 3) (hn : 1 ≤ n)
    (hn2 : n < 10 ^ 8) (hcase : d = 1 ∨ n ≤ 5) :
    ∃ A, edgeClusteredNodes ext so (.pn ⟨d, n⟩) (.simplex d) = .ok A ∧
      ∀ k t, (nodeTuples (.pn ⟨d, n⟩))[k]? = some t → InSimplex d (column A d k) ∧ ∀ p ≤ d,
        ((fullTuple n t).getD p 0 = 0 → bary (column A d k) p = 0) ∧
        (0 < (fullTuple n t).getD p 0 → 0 < bary (column A d k) p ∧ (d ≠ 1 → 1 / 30 ≤ bary (column A d k) p)) := by
  obtain ⟨hts, hv⟩ := validTuples_default d n
  obtain ⟨A, x, B, hA, hlgl, h0, hmono, hB, -, hcol⟩ := warp_main ext hext so d hd n hn hn2 none _ hts hv
  refine ⟨A, ?_, fun k t ht => ?_⟩
  · simp only [edgeClusteredNodes, edgeClusteredPN, ne_eq, not_true, if_false]
    rw [if_pos (by omega), hA]
  obtain ⟨hk, ek⟩ := List.getElem?_eq_some_iff.1 ht
  obtain ⟨hl, hs⟩ := hv t (ek ▸ List.getElem_mem hk)
  have hb := hcol k t ht
  have hbary : ∀ p : Fin (d + 1), bary (column A d k) p = B (tupleCoord d n t) p := fun p => bary_of_unitToBarycentric hb p
  have hzero : ∀ p : Fin (d + 1), (fullTuple n t).getD p 0 = 0 → bary (column A d k) p = 0 := by
    intro p hp
    rw [hbary, hB.face _ p (by rw [tupleCoord, hp]; simp)]
  -- the nodes on the interval
  obtain ⟨m, rfl⟩ : ∃ m, n = m + 1 := ⟨n - 1, by omega⟩
  obtain ⟨x', hok', -, h1', hmono', hsym'⟩ := lobatto_symm ext hext (α := 0) (by norm_num) m
  have hx : x = x' := by
    rw [legendreGaussLobattoNodes, jacobiGaussLobattoNodes, hok'] at hlgl
    have e : NdArray.ofFn x' = NdArray.ofFn x := by simpa using hlgl
    funext j
    have := congrArg (fun X : NdArray ℝ => X.get [(j : ℕ)]) e
    simpa [NdArray.ofFn, Nat.lt_succ_iff.1 j.2] using this.symm
  subst hx
  have hpos : ∀ p : Fin (d + 1), 0 < (fullTuple (m + 1) t).getD p 0 →
      0 < bary (column A d k) p ∧ (d ≠ 1 → 1 / 30 ≤ bary (column A d k) p) := by
    intro p hp
    rw [hbary]
    by_cases hd1 : d = 1
    · subst hd1
      have hall : ∀ p : Fin 2, ∃ q, p ≠ q ∧ ∀ r, r ≠ p → r ≠ q → False := by decide
      obtain ⟨q, hpq, hr⟩ := hall p
      have hsum := sum_entries hl hs
      have hu : ∀ p q : Fin 2, p ≠ q → (Finset.univ : Finset (Fin 2)) = {p, q} := by decide
      rw [hu p q hpq, Finset.sum_pair hpq] at hsum
      refine ⟨?_, by simp⟩
      rw [hB.edge _ _ hsum _ p q hpq rfl rfl fun r e1 e2 => (hr r e1 e2).elim]
      have : x 0 < x ⟨(fullTuple (m + 1) t).getD p 0, by omega⟩ := hmono (by rw [Fin.lt_def]; exact hp)
      rw [h0] at this
      linarith
    · have := hB.lower (by omega) (by omega)
        (fun j e1 e2 => lobatto_inner ext hext m (by omega) x hok' hmono hsym' j e1 e2) h1'
        (fun p : Fin (d + 1) => (fullTuple (m + 1) t).getD p 0) (sum_entries hl hs) p hp
      rw [tupleCoord_entries]
      exact ⟨lt_of_lt_of_le (by norm_num) this, fun _ => this⟩
  have hall : ∀ p ≤ d, ((fullTuple (m + 1) t).getD p 0 = 0 → bary (column A d k) p = 0) ∧
      (0 < (fullTuple (m + 1) t).getD p 0 → 0 < bary (column A d k) p ∧ (d ≠ 1 → 1 / 30 ≤ bary (column A d k) p)) :=
    fun p hp => ⟨hzero ⟨p, by omega⟩, hpos ⟨p, by omega⟩⟩
  refine ⟨⟨by simp [column], fun p hp => ?_⟩, hall⟩
  rcases Nat.eq_zero_or_pos ((fullTuple (m + 1) t).getD p 0) with h | h
  · exact ((hall p hp).1 h).ge
  · exact ((hall p hp).2 h).1.le

/-- Edge-clustered nodes of a factor are regular and determine its polynomials. -/
theorem good_edgeClustered (ext : Ext) (hext : ext.EighOk) (so : SetOrder) (s : PNSpace)
    (hd : 1 ≤ s.spatialDim ∧ s.spatialDim ≤ 3) (hord : s.order < 10 ^ 8) (hcase : s.spatialDim = 1 ∨ s.order ≤ 5) :
    ∃ X, edgeClusteredNodes ext so (.pn s) (.simplex s.spatialDim) = .ok X ∧ GoodNodes s X := by
  obtain ⟨d, n⟩ := s
  simp only at hd hord hcase
  obtain ⟨X, hX, hsh, hu⟩ := C71_unisolvent ext hext so d n hord (by omega)
  refine ⟨X, hX, hsh, fun i hi => ⟨by simp [column, Space.spatialDim], ?_⟩, hu⟩
  have hlen : (column X d i).length = d := by simp [column]
  have hsl : slices ((Space.pn ⟨d, n⟩).flatBases.map PNSpace.spatialDim) (column X d i) = [column X d i] := by
    simp [Space.flatBases, slices, hlen]
  change List.Forall₂ Regular ((Space.pn ⟨d, n⟩).flatBases.map PNSpace.spatialDim)
    (slices ((Space.pn ⟨d, n⟩).flatBases.map PNSpace.spatialDim) (column X d i))
  rw [hsl]
  refine List.Forall₂.cons ?_ .nil
  change Regular d (column X d i)
  rcases Nat.eq_zero_or_pos n with rfl | hn
  · -- the centroid
    have e : X = simplexCentroid d := by
      simp only [edgeClusteredNodes, edgeClusteredPN, ne_eq, not_true, if_false] at hX
      rw [if_pos (by omega)] at hX
      simpa [warpAndBlendNodes] using hX.symm
    subst e
    obtain rfl | rfl | rfl : d = 1 ∨ d = 2 ∨ d = 3 := by omega
    · simp [Regular, column]
    · left
      simp [simplexCentroid, Shape.unitVerticesSimplex, List.range_succ]
      norm_num
    · left
      simp [simplexCentroid, Shape.unitVerticesSimplex, List.range_succ]
      norm_num
  obtain ⟨X', hX', hpos⟩ := C101_in_simplex ext hext so d n hd hn hord hcase
  obtain rfl : X = X' := Except.ok.inj (hX.symm.trans hX')
  have hi' : i < (nodeTuples (.pn ⟨d, n⟩)).length := lt_of_lt_of_eq hi (length_pn ⟨d, n⟩).symm
  obtain ⟨-, hb⟩ := hpos i _ (List.getElem?_eq_getElem hi')
  generalize (nodeTuples (.pn ⟨d, n⟩))[i] = t at hb
  have hb0 : ∀ p ≤ d, bary (column X d i) p = 0 ∨ (d ≠ 1 → 1 / 30 ≤ bary (column X d i) p) := by
    intro p hp
    rcases Nat.eq_zero_or_pos ((fullTuple n t).getD p 0) with h | h
    · exact Or.inl ((hb p hp).1 h)
    · exact Or.inr ((hb p hp).2 h).2
  clear hb hpos hX hX' hu hsh
  generalize column X d i = y at *
  obtain rfl | rfl | rfl : d = 1 ∨ d = 2 ∨ d = 3 := by omega
  · simpa [Regular] using hlen
  · obtain ⟨r, s, rfl⟩ : ∃ r s, y = [r, s] := by
      match y, hlen with
      | [r, s], _ => exact ⟨r, s, rfl⟩
    have b0 := hb0 0 (by omega)
    have b1 := hb0 1 (by omega)
    simp [bary] at b0 b1
    show 1e-12 ≤ |s - 1| ∨ (r = -1 ∧ s = 1)
    rw [abs_sub_comm]
    rcases b1 with b1 | b1
    · rcases b0 with b0 | b0
      · right; constructor <;> linarith
      · left; rw [le_abs]; left; norm_num; linarith
    · left
      rw [le_abs]
      left
      norm_num
      rcases b0 with b0 | b0 <;> linarith
  · obtain ⟨r, s, u, rfl⟩ : ∃ r s u, y = [r, s, u] := by
      match y, hlen with
      | [r, s, u], _ => exact ⟨r, s, u, rfl⟩
    have b0 := hb0 0 (by omega)
    have b1 := hb0 1 (by omega)
    have b2 := hb0 2 (by omega)
    simp [bary] at b0 b1 b2
    show (1e-10 < |s + u| ∧ 1e-10 < |u - 1|) ∨ (r = -1 ∧ s = -u ∧ 1e-10 < |u - 1|) ∨ (r = -1 ∧ s = -1 ∧ u = 1)
    have c2 : 0 ≤ (1 + s) / 2 := by rcases b2 with b2 | b2 <;> linarith
    have c1 : 0 ≤ (1 + r) / 2 := by rcases b1 with b1 | b1 <;> linarith
    have c0 : 0 ≤ 1 - ((1 + r) / 2 + ((1 + s) / 2 + (1 + u) / 2)) := by rcases b0 with b0 | b0 <;> linarith
    have far : 1 / 30 ≤ 1 - ((1 + s) / 2 + (1 + u) / 2) → (1e-10 < |s + u| ∧ 1e-10 < |u - 1|) := by
      intro h
      rw [abs_sub_comm, lt_abs, lt_abs]
      norm_num
      exact ⟨Or.inr (by linarith), Or.inl (by linarith)⟩
    rcases b1 with b1 | b1
    · rcases b0 with b0 | b0
      · rcases b2 with b2 | b2
        · right; right
          refine ⟨?_, ?_, ?_⟩ <;> linarith
        · right; left
          refine ⟨by linarith, by linarith, ?_⟩
          rw [abs_sub_comm, lt_abs]
          left
          norm_num
          linarith
      · left; exact far (by linarith)
    · left; exact far (by linarith)

/-- **C101 (matrices).**  For every product of simplices of dimension one to three, the factors on triangle and tetrahedron of
order at most five: `edge_clustered_nodes_for_space` and `orthonormal_basis_for_space` succeed, `mass_matrix` gives the
integrals of the products, `diff_matrices` the derivatives and `resampling_matrix` to any regular nodes the values of every
polynomial of the space from its values at the nodes, and mass and differentiation matrices are those of the factors,
combined. -/
theorem C101_matrices (ext : Ext) (hext : ext.EighOk) (so : SetOrder) (bases : List PNSpace)
    (hd : ∀ s ∈ bases, 1 ≤ s.spatialDim ∧ s.spatialDim ≤ 3) (hord : ∀ s ∈ bases, s.order < 10 ^ 8)
    (hcase : ∀ s ∈ bases, s.spatialDim = 1 ∨ s.order ≤ 5) (hne : bases ≠ []) :
    ∃ (As : List (NdArray ℝ)) (A : NdArray ℝ) (b : Basis ℝ) (fb : PNSpace → Basis ℝ)
      (M : Matrix (Fin (nodeTuples (.tp bases)).length) (Fin (nodeTuples (.tp bases)).length) ℝ)
      (D : Fin (Space.tp bases).spatialDim →
        Matrix (Fin (nodeTuples (.tp bases)).length) (Fin (nodeTuples (.tp bases)).length) ℝ),
      List.Forall₂ (fun s X => edgeClusteredNodes ext so (.pn s) (.simplex s.spatialDim) = .ok X) bases As ∧
      edgeClusteredNodes ext so (.tp bases) (.tp (bases.map PNSpace.spatialDim)) = .ok A ∧
      (∀ s ∈ bases, orthonormalBasisForSpace (.pn s) (.simplex s.spatialDim) = .ok (fb s)) ∧
      orthonormalBasisForSpace (.tp bases) (.tp (bases.map PNSpace.spatialDim)) = .ok b ∧
      massMatrixOfBasis b (productNodes bases A) = .ok M ∧
      diffMatricesOf (Space.tp bases).spatialDim b (productNodes bases A) (productNodes bases A) = .ok D ∧
      (∀ c,
        (∀ e, ∑ i, ∑ j, spacePoly (.tp bases) c (productNodes bases A i) * M i j * spacePoly (.tp bases) e (productNodes bases A j) =
          spaceIntegral (.tp bases) (fun x => spacePoly (.tp bases) c x * spacePoly (.tp bases) e x)) ∧
        ∀ i, IsGradientAt (Space.tp bases).spatialDim (spacePoly (.tp bases) c) (productNodes bases A i)
          (List.ofFn fun k => ∑ j, D k i j * spacePoly (.tp bases) c (productNodes bases A j))) ∧
      (∀ {p : Nat} (y : Fin p → List ℝ) (ls : Bool)
        (pinv : (n : Nat) → Matrix (Fin (nodeTuples (.tp bases)).length) (Fin n) ℝ →
          Matrix (Fin n) (Fin (nodeTuples (.tp bases)).length) ℝ),
        (∀ i, RegularFor (.tp bases) (y i)) → ∃ R, resamplingMatrixOf b y (productNodes bases A) ls pinv = .ok R ∧
          ∀ c i, ∑ j, R i j * spacePoly (.tp bases) c (productNodes bases A j) = spacePoly (.tp bases) c (y i)) ∧
      ∀ i j,
        M i j = kronEntry (List.zipWith (fun (s : PNSpace) X => (s.spaceDim, s.spaceDim,
          result (massMatrixOfBasis (fb s) (factorNodes s X)))) bases As) i j ∧
        ∀ axis, D axis i j = axisEntry (List.zipWith (fun (s : PNSpace) X => (s.spatialDim, s.spaceDim,
          results (diffMatricesOf (Space.pn s).spatialDim (fb s) (factorNodes s X) (factorNodes s X)))) bases As) axis i j := by
  have hpos : 0 < (bases.map PNSpace.spatialDim).sum := by
    obtain ⟨s, l, rfl⟩ := List.exists_cons_of_ne_nil hne
    have := (hd s (by simp)).1
    simp only [List.map_cons, List.sum_cons]
    omega
  obtain ⟨As, A, h1, hA, hA', -, -⟩ := C71_product ext hext so bases hord hpos
  have h2 : List.Forall₂ GoodNodes bases As := by
    clear hA hA' hpos hne
    induction h1 with
    | nil => exact .nil
    | @cons s X bases As hX _ ih =>
      refine .cons ?_ (ih (fun s hs => hd s (List.mem_cons_of_mem _ hs)) (fun s hs => hord s (List.mem_cons_of_mem _ hs))
        fun s hs => hcase s (List.mem_cons_of_mem _ hs))
      obtain ⟨X', hX', hg⟩ := good_edgeClustered ext hext so s (hd s (by simp)) (hord s (by simp)) (hcase s (by simp))
      obtain rfl : X = X' := Except.ok.inj (hX.symm.trans hX')
      exact hg
  obtain ⟨L, A₀, -, -, -, -, hA₀, -, -, hreg, hu⟩ := product_setup bases As h2 hpos
  obtain rfl : A = A₀ := Except.ok.inj (hA.symm.trans hA₀)
  have hb : ∃ b : Basis ℝ, orthonormalBasisForSpace (.tp bases) (.tp (bases.map PNSpace.spatialDim)) = .ok b := by
    simp only [orthonormalBasisForSpace, basisForSpaceWith]
    rw [if_neg (by simp [Space.spatialDim, Space.flatBases, Shape.dim]), if_neg (by simp [Space.flatBases, Shape.flatBases])]
    exact ⟨_, rfl⟩
  obtain ⟨b, hb⟩ := hb
  have hf : ∀ s : PNSpace, ∃ f : Basis ℝ, orthonormalBasisForSpace (.pn s) (.simplex s.spatialDim) = .ok f := by
    intro s
    simp only [orthonormalBasisForSpace, basisForSpaceWith]
    simp
  choose fb hfb using hf
  have hB : IsBasisOf b (.tp bases) := ⟨_, .inl ⟨hb, fun s hs => (hd s hs).2⟩⟩
  obtain ⟨A₁, M, hA₁, hM, hm⟩ := C93_mass bases As h2 hpos hd b ⟨_, .inl hb⟩ fb fun s _ => ⟨_, .inl (hfb s)⟩
  obtain rfl : A = A₁ := Except.ok.inj (hA.symm.trans hA₁)
  obtain ⟨A₂, D, hA₂, hD, hdd⟩ := C93_differentiation bases As h2 hpos (fun s hs => (hd s hs).1) b hB fb
    fun s hs => ⟨_, .inl ⟨hfb s, by
      simp only [Space.flatBases, List.mem_singleton, forall_eq]
      exact (hd s hs).2⟩⟩
  obtain rfl : A = A₂ := Except.ok.inj (hA.symm.trans hA₂)
  obtain ⟨M', hM', hm'⟩ := C75_mass (.tp bases) _ b hb hd _ hreg hu
  obtain rfl : M = M' := Except.ok.inj (hM.symm.trans hM')
  obtain ⟨D', hD', hd'⟩ := C76_orthonormal (.tp bases) _ b hb hd hpos.ne' _ _ hreg hreg hu
  obtain rfl : D = D' := Except.ok.inj (hD.symm.trans hD')
  refine ⟨As, A, b, fb, M, D, h1, hA', fun s _ => hfb s, hb, hM, hD, fun c => ⟨fun e => hm' c e, fun i => hd' c i⟩, ?_,
    fun i j => ⟨hm i j, fun axis => hdd axis i j⟩⟩
  intro p y ls pinv hy
  exact C77_resampling (.tp bases) b hB y _ hy hreg hu ls pinv

/-- Non-vacuity: a prism with a triangle of order four and an interval of order nine. -/
example (ext : Ext) (hext : ext.EighOk) (so : SetOrder) :=
  C101_matrices ext hext so [⟨2, 4⟩, ⟨1, 9⟩] (by simp) (by simp) (by simp) (by simp)

/-- The inner node of the cubic triangle. -/
example (ext : Ext) (hext : ext.EighOk) (so : SetOrder) : ∃ A k,
    edgeClusteredNodes ext so (.pn ⟨2, 3⟩) (.simplex 2) = .ok A ∧ InSimplexInterior 2 (column A 2 k) := by
  obtain ⟨A, hA, h⟩ := C101_in_simplex ext hext so 2 3 (by decide) (by decide) (by decide) (by decide)
  obtain ⟨k, hk, e⟩ := List.getElem_of_mem ((C01_mem 2 3 [1, 1]).2 (by simp))
  obtain ⟨h1, h2⟩ := h k _ (by rw [List.getElem?_eq_getElem hk, e])
  refine ⟨A, k, hA, h1.1, fun p hp => ((h2 p hp).2 ?_).1⟩
  interval_cases p <;> decide

end Modepy

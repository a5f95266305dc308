import Verif.Proofs.BasisSpan
import Verif.Proofs.Unisolvence

/-!
# Property C72: every basis of a space spans the space

`basis_for_space`, `orthonormal_basis_for_space` and `monomial_basis_for_space` return as many functions as the space has
dimensions, and these are an invertible combination of the monomials of the space.  In particular the choice of basis
does not change which node sets are unisolvent.
-/

namespace Modepy
open Spec NdArray

/-- Points of `ℝ^dim` each of whose parts is outside the tolerance strips (or on the collapsed set) of its factor. -/
def Spec.RegularFor (space : Space) (x : List ℝ) : Prop :=
  x.length = space.spatialDim ∧
  List.Forall₂ Regular (space.flatBases.map PNSpace.spatialDim) (slices (space.flatBases.map PNSpace.spatialDim) x)

/-- The functions are as many as the space has dimensions, can be evaluated at every regular point, and are an
invertible combination of the monomials of the space. -/
def Spec.SpansSpace (fs : List (List ℝ → Py ℝ)) (space : Space) : Prop :=
  fs.length = space.spaceDim ∧
  ∃ C : Matrix (Fin (nodeTuples space).length) (Fin (nodeTuples space).length) ℝ, C.det ≠ 0 ∧
    ∀ (k : Fin (nodeTuples space).length) (f : List ℝ → Py ℝ), fs[(k : Nat)]? = some f →
      ∀ x, RegularFor space x → f x = .ok (combine (fun l => monomialValue (nodeTuples space)[l]) (C k) x)

theorem length_nodeTuples (space : Space) : (nodeTuples space).length = space.spaceDim := by
  cases space with
  | pn s => exact length_nodeTuplesPN s
  | tp bs => exact length_nodeTuplesTP bs
  | qn d n => exact length_nodeTuplesTP _

theorem spansSpace_of (fs : List (List ℝ → Py ℝ)) (space : Space) (C : Nat → Nat → ℝ)
    (hl : fs.length = space.spaceDim) (hC : HasLeftInv space.spaceDim C)
    (h : ∀ (k : Nat) (f : List ℝ → Py ℝ), fs[k]? = some f → ∀ x, RegularFor space x →
      f x = .ok (∑ l ∈ Finset.range space.spaceDim, C k l * monomialValue ((nodeTuples space).getD l []) x)) :
    SpansSpace fs space := by
  have hlen := length_nodeTuples space
  refine ⟨hl, Matrix.of fun i j => C i j, det_of_leftInv C (by rw [hlen]; exact hC), ?_⟩
  intro k f hf x hx
  rw [h k f hf x hx, ← hlen, Finset.sum_range]
  congr 1
  simp only [combine, Matrix.of_apply]
  refine Finset.sum_congr rfl fun l _ => ?_
  simp [List.getD_eq_getElem?_getD]

/-- For simplices. -/
theorem spans_pn (forPN : PNSpace → Basis ℝ) (s : PNSpace)
    (h : ∃ fs C, (forPN s).functions = .ok fs ∧ SpansPN fs s C) :
    ∃ fs, (forPN s).functions = .ok fs ∧ SpansSpace fs (.pn s) := by
  obtain ⟨fs, C, hfs, hl, hC, hv⟩ := h
  refine ⟨fs, hfs, spansSpace_of fs (.pn s) C hl hC ?_⟩
  intro k f hf x hx
  have hk : k < s.spaceDim := by
    rw [← hl]
    by_contra hc
    rw [List.getElem?_eq_none (by omega)] at hf
    cases hf
  have hr := hx.2
  have hxl : x.length = s.spatialDim := hx.1
  simp only [Space.flatBases, List.map_cons, List.map_nil, slices, List.forall₂_cons, List.Forall₂.nil, and_true] at hr
  rw [List.take_of_length_le (by omega)] at hr
  have := hv k hk x hr
  rw [List.getD_eq_getElem?_getD, hf, Option.getD_some] at this
  exact this

theorem spans_tp (forPN : PNSpace → Basis ℝ) (space : Space) (hsp : space.isTP = true)
    (h : ∀ s ∈ space.flatBases, ∃ fs C, (forPN s).functions = .ok fs ∧ SpansPN fs s C) :
    ∃ fs, (tensorProductBasis (space.flatBases.map forPN) (space.flatBases.map PNSpace.spatialDim)).functions = .ok fs ∧
      SpansSpace fs space := by
  obtain ⟨fs, C, hfs, hl, hC, hv⟩ := spans_product forPN space.flatBases h
  have h1 : (space.flatBases.map PNSpace.spaceDim).prod = space.spaceDim := by cases space <;> simp_all [Space.isTP, Space.spaceDim]
  have h2 : (space.flatBases.map PNSpace.spatialDim).sum = space.spatialDim := by
    cases space <;> simp_all [Space.isTP, Space.spatialDim]
  have h3 : nodeTuples space = nodeTuplesTP space.flatBases := by
    cases space <;> simp_all [Space.isTP, nodeTuples]
  rw [h1] at hl hC hv
  refine ⟨fs, hfs, spansSpace_of fs space C hl hC fun k f hf x hx => ?_⟩
  rw [h3]
  exact hv k f hf x (hx.1.trans h2.symm) hx.2

/-- All registrations have the same structure. -/
theorem spans_with (forPN : PNSpace → Basis ℝ) (check : Bool) (space : Space) (shape : Shape) (b : Basis ℝ)
    (hb : basisForSpaceWith forPN check space shape = .ok b)
    (h : ∀ s ∈ space.flatBases, ∃ fs C, (forPN s).functions = .ok fs ∧ SpansPN fs s C) :
    ∃ fs, b.functions = .ok fs ∧ SpansSpace fs space := by
  cases space with
  | pn s =>
    cases shape with
    | simplex d =>
      simp only [basisForSpaceWith, Except.ok.injEq] at hb
      subst hb
      exact spans_pn forPN s (h s (by simp [Space.flatBases]))
    | tp ds => simp [basisForSpaceWith] at hb
    | hypercube d => simp [basisForSpaceWith] at hb
  | tp bs =>
    cases shape with
    | simplex d => simp [basisForSpaceWith] at hb
    | _ =>
      simp only [basisForSpaceWith] at hb
      split_ifs at hb
      simp only [Except.ok.injEq] at hb
      subst hb
      exact spans_tp forPN _ rfl h
  | qn d n =>
    cases shape with
    | simplex d => simp [basisForSpaceWith] at hb
    | _ =>
      simp only [basisForSpaceWith] at hb
      split_ifs at hb
      simp only [Except.ok.injEq] at hb
      subst hb
      exact spans_tp forPN _ rfl h

/-- **C72 (`basis_for_space`).** -/
theorem C72_basis (space : Space) (shape : Shape) (b : Basis ℝ) (hb : basisForSpace space shape = .ok b) :
    ∃ fs, b.functions = .ok fs ∧ SpansSpace fs space :=
  spans_with basisPN true space shape b hb fun s _ => spansPN_basis s

/-- **C72 (`monomial_basis_for_space`).** -/
theorem C72_monomial (space : Space) (shape : Shape) (b : Basis ℝ) (hb : monomialBasisForSpace space shape = .ok b) :
    ∃ fs, b.functions = .ok fs ∧ SpansSpace fs space :=
  spans_with monomialBasisPN false space shape b hb fun s _ => spansPN_mono s

/-- **C72 (`orthonormal_basis_for_space`).**  Available if all factors have dimension at most three. -/
theorem C72_orthonormal (space : Space) (shape : Shape) (b : Basis ℝ)
    (hb : orthonormalBasisForSpace space shape = .ok b) (hd : ∀ s ∈ space.flatBases, s.spatialDim ≤ 3) :
    ∃ fs, b.functions = .ok fs ∧ SpansSpace fs space :=
  spans_with orthonormalBasisPN true space shape b hb fun s hs => spansPN_onb s (hd s hs)

/-- **C72 (unavailable).**  On a simplex of dimension four or more the functions of the orthonormal basis raise
`NotImplementedError`. -/
theorem C72_orthonormal_unavailable (s : PNSpace) (d : Nat) (hs : 4 ≤ s.spatialDim) (b : Basis ℝ)
    (hb : orthonormalBasisForSpace (.pn s) (.simplex d) = .ok b) : b.functions = .error .NotImplementedError := by
  simp only [orthonormalBasisForSpace, basisForSpaceWith, Except.ok.injEq, orthonormalBasisPN] at hb
  subst hb
  simp only [simplexONB]
  rw [if_neg (by omega), if_neg (by omega)]

/-- **C72 (change of basis).**  Two bases of the same space differ by an invertible matrix. -/
theorem C72_change (space : Space) (fs gs : List (List ℝ → Py ℝ)) (hf : SpansSpace fs space) (hg : SpansSpace gs space) :
    ∃ A : Matrix (Fin (nodeTuples space).length) (Fin (nodeTuples space).length) ℝ, A.det ≠ 0 ∧
      ∀ x, RegularFor space x → ∃ u v : Fin (nodeTuples space).length → ℝ,
        (∀ k : Fin (nodeTuples space).length, (fs.getD k fun _ => .error .IndexError) x = .ok (u k)) ∧
        (∀ k : Fin (nodeTuples space).length, (gs.getD k fun _ => .error .IndexError) x = .ok (v k)) ∧
        ∀ k, u k = ∑ l, A k l * v l := by
  obtain ⟨hfl, C, hC, hfv⟩ := hf
  obtain ⟨hgl, D, hD, hgv⟩ := hg
  have hlen := length_nodeTuples space
  refine ⟨C * D⁻¹, ?_, ?_⟩
  · rw [Matrix.det_mul]
    refine mul_ne_zero hC ?_
    rw [Matrix.det_nonsing_inv]
    simpa using hD
  · intro x hx
    refine ⟨fun k => combine (fun l => monomialValue (nodeTuples space)[l]) (C k) x, fun k => combine (fun l => monomialValue (nodeTuples space)[l]) (D k) x,
      fun k => ?_, fun k => ?_, ?_⟩
    · rw [List.getD_eq_getElem?_getD, List.getElem?_eq_getElem (by omega), Option.getD_some]
      exact hfv k _ (List.getElem?_eq_getElem (by omega)) x hx
    · rw [List.getD_eq_getElem?_getD, List.getElem?_eq_getElem (by omega), Option.getD_some]
      exact hgv k _ (List.getElem?_eq_getElem (by omega)) x hx
    · intro k
      have e1 : ∀ M : Matrix (Fin (nodeTuples space).length) (Fin (nodeTuples space).length) ℝ, (fun k => combine (fun l => monomialValue (nodeTuples space)[l]) (M k) x) =
          M.mulVec fun l => monomialValue (nodeTuples space)[l] x := by
        intro M
        funext k
        simp [combine, Matrix.mulVec, dotProduct]
      have e2 : C.mulVec (fun l => monomialValue (nodeTuples space)[l] x) =
          (C * D⁻¹).mulVec (D.mulVec fun l => monomialValue (nodeTuples space)[l] x) := by
        rw [Matrix.mulVec_mulVec, Matrix.mul_assoc, Matrix.nonsing_inv_mul D hD.isUnit, Matrix.mul_one]
      have := congrFun e2 k
      rw [← e1, ← e1] at this
      simpa [Matrix.mulVec, dotProduct] using this

/-- **C72 (unisolvence).**  Whether a set of regular nodes determines the functions of the space does not depend on the
basis: the Vandermonde matrix is invertible iff no polynomial of the space but zero vanishes at the nodes. -/
theorem C72_unisolvent (space : Space) (fs : List (List ℝ → Py ℝ)) (hf : SpansSpace fs space)
    (nodes : Fin (nodeTuples space).length → List ℝ) (hn : ∀ i, RegularFor space (nodes i)) :
    ∃ V : Matrix (Fin (nodeTuples space).length) (Fin (nodeTuples space).length) ℝ,
      (∀ i (j : Fin (nodeTuples space).length), (fs.getD j fun _ => .error .IndexError) (nodes i) = .ok (V i j)) ∧
      (V.det ≠ 0 ↔ Unisolvent (fun l : Fin (nodeTuples space).length => monomialValue (nodeTuples space)[l]) nodes) := by
  obtain ⟨hfl, C, hC, hfv⟩ := hf
  have hlen := length_nodeTuples space
  refine ⟨vandermonde (fun k => combine (fun l => monomialValue (nodeTuples space)[l]) (C k)) nodes, ?_, ?_⟩
  · intro i j
    rw [List.getD_eq_getElem?_getD, List.getElem?_eq_getElem (by omega), Option.getD_some]
    exact hfv j _ (List.getElem?_eq_getElem (by omega)) _ (hn i)
  · have e : vandermonde (fun k => combine (fun l => monomialValue (nodeTuples space)[l]) (C k)) nodes =
        vandermonde (fun l => monomialValue (nodeTuples space)[l]) nodes * C.transpose := by
      ext i j
      simp [vandermonde, combine, Matrix.mul_apply, mul_comm]
    rw [e, Matrix.det_mul, Matrix.det_transpose, unisolvent_iff_det]
    simp [hC]

/-- Non-vacuity: quadratics on the triangle times cubics on the interval. -/
example : ∃ b : Basis ℝ, orthonormalBasisForSpace (.tp [⟨2, 2⟩, ⟨1, 3⟩]) (.tp [2, 1]) = .ok b ∧
    ∃ fs, b.functions = .ok fs ∧ fs.length = 24 ∧ SpansSpace fs (.tp [⟨2, 2⟩, ⟨1, 3⟩]) ∧
      RegularFor (.tp [⟨2, 2⟩, ⟨1, 3⟩]) [-1 / 2, 0, 1 / 3] := by
  refine ⟨_, by simp [orthonormalBasisForSpace, basisForSpaceWith, Space.spatialDim, Shape.dim, Space.flatBases,
    Shape.flatBases]; rfl, ?_⟩
  obtain ⟨fs, h1, h2⟩ := C72_orthonormal (.tp [⟨2, 2⟩, ⟨1, 3⟩]) (.tp [2, 1]) _
    (by simp [orthonormalBasisForSpace, basisForSpaceWith, Space.spatialDim, Shape.dim, Space.flatBases,
      Shape.flatBases]; rfl) (by simp [Space.flatBases])
  refine ⟨fs, h1, ?_, h2, ?_⟩
  · rw [h2.1]; decide
  · refine ⟨rfl, ?_⟩
    simp only [Space.flatBases, List.map_cons, List.map_nil, slices, List.forall₂_cons, List.Forall₂.nil, and_true]
    refine ⟨Or.inl ?_, rfl⟩
    norm_num

end Modepy

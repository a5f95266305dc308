import Verif.Model.FormMatrices
import Verif.Proofs.BasisDerivatives
import Verif.Proofs.QuadForSpaceExact
import Verif.Props.DiffAlgebra
import Verif.Props.MassAlgebra
import Verif.Props.SpectralMass

/-!
# Property C92: weak forms assembled by quadrature

`nodal_quadrature_bilinear_form_matrix` and `nodal_quadrature_test_matrix` with the functions or the derivatives of a basis,
against `mass_matrix`, `diff_matrices` and `resampling_matrix`.
-/

namespace Modepy
open Spec Matrix

/-! ## Evaluating the models -/

theorem callAll_of_values {n q : Nat} (fs : List (List ℝ → Py ℝ)) (hl : fs.length = n) (x : Fin q → List ℝ) (φ : Fin n → List ℝ → ℝ)
    (h : ∀ (k : Fin n) i, (fs.getD k fun _ => .error .IndexError) (x i) = .ok (φ k (x i))) :
    ∃ vs, callAll fs (List.ofFn x) = .ok vs := callAll_of_getD fs hl x fun k i => ⟨_, h k i⟩

theorem collect_map_ofFn {q : Nat} (r : Fin q → List ℝ) (map : List ℝ → Py (List ℝ)) (y : Fin q → List ℝ)
    (hy : ∀ k, map (r k) = .ok (y k)) : collect ((List.ofFn r).map map) = .ok (List.ofFn y) := by
  have : (List.ofFn r).map map = (List.ofFn y).map Except.ok := by
    rw [List.map_ofFn, List.map_ofFn]
    congr 1
    funext k
    exact hy k
  rw [this]
  exact collect_ok _

/-- `vᵀ A u` for the bilinear form matrix of sequences of functions. -/
theorem form_general {n n' q : Nat} (test trial itest itrial : List (List ℝ → Py ℝ)) (lt : test.length = n) (lu : trial.length = n')
    (li : itest.length = n) (lj : itrial.length = n') (r y : Fin q → List ℝ) (w : Fin q → ℝ) (xin : Fin n' → List ℝ)
    (xout : Fin n → List ℝ) (map : List ℝ → Py (List ℝ)) (hy : ∀ k, map (r k) = .ok (y k))
    (T φ : Fin n → List ℝ → ℝ) (U ψ : Fin n' → List ℝ → ℝ)
    (h1 : ∀ (k : Fin n) i, (test.getD k fun _ => .error .IndexError) (y i) = .ok (T k (y i)))
    (h2 : ∀ (k : Fin n') i, (trial.getD k fun _ => .error .IndexError) (r i) = .ok (U k (r i)))
    (h3 : ∀ (k : Fin n') i, (itrial.getD k fun _ => .error .IndexError) (xin i) = .ok (ψ k (xin i)))
    (h4 : ∀ (k : Fin n) i, (itest.getD k fun _ => .error .IndexError) (xout i) = .ok (φ k (xout i)))
    (hout : Unisolvent φ xout) (hin : Unisolvent ψ xin) :
    ∃ A, bilinearFormMatrixFn r w test trial itest itrial xin xout map = .ok A ∧ ∀ a a',
      ∑ i, ∑ j, combine φ a (xout i) * A i j * combine ψ a' (xin j) = ∑ k, w k * (combine T a (y k) * combine U a' (r k)) := by
  obtain ⟨v1, e1⟩ := callAll_of_values test lt y T h1
  obtain ⟨v2, e2⟩ := callAll_of_values trial lu r U h2
  obtain ⟨v3, e3⟩ := callAll_of_values itrial lj xin ψ h3
  obtain ⟨v4, e4⟩ := callAll_of_values itest li xout φ h4
  have hc := collect_map_ofFn r map y hy
  have ht : totalMap map ∘ r = y := by
    funext k
    simp [totalMap, hy]
  subst li lj
  have a1 : vandermonde (totalFn test ∘ Fin.cast lt.symm) y = vandermonde T y := by
    refine vandermonde_congr _ _ _ fun k i => ?_
    exact totalFn_of (k := Fin.cast lt.symm k) (by simpa using h1 k i)
  have a2 : vandermonde (totalFn trial ∘ Fin.cast lu.symm) r = vandermonde U r := by
    refine vandermonde_congr _ _ _ fun k i => ?_
    exact totalFn_of (k := Fin.cast lu.symm k) (by simpa using h2 k i)
  have a3 : vandermonde (totalFn itrial) xin = vandermonde ψ xin := vandermonde_congr _ _ _ fun k i => totalFn_of (h3 k i)
  have a4 : vandermonde (totalFn itest) xout = vandermonde φ xout := vandermonde_congr _ _ _ fun k i => totalFn_of (h4 k i)
  have i1 : xin ∘ Fin.cast rfl = xin := rfl
  have i2 : xout ∘ Fin.cast rfl = xout := rfl
  have hdi := (unisolvent_iff_det ψ xin).1 hin
  have hdo : (vandermonde φ xout)ᵀ.det ≠ 0 := by rw [det_transpose]; exact (unisolvent_iff_det φ xout).1 hout
  have hinv : npInv (vandermonde ψ xin) = .ok (vandermonde ψ xin)⁻¹ := if_neg hdi
  refine ⟨(vandermonde φ xout)ᵀ⁻¹ * ((Matrix.of fun i j => ∑ k : Fin q, vandermonde T y k i * vandermonde U r k j * w k) *
    (vandermonde ψ xin)⁻¹), ?_, ?_⟩
  · simp only [bilinearFormMatrixFn, hc, e1, e2, e3, e4, dif_pos, i1, a3, hinv, dif_pos lt, dif_pos lu,
      nodalQuadratureBilinearFormMatrix, ht, a1, a2, a4, i2, npSolve_ok hdo]
    rfl
  · intro a a'
    simp only [← vandermonde_mulVec]
    have hl : ∀ (v : Fin itest.length → ℝ) (A : Matrix (Fin itest.length) (Fin itrial.length) ℝ) (u : Fin itrial.length → ℝ),
        ∑ i, ∑ j, v i * A i j * u j = v ⬝ᵥ (A *ᵥ u) := by
      intro v A u
      simp only [dotProduct, mulVec, Finset.mul_sum, mul_assoc]
    rw [hl, ← mulVec_mulVec, ← mulVec_mulVec, mulVec_mulVec a', nonsing_inv_mul _ hdi.isUnit, one_mulVec, dotProduct_mulVec,
      ← transpose_nonsing_inv, vecMul_transpose, mulVec_mulVec, nonsing_inv_mul _ ((unisolvent_iff_det φ xout).1 hout).isUnit,
      one_mulVec]
    simp only [dotProduct, mulVec, of_apply, Finset.mul_sum, Finset.sum_mul]
    rw [Finset.sum_congr rfl fun i _ => Finset.sum_comm, Finset.sum_comm]
    refine Finset.sum_congr rfl fun k _ => ?_
    rw [Finset.sum_comm]
    refine Finset.sum_congr rfl fun i _ => Finset.sum_congr rfl fun j _ => ?_
    ring

/-- `vᵀ B` for the test matrix of sequences of functions. -/
theorem test_general {n q : Nat} (test interp : List (List ℝ → Py ℝ)) (lt : test.length = n) (li : interp.length = n)
    (r y : Fin q → List ℝ) (w : Fin q → ℝ) (nodes : Fin n → List ℝ) (map : List ℝ → Py (List ℝ)) (hy : ∀ k, map (r k) = .ok (y k))
    (T φ : Fin n → List ℝ → ℝ)
    (h1 : ∀ (k : Fin n) i, (test.getD k fun _ => .error .IndexError) (y i) = .ok (T k (y i)))
    (h4 : ∀ (k : Fin n) i, (interp.getD k fun _ => .error .IndexError) (nodes i) = .ok (φ k (nodes i)))
    (hout : Unisolvent φ nodes) :
    ∃ B, testMatrixFn r w test interp nodes map = .ok B ∧ ∀ a k,
      ∑ i, combine φ a (nodes i) * B i k = w k * combine T a (y k) := by
  obtain ⟨v1, e1⟩ := callAll_of_values test lt y T h1
  obtain ⟨v4, e4⟩ := callAll_of_values interp li nodes φ h4
  have hc := collect_map_ofFn r map y hy
  have ht : totalMap map ∘ r = y := by
    funext k
    simp [totalMap, hy]
  subst li
  have a1 : vandermonde (totalFn test ∘ Fin.cast lt.symm) y = vandermonde T y := by
    refine vandermonde_congr _ _ _ fun k i => ?_
    exact totalFn_of (k := Fin.cast lt.symm k) (by simpa using h1 k i)
  have a4 : vandermonde (totalFn interp) nodes = vandermonde φ nodes := vandermonde_congr _ _ _ fun k i => totalFn_of (h4 k i)
  have i2 : nodes ∘ Fin.cast rfl = nodes := rfl
  have hdo : (vandermonde φ nodes)ᵀ.det ≠ 0 := by rw [det_transpose]; exact (unisolvent_iff_det φ nodes).1 hout
  refine ⟨(vandermonde φ nodes)ᵀ⁻¹ * Matrix.of fun i j => (vandermonde T y)ᵀ i j * w j, ?_, ?_⟩
  · simp only [testMatrixFn, hc, e1, e4, dif_pos, dif_pos lt, nodalQuadratureTestMatrix, ht, a1, a4, i2, npSolve_ok hdo]
    rfl
  · intro a k
    simp only [← vandermonde_mulVec]
    have hl : ∀ (v : Fin interp.length → ℝ) (A : Matrix (Fin interp.length) (Fin q) ℝ),
        ∑ i, v i * A i k = (v ᵥ* A) k := fun v A => rfl
    rw [hl, ← vecMul_vecMul, ← transpose_nonsing_inv, vecMul_transpose, mulVec_mulVec,
      nonsing_inv_mul _ ((unisolvent_iff_det φ nodes).1 hout).isUnit, one_mulVec]
    simp only [vecMul, dotProduct, mulVec, of_apply, Finset.mul_sum, transpose_apply]
    refine Finset.sum_congr rfl fun i _ => ?_
    ring

/-! ## Derivatives as test functions -/

/-- `v` is the partial derivative of `F` in direction `axis` at `x`. -/
def Spec.PartialAt (F : List ℝ → ℝ) (axis : Nat) (x : List ℝ) (v : ℝ) : Prop :=
  HasDerivAt (fun t => F (x.set axis t)) v (x.getD axis 0)

theorem partialAt_combine {n : Nat} (φ : Fin n → List ℝ → ℝ) (axis : Nat) (x : List ℝ) (v a : Fin n → ℝ)
    (h : ∀ k, PartialAt (φ k) axis x (v k)) : PartialAt (combine φ a) axis x (∑ k, a k * v k) := by
  have := HasDerivAt.fun_sum (u := Finset.univ) fun k _ => (h k).const_mul (a k)
  exact this

/-- What a basis offers for weak forms: values and derivatives in terms of one coefficient matrix. -/
theorem weak_basis {b : Basis ℝ} {space : Space} (hb : IsBasisOf b space) (hd : ∀ s ∈ space.flatBases, 1 ≤ s.spatialDim)
    (axis : Nat) (ha : axis < space.spatialDim) : ∃ fs ds C, Represents b space fs C ∧ DerRepresents b space axis ds C := by
  obtain ⟨shape, hb⟩ := hb
  obtain ⟨fs, C, gs, h1, -, h3⟩ := represents_all hb fun s hs => by have := hd s hs; omega
  obtain ⟨ds, h⟩ := h3 axis ha
  exact ⟨fs, ds, C, h1, h⟩

/-- **C92 (any quadrature).**  With `test_functions=basis.derivatives(axis)` and the functions of the bases as trial and
interpolation functions: `vᵀ A u` is the quadrature sum of the partial derivative of the interpolating polynomial of the test
space at the mapped nodes, times the interpolating polynomial of the trial space; the test matrix is the half of it. -/
theorem C92_derivative_form (space fspace : Space) (b b' : Basis ℝ) (hb : IsBasisOf b space) (hb' : IsBasisOf b' fspace)
    (hd : ∀ s ∈ space.flatBases, 1 ≤ s.spatialDim) (axis : Nat) (ha : axis < space.spatialDim)
    {q : Nat} (quadNodes y : Fin q → List ℝ) (w : Fin q → ℝ) (map : List ℝ → Py (List ℝ)) (hy : ∀ k, map (quadNodes k) = .ok (y k))
    (xout : Fin (nodeTuples space).length → List ℝ) (xin : Fin (nodeTuples fspace).length → List ℝ)
    (r1 : ∀ i, RegularFor space (y i)) (r2 : ∀ i, RegularFor fspace (quadNodes i)) (r3 : ∀ i, RegularFor fspace (xin i))
    (r4 : ∀ i, RegularFor space (xout i)) (hu : UnisolventFor space xout) (hu' : UnisolventFor fspace xin) :
    ∃ fs fs' ds A B, b.functions = .ok fs ∧ b'.functions = .ok fs' ∧ b.derivatives axis = .ok ds ∧
      bilinearFormMatrixFn quadNodes w ds fs' fs fs' xin xout map = .ok A ∧
      testMatrixFn quadNodes w ds fs xout map = .ok B ∧
      ∀ c (v : Fin q → ℝ), (∀ k, PartialAt (spacePoly space c) axis (y k) (v k)) →
        (∀ e, ∑ i, ∑ j, spacePoly space c (xout i) * A i j * spacePoly fspace e (xin j) =
          ∑ k, w k * (v k * spacePoly fspace e (quadNodes k))) ∧
        ∀ k, ∑ i, spacePoly space c (xout i) * B i k = w k * v k := by
  obtain ⟨fs, ds, C, hr, hdr⟩ := weak_basis hb hd axis ha
  obtain ⟨fs', C', hr'⟩ := represents_isBasisOf hb'
  have hT : ∀ (k : Fin (nodeTuples space).length) (x : List ℝ), ∃ v, RegularFor space x →
      (ds.getD k fun _ => .error .IndexError) x = .ok v ∧ PartialAt (spacePoly space (C k)) axis x v := by
    intro k x
    by_cases h : RegularFor space x
    · obtain ⟨v, h1, h2⟩ := hdr.value k x h
      exact ⟨v, fun _ => ⟨h1, h2⟩⟩
    · exact ⟨0, fun h' => absurd h' h⟩
  choose T hT using hT
  have u1 := unisolvent_represents space xout hu C hr.det
  have u2 := unisolvent_represents fspace xin hu' C' hr'.det
  obtain ⟨A, hA, hv⟩ := form_general ds fs' fs fs' hdr.length hr'.length hr.length hr'.length quadNodes y w xin xout map hy T
    (fun k => spacePoly space (C k)) (fun k => spacePoly fspace (C' k)) (fun k => spacePoly fspace (C' k))
    (fun k i => (hT k _ (r1 i)).1) (fun k i => hr'.value k _ (r2 i)) (fun k i => hr'.value k _ (r3 i)) (fun k i => hr.value k _ (r4 i))
    u1 u2
  obtain ⟨B, hB, hw⟩ := test_general ds fs hdr.length hr.length quadNodes y w xout map hy T (fun k => spacePoly space (C k))
    (fun k i => (hT k _ (r1 i)).1) (fun k i => hr.value k _ (r4 i)) u1
  refine ⟨fs, fs', ds, A, B, hr.functions, hr'.functions, hdr.derivatives, hA, hB, fun c v hpv => ?_⟩
  obtain ⟨a, ha⟩ := exists_combine space C hr.det c
  have key : ∀ k, combine T a (y k) = v k := by
    intro k
    have h1 := partialAt_combine (fun k => spacePoly space (C k)) axis (y k) (fun l => T l (y k)) a fun l => (hT l _ (r1 k)).2
    rw [← ha] at h1
    exact h1.unique (hpv k)
  refine ⟨fun e => ?_, fun k => ?_⟩
  · obtain ⟨a', ha'⟩ := exists_combine fspace C' hr'.det e
    simp only [ha, ha', hv, key]
  · simp only [ha, hw, key]

/-- **C92 (any quadrature, functions).**  The same with `test_functions=basis.functions`. -/
theorem C92_function_form (space fspace : Space) (b b' : Basis ℝ) (hb : IsBasisOf b space) (hb' : IsBasisOf b' fspace)
    {q : Nat} (quadNodes y : Fin q → List ℝ) (w : Fin q → ℝ) (map : List ℝ → Py (List ℝ)) (hy : ∀ k, map (quadNodes k) = .ok (y k))
    (xout : Fin (nodeTuples space).length → List ℝ) (xin : Fin (nodeTuples fspace).length → List ℝ)
    (r1 : ∀ i, RegularFor space (y i)) (r2 : ∀ i, RegularFor fspace (quadNodes i)) (r3 : ∀ i, RegularFor fspace (xin i))
    (r4 : ∀ i, RegularFor space (xout i)) (hu : UnisolventFor space xout) (hu' : UnisolventFor fspace xin) :
    ∃ fs fs' A B, b.functions = .ok fs ∧ b'.functions = .ok fs' ∧
      bilinearFormMatrixFn quadNodes w fs fs' fs fs' xin xout map = .ok A ∧
      testMatrixFn quadNodes w fs fs xout map = .ok B ∧
      ∀ c, (∀ e, ∑ i, ∑ j, spacePoly space c (xout i) * A i j * spacePoly fspace e (xin j) =
          ∑ k, w k * (spacePoly space c (y k) * spacePoly fspace e (quadNodes k))) ∧
        ∀ k, ∑ i, spacePoly space c (xout i) * B i k = w k * spacePoly space c (y k) := by
  obtain ⟨fs, C, hr⟩ := represents_isBasisOf hb
  obtain ⟨fs', C', hr'⟩ := represents_isBasisOf hb'
  have u1 := unisolvent_represents space xout hu C hr.det
  have u2 := unisolvent_represents fspace xin hu' C' hr'.det
  obtain ⟨A, hA, hv⟩ := form_general fs fs' fs fs' hr.length hr'.length hr.length hr'.length quadNodes y w xin xout map hy
    (fun k => spacePoly space (C k)) (fun k => spacePoly space (C k)) (fun k => spacePoly fspace (C' k)) (fun k => spacePoly fspace (C' k))
    (fun k i => hr.value k _ (r1 i)) (fun k i => hr'.value k _ (r2 i)) (fun k i => hr'.value k _ (r3 i)) (fun k i => hr.value k _ (r4 i))
    u1 u2
  obtain ⟨B, hB, hw⟩ := test_general fs fs hr.length hr.length quadNodes y w xout map hy (fun k => spacePoly space (C k))
    (fun k => spacePoly space (C k)) (fun k i => hr.value k _ (r1 i)) (fun k i => hr.value k _ (r4 i)) u1
  refine ⟨fs, fs', A, B, hr.functions, hr'.functions, hA, hB, fun c => ?_⟩
  obtain ⟨a, ha⟩ := exists_combine space C hr.det c
  refine ⟨fun e => ?_, fun k => ?_⟩
  · obtain ⟨a', ha'⟩ := exists_combine fspace C' hr'.det e
    simp only [ha, ha', hv]
  · simp only [ha, hw]

/-! ## Against the mass, differentiation and resampling matrices -/

theorem left_unique (space : Space) {q : Nat} (nodes : Fin (nodeTuples space).length → List ℝ) (hu : UnisolventFor space nodes)
    (X Y : Matrix (Fin (nodeTuples space).length) (Fin q) ℝ)
    (h : ∀ c k, ∑ i, spacePoly space c (nodes i) * X i k = ∑ i, spacePoly space c (nodes i) * Y i k) : X = Y := by
  have := matrix_unique space nodes hu Xᵀ Yᵀ fun c k => by simpa only [transpose_apply, mul_comm] using h c k
  exact transpose_injective this

/-- **C92 (mass matrix).**  With the rule `quadrature_for_space` returns for the space of doubled orders, the bilinear form of
the functions of any basis of the library is `mass_matrix`; the test matrix times the resampling matrix to the quadrature
nodes is the same matrix. -/
theorem C92_mass (ext : Ext) (hext : ext.EighOk) (t : XgTables) (ht : XgOk t) (space space2 : Space) (shape : Shape)
    (h2 : space2.flatBases = space.flatBases.map fun s => ⟨s.spatialDim, 2 * s.order⟩)
    (hshape : shape.flatBases = space.flatBases.map PNSpace.spatialDim) (hpos : space.spatialDim ≠ 0)
    (Q : Quadrature) (hQ : quadratureForSpace ext t space2 shape = .ok Q)
    (b b' bm : Basis ℝ) (hb : IsBasisOf b space) (hb' : IsBasisOf b' space) (hbm : IsOrthonormalBasisOf bm space)
    (hd : ∀ s ∈ space.flatBases, 1 ≤ s.spatialDim ∧ s.spatialDim ≤ 3)
    (nodes : Fin (nodeTuples space).length → List ℝ) (hreg : ∀ i, RegularFor space (nodes i)) (hu : UnisolventFor space nodes)
    (hQreg : ∀ k < Q.nnodes, RegularFor space (Q.node k)) (ls : Bool)
    (pinv : (n : Nat) → Matrix (Fin (nodeTuples space).length) (Fin n) ℝ → Matrix (Fin n) (Fin (nodeTuples space).length) ℝ) :
    ∃ fs fs' M B R, b.functions = .ok fs ∧ b'.functions = .ok fs' ∧ massMatrixOfBasis bm nodes = .ok M ∧
      bilinearFormMatrixFn (fun k : Fin Q.nnodes => Q.node k) (fun k => Q.weights.get [(k : Nat)]) fs fs' fs fs' nodes nodes .ok = .ok M ∧
      testMatrixFn (fun k : Fin Q.nnodes => Q.node k) (fun k => Q.weights.get [(k : Nat)]) fs fs nodes .ok = .ok B ∧
      resamplingMatrixOf b' (fun k : Fin Q.nnodes => Q.node k) nodes ls pinv = .ok R ∧ B * R = M := by
  obtain ⟨hdim, hex⟩ := quadratureForSpace_products ext hext t ht space space2 shape h2 hshape hpos Q hQ
  obtain ⟨fs, fs', A, B, e1, e2, hA, hB, hv⟩ := C92_function_form space space b b' hb hb' (fun k : Fin Q.nnodes => Q.node k)
    (fun k : Fin Q.nnodes => Q.node k) (fun k => Q.weights.get [(k : Nat)]) .ok (fun _ => rfl) nodes nodes (fun k => hQreg k k.2)
    (fun k => hQreg k k.2) hreg hreg hu hu
  obtain ⟨M, hM, -, hm⟩ := mass_isOrthonormal hbm hd nodes hreg hu
  obtain ⟨R, hok, hR⟩ := C77_resampling space b' hb' (fun k : Fin Q.nnodes => Q.node k) nodes (fun k => hQreg k k.2) hreg hu ls pinv
  have hAM : A = M := form_unique space nodes hu A M fun c e => by rw [(hv c).1 e, hex, hm]
  refine ⟨fs, fs', M, B, R, e1, e2, hM, hAM ▸ hA, hB, hok, ?_⟩
  refine form_unique space nodes hu _ _ fun c e => ?_
  rw [hm, ← hex]
  simp only [Matrix.mul_apply, Finset.mul_sum, Finset.sum_mul]
  rw [Finset.sum_congr rfl fun i _ => Finset.sum_comm, Finset.sum_comm]
  refine Finset.sum_congr rfl fun k _ => ?_
  rw [← mul_assoc, ← (hv c).2 k, ← hR e k, Finset.sum_mul_sum]
  refine Finset.sum_congr rfl fun i _ => Finset.sum_congr rfl fun j _ => ?_
  ring

/-- **C92 (weak derivative).**  With the rule for the space of doubled orders, the bilinear form of `basis.derivatives(axis)`
against the functions is `D_axisᵀ M`; hence the inverse mass matrix times its transpose is the differentiation matrix, and so
it is for the test matrix combined with resampling to the quadrature nodes. -/
theorem C92_weak_derivative (ext : Ext) (hext : ext.EighOk) (t : XgTables) (ht : XgOk t) (space space2 : Space) (shape : Shape)
    (h2 : space2.flatBases = space.flatBases.map fun s => ⟨s.spatialDim, 2 * s.order⟩)
    (hshape : shape.flatBases = space.flatBases.map PNSpace.spatialDim) (hpos : space.spatialDim ≠ 0)
    (Q : Quadrature) (hQ : quadratureForSpace ext t space2 shape = .ok Q)
    (b b' bm : Basis ℝ) (hb : IsBasisOf b space) (hb' : IsBasisOf b' space) (hbm : IsOrthonormalBasisOf bm space)
    (hd : ∀ s ∈ space.flatBases, 1 ≤ s.spatialDim ∧ s.spatialDim ≤ 3)
    (nodes : Fin (nodeTuples space).length → List ℝ) (hreg : ∀ i, RegularFor space (nodes i)) (hu : UnisolventFor space nodes)
    (hQreg : ∀ k < Q.nnodes, RegularFor space (Q.node k)) (ls : Bool)
    (pinv : (n : Nat) → Matrix (Fin (nodeTuples space).length) (Fin n) ℝ → Matrix (Fin n) (Fin (nodeTuples space).length) ℝ)
    (axis : Fin space.spatialDim) :
    ∃ fs fs' ds A B R M N D, b.functions = .ok fs ∧ b'.functions = .ok fs' ∧ b.derivatives axis = .ok ds ∧
      massMatrixOfBasis bm nodes = .ok M ∧ inverseMassMatrixOf bm nodes = .ok N ∧
      diffMatricesOf space.spatialDim b' nodes nodes = .ok D ∧
      resamplingMatrixOf b' (fun k : Fin Q.nnodes => Q.node k) nodes ls pinv = .ok R ∧
      bilinearFormMatrixFn (fun k : Fin Q.nnodes => Q.node k) (fun k => Q.weights.get [(k : Nat)]) ds fs' fs fs' nodes nodes .ok = .ok A ∧
      testMatrixFn (fun k : Fin Q.nnodes => Q.node k) (fun k => Q.weights.get [(k : Nat)]) ds fs nodes .ok = .ok B ∧
      A = (D axis)ᵀ * M ∧ N * Aᵀ = D axis ∧ B * R = A ∧ N * (B * R)ᵀ = D axis := by
  obtain ⟨hdim, hex⟩ := quadratureForSpace_products ext hext t ht space space2 shape h2 hshape hpos Q hQ
  obtain ⟨fs, fs', ds, A, B, e1, e2, e3, hA, hB, hv⟩ := C92_derivative_form space space b b' hb hb' (fun s hs => (hd s hs).1) axis
    axis.2 (fun k : Fin Q.nnodes => Q.node k)
    (fun k : Fin Q.nnodes => Q.node k) (fun k => Q.weights.get [(k : Nat)]) .ok (fun _ => rfl) nodes nodes (fun k => hQreg k k.2)
    (fun k => hQreg k k.2) hreg hreg hu hu
  obtain ⟨M, hM, hpd, hm⟩ := mass_isOrthonormal hbm hd nodes hreg hu
  obtain ⟨R, hok, hR⟩ := C77_resampling space b' hb' (fun k : Fin Q.nnodes => Q.node k) nodes (fun k => hQreg k k.2) hreg hu ls pinv
  obtain ⟨D, hD, hgr⟩ := diff_isBasisOf hb' (fun s hs => (hd s hs).1) hpos nodes nodes hreg hreg hu
  obtain ⟨N, hN, hNM⟩ : ∃ N, inverseMassMatrixOf bm nodes = .ok N ∧ N * M = 1 := by
    unfold massMatrixOfBasis at hM
    cases hi : inverseMassMatrixOf bm nodes with
    | error e => rw [hi] at hM; cases hM
    | ok N =>
      rw [hi] at hM
      simp only [npInv] at hM
      split_ifs at hM with h0
      refine ⟨N, rfl, ?_⟩
      rw [← Except.ok.inj hM]
      exact mul_nonsing_inv _ (isUnit_iff_ne_zero.2 h0)
  have hsym : Mᵀ = M := by
    have := hpd.1
    rwa [IsHermitian, conjTranspose_eq_transpose_of_trivial] at this
  -- the derivative of a polynomial of the space is one
  have hder : ∀ c, ∃ c', (∀ x : List ℝ, x.length = space.spatialDim → PartialAt (spacePoly space c) axis x (spacePoly space c' x)) ∧
      ∀ i, ∑ j, D axis i j * spacePoly space c (nodes j) = spacePoly space c' (nodes i) := by
    intro c
    obtain ⟨P, hP, hPv⟩ := spacePoly_polyAt space rfl c
    obtain ⟨c', hc'⟩ := polyAt_spacePoly space rfl (MvPolynomial.pderiv axis P) (polyIn_pderiv hP axis)
    refine ⟨c', fun x hx => ?_, fun i => ?_⟩
    · have := isPartial_polyAt P axis x hx
      have e : (fun t => spacePoly space c (x.set axis t)) = fun t => polyAt P (x.set axis t) := by
        funext t
        exact hPv _ (by rw [List.length_set]; exact hx)
      rw [PartialAt, e, ← hc' x hx]
      exact this
    · rw [diff_polyAt space nodes nodes hreg D hgr axis c P hPv i, hc' _ (hreg i).1]
  have hA' : A = (D axis)ᵀ * M := by
    refine form_unique space nodes hu _ _ fun c e => ?_
    obtain ⟨c', hp, hn⟩ := hder c
    rw [(hv c (fun k => spacePoly space c' (Q.node k)) fun k => hp _ ((node_length Q k).trans hdim)).1 e, hex, ← hm]
    simp only [← hn, Matrix.mul_apply, Matrix.transpose_apply, Finset.mul_sum, Finset.sum_mul]
    calc ∑ i, ∑ j, ∑ l, D axis i l * spacePoly space c (nodes l) * M i j * spacePoly space e (nodes j)
        = ∑ i, ∑ l, ∑ j, D axis i l * spacePoly space c (nodes l) * M i j * spacePoly space e (nodes j) :=
          Finset.sum_congr rfl fun i _ => Finset.sum_comm
      _ = ∑ l, ∑ i, ∑ j, D axis i l * spacePoly space c (nodes l) * M i j * spacePoly space e (nodes j) := Finset.sum_comm
      _ = ∑ l, ∑ j, ∑ i, D axis i l * spacePoly space c (nodes l) * M i j * spacePoly space e (nodes j) :=
          Finset.sum_congr rfl fun i _ => Finset.sum_comm
      _ = _ := by
        refine Finset.sum_congr rfl fun l _ => Finset.sum_congr rfl fun j _ => Finset.sum_congr rfl fun i _ => ?_
        ring
  have hBR : B * R = A := by
    refine form_unique space nodes hu _ _ fun c e => ?_
    obtain ⟨c', hp, hn⟩ := hder c
    have hp' := fun k : Fin Q.nnodes => hp _ ((node_length Q k).trans hdim)
    rw [(hv c _ hp').1 e]
    simp only [Matrix.mul_apply, Finset.mul_sum, Finset.sum_mul]
    rw [Finset.sum_congr rfl fun i _ => Finset.sum_comm, Finset.sum_comm]
    refine Finset.sum_congr rfl fun k _ => ?_
    rw [← mul_assoc, ← (hv c _ hp').2 k, ← hR e k, Finset.sum_mul_sum]
    refine Finset.sum_congr rfl fun i _ => Finset.sum_congr rfl fun j _ => ?_
    ring
  have hNA : N * Aᵀ = D axis := by
    rw [hA', transpose_mul, transpose_transpose, hsym, ← Matrix.mul_assoc, hNM, Matrix.one_mul]
  exact ⟨fs, fs', ds, A, B, R, M, N, D, e1, e2, e3, hM, hN, hD, hok, hA, hB, hA', hNA, hBR, by rw [hBR, hNA]⟩

/-- **C92 (hypercubes, every dimension and order).**  On `Hypercube(dims)` with `QN(dims, n)`, for the orthonormal basis, the
rule `quadrature_for_space(QN(dims, 2n), Hypercube(dims))` exists, and at the nodes
`legendre_gauss_tensor_product_nodes(dims, n)` the matrices assembled with it are the mass matrix and the transposed product of
differentiation and mass matrix, for every axis. -/
theorem C92_hypercube (ext : Ext) (hext : ext.EighOk) (t : XgTables) (ht : XgOk t) (dims n : Nat) (hdims : 0 < dims) (b : Basis ℝ)
    (hb : orthonormalBasisForSpace (.qn dims n) (.hypercube dims) = .ok b) :
    ∃ X Q fs M N D, legendreGaussTensorProductNodes ext dims n = .ok X ∧
      quadratureForSpace ext t (.qn dims (2 * n)) (.hypercube dims) = .ok Q ∧ b.functions = .ok fs ∧
      massMatrixOfBasis b (fun i : Fin (nodeTuples (.qn dims n)).length => column X dims i) = .ok M ∧
      inverseMassMatrixOf b (fun i : Fin (nodeTuples (.qn dims n)).length => column X dims i) = .ok N ∧
      diffMatricesOf (Space.qn dims n).spatialDim b (fun i : Fin (nodeTuples (.qn dims n)).length => column X dims i)
        (fun i : Fin (nodeTuples (.qn dims n)).length => column X dims i) = .ok D ∧
      bilinearFormMatrixFn (fun k : Fin Q.nnodes => Q.node k) (fun k => Q.weights.get [(k : Nat)]) fs fs fs fs
        (fun i : Fin (nodeTuples (.qn dims n)).length => column X dims i)
        (fun i : Fin (nodeTuples (.qn dims n)).length => column X dims i) .ok = .ok M ∧
      ∀ axis : Fin (Space.qn dims n).spatialDim, ∃ ds A, b.derivatives axis = .ok ds ∧
        bilinearFormMatrixFn (fun k : Fin Q.nnodes => Q.node k) (fun k => Q.weights.get [(k : Nat)]) ds fs fs fs
          (fun i : Fin (nodeTuples (.qn dims n)).length => column X dims i)
          (fun i : Fin (nodeTuples (.qn dims n)).length => column X dims i) .ok = .ok A ∧
        A = (D axis)ᵀ * M ∧ N * Aᵀ = D axis := by
  obtain ⟨X, x, hX, -, -, -, -, hget, hu⟩ := C70_legendre_gauss ext hext dims n hdims
  have hlen : ∀ i : Fin (nodeTuples (.qn dims n)).length, (column X dims i).length = dims := fun i => by simp [column]
  have hreg : ∀ i : Fin (nodeTuples (.qn dims n)).length, RegularFor (.qn dims n) (column X dims i) :=
    fun i => regular_qn dims n _ (hlen i)
  have h2 : (Space.qn dims (2 * n)).flatBases = (Space.qn dims n).flatBases.map fun s => ⟨s.spatialDim, 2 * s.order⟩ := by
    simp [Space.flatBases]
  have hshape : (Shape.hypercube dims).flatBases = (Space.qn dims n).flatBases.map PNSpace.spatialDim := by
    simp [Space.flatBases, Shape.flatBases]
  have hshape2 : (Shape.hypercube dims).flatBases = (Space.qn dims (2 * n)).flatBases.map PNSpace.spatialDim := by
    simp [Space.flatBases, Shape.flatBases]
  have hpos : ∀ m, (Space.qn dims m).spatialDim ≠ 0 := fun m => by rw [spatialDim_qn]; omega
  obtain ⟨Q, hQ, hQd, -⟩ := C36_equal_orders ext hext t ht (.qn dims (2 * n)) (.hypercube dims) rfl rfl hshape2 (hpos _) (2 * n)
    (by simp [Space.flatBases])
  have hQreg : ∀ k < Q.nnodes, RegularFor (.qn dims n) (Q.node k) := fun k _ =>
    regular_qn dims n _ ((node_length Q k).trans (hQd.trans (spatialDim_qn _ _)))
  have hB : IsBasisOf b (.qn dims n) := ⟨_, Or.inl ⟨hb, fun s hs => (qn_dims dims n s hs).2⟩⟩
  have hO : IsOrthonormalBasisOf b (.qn dims n) := ⟨_, Or.inl hb⟩
  obtain ⟨fs, fs', M, -, -, e1, e2, hM, hA, -⟩ := C92_mass ext hext t ht (.qn dims n) (.qn dims (2 * n)) (.hypercube dims) h2 hshape
    (hpos n) Q hQ b b b hB hB hO (qn_dims dims n) _ hreg hu hQreg true fun _ _ => 0
  obtain rfl : fs = fs' := Except.ok.inj (e1.symm.trans e2)
  have key := C92_weak_derivative ext hext t ht (.qn dims n) (.qn dims (2 * n)) (.hypercube dims) h2 hshape
    (hpos n) Q hQ b b b hB hB hO (qn_dims dims n) _ hreg hu hQreg true fun _ _ => 0
  obtain ⟨_, _, _, _, _, _, _, N, D, -, -, -, -, hN, hD, -⟩ := key ⟨0, by rw [spatialDim_qn]; exact hdims⟩
  refine ⟨X, Q, fs, M, N, D, hX, hQ, e1, hM, hN, hD, hA, fun axis => ?_⟩
  obtain ⟨f1, f2, ds, A, B, R, M', N', D', g1, g2, g3, g4, g5, g6, -, g7, -, g8, g9, -⟩ := key axis
  obtain rfl : fs = f1 := Except.ok.inj (e1.symm.trans g1)
  obtain rfl : fs = f2 := Except.ok.inj (e1.symm.trans g2)
  obtain rfl : M = M' := Except.ok.inj (hM.symm.trans g4)
  obtain rfl : N = N' := Except.ok.inj (hN.symm.trans g5)
  obtain rfl : D = D' := Except.ok.inj (hD.symm.trans g6)
  exact ⟨ds, A, g3, g7, g8, g9⟩

/-- Non-vacuity: the square with order three, where all the objects of the theorem exist. -/
example : ∃ (ext : Ext) (t : XgTables) (b : Basis ℝ), ext.EighOk ∧ XgOk t ∧
    orthonormalBasisForSpace (.qn 2 3) (.hypercube 2) = .ok b ∧ ∃ Q, quadratureForSpace ext t (.qn 2 6) (.hypercube 2) = .ok Q := by
  obtain ⟨ext, hext⟩ := exists_eighOk
  obtain ⟨b, hb⟩ : ∃ b : Basis ℝ, orthonormalBasisForSpace (.qn 2 3) (.hypercube 2) = .ok b := by
    simp only [orthonormalBasisForSpace, basisForSpaceWith]
    rw [if_neg (by simp [Space.spatialDim, Space.flatBases, Shape.dim, Shape.flatBases]), if_neg (by simp [Space.flatBases, Shape.flatBases])]
    exact ⟨_, rfl⟩
  have ht : XgOk ⟨fun _ => none, fun _ => none⟩ := ⟨by simp, by simp⟩
  obtain ⟨X, Q, -, -, -, -, -, hQ, -⟩ := C92_hypercube ext hext _ ht 2 3 (by norm_num) b hb
  exact ⟨ext, _, b, hext, ht, hb, Q, hQ⟩

end Modepy

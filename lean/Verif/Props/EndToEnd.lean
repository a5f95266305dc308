import Verif.Proofs.BasisExact
import Verif.Props.BasisSpan
import Verif.Props.Matrices
import Verif.Props.OrthonormalProducts
import Verif.Props.DiffPermutation
import Verif.Proofs.Lebesgue
import Verif.Model.BasisMatrices

/-!
# Properties C75–C77: mass, differentiation and resampling matrices of the bases of a space

The theorems about `mass_matrix`, `diff_matrices` and `resampling_matrix` for arbitrary functions are combined with what the
bases returned by `orthonormal_basis_for_space`, `basis_for_space` and `monomial_basis_for_space` are: no assumption about
functions or gradients is left, only that the nodes are unisolvent for the space and not inside a tolerance strip.
-/

namespace Modepy
open Spec NdArray Matrix

/-- The polynomial of a space with the given coefficients of its monomials. -/
noncomputable def Spec.spacePoly (space : Space) (c : Fin (nodeTuples space).length → ℝ) (x : List ℝ) : ℝ :=
  combine (fun l => monomialValue (nodeTuples space)[l]) c x

/-- The integral over the reference shape of a space: the product of the reference simplices of its factors. -/
noncomputable def Spec.spaceIntegral (space : Space) (F : List ℝ → ℝ) : ℝ :=
  productIntegral (space.flatBases.map PNSpace.spatialDim) F

/-- The only polynomial of the space vanishing at the nodes is zero. -/
def Spec.UnisolventFor (space : Space) {m : Nat} (nodes : Fin m → List ℝ) : Prop :=
  Unisolvent (fun l : Fin (nodeTuples space).length => monomialValue (nodeTuples space)[l]) nodes

/-- The functions of the basis are, away from the tolerance strips, the polynomials with the coefficients `C`. -/
structure Spec.Represents (b : Basis ℝ) (space : Space) (fs : List (List ℝ → Py ℝ))
    (C : Matrix (Fin (nodeTuples space).length) (Fin (nodeTuples space).length) ℝ) : Prop where
  functions : b.functions = .ok fs
  length : fs.length = (nodeTuples space).length
  det : C.det ≠ 0
  value : ∀ (k : Fin (nodeTuples space).length) (x : List ℝ), RegularFor space x →
    (fs.getD k fun _ => .error .IndexError) x = .ok (spacePoly space (C k) x)

/-- The gradients of the basis are, away from the tolerance strips, those of the polynomials with the coefficients `C`. -/
structure Spec.GradRepresents (b : Basis ℝ) (space : Space) (gs : List (List ℝ → Py (List ℝ)))
    (C : Matrix (Fin (nodeTuples space).length) (Fin (nodeTuples space).length) ℝ) : Prop where
  gradients : b.gradients = .ok gs
  length : gs.length = (nodeTuples space).length
  value : ∀ (k : Fin (nodeTuples space).length) (x : List ℝ), RegularFor space x →
    ∃ v, (gs.getD k fun _ => .error .IndexError) x = .ok v ∧ IsGradientAt space.spatialDim (spacePoly space (C k)) x v

/-! ## Coefficients of the bases -/

theorem spacePoly_of (space : Space) (C : Nat → Nat → ℝ) (k : Nat) (x : List ℝ) :
    spacePoly space (fun l => C k l) x =
      ∑ l ∈ Finset.range space.spaceDim, C k l * monomialValue ((nodeTuples space).getD l []) x := by
  rw [← length_nodeTuples space, Finset.sum_range]
  simp only [spacePoly, combine]
  refine Finset.sum_congr rfl fun l _ => ?_
  simp [List.getD_eq_getElem?_getD]

theorem productIntegral_single (d : Nat) (F : List ℝ → ℝ) : productIntegral [d] F = Spec.simplexIntegral d F := by
  have h := productIntegral_product [d] [F] rfl
  simp only [List.zipWith_cons_cons, List.zipWith_nil_left, List.prod_cons, List.prod_nil, mul_one, slices] at h
  rw [← h]
  apply productIntegral_congr
  intro x hx
  rw [List.take_of_length_le (by simp at hx; omega)]

theorem basisForSpaceWith_cases (forPN : PNSpace → Basis ℝ) (check : Bool) (space : Space) (shape : Shape) (b : Basis ℝ)
    (hb : basisForSpaceWith forPN check space shape = .ok b) :
    (∃ s, space = .pn s ∧ b = forPN s) ∨ (space.isTP = true ∧
      b = tensorProductBasis (space.flatBases.map forPN) (space.flatBases.map PNSpace.spatialDim)) := by
  cases space with
  | pn s =>
    cases shape with
    | simplex d =>
      simp only [basisForSpaceWith, Except.ok.injEq] at hb
      exact Or.inl ⟨s, rfl, hb.symm⟩
    | tp ds => simp [basisForSpaceWith] at hb
    | hypercube d => simp [basisForSpaceWith] at hb
  | tp bs =>
    cases shape with
    | simplex d => simp [basisForSpaceWith] at hb
    | _ =>
      simp only [basisForSpaceWith] at hb
      split_ifs at hb
      simp only [Except.ok.injEq] at hb
      exact Or.inr ⟨rfl, hb.symm⟩
  | qn d n =>
    cases shape with
    | simplex d => simp [basisForSpaceWith] at hb
    | _ =>
      simp only [basisForSpaceWith] at hb
      split_ifs at hb
      simp only [Except.ok.injEq] at hb
      exact Or.inr ⟨rfl, hb.symm⟩

theorem represents_with (forPN : PNSpace → Basis ℝ) (check : Bool) (space : Space) (shape : Shape) (b : Basis ℝ)
    (hb : basisForSpaceWith forPN check space shape = .ok b) (F : PNSpace → List (List ℝ → Py ℝ))
    (Cs : PNSpace → Nat → Nat → ℝ) (hF : ∀ s ∈ space.flatBases, (forPN s).functions = .ok (F s))
    (hS : ∀ s ∈ space.flatBases, SpansPN (F s) s (Cs s)) :
    ∃ fs C, Represents b space fs C ∧
      (∀ κ : PNSpace → ℝ, (∀ s ∈ space.flatBases, GramPN s (Cs s) (κ s)) →
        ∀ k l, spaceIntegral space (fun x => spacePoly space (C k) x * spacePoly space (C l) x) =
          if k = l then (space.flatBases.map κ).prod else 0) ∧
      ∀ G : PNSpace → List (List ℝ → Py (List ℝ)), (∀ s ∈ space.flatBases, GradPN (forPN s) s (G s) (Cs s)) →
        ∃ gs, GradRepresents b space gs C := by
  have hlen := length_nodeTuples space
  rcases basisForSpaceWith_cases forPN check space shape b hb with ⟨s, rfl, rfl⟩ | ⟨hTP, rfl⟩
  · have hs : s ∈ (Space.pn s).flatBases := by simp [Space.flatBases]
    obtain ⟨h1, h2, h3⟩ := hS s hs
    have hpoly : ∀ (k : Fin (nodeTuples (.pn s)).length) x,
        spacePoly (.pn s) ((Matrix.of fun i j => Cs s i j : Matrix (Fin (nodeTuples (.pn s)).length) (Fin _) ℝ) k) x = polyPN s (Cs s) k x :=
      fun k x => spacePoly_of (.pn s) (Cs s) k x
    have hreg : ∀ x, RegularFor (.pn s) x → Regular s.spatialDim x := by
      intro x hx
      have hr := hx.2
      have hxl : x.length = s.spatialDim := hx.1
      simp only [Space.flatBases, List.map_cons, List.map_nil, slices, List.forall₂_cons, List.Forall₂.nil, and_true] at hr
      rwa [List.take_of_length_le (by omega)] at hr
    have hk : ∀ k : Fin (nodeTuples (.pn s)).length, (k : Nat) < s.spaceDim := fun k => lt_of_lt_of_eq k.2 hlen
    refine ⟨F s, Matrix.of fun i j => Cs s i j, ⟨hF s hs, h1.trans hlen.symm, det_of_leftInv (Cs s) (by rw [hlen]; exact h2),
      fun k x hx => ?_⟩, fun κ hκ k l => ?_, fun G hG => ⟨G s, (hG s hs).1, (hG s hs).2.1.trans hlen.symm, fun k x hx => ?_⟩⟩
    · rw [hpoly]
      exact h3 k (hk k) x (hreg x hx)
    · simp only [hpoly, spaceIntegral, Space.flatBases, List.map_cons, List.map_nil, List.prod_cons, List.prod_nil, mul_one]
      rw [productIntegral_single, hκ s hs k (hk k) l (hk l)]
      simp only [Fin.ext_iff]
    · obtain ⟨v, hv1, hv2⟩ := (hG s hs).2.2 k (hk k) x (hreg x hx)
      refine ⟨v, hv1, ?_⟩
      have : spacePoly (.pn s) ((Matrix.of fun i j => Cs s i j : Matrix (Fin (nodeTuples (.pn s)).length) (Fin _) ℝ) k) = polyPN s (Cs s) k :=
        funext fun x => hpoly k x
      rw [this]
      exact hv2
  · obtain ⟨fs, hfs, hl, hC, hv⟩ := spans_product_explicit forPN space.flatBases F Cs hF hS
    have h1 : (space.flatBases.map PNSpace.spaceDim).prod = space.spaceDim := by
      cases space <;> simp_all [Space.isTP, Space.spaceDim]
    have h2 : (space.flatBases.map PNSpace.spatialDim).sum = space.spatialDim := by
      cases space <;> simp_all [Space.isTP, Space.spatialDim]
    have h3 : nodeTuples space = nodeTuplesTP space.flatBases := by
      cases space <;> simp_all [Space.isTP, nodeTuples]
    set K := kron (space.flatBases.map fun s => (s.spaceDim, Cs s)) with hK
    have hpoly : ∀ (k : Fin (nodeTuples space).length) x,
        spacePoly space ((Matrix.of fun i j => K i j : Matrix (Fin (nodeTuples space).length) (Fin _) ℝ) k) x = polyTP space.flatBases Cs k x := by
      intro k x
      refine (spacePoly_of space K k x).trans ?_
      rw [polyTP, h1]
      exact Finset.sum_congr rfl fun l _ => congrArg (fun T : List (List Nat) => K k l * monomialValue (T.getD l []) x) h3
    have hk : ∀ k : Fin (nodeTuples space).length, (k : Nat) < (space.flatBases.map PNSpace.spaceDim).prod := fun k =>
      lt_of_lt_of_eq k.2 (hlen.trans h1.symm)
    refine ⟨fs, Matrix.of fun i j => K i j, ⟨hfs, by rw [hl, h1, hlen],
      det_of_leftInv K (by rw [hlen, ← h1]; exact hC), fun k x hx => ?_⟩, fun κ hκ k l => ?_, fun G hG => ?_⟩
    · rw [hpoly]
      have hkl : (k : Nat) < fs.length := by rw [hl]; exact hk k
      have := hv k fs[(k : Nat)] (List.getElem?_eq_getElem hkl) x (hx.1.trans h2.symm) hx.2
      rw [List.getD_eq_getElem?_getD, List.getElem?_eq_getElem hkl, Option.getD_some, this]
      rfl
    · simp only [hpoly, spaceIntegral]
      rw [gram_product space.flatBases Cs κ hκ k l (hk k) (hk l)]
      simp only [Fin.ext_iff]
    · obtain ⟨gs, hgs, hgl, hgv⟩ := gradient_product forPN space.flatBases F G Cs hF hS hG
      refine ⟨gs, hgs, by rw [hgl, h1, hlen], fun k x hx => ?_⟩
      have hkl : (k : Nat) < gs.length := by rw [hgl]; exact hk k
      obtain ⟨v, hv1, hv2⟩ := hgv k gs[(k : Nat)] (List.getElem?_eq_getElem hkl) x (hx.1.trans h2.symm) hx.2
      refine ⟨v, by rw [List.getD_eq_getElem?_getD, List.getElem?_eq_getElem hkl, Option.getD_some, hv1], ?_⟩
      rw [h2] at hv2
      have e : spacePoly space ((Matrix.of fun i j => K i j : Matrix (Fin (nodeTuples space).length) (Fin _) ℝ) k) = polyTP space.flatBases Cs k :=
        funext fun x => hpoly k x
      rw [e]
      exact hv2

/-- The orthonormal basis: its polynomials, their inner products, and its gradients. -/
theorem represents_orthonormal (space : Space) (shape : Shape) (b : Basis ℝ)
    (hb : orthonormalBasisForSpace space shape = .ok b) (hd : ∀ s ∈ space.flatBases, s.spatialDim ≤ 3) :
    ∃ fs C, Represents b space fs C ∧
      (∀ k l, spaceIntegral space (fun x => spacePoly space (C k) x * spacePoly space (C l) x) =
        if k = l then (space.flatBases.map modeNorm).prod else 0) ∧
      ((∀ s ∈ space.flatBases, s.spatialDim ≠ 0) → ∃ gs, GradRepresents b space gs C) := by
  have h : ∀ s ∈ space.flatBases, ∃ fs C, (orthonormalBasisPN s : Basis ℝ).functions = .ok fs ∧ SpansPN fs s C ∧
      GramPN s C (modeNorm s) ∧ (s.spatialDim ≠ 0 → ∃ gs, GradPN (orthonormalBasisPN s) s gs C) :=
    fun s hs => onb_facts s (hd s hs)
  choose! F Cs hF hS hG hD using h
  obtain ⟨fs, C, h1, h2, h3⟩ := represents_with orthonormalBasisPN true space shape b hb F Cs hF hS
  refine ⟨fs, C, h1, h2 modeNorm hG, fun h0 => ?_⟩
  choose! G hG' using fun s hs => hD s hs (h0 s hs)
  exact h3 G hG'

theorem represents_basis (space : Space) (shape : Shape) (b : Basis ℝ) (hb : basisForSpace space shape = .ok b) :
    ∃ fs C, Represents b space fs C ∧
      ((∀ s ∈ space.flatBases, s.spatialDim ≤ 3) → ∀ k l,
        spaceIntegral space (fun x => spacePoly space (C k) x * spacePoly space (C l) x) =
          if k = l then (space.flatBases.map modeNorm).prod else 0) ∧
      ((∀ s ∈ space.flatBases, s.spatialDim ≠ 0) → ∃ gs, GradRepresents b space gs C) := by
  have h : ∀ s : PNSpace, ∃ fs C, (basisPN s : Basis ℝ).functions = .ok fs ∧ SpansPN fs s C ∧
      (s.spatialDim ≤ 3 → GramPN s C (modeNorm s)) ∧ (s.spatialDim ≠ 0 → ∃ gs, GradPN (basisPN s) s gs C) := by
    intro s
    unfold basisPN
    split_ifs with h
    · obtain ⟨fs, C, h1, h2, h3, h4⟩ := onb_facts s h
      exact ⟨fs, C, h1, h2, fun _ => h3, h4⟩
    · obtain ⟨fs, C, h1, h2, h3⟩ := mono_facts s
      exact ⟨fs, C, h1, h2, fun h' => absurd h' h, fun _ => h3⟩
  choose F Cs hF hS hG hD using h
  obtain ⟨fs, C, h1, h2, h3⟩ := represents_with basisPN true space shape b hb F Cs (fun s _ => hF s) (fun s _ => hS s)
  refine ⟨fs, C, h1, fun hd => h2 modeNorm fun s hs => hG s (hd s hs), fun h0 => ?_⟩
  choose! G hG' using hD
  exact h3 G fun s hs => hG' s (h0 s hs)

theorem represents_monomial (space : Space) (shape : Shape) (b : Basis ℝ) (hb : monomialBasisForSpace space shape = .ok b) :
    ∃ fs C gs, Represents b space fs C ∧ GradRepresents b space gs C := by
  choose F Cs hF hS hD using mono_facts
  obtain ⟨fs, C, h1, -, h3⟩ := represents_with monomialBasisPN false space shape b hb F Cs (fun s _ => hF s) (fun s _ => hS s)
  choose G hG using hD
  obtain ⟨gs, hgs⟩ := h3 G fun s _ => hG s
  exact ⟨fs, C, gs, h1, hgs⟩

/-! ## Functions that agree at the nodes -/

theorem combine_represents (space : Space) (C : Matrix (Fin (nodeTuples space).length) (Fin (nodeTuples space).length) ℝ)
    (a : Fin (nodeTuples space).length → ℝ) (x : List ℝ) :
    combine (fun k => spacePoly space (C k)) a x = spacePoly space (a ᵥ* C) x := by
  simp only [combine, spacePoly, Matrix.vecMul, dotProduct, Finset.sum_mul, Finset.mul_sum]
  rw [Finset.sum_comm]
  simp only [mul_assoc]

/-- Every polynomial of the space is a combination of the basis. -/
theorem exists_combine (space : Space) (C : Matrix (Fin (nodeTuples space).length) (Fin (nodeTuples space).length) ℝ)
    (hC : C.det ≠ 0) (c : Fin (nodeTuples space).length → ℝ) :
    ∃ a, spacePoly space c = combine (fun k => spacePoly space (C k)) a := by
  refine ⟨c ᵥ* C⁻¹, funext fun x => ?_⟩
  rw [combine_represents, Matrix.vecMul_vecMul, nonsing_inv_mul _ hC.isUnit, Matrix.vecMul_one]

theorem unisolvent_represents (space : Space) {m : Nat} (nodes : Fin m → List ℝ) (hu : UnisolventFor space nodes)
    (C : Matrix (Fin (nodeTuples space).length) (Fin (nodeTuples space).length) ℝ) (hC : C.det ≠ 0) :
    Unisolvent (fun k => spacePoly space (C k)) nodes := by
  intro a ha
  have h := hu (a ᵥ* C) fun i => by
    have := ha i
    rw [combine_represents] at this
    exact this
  have : a ᵥ* C ᵥ* C⁻¹ = 0 := by rw [h, Matrix.zero_vecMul]
  rwa [Matrix.vecMul_vecMul, mul_nonsing_inv _ hC.isUnit, Matrix.vecMul_one] at this

theorem callAll_ok {α : Type} (fs : List (List ℝ → Py α)) (nodes : List (List ℝ))
    (h : ∀ f ∈ fs, ∀ x ∈ nodes, ∃ v, f x = .ok v) : ∃ vs, callAll fs nodes = .ok vs := by
  have h' : ∀ f ∈ fs, ∃ vs, collect (nodes.map f) = .ok vs := by
    intro f hf
    have h := h f hf
    clear hf
    induction nodes with
    | nil => exact ⟨[], rfl⟩
    | cons x l ih =>
      obtain ⟨v, hv⟩ := h x (List.mem_cons_self ..)
      obtain ⟨vs, hvs⟩ := ih (fun g hg y hy => ‹∀ f ∈ fs, ∀ x ∈ _, ∃ v, f x = .ok v› g hg y (List.mem_cons_of_mem _ hy))
        fun y hy => h y (List.mem_cons_of_mem _ hy)
      exact ⟨v :: vs, by simp [collect, hv, hvs]⟩
  choose! vs hvs using h'
  exact ⟨_, collect_map_of_ok fs _ vs hvs⟩

theorem callAll_of_getD {α : Type} {n : Nat} (fs : List (List ℝ → Py α)) (hl : fs.length = n) {m : Nat} (nodes : Fin m → List ℝ)
    (h : ∀ (k : Fin n) i, ∃ v, (fs.getD k fun _ => .error .IndexError) (nodes i) = .ok v) :
    ∃ vs, callAll fs (List.ofFn nodes) = .ok vs := by
  apply callAll_ok
  intro f hf x hx
  obtain ⟨k, hk, rfl⟩ := List.getElem_of_mem hf
  obtain ⟨i, rfl⟩ := List.mem_ofFn.1 hx
  have := h ⟨k, by omega⟩ i
  simpa [List.getD_eq_getElem?_getD, hk] using this

theorem totalFn_of {fs : List (List ℝ → Py ℝ)} {k : Fin fs.length} {x : List ℝ} {v : ℝ}
    (h : (fs.getD k fun _ => .error .IndexError) x = .ok v) : totalFn fs k x = v := by
  have : fs[k] x = .ok v := by simpa [List.getD_eq_getElem?_getD] using h
  simp only [totalFn, this]

theorem vandermonde_congr {X K : Type*} [Field K] {m n : Nat} (φ ψ : Fin n → X → K) (nodes : Fin m → X)
    (h : ∀ k i, φ k (nodes i) = ψ k (nodes i)) : vandermonde φ nodes = vandermonde ψ nodes := by
  ext i k
  exact h k i

theorem massMatrixOf_eq {n m : Nat} (b : Basis ℝ) (hw : b.orthonormalityWeight = .ok 1) (fs : List (List ℝ → Py ℝ))
    (hfs : b.functions = .ok fs) (hl : fs.length = n) (nodes : Fin m → List ℝ) (φ : Fin n → List ℝ → ℝ)
    (h : ∀ (k : Fin n) i, (fs.getD k fun _ => .error .IndexError) (nodes i) = .ok (φ k (nodes i))) :
    massMatrixOfBasis b nodes = massMatrix (.ok 1) φ nodes := by
  obtain ⟨vs, hvs⟩ := callAll_of_getD fs hl nodes fun k i => ⟨_, h k i⟩
  subst hl
  have e : vandermonde (totalFn fs) nodes = vandermonde φ nodes :=
    vandermonde_congr _ _ _ fun k i => totalFn_of (h k i)
  simp only [massMatrixOfBasis, inverseMassMatrixOf, massMatrix, inverseMassMatrix, hw, hfs, hvs, e, ne_eq, not_true, if_false]

theorem resamplingMatrixOf_eq {n p m : Nat} (b : Basis ℝ) (fs : List (List ℝ → Py ℝ))
    (hfs : b.functions = .ok fs) (hl : fs.length = n) (newNodes : Fin p → List ℝ) (oldNodes : Fin m → List ℝ) (ls : Bool)
    (pinv : (n : Nat) → Matrix (Fin m) (Fin n) ℝ → Matrix (Fin n) (Fin m) ℝ) (φ : Fin n → List ℝ → ℝ)
    (h1 : ∀ (k : Fin n) i, (fs.getD k fun _ => .error .IndexError) (newNodes i) = .ok (φ k (newNodes i)))
    (h2 : ∀ (k : Fin n) i, (fs.getD k fun _ => .error .IndexError) (oldNodes i) = .ok (φ k (oldNodes i))) :
    resamplingMatrixOf b newNodes oldNodes ls pinv =
      resamplingMatrix φ newNodes oldNodes ls (pinv n (vandermonde φ oldNodes)) := by
  obtain ⟨vs, hvs⟩ := callAll_of_getD fs hl newNodes fun k i => ⟨_, h1 k i⟩
  obtain ⟨vs', hvs'⟩ := callAll_of_getD fs hl oldNodes fun k i => ⟨_, h2 k i⟩
  subst hl
  have e : vandermonde (totalFn fs) newNodes = vandermonde φ newNodes :=
    vandermonde_congr _ _ _ fun k i => totalFn_of (h1 k i)
  have e' : vandermonde (totalFn fs) oldNodes = vandermonde φ oldNodes :=
    vandermonde_congr _ _ _ fun k i => totalFn_of (h2 k i)
  simp only [resamplingMatrixOf, hfs, hvs, hvs', resamplingMatrix, e, e']

theorem diffMatricesOf_eq {n p d : Nat} (b : Basis ℝ) (fs : List (List ℝ → Py ℝ)) (gs : List (List ℝ → Py (List ℝ)))
    (hfs : b.functions = .ok fs) (hgs : b.gradients = .ok gs) (hl : fs.length = n) (hgl : gs.length = n)
    (nodes : Fin p → List ℝ) (fromNodes : Fin n → List ℝ) (φ : Fin n → List ℝ → ℝ) (g : Fin n → List ℝ → Fin d → ℝ)
    (h1 : ∀ (k : Fin n) i, (fs.getD k fun _ => .error .IndexError) (fromNodes i) = .ok (φ k (fromNodes i)))
    (h2 : ∀ (k : Fin n) i, (gs.getD k fun _ => .error .IndexError) (nodes i) = .ok (List.ofFn (g k (nodes i)))) :
    diffMatricesOf d b nodes fromNodes = differentiationMatrices φ g nodes fromNodes := by
  obtain ⟨vs, hvs⟩ := callAll_of_getD fs hl fromNodes fun k i => ⟨_, h1 k i⟩
  obtain ⟨vs', hvs'⟩ := callAll_of_getD gs hgl nodes fun k i => ⟨_, h2 k i⟩
  subst hl
  have e : vandermonde (totalFn fs) fromNodes = vandermonde φ fromNodes :=
    vandermonde_congr _ _ _ fun k i => totalFn_of (h1 k i)
  have e2 : multiVandermonde (fun j : Fin fs.length => totalGrad gs d j) nodes = multiVandermonde g nodes := by
    simp only [multiVandermonde]
    split_ifs
    · rfl
    · congr 1
      funext k
      ext i j
      have := h2 j i
      simp only [Matrix.of_apply, totalGrad, this]
      simp [List.getD_eq_getElem?_getD]
  simp only [diffMatricesOf, hfs, hgs, hvs, hvs', differentiationMatrices, e, e2, ne_eq, not_true, if_false]

/-! ## C75 -/

theorem prod_modeNorm (l : List PNSpace) :
    (l.map modeNorm).prod = 4 ^ (l.countP fun s => s.spatialDim = 0) := by
  induction l with
  | nil => simp
  | cons s l ih =>
    rw [List.map_cons, List.prod_cons, ih, List.countP_cons]
    by_cases h : s.spatialDim = 0 <;> simp [modeNorm, h, pow_succ, mul_comm]

theorem prod_modeNorm_eq_one (l : List PNSpace) (h : ∀ s ∈ l, s.spatialDim ≠ 0) : (l.map modeNorm).prod = 1 := by
  rw [prod_modeNorm, List.countP_eq_zero.2 (by simpa using h), pow_zero]

theorem spaceIntegral_bilinear (space : Space) {n : Nat} (P : Fin n → Fin (nodeTuples space).length → ℝ) (a : Fin n → Fin n → ℝ) :
    spaceIntegral space (fun y => ∑ i, ∑ j, a i j * (spacePoly space (P i) y * spacePoly space (P j) y)) =
      ∑ i, ∑ j, a i j * spaceIntegral space (fun y => spacePoly space (P i) y * spacePoly space (P j) y) := by
  have hc : ∀ c, ContinuousIn (space.flatBases.map PNSpace.spatialDim) (spacePoly space c) := by
    intro c
    simp only [ContinuousIn, spacePoly, combine]
    exact continuous_finsetSum _ fun l _ => continuous_const.mul (continuous_monomialValue _ _)
  have e : ∀ y, ∑ i, ∑ j, a i j * (spacePoly space (P i) y * spacePoly space (P j) y) =
      ∑ q : Fin n × Fin n, a q.1 q.2 * (spacePoly space (P q.1) y * spacePoly space (P q.2) y) := fun y => by
    rw [Fintype.sum_prod_type]
  simp only [e]
  simp only [spaceIntegral]
  rw [productIntegral_sum (ι := Fin n × Fin n) (F := fun q y => spacePoly space (P q.1) y * spacePoly space (P q.2) y)
    (hF := fun q _ => (hc _).mul (hc _)), Fintype.sum_prod_type]

/-- **C75 (orthonormality).**  For every space all of whose factors have dimension at most three, the functions of
`orthonormal_basis_for_space` are polynomials of the space, a basis of it, and mutually orthogonal in the integral over the
reference shape.  The integral of each square is `4^z` with `z` the number of zero-dimensional factors. -/
theorem C75_orthonormal (space : Space) (shape : Shape) (b : Basis ℝ) (hb : orthonormalBasisForSpace space shape = .ok b)
    (hd : ∀ s ∈ space.flatBases, s.spatialDim ≤ 3) :
    ∃ fs C, Represents b space fs C ∧ ∀ k l,
      spaceIntegral space (fun x => spacePoly space (C k) x * spacePoly space (C l) x) =
        if k = l then 4 ^ (space.flatBases.countP fun s => s.spatialDim = 0) else 0 := by
  obtain ⟨fs, C, h1, h2, -⟩ := represents_orthonormal space shape b hb hd
  refine ⟨fs, C, h1, fun k l => ?_⟩
  rw [h2, prod_modeNorm]

theorem mass_represents (space : Space) (b : Basis ℝ) (hw : b.orthonormalityWeight = .ok 1) (fs : List (List ℝ → Py ℝ))
    (C : Matrix (Fin (nodeTuples space).length) (Fin (nodeTuples space).length) ℝ) (hr : Represents b space fs C) (κ : ℝ)
    (hκ : κ ≠ 0) (hG : ∀ k l, spaceIntegral space (fun x => spacePoly space (C k) x * spacePoly space (C l) x) =
      if k = l then κ else 0)
    (nodes : Fin (nodeTuples space).length → List ℝ) (hreg : ∀ i, RegularFor space (nodes i))
    (hu : UnisolventFor space nodes) :
    ∃ M, massMatrixOfBasis b nodes = .ok M ∧ ∀ c e,
      κ * ∑ i, ∑ j, spacePoly space c (nodes i) * M i j * spacePoly space e (nodes j) =
        spaceIntegral space (fun x => spacePoly space c x * spacePoly space e x) := by
  rw [massMatrixOf_eq b hw fs hr.functions hr.length nodes (fun k => spacePoly space (C k))
    fun k i => hr.value k _ (hreg i)]
  obtain ⟨M, hM, hip⟩ := C41_inner_product (fun k => spacePoly space (C k)) nodes (unisolvent_represents space nodes hu C hr.det)
    (fun F => κ⁻¹ * spaceIntegral space F)
    (fun a => by
      rw [spaceIntegral_bilinear space (fun i => C i) a, Finset.mul_sum]
      refine Finset.sum_congr rfl fun i _ => ?_
      rw [Finset.mul_sum]
      refine Finset.sum_congr rfl fun j _ => ?_
      ring)
    (fun i j => by
      rw [hG]
      split_ifs
      · exact inv_mul_cancel₀ hκ
      · ring)
  refine ⟨M, hM, fun c e => ?_⟩
  obtain ⟨a, ha⟩ := exists_combine space C hr.det c
  obtain ⟨a', ha'⟩ := exists_combine space C hr.det e
  rw [ha, ha', hip, ← mul_assoc, mul_inv_cancel₀ hκ, one_mul]

/-- **C75 (mass matrix).**  `mass_matrix(basis, nodes)` for the basis from `orthonormal_basis_for_space` of any space whose
factors have dimension one to three, and any regular nodes unisolvent for the space: `uᵀ M v` is the integral over the
reference shape of the product of the interpolating polynomials. -/
theorem C75_mass (space : Space) (shape : Shape) (b : Basis ℝ) (hb : orthonormalBasisForSpace space shape = .ok b)
    (hd : ∀ s ∈ space.flatBases, 1 ≤ s.spatialDim ∧ s.spatialDim ≤ 3)
    (nodes : Fin (nodeTuples space).length → List ℝ) (hreg : ∀ i, RegularFor space (nodes i))
    (hu : UnisolventFor space nodes) :
    ∃ M, massMatrixOfBasis b nodes = .ok M ∧ ∀ c e,
      ∑ i, ∑ j, spacePoly space c (nodes i) * M i j * spacePoly space e (nodes j) =
        spaceIntegral space (fun x => spacePoly space c x * spacePoly space e x) := by
  obtain ⟨fs, C, h1, h2, -⟩ := represents_orthonormal space shape b hb fun s hs => (hd s hs).2
  have hn : (space.flatBases.map modeNorm).prod = 1 := prod_modeNorm_eq_one _ fun s hs => by have := (hd s hs).1; omega
  rw [hn] at h2
  obtain ⟨M, hM, h⟩ := mass_represents space b (C41_orthonormal_accepted space shape b hb) fs C h1 1 one_ne_zero h2 nodes hreg hu
  exact ⟨M, hM, fun c e => by rw [← h, one_mul]⟩

/-- **C75 (`basis_for_space`).**  The same for `basis_for_space`. -/
theorem C75_mass_basis (space : Space) (shape : Shape) (b : Basis ℝ) (hb : basisForSpace space shape = .ok b)
    (hd : ∀ s ∈ space.flatBases, 1 ≤ s.spatialDim ∧ s.spatialDim ≤ 3)
    (nodes : Fin (nodeTuples space).length → List ℝ) (hreg : ∀ i, RegularFor space (nodes i))
    (hu : UnisolventFor space nodes) :
    ∃ M, massMatrixOfBasis b nodes = .ok M ∧ ∀ c e,
      ∑ i, ∑ j, spacePoly space c (nodes i) * M i j * spacePoly space e (nodes j) =
        spaceIntegral space (fun x => spacePoly space c x * spacePoly space e x) := by
  obtain ⟨fs, C, h1, h2, -⟩ := represents_basis space shape b hb
  have hn : (space.flatBases.map modeNorm).prod = 1 := prod_modeNorm_eq_one _ fun s hs => by have := (hd s hs).1; omega
  have h2 := h2 fun s hs => (hd s hs).2
  rw [hn] at h2
  have hw : b.orthonormalityWeight = .ok 1 := by
    rw [C41_basis_for_space space shape b hb, if_pos fun s hs => (hd s hs).2]
  obtain ⟨M, hM, h⟩ := mass_represents space b hw fs C h1 1 one_ne_zero h2 nodes hreg hu
  exact ⟨M, hM, fun c e => by rw [← h, one_mul]⟩

/-- **C75 (zero-dimensional factors).**  With `z` zero-dimensional factors the mass matrix is too small by the factor `4^z`
although the basis reports orthonormality weight one. -/
theorem C75_mass_zero_dimensional (space : Space) (shape : Shape) (b : Basis ℝ)
    (hb : orthonormalBasisForSpace space shape = .ok b) (hd : ∀ s ∈ space.flatBases, s.spatialDim ≤ 3)
    (nodes : Fin (nodeTuples space).length → List ℝ) (hreg : ∀ i, RegularFor space (nodes i))
    (hu : UnisolventFor space nodes) :
    ∃ M, massMatrixOfBasis b nodes = .ok M ∧ ∀ c e,
      4 ^ (space.flatBases.countP fun s => s.spatialDim = 0) *
        ∑ i, ∑ j, spacePoly space c (nodes i) * M i j * spacePoly space e (nodes j) =
          spaceIntegral space (fun x => spacePoly space c x * spacePoly space e x) := by
  obtain ⟨fs, C, h1, h2, -⟩ := represents_orthonormal space shape b hb hd
  rw [prod_modeNorm] at h2
  exact mass_represents space b (C41_orthonormal_accepted space shape b hb) fs C h1 _ (by positivity) h2 nodes hreg hu

theorem collect_error {α : Type} (e : PyErr) (l : List (Py α)) (h : ∀ a ∈ l, (∃ v, a = .ok v) ∨ a = .error e)
    (h' : ∃ a ∈ l, a = .error e) : collect l = .error e := by
  induction l with
  | nil => simp at h'
  | cons a l ih =>
    rcases h a (List.mem_cons_self ..) with ⟨v, rfl⟩ | rfl
    · have := ih (fun b hb => h b (List.mem_cons_of_mem _ hb)) (by simpa using h')
      simp [collect, this]
    · rfl

theorem collect_ok_or {α : Type} (e : PyErr) (l : List (Py α)) (h : ∀ a ∈ l, (∃ v, a = .ok v) ∨ a = .error e) :
    (∃ v, collect l = .ok v ∧ v.length = l.length) ∨ collect l = .error e := by
  by_cases h' : ∃ a ∈ l, a = .error e
  · exact .inr (collect_error e l h h')
  · push Not at h'
    refine .inl ?_
    have h : ∀ a ∈ l, ∃ v, a = .ok v := fun a ha => (h a ha).resolve_right (h' a ha)
    clear h'
    induction l with
    | nil => exact ⟨[], rfl, rfl⟩
    | cons a l ih =>
      obtain ⟨v, rfl⟩ := h a (List.mem_cons_self ..)
      obtain ⟨vs, hvs, hl⟩ := ih (fun b hb => .inl (h b (List.mem_cons_of_mem _ hb))) (fun b hb => h b (List.mem_cons_of_mem _ hb))
      exact ⟨v :: vs, by simp [collect, hvs], by simp [hl]⟩

/-- A basis one of whose factors refuses to give its functions (gradients) refuses to give its functions (gradients). -/
theorem refused_with (e : PyErr) (forPN : PNSpace → Basis ℝ) (check : Bool) (space : Space) (shape : Shape) (b : Basis ℝ)
    (hb : basisForSpaceWith forPN check space shape = .ok b)
    (hf : ∀ s, (∃ v, (forPN s).functions = .ok v) ∨ (forPN s).functions = .error e)
    (hg : ∀ s, (∃ v, (forPN s).gradients = .ok v) ∨ (forPN s).gradients = .error e) :
    ((∃ s ∈ space.flatBases, (forPN s).functions = .error e) → b.functions = .error e) ∧
    ((∃ v, b.functions = .ok v) ∨ b.functions = .error e) ∧
    ((∃ s ∈ space.flatBases, (forPN s).gradients = .error e) → b.gradients = .error e) := by
  have tp : ∀ l : List PNSpace,
      ((∃ s ∈ l, (forPN s).functions = .error e) →
        (tensorProductBasis (l.map forPN) (l.map PNSpace.spatialDim)).functions = .error e) ∧
      ((∃ v, (tensorProductBasis (l.map forPN) (l.map PNSpace.spatialDim)).functions = .ok v) ∨
        (tensorProductBasis (l.map forPN) (l.map PNSpace.spatialDim)).functions = .error e) ∧
      ((∃ s ∈ l, (forPN s).gradients = .error e) →
        (tensorProductBasis (l.map forPN) (l.map PNSpace.spatialDim)).gradients = .error e) := by
    intro l
    have hF := collect_ok_or e ((l.map forPN).map (·.functions)) (by simpa using fun s _ => hf s)
    refine ⟨fun h => ?_, ?_, fun h => ?_⟩
    · have := collect_error e ((l.map forPN).map (·.functions)) (by simpa using fun s _ => hf s) (by simpa using h)
      simp only [tensorProductBasis, this, bind, Except.bind]
    · rcases hF with ⟨v, hv, hl⟩ | he
      · have hl : v.length = l.length := by simpa using hl
        left
        simp only [tensorProductBasis, hv, bind, Except.bind, List.length_map, hl, ne_eq, not_true, if_false]
        exact ⟨_, rfl⟩
      · right
        simp only [tensorProductBasis, he, bind, Except.bind]
    · have hG := collect_error e ((l.map forPN).map (·.gradients)) (by simpa using fun s _ => hg s) (by simpa using h)
      rcases hF with ⟨v, hv, -⟩ | he
      · simp only [tensorProductBasis, hv, hG, bind, Except.bind]
      · simp only [tensorProductBasis, he, bind, Except.bind]
  unfold basisForSpaceWith at hb
  split at hb
  · cases hb
    simpa [Space.flatBases] using hf _
  · cases hb
  · cases hb
  · split at hb
    · cases hb
    · split at hb
      · cases hb
      · cases hb; exact tp _

theorem onb_functions (s : PNSpace) :
    if s.spatialDim ≤ 3 then ∃ v, (orthonormalBasisPN s : Basis ℝ).functions = .ok v
    else (orthonormalBasisPN s : Basis ℝ).functions = .error .NotImplementedError := by
  obtain ⟨d, n⟩ := s
  simp only [orthonormalBasisPN, simplexONB]
  split_ifs with h0 h1 h2 h2
  all_goals first | exact ⟨_, rfl⟩ | rfl | (exfalso; omega)

theorem onb_gradients (s : PNSpace) :
    if 1 ≤ s.spatialDim ∧ s.spatialDim ≤ 3 then ∃ v, (orthonormalBasisPN s : Basis ℝ).gradients = .ok v
    else (orthonormalBasisPN s : Basis ℝ).gradients = .error .NotImplementedError := by
  obtain ⟨d, n⟩ := s
  simp only [orthonormalBasisPN, simplexONB]
  split_ifs with h0 h1 h2
  all_goals first | exact ⟨_, rfl⟩ | rfl | (exfalso; omega)

theorem onb_ok_or (s : PNSpace) :
    ((∃ v, (orthonormalBasisPN s : Basis ℝ).functions = .ok v) ∨
      (orthonormalBasisPN s : Basis ℝ).functions = .error .NotImplementedError) ∧
    ((∃ v, (orthonormalBasisPN s : Basis ℝ).gradients = .ok v) ∨
      (orthonormalBasisPN s : Basis ℝ).gradients = .error .NotImplementedError) := by
  have h1 := onb_functions s
  have h2 := onb_gradients s
  constructor
  · split_ifs at h1
    exacts [.inl h1, .inr h1]
  · split_ifs at h2
    exacts [.inl h2, .inr h2]

theorem basis_ok_or (s : PNSpace) :
    ((∃ v, (basisPN s : Basis ℝ).functions = .ok v) ∨
      (basisPN s : Basis ℝ).functions = .error .NotImplementedError) ∧
    ((∃ v, (basisPN s : Basis ℝ).gradients = .ok v) ∨
      (basisPN s : Basis ℝ).gradients = .error .NotImplementedError) := by
  by_cases h : s.spatialDim ≤ 3
  · have := onb_ok_or s
    simpa [basisPN, orthonormalBasisPN, h] using this
  · simp [basisPN, h, simplexMonomial]

/-- **C75 (refusals).**  Monomial bases, and orthonormal bases and those chosen by `basis_for_space` if some factor has
dimension four or more, are refused with `NotImplementedError`. -/
theorem C75_refused (space : Space) (shape : Shape) (b : Basis ℝ) {m : Nat} (nodes : Fin m → List ℝ) :
    (monomialBasisForSpace space shape = .ok b → space.flatBases ≠ [] → massMatrixOfBasis b nodes = .error .NotImplementedError) ∧
    (basisForSpace space shape = .ok b → (∃ s ∈ space.flatBases, 4 ≤ s.spatialDim) →
      massMatrixOfBasis b nodes = .error .NotImplementedError) ∧
    (orthonormalBasisForSpace space shape = .ok b → (∃ s ∈ space.flatBases, 4 ≤ s.spatialDim) →
      massMatrixOfBasis b nodes = .error .NotImplementedError) := by
  refine ⟨fun h hne => ?_, fun h hs => ?_, fun h hs => ?_⟩
  · simp [massMatrixOfBasis, inverseMassMatrixOf, C41_monomial_refused space shape hne b h]
  · have hw := C41_basis_for_space space shape b h
    obtain ⟨s, hs, hd⟩ := hs
    rw [if_neg fun hall => by have := hall s hs; omega] at hw
    simp [massMatrixOfBasis, inverseMassMatrixOf, hw]
  · have hw := C41_orthonormal_accepted space shape b h
    obtain ⟨s, hs, hd⟩ := hs
    have hf := (refused_with .NotImplementedError orthonormalBasisPN true space shape b h (fun s => (onb_ok_or s).1)
      (fun s => (onb_ok_or s).2)).1 ⟨s, hs, by simpa [show ¬ s.spatialDim ≤ 3 by omega] using onb_functions s⟩
    simp [massMatrixOfBasis, inverseMassMatrixOf, hw, hf]

/-- **C75 (weights).**  A basis of any kind that is orthonormal for a weight other than one is refused in the same way,
before any of its functions is called. -/
theorem C75_weight (b : Basis ℝ) (w : ℝ) (hb : b.orthonormalityWeight = .ok w) (hw : w ≠ 1) {m : Nat}
    (nodes : Fin m → List ℝ) :
    inverseMassMatrixOf b nodes = .error .NotImplementedError ∧ massMatrixOfBasis b nodes = .error .NotImplementedError := by
  simp [massMatrixOfBasis, inverseMassMatrixOf, hb, hw]

/-- A basis with weight two whose function cannot be evaluated. -/
example : massMatrixOfBasis (m := 1) ⟨.ok [], .ok [fun _ => .error .TypeError], .ok [], fun _ => .ok [], .ok 2⟩
    (fun _ => [0]) = .error .NotImplementedError :=
  (C75_weight _ 2 rfl (by norm_num) _).2

/-! ## C76 -/

theorem diff_represents (space : Space) (b : Basis ℝ) (fs : List (List ℝ → Py ℝ)) (gs : List (List ℝ → Py (List ℝ)))
    (C : Matrix (Fin (nodeTuples space).length) (Fin (nodeTuples space).length) ℝ) (hr : Represents b space fs C)
    (hg : GradRepresents b space gs C) {p : Nat} (nodes : Fin p → List ℝ) (fromNodes : Fin (nodeTuples space).length → List ℝ)
    (hn : ∀ i, RegularFor space (nodes i)) (hf : ∀ i, RegularFor space (fromNodes i)) (hu : UnisolventFor space fromNodes)
    (h0 : (nodeTuples space).length ≠ 0)
    (hd : space.spatialDim ≠ 0) :
    ∃ D, diffMatricesOf space.spatialDim b nodes fromNodes = .ok D ∧ ∀ c i,
      IsGradientAt space.spatialDim (spacePoly space c) (nodes i)
        (List.ofFn fun k => ∑ j, D k i j * spacePoly space c (fromNodes j)) := by
  choose! v hv1 hv2 using hg.value
  have hlen : ∀ k x, RegularFor space x → List.ofFn (fun i : Fin space.spatialDim => (v k x).getD i 0) = v k x := by
    intro k x hx
    have := (hv2 k x hx).1
    apply List.ext_getElem
    · simp [this]
    · intro i h1 h2
      simp [List.getD_eq_getElem?_getD, h2]
  rw [diffMatricesOf_eq b fs gs hr.functions hg.gradients hr.length hg.length nodes fromNodes
    (fun k => spacePoly space (C k)) (fun k x i => (v k x).getD i 0) (fun k i => hr.value k _ (hf i))
    (fun k i => by rw [hlen k _ (hn i)]; exact hv1 k _ (hn i))]
  obtain ⟨D, hD, h⟩ := C39_differentiates (fun k => spacePoly space (C k)) (fun k x (i : Fin space.spatialDim) => (v k x).getD i 0)
    nodes fromNodes h0 hd (unisolvent_represents space fromNodes hu C hr.det)
    (fun k i => by rw [hlen k _ (hn i)]; exact hv2 k _ (hn i))
  refine ⟨D, hD, fun c i => ?_⟩
  obtain ⟨a, ha⟩ := exists_combine space C hr.det c
  rw [ha]
  exact h a i

theorem nodeTuples_ne (space : Space) : (nodeTuples space).length ≠ 0 := by
  rw [length_nodeTuples]
  have hp : ∀ s : PNSpace, s.spaceDim ≠ 0 := fun s => by
    rw [← length_nodeTuplesPN]
    have : List.replicate s.spatialDim 0 ∈ nodeTuplesPN s :=
      (Pytools.mem_gnitsam _ _ _).2 ⟨by simp, by simp⟩
    exact (List.length_pos_of_mem this).ne'
  have hl : ∀ l : List PNSpace, (l.map PNSpace.spaceDim).prod ≠ 0 := fun l => by
    rw [ne_eq, List.prod_eq_zero_iff]
    simp only [List.mem_map, not_exists, not_and]
    exact fun s _ => hp s
  cases space with
  | pn s => exact hp s
  | tp bs => exact hl bs
  | qn d n => exact hl _

/-- **C76 (`orthonormal_basis_for_space`).**  For every space whose factors have dimension one to three, `diff_matrices`
takes the values of every polynomial of the space at regular unisolvent nodes to its gradient at regular nodes. -/
theorem C76_orthonormal (space : Space) (shape : Shape) (b : Basis ℝ) (hb : orthonormalBasisForSpace space shape = .ok b)
    (hd : ∀ s ∈ space.flatBases, 1 ≤ s.spatialDim ∧ s.spatialDim ≤ 3) (h0 : space.spatialDim ≠ 0) {p : Nat} (nodes : Fin p → List ℝ)
    (fromNodes : Fin (nodeTuples space).length → List ℝ) (hn : ∀ i, RegularFor space (nodes i))
    (hf : ∀ i, RegularFor space (fromNodes i)) (hu : UnisolventFor space fromNodes) :
    ∃ D, diffMatricesOf space.spatialDim b nodes fromNodes = .ok D ∧ ∀ c i,
      IsGradientAt space.spatialDim (spacePoly space c) (nodes i)
        (List.ofFn fun k => ∑ j, D k i j * spacePoly space c (fromNodes j)) := by
  obtain ⟨fs, C, h1, -, h3⟩ := represents_orthonormal space shape b hb fun s hs => (hd s hs).2
  obtain ⟨gs, hgs⟩ := h3 fun s hs => by have := (hd s hs).1; omega
  exact diff_represents space b fs gs C h1 hgs nodes fromNodes hn hf hu (nodeTuples_ne space) h0

/-- **C76 (`basis_for_space`).**  The same for `basis_for_space`, for factors of any positive dimension. -/
theorem C76_basis (space : Space) (shape : Shape) (b : Basis ℝ) (hb : basisForSpace space shape = .ok b)
    (hd : ∀ s ∈ space.flatBases, 1 ≤ s.spatialDim) (h0 : space.spatialDim ≠ 0) {p : Nat} (nodes : Fin p → List ℝ)
    (fromNodes : Fin (nodeTuples space).length → List ℝ) (hn : ∀ i, RegularFor space (nodes i))
    (hf : ∀ i, RegularFor space (fromNodes i)) (hu : UnisolventFor space fromNodes) :
    ∃ D, diffMatricesOf space.spatialDim b nodes fromNodes = .ok D ∧ ∀ c i,
      IsGradientAt space.spatialDim (spacePoly space c) (nodes i)
        (List.ofFn fun k => ∑ j, D k i j * spacePoly space c (fromNodes j)) := by
  obtain ⟨fs, C, h1, -, h3⟩ := represents_basis space shape b hb
  obtain ⟨gs, hgs⟩ := h3 fun s hs => by have := hd s hs; omega
  exact diff_represents space b fs gs C h1 hgs nodes fromNodes hn hf hu (nodeTuples_ne space) h0

/-- **C76 (`monomial_basis_for_space`).**  The same for the monomials, for factors of any dimension not all zero. -/
theorem C76_monomial (space : Space) (shape : Shape) (b : Basis ℝ) (hb : monomialBasisForSpace space shape = .ok b)
    (h0 : space.spatialDim ≠ 0) {p : Nat} (nodes : Fin p → List ℝ)
    (fromNodes : Fin (nodeTuples space).length → List ℝ) (hn : ∀ i, RegularFor space (nodes i))
    (hf : ∀ i, RegularFor space (fromNodes i)) (hu : UnisolventFor space fromNodes) :
    ∃ D, diffMatricesOf space.spatialDim b nodes fromNodes = .ok D ∧ ∀ c i,
      IsGradientAt space.spatialDim (spacePoly space c) (nodes i)
        (List.ofFn fun k => ∑ j, D k i j * spacePoly space c (fromNodes j)) := by
  obtain ⟨fs, C, gs, h1, hgs⟩ := represents_monomial space shape b hb
  exact diff_represents space b fs gs C h1 hgs nodes fromNodes hn hf hu (nodeTuples_ne space) h0

/-- **C76 (points).**  On a space of dimension zero the gradients of the monomials have no components, and `diff_matrices`
raises `ValueError`. -/
theorem C76_point (space : Space) (shape : Shape) (b : Basis ℝ) (hb : monomialBasisForSpace space shape = .ok b)
    (h0 : space.spatialDim = 0) {p m : Nat} (nodes : Fin p → List ℝ) (fromNodes : Fin m → List ℝ)
    (hn : ∀ i, RegularFor space (nodes i)) (hf : ∀ i, RegularFor space (fromNodes i)) :
    diffMatricesOf space.spatialDim b nodes fromNodes = .error .ValueError := by
  obtain ⟨fs, C, gs, hr, hg⟩ := represents_monomial space shape b hb
  obtain ⟨vs, hvs⟩ := callAll_of_getD fs hr.length fromNodes fun k i => ⟨_, hr.value k _ (hf i)⟩
  obtain ⟨vs', hvs'⟩ := callAll_of_getD gs hg.length nodes fun k i => by
    obtain ⟨v, hv, -⟩ := hg.value k _ (hn i)
    exact ⟨v, hv⟩
  rw [h0]
  simp only [diffMatricesOf, hr.functions, hg.gradients, hvs, hvs']
  split_ifs with h
  · rfl
  · exact C39_dimension_zero _ _ _ _

/-- **C76 (refusals).**  With a factor of dimension zero, `diff_matrices` refuses the orthonormal basis and the basis of
`basis_for_space` with `NotImplementedError` (the gradients of the zero-dimensional simplex are not implemented); so it
does for orthonormal bases with a factor of dimension four or more. -/
theorem C76_refused (space : Space) (shape : Shape) (b : Basis ℝ) {p m : Nat} (nodes : Fin p → List ℝ)
    (fromNodes : Fin m → List ℝ) :
    (orthonormalBasisForSpace space shape = .ok b → (∃ s ∈ space.flatBases, s.spatialDim = 0 ∨ 4 ≤ s.spatialDim) →
      diffMatricesOf space.spatialDim b nodes fromNodes = .error .NotImplementedError) ∧
    (basisForSpace space shape = .ok b → (∃ s ∈ space.flatBases, s.spatialDim = 0) →
      diffMatricesOf space.spatialDim b nodes fromNodes = .error .NotImplementedError) := by
  have key : ((∃ v, b.functions = .ok v) ∨ b.functions = .error .NotImplementedError) →
      b.gradients = .error .NotImplementedError →
      diffMatricesOf space.spatialDim b nodes fromNodes = .error .NotImplementedError := by
    rintro (⟨v, hv⟩ | he) hg
    · simp [diffMatricesOf, hv, hg]
    · simp [diffMatricesOf, he]
  refine ⟨fun h hs => ?_, fun h hs => ?_⟩
  · obtain ⟨s, hs, hd⟩ := hs
    obtain ⟨-, h1, h2⟩ := refused_with .NotImplementedError orthonormalBasisPN true space shape b h (fun s => (onb_ok_or s).1)
      (fun s => (onb_ok_or s).2)
    have hg := onb_gradients s
    rw [if_neg (by omega)] at hg
    exact key h1 (h2 ⟨s, hs, hg⟩)
  · obtain ⟨s, hs, hd⟩ := hs
    obtain ⟨-, h1, h2⟩ := refused_with .NotImplementedError basisPN true space shape b h (fun s => (basis_ok_or s).1)
      (fun s => (basis_ok_or s).2)
    have hg := onb_gradients s
    rw [if_neg (by omega)] at hg
    exact key h1 (h2 ⟨s, hs, by simpa [basisPN, orthonormalBasisPN, hd] using hg⟩)

/-! ## C77 -/

theorem resample_represents (space : Space) (b : Basis ℝ) (fs : List (List ℝ → Py ℝ))
    (C : Matrix (Fin (nodeTuples space).length) (Fin (nodeTuples space).length) ℝ) (hr : Represents b space fs C)
    {p : Nat} (newNodes : Fin p → List ℝ) (oldNodes : Fin (nodeTuples space).length → List ℝ)
    (hn : ∀ i, RegularFor space (newNodes i)) (ho : ∀ i, RegularFor space (oldNodes i)) (hu : UnisolventFor space oldNodes)
    (ls : Bool) (pinv : (n : Nat) → Matrix (Fin (nodeTuples space).length) (Fin n) ℝ → Matrix (Fin n) (Fin (nodeTuples space).length) ℝ) :
    ∃ R, resamplingMatrixOf b newNodes oldNodes ls pinv = .ok R ∧ ∀ c i,
      ∑ j, R i j * spacePoly space c (oldNodes j) = spacePoly space c (newNodes i) := by
  rw [resamplingMatrixOf_eq b fs hr.functions hr.length newNodes oldNodes ls pinv (fun k => spacePoly space (C k))
    (fun k i => hr.value k _ (hn i)) (fun k i => hr.value k _ (ho i))]
  obtain ⟨R, hR, h⟩ := C38_reproduces (fun k => spacePoly space (C k)) newNodes oldNodes ls
    (pinv _ (vandermonde (fun k => spacePoly space (C k)) oldNodes)) (unisolvent_represents space oldNodes hu C hr.det)
  refine ⟨R, hR, fun c i => ?_⟩
  obtain ⟨a, ha⟩ := exists_combine space C hr.det c
  rw [ha]
  exact h a i

theorem injective_vandermonde {n m : Nat} (φ : Fin n → List ℝ → ℝ) (nodes : Fin m → List ℝ) (h : Unisolvent φ nodes) :
    Function.Injective (vandermonde φ nodes).mulVec := by
  intro u v huv
  have : u - v = 0 := h (u - v) fun i => by
    rw [← vandermonde_mulVec, Matrix.mulVec_sub, huv, sub_self]
    rfl
  exact sub_eq_zero.1 this

/-- Matrices with independent columns have a pseudoinverse, so the contract of `pinv` can be met. -/
theorem exists_pinv {n m : Nat} (A : Matrix (Fin m) (Fin n) ℝ) (h : Function.Injective A.mulVec) : ∃ P, IsPinv A P := by
  have hdet : (Aᵀ * A).det ≠ 0 := by
    rw [← isUnit_iff_ne_zero, ← Matrix.isUnit_iff_isUnit_det, ← Matrix.mulVec_injective_iff_isUnit]
    intro u v huv
    apply h
    have h0 : Aᵀ *ᵥ (A *ᵥ (u - v)) = 0 := by
      rw [Matrix.mulVec_mulVec, Matrix.mulVec_sub]
      exact sub_eq_zero.2 huv
    have h1 : (A *ᵥ (u - v)) ⬝ᵥ (A *ᵥ (u - v)) = 0 := by
      rw [Matrix.dotProduct_mulVec, ← Matrix.mulVec_transpose, h0, zero_dotProduct]
    have h2 := dotProduct_self_eq_zero.1 h1
    rw [Matrix.mulVec_sub] at h2
    exact sub_eq_zero.1 h2
  have hi := nonsing_inv_mul _ hdet.isUnit
  have hs : ((Aᵀ * A)⁻¹)ᵀ = (Aᵀ * A)⁻¹ := by rw [transpose_nonsing_inv, transpose_mul, transpose_transpose]
  have hPA : (Aᵀ * A)⁻¹ * Aᵀ * A = 1 := by rw [Matrix.mul_assoc, hi]
  refine ⟨(Aᵀ * A)⁻¹ * Aᵀ, ?_, ?_, ?_, ?_⟩
  · rw [Matrix.mul_assoc, hPA, Matrix.mul_one]
  · rw [hPA, Matrix.one_mul]
  · rw [transpose_mul, transpose_mul, transpose_transpose, hs, Matrix.mul_assoc]
  · rw [hPA, transpose_one]

theorem resample_ls_represents (space : Space) (b : Basis ℝ) (fs : List (List ℝ → Py ℝ))
    (C : Matrix (Fin (nodeTuples space).length) (Fin (nodeTuples space).length) ℝ) (hr : Represents b space fs C)
    {p m : Nat} (newNodes : Fin p → List ℝ) (oldNodes : Fin m → List ℝ) (hm : m ≠ (nodeTuples space).length)
    (hn : ∀ i, RegularFor space (newNodes i)) (ho : ∀ i, RegularFor space (oldNodes i)) (hu : UnisolventFor space oldNodes)
    (pinv : (n : Nat) → Matrix (Fin m) (Fin n) ℝ → Matrix (Fin n) (Fin m) ℝ) (hp : ∀ n A, Function.Injective A.mulVec → IsPinv A (pinv n A)) :
    ∃ R, resamplingMatrixOf b newNodes oldNodes true pinv = .ok R ∧ ∀ c i,
      ∑ j, R i j * spacePoly space c (oldNodes j) = spacePoly space c (newNodes i) := by
  rw [resamplingMatrixOf_eq b fs hr.functions hr.length newNodes oldNodes true pinv (fun k => spacePoly space (C k))
    (fun k i => hr.value k _ (hn i)) (fun k i => hr.value k _ (ho i))]
  obtain ⟨R, hR, h⟩ := C38_least_squares (fun k => spacePoly space (C k)) newNodes oldNodes _
    (hp _ _ (injective_vandermonde _ _ (unisolvent_represents space oldNodes hu C hr.det))) hm
    (unisolvent_represents space oldNodes hu C hr.det)
  refine ⟨R, hR, fun c i => ?_⟩
  obtain ⟨a, ha⟩ := exists_combine space C hr.det c
  rw [ha]
  exact h a i

/-- A basis of the space returned by one of the three functions. -/
def Spec.IsBasisOf (b : Basis ℝ) (space : Space) : Prop :=
  ∃ shape, (orthonormalBasisForSpace space shape = .ok b ∧ ∀ s ∈ space.flatBases, s.spatialDim ≤ 3) ∨
    basisForSpace space shape = .ok b ∨ monomialBasisForSpace space shape = .ok b

theorem represents_isBasisOf {b : Basis ℝ} {space : Space} (h : IsBasisOf b space) : ∃ fs C, Represents b space fs C := by
  obtain ⟨shape, ⟨h, hd⟩ | h | h⟩ := h
  · obtain ⟨fs, C, h1, -⟩ := represents_orthonormal space shape b h hd
    exact ⟨fs, C, h1⟩
  · obtain ⟨fs, C, h1, -⟩ := represents_basis space shape b h
    exact ⟨fs, C, h1⟩
  · obtain ⟨fs, C, gs, h1, -⟩ := represents_monomial space shape b h
    exact ⟨fs, C, h1⟩

/-- **C77.**  `resampling_matrix` with any of the three bases of a space, from regular unisolvent nodes to any regular nodes,
takes the values of every polynomial of the space to its values. -/
theorem C77_resampling (space : Space) (b : Basis ℝ) (hb : IsBasisOf b space) {p : Nat} (newNodes : Fin p → List ℝ)
    (oldNodes : Fin (nodeTuples space).length → List ℝ)
    (hn : ∀ i, RegularFor space (newNodes i)) (ho : ∀ i, RegularFor space (oldNodes i)) (hu : UnisolventFor space oldNodes)
    (ls : Bool) (pinv : (n : Nat) → Matrix (Fin (nodeTuples space).length) (Fin n) ℝ → Matrix (Fin n) (Fin (nodeTuples space).length) ℝ) :
    ∃ R, resamplingMatrixOf b newNodes oldNodes ls pinv = .ok R ∧ ∀ c i,
      ∑ j, R i j * spacePoly space c (oldNodes j) = spacePoly space c (newNodes i) := by
  obtain ⟨fs, C, hr⟩ := represents_isBasisOf hb
  exact resample_represents space b fs C hr newNodes oldNodes hn ho hu ls pinv

/-- **C77 (least squares).**  The same with more nodes than functions. -/
theorem C77_least_squares (space : Space) (b : Basis ℝ) (hb : IsBasisOf b space) {p m : Nat} (newNodes : Fin p → List ℝ)
    (oldNodes : Fin m → List ℝ) (hm : m ≠ space.spaceDim)
    (hn : ∀ i, RegularFor space (newNodes i)) (ho : ∀ i, RegularFor space (oldNodes i)) (hu : UnisolventFor space oldNodes)
    (pinv : (n : Nat) → Matrix (Fin m) (Fin n) ℝ → Matrix (Fin n) (Fin m) ℝ) (hp : ∀ n A, Function.Injective A.mulVec → IsPinv A (pinv n A)) :
    ∃ R, resamplingMatrixOf b newNodes oldNodes true pinv = .ok R ∧ ∀ c i,
      ∑ j, R i j * spacePoly space c (oldNodes j) = spacePoly space c (newNodes i) := by
  obtain ⟨fs, C, hr⟩ := represents_isBasisOf hb
  exact resample_ls_represents space b fs C hr newNodes oldNodes (by rwa [length_nodeTuples]) hn ho hu pinv hp

theorem matrix_unique (space : Space) {p : Nat} (oldNodes : Fin (nodeTuples space).length → List ℝ) (hu : UnisolventFor space oldNodes)
    (R S : Matrix (Fin p) (Fin (nodeTuples space).length) ℝ)
    (h : ∀ c i, ∑ j, R i j * spacePoly space c (oldNodes j) = ∑ j, S i j * spacePoly space c (oldNodes j)) : R = S := by
  have hd := (unisolvent_iff_det _ _).1 hu
  have e : R * vandermonde (fun l : Fin (nodeTuples space).length => monomialValue (nodeTuples space)[l]) oldNodes =
      S * vandermonde (fun l : Fin (nodeTuples space).length => monomialValue (nodeTuples space)[l]) oldNodes := by
    ext i k
    have := h (Pi.single k 1) i
    simpa [spacePoly, combine, Matrix.mul_apply, vandermonde, Pi.single_apply] using this
  revert hd e
  generalize vandermonde (fun l : Fin (nodeTuples space).length => monomialValue (nodeTuples space)[l]) oldNodes = V
  intro hd e
  have := congrArg (· * V⁻¹) e
  simpa only [Matrix.mul_assoc, mul_nonsing_inv _ hd.isUnit, Matrix.mul_one] using this

/-- **C77 (the basis does not matter).**  Resampling with two bases of the same space gives the same matrix. -/
theorem C77_basis_independent (space : Space) (b b' : Basis ℝ) (hb : IsBasisOf b space) (hb' : IsBasisOf b' space) {p : Nat}
    (newNodes : Fin p → List ℝ) (oldNodes : Fin (nodeTuples space).length → List ℝ)
    (hn : ∀ i, RegularFor space (newNodes i)) (ho : ∀ i, RegularFor space (oldNodes i)) (hu : UnisolventFor space oldNodes)
    (ls : Bool) (pinv : (n : Nat) → Matrix (Fin (nodeTuples space).length) (Fin n) ℝ → Matrix (Fin n) (Fin (nodeTuples space).length) ℝ) :
    resamplingMatrixOf b newNodes oldNodes ls pinv = resamplingMatrixOf b' newNodes oldNodes ls pinv := by
  obtain ⟨R, hR, h⟩ := C77_resampling space b hb newNodes oldNodes hn ho hu ls pinv
  obtain ⟨R', hR', h'⟩ := C77_resampling space b' hb' newNodes oldNodes hn ho hu ls pinv
  rw [hR, hR', matrix_unique space oldNodes hu R R' fun c i => (h c i).trans (h' c i).symm]

/-! ## The nodes of the library

`equispaced_nodes_for_space` satisfies the hypotheses on the nodes, so the matrices built on it are exact without further
assumptions. -/

theorem regular_gridPoint (bases : List PNSpace) (parts : List (List Nat)) (hN : ∀ s ∈ bases, s.order ≤ 10 ^ 10)
    (h : List.Forall₂ (fun (s : PNSpace) p => p.length = s.spatialDim ∧ p.sum ≤ s.order) bases parts) :
    List.Forall₂ Regular (bases.map PNSpace.spatialDim)
      (slices (bases.map PNSpace.spatialDim) (gridPoint (tpAxes bases) parts.flatten)) := by
  induction h with
  | nil => simp [slices]
  | @cons s p bases parts hp _ ih =>
    have e : gridPoint (tpAxes (s :: bases)) (p :: parts).flatten =
        (p.map fun a : Nat => (a : ℝ) / s.order * 2 - 1) ++ gridPoint (tpAxes bases) parts.flatten := by
      simp only [tpAxes, List.map_cons, List.flatten_cons, gridPoint]
      rw [List.zipWith_append (by simp [hp.1])]
      congr 1
      rw [← hp.1, ← List.map_const', List.zipWith_map_left, List.zipWith_self]
      refine List.map_congr_left fun a _ => ?_
      ring
    rw [e, List.map_cons, slices_append _ _ _ _ (by simp [hp.1])]
    exact List.Forall₂.cons (regular_lattice (hN s (List.mem_cons_self ..)) p hp.1 hp.2)
      (ih fun s hs => hN s (List.mem_cons_of_mem _ hs))

/-- Equispaced nodes are regular and unisolvent. -/
theorem equispaced_regular (bases : List PNSpace) (hord : ∀ s ∈ bases, 0 < s.order ∧ s.order ≤ 10 ^ 10)
    (hdim : 0 < (bases.map PNSpace.spatialDim).sum) :
    ∃ A : NdArray ℝ, equispacedNodes (.tp bases) (.tp (bases.map PNSpace.spatialDim)) = .ok A ∧
      (∀ i : Fin (nodeTuples (.tp bases)).length, RegularFor (.tp bases) (column A (Space.tp bases).spatialDim i)) ∧
      UnisolventFor (.tp bases) fun i : Fin (nodeTuples (.tp bases)).length => column A (Space.tp bases).spatialDim i := by
  obtain ⟨A, hA, hu⟩ := C62_tp bases (fun s hs => (hord s hs).1) hdim
  obtain ⟨A', hA', hcol⟩ := equispaced_tp_grid bases (fun s hs => (hord s hs).1) hdim
  obtain rfl : A = A' := by rw [hA] at hA'; exact Except.ok.inj hA'
  refine ⟨A, hA, fun i => ⟨by simp [column], ?_⟩, hu⟩
  obtain ⟨parts, hp, e⟩ := (mem_nodeTuples (.tp bases) _).1 (List.getElem_mem i.2)
  have hc := hcol i i.2
  rw [e] at hc
  have : column A (Space.tp bases).spatialDim i = _ := hc
  rw [this]
  exact regular_gridPoint bases parts (fun s hs => (hord s hs).2) hp

/-- **C75, C76 (equispaced nodes).**  For every product of simplices of dimension one to three and orders at least one (and
at most `10^10`, so that no node falls into a tolerance strip), the mass matrix and the differentiation matrices of the orthonormal basis on the equispaced nodes of the library are exact. -/
theorem C75_equispaced (bases : List PNSpace) (hord : ∀ s ∈ bases, 0 < s.order ∧ s.order ≤ 10 ^ 10)
    (hdim : ∀ s ∈ bases, 1 ≤ s.spatialDim ∧ s.spatialDim ≤ 3) (hne : bases ≠ []) :
    ∃ (A : NdArray ℝ) (x : Fin (nodeTuples (.tp bases)).length → List ℝ) (b : Basis ℝ)
      (M : Matrix (Fin (nodeTuples (.tp bases)).length) (Fin (nodeTuples (.tp bases)).length) ℝ)
      (D : Fin (Space.tp bases).spatialDim →
        Matrix (Fin (nodeTuples (.tp bases)).length) (Fin (nodeTuples (.tp bases)).length) ℝ),
      equispacedNodes (.tp bases) (.tp (bases.map PNSpace.spatialDim)) = .ok A ∧
      (∀ i, x i = column A (Space.tp bases).spatialDim i) ∧
      orthonormalBasisForSpace (.tp bases) (.tp (bases.map PNSpace.spatialDim)) = .ok b ∧
      massMatrixOfBasis b x = .ok M ∧ diffMatricesOf (Space.tp bases).spatialDim b x x = .ok D ∧
      ∀ c,
        (∀ e, ∑ i, ∑ j, spacePoly (.tp bases) c (x i) * M i j * spacePoly (.tp bases) e (x j) =
          spaceIntegral (.tp bases) (fun x => spacePoly (.tp bases) c x * spacePoly (.tp bases) e x)) ∧
        ∀ i, IsGradientAt (Space.tp bases).spatialDim (spacePoly (.tp bases) c) (x i)
          (List.ofFn fun k => ∑ j, D k i j * spacePoly (.tp bases) c (x j)) := by
  have hpos : 0 < (bases.map PNSpace.spatialDim).sum := by
    obtain ⟨s, l, rfl⟩ := List.exists_cons_of_ne_nil hne
    have := (hdim s (by simp)).1
    simp only [List.map_cons, List.sum_cons]
    omega
  obtain ⟨A, hA, hreg, hu⟩ := equispaced_regular bases hord hpos
  have hb : ∃ b : Basis ℝ, orthonormalBasisForSpace (.tp bases) (.tp (bases.map PNSpace.spatialDim)) = .ok b := by
    simp only [orthonormalBasisForSpace, basisForSpaceWith]
    rw [if_neg (by simp [Space.spatialDim, Space.flatBases, Shape.dim]), if_neg (by simp [Space.flatBases, Shape.flatBases])]
    exact ⟨_, rfl⟩
  obtain ⟨b, hb⟩ := hb
  obtain ⟨M, hM, hm⟩ := C75_mass (.tp bases) _ b hb hdim _ hreg hu
  obtain ⟨D, hD, hd⟩ := C76_orthonormal (.tp bases) _ b hb hdim hpos.ne' _ _ hreg hreg hu
  exact ⟨A, _, b, M, D, hA, fun _ => rfl, hb, hM, hD, fun c => ⟨fun e => hm c e, fun i => hd c i⟩⟩

/-- Non-vacuity: a cubic triangle times a quadratic interval, with 30 nodes. -/
example : (nodeTuples (.tp [⟨2, 3⟩, ⟨1, 2⟩])).length = 30 := by decide

example := C75_equispaced [⟨2, 3⟩, ⟨1, 2⟩] (by simp) (by simp) (by simp)

/-- The interval `[-1, 1]` with linear functions: the integral of `x²`. -/
example : spaceIntegral (.pn ⟨1, 1⟩) (fun x => x.getD 0 0 * x.getD 0 0) = 2 / 3 := by
  simp only [spaceIntegral, Space.flatBases, List.map_cons, List.map_nil, productIntegral_single, Spec.simplexIntegral]
  have := integral_simplexSet_one fun t => t * t
  simp only [List.ofFn_succ, List.getD_cons_zero]
  rw [this]
  have e : ∀ t : ℝ, t * t = t ^ 2 := fun t => by ring
  simp only [e, integral_pow]
  norm_num

end Modepy

import Verif.Props.Basis
import Verif.Props.Pkdo

/-!
# C15, C16 for the orthonormal basis on hypercubes
-/

namespace Modepy
open Spec MeasureTheory

/-- Integration over `[-1, 1]`, as a functional of functions of one coordinate. -/
noncomputable def segmentIntegral (F : List ℝ → ℝ) : ℝ := ∫ r in (-1 : ℝ)..1, F [r]

/-- **C16 (hypercubes, no hypotheses left).**  For any list of orders, the orthonormal basis of the
tensor product of the one-dimensional spaces of these orders consists of total functions on points with
`orders.length` coordinates, as many as the dimension of the space, and they are orthonormal for the
iterated integral over `[-1,1]^d`. -/
theorem C16_hypercube (orders : List Nat) :
    let bases := orders.map fun n => (⟨1, n⟩ : PNSpace)
    let b : Basis ℝ := tensorProductBasis (bases.map orthonormalBasisPN) (bases.map PNSpace.spatialDim)
    ∃ (fs : List (List ℝ → Py ℝ)) (ψ : Nat → List ℝ → ℝ),
      b.functions = .ok fs ∧ fs.length = (orders.map (· + 1)).prod ∧
      (∀ (k : Nat) (f : List ℝ → Py ℝ), fs[k]? = some f → ∀ x : List ℝ, x.length = orders.length →
        f x = .ok (ψ k x)) ∧
      ∀ k < fs.length, ∀ l < fs.length,
        iterated (orders.map fun _ => segmentIntegral) (fun x => ψ k x * ψ l x) =
          if k = l then 1 else 0 := by
  intro bases b
  let fss : List (List (List ℝ → Py ℝ)) := bases.map fun s => (nodeTuplesPN s).map pkdo
  have hfs : (bases.map (orthonormalBasisPN (R := ℝ))).map (·.functions) = fss.map .ok := by
    simp only [fss, bases, List.map_map]
    apply List.map_congr_left
    intro n _
    rfl
  have hdims : (bases.map PNSpace.spatialDim).length = (bases.map (orthonormalBasisPN (R := ℝ))).length := by
    simp
  have hnt : ∀ n : Nat, nodeTuplesPN ⟨1, n⟩ = (List.range (n + 1)).map fun i => [i] := by
    intro n
    simp [nodeTuplesPN, Pytools.gnitsam, List.flatMap_singleton, List.map_eq_flatMap]
  have hget : ∀ i (hi : i < orders.length), fss.getD i [] =
      (List.range (orders[i] + 1)).map fun j => pkdo [j] := by
    intro i hi
    simp only [fss, bases, List.map_map, List.getD_eq_getElem?_getD]
    rw [List.getElem?_eq_getElem (by simpa using hi)]
    simp only [List.getElem_map, Function.comp, hnt, List.map_map, Option.getD_some]
    rfl
  have hI : List.Forall₂ IsFunctional (bases.map PNSpace.spatialDim)
      (orders.map fun _ => segmentIntegral) := by
    simp only [bases, List.map_map]
    rw [List.forall₂_map_left_iff, List.forall₂_map_right_iff, List.forall₂_same]
    intro n _
    refine ⟨?_, ?_⟩
    · intro F G h
      simp only [segmentIntegral]
      congr 1; funext r
      exact h [r] rfl
    · intro c F
      simp only [segmentIntegral]
      rw [intervalIntegral.integral_mul_const]
  obtain ⟨fs, ψ, h1, h2, h3, h4⟩ := C16_orthonormal _ (bases.map PNSpace.spatialDim) fss
    (orders.map fun _ => segmentIntegral) (fun _ j x => jacobi 0 0 j (x.getD 0 0)) hfs hdims hI
    (by
      intro i hi j f hf x hx
      have hi' : i < orders.length := by simpa [bases] using hi
      rw [hget i hi'] at hf
      have hx1 : x.length = 1 := by
        rw [hx]
        simp [bases, List.getD_eq_getElem?_getD, hi']
      obtain ⟨r, rfl⟩ := List.length_eq_one_iff.1 hx1
      by_cases hj : j < orders[i] + 1
      · rw [List.getElem?_eq_getElem (by simpa using hj)] at hf
        simp only [List.getElem_map, List.getElem_range, Option.some.injEq] at hf
        subst hf
        rfl
      · rw [List.getElem?_eq_none (by simpa using hj)] at hf
        exact absurd hf (by simp))
    (by
      intro i hi j hj l hl
      have hi' : i < orders.length := by simpa [bases] using hi
      have : (orders.map fun _ => segmentIntegral).getD i (fun _ => 0) = segmentIntegral := by
        simp [List.getD_eq_getElem?_getD, hi']
      rw [this, segmentIntegral]
      have := jacobi_orthonormal_pow 0 j l
      simpa using this)
  refine ⟨fs, ψ, h1, ?_, ?_, h4⟩
  · rw [h2]
    congr 1
    simp only [fss, bases, List.map_map]
    apply List.map_congr_left
    intro n _
    simp [hnt]
  · intro k f hf x hx
    refine h3 k f hf x ?_
    rw [hx]
    simp only [bases, List.map_map]
    clear * -
    induction orders with
    | nil => rfl
    | cons n ns ih => simp only [List.map_cons, List.sum_cons, List.length_cons, ih]; simp [Function.comp]; omega

example : (List.map (· + 1) [3, 1, 2]).prod = 24 := rfl

/-- **C41 (which bases are accepted).**  The basis returned by `orthonormal_basis_for_space`, for every
space and shape it supports, reports orthonormality weight one, so `mass_matrix` and
`inverse_mass_matrix` do not refuse it. -/
theorem C41_orthonormal_accepted (space : Space) (shape : Shape) (b : Basis ℝ)
    (h : orthonormalBasisForSpace space shape = .ok b) : b.orthonormalityWeight = .ok 1 := by
  have tp : ∀ l : List PNSpace, (tensorProductBasis (l.map (orthonormalBasisPN (R := ℝ)))
      (l.map PNSpace.spatialDim)).orthonormalityWeight = .ok 1 := by
    intro l
    have hc : collect ((l.map (orthonormalBasisPN (R := ℝ))).map (·.orthonormalityWeight)) =
        .ok (l.map fun _ => (1 : ℝ)) := by
      rw [List.map_map]
      exact collect_map_of_ok l _ _ fun _ _ => rfl
    have : (tensorProductBasis (l.map (orthonormalBasisPN (R := ℝ)))
        (l.map PNSpace.spatialDim)).orthonormalityWeight =
        (collect ((l.map (orthonormalBasisPN (R := ℝ))).map (·.orthonormalityWeight))).map List.prod := by
      rw [tensorProductBasis, hc]; rfl
    rw [this, hc]
    simp [Except.map]
  unfold orthonormalBasisForSpace basisForSpaceWith at h
  split at h
  · cases h; rfl
  · cases h
  · cases h
  · split at h
    · cases h
    · split at h
      · cases h
      · cases h; exact tp _

/-- The weight of a product is one if that of all factors is, and the first exception of the factors otherwise. -/
theorem weight_product (forPN : PNSpace → Basis ℝ) (l : List PNSpace) (p : PNSpace → Bool)
    (h : ∀ s ∈ l, (forPN s).orthonormalityWeight = if p s then .ok 1 else .error .BasisNotOrthonormal) :
    (tensorProductBasis (l.map forPN) (l.map PNSpace.spatialDim)).orthonormalityWeight =
      if l.all p then .ok 1 else .error .BasisNotOrthonormal := by
  have e : (tensorProductBasis (l.map forPN) (l.map PNSpace.spatialDim)).orthonormalityWeight =
      (collect ((l.map forPN).map (·.orthonormalityWeight))).map List.prod := by
    simp only [tensorProductBasis]
    cases collect ((l.map forPN).map (·.orthonormalityWeight)) <;> rfl
  have hc : collect ((l.map forPN).map (·.orthonormalityWeight)) =
      if l.all p then .ok (l.map fun _ => (1 : ℝ)) else .error .BasisNotOrthonormal := by
    clear e
    induction l with
    | nil => rfl
    | cons s l ih =>
      have ih := ih fun s hs => h s (List.mem_cons_of_mem _ hs)
      simp only [List.map_cons, collect, h s (List.mem_cons_self ..)]
      cases hp : p s with
      | false => simp [collect, hp]
      | true =>
        simp only [if_true, collect, ih, List.all_cons, hp, Bool.true_and]
        split_ifs <;> rfl
  rw [e, hc]
  split_ifs <;> simp [Except.map]

theorem weight_with (forPN : PNSpace → Basis ℝ) (check : Bool) (p : PNSpace → Bool) (space : Space) (shape : Shape)
    (b : Basis ℝ) (hb : basisForSpaceWith forPN check space shape = .ok b)
    (h : ∀ s ∈ space.flatBases, (forPN s).orthonormalityWeight = if p s then .ok 1 else .error .BasisNotOrthonormal) :
    b.orthonormalityWeight = if space.flatBases.all p then .ok 1 else .error .BasisNotOrthonormal := by
  unfold basisForSpaceWith at hb
  split at hb
  · cases hb
    rw [h _ (by simp [Space.flatBases])]
    simp [Space.flatBases]
  · cases hb
  · cases hb
  · split at hb
    · cases hb
    · split at hb
      · cases hb
      · cases hb; exact weight_product forPN _ p h

/-- **C41 (monomials).**  Monomial bases are refused: asking for the weight raises `BasisNotOrthonormal` (the empty
product of spaces excepted). -/
theorem C41_monomial_refused (space : Space) (shape : Shape) (hne : space.flatBases ≠ []) (b : Basis ℝ)
    (h : monomialBasisForSpace space shape = .ok b) : b.orthonormalityWeight = .error .BasisNotOrthonormal := by
  rw [weight_with monomialBasisPN false (fun _ => false) space shape b h fun _ _ => rfl]
  obtain ⟨s, l, hl⟩ := List.exists_cons_of_ne_nil hne
  simp [hl]

/-- **C41 (`basis_for_space`).**  The weight of the basis chosen by `basis_for_space` is one exactly when all factors have
dimension at most three; otherwise asking for it raises `BasisNotOrthonormal`. -/
theorem C41_basis_for_space (space : Space) (shape : Shape) (b : Basis ℝ) (h : basisForSpace space shape = .ok b) :
    b.orthonormalityWeight = if ∀ s ∈ space.flatBases, s.spatialDim ≤ 3 then .ok 1 else .error .BasisNotOrthonormal := by
  rw [weight_with basisPN true (fun s => decide (s.spatialDim ≤ 3)) space shape b h fun s _ => ?_]
  · simp
  · by_cases hs : s.spatialDim ≤ 3
    · simp [basisPN, hs, simplexONB]
    · simp [basisPN, hs, simplexMonomial]

/-- **C41.**  Non-vacuity: a triangle times an interval. -/
example : ∃ b : Basis ℝ, orthonormalBasisForSpace (.tp [⟨2, 3⟩, ⟨1, 4⟩]) (.tp [2, 1]) = .ok b ∧
    b.orthonormalityWeight = .ok 1 :=
  ⟨_, rfl, C41_orthonormal_accepted (.tp [⟨2, 3⟩, ⟨1, 4⟩]) (.tp [2, 1]) _ rfl⟩

end Modepy

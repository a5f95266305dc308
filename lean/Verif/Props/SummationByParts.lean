import Verif.Proofs.SpacePoly

/-!
# Property C79: summation by parts

The mass matrix, the differentiation matrices, the face mass matrices and the restriction to the faces satisfy the discrete
divergence theorem.
-/

namespace Modepy
open Spec Matrix

/-! ## The bilinear form matrix of two bases -/

/-- Interpolating with Lagrange functions reproduces every combination. -/
theorem lagrange_reproduces {X K : Type*} [Field K] {n : Nat} (φ : Fin n → X → K) (x : Fin n → X) (h : Unisolvent φ x)
    (ℓ : Fin n → X → K) (hℓ : IsLagrangeBasis φ x ℓ) (a : Fin n → K) (y : X) :
    ∑ i, combine φ a (x i) * ℓ i y = combine φ a y := by
  simp only [lagrange_coeffs φ x h ℓ hℓ, ← vandermonde_mulVec]
  have hd := isUnit_det h
  have e : (vandermonde φ x *ᵥ a) ᵥ* (vandermonde φ x)ᵀ⁻¹ = a := by
    rw [← transpose_nonsing_inv, vecMul_transpose, mulVec_mulVec, nonsing_inv_mul _ hd, one_mulVec]
  have e2 : ∀ j, ∑ i, (vandermonde φ x *ᵥ a) i * (vandermonde φ x)ᵀ⁻¹ i j = a j := fun j => congrFun e j
  simp only [Finset.mul_sum]
  rw [Finset.sum_comm]
  simp only [combine, ← mul_assoc, ← Finset.sum_mul, e2]

theorem bilinearFormMatrixOf_eq {n n' q : Nat} (b b' : Basis ℝ) (fs fs' : List (List ℝ → Py ℝ)) (hfs : b.functions = .ok fs)
    (hfs' : b'.functions = .ok fs') (hl : fs.length = n) (hl' : fs'.length = n') (quadNodes : Fin q → List ℝ) (w : Fin q → ℝ)
    (xin : Fin n' → List ℝ) (xout : Fin n → List ℝ) (map : List ℝ → Py (List ℝ)) (y : Fin q → List ℝ)
    (hy : ∀ k, map (quadNodes k) = .ok (y k))
    (φ : Fin n → List ℝ → ℝ) (ψ : Fin n' → List ℝ → ℝ)
    (h1 : ∀ (k : Fin n) i, (fs.getD k fun _ => .error .IndexError) (y i) = .ok (φ k (y i)))
    (h2 : ∀ (k : Fin n') i, (fs'.getD k fun _ => .error .IndexError) (quadNodes i) = .ok (ψ k (quadNodes i)))
    (h3 : ∀ (k : Fin n') i, (fs'.getD k fun _ => .error .IndexError) (xin i) = .ok (ψ k (xin i)))
    (h4 : ∀ (k : Fin n) i, (fs.getD k fun _ => .error .IndexError) (xout i) = .ok (φ k (xout i))) :
    bilinearFormMatrixOf quadNodes w b b' xin xout map =
      nodalQuadratureBilinearFormMatrix quadNodes w φ ψ φ ψ xin xout (totalMap map) := by
  obtain ⟨v1, e1⟩ := callAll_of_getD fs hl y fun k i => ⟨_, h1 k i⟩
  obtain ⟨v2, e2⟩ := callAll_of_getD fs' hl' quadNodes fun k i => ⟨_, h2 k i⟩
  obtain ⟨v3, e3⟩ := callAll_of_getD fs' hl' xin fun k i => ⟨_, h3 k i⟩
  obtain ⟨v4, e4⟩ := callAll_of_getD fs hl xout fun k i => ⟨_, h4 k i⟩
  have hc : collect ((List.ofFn quadNodes).map map) = .ok (List.ofFn y) := by
    have : (List.ofFn quadNodes).map map = (List.ofFn y).map Except.ok := by
      rw [List.map_ofFn, List.map_ofFn]
      congr 1
      funext k
      exact hy k
    rw [this]
    exact collect_ok _
  subst hl hl'
  have ht : totalMap map ∘ quadNodes = y := by
    funext k
    simp [totalMap, hy]
  have a1 : vandermonde (totalFn fs) y = vandermonde φ y := vandermonde_congr _ _ _ fun k i => totalFn_of (h1 k i)
  have a2 : vandermonde (totalFn fs') quadNodes = vandermonde ψ quadNodes :=
    vandermonde_congr _ _ _ fun k i => totalFn_of (h2 k i)
  have a3 : vandermonde (totalFn fs') xin = vandermonde ψ xin := vandermonde_congr _ _ _ fun k i => totalFn_of (h3 k i)
  have a4 : vandermonde (totalFn fs) xout = vandermonde φ xout := vandermonde_congr _ _ _ fun k i => totalFn_of (h4 k i)
  have hm : nodalQuadratureBilinearFormMatrix quadNodes w (totalFn fs) (totalFn fs') (totalFn fs) (totalFn fs') xin xout (totalMap map) =
      nodalQuadratureBilinearFormMatrix quadNodes w φ ψ φ ψ xin xout (totalMap map) := by
    simp only [nodalQuadratureBilinearFormMatrix, dif_pos, ht]
    have i1 : xin ∘ Fin.cast rfl = xin := rfl
    have i2 : xout ∘ Fin.cast rfl = xout := rfl
    rw [i1, i2, a1, a2, a3, a4]
  simp only [bilinearFormMatrixOf, hfs, hfs', hc, e1, e2, e3, e4, dif_pos, hm]
  cases nodalQuadratureBilinearFormMatrix quadNodes w φ ψ φ ψ xin xout (totalMap map) with
  | error e => rfl
  | ok a => rfl

/-- **C79 (numbers of nodes).**  For any two bases of the library a number of output or input nodes other than the dimension
of the space raises `ValueError`, whatever the quadrature and the map are. -/
theorem C79_node_counts (space fspace : Space) (b b' : Basis ℝ) (hb : IsBasisOf b space) (hb' : IsBasisOf b' fspace)
    {q ni no : Nat} (quadNodes : Fin q → List ℝ) (w : Fin q → ℝ) (map : List ℝ → Py (List ℝ)) (xin : Fin ni → List ℝ)
    (xout : Fin no → List ℝ) (h : no ≠ (nodeTuples space).length ∨ ni ≠ (nodeTuples fspace).length) :
    bilinearFormMatrixOf quadNodes w b b' xin xout map = .error .ValueError := by
  obtain ⟨fs, C, hr⟩ := represents_isBasisOf hb
  obtain ⟨fs', C', hr'⟩ := represents_isBasisOf hb'
  simp only [bilinearFormMatrixOf, hr.functions, hr'.functions]
  by_cases h1 : fs.length = no
  · have h2 : fs'.length ≠ ni := fun h2 => by
      rw [hr.length] at h1
      rw [hr'.length] at h2
      rcases h with h | h <;> omega
    rw [dif_pos h1, dif_neg h2]
  · rw [dif_neg h1]

/-- One node too few for linear functions on the triangle. -/
example (b : Basis ℝ) (hb : orthonormalBasisForSpace (.pn ⟨2, 1⟩) (.simplex 2) = .ok b) :
    bilinearFormMatrixOf (fun _ : Fin 1 => [0, 0]) (fun _ => 2) b b (fun _ : Fin 3 => [0, 0]) (fun _ : Fin 2 => [0, 0])
      (fun x => .ok x) = .error .ValueError :=
  have h : IsBasisOf b (.pn ⟨2, 1⟩) := ⟨_, Or.inl ⟨hb, by simp [Space.flatBases]⟩⟩
  C79_node_counts _ _ b b h h _ _ _ _ _ (Or.inl (by decide))

/-- **C79 (bilinear forms).**  For any two bases of the library: `vᵀ A u` is the quadrature sum of the product of the
interpolating polynomials, the one of the test space evaluated at the mapped nodes. -/
theorem C79_bilinear_form (space fspace : Space) (b b' : Basis ℝ) (hb : IsBasisOf b space) (hb' : IsBasisOf b' fspace)
    {q : Nat} (quadNodes y : Fin q → List ℝ) (w : Fin q → ℝ) (map : List ℝ → Py (List ℝ)) (hy : ∀ k, map (quadNodes k) = .ok (y k))
    (xout : Fin (nodeTuples space).length → List ℝ) (xin : Fin (nodeTuples fspace).length → List ℝ)
    (r1 : ∀ i, RegularFor space (y i)) (r2 : ∀ i, RegularFor fspace (quadNodes i)) (r3 : ∀ i, RegularFor fspace (xin i))
    (r4 : ∀ i, RegularFor space (xout i)) (hu : UnisolventFor space xout) (hu' : UnisolventFor fspace xin) :
    ∃ A, bilinearFormMatrixOf quadNodes w b b' xin xout map = .ok A ∧ ∀ c e,
      ∑ i, ∑ j, spacePoly space c (xout i) * A i j * spacePoly fspace e (xin j) =
        ∑ k, w k * (spacePoly space c (y k) * spacePoly fspace e (quadNodes k)) := by
  obtain ⟨fs, C, hr⟩ := represents_isBasisOf hb
  obtain ⟨fs', C', hr'⟩ := represents_isBasisOf hb'
  rw [bilinearFormMatrixOf_eq b b' fs fs' hr.functions hr'.functions hr.length hr'.length quadNodes w xin xout map y hy
    (fun k => spacePoly space (C k)) (fun k => spacePoly fspace (C' k)) (fun k i => hr.value k _ (r1 i))
    (fun k i => hr'.value k _ (r2 i)) (fun k i => hr'.value k _ (r3 i)) (fun k i => hr.value k _ (r4 i))]
  have u1 := unisolvent_represents space xout hu C hr.det
  have u2 := unisolvent_represents fspace xin hu' C' hr'.det
  obtain ⟨ψ, hψ⟩ := lagrange_exists _ _ u1
  obtain ⟨ℓ, hℓ⟩ := lagrange_exists _ _ u2
  obtain ⟨A, hA, hv⟩ := C42_bilinear_form quadNodes w (fun k => spacePoly space (C k)) (fun k => spacePoly fspace (C' k)) xin xout
    (totalMap map) u2 u1 ψ hψ ℓ hℓ
  refine ⟨A, hA, fun c e => ?_⟩
  obtain ⟨a, ha⟩ := exists_combine space C hr.det c
  obtain ⟨a', ha'⟩ := exists_combine fspace C' hr'.det e
  have ht : ∀ k, totalMap map (quadNodes k) = y k := fun k => by simp [totalMap, hy]
  simp only [ha, ha', hv, ht]
  calc ∑ i, ∑ j, combine (fun k => spacePoly space (C k)) a (xout i) * (∑ k, ψ i (y k) * ℓ j (quadNodes k) * w k) *
        combine (fun k => spacePoly fspace (C' k)) a' (xin j)
      = ∑ k, w k * ((∑ i, combine (fun k => spacePoly space (C k)) a (xout i) * ψ i (y k)) *
          ∑ j, combine (fun k => spacePoly fspace (C' k)) a' (xin j) * ℓ j (quadNodes k)) := by
        simp only [Finset.sum_mul, Finset.mul_sum]
        rw [Finset.sum_congr rfl fun i _ => Finset.sum_comm, Finset.sum_comm]
        refine Finset.sum_congr rfl fun k _ => ?_
        rw [Finset.sum_comm]
        refine Finset.sum_congr rfl fun i _ => Finset.sum_congr rfl fun j _ => ?_
        ring
    _ = _ := by simp only [lagrange_reproduces _ _ u1 ψ hψ, lagrange_reproduces _ _ u2 ℓ hℓ]

/-! ## Restriction to a face -/

/-- The face map has values in the volume; restricting a polynomial of the volume space to the face gives a polynomial of
the face space. -/
def TraceIn (shape : Shape) (f : Face) : Prop :=
  (∀ p : List ℝ, p.length = f.shape.dim → (okOr [] (f.mapToVolume p)).length = shape.dim) ∧
  ∀ (N : Nat) (space fspace : Space), Conforms space shape N → Conforms fspace f.shape N → ∀ c, ∃ e, ∀ p : List ℝ,
    p.length = f.shape.dim → spacePoly space c (okOr [] (f.mapToVolume p)) = spacePoly fspace e p

theorem trace_simplex {d e : Nat} {f : Face} {m : List ℝ → List ℝ} {n : List ℝ} (h : FaceIs f (.simplex e) m n)
    (L : Fin d → MvPolynomial (Fin e) ℝ) (hL : ∀ i, (L i).totalDegree ≤ 1) (hl : ∀ p, (m p).length = d)
    (hm : ∀ p (i : Fin d), (m p).getD i 0 = polyAt (L i) p) : TraceIn (.simplex d) f := by
  refine ⟨fun p hp => by rw [h.map p (by rw [hp, h.shape_eq])]; exact hl p, ?_⟩
  intro N space fspace hs hf c
  rw [h.shape_eq] at hf
  obtain ⟨P, hP, hv⟩ := spacePoly_polyAt space (d := d) (conforms_spatialDim hs) c
  obtain ⟨e', he⟩ := polyAt_spacePoly fspace (d := e) (conforms_spatialDim hf) (MvPolynomial.bind₁ L P)
    ((polyIn_simplex hf _).2 ((totalDegree_bind L hL P).trans ((polyIn_simplex hs P).1 hP)))
  refine ⟨e', fun p hp => ?_⟩
  rw [h.shape_eq] at hp
  rw [h.map p hp]
  show spacePoly space c (m p) = _
  rw [hv _ (hl p), ← he p hp, polyAt_bind L P p (m p) (hm p)]

theorem trace_cube {d e : Nat} {f : Face} {m : List ℝ → List ℝ} {n : List ℝ} (h : FaceIs f (.hypercube e) m n)
    (L : Fin d → MvPolynomial (Fin e) ℝ) (hL : ∀ j, ∑ i, MvPolynomial.degreeOf j (L i) ≤ 1) (hl : ∀ p, (m p).length = d)
    (hm : ∀ p (i : Fin d), (m p).getD i 0 = polyAt (L i) p) : TraceIn (.hypercube d) f := by
  refine ⟨fun p hp => by rw [h.map p (by rw [hp, h.shape_eq])]; exact (hl p).trans (by simp [Shape.dim]), ?_⟩
  intro N space fspace hs hf c
  rw [h.shape_eq] at hf
  obtain ⟨P, hP, hv⟩ := spacePoly_polyAt space (d := d) ((conforms_spatialDim hs).trans (by simp [Shape.dim])) c
  obtain ⟨e', he⟩ := polyAt_spacePoly fspace (d := e) ((conforms_spatialDim hf).trans (by simp [Shape.dim])) (MvPolynomial.bind₁ L P)
    ((polyIn_cube hf _).2 fun j => degreeOf_bind L j (hL j) P ((polyIn_cube hs P).1 hP))
  refine ⟨e', fun p hp => ?_⟩
  rw [h.shape_eq] at hp
  rw [h.map p hp]
  show spacePoly space c (m p) = _
  rw [hv _ (hl p), ← he p (hp.trans (by simp [Shape.dim])), polyAt_bind L P p (m p) (hm p)]

theorem trace_square {f : Face} {m : List ℝ → List ℝ} {n : List ℝ} (h : FaceIs f (.simplex 1) m n)
    (L : Fin 2 → MvPolynomial (Fin 1) ℝ) (hL : ∀ j, ∑ i, MvPolynomial.degreeOf j (L i) ≤ 1) (hl : ∀ p, (m p).length = 2)
    (hm : ∀ p (i : Fin 2), (m p).getD i 0 = polyAt (L i) p) : TraceIn (.hypercube 2) f := by
  refine ⟨fun p hp => by rw [h.map p (by rw [hp, h.shape_eq])]; exact hl p, ?_⟩
  intro N space fspace hs hf c
  rw [h.shape_eq] at hf
  obtain ⟨P, hP, hv⟩ := spacePoly_polyAt space (d := 2) (conforms_spatialDim hs) c
  have hdeg : ∀ Q : MvPolynomial (Fin 1) ℝ, Q.totalDegree ≤ MvPolynomial.degreeOf 0 Q := by
    intro Q
    refine Finset.sup_le fun m hm => ?_
    rw [Finsupp.sum_fintype _ _ (fun _ => rfl)]
    simpa using MvPolynomial.degreeOf_le_iff.1 le_rfl m hm
  obtain ⟨e', he⟩ := polyAt_spacePoly fspace (d := 1) (conforms_spatialDim hf) (MvPolynomial.bind₁ L P)
    ((polyIn_simplex hf _).2 ((hdeg _).trans (degreeOf_bind L 0 (hL 0) P ((polyIn_cube hs P).1 hP))))
  refine ⟨e', fun p hp => ?_⟩
  rw [h.shape_eq] at hp
  rw [h.map p hp]
  show spacePoly space c (m p) = _
  rw [hv _ (hl p), ← he p hp, polyAt_bind L P p (m p) (hm p)]

open MvPolynomial in
theorem trace_faces (shape : Shape) (h1 : shape ≠ .hypercube 1) (faces : List Face) (hf : facesForShape shape = .ok faces)
    (f : Face) (hm : f ∈ faces) : TraceIn shape f := by
  have dX : ∀ {e : Nat} (j : Fin e), (X j : MvPolynomial (Fin e) ℝ).totalDegree ≤ 1 := fun j => (totalDegree_X j).le
  have dN : ∀ {e : Nat} (j : Fin e), (-X j : MvPolynomial (Fin e) ℝ).totalDegree ≤ 1 := fun j => by
    rw [totalDegree_neg]; exact dX j
  have dC : ∀ {e : Nat} (a : ℝ), (C a : MvPolynomial (Fin e) ℝ).totalDegree ≤ 1 := fun a => by
    rw [totalDegree_C]; omega
  cases shape with
  | simplex d =>
    by_cases hd : d < 1 ∨ 3 < d
    · rw [C08_simplex_other d hd] at hf
      exact absurd hf (by simp)
    obtain rfl | rfl | rfl : d = 1 ∨ d = 2 ∨ d = 3 := by omega
    · obtain ⟨f0, f1, h1, h0', h1'⟩ := faces_simplex_one
      rw [h1] at hf
      obtain rfl := Except.ok.inj hf
      simp only [List.mem_cons, List.not_mem_nil, or_false] at hm
      obtain rfl | rfl := hm
      · exact trace_simplex h0' ![C (-1)] (by intro i; fin_cases i; exact dC _) (fun _ => rfl)
          (by intro p i; fin_cases i <;> simp [polyAt])
      · exact trace_simplex h1' ![C 1] (by intro i; fin_cases i; exact dC _) (fun _ => rfl)
          (by intro p i; fin_cases i <;> simp [polyAt])
    · obtain ⟨f0, f1, f2, h1, h0', h1', h2'⟩ := faces_simplex_two
      rw [h1] at hf
      obtain rfl := Except.ok.inj hf
      simp only [List.mem_cons, List.not_mem_nil, or_false] at hm
      obtain rfl | rfl | rfl := hm
      · exact trace_simplex h0' ![X 0, C (-1)] (by intro i; fin_cases i; exacts [dX _, dC _]) (fun _ => rfl)
          (by intro p i; fin_cases i <;> simp [polyAt])
      · exact trace_simplex h1' ![C (-1), -X 0] (by intro i; fin_cases i; exacts [dC _, dN _]) (fun _ => rfl)
          (by intro p i; fin_cases i <;> simp [polyAt])
      · exact trace_simplex h2' ![-X 0, X 0] (by intro i; fin_cases i; exacts [dN _, dX _]) (fun _ => rfl)
          (by intro p i; fin_cases i <;> simp [polyAt])
    · obtain ⟨f0, f1, f2, f3, h1, h0', h1', h2', h3'⟩ := faces_simplex_three
      rw [h1] at hf
      obtain rfl := Except.ok.inj hf
      simp only [List.mem_cons, List.not_mem_nil, or_false] at hm
      obtain rfl | rfl | rfl | rfl := hm
      · exact trace_simplex h0' ![X 1, X 0, C (-1)] (by intro i; fin_cases i; exacts [dX _, dX _, dC _]) (fun _ => rfl)
          (by intro p i; fin_cases i <;> simp [polyAt])
      · exact trace_simplex h1' ![X 0, C (-1), X 1] (by intro i; fin_cases i; exacts [dX _, dC _, dX _]) (fun _ => rfl)
          (by intro p i; fin_cases i <;> simp [polyAt])
      · exact trace_simplex h2' ![C (-1), X 1, X 0] (by intro i; fin_cases i; exacts [dC _, dX _, dX _]) (fun _ => rfl)
          (by intro p i; fin_cases i <;> simp [polyAt])
      · have dd : (C (-1) - X 0 - X 1 : MvPolynomial (Fin 2) ℝ).totalDegree ≤ 1 :=
          (totalDegree_sub _ _).trans (max_le ((totalDegree_sub _ _).trans (max_le (dC _) (dX _))) (dX _))
        exact trace_simplex h3' ![C (-1) - X 0 - X 1, X 0, X 1] (by intro i; fin_cases i; exacts [dd, dX _, dX _]) (fun _ => rfl)
          (by intro p i; fin_cases i <;> simp [polyAt])
  | hypercube d =>
    have gN : ∀ {e : Nat} (i j : Fin e), degreeOf j (-X i : MvPolynomial (Fin e) ℝ) = degreeOf j (X i : MvPolynomial (Fin e) ℝ) :=
      fun i j => degreeOf_neg _ _
    match d, hf with
    | 0, hf => exact absurd hf (by simp [facesForShape, facesForHypercube, hypercubeFaces])
    | 1, _ => exact absurd rfl h1
    | 2, hf =>
      obtain ⟨f0, f1, f2, f3, h1, h0', h1', h2', h3'⟩ := faces_cube_two
      rw [h1] at hf
      obtain rfl := Except.ok.inj hf
      simp only [List.mem_cons, List.not_mem_nil, or_false] at hm
      obtain rfl | rfl | rfl | rfl := hm
      · exact trace_square h0' ![X 0, C (-1)] (by intro j; fin_cases j; simp [Fin.sum_univ_two, gN, degreeOf_X, degreeOf_C]) (fun _ => rfl)
          (by intro p i; fin_cases i <;> simp [polyAt])
      · exact trace_square h1' ![-X 0, C 1] (by intro j; fin_cases j; simp [Fin.sum_univ_two, gN, degreeOf_X, degreeOf_C]) (fun _ => rfl)
          (by intro p i; fin_cases i <;> simp [polyAt])
      · exact trace_square h2' ![C (-1), -X 0] (by intro j; fin_cases j; simp [Fin.sum_univ_two, gN, degreeOf_X, degreeOf_C]) (fun _ => rfl)
          (by intro p i; fin_cases i <;> simp [polyAt])
      · exact trace_square h3' ![C 1, X 0] (by intro j; fin_cases j; simp [Fin.sum_univ_two, gN, degreeOf_X, degreeOf_C]) (fun _ => rfl)
          (by intro p i; fin_cases i <;> simp [polyAt])
    | 3, hf =>
      obtain ⟨f0, f1, f2, f3, f4, f5, h1, h0', h1', h2', h3', h4', h5'⟩ := faces_cube_three
      rw [h1] at hf
      obtain rfl := Except.ok.inj hf
      simp only [List.mem_cons, List.not_mem_nil, or_false] at hm
      obtain rfl | rfl | rfl | rfl | rfl | rfl := hm
      · exact trace_cube h0' ![X 1, X 0, C (-1)] (by intro j; fin_cases j <;> simp [Fin.sum_univ_three, degreeOf_X, degreeOf_C]) (fun _ => rfl)
          (by intro p i; fin_cases i <;> simp [polyAt])
      · exact trace_cube h1' ![X 0, X 1, C 1] (by intro j; fin_cases j <;> simp [Fin.sum_univ_three, degreeOf_X, degreeOf_C]) (fun _ => rfl)
          (by intro p i; fin_cases i <;> simp [polyAt])
      · exact trace_cube h2' ![C (-1), X 1, X 0] (by intro j; fin_cases j <;> simp [Fin.sum_univ_three, degreeOf_X, degreeOf_C]) (fun _ => rfl)
          (by intro p i; fin_cases i <;> simp [polyAt])
      · exact trace_cube h3' ![C 1, X 0, X 1] (by intro j; fin_cases j <;> simp [Fin.sum_univ_three, degreeOf_X, degreeOf_C]) (fun _ => rfl)
          (by intro p i; fin_cases i <;> simp [polyAt])
      · exact trace_cube h4' ![X 0, C (-1), X 1] (by intro j; fin_cases j <;> simp [Fin.sum_univ_three, degreeOf_X, degreeOf_C]) (fun _ => rfl)
          (by intro p i; fin_cases i <;> simp [polyAt])
      · exact trace_cube h5' ![X 1, C 1, X 0] (by intro j; fin_cases j <;> simp [Fin.sum_univ_three, degreeOf_X, degreeOf_C]) (fun _ => rfl)
          (by intro p i; fin_cases i <;> simp [polyAt])
    | d + 4, hf => exact absurd hf (by simp [facesForShape, facesForHypercube, hypercubeFaces])
  | tp dims => cases hf

/-! ## Summation by parts -/

/-- What the user supplies for one face: a space of order `N` on the face with a basis, unisolvent nodes, and a quadrature
that integrates products of polynomials of the face space exactly.  The points evaluated avoid the tolerance strips. -/
structure Spec.FaceOperators (space : Space) (f : Face) (N : Nat) where
  fspace : Space
  conforms : Conforms fspace f.shape N
  basis : Basis ℝ
  isBasis : IsBasisOf basis fspace
  nodes : Fin (nodeTuples fspace).length → List ℝ
  regular : ∀ i, RegularFor fspace (nodes i)
  unisolvent : UnisolventFor fspace nodes
  nquad : Nat
  quadNodes : Fin nquad → List ℝ
  quadWeights : Fin nquad → ℝ
  quadRegular : ∀ i, RegularFor fspace (quadNodes i)
  exact : ∀ c e, ∑ k, quadWeights k * (spacePoly fspace c (quadNodes k) * spacePoly fspace e (quadNodes k)) =
    Spec.shapeIntegral f.shape fun p => spacePoly fspace c p * spacePoly fspace e p
  mappedRegular : ∀ i y, f.mapToVolume (nodes i) = .ok y → RegularFor space y
  mappedQuadRegular : ∀ i y, f.mapToVolume (quadNodes i) = .ok y → RegularFor space y

/-- The images of the face nodes in the volume. -/
noncomputable def Spec.FaceOperators.volumeNodes {space : Space} {f : Face} {N : Nat} (S : FaceOperators space f N)
    (i : Fin (nodeTuples S.fspace).length) : List ℝ := okOr [] (f.mapToVolume (S.nodes i))

/-- **C79 (one face).**  The face mass matrix (`nodal_quadrature_bilinear_form_matrix` with `test_function_node_map =
face.map_to_volume`) after `resampling_matrix` to the face nodes is the exact integral over the face of the product of the
traces. -/
theorem C79_face (shape : Shape) (h1 : shape ≠ .hypercube 1) (faces : List Face) (hf : facesForShape shape = .ok faces)
    (f : Face) (hm : f ∈ faces) (N : Nat) (space : Space) (hs : Conforms space shape N) (b : Basis ℝ) (hb : IsBasisOf b space)
    (nodes : Fin (nodeTuples space).length → List ℝ) (hreg : ∀ i, RegularFor space (nodes i)) (hu : UnisolventFor space nodes)
    (S : FaceOperators space f N) (ls : Bool)
    (pinv : (n : Nat) → Matrix (Fin (nodeTuples space).length) (Fin n) ℝ → Matrix (Fin n) (Fin (nodeTuples space).length) ℝ) :
    ∃ A R, bilinearFormMatrixOf S.quadNodes S.quadWeights b S.basis S.nodes nodes f.mapToVolume = .ok A ∧
      resamplingMatrixOf b S.volumeNodes nodes ls pinv = .ok R ∧ ∀ c e,
      ∑ i, ∑ j, spacePoly space c (nodes i) * (A * R) i j * spacePoly space e (nodes j) =
        Spec.shapeIntegral f.shape fun p =>
          spacePoly space c (okOr [] (f.mapToVolume p)) * spacePoly space e (okOr [] (f.mapToVolume p)) := by
  have hdim := conforms_spatialDim S.conforms
  have hmap : ∀ p : List ℝ, p.length = f.shape.dim → f.mapToVolume p = .ok (okOr [] (f.mapToVolume p)) := by
    intro p hp
    obtain ⟨y, hy⟩ := (faces_ok shape h1 faces hf f hm).2 p hp
    rw [hy]
    rfl
  have hn : ∀ i, f.mapToVolume (S.nodes i) = .ok (S.volumeNodes i) := fun i => hmap _ ((S.regular i).1.trans hdim)
  have hq : ∀ i, f.mapToVolume (S.quadNodes i) = .ok (okOr [] (f.mapToVolume (S.quadNodes i))) :=
    fun i => hmap _ ((S.quadRegular i).1.trans hdim)
  obtain ⟨A, hA, ha⟩ := C79_bilinear_form space S.fspace b S.basis hb S.isBasis S.quadNodes _ S.quadWeights f.mapToVolume hq nodes
    S.nodes (fun i => S.mappedQuadRegular i _ (hq i)) S.quadRegular S.regular hreg hu S.unisolvent
  obtain ⟨R, hR, hr⟩ := C77_resampling space b hb S.volumeNodes nodes (fun i => S.mappedRegular i _ (hn i)) hreg hu ls pinv
  refine ⟨A, R, hA, hR, fun c e => ?_⟩
  obtain ⟨c', hc⟩ := (trace_faces shape h1 faces hf f hm).2 N space S.fspace hs S.conforms c
  obtain ⟨e', he⟩ := (trace_faces shape h1 faces hf f hm).2 N space S.fspace hs S.conforms e
  have e1 : Spec.shapeIntegral f.shape (fun p => spacePoly space c (okOr [] (f.mapToVolume p)) *
      spacePoly space e (okOr [] (f.mapToVolume p))) = Spec.shapeIntegral f.shape fun p => spacePoly S.fspace c' p * spacePoly S.fspace e' p :=
    shapeIntegral_congr _ _ _ fun p hp => by rw [hc p hp, he p hp]
  rw [e1, ← S.exact]
  have e2 : ∀ k, spacePoly space c (okOr [] (f.mapToVolume (S.quadNodes k))) = spacePoly S.fspace c' (S.quadNodes k) :=
    fun k => hc _ ((S.quadRegular k).1.trans hdim)
  have e3 := ha c e'
  simp only [e2] at e3
  rw [← e3]
  refine Finset.sum_congr rfl fun i _ => ?_
  have e4 : ∀ l, spacePoly S.fspace e' (S.nodes l) = ∑ j, R l j * spacePoly space e (nodes j) := by
    intro l
    rw [hr, ← he _ ((S.regular l).1.trans hdim)]
    rfl
  simp only [e4, Matrix.mul_apply, Finset.sum_mul, Finset.mul_sum]
  rw [Finset.sum_comm]
  refine Finset.sum_congr rfl fun l _ => Finset.sum_congr rfl fun j _ => ?_
  ring

theorem form_unique (space : Space) (nodes : Fin (nodeTuples space).length → List ℝ) (hu : UnisolventFor space nodes)
    (X Y : Matrix (Fin (nodeTuples space).length) (Fin (nodeTuples space).length) ℝ)
    (h : ∀ c e, ∑ i, ∑ j, spacePoly space c (nodes i) * X i j * spacePoly space e (nodes j) =
      ∑ i, ∑ j, spacePoly space c (nodes i) * Y i j * spacePoly space e (nodes j)) : X = Y := by
  refine matrix_unique space nodes hu X Y fun e i => ?_
  have := matrix_unique space nodes hu (p := 1) (fun _ i => ∑ j, X i j * spacePoly space e (nodes j))
    (fun _ i => ∑ j, Y i j * spacePoly space e (nodes j)) fun c _ => by
      have := h c e
      simp only [mul_assoc, ← Finset.mul_sum] at this
      simp only [mul_comm _ (spacePoly space c _)]
      exact this
  exact congrFun (congrFun this 0) i

theorem shapeIntegral_polyAt_add {space : Space} {shape : Shape} {N d : Nat} (h : Conforms space shape N) (hd : shape.dim = d)
    (P Q : MvPolynomial (Fin d) ℝ) :
    Spec.shapeIntegral shape (polyAt (P + Q)) = Spec.shapeIntegral shape (polyAt P) + Spec.shapeIntegral shape (polyAt Q) := by
  have hs : (space.flatBases.map PNSpace.spatialDim).sum = d := by
    rw [← hd, ← conforms_spatialDim h]
    cases space <;> simp [Space.spatialDim, Space.flatBases]
  rw [← spaceIntegral_polyAt h hd, ← spaceIntegral_polyAt h hd, ← spaceIntegral_polyAt h hd]
  simp only [spaceIntegral]
  have := productIntegral_sum (space.flatBases.map PNSpace.spatialDim) (Finset.univ : Finset (Fin 2)) (fun _ => 1)
    ![polyAt P, polyAt Q] (by intro i _; fin_cases i; exacts [continuousIn_polyAt _ hs P, continuousIn_polyAt _ hs Q])
  simp only [Fin.sum_univ_two, one_mul, Matrix.cons_val_zero, Matrix.cons_val_one] at this
  rw [← this]
  congr 1
  funext x
  simp [polyAt]

/-- Everything but the existence of the matrices. -/
theorem summation_by_parts_core (shape : Shape) (h1 : shape ≠ .hypercube 1) (faces : List Face)
    (hf : facesForShape shape = .ok faces) (N : Nat) (space : Space) (hs : Conforms space shape N)
    (nodes : Fin (nodeTuples space).length → List ℝ) (hreg : ∀ i, RegularFor space (nodes i)) (hu : UnisolventFor space nodes)
    (M : Matrix (Fin (nodeTuples space).length) (Fin (nodeTuples space).length) ℝ)
    (hM : ∀ c e, ∑ i, ∑ j, spacePoly space c (nodes i) * M i j * spacePoly space e (nodes j) =
        spaceIntegral space (fun x => spacePoly space c x * spacePoly space e x))
    (D : Fin space.spatialDim → Matrix (Fin (nodeTuples space).length) (Fin (nodeTuples space).length) ℝ)
    (hD : ∀ c i, IsGradientAt space.spatialDim (spacePoly space c) (nodes i)
        (List.ofFn fun k => ∑ j, D k i j * spacePoly space c (nodes j)))
    (B : Fin faces.length → Matrix (Fin (nodeTuples space).length) (Fin (nodeTuples space).length) ℝ)
    (hB : ∀ l c e, ∑ i, ∑ j, spacePoly space c (nodes i) * B l i j * spacePoly space e (nodes j) =
        Spec.shapeIntegral faces[l].shape fun p =>
          spacePoly space c (okOr [] (faces[l].mapToVolume p)) * spacePoly space e (okOr [] (faces[l].mapToVolume p)))
    (k : Fin space.spatialDim) :
    M * D k + (D k)ᵀ * M =
      ∑ l : Fin faces.length, ((okOr [] (faceNormal faces[l] false)).getD k 0 / 2 ^ faces[l].shape.dim) • B l := by
  have hd : shape.dim = space.spatialDim := (conforms_spatialDim hs).symm
  apply form_unique space nodes hu
  intro c e
  obtain ⟨P, hP, hv⟩ := spacePoly_polyAt space rfl c
  obtain ⟨Q, hQ, hw⟩ := spacePoly_polyAt space rfl e
  have grad : ∀ (c) (P : MvPolynomial (Fin space.spatialDim) ℝ),
      (∀ x : List ℝ, x.length = space.spatialDim → spacePoly space c x = polyAt P x) → ∀ i,
      ∑ j, D k i j * spacePoly space c (nodes j) = polyAt (MvPolynomial.pderiv k P) (nodes i) := by
    intro c P hv i
    have a := (hD c i).2 k k.2
    have b := isPartial_polyAt P k (nodes i) (hreg i).1
    have e : (fun t => spacePoly space c ((nodes i).set k t)) = fun t => polyAt P ((nodes i).set k t) := by
      funext t
      exact hv _ (by rw [List.length_set]; exact (hreg i).1)
    rw [e] at a
    have := a.unique b
    rw [← this]
    simp [List.getD_eq_getElem?_getD]
  obtain ⟨c', hc⟩ := polyAt_spacePoly space rfl _ (polyIn_pderiv hP k)
  obtain ⟨e', he⟩ := polyAt_spacePoly space rfl _ (polyIn_pderiv hQ k)
  have integ : ∀ (c e) (P Q : MvPolynomial (Fin space.spatialDim) ℝ),
      (∀ x : List ℝ, x.length = space.spatialDim → spacePoly space c x = polyAt P x) →
      (∀ x : List ℝ, x.length = space.spatialDim → spacePoly space e x = polyAt Q x) →
      spaceIntegral space (fun x => spacePoly space c x * spacePoly space e x) = Spec.shapeIntegral shape (polyAt (P * Q)) := by
    intro c e P Q h h'
    rw [← spaceIntegral_polyAt hs hd]
    apply productIntegral_congr
    intro x hx
    have hx' : x.length = space.spatialDim := by
      rw [hx]
      cases space <;> simp [Space.spatialDim, Space.flatBases]
    rw [h x hx', h' x hx']
    simp [polyAt]
  have lhs : ∑ i, ∑ j, spacePoly space c (nodes i) * (M * D k + (D k)ᵀ * M) i j * spacePoly space e (nodes j) =
      Spec.shapeIntegral shape (polyAt (MvPolynomial.pderiv k (P * Q))) := by
    have t1 := hM c e'
    have t2 := hM c' e
    rw [integ c e' P _ hv fun x hx => (he x hx).symm] at t1
    rw [integ c' e _ Q (fun x hx => (hc x hx).symm) hw] at t2
    have t : MvPolynomial.pderiv k (P * Q) = P * MvPolynomial.pderiv k Q + MvPolynomial.pderiv k P * Q := by
      rw [MvPolynomial.pderiv_mul, add_comm]
    rw [t, shapeIntegral_polyAt_add hs hd, ← t1, ← t2]
    simp only [← he _ (hreg _).1, ← hc _ (hreg _).1, ← grad c P hv, ← grad e Q hw]
    simp only [Matrix.add_apply, Matrix.mul_apply, Matrix.transpose_apply, mul_add, add_mul, Finset.sum_add_distrib]
    congr 1
    · refine Finset.sum_congr rfl fun i _ => ?_
      simp only [Finset.mul_sum, Finset.sum_mul]
      rw [Finset.sum_comm]
      refine Finset.sum_congr rfl fun j _ => Finset.sum_congr rfl fun l _ => ?_
      ring
    · simp only [Finset.mul_sum, Finset.sum_mul]
      rw [Finset.sum_congr rfl fun i _ => Finset.sum_comm, Finset.sum_comm]
      refine Finset.sum_congr rfl fun l _ => ?_
      rw [Finset.sum_comm]
      refine Finset.sum_congr rfl fun j _ => Finset.sum_congr rfl fun i _ => ?_
      ring
  have rhs := (C78_divergence shape h1 faces hf (polyAt (P * Q)) (polyAt (MvPolynomial.pderiv k (P * Q))) k (by rw [hd]; exact k.2)
    (by rw [hd]; exact continuousOf_polyAt _) (by rw [hd]; exact continuousOf_polyAt _) (by rw [hd]; exact isPartial_polyAt _ k)).2
  rw [lhs, rhs]
  have hsum : ∀ φ : Face → ℝ, (faces.map φ).sum = ∑ l : Fin faces.length, φ faces[l] := by
    intro φ
    rw [← List.sum_ofFn]
    congr 1
    apply List.ext_getElem <;> simp
  have hl : ∀ (f : Face), f ∈ faces → ∀ p : List ℝ, p.length = f.shape.dim →
      (okOr [] (f.mapToVolume p)).length = space.spatialDim :=
    fun f hm p hp => ((trace_faces shape h1 faces hf f hm).1 p hp).trans hd
  rw [hsum]
  simp only [Matrix.sum_apply, Matrix.smul_apply, smul_eq_mul, Finset.mul_sum, Finset.sum_mul]
  rw [Finset.sum_congr rfl fun i _ => Finset.sum_comm, Finset.sum_comm]
  refine Finset.sum_congr rfl fun l _ => ?_
  have e5 : Spec.shapeIntegral faces[l].shape (fun p => polyAt (P * Q) (okOr [] (faces[l].mapToVolume p))) =
      Spec.shapeIntegral faces[l].shape fun p =>
        spacePoly space c (okOr [] (faces[l].mapToVolume p)) * spacePoly space e (okOr [] (faces[l].mapToVolume p)) := by
    apply shapeIntegral_congr
    intro p hp
    have := hl faces[l] (List.getElem_mem _) p hp
    rw [hv _ this, hw _ this]
    simp [polyAt]
  rw [e5, ← hB l c e, Finset.mul_sum]
  refine Finset.sum_congr rfl fun i _ => ?_
  rw [Finset.mul_sum]
  refine Finset.sum_congr rfl fun j _ => ?_
  ring

/-- **C79.**  Summation by parts: on every shape with faces, for the orthonormal basis of a space of order `N`, unisolvent
volume nodes and, per face, unisolvent face nodes and a quadrature exact for products: `mass_matrix`, `diff_matrices`, the face
mass matrices and the restrictions `resampling_matrix(basis, map_to_volume(face nodes), nodes)` all succeed, and
`M D_k + D_kᵀ M` is the sum over the faces of `face_normal(face, normalize=False)[k] / 2**face.dim` times face mass matrix
times restriction. -/
theorem C79_summation_by_parts (shape : Shape) (h1 : shape ≠ .hypercube 1) (faces : List Face)
    (hf : facesForShape shape = .ok faces) (N : Nat) (space : Space) (hs : Conforms space shape N) (b : Basis ℝ)
    (hb : orthonormalBasisForSpace space shape = .ok b)
    (nodes : Fin (nodeTuples space).length → List ℝ) (hreg : ∀ i, RegularFor space (nodes i)) (hu : UnisolventFor space nodes)
    (S : (l : Fin faces.length) → FaceOperators space faces[l] N) (ls : Bool)
    (pinv : (n : Nat) → Matrix (Fin (nodeTuples space).length) (Fin n) ℝ → Matrix (Fin n) (Fin (nodeTuples space).length) ℝ) :
    ∃ (M : Matrix (Fin (nodeTuples space).length) (Fin (nodeTuples space).length) ℝ)
      (D : Fin space.spatialDim → Matrix (Fin (nodeTuples space).length) (Fin (nodeTuples space).length) ℝ)
      (A : (l : Fin faces.length) → Matrix (Fin (nodeTuples space).length) (Fin (nodeTuples (S l).fspace).length) ℝ)
      (R : (l : Fin faces.length) → Matrix (Fin (nodeTuples (S l).fspace).length) (Fin (nodeTuples space).length) ℝ),
      massMatrixOfBasis b nodes = .ok M ∧ diffMatricesOf space.spatialDim b nodes nodes = .ok D ∧
      (∀ l, bilinearFormMatrixOf (S l).quadNodes (S l).quadWeights b (S l).basis (S l).nodes nodes faces[l].mapToVolume = .ok (A l)) ∧
      (∀ l, resamplingMatrixOf b (S l).volumeNodes nodes ls pinv = .ok (R l)) ∧
      ∀ k, M * D k + (D k)ᵀ * M =
        ∑ l : Fin faces.length, ((okOr [] (faceNormal faces[l] false)).getD k 0 / 2 ^ faces[l].shape.dim) • (A l * R l) := by
  have hdim : ∀ s ∈ space.flatBases, 1 ≤ s.spatialDim ∧ s.spatialDim ≤ 3 := by
    intro s hs'
    rw [hs] at hs'
    obtain ⟨d, hd, rfl⟩ := List.mem_map.1 hs'
    cases shape with
    | simplex d' =>
      have : d = d' := by simpa [Shape.flatBases] using hd
      subst this
      by_contra hc
      rw [C08_simplex_other d (by dsimp only at hc; omega)] at hf
      exact absurd hf (by simp)
    | hypercube d' =>
      have : d = 1 := (List.mem_replicate.1 hd).2
      subst this
      simp
    | tp dims => cases hf
  have hb' : IsBasisOf b space := ⟨shape, Or.inl ⟨hb, fun s hs => (hdim s hs).2⟩⟩
  obtain ⟨M, hM, hm⟩ := C75_mass space shape b hb hdim nodes hreg hu
  have h0 : space.spatialDim ≠ 0 := by
    rw [conforms_spatialDim hs]
    cases shape with
    | simplex d' =>
      intro hc
      rw [C08_simplex_other d' (by simp only [Shape.dim] at hc; omega)] at hf
      exact absurd hf (by simp)
    | hypercube d' =>
      rintro hc
      obtain rfl : d' = 0 := by simpa [Shape.dim] using hc
      exact absurd hf (by simp [facesForShape, facesForHypercube, hypercubeFaces])
    | tp dims => cases hf
  obtain ⟨D, hD, hd⟩ := C76_orthonormal space shape b hb hdim h0 nodes nodes hreg hreg hu
  choose A R hA hR hB using fun l : Fin faces.length =>
    C79_face shape h1 faces hf faces[l] (List.getElem_mem _) N space hs b hb' nodes hreg hu (S l) ls pinv
  exact ⟨M, D, A, R, hM, hD, hA, hR, fun k =>
    summation_by_parts_core shape h1 faces hf N space hs nodes hreg hu M hm D hd (fun l => A l * R l) hB k⟩

/-- **C79 (exactness).**  A quadrature exact for a space of order `2 N` on the face (or `N + N'`) integrates the products
exactly, as asked above. -/
theorem C79_exact_of_order (shape : Shape) (hs : (∃ d, shape = .simplex d) ∨ ∃ d, shape = .hypercube d) (N N' : Nat)
    (fspace fspace' space2 : Space) (h : Conforms fspace shape N) (h' : Conforms fspace' shape N')
    (h2 : Conforms space2 shape (N + N')) {q : Nat}
    (quadNodes : Fin q → List ℝ) (w : Fin q → ℝ) (hq : ∀ k, (quadNodes k).length = shape.dim)
    (hex : ∀ c, ∑ k, w k * spacePoly space2 c (quadNodes k) = Spec.shapeIntegral shape (spacePoly space2 c)) (c e) :
    ∑ k, w k * (spacePoly fspace c (quadNodes k) * spacePoly fspace' e (quadNodes k)) =
      Spec.shapeIntegral shape fun p => spacePoly fspace c p * spacePoly fspace' e p := by
  obtain ⟨P, hP, hv⟩ := spacePoly_polyAt fspace (conforms_spatialDim h) c
  obtain ⟨Q, hQ, hw⟩ := spacePoly_polyAt fspace' (conforms_spatialDim h') e
  obtain ⟨c2, hc⟩ := polyAt_spacePoly space2 (conforms_spatialDim h2) (P * Q) (polyIn_mul hs h h' h2 rfl P Q hP hQ)
  have key : ∀ x : List ℝ, x.length = shape.dim → spacePoly fspace c x * spacePoly fspace' e x = spacePoly space2 c2 x := by
    intro x hx
    rw [← hc x hx, hv x hx, hw x hx]
    simp [polyAt]
  rw [shapeIntegral_congr shape _ _ key, ← hex]
  exact Finset.sum_congr rfl fun k _ => by rw [key _ (hq k)]

/-! ## A case: linear functions on the triangle -/

theorem spacePoly_segment (c : Fin (nodeTuples (.pn ⟨1, 1⟩)).length → ℝ) (t : ℝ) :
    spacePoly (.pn ⟨1, 1⟩) c [t] = c ⟨0, by decide⟩ + c ⟨1, by decide⟩ * t := by
  have : spacePoly (.pn ⟨1, 1⟩) c [t] =
      ∑ l : Fin 2, (show Fin 2 → ℝ from c) l * monomialValue ([[0], [1]] : List (List Nat))[l] [t] := by
    simp only [spacePoly, combine]
    rfl
  rw [this, Fin.sum_univ_two]
  simp [monomialValue]
  rfl

theorem spacePoly_triangle (c : Fin (nodeTuples (.pn ⟨2, 1⟩)).length → ℝ) (r s : ℝ) :
    spacePoly (.pn ⟨2, 1⟩) c [r, s] = c ⟨0, by decide⟩ + c ⟨1, by decide⟩ * r + c ⟨2, by decide⟩ * s := by
  have : spacePoly (.pn ⟨2, 1⟩) c [r, s] =
      ∑ l : Fin 3, (show Fin 3 → ℝ from c) l * monomialValue ([[0, 0], [1, 0], [0, 1]] : List (List Nat))[l] [r, s] := by
    simp only [spacePoly, combine]
    rfl
  rw [this, Fin.sum_univ_three]
  simp [monomialValue]
  rfl

/-- Simpson's rule on a face of the triangle, with the end points as nodes. -/
noncomputable def triangleFaceOperators (f : Face) (m : List ℝ → List ℝ) (n : List ℝ) (h : FaceIs f (.simplex 1) m n)
    (hm : ∀ t : ℝ, t = -1 ∨ t = 0 ∨ t = 1 → RegularFor (.pn ⟨2, 1⟩) (m [t])) : FaceOperators (.pn ⟨2, 1⟩) f 1 where
  fspace := .pn ⟨1, 1⟩
  conforms := by rw [h.shape_eq]; rfl
  basis := (orthonormalBasisForSpace (R := ℝ) (.pn ⟨1, 1⟩) (.simplex 1)).toOption.get rfl
  isBasis := ⟨.simplex 1, Or.inl ⟨rfl, by simp [Space.flatBases]⟩⟩
  nodes := fun i => [2 * (i : ℝ) - 1]
  regular := fun i => by simp [RegularFor, Space.spatialDim, Space.flatBases, slices, Regular]
  unisolvent := by
    intro a ha
    have h0 : spacePoly (.pn ⟨1, 1⟩) a [2 * ((0 : Nat) : ℝ) - 1] = 0 := by
      have := ha ⟨0, by decide⟩
      exact this
    have h1 : spacePoly (.pn ⟨1, 1⟩) a [2 * ((1 : Nat) : ℝ) - 1] = 0 := by
      have := ha ⟨1, by decide⟩
      exact this
    rw [spacePoly_segment] at h0 h1
    norm_num at h0 h1
    funext i
    obtain ⟨i, hi⟩ := i
    have hi' : i < 2 := hi
    interval_cases i
    · show a ⟨0, _⟩ = 0
      linarith
    · show a ⟨1, _⟩ = 0
      linarith
  nquad := 3
  quadNodes := ![[-1], [0], [1]]
  quadWeights := ![1 / 3, 4 / 3, 1 / 3]
  quadRegular := fun i => by fin_cases i <;> simp [RegularFor, Space.spatialDim, Space.flatBases, slices, Regular]
  exact := by
    intro c e
    rw [h.shape_eq]
    simp only [Spec.shapeIntegral, simplexIntegral_one, Fin.sum_univ_three, Matrix.cons_val_zero, Matrix.cons_val_one,
      Matrix.cons_val_two, Matrix.head_cons, Matrix.tail_cons, Matrix.cons_val, spacePoly_segment]
    generalize c ⟨0, _⟩ = c0
    generalize c ⟨1, _⟩ = c1
    generalize e ⟨0, _⟩ = e0
    generalize e ⟨1, _⟩ = e1
    have h : ∀ t : ℝ, HasDerivAt (fun t => c0 * e0 * t + (c0 * e1 + c1 * e0) / 2 * t ^ 2 + c1 * e1 / 3 * t ^ 3)
        ((c0 + c1 * t) * (e0 + e1 * t)) t := by
      intro t
      have := (((hasDerivAt_id t).const_mul (c0 * e0)).add ((hasDerivAt_pow 2 t).const_mul ((c0 * e1 + c1 * e0) / 2))).add
        ((hasDerivAt_pow 3 t).const_mul (c1 * e1 / 3))
      refine this.congr_deriv ?_
      push_cast
      ring
    rw [intervalIntegral.integral_eq_sub_of_hasDerivAt (fun t _ => h t) (by apply Continuous.intervalIntegrable; fun_prop)]
    ring
  mappedRegular := by
    intro i y hy
    rw [h.map _ rfl] at hy
    obtain rfl := Except.ok.inj hy
    apply hm
    obtain ⟨i, hi⟩ := i
    have hi' : i < 2 := hi
    interval_cases i <;> norm_num
  mappedQuadRegular := by
    intro i y hy
    fin_cases i <;>
    · simp only at hy
      rw [h.map _ rfl] at hy
      obtain rfl := Except.ok.inj hy
      apply hm
      simp

/-- Linear functions on the triangle with the vertices as nodes. -/
theorem sbp_triangle : ∃ (faces : List Face) (S : (l : Fin faces.length) → FaceOperators (.pn ⟨2, 1⟩) faces[l] 1) (b : Basis ℝ)
    (nodes : Fin (nodeTuples (.pn ⟨2, 1⟩)).length → List ℝ),
    facesForShape (.simplex 2) = .ok faces ∧ faces.length = 3 ∧ Conforms (.pn ⟨2, 1⟩) (.simplex 2) 1 ∧
    orthonormalBasisForSpace (.pn ⟨2, 1⟩) (.simplex 2) = .ok b ∧ (∀ i, RegularFor (.pn ⟨2, 1⟩) (nodes i)) ∧
    UnisolventFor (.pn ⟨2, 1⟩) nodes := by
  obtain ⟨f0, f1, f2, h1, h0', h1', h2'⟩ := faces_simplex_two
  have reg : ∀ r s : ℝ, s = -1 ∨ s = 0 ∨ (s = 1 ∧ r = -1) → RegularFor (.pn ⟨2, 1⟩) [r, s] := by
    intro r s h
    simp only [RegularFor, Space.spatialDim, Space.flatBases, slices, List.map_cons, List.map_nil]
    refine ⟨rfl, List.Forall₂.cons ?_ List.Forall₂.nil⟩
    simp only [List.take, Regular]
    rcases h with rfl | rfl | ⟨rfl, rfl⟩
    · left; norm_num
    · left; norm_num
    · right; simp
  refine ⟨[f0, f1, f2], fun l => ?_, _, ![[-1, -1], [1, -1], [-1, 1]], h1, rfl, rfl, rfl, ?_, ?_⟩
  · match l with
    | ⟨0, _⟩ => exact triangleFaceOperators f0 _ _ h0' fun t ht => reg _ _ (Or.inl rfl)
    | ⟨1, _⟩ => exact triangleFaceOperators f1 _ _ h1' fun t ht => reg _ _ (by rcases ht with rfl | rfl | rfl <;> simp)
    | ⟨2, _⟩ => exact triangleFaceOperators f2 _ _ h2' fun t ht => reg _ _ (by rcases ht with rfl | rfl | rfl <;> simp)
  · intro i
    obtain ⟨i, hi⟩ := i
    have hi' : i < 3 := hi
    interval_cases i
    exacts [reg _ _ (Or.inl rfl), reg _ _ (Or.inl rfl), reg _ _ (by simp)]
  · intro a ha
    have h0 : spacePoly (.pn ⟨2, 1⟩) a [-1, -1] = 0 := by
      have := ha ⟨0, by decide⟩
      exact this
    have h1 : spacePoly (.pn ⟨2, 1⟩) a [1, -1] = 0 := by
      have := ha ⟨1, by decide⟩
      exact this
    have h2 : spacePoly (.pn ⟨2, 1⟩) a [-1, 1] = 0 := by
      have := ha ⟨2, by decide⟩
      exact this
    rw [spacePoly_triangle] at h0 h1 h2
    funext i
    obtain ⟨i, hi⟩ := i
    have hi' : i < 3 := hi
    interval_cases i
    · show a ⟨0, _⟩ = 0
      linarith
    · show a ⟨1, _⟩ = 0
      linarith
    · show a ⟨2, _⟩ = 0
      linarith

end Modepy

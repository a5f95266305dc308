import Verif.Props.SummationByParts

/-!
# Property C86: the algebra of differentiation matrices

The matrices returned by `diff_matrices` on one node set commute, annihilate exactly the constants, are nilpotent, do not
depend on the basis, and commute with resampling to other nodes.
-/

namespace Modepy
open Spec Matrix

theorem diff_isBasisOf {b : Basis ℝ} {space : Space} (hb : IsBasisOf b space) (hd : ∀ s ∈ space.flatBases, 1 ≤ s.spatialDim)
    (h0 : space.spatialDim ≠ 0) {p : Nat} (nodes : Fin p → List ℝ) (fromNodes : Fin (nodeTuples space).length → List ℝ) (hn : ∀ i, RegularFor space (nodes i))
    (hf : ∀ i, RegularFor space (fromNodes i)) (hu : UnisolventFor space fromNodes) :
    ∃ D, diffMatricesOf space.spatialDim b nodes fromNodes = .ok D ∧ ∀ c i,
      IsGradientAt space.spatialDim (spacePoly space c) (nodes i)
        (List.ofFn fun k => ∑ j, D k i j * spacePoly space c (fromNodes j)) := by
  obtain ⟨shape, ⟨h, h3⟩ | h | h⟩ := hb
  · exact C76_orthonormal space shape b h (fun s hs => ⟨hd s hs, h3 s hs⟩) h0 nodes fromNodes hn hf hu
  · exact C76_basis space shape b h hd h0 nodes fromNodes hn hf hu
  · exact C76_monomial space shape b h h0 nodes fromNodes hn hf hu

theorem diff_polyAt (space : Space) {p : Nat} (nodes : Fin p → List ℝ) (fromNodes : Fin (nodeTuples space).length → List ℝ)
    (hn : ∀ i, RegularFor space (nodes i))
    (D : Fin space.spatialDim → Matrix (Fin p) (Fin (nodeTuples space).length) ℝ)
    (hD : ∀ c i, IsGradientAt space.spatialDim (spacePoly space c) (nodes i)
        (List.ofFn fun k => ∑ j, D k i j * spacePoly space c (fromNodes j)))
    (k : Fin space.spatialDim) (c : Fin (nodeTuples space).length → ℝ) (P : MvPolynomial (Fin space.spatialDim) ℝ)
    (hv : ∀ x : List ℝ, x.length = space.spatialDim → spacePoly space c x = polyAt P x) (i : Fin p) :
    ∑ j, D k i j * spacePoly space c (fromNodes j) = polyAt (MvPolynomial.pderiv k P) (nodes i) := by
  have a := (hD c i).2 k k.2
  have b := isPartial_polyAt P k (nodes i) (hn i).1
  have e : (fun t => spacePoly space c ((nodes i).set k t)) = fun t => polyAt P ((nodes i).set k t) := by
    funext t
    exact hv _ (by rw [List.length_set]; exact (hn i).1)
  rw [e] at a
  rw [← a.unique b]
  simp [List.getD_eq_getElem?_getD]

/-- The nodal values of a polynomial. -/
noncomputable def Spec.nodal {n d : Nat} (nodes : Fin n → List ℝ) (P : MvPolynomial (Fin d) ℝ) (i : Fin n) : ℝ := polyAt P (nodes i)

/-- The differentiation matrix maps nodal values to nodal values of the partial derivative. -/
theorem diff_nodal (space : Space) {p : Nat} (nodes : Fin p → List ℝ) (fromNodes : Fin (nodeTuples space).length → List ℝ)
    (hn : ∀ i, RegularFor space (nodes i)) (hf : ∀ i, RegularFor space (fromNodes i))
    (D : Fin space.spatialDim → Matrix (Fin p) (Fin (nodeTuples space).length) ℝ)
    (hD : ∀ c i, IsGradientAt space.spatialDim (spacePoly space c) (nodes i)
        (List.ofFn fun k => ∑ j, D k i j * spacePoly space c (fromNodes j)))
    (k : Fin space.spatialDim) (P : MvPolynomial (Fin space.spatialDim) ℝ) (hP : PolyIn space P) :
    D k *ᵥ nodal fromNodes P = nodal nodes (MvPolynomial.pderiv k P) := by
  obtain ⟨c, hc⟩ := polyAt_spacePoly space rfl P hP
  funext i
  rw [nodal, ← diff_polyAt space nodes fromNodes hn D hD k c P (fun x hx => (hc x hx).symm) i]
  simp only [mulVec, dotProduct, nodal]
  exact Finset.sum_congr rfl fun j _ => by rw [hc _ (hf j).1]

/-- Every vector holds the nodal values of a polynomial of the space. -/
theorem exists_nodal (space : Space) (nodes : Fin (nodeTuples space).length → List ℝ) (hn : ∀ i, RegularFor space (nodes i))
    (hu : UnisolventFor space nodes) (u : Fin (nodeTuples space).length → ℝ) :
    ∃ P : MvPolynomial (Fin space.spatialDim) ℝ, PolyIn space P ∧ nodal nodes P = u := by
  have hd := (unisolvent_iff_det _ _).1 hu
  obtain ⟨P, hP, hv⟩ := spacePoly_polyAt space rfl
    ((vandermonde (fun l : Fin (nodeTuples space).length => monomialValue (nodeTuples space)[l]) nodes)⁻¹ *ᵥ u)
  refine ⟨P, hP, ?_⟩
  funext i
  rw [nodal, ← hv _ (hn i).1, spacePoly, ← vandermonde_mulVec, mulVec_mulVec, mul_nonsing_inv _ (isUnit_iff_ne_zero.2 hd), one_mulVec]

/-- A polynomial of the space vanishing at unisolvent nodes is zero. -/
theorem eq_zero_of_nodal (space : Space) (nodes : Fin (nodeTuples space).length → List ℝ) (hn : ∀ i, RegularFor space (nodes i))
    (hu : UnisolventFor space nodes) (P : MvPolynomial (Fin space.spatialDim) ℝ) (hP : PolyIn space P) (h0 : nodal nodes P = 0) :
    P = 0 := by
  obtain ⟨c, hc⟩ := polyAt_spacePoly space rfl P hP
  have hc0 : c = 0 := by
    have hd := (unisolvent_iff_det _ _).1 hu
    have h1 : vandermonde (fun l : Fin (nodeTuples space).length => monomialValue (nodeTuples space)[l]) nodes *ᵥ c = 0 := by
      funext i
      rw [vandermonde_mulVec]
      have := hc _ (hn i).1
      rw [← nodal, h0] at this
      exact this.symm
    have h2 := congrArg (fun v => (vandermonde (fun l : Fin (nodeTuples space).length =>
      monomialValue (nodeTuples space)[l]) nodes)⁻¹ *ᵥ v) h1
    rwa [mulVec_mulVec, nonsing_inv_mul _ (isUnit_iff_ne_zero.2 hd), one_mulVec, mulVec_zero] at h2
  apply MvPolynomial.funext
  intro y
  have := hc (List.ofFn y) (by simp)
  rw [hc0] at this
  simpa [polyAt, spacePoly, combine, List.getD_eq_getElem?_getD] using this

/-- Matrices agreeing on nodal values of the space are equal. -/
theorem matrix_ext_nodal (space : Space) {p : Nat} (nodes : Fin (nodeTuples space).length → List ℝ)
    (hn : ∀ i, RegularFor space (nodes i)) (hu : UnisolventFor space nodes)
    (A B : Matrix (Fin p) (Fin (nodeTuples space).length) ℝ)
    (h : ∀ P : MvPolynomial (Fin space.spatialDim) ℝ, PolyIn space P → A *ᵥ nodal nodes P = B *ᵥ nodal nodes P) : A = B := by
  refine Matrix.ext_of_mulVec_single fun j => ?_
  obtain ⟨P, hP, he⟩ := exists_nodal space nodes hn hu (Pi.single j 1)
  rw [← he]
  exact h P hP

/-- A product of differentiation matrices is the iterated derivative. -/
theorem diff_prod_nodal (space : Space) (nodes : Fin (nodeTuples space).length → List ℝ)
    (hn : ∀ i, RegularFor space (nodes i))
    (D : Fin space.spatialDim → Matrix (Fin (nodeTuples space).length) (Fin (nodeTuples space).length) ℝ)
    (hD : ∀ c i, IsGradientAt space.spatialDim (spacePoly space c) (nodes i)
        (List.ofFn fun k => ∑ j, D k i j * spacePoly space c (nodes j)))
    (ks : List (Fin space.spatialDim)) (P : MvPolynomial (Fin space.spatialDim) ℝ) (hP : PolyIn space P) :
    PolyIn space (ks.foldr (fun k Q => MvPolynomial.pderiv k Q) P) ∧
      (ks.map D).prod *ᵥ nodal nodes P = nodal nodes (ks.foldr (fun k Q => MvPolynomial.pderiv k Q) P) := by
  induction ks with
  | nil => exact ⟨hP, by simp⟩
  | cons k ks ih =>
    refine ⟨polyIn_pderiv ih.1 k, ?_⟩
    rw [List.map_cons, List.prod_cons, ← mulVec_mulVec, ih.2, List.foldr_cons]
    exact diff_nodal space nodes nodes hn hn D hD k _ ih.1

theorem pderiv_pderiv_comm {d : Nat} (k l : Fin d) (P : MvPolynomial (Fin d) ℝ) :
    MvPolynomial.pderiv k (MvPolynomial.pderiv l P) = MvPolynomial.pderiv l (MvPolynomial.pderiv k P) := by
  ext m
  simp only [MvPolynomial.coeff_pderiv]
  by_cases h : k = l
  · subst h; rfl
  · rw [add_right_comm]
    simp [h, Ne.symm h]
    ring

/-- **C86 (commutativity).**  `D_k D_l = D_l D_k`. -/
theorem C86_commute (space : Space) (b : Basis ℝ) (hb : IsBasisOf b space) (hd : ∀ s ∈ space.flatBases, 1 ≤ s.spatialDim)
    (h0 : space.spatialDim ≠ 0) (nodes : Fin (nodeTuples space).length → List ℝ) (hn : ∀ i, RegularFor space (nodes i)) (hu : UnisolventFor space nodes) :
    ∃ D, diffMatricesOf space.spatialDim b nodes nodes = .ok D ∧ ∀ k l, D k * D l = D l * D k := by
  obtain ⟨D, hok, hD⟩ := diff_isBasisOf hb hd h0 nodes nodes hn hn hu
  refine ⟨D, hok, fun k l => matrix_ext_nodal space nodes hn hu _ _ fun P hP => ?_⟩
  have h1 := (diff_prod_nodal space nodes hn D hD [k, l] P hP).2
  have h2 := (diff_prod_nodal space nodes hn D hD [l, k] P hP).2
  simp only [List.map_cons, List.map_nil, List.prod_cons, List.prod_nil, mul_one, List.foldr_cons, List.foldr_nil] at h1 h2
  rw [h1, h2, pderiv_pderiv_comm]

theorem polyIn_C (space : Space) (a : ℝ) : PolyIn space (MvPolynomial.C a : MvPolynomial (Fin space.spatialDim) ℝ) := by
  intro m hm
  have hm0 : m = 0 := by
    rw [MvPolynomial.mem_support_iff, MvPolynomial.coeff_C] at hm
    by_contra h
    exact hm (if_neg (Ne.symm h))
  obtain ⟨t, ht⟩ := List.exists_mem_of_length_pos (Nat.pos_of_ne_zero (nodeTuples_ne space))
  refine lowerSet_nodeTuples space t ht _ ?_
  rw [List.forall₂_iff_get]
  refine ⟨by simp [length_of_mem_nodeTuples ht], fun i hi h2 => ?_⟩
  simp [hm0]

/-- **C86 (kernel).**  The matrices annihilate exactly the constants; in particular their rows sum to zero. -/
theorem C86_constants (space : Space) (b : Basis ℝ) (hb : IsBasisOf b space) (hd : ∀ s ∈ space.flatBases, 1 ≤ s.spatialDim)
    (h0 : space.spatialDim ≠ 0) (nodes : Fin (nodeTuples space).length → List ℝ) (hn : ∀ i, RegularFor space (nodes i)) (hu : UnisolventFor space nodes) :
    ∃ D, diffMatricesOf space.spatialDim b nodes nodes = .ok D ∧
      (∀ k i, ∑ j, D k i j = 0) ∧
      ∀ u : Fin (nodeTuples space).length → ℝ, (∀ k, D k *ᵥ u = 0) ↔ ∃ a, ∀ i, u i = a := by
  obtain ⟨D, hok, hD⟩ := diff_isBasisOf hb hd h0 nodes nodes hn hn hu
  have hconst : ∀ (a : ℝ) (k), D k *ᵥ (fun _ => a) = 0 := by
    intro a k
    have h1 := diff_nodal space nodes nodes hn hn D hD k (MvPolynomial.C a) (polyIn_C space a)
    have h2 : nodal nodes (MvPolynomial.C a : MvPolynomial (Fin space.spatialDim) ℝ) = fun _ => a := by
      funext i; simp [nodal, polyAt]
    rw [h2, MvPolynomial.pderiv_C] at h1
    rw [h1]
    funext i; simp [nodal, polyAt]
  refine ⟨D, hok, fun k i => ?_, fun u => ⟨fun h => ?_, ?_⟩⟩
  · have := congrFun (hconst 1 k) i
    simpa [mulVec, dotProduct] using this
  · obtain ⟨P, hP, rfl⟩ := exists_nodal space nodes hn hu u
    have hz : ∀ k, MvPolynomial.pderiv k P = 0 := fun k =>
      eq_zero_of_nodal space nodes hn hu _ (polyIn_pderiv hP k) ((diff_nodal space nodes nodes hn hn D hD k P hP).symm.trans (h k))
    have hPC : P = MvPolynomial.C (MvPolynomial.coeff 0 P) := by
      ext m
      rw [MvPolynomial.coeff_C]
      split_ifs with hm
      · rw [← hm]
      · obtain ⟨k, hk⟩ : ∃ k, m k ≠ 0 := by
          by_contra hcon
          push Not at hcon
          exact hm (Finsupp.ext fun k => (hcon k).symm)
        have h1 := congrArg (MvPolynomial.coeff (m - Finsupp.single k 1)) (hz k)
        rw [MvPolynomial.coeff_pderiv, MvPolynomial.coeff_zero, tsub_add_cancel_of_le] at h1
        · rcases mul_eq_zero.1 h1 with h1 | h1
          · exact h1
          · exfalso
            have : (0 : ℝ) ≤ (((m - Finsupp.single k 1 : Fin space.spatialDim →₀ ℕ) k : ℕ) : ℝ) := Nat.cast_nonneg _
            linarith
        · rw [Finsupp.single_le_iff]
          omega
    refine ⟨MvPolynomial.coeff 0 P, fun i => ?_⟩
    rw [hPC]
    simp [nodal, polyAt]
  · rintro ⟨a, ha⟩ k
    rw [show u = fun _ => a from funext ha]
    exact hconst a k

/-! ## Nilpotency -/

theorem pderiv_iter_support {d : Nat} (k : Fin d) (N m : Nat) (P : MvPolynomial (Fin d) ℝ) (h : ∀ t ∈ P.support, t k ≤ N) :
    ∀ t ∈ ((List.replicate m k).foldr (fun k Q => MvPolynomial.pderiv k Q) P).support, t k + m ≤ N := by
  induction m with
  | zero => simpa using h
  | succ m ih =>
    intro t ht
    rw [List.replicate_succ, List.foldr_cons, MvPolynomial.mem_support_iff, MvPolynomial.coeff_pderiv] at ht
    have := ih (t + Finsupp.single k 1) (MvPolynomial.mem_support_iff.2 fun h0 => ht (by rw [h0]; simp))
    simp at this
    omega

theorem pderiv_iter_degree {d : Nat} (ks : List (Fin d)) (N : Nat) (P : MvPolynomial (Fin d) ℝ)
    (h : ∀ t ∈ P.support, (∑ i, t i) ≤ N) :
    ∀ t ∈ (ks.foldr (fun k Q => MvPolynomial.pderiv k Q) P).support, (∑ i, t i) + ks.length ≤ N := by
  induction ks with
  | nil => simpa using h
  | cons k ks ih =>
    intro t ht
    rw [List.foldr_cons, MvPolynomial.mem_support_iff, MvPolynomial.coeff_pderiv] at ht
    have := ih (t + Finsupp.single k 1) (MvPolynomial.mem_support_iff.2 fun h0 => ht (by rw [h0]; simp))
    simp [Finset.sum_add_distrib, Finsupp.single_apply] at this
    rw [List.length_cons]
    omega

theorem le_of_mem_nodeTuples {space : Space} {N : Nat} (hN : ∀ s ∈ space.flatBases, s.order ≤ N) {t : List Nat}
    (ht : t ∈ nodeTuples space) : ∀ a ∈ t, a ≤ N := by
  obtain ⟨parts, hp, rfl⟩ := (mem_nodeTuples space t).1 ht
  clear ht
  generalize space.flatBases = bs at hp hN
  induction hp with
  | nil => simp
  | @cons b p bs ps h _ ih =>
    intro a ha
    rw [List.flatten_cons, List.mem_append] at ha
    rcases ha with ha | ha
    · exact ((List.le_sum_of_mem ha).trans h.2).trans (hN b (by simp))
    · exact ih (fun s hs => hN s (List.mem_cons_of_mem _ hs)) a ha

/-- **C86 (nilpotency).**  If all orders are at most `N`, the `N+1`-st power of every differentiation matrix is zero. -/
theorem C86_nilpotent (space : Space) (b : Basis ℝ) (hb : IsBasisOf b space) (hd : ∀ s ∈ space.flatBases, 1 ≤ s.spatialDim)
    (h0 : space.spatialDim ≠ 0) (N : Nat) (hN : ∀ s ∈ space.flatBases, s.order ≤ N)
    (nodes : Fin (nodeTuples space).length → List ℝ) (hn : ∀ i, RegularFor space (nodes i)) (hu : UnisolventFor space nodes) :
    ∃ D, diffMatricesOf space.spatialDim b nodes nodes = .ok D ∧ ∀ k, D k ^ (N + 1) = 0 := by
  obtain ⟨D, hok, hD⟩ := diff_isBasisOf hb hd h0 nodes nodes hn hn hu
  refine ⟨D, hok, fun k => matrix_ext_nodal space nodes hn hu _ _ fun P hP => ?_⟩
  have h1 := (diff_prod_nodal space nodes hn D hD (List.replicate (N + 1) k) P hP).2
  rw [List.map_replicate, List.prod_replicate] at h1
  rw [h1, zero_mulVec]
  have h0 : (List.replicate (N + 1) k).foldr (fun k Q => MvPolynomial.pderiv k Q) P = 0 := by
    rw [← MvPolynomial.support_eq_empty, Finset.eq_empty_iff_forall_notMem]
    intro t ht
    have := pderiv_iter_support k N (N + 1) P (fun t ht => le_of_mem_nodeTuples hN (hP t ht) _ (by simp)) t ht
    omega
  rw [h0]
  funext i
  simp [nodal, polyAt]

/-- **C86 (total degree).**  On a simplex of order `N` any product of more than `N` differentiation matrices is zero, and the
`N`-th power of a single one is not. -/
theorem C86_simplex (s : PNSpace) (b : Basis ℝ) (hb : IsBasisOf b (.pn s)) (hd : 1 ≤ s.spatialDim)
    (nodes : Fin (nodeTuples (.pn s)).length → List ℝ) (hn : ∀ i, RegularFor (.pn s) (nodes i))
    (hu : UnisolventFor (.pn s) nodes) :
    ∃ D, diffMatricesOf (Space.pn s).spatialDim b nodes nodes = .ok D ∧
      (∀ ks : List (Fin (Space.pn s).spatialDim), s.order < ks.length → (ks.map D).prod = 0) ∧
      ∀ k, D k ^ s.order ≠ 0 := by
  obtain ⟨D, hok, hD⟩ := diff_isBasisOf hb (by simpa [Space.flatBases] using hd) (by simp only [Space.spatialDim]; omega) nodes nodes hn hn hu
  have hmem : ∀ t : List Nat, t ∈ nodeTuples (.pn s) ↔ t.length = s.spatialDim ∧ t.sum ≤ s.order := by
    intro t
    rw [mem_nodeTuples]
    simp only [Space.flatBases]
    constructor
    · rintro ⟨parts, hp, rfl⟩
      rcases hp with _ | ⟨h, h'⟩
      cases h'
      simpa using h
    · intro h
      exact ⟨[t], .cons h .nil, by simp⟩
  refine ⟨D, hok, fun ks hks => matrix_ext_nodal _ nodes hn hu _ _ fun P hP => ?_, fun k hk => ?_⟩
  · rw [(diff_prod_nodal _ nodes hn D hD ks P hP).2, zero_mulVec]
    have h0 : ks.foldr (fun k Q => MvPolynomial.pderiv k Q) P = 0 := by
      rw [← MvPolynomial.support_eq_empty, Finset.eq_empty_iff_forall_notMem]
      intro t ht
      have := pderiv_iter_degree ks s.order P (fun t ht => by
        have := ((hmem _).1 (hP t ht)).2
        rwa [List.sum_ofFn] at this) t ht
      omega
    rw [h0]
    funext i
    simp [nodal, polyAt]
  · have hP : PolyIn (.pn s) (MvPolynomial.X k ^ s.order : MvPolynomial (Fin (Space.pn s).spatialDim) ℝ) := by
      intro m hm
      rw [MvPolynomial.support_X_pow, Finset.mem_singleton] at hm
      rw [hmem, hm]
      refine ⟨by simp [Space.spatialDim], ?_⟩
      rw [List.sum_ofFn]
      simp [Finsupp.single_apply]
    have h1 := (diff_prod_nodal _ nodes hn D hD (List.replicate s.order k) _ hP).2
    rw [List.map_replicate, List.prod_replicate, hk, zero_mulVec] at h1
    have h2 : ∀ m n : Nat, (List.replicate m k).foldr (fun k Q => MvPolynomial.pderiv k Q)
        (MvPolynomial.X k ^ (n + m) : MvPolynomial (Fin (Space.pn s).spatialDim) ℝ) =
        MvPolynomial.C ((n + m).descFactorial m : ℝ) * MvPolynomial.X k ^ n := by
      intro m
      induction m with
      | zero => intro n; simp
      | succ m ih =>
        intro n
        rw [List.replicate_succ, List.foldr_cons]
        have := ih (n + 1)
        rw [show n + 1 + m = n + (m + 1) by ring] at this
        rw [this, MvPolynomial.pderiv_C_mul, MvPolynomial.pderiv_pow, MvPolynomial.pderiv_X_self, Nat.descFactorial_succ,
          show n + (m + 1) - m = n + 1 by omega]
        simp
        ring
    have h3 := h2 s.order 0
    rw [zero_add] at h3
    rw [h3] at h1
    have h4 := congrFun h1 ⟨0, Nat.pos_of_ne_zero (nodeTuples_ne _)⟩
    simp only [nodal, polyAt, Nat.descFactorial_self, pow_zero, mul_one, MvPolynomial.eval_C, Pi.zero_apply] at h4
    exact Nat.factorial_ne_zero s.order (by exact_mod_cast h4.symm)

/-! ## Other bases and other nodes -/

/-- **C86 (basis independence).** -/
theorem C86_basis_independent (space : Space) (b b' : Basis ℝ) (hb : IsBasisOf b space) (hb' : IsBasisOf b' space)
    (hd : ∀ s ∈ space.flatBases, 1 ≤ s.spatialDim) (h0 : space.spatialDim ≠ 0) {p : Nat} (nodes : Fin p → List ℝ)
    (fromNodes : Fin (nodeTuples space).length → List ℝ) (hn : ∀ i, RegularFor space (nodes i))
    (hf : ∀ i, RegularFor space (fromNodes i)) (hu : UnisolventFor space fromNodes) :
    ∃ D, diffMatricesOf space.spatialDim b nodes fromNodes = .ok D ∧
      diffMatricesOf space.spatialDim b' nodes fromNodes = .ok D := by
  obtain ⟨D, hok, hD⟩ := diff_isBasisOf hb hd h0 nodes fromNodes hn hf hu
  obtain ⟨D', hok', hD'⟩ := diff_isBasisOf hb' hd h0 nodes fromNodes hn hf hu
  refine ⟨D, hok, ?_⟩
  rw [hok', show D' = D from funext fun k => matrix_ext_nodal space fromNodes hf hu _ _ fun P hP => by
    rw [diff_nodal space nodes fromNodes hn hf D' hD' k P hP, diff_nodal space nodes fromNodes hn hf D hD k P hP]]

theorem resample_nodal (space : Space) {p : Nat} (newNodes : Fin p → List ℝ) (oldNodes : Fin (nodeTuples space).length → List ℝ)
    (hn : ∀ i, RegularFor space (newNodes i)) (ho : ∀ i, RegularFor space (oldNodes i))
    (R : Matrix (Fin p) (Fin (nodeTuples space).length) ℝ)
    (hR : ∀ c i, ∑ j, R i j * spacePoly space c (oldNodes j) = spacePoly space c (newNodes i))
    (P : MvPolynomial (Fin space.spatialDim) ℝ) (hP : PolyIn space P) : R *ᵥ nodal oldNodes P = nodal newNodes P := by
  obtain ⟨c, hc⟩ := polyAt_spacePoly space rfl P hP
  funext i
  rw [nodal, hc _ (hn i).1, ← hR c i]
  simp only [mulVec, dotProduct, nodal]
  exact Finset.sum_congr rfl fun j _ => by rw [hc _ (ho j).1]

/-- **C86 (resampling).**  Differentiating at the old nodes and resampling, resampling and differentiating at the new nodes,
and differentiating from the old to the new nodes are the same. -/
theorem C86_resampling (space : Space) (b : Basis ℝ) (hb : IsBasisOf b space) (hd : ∀ s ∈ space.flatBases, 1 ≤ s.spatialDim)
    (h0 : space.spatialDim ≠ 0) (newNodes oldNodes : Fin (nodeTuples space).length → List ℝ) (hn : ∀ i, RegularFor space (newNodes i))
    (ho : ∀ i, RegularFor space (oldNodes i)) (hun : UnisolventFor space newNodes) (huo : UnisolventFor space oldNodes)
    (ls : Bool) (pinv : (n : Nat) → Matrix (Fin (nodeTuples space).length) (Fin n) ℝ → Matrix (Fin n) (Fin (nodeTuples space).length) ℝ) :
    ∃ R D D' E, resamplingMatrixOf b newNodes oldNodes ls pinv = .ok R ∧
      diffMatricesOf space.spatialDim b oldNodes oldNodes = .ok D ∧
      diffMatricesOf space.spatialDim b newNodes newNodes = .ok D' ∧
      diffMatricesOf space.spatialDim b newNodes oldNodes = .ok E ∧
      ∀ k, E k = R * D k ∧ E k = D' k * R := by
  obtain ⟨R, hok, hR⟩ := C77_resampling space b hb newNodes oldNodes hn ho huo ls pinv
  obtain ⟨D, hokD, hD⟩ := diff_isBasisOf hb hd h0 oldNodes oldNodes ho ho huo
  obtain ⟨D', hokD', hD'⟩ := diff_isBasisOf hb hd h0 newNodes newNodes hn hn hun
  obtain ⟨E, hokE, hE⟩ := diff_isBasisOf hb hd h0 newNodes oldNodes hn ho huo
  refine ⟨R, D, D', E, hok, hokD, hokD', hokE, fun k => ⟨?_, ?_⟩⟩
  · refine matrix_ext_nodal space oldNodes ho huo _ _ fun P hP => ?_
    rw [diff_nodal space newNodes oldNodes hn ho E hE k P hP, ← mulVec_mulVec, diff_nodal space oldNodes oldNodes ho ho D hD k P hP,
      resample_nodal space newNodes oldNodes hn ho R hR _ (polyIn_pderiv hP k)]
  · refine matrix_ext_nodal space oldNodes ho huo _ _ fun P hP => ?_
    rw [diff_nodal space newNodes oldNodes hn ho E hE k P hP, ← mulVec_mulVec, resample_nodal space newNodes oldNodes hn ho R hR P hP,
      diff_nodal space newNodes newNodes hn hn D' hD' k P hP]

/-- Non-vacuity: a cubic triangle times a quadratic interval with its 30 equispaced nodes and any basis of the library; the
matrices commute and their fourth powers vanish. -/
example : ∃ (b : Basis ℝ) (nodes : Fin (nodeTuples (.tp [⟨2, 3⟩, ⟨1, 2⟩])).length → List ℝ)
    (D : Fin (Space.tp [⟨2, 3⟩, ⟨1, 2⟩]).spatialDim → Matrix _ _ ℝ), IsBasisOf b (.tp [⟨2, 3⟩, ⟨1, 2⟩]) ∧
    diffMatricesOf (Space.tp [⟨2, 3⟩, ⟨1, 2⟩]).spatialDim b nodes nodes = .ok D ∧ (∀ k l, D k * D l = D l * D k) ∧
    ∀ k, D k ^ 4 = 0 := by
  obtain ⟨A, -, hreg, hu⟩ := equispaced_regular [⟨2, 3⟩, ⟨1, 2⟩] (by simp) (by simp)
  have hb : IsBasisOf ((orthonormalBasisForSpace (R := ℝ) (.tp [⟨2, 3⟩, ⟨1, 2⟩]) (.tp [2, 1])).toOption.get rfl)
      (.tp [⟨2, 3⟩, ⟨1, 2⟩]) := ⟨.tp [2, 1], Or.inl ⟨rfl, by simp [Space.flatBases]⟩⟩
  have hd : ∀ s ∈ (Space.tp [⟨2, 3⟩, ⟨1, 2⟩]).flatBases, 1 ≤ s.spatialDim := by simp [Space.flatBases]
  obtain ⟨D, hD, h1⟩ := C86_commute _ _ hb hd (by decide) _ hreg hu
  obtain ⟨D', hD', h2⟩ := C86_nilpotent _ _ hb hd (by decide) 3 (by simp [Space.flatBases]) _ hreg hu
  obtain rfl : D = D' := Except.ok.inj (hD.symm.trans hD')
  exact ⟨_, _, D, hb, hD, h1, h2⟩

end Modepy

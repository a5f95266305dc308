import Verif.Props.QuadForSpace
import Verif.Proofs.SpacePoly
import Verif.Proofs.ProductUnisolvence

/-!
# Rules of `quadrature_for_space` on the polynomials of the space
-/

namespace Modepy
open Spec Quadrature MvPolynomial

theorem node_length (q : Quadrature) (k : Nat) : (q.node k).length = q.dim := by
  unfold node dim
  split <;> simp_all

theorem call_congr_length (q : Quadrature) (F G : List ℝ → ℝ) (h : ∀ x : List ℝ, x.length = q.dim → F x = G x) : q.call F = q.call G := by
  unfold call
  congr 1
  exact List.map_congr_left fun k _ => by rw [h _ (node_length q k)]

theorem call_eq_sum (q : Quadrature) (F : List ℝ → ℝ) :
    q.call F = ∑ k : Fin q.nnodes, q.weights.get [(k : Nat)] * F (q.node k) := by
  unfold call
  rw [← Finset.sum_range (fun k => q.weights.get [k] * F (q.node k)), Finset.sum_range, ← List.sum_ofFn]
  congr 1
  apply List.ext_getElem <;> simp

/-- The monomial of one factor, as a function of all lists. -/
noncomputable def factorMonomial (b : PNSpace) (p : List Nat) (z : List ℝ) : ℝ :=
  eval (fun i : Fin b.spatialDim => z.getD i 0) (MvPolynomial.monomial (expo b.spatialDim p) 1)

theorem factorMonomial_eq (b : PNSpace) (p : List Nat) (z : List ℝ) (hp : p.length = b.spatialDim) (hz : z.length = b.spatialDim) :
    factorMonomial b p z = monomialValue p z := by
  rw [factorMonomial, eval_monomial, ← prod_pow_eq_monomialValue p z hp hz, Finsupp.prod_fintype _ _ (by simp), one_mul]

theorem monomialValue_slices (bs : List PNSpace) (parts : List (List Nat))
    (h : List.Forall₂ (fun b p => p.length = b.spatialDim ∧ p.sum ≤ b.order) bs parts) (x : List ℝ)
    (hx : x.length = (bs.map PNSpace.spatialDim).sum) :
    monomialValue parts.flatten x =
      (List.zipWith (fun (F : List ℝ → ℝ) z => F z) (List.zipWith factorMonomial bs parts)
        (slices (bs.map PNSpace.spatialDim) x)).prod := by
  induction h generalizing x with
  | nil => simp [monomialValue]
  | @cons b p bs parts hb _ ih =>
    simp only [List.map_cons, List.sum_cons] at hx
    have e : x = x.take b.spatialDim ++ x.drop b.spatialDim := (List.take_append_drop _ _).symm
    have hl : (x.take b.spatialDim).length = b.spatialDim := by simp; omega
    simp only [List.flatten_cons, List.map_cons, slices, List.zipWith_cons_cons, List.prod_cons]
    rw [← ih (x.drop b.spatialDim) (by simp; omega), factorMonomial_eq b p _ hb.1 hl, ← monomialValue_append _ _ _ _ (by omega), ← e]

theorem inPN_factorMonomial (b : PNSpace) (p : List Nat) (hp : p.length = b.spatialDim) (hs : p.sum ≤ b.order) :
    InPN b (factorMonomial b p) := by
  refine ⟨_, ?_, rfl⟩
  refine (totalDegree_monomial_le _ _).trans ?_
  refine le_trans (le_of_eq ?_) hs
  rw [Finsupp.sum_fintype _ _ (fun _ => rfl)]
  obtain ⟨d, n⟩ := b
  simp only at hp
  subst hp
  simp only [expo, Finsupp.equivFunOnFinite_symm_apply_apply]
  rw [← List.sum_ofFn]
  congr 1
  apply List.ext_getElem <;> simp [List.getD_eq_getElem?_getD]

/-- The rule `quadrature_for_space` returns for a space, if it returns one, integrates the space exactly. -/
theorem quadratureForSpace_exact (ext : Ext) (hext : ext.EighOk) (t : XgTables) (ht : XgOk t) (space : Space) (shape : Shape)
    (hshape : shape.flatBases = space.flatBases.map PNSpace.spatialDim) (hpos : space.spatialDim ≠ 0) (q : Quadrature)
    (hq : quadratureForSpace ext t space shape = .ok q) :
    q.dim = space.spatialDim ∧ ∀ c, q.call (spacePoly space c) = spaceIntegral space (spacePoly space c) := by
  by_cases hTP : space.isTP = true
  · have hsTP : shape.isTP = true := by
      cases shape with
      | simplex d => rw [(C36_rejects ext t).2.2.1 space hTP d] at hq; cases hq
      | tp ds => rfl
      | hypercube d => rfl
    obtain ⟨quads, e, -, hok, hbad⟩ := C36_tp_partial ext hext t ht space shape hTP hsTP hshape hpos
    by_cases hall : ∀ s ∈ space.flatBases, ∀ s' ∈ space.flatBases, exactValue (.num (s.order : ℚ)) ≤ exactValue (e s')
    swap
    · rw [hbad hall] at hq
      cases hq
    obtain ⟨Q, hQ, hdim, hex⟩ := hok hall
    obtain rfl : q = Q := Except.ok.inj (hq.symm.trans hQ)
    refine ⟨hdim, fun c => ?_⟩
    have hsum : (space.flatBases.map PNSpace.spatialDim).sum = space.spatialDim := by
      cases space <;> simp_all [Space.isTP, Space.spatialDim]
    have hparts : ∀ l : Fin (nodeTuples space).length, ∃ parts : List (List Nat),
        List.Forall₂ (fun b p => p.length = b.spatialDim ∧ p.sum ≤ b.order) space.flatBases parts ∧
          (nodeTuples space)[l] = parts.flatten := fun l => (mem_nodeTuples space _).1 (List.getElem_mem _)
    choose parts hp1 hp2 using hparts
    let terms : List (ℝ × List (List ℝ → ℝ)) := List.ofFn fun l => (c l, List.zipWith factorMonomial space.flatBases (parts l))
    have hterms : ∀ cF ∈ terms, List.Forall₂ InPN space.flatBases cF.2 := by
      intro cF hcF
      obtain ⟨l, rfl⟩ := List.mem_ofFn.1 hcF
      have := hp1 l
      generalize parts l = ps at this
      generalize space.flatBases = bs at this
      simp only
      induction this with
      | nil => exact .nil
      | cons h _ ih => exact .cons (inPN_factorMonomial _ _ h.1 h.2) ih
    have hval : ∀ x : List ℝ, x.length = space.spatialDim →
        spacePoly space c x = tpSpaceFunction (space.flatBases.map PNSpace.spatialDim) terms x := by
      intro x hx
      simp only [spacePoly, combine, tpSpaceFunction, terms, List.map_ofFn, List.sum_ofFn, Function.comp]
      refine Finset.sum_congr rfl fun l _ => ?_
      rw [hp2 l, monomialValue_slices _ _ (hp1 l) x (hx.trans hsum.symm)]
    rw [call_congr_length q _ _ fun x hx => hval x (hx.trans hdim), hex terms hterms]
    have e1 : spaceIntegral space (spacePoly space c) = ∑ l, c l * spaceIntegral space (monomialValue (nodeTuples space)[l]) := by
      have := productIntegral_sum (space.flatBases.map PNSpace.spatialDim) Finset.univ c
        (fun l => monomialValue (nodeTuples space)[l]) fun l _ => continuous_monomialValue _ _
      exact this
    rw [e1]
    simp only [tpIntegral, terms, List.map_ofFn, List.sum_ofFn, Function.comp]
    refine Finset.sum_congr rfl fun l _ => ?_
    congr 1
    have hlen : (List.zipWith factorMonomial space.flatBases (parts l)).length = (space.flatBases.map PNSpace.spatialDim).length := by
      simp [(hp1 l).length_eq]
    rw [iterated_product (space.flatBases.map PNSpace.spatialDim) _ (by
        rw [List.forall₂_map_right_iff]
        exact List.forall₂_same.2 fun d _ => simplexIntegral_functional d) _ hlen]
    rw [spaceIntegral]
    have e2 : productIntegral (space.flatBases.map PNSpace.spatialDim) (monomialValue (nodeTuples space)[l]) =
        productIntegral (space.flatBases.map PNSpace.spatialDim) (fun x => (List.zipWith (fun (F : List ℝ → ℝ) z => F z)
          (List.zipWith factorMonomial space.flatBases (parts l)) (slices (space.flatBases.map PNSpace.spatialDim) x)).prod) := by
      apply productIntegral_congr
      intro x hx
      rw [hp2 l, monomialValue_slices _ _ (hp1 l) x hx]
    rw [e2, productIntegral_product _ _ hlen, List.zipWith_map_left]
  · cases space with
    | tp bs => exact absurd rfl hTP
    | qn d n => exact absurd rfl hTP
    | pn s =>
      have hsh : shape = .simplex s.spatialDim := by
        cases shape with
        | simplex d =>
          simp [Shape.flatBases, Space.flatBases] at hshape
          rw [hshape]
        | tp ds => rw [(C36_rejects ext t).2.1 s _ rfl] at hq; cases hq
        | hypercube d => rw [(C36_rejects ext t).2.1 s _ rfl] at hq; cases hq
      subst hsh
      obtain ⟨Q, e, hQ, -, -, hdim, hex⟩ := C36_pn ext hext t ht s
      obtain rfl : q = Q := Except.ok.inj (hq.symm.trans hQ)
      refine ⟨hdim, fun c => ?_⟩
      obtain ⟨P, hP, hv⟩ := spacePoly_polyAt (.pn s) (d := s.spatialDim) rfl c
      have hc : Conforms (.pn s) (.simplex s.spatialDim) s.order := rfl
      rw [call_congr_length q _ _ fun x hx => hv x (hx.trans hdim), spaceIntegral]
      have e1 : productIntegral ((Space.pn s).flatBases.map PNSpace.spatialDim) (spacePoly (.pn s) c) =
          productIntegral ((Space.pn s).flatBases.map PNSpace.spatialDim) (polyAt P) := by
        apply productIntegral_congr
        intro x hx
        exact hv x (by simpa [Space.flatBases] using hx)
      rw [e1]
      have e2 := spaceIntegral_polyAt hc rfl P
      exact (hex _ ⟨P, (polyIn_simplex hc P).1 hP, rfl⟩).trans e2.symm

/-- Products of two polynomials of a space lie in the space of doubled orders. -/
theorem polyIn_mul_double {space space2 : Space} (h2 : space2.flatBases = space.flatBases.map fun s => ⟨s.spatialDim, 2 * s.order⟩)
    {d : Nat} (P Q : MvPolynomial (Fin d) ℝ) (hP : PolyIn space P) (hQ : PolyIn space Q) : PolyIn space2 (P * Q) := by
  classical
  intro m hm
  obtain ⟨m1, h1, m2, h2', rfl⟩ := Finset.mem_add.1 (support_mul P Q hm)
  obtain ⟨p1, g1, e1⟩ := (mem_nodeTuples space _).1 (hP m1 h1)
  obtain ⟨p2, g2, e2⟩ := (mem_nodeTuples space _).1 (hQ m2 h2')
  rw [mem_nodeTuples]
  have key : ∀ (bs : List PNSpace) (p1 p2 : List (List Nat)),
      List.Forall₂ (fun (b : PNSpace) p => p.length = b.spatialDim ∧ p.sum ≤ b.order) bs p1 →
      List.Forall₂ (fun (b : PNSpace) p => p.length = b.spatialDim ∧ p.sum ≤ b.order) bs p2 →
      ∃ ps : List (List Nat), List.Forall₂ (fun (b : PNSpace) p => p.length = b.spatialDim ∧ p.sum ≤ b.order)
        (bs.map fun s => ⟨s.spatialDim, 2 * s.order⟩) ps ∧ ps.flatten = List.zipWith (· + ·) p1.flatten p2.flatten := by
    intro bs
    induction bs with
    | nil =>
      intro p1 p2 h1 h2
      cases h1
      cases h2
      exact ⟨[], .nil, rfl⟩
    | cons b bs ih =>
      intro p1 p2 h1 h2
      cases h1 with
      | cons a1 r1 =>
        rename_i q1 t1
        cases h2 with
        | cons a2 r2 =>
          rename_i q2 t2
          obtain ⟨ps, u, v⟩ := ih _ _ r1 r2
          refine ⟨List.zipWith (· + ·) q1 q2 :: ps, .cons ⟨by simp [a1.1, a2.1], ?_⟩ u, ?_⟩
          · have : (List.zipWith (· + ·) q1 q2).sum = q1.sum + q2.sum := by
              have hl : q1.length = q2.length := a1.1.trans a2.1.symm
              clear a1 a2 r1 r2 u v
              induction q1 generalizing q2 with
              | nil => cases q2 <;> simp_all
              | cons a q1 ih' =>
                cases q2 with
                | nil => simp at hl
                | cons c q2 =>
                  simp only [List.zipWith_cons_cons, List.sum_cons]
                  rw [ih' (by simpa using hl)]
                  omega
            have := a1.2
            have := a2.2
            simp only
            omega
          · rw [List.flatten_cons, v, List.flatten_cons, List.flatten_cons, List.zipWith_append (a1.1.trans a2.1.symm)]
  obtain ⟨ps, u, v⟩ := key _ _ _ g1 g2
  refine ⟨ps, by rw [h2]; exact u, ?_⟩
  rw [v, ← e1, ← e2]
  apply List.ext_getElem <;> simp

/-- The rule for the space of doubled orders integrates products of two polynomials of the space. -/
theorem quadratureForSpace_products (ext : Ext) (hext : ext.EighOk) (t : XgTables) (ht : XgOk t) (space space2 : Space) (shape : Shape)
    (h2 : space2.flatBases = space.flatBases.map fun s => ⟨s.spatialDim, 2 * s.order⟩)
    (hshape : shape.flatBases = space.flatBases.map PNSpace.spatialDim) (hpos : space.spatialDim ≠ 0) (q : Quadrature)
    (hq : quadratureForSpace ext t space2 shape = .ok q) :
    q.dim = space.spatialDim ∧ ∀ c e, ∑ k : Fin q.nnodes, q.weights.get [(k : Nat)] *
        (spacePoly space c (q.node k) * spacePoly space e (q.node k)) =
      spaceIntegral space (fun x => spacePoly space c x * spacePoly space e x) := by
  have hdims : space2.flatBases.map PNSpace.spatialDim = space.flatBases.map PNSpace.spatialDim := by
    rw [h2, List.map_map]
    rfl
  have hsd : ∀ s : Space, s.spatialDim = (s.flatBases.map PNSpace.spatialDim).sum := by
    intro s
    cases s <;> simp [Space.spatialDim, Space.flatBases]
  have hsp : space2.spatialDim = space.spatialDim := by rw [hsd, hsd space, hdims]
  obtain ⟨hd, hex⟩ := quadratureForSpace_exact ext hext t ht space2 shape (by rw [hshape, hdims]) (by rw [hsp]; exact hpos) q hq
  refine ⟨hd.trans hsp, fun c e => ?_⟩
  obtain ⟨P, hP, hv⟩ := spacePoly_polyAt space rfl c
  obtain ⟨Q, hQ, hw⟩ := spacePoly_polyAt space rfl e
  obtain ⟨c2, hc⟩ := polyAt_spacePoly space2 hsp (P * Q) (polyIn_mul_double h2 P Q hP hQ)
  have key : ∀ x : List ℝ, x.length = space.spatialDim → spacePoly space c x * spacePoly space e x = spacePoly space2 c2 x := by
    intro x hx
    rw [← hc x hx, hv x hx, hw x hx]
    simp [polyAt]
  have h := hex c2
  rw [← call_eq_sum q fun x => spacePoly space c x * spacePoly space e x,
    call_congr_length q _ _ fun x hx => key x (hx.trans (hd.trans hsp)), h]
  simp only [spaceIntegral, hdims]
  apply productIntegral_congr
  intro x hx
  exact (key x (hx.trans (hsd space).symm)).symm

end Modepy

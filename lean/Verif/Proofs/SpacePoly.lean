import Verif.Props.EndToEnd
import Verif.Props.Divergence
import Verif.Props.MonomialTools
import Mathlib.Algebra.MvPolynomial.PDeriv

/-!
# The polynomials of a space as multivariate polynomials
-/

namespace Modepy
open Spec MvPolynomial MeasureTheory

/-- The value of a polynomial at a list of coordinates. -/
noncomputable def Spec.polyAt {d : Nat} (P : MvPolynomial (Fin d) ℝ) (x : List ℝ) : ℝ := eval (fun i : Fin d => x.getD i 0) P

/-- All monomials of the polynomial belong to the space. -/
def Spec.PolyIn (space : Space) {d : Nat} (P : MvPolynomial (Fin d) ℝ) : Prop :=
  ∀ m ∈ P.support, List.ofFn (fun i => m i) ∈ nodeTuples space

theorem length_of_mem_nodeTuples {space : Space} {t : List Nat} (ht : t ∈ nodeTuples space) : t.length = space.spatialDim := by
  obtain ⟨parts, hp, rfl⟩ := (mem_nodeTuples space t).1 ht
  have : space.spatialDim = (space.flatBases.map PNSpace.spatialDim).sum := by
    cases space <;> simp [Space.spatialDim, Space.flatBases]
  rw [this, List.length_flatten]
  congr 1
  clear this ht
  generalize space.flatBases = bs at hp ⊢
  induction hp with
  | nil => rfl
  | cons h _ ih => simp [h.1, ih]

theorem nodup_nodeTuples (space : Space) : (nodeTuples space).Nodup := by
  cases space with
  | pn s => exact C01_nodup s.spatialDim s.order
  | tp bs => exact C02_nodup bs
  | qn d n => exact C02_nodup _

theorem expo_ofFn {d : Nat} (m : Fin d →₀ ℕ) : expo d (List.ofFn fun i => m i) = m := by
  ext i
  simp [expo, List.getD_eq_getElem?_getD]

theorem ofFn_expo {d : Nat} (t : List Nat) (ht : t.length = d) : List.ofFn (fun i => expo d t i) = t := by
  subst ht
  apply List.ext_getElem
  · simp
  · intro i h1 h2
    simp [expo, List.getD_eq_getElem?_getD]

theorem polyAt_monomial {d : Nat} (m : Fin d →₀ ℕ) (a : ℝ) (x : List ℝ) (hx : x.length = d) :
    polyAt (MvPolynomial.monomial m a) x = a * monomialValue (List.ofFn fun i => m i) x := by
  rw [polyAt, eval_monomial, ← prod_pow_eq_monomialValue (d := d) _ x (by simp) hx, expo_ofFn, Finsupp.prod_fintype _ _ (by simp)]

theorem spacePoly_polyAt (space : Space) {d : Nat} (hd : space.spatialDim = d) (c : Fin (nodeTuples space).length → ℝ) :
    ∃ P : MvPolynomial (Fin d) ℝ, PolyIn space P ∧ ∀ x : List ℝ, x.length = d → spacePoly space c x = polyAt P x := by
  classical
  refine ⟨∑ l, MvPolynomial.monomial (expo d (nodeTuples space)[l]) (c l), ?_, fun x hx => ?_⟩
  · intro m hm
    obtain ⟨l, -, hl⟩ := Finset.mem_biUnion.1 (support_sum hm)
    have hmem : (nodeTuples space)[l] ∈ nodeTuples space := List.getElem_mem _
    rw [Finset.mem_singleton.1 (support_monomial_subset hl), ofFn_expo _ ((length_of_mem_nodeTuples hmem).trans hd)]
    exact hmem
  · rw [polyAt, map_sum]
    simp only [spacePoly, combine]
    refine Finset.sum_congr rfl fun l _ => ?_
    have := polyAt_monomial (expo d (nodeTuples space)[l]) (c l) x hx
    have hmem : (nodeTuples space)[l] ∈ nodeTuples space := List.getElem_mem _
    rw [ofFn_expo _ ((length_of_mem_nodeTuples hmem).trans hd)] at this
    exact this.symm

theorem polyAt_spacePoly (space : Space) {d : Nat} (hd : space.spatialDim = d) (P : MvPolynomial (Fin d) ℝ) (hP : PolyIn space P) :
    ∃ c, ∀ x : List ℝ, x.length = d → polyAt P x = spacePoly space c x := by
  classical
  refine ⟨fun l => coeff (expo d (nodeTuples space)[l]) P, fun x hx => ?_⟩
  have hlen : ∀ l : Fin (nodeTuples space).length, (nodeTuples space)[l].length = d := fun l =>
    (length_of_mem_nodeTuples (List.getElem_mem _)).trans hd
  have hinj : Function.Injective fun l : Fin (nodeTuples space).length => expo d (nodeTuples space)[l] := by
    intro a b hab
    exact Fin.ext ((List.Nodup.getElem_inj_iff (nodup_nodeTuples space)).1 (expo_inj (hlen a) (hlen b) hab))
  have hsup : P.support ⊆ Finset.univ.image fun l : Fin (nodeTuples space).length => expo d (nodeTuples space)[l] := by
    intro m hm
    obtain ⟨l, hl, he⟩ := List.getElem_of_mem (hP m hm)
    refine Finset.mem_image.2 ⟨⟨l, hl⟩, Finset.mem_univ _, ?_⟩
    simp only [Fin.getElem_fin, he, expo_ofFn]
  simp only [spacePoly, combine]
  rw [polyAt, eval_eq', Finset.sum_subset hsup, Finset.sum_image fun a _ b _ h => hinj h]
  · refine Finset.sum_congr rfl fun l _ => ?_
    rw [prod_pow_eq_monomialValue _ _ (hlen l) hx]
  · intro m _ hm
    rw [notMem_support_iff.1 hm, zero_mul]

/-! ## Derivatives -/

theorem lowerSet_nodeTuples (space : Space) : LowerSet' (nodeTuples space) := by
  cases space with
  | pn s => exact lowerSet_gnitsam _ _
  | tp bs => exact lowerSet_tp bs
  | qn d n => exact lowerSet_tp _

theorem polyIn_pderiv {space : Space} {d : Nat} {P : MvPolynomial (Fin d) ℝ} (h : PolyIn space P) (k : Fin d) :
    PolyIn space (pderiv k P) := by
  intro m hm
  rw [mem_support_iff, coeff_pderiv] at hm
  have h1 : m + Finsupp.single k 1 ∈ P.support := mem_support_iff.2 fun h0 => hm (by rw [h0]; simp)
  refine lowerSet_nodeTuples space _ (h _ h1) _ ?_
  rw [List.forall₂_iff_get]
  refine ⟨by simp, fun i hi h2 => ?_⟩
  simp

theorem hasDerivAt_polyAt {d : Nat} (P : MvPolynomial (Fin d) ℝ) (k : Fin d) (x : List ℝ) (hx : x.length = d) :
    HasDerivAt (fun t => polyAt P (x.set k t)) (polyAt (pderiv k P) x) (x.getD k 0) := by
  have hset : x.set k (x.getD k 0) = x := by
    rw [List.getD_eq_getElem _ _ (by omega)]
    simp
  induction P using MvPolynomial.induction_on with
  | C a => simpa [polyAt] using hasDerivAt_const (x.getD k 0) a
  | add p q hp hq =>
    have := hp.add hq
    simp only [polyAt, map_add] at this ⊢
    exact this
  | mul_X p i hp =>
    have hX : HasDerivAt (fun t => (x.set k t).getD i 0) (if i = k then 1 else 0) (x.getD k 0) := by
      by_cases hik : i = k
      · subst hik
        have e : (fun t => (x.set i t).getD i 0) = fun t => t := by
          funext t
          rw [List.getD_eq_getElem _ _ (by simp; omega)]
          simp
        rw [e, if_pos rfl]
        exact hasDerivAt_id _
      · have e : (fun t => (x.set k t).getD i 0) = fun _ => x.getD i 0 := by
          funext t
          have : (k : Nat) ≠ i := fun h => hik (Fin.ext h.symm)
          simp [List.getD_eq_getElem?_getD, List.getElem?_set_ne this]
        rw [e, if_neg hik]
        exact hasDerivAt_const _ _
    have := hp.mul hX
    simp only [polyAt, hset] at this ⊢
    simp only [map_mul, eval_X, Derivation.leibniz, pderiv_X, map_add, smul_eq_mul, Pi.single_apply]
    refine this.congr_deriv ?_
    by_cases hik : i = k
    · subst hik; simp; ring
    · simp [hik]; ring

theorem isPartial_polyAt {d : Nat} (P : MvPolynomial (Fin d) ℝ) (k : Fin d) : IsPartial d k (polyAt P) (polyAt (pderiv k P)) :=
  fun x hx => hasDerivAt_polyAt P k x hx

theorem continuousOf_polyAt {d : Nat} (P : MvPolynomial (Fin d) ℝ) : ContinuousOf d (polyAt P) := by
  show Continuous fun x : Fin d → ℝ => eval (fun i : Fin d => (List.ofFn x).getD i 0) P
  simp only [getD_ofFn]
  exact MvPolynomial.continuous_eval P

/-! ## Spaces of one order on a shape -/

/-- The space of order `N` on a shape, as `PN`, `QN` or `TensorProductSpace`. -/
def Spec.Conforms (space : Space) (shape : Shape) (N : Nat) : Prop := space.flatBases = shape.flatBases.map fun d => ⟨d, N⟩

theorem conforms_spatialDim {space : Space} {shape : Shape} {N : Nat} (h : Conforms space shape N) :
    space.spatialDim = shape.dim := by
  have h1 : space.spatialDim = (space.flatBases.map PNSpace.spatialDim).sum := by
    cases space <;> simp [Space.spatialDim, Space.flatBases]
  have h2 : shape.dim = shape.flatBases.sum := by
    cases shape <;> simp [Shape.dim, Shape.flatBases]
  rw [h1, h, h2, List.map_map]
  congr 1
  exact List.map_id _

theorem mem_cubeTuples (d N : Nat) (t : List Nat) :
    (∃ parts : List (List Nat), List.Forall₂ (fun (b : PNSpace) p => p.length = b.spatialDim ∧ p.sum ≤ b.order)
      (List.replicate d ⟨1, N⟩) parts ∧ t = parts.flatten) ↔ t.length = d ∧ ∀ a ∈ t, a ≤ N := by
  induction d generalizing t with
  | zero =>
    constructor
    · rintro ⟨parts, h, rfl⟩
      cases h
      simp
    · rintro ⟨h, -⟩
      obtain rfl := List.length_eq_zero_iff.1 h
      exact ⟨[], .nil, rfl⟩
  | succ d ih =>
    constructor
    · rintro ⟨parts, h, rfl⟩
      rw [List.replicate_succ] at h
      rcases h with _ | ⟨hp, h⟩
      rename_i p ps
      obtain ⟨h1, h2⟩ := (ih ps.flatten).1 ⟨ps, h, rfl⟩
      obtain ⟨a, rfl⟩ := List.length_eq_one_iff.1 hp.1
      simp only [List.flatten_cons, List.singleton_append, List.mem_cons, forall_eq_or_imp]
      exact ⟨by rw [List.length_cons, h1], by simpa using hp.2, h2⟩
    · rintro ⟨h1, h2⟩
      obtain _ | ⟨a, t⟩ := t
      · simp at h1
      · obtain ⟨parts, h, he⟩ := (ih t).2 ⟨by simpa using h1, fun b hb => h2 b (List.mem_cons_of_mem _ hb)⟩
        exact ⟨[a] :: parts, .cons ⟨rfl, by simpa using h2 a (List.mem_cons_self ..)⟩ h, by simp [he]⟩

theorem polyIn_simplex {space : Space} {d N : Nat} (h : Conforms space (.simplex d) N) (P : MvPolynomial (Fin d) ℝ) :
    PolyIn space P ↔ P.totalDegree ≤ N := by
  have hm : ∀ m : Fin d →₀ ℕ, List.ofFn (fun i => m i) ∈ nodeTuples space ↔ (m.sum fun _ e => e) ≤ N := by
    intro m
    rw [mem_nodeTuples, h, Finsupp.sum_fintype _ _ (fun _ => rfl)]
    constructor
    · rintro ⟨parts, hp, he⟩
      simp only [Shape.flatBases, List.map_cons, List.map_nil] at hp
      rcases hp with _ | ⟨h, hn⟩
      cases hn
      simp only [List.flatten_cons, List.flatten_nil, List.append_nil] at he
      rw [← he, List.sum_ofFn] at h
      exact h.2
    · intro hs
      refine ⟨[List.ofFn fun i => m i], ?_, by simp⟩
      simp only [Shape.flatBases, List.map_cons, List.map_nil]
      exact .cons ⟨by simp, by rw [List.sum_ofFn]; exact hs⟩ .nil
  simp only [PolyIn, hm]
  exact ⟨fun h => Finset.sup_le h, fun h m hm => (le_totalDegree hm).trans h⟩

theorem polyIn_cube {space : Space} {d N : Nat} (h : Conforms space (.hypercube d) N) (P : MvPolynomial (Fin d) ℝ) :
    PolyIn space P ↔ ∀ i, degreeOf i P ≤ N := by
  have hm : ∀ m : Fin d →₀ ℕ, List.ofFn (fun i => m i) ∈ nodeTuples space ↔ ∀ i, m i ≤ N := by
    intro m
    rw [mem_nodeTuples, h]
    simp only [Shape.flatBases, List.map_replicate]
    rw [mem_cubeTuples]
    simp [List.mem_ofFn]
  simp only [PolyIn, hm, degreeOf_le_iff]
  exact ⟨fun h i m hm => h m hm i, fun h m hm i => h i m hm⟩

theorem polyIn_mul {space space' space2 : Space} {shape : Shape} {N N' : Nat} (hs : (∃ d, shape = .simplex d) ∨ ∃ d, shape = .hypercube d)
    (h : Conforms space shape N) (h' : Conforms space' shape N') (h2 : Conforms space2 shape (N + N'))
    {d : Nat} (hd : shape.dim = d) (P Q : MvPolynomial (Fin d) ℝ) (hP : PolyIn space P) (hQ : PolyIn space' Q) : PolyIn space2 (P * Q) := by
  obtain ⟨d', rfl⟩ | ⟨d', rfl⟩ := hs
  · obtain rfl : d' = d := hd
    rw [polyIn_simplex h] at hP
    rw [polyIn_simplex h'] at hQ
    rw [polyIn_simplex h2]
    exact (totalDegree_mul _ _).trans (add_le_add hP hQ)
  · obtain rfl : d' = d := by simpa [Shape.dim] using hd
    rw [polyIn_cube h] at hP
    rw [polyIn_cube h'] at hQ
    rw [polyIn_cube h2]
    exact fun i => (degreeOf_mul_le i _ _).trans (add_le_add (hP i) (hQ i))

/-! ## Substitution -/

theorem polyAt_bind {d e : Nat} (L : Fin d → MvPolynomial (Fin e) ℝ) (P : MvPolynomial (Fin d) ℝ) (p x : List ℝ)
    (hx : ∀ i : Fin d, x.getD i 0 = polyAt (L i) p) : polyAt (bind₁ L P) p = polyAt P x := by
  rw [polyAt, eval, eval₂Hom_bind₁, polyAt, eval]
  congr 2
  funext i
  exact (hx i).symm

theorem totalDegree_bind {d e : Nat} (L : Fin d → MvPolynomial (Fin e) ℝ) (hL : ∀ i, (L i).totalDegree ≤ 1)
    (P : MvPolynomial (Fin d) ℝ) : (bind₁ L P).totalDegree ≤ P.totalDegree := by
  rw [bind₁, aeval_def, eval₂_eq']
  refine (totalDegree_finsetSum _ _).trans (Finset.sup_le fun m hm => ?_)
  refine (totalDegree_mul _ _).trans ?_
  rw [algebraMap_eq, totalDegree_C, zero_add]
  refine (totalDegree_finset_prod _ _).trans ?_
  refine le_trans ?_ (le_totalDegree hm)
  rw [Finsupp.sum_fintype _ _ (fun _ => rfl)]
  refine Finset.sum_le_sum fun i _ => ?_
  refine (totalDegree_pow _ _).trans ?_
  calc m i * _ ≤ m i * 1 := Nat.mul_le_mul_left _ (hL i)
    _ = m i := mul_one _

theorem degreeOf_bind {d e N : Nat} (L : Fin d → MvPolynomial (Fin e) ℝ) (j : Fin e) (hL : ∑ i, degreeOf j (L i) ≤ 1)
    (P : MvPolynomial (Fin d) ℝ) (hP : ∀ i, degreeOf i P ≤ N) : degreeOf j (bind₁ L P) ≤ N := by
  rw [bind₁, aeval_def, eval₂_eq']
  refine (degreeOf_sum_le _ _ _).trans (Finset.sup_le fun m hm => ?_)
  refine (degreeOf_mul_le _ _ _).trans ?_
  rw [algebraMap_eq, degreeOf_C, zero_add]
  refine (degreeOf_prod_le _ _ _).trans ?_
  calc ∑ i, degreeOf j (L i ^ m i) ≤ ∑ i, N * degreeOf j (L i) := Finset.sum_le_sum fun i _ =>
        (degreeOf_pow_le _ _ _).trans (Nat.mul_le_mul_right _ ((monomial_le_degreeOf i hm).trans (hP i)))
    _ = N * ∑ i, degreeOf j (L i) := by rw [Finset.mul_sum]
    _ ≤ N * 1 := Nat.mul_le_mul_left _ hL
    _ = N := mul_one _

/-! ## Integrals -/

theorem zipWith_slices_ones (t : List Nat) (x : List ℝ) (h : t.length = x.length) :
    (List.zipWith (fun (F : List ℝ → ℝ) z => F z) (t.map fun a => monomialValue [a]) (slices (List.replicate x.length 1) x)).prod =
      monomialValue t x := by
  induction t generalizing x with
  | nil => simp [monomialValue]
  | cons a t ih =>
    obtain _ | ⟨y, x⟩ := x
    · simp at h
    · have := ih x (by simpa using h)
      simp only [List.length_cons, List.replicate_succ, slices, List.map_cons, List.zipWith_cons_cons, List.prod_cons,
        List.take_succ_cons, List.take_zero, List.drop_succ_cons, List.drop_zero, this]
      simp [monomialValue]

theorem productIntegral_ones (t : List Nat) :
    productIntegral (List.replicate t.length 1) (monomialValue t) = Spec.cubeIntegral t.length (monomialValue t) := by
  have h := productIntegral_product (List.replicate t.length 1) (t.map fun a => monomialValue [a]) (by simp)
  have e : productIntegral (List.replicate t.length 1) (monomialValue t) = productIntegral (List.replicate t.length 1)
      (fun x => (List.zipWith (fun (F : List ℝ → ℝ) z => F z) (t.map fun a => monomialValue [a])
        (slices (List.replicate t.length 1) x)).prod) := by
    apply productIntegral_congr
    intro x hx
    have hx : x.length = t.length := by simpa using hx
    rw [← hx, zipWith_slices_ones t x hx.symm]
  rw [e, h]
  have hset : cubeSet t.length = Set.univ.pi fun _ : Fin t.length => Set.Icc (-1 : ℝ) 1 := by
    ext x
    simp only [cubeSet, Set.mem_ofPred_eq, Set.mem_pi, Set.mem_univ, true_implies, Set.mem_Icc]
  have hval : ∀ x : Fin t.length → ℝ, monomialValue t (List.ofFn x) = ∏ i, x i ^ t[i] := by
    intro x
    rw [← prod_pow_eq_monomialValue t (List.ofFn x) rfl (by simp)]
    refine Finset.prod_congr rfl fun i _ => ?_
    have := congrFun (getD_ofFn x) i
    rw [this]
    simp [expo, List.getD_eq_getElem?_getD]
  rw [Spec.cubeIntegral]
  simp only [hval]
  rw [hset, volume_pi, Measure.restrict_pi_pi, integral_fintype_prod_eq_prod (fun (i : Fin t.length) (s : ℝ) => s ^ t[i]), ← List.prod_ofFn]
  congr 1
  apply List.ext_getElem
  · simp
  · intro i h1 h2
    simp only [List.getElem_zipWith, List.getElem_replicate, List.getElem_map, List.getElem_ofFn]
    rw [simplexIntegral_one, intervalIntegral.integral_of_le (by norm_num), ← integral_Icc_eq_integral_Ioc]
    simp [monomialValue]

theorem continuousIn_polyAt (dims : List Nat) {d : Nat} (hd : dims.sum = d) (P : MvPolynomial (Fin d) ℝ) : ContinuousIn dims (polyAt P) := by
  have h : (fun x : (i : Fin dims.length) → Fin dims[i] → ℝ => polyAt P (List.ofFn fun i => List.ofFn (x i)).flatten) =
      fun x => ∑ m ∈ P.support, coeff m P * monomialValue (List.ofFn fun i => m i) (List.ofFn fun i => List.ofFn (x i)).flatten := by
    funext x
    rw [polyAt, eval_eq']
    refine Finset.sum_congr rfl fun m _ => ?_
    rw [← prod_pow_eq_monomialValue (d := d) _ _ (by simp) ((length_flatten_ofFn dims x).trans hd), expo_ofFn]
  show Continuous _
  rw [h]
  exact continuous_finsetSum _ fun m _ => continuous_const.mul (continuous_monomialValue dims _)

theorem productIntegral_polyAt (dims : List Nat) {d : Nat} (hd : dims.sum = d) (P : MvPolynomial (Fin d) ℝ) :
    productIntegral dims (polyAt P) = ∑ m ∈ P.support, coeff m P * productIntegral dims (monomialValue (List.ofFn fun i => m i)) := by
  rw [← productIntegral_sum dims P.support (fun m => coeff m P) _ fun m _ => continuous_monomialValue dims _]
  apply productIntegral_congr
  intro x hx
  rw [polyAt, eval_eq']
  refine Finset.sum_congr rfl fun m _ => ?_
  rw [← prod_pow_eq_monomialValue (d := d) _ _ (by simp) (hx.trans hd), expo_ofFn]

theorem cubeIntegral_polyAt {d : Nat} (P : MvPolynomial (Fin d) ℝ) :
    Spec.cubeIntegral d (polyAt P) = ∑ m ∈ P.support, coeff m P * Spec.cubeIntegral d (monomialValue (List.ofFn fun i => m i)) := by
  have hc : ∀ m : Fin d →₀ ℕ, Continuous fun x : Fin d → ℝ => monomialValue (List.ofFn fun i => m i) (List.ofFn x) := by
    intro m
    have := continuousOf_polyAt (MvPolynomial.monomial m (1 : ℝ))
    simp only [ContinuousOf] at this
    refine this.congr fun x => ?_
    rw [polyAt_monomial _ _ _ (by simp), one_mul]
  simp only [Spec.cubeIntegral]
  rw [← Finset.sum_congr rfl fun m _ => integral_const_mul _ _, ← integral_finsetSum]
  · congr 1
    funext x
    rw [polyAt, eval_eq']
    refine Finset.sum_congr rfl fun m _ => ?_
    rw [← prod_pow_eq_monomialValue (d := d) _ _ (by simp) (by simp), expo_ofFn]
  · intro m _
    exact Integrable.const_mul ((hc m).continuousOn.integrableOn_compact (isCompact_cubeSet d)) _

/-- The integral over the product of the factors of the space is the integral over the shape. -/
theorem spaceIntegral_polyAt {space : Space} {shape : Shape} {N : Nat} (h : Conforms space shape N) {d : Nat} (hd : shape.dim = d)
    (P : MvPolynomial (Fin d) ℝ) : spaceIntegral space (polyAt P) = Spec.shapeIntegral shape (polyAt P) := by
  have hb : space.flatBases.map PNSpace.spatialDim = shape.flatBases := by
    rw [h, List.map_map]
    exact List.map_id _
  rw [spaceIntegral, hb]
  cases shape with
  | simplex d => exact productIntegral_single d _
  | tp bs => rfl
  | hypercube d' =>
    obtain rfl : d' = d := by simpa [Shape.dim] using hd
    simp only [Shape.flatBases, Spec.shapeIntegral]
    rw [productIntegral_polyAt _ (by simp), cubeIntegral_polyAt]
    refine Finset.sum_congr rfl fun m _ => ?_
    have := productIntegral_ones (List.ofFn fun i => m i)
    rw [List.length_ofFn] at this
    rw [this]

end Modepy

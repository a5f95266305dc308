import Verif.Proofs.ModeTuples
import Verif.Props.SumFactorization

/-!
# Property C95: modal coefficients and modal filters

`la.solve(vandermonde(basis.functions, nodes), u)` are the coefficients of the interpolating polynomial in the orthonormal
basis: their squares add up to its squared `L²` norm, and dropping the modes whose ids are not ids of a smaller space is the
`L²` projection onto that space.
-/

namespace Modepy
open Spec NdArray Matrix

/-- `vandermonde(basis.functions, nodes)` is the array `V`. -/
def Spec.IsVandermonde (b : Basis ℝ) {m n : Nat} (nodes : Fin m → List ℝ) (V : Matrix (Fin m) (Fin n) ℝ) : Prop :=
  ∃ fs, b.functions = .ok fs ∧ vandermondeRows fs (List.ofFn nodes) = .ok (List.ofFn fun i => List.ofFn (V i))

theorem vandermondeRows_eq {n m : Nat} (fs : List (List ℝ → Py ℝ)) (hl : fs.length = n) (nodes : Fin m → List ℝ)
    (φ : Fin n → List ℝ → ℝ)
    (hv : ∀ (k : Fin n) i, (fs.getD k fun _ => .error .IndexError) (nodes i) = .ok (φ k (nodes i))) :
    vandermondeRows fs (List.ofFn nodes) = .ok (List.ofFn fun i => List.ofFn (vandermonde φ nodes i)) := by
  subst hl
  have h1 : ∀ i, collect (fs.map fun f => f (nodes i)) = .ok (List.ofFn (vandermonde φ nodes i)) := by
    intro i
    have : fs.map (fun f => f (nodes i)) = (List.ofFn (vandermonde φ nodes i)).map Except.ok := by
      apply List.ext_getElem
      · simp
      · intro k h h'
        have hk : k < fs.length := by simpa using h
        have := hv ⟨k, hk⟩ i
        simp only [List.getD_eq_getElem?_getD, List.getElem?_eq_getElem hk, Option.getD_some] at this
        simp [this, vandermonde]
    rw [this, collect_ok]
  have h2 : (List.ofFn nodes).map (fun x => collect (fs.map fun f => f x)) =
      (List.ofFn fun i => List.ofFn (vandermonde φ nodes i)).map Except.ok := by
    rw [List.map_ofFn, List.map_ofFn]
    congr 1
    funext i
    exact h1 i
  rw [vandermondeRows, h2, collect_ok]

/-- The polynomials of an orthonormal basis. -/
theorem represents_isOrthonormal {b : Basis ℝ} {space : Space} (hb : IsOrthonormalBasisOf b space)
    (hd : ∀ s ∈ space.flatBases, 1 ≤ s.spatialDim ∧ s.spatialDim ≤ 3) :
    ∃ fs C, Represents b space fs C ∧ ∀ k l, spaceIntegral space (fun x => spacePoly space (C k) x * spacePoly space (C l) x) =
      if k = l then 1 else 0 := by
  have hn : (space.flatBases.map modeNorm).prod = 1 := prod_modeNorm_eq_one _ fun s hs => by have := (hd s hs).1; omega
  obtain ⟨shape, h | h⟩ := hb
  · obtain ⟨fs, C, h1, h2, -⟩ := represents_orthonormal space shape b h fun s hs => (hd s hs).2
    rw [hn] at h2
    exact ⟨fs, C, h1, h2⟩
  · obtain ⟨fs, C, h1, h2, -⟩ := represents_basis space shape b h
    have h2 := h2 fun s hs => (hd s hs).2
    rw [hn] at h2
    exact ⟨fs, C, h1, h2⟩

/-- The inner product of combinations of orthonormal functions. -/
theorem integral_combine {space : Space} {C : Matrix (Fin (nodeTuples space).length) (Fin (nodeTuples space).length) ℝ}
    (hC : ∀ k l, spaceIntegral space (fun x => spacePoly space (C k) x * spacePoly space (C l) x) = if k = l then 1 else 0)
    (a e : Fin (nodeTuples space).length → ℝ) :
    spaceIntegral space (fun x => combine (fun k => spacePoly space (C k)) a x * combine (fun k => spacePoly space (C k)) e x) =
      ∑ k, a k * e k := by
  have h := spaceIntegral_bilinear space (fun i => C i) fun i j => a i * e j
  have e1 : (fun x => combine (fun k => spacePoly space (C k)) a x * combine (fun k => spacePoly space (C k)) e x) =
      fun y => ∑ i, ∑ j, a i * e j * (spacePoly space (C i) y * spacePoly space (C j) y) := by
    funext x
    simp only [combine, Finset.sum_mul_sum]
    refine Finset.sum_congr rfl fun i _ => Finset.sum_congr rfl fun j _ => ?_
    ring
  rw [e1, h]
  refine Finset.sum_congr rfl fun i _ => ?_
  simp [hC]

/-- Polynomials of the smaller space are polynomials of the larger one. -/
theorem Spec.SubSpace.embed {small large : Space} (h : SubSpace small large) (c : Fin (nodeTuples small).length → ℝ) :
    ∃ c', ∀ x : List ℝ, x.length = large.spatialDim → spacePoly small c x = spacePoly large c' x := by
  obtain ⟨P, hP, hx⟩ := spacePoly_polyAt small h.spatialDim c
  obtain ⟨c', hc'⟩ := polyAt_spacePoly large rfl P fun m hm => h.mem (hP m hm)
  exact ⟨c', fun x hl => (hx x hl).trans (hc' x hl)⟩

/-- The modes of the smaller space are modes of the larger one. -/
theorem modes_embed {small large : Space} (h : SubSpace small large) {b b' : Basis ℝ} (hb : IsOrthonormalBasisOf b large)
    (hb' : IsOrthonormalBasisOf b' small) (hd : ∀ s ∈ large.flatBases, 1 ≤ s.spatialDim ∧ s.spatialDim ≤ 3)
    (hd' : ∀ s ∈ small.flatBases, 1 ≤ s.spatialDim ∧ s.spatialDim ≤ 3)
    (nodes : Fin (nodeTuples large).length → List ℝ) (hreg : ∀ i, RegularFor large (nodes i)) (hu : UnisolventFor large nodes)
    {fs fs' : List (List ℝ → Py ℝ)} {C : Matrix (Fin (nodeTuples large).length) (Fin (nodeTuples large).length) ℝ}
    {C' : Matrix (Fin (nodeTuples small).length) (Fin (nodeTuples small).length) ℝ}
    (hr : Represents b large fs C) (hr' : Represents b' small fs' C')
    (k : Fin (nodeTuples large).length) (k' : Fin (nodeTuples small).length) (hk : (nodeTuples small)[k'] = (nodeTuples large)[k])
    (x : List ℝ) (hx : x.length = large.spatialDim) : spacePoly small (C' k') x = spacePoly large (C k) x := by
  have e1 := (modes_orthonormal hb hd).1
  have e2 := (modes_orthonormal hb' hd').1
  rw [hr.functions] at e1
  rw [hr'.functions] at e2
  obtain rfl := Except.ok.inj e1
  obtain rfl := Except.ok.inj e2
  obtain ⟨c, hc⟩ := h.embed (C' k')
  have hz : c - C k = 0 := by
    refine hu (c - C k) fun i => ?_
    have hv := hr.value k (nodes i) (hreg i)
    have hv' := hr'.value k' (nodes i) ((h.regular _).2 (hreg i))
    have g1 : ((nodeTuples large).map (modeFn large)).getD k (fun _ => .error .IndexError) = modeFn large (nodeTuples large)[k] := by
      simp [List.getD_eq_getElem?_getD]
    have g2 : ((nodeTuples small).map (modeFn small)).getD k' (fun _ => .error .IndexError) = modeFn large (nodeTuples large)[k] := by
      rw [← hk, ← h.modeFn_eq]
      simp [List.getD_eq_getElem?_getD]
    rw [g1] at hv
    rw [g2, hv] at hv'
    have hv' := Except.ok.inj hv'
    have hsub : combine (fun l : Fin (nodeTuples large).length => monomialValue (nodeTuples large)[l]) (c - C k) (nodes i) =
        spacePoly large c (nodes i) - spacePoly large (C k) (nodes i) := by
      simp only [spacePoly, combine, Pi.sub_apply, sub_mul, Finset.sum_sub_distrib]
    rw [hsub, ← hc _ (hreg i).1, hv', sub_self]
  rw [hc x hx, sub_eq_zero.1 hz]

/-- **C95 (modal coefficients).**  For the orthonormal basis of a space whose factors have dimension one to three and regular
nodes unisolvent for the space, `vandermonde(basis.functions, nodes)` is invertible, and the modal coefficients
`la.solve(V, u)` of the values of a polynomial are its coefficients in the basis functions, with squares adding up to the integral
of its square and products adding up to the integral of products. -/
theorem C95_modal_coefficients {b : Basis ℝ} {space : Space} (hb : IsOrthonormalBasisOf b space)
    (hd : ∀ s ∈ space.flatBases, 1 ≤ s.spatialDim ∧ s.spatialDim ≤ 3)
    (nodes : Fin (nodeTuples space).length → List ℝ) (hreg : ∀ i, RegularFor space (nodes i)) (hu : UnisolventFor space nodes) :
    ∃ (fs : List (List ℝ → Py ℝ)) (V : Matrix (Fin (nodeTuples space).length) (Fin (nodeTuples space).length) ℝ),
      b.functions = .ok fs ∧ IsVandermonde b nodes V ∧ V.det ≠ 0 ∧
      (∀ u : Fin (nodeTuples space).length → ℝ, ∃ c, ∀ i, spacePoly space c (nodes i) = u i) ∧
      (∀ c x, RegularFor space x → ∃ v : Fin (nodeTuples space).length → ℝ, (∀ k : Fin (nodeTuples space).length, (fs.getD k fun _ => .error .IndexError) x = .ok (v k)) ∧
        ∑ k, (V⁻¹ *ᵥ fun i => spacePoly space c (nodes i)) k * v k = spacePoly space c x) ∧
      ∀ c e, ∑ k, (V⁻¹ *ᵥ fun i => spacePoly space c (nodes i)) k * (V⁻¹ *ᵥ fun i => spacePoly space e (nodes i)) k =
        spaceIntegral space fun x => spacePoly space c x * spacePoly space e x := by
  obtain ⟨fs, C, hr, hG⟩ := represents_isOrthonormal hb hd
  have hun := unisolvent_represents space nodes hu C hr.det
  have hdet := (unisolvent_iff_det _ _).1 hun
  have hm : ∀ a, ((vandermonde (fun k => spacePoly space (C k)) nodes)⁻¹ *ᵥ fun i => combine (fun k => spacePoly space (C k)) a (nodes i)) = a := by
    intro a
    have : (fun i => combine (fun k => spacePoly space (C k)) a (nodes i)) = vandermonde (fun k => spacePoly space (C k)) nodes *ᵥ a := by
      funext i
      exact (vandermonde_mulVec (fun k => spacePoly space (C k)) nodes a i).symm
    rw [this, mulVec_mulVec, nonsing_inv_mul _ hdet.isUnit, one_mulVec]
  refine ⟨fs, vandermonde (fun k => spacePoly space (C k)) nodes, hr.functions, ⟨fs, hr.functions,
    vandermondeRows_eq fs hr.length nodes _ fun k i => hr.value k _ (hreg i)⟩, hdet, fun u => ?_, fun c x hx => ?_, fun c e => ?_⟩
  · refine ⟨((vandermonde (fun k => spacePoly space (C k)) nodes)⁻¹ *ᵥ u) ᵥ* C, fun i => ?_⟩
    rw [← combine_represents, ← vandermonde_mulVec (fun k => spacePoly space (C k)) nodes _ i, mulVec_mulVec,
      mul_nonsing_inv _ hdet.isUnit, one_mulVec]
  · obtain ⟨a, ha⟩ := exists_combine space C hr.det c
    refine ⟨fun k => spacePoly space (C k) x, fun k => hr.value k x hx, ?_⟩
    rw [ha, hm]
    rfl
  · obtain ⟨a, ha⟩ := exists_combine space C hr.det c
    obtain ⟨a', ha'⟩ := exists_combine space C hr.det e
    rw [ha, ha', hm, hm, integral_combine hG]

theorem isVandermonde_unique {b : Basis ℝ} {m n : Nat} {nodes : Fin m → List ℝ} {V W : Matrix (Fin m) (Fin n) ℝ}
    (hV : IsVandermonde b nodes V) (hW : IsVandermonde b nodes W) : V = W := by
  obtain ⟨fs, h1, h2⟩ := hV
  obtain ⟨fs', h3, h4⟩ := hW
  rw [h1] at h3
  obtain rfl := Except.ok.inj h3
  rw [h2] at h4
  have h := List.ofFn_injective (Except.ok.inj h4)
  ext i j
  exact congrFun (List.ofFn_injective (congrFun h i)) j

/-- The filter with factors `σ` maps the values of a combination to those of the combination with scaled coefficients. -/
theorem filter_combine {n : Nat} (φ : Fin n → List ℝ → ℝ) (nodes : Fin n → List ℝ) (hdet : (vandermonde φ nodes).det ≠ 0)
    (σ a : Fin n → ℝ) (i : Fin n) :
    ((vandermonde φ nodes * diagonal σ * (vandermonde φ nodes)⁻¹) *ᵥ fun i => combine φ a (nodes i)) i =
      combine φ (fun k => σ k * a k) (nodes i) := by
  have e : (fun i => combine φ a (nodes i)) = vandermonde φ nodes *ᵥ a := by
    funext i
    exact (vandermonde_mulVec φ nodes a i).symm
  rw [e, mulVec_mulVec, Matrix.mul_assoc, nonsing_inv_mul _ hdet.isUnit, Matrix.mul_one, ← mulVec_mulVec, vandermonde_mulVec]
  congr 1
  funext k
  exact mulVec_diagonal σ a k

/-- **C95 (filters).**  Scaling the modal coefficients by factors `σ`, that is multiplying nodal values by `V diag(σ) V⁻¹`, gives
the nodal values of a polynomial of the space, whose `L²` norm is not larger if no factor exceeds one in absolute value. -/
theorem C95_filter {b : Basis ℝ} {space : Space} (hb : IsOrthonormalBasisOf b space)
    (hd : ∀ s ∈ space.flatBases, 1 ≤ s.spatialDim ∧ s.spatialDim ≤ 3)
    (nodes : Fin (nodeTuples space).length → List ℝ) (hreg : ∀ i, RegularFor space (nodes i)) (hu : UnisolventFor space nodes)
    (V : Matrix (Fin (nodeTuples space).length) (Fin (nodeTuples space).length) ℝ) (hV : IsVandermonde b nodes V)
    (σ c : Fin (nodeTuples space).length → ℝ) :
    ∃ q, (∀ i, ((V * diagonal σ * V⁻¹) *ᵥ fun i => spacePoly space c (nodes i)) i = spacePoly space q (nodes i)) ∧
      ((∀ k, |σ k| ≤ 1) → spaceIntegral space (fun x => spacePoly space q x * spacePoly space q x) ≤
        spaceIntegral space fun x => spacePoly space c x * spacePoly space c x) := by
  obtain ⟨fs, C, hr, hG⟩ := represents_isOrthonormal hb hd
  have hdet := (unisolvent_iff_det _ _).1 (unisolvent_represents space nodes hu C hr.det)
  obtain rfl := isVandermonde_unique hV ⟨fs, hr.functions, vandermondeRows_eq fs hr.length nodes _ fun k i => hr.value k _ (hreg i)⟩
  obtain ⟨a, ha⟩ := exists_combine space C hr.det c
  refine ⟨(fun k => σ k * a k) ᵥ* C, fun i => ?_, fun hσ => ?_⟩
  · rw [ha, filter_combine _ _ hdet, combine_represents]
  · have e : spacePoly space ((fun k => σ k * a k) ᵥ* C) = combine (fun k => spacePoly space (C k)) fun k => σ k * a k :=
      funext fun x => (combine_represents space C _ x).symm
    rw [e, ha, integral_combine hG, integral_combine hG]
    refine Finset.sum_le_sum fun k _ => ?_
    have h1 : σ k * σ k ≤ 1 := by
      have := abs_le_one_iff_mul_self_le_one.1 (hσ k)
      exact this
    nlinarith [mul_self_nonneg (a k)]

/-- Polynomials of the smaller space are the combinations of the modes the two spaces share. -/
theorem shared_modes {small large : Space} (h : SubSpace small large) {b b' : Basis ℝ} (hb : IsOrthonormalBasisOf b large)
    (hb' : IsOrthonormalBasisOf b' small) (hd : ∀ s ∈ large.flatBases, 1 ≤ s.spatialDim ∧ s.spatialDim ≤ 3)
    (hd' : ∀ s ∈ small.flatBases, 1 ≤ s.spatialDim ∧ s.spatialDim ≤ 3)
    (nodes : Fin (nodeTuples large).length → List ℝ) (hreg : ∀ i, RegularFor large (nodes i)) (hu : UnisolventFor large nodes)
    {fs : List (List ℝ → Py ℝ)} {C : Matrix (Fin (nodeTuples large).length) (Fin (nodeTuples large).length) ℝ}
    (hr : Represents b large fs C) :
    (∀ e, ∃ a : Fin (nodeTuples large).length → ℝ, (∀ k, (nodeTuples large)[k] ∉ nodeTuples small → a k = 0) ∧
      ∀ x : List ℝ, x.length = large.spatialDim → spacePoly small e x = combine (fun k => spacePoly large (C k)) a x) ∧
    ∀ a : Fin (nodeTuples large).length → ℝ, (∀ k, (nodeTuples large)[k] ∉ nodeTuples small → a k = 0) → ∃ e,
      ∀ x : List ℝ, x.length = large.spatialDim → spacePoly small e x = combine (fun k => spacePoly large (C k)) a x := by
  obtain ⟨fs', C', hr', -⟩ := represents_isOrthonormal hb' hd'
  have hι : ∀ k' : Fin (nodeTuples small).length, ∃ k : Fin (nodeTuples large).length, (nodeTuples small)[k'] = (nodeTuples large)[k] := by
    intro k'
    obtain ⟨k, hk, e⟩ := List.mem_iff_getElem.1 (h.mem (List.getElem_mem k'.2))
    exact ⟨⟨k, hk⟩, e.symm⟩
  choose ι hι using hι
  have hinj : Function.Injective ι := by
    intro k l e
    have h1 := hι k
    rw [e, ← hι l] at h1
    exact Fin.ext ((List.Nodup.getElem_inj_iff (nodup_nodeTuples small)).1 h1)
  have hnot : ∀ k, (∀ k', ι k' ≠ k) → (nodeTuples large)[k] ∉ nodeTuples small := by
    intro k hk hmem
    obtain ⟨k', hk', e⟩ := List.mem_iff_getElem.1 hmem
    have h1 := hι ⟨k', hk'⟩
    have h2 : (nodeTuples large)[ι ⟨k', hk'⟩] = (nodeTuples large)[k] := h1.symm.trans e
    exact hk ⟨k', hk'⟩ (Fin.ext ((List.Nodup.getElem_inj_iff (nodup_nodeTuples large)).1 h2))
  have hφ := fun k' x hx => modes_embed h hb hb' hd hd' nodes hreg hu hr hr' (ι k') k' (hι k') x hx
  have key : ∀ (a : Fin (nodeTuples large).length → ℝ) (a' : Fin (nodeTuples small).length → ℝ), (∀ k', a (ι k') = a' k') →
      (∀ k, (∀ k', ι k' ≠ k) → a k = 0) → ∀ x : List ℝ, x.length = large.spatialDim →
      combine (fun k => spacePoly small (C' k)) a' x = combine (fun k => spacePoly large (C k)) a x := by
    intro a a' h1 h2 x hx
    simp only [combine]
    refine Finset.sum_of_injOn ι hinj.injOn (fun _ _ => Finset.mem_coe.2 (Finset.mem_univ _)) (fun k _ hk => ?_) fun k' _ => ?_
    · rw [h2 k fun k' e => hk ⟨k', Finset.mem_coe.2 (Finset.mem_univ _), e⟩, zero_mul]
    · rw [h1, hφ k' x hx]
  constructor
  · intro e
    obtain ⟨a', ha'⟩ := exists_combine small C' hr'.det e
    refine ⟨Function.extend ι a' 0, fun k hk => ?_, fun x hx => ?_⟩
    · refine Function.extend_apply' _ _ _ fun ⟨k', hk'⟩ => hk ?_
      rw [← hk', ← hι k']
      exact List.getElem_mem _
    · rw [ha']
      exact key _ _ (fun k' => hinj.extend_apply _ _ _) (fun k hk => Function.extend_apply' _ _ _ fun ⟨k', hk'⟩ => hk k' hk') x hx
  · intro a ha
    refine ⟨(fun k' => a (ι k')) ᵥ* C', fun x hx => ?_⟩
    rw [← combine_represents]
    exact key a _ (fun _ => rfl) (fun k hk => ha k (hnot k hk)) x hx

/-- **C95 (moments).**  A filter with factor one for the modes whose ids are mode ids of a smaller space does not change the
integral against any polynomial of that space; with the space of order zero: the integral itself. -/
theorem C95_moments {small large : Space} (h : SubSpace small large) {b b' : Basis ℝ} (hb : IsOrthonormalBasisOf b large)
    (hb' : IsOrthonormalBasisOf b' small) (hd : ∀ s ∈ large.flatBases, 1 ≤ s.spatialDim ∧ s.spatialDim ≤ 3)
    (hd' : ∀ s ∈ small.flatBases, 1 ≤ s.spatialDim ∧ s.spatialDim ≤ 3)
    (nodes : Fin (nodeTuples large).length → List ℝ) (hreg : ∀ i, RegularFor large (nodes i)) (hu : UnisolventFor large nodes)
    (V : Matrix (Fin (nodeTuples large).length) (Fin (nodeTuples large).length) ℝ) (hV : IsVandermonde b nodes V) :
    ∃ ids ids', b.modeIds = .ok ids ∧ b'.modeIds = .ok ids' ∧ ids.length = (nodeTuples large).length ∧
      ∀ σ : Fin (nodeTuples large).length → ℝ, (∀ k : Fin (nodeTuples large).length, ids.getD k (.tup []) ∈ ids' → σ k = 1) → ∀ c, ∃ q,
        (∀ i, ((V * diagonal σ * V⁻¹) *ᵥ fun i => spacePoly large c (nodes i)) i = spacePoly large q (nodes i)) ∧
        ∀ e, spaceIntegral large (fun x => spacePoly large q x * spacePoly small e x) =
          spaceIntegral large fun x => spacePoly large c x * spacePoly small e x := by
  refine ⟨_, _, (modes_orthonormal hb hd).2, (modes_orthonormal hb' hd').2, by simp, fun σ hσ c => ?_⟩
  obtain ⟨fs, C, hr, hG⟩ := represents_isOrthonormal hb hd
  have hdet := (unisolvent_iff_det _ _).1 (unisolvent_represents large nodes hu C hr.det)
  obtain rfl := isVandermonde_unique hV ⟨fs, hr.functions, vandermondeRows_eq fs hr.length nodes _ fun k i => hr.value k _ (hreg i)⟩
  obtain ⟨a, ha⟩ := exists_combine large C hr.det c
  have hσ' : ∀ k : Fin (nodeTuples large).length, (nodeTuples large)[k] ∈ nodeTuples small → σ k = 1 := by
    intro k hk
    refine hσ k ?_
    have e : ((nodeTuples large).map (modeIdOf large)).getD k (.tup []) = modeIdOf large (nodeTuples large)[k] := by
      simp [List.getD_eq_getElem?_getD]
    rw [e]
    exact (h.mem_ids (List.getElem_mem _)).2 hk
  refine ⟨(fun k => σ k * a k) ᵥ* C, fun i => ?_, fun e => ?_⟩
  · rw [ha, filter_combine _ _ hdet, combine_represents]
  · obtain ⟨a', h0, ha'⟩ := (shared_modes h hb hb' hd hd' nodes hreg hu hr).1 e
    have e1 : spacePoly large ((fun k => σ k * a k) ᵥ* C) = combine (fun k => spacePoly large (C k)) fun k => σ k * a k :=
      funext fun x => (combine_represents large C _ x).symm
    rw [e1, ha, spaceIntegral_congr large _ _ fun x hx => by rw [ha' x hx],
      spaceIntegral_congr large (fun x => combine (fun k => spacePoly large (C k)) a x * spacePoly small e x) _ fun x hx => by
        rw [ha' x hx], integral_combine hG, integral_combine hG]
    refine Finset.sum_congr rfl fun k _ => ?_
    by_cases hk : (nodeTuples large)[k] ∈ nodeTuples small
    · rw [hσ' k hk, one_mul]
    · rw [h0 k hk, mul_zero, mul_zero]

/-- **C95 (truncation).**  Dropping the modes whose ids are not mode ids of the smaller space gives the nodal values of the
polynomial of the smaller space closest in `L²`. -/
theorem C95_truncation {small large : Space} (h : SubSpace small large) {b b' : Basis ℝ} (hb : IsOrthonormalBasisOf b large)
    (hb' : IsOrthonormalBasisOf b' small) (hd : ∀ s ∈ large.flatBases, 1 ≤ s.spatialDim ∧ s.spatialDim ≤ 3)
    (hd' : ∀ s ∈ small.flatBases, 1 ≤ s.spatialDim ∧ s.spatialDim ≤ 3)
    (nodes : Fin (nodeTuples large).length → List ℝ) (hreg : ∀ i, RegularFor large (nodes i)) (hu : UnisolventFor large nodes)
    (V : Matrix (Fin (nodeTuples large).length) (Fin (nodeTuples large).length) ℝ) (hV : IsVandermonde b nodes V) :
    ∃ ids ids', b.modeIds = .ok ids ∧ b'.modeIds = .ok ids' ∧ ids.length = (nodeTuples large).length ∧
      ∀ σ : Fin (nodeTuples large).length → ℝ, (∀ k : Fin (nodeTuples large).length, ids.getD k (.tup []) ∈ ids' → σ k = 1) →
        (∀ k : Fin (nodeTuples large).length, ids.getD k (.tup []) ∉ ids' → σ k = 0) → ∀ c, ∃ q,
        (∀ i, ((V * diagonal σ * V⁻¹) *ᵥ fun i => spacePoly large c (nodes i)) i = spacePoly small q (nodes i)) ∧
        ∀ e, spaceIntegral large (fun x => (spacePoly large c x - spacePoly small q x) ^ 2) ≤
          spaceIntegral large fun x => (spacePoly large c x - spacePoly small e x) ^ 2 := by
  refine ⟨_, _, (modes_orthonormal hb hd).2, (modes_orthonormal hb' hd').2, by simp, fun σ hσ1 hσ0 c => ?_⟩
  obtain ⟨fs, C, hr, hG⟩ := represents_isOrthonormal hb hd
  have hdet := (unisolvent_iff_det _ _).1 (unisolvent_represents large nodes hu C hr.det)
  obtain rfl := isVandermonde_unique hV ⟨fs, hr.functions, vandermondeRows_eq fs hr.length nodes _ fun k i => hr.value k _ (hreg i)⟩
  obtain ⟨a, ha⟩ := exists_combine large C hr.det c
  have hget : ∀ k : Fin (nodeTuples large).length,
      ((nodeTuples large).map (modeIdOf large)).getD k (.tup []) ∈ (nodeTuples small).map (modeIdOf small) ↔
        (nodeTuples large)[k] ∈ nodeTuples small := by
    intro k
    have e : ((nodeTuples large).map (modeIdOf large)).getD k (.tup []) = modeIdOf large (nodeTuples large)[k] := by
      simp [List.getD_eq_getElem?_getD]
    rw [e]
    exact h.mem_ids (List.getElem_mem _)
  obtain ⟨hs1, hs2⟩ := shared_modes h hb hb' hd hd' nodes hreg hu hr
  obtain ⟨q, hq⟩ := hs2 (fun k => σ k * a k) fun k hk => by rw [hσ0 k fun hc => hk ((hget k).1 hc), zero_mul]
  refine ⟨q, fun i => ?_, fun e => ?_⟩
  · rw [ha, filter_combine _ _ hdet, hq _ (hreg i).1]
  · obtain ⟨a', h0, ha'⟩ := hs1 e
    have hsq : ∀ (g : Space) (d : Fin (nodeTuples g).length → ℝ) (a' : Fin (nodeTuples large).length → ℝ),
        (∀ x : List ℝ, x.length = large.spatialDim → spacePoly g d x = combine (fun k => spacePoly large (C k)) a' x) →
        spaceIntegral large (fun x => (spacePoly large c x - spacePoly g d x) ^ 2) = ∑ k, (a k - a' k) * (a k - a' k) := by
      intro g d a' hd
      rw [← integral_combine hG (fun k => a k - a' k) fun k => a k - a' k]
      refine spaceIntegral_congr large _ _ fun x hx => ?_
      have : combine (fun k => spacePoly large (C k)) (fun k => a k - a' k) x =
          combine (fun k => spacePoly large (C k)) a x - combine (fun k => spacePoly large (C k)) a' x := by
        simp only [combine, sub_mul, Finset.sum_sub_distrib]
      rw [hd x hx, ha, this]
      ring
    rw [hsq small q _ hq, hsq small e _ ha']
    refine Finset.sum_le_sum fun k _ => ?_
    by_cases hk : (nodeTuples large)[k] ∈ nodeTuples small
    · rw [hσ1 k ((hget k).2 hk), one_mul, sub_self, zero_mul]
      exact mul_self_nonneg _
    · rw [hσ0 k fun hc => hk ((hget k).1 hc), h0 k hk, zero_mul]

/-- **C95 (cutting the degree on a simplex).**  Dropping the modes whose ids add up to more than `r` is the `L²` projection onto
the polynomials of degree `r`. -/
theorem C95_simplex (d n r : Nat) (hd : 1 ≤ d ∧ d ≤ 3) (hr : r ≤ n) {b : Basis ℝ} (hb : IsOrthonormalBasisOf b (.pn ⟨d, n⟩))
    (nodes : Fin (nodeTuples (.pn ⟨d, n⟩)).length → List ℝ) (hreg : ∀ i, RegularFor (.pn ⟨d, n⟩) (nodes i))
    (hu : UnisolventFor (.pn ⟨d, n⟩) nodes)
    (V : Matrix (Fin (nodeTuples (.pn ⟨d, n⟩)).length) (Fin (nodeTuples (.pn ⟨d, n⟩)).length) ℝ) (hV : IsVandermonde b nodes V) :
    ∃ ids : List (List Nat), b.modeIds = .ok (ids.map .ofTuple) ∧ ∀ c, ∃ q,
      (∀ i, ((V * diagonal (fun k : Fin (nodeTuples (.pn ⟨d, n⟩)).length => if (ids.getD k []).sum ≤ r then (1 : ℝ) else 0) * V⁻¹) *ᵥ
        fun i => spacePoly (.pn ⟨d, n⟩) c (nodes i)) i = spacePoly (.pn ⟨d, r⟩) q (nodes i)) ∧
      ∀ e, Spec.simplexIntegral d (fun x => (spacePoly (.pn ⟨d, n⟩) c x - spacePoly (.pn ⟨d, r⟩) q x) ^ 2) ≤
        Spec.simplexIntegral d fun x => (spacePoly (.pn ⟨d, n⟩) c x - spacePoly (.pn ⟨d, r⟩) e x) ^ 2 := by
  have hs : SubSpace (.pn ⟨d, r⟩) (.pn ⟨d, n⟩) := ⟨rfl, by simpa [Space.flatBases] using hr⟩
  have hd1 : ∀ s ∈ (Space.pn ⟨d, n⟩).flatBases, 1 ≤ s.spatialDim ∧ s.spatialDim ≤ 3 := by simpa [Space.flatBases] using hd
  have hd2 : ∀ s ∈ (Space.pn ⟨d, r⟩).flatBases, 1 ≤ s.spatialDim ∧ s.spatialDim ≤ 3 := by simpa [Space.flatBases] using hd
  have hb' : IsOrthonormalBasisOf (orthonormalBasisPN ⟨d, r⟩) (.pn ⟨d, r⟩) := ⟨.simplex d, Or.inl rfl⟩
  have hi : b.modeIds = .ok ((nodeTuples (.pn ⟨d, n⟩)).map .ofTuple) := by
    rw [(modes_orthonormal hb hd1).2]
    rfl
  obtain ⟨ids, ids', h1, h2, hl, h⟩ := C95_truncation hs hb hb' hd1 hd2 nodes hreg hu V hV
  refine ⟨_, hi, fun c => ?_⟩
  rw [hi] at h1
  obtain rfl := Except.ok.inj h1
  obtain rfl : (nodeTuples (.pn ⟨d, r⟩)).map ModeId.ofTuple = ids' := Except.ok.inj h2
  have hk : ∀ k : Fin (nodeTuples (.pn ⟨d, n⟩)).length, ((nodeTuples (.pn ⟨d, n⟩)).map ModeId.ofTuple).getD k (.tup []) ∈
      (nodeTuples (.pn ⟨d, r⟩)).map ModeId.ofTuple ↔ ((nodeTuples (.pn ⟨d, n⟩)).getD k []).sum ≤ r := by
    intro k
    have e1 : ((nodeTuples (.pn ⟨d, n⟩)).map ModeId.ofTuple).getD k (.tup []) = .ofTuple (nodeTuples (.pn ⟨d, n⟩))[k] := by
      simp [List.getD_eq_getElem?_getD]
    have e2 : (nodeTuples (.pn ⟨d, n⟩)).getD k [] = (nodeTuples (.pn ⟨d, n⟩))[k] := by
      simp [List.getD_eq_getElem?_getD]
    have hm := (Pytools.mem_gnitsam d n _).1 (List.getElem_mem (l := nodeTuples (.pn ⟨d, n⟩)) k.2)
    rw [e1, e2, List.mem_map_of_injective ModeId.ofTuple_injective]
    exact (Pytools.mem_gnitsam d r _).trans ⟨fun h => h.2, fun h => ⟨hm.1, h⟩⟩
  obtain ⟨q, hq1, hq2⟩ := h (fun k => if ((nodeTuples (.pn ⟨d, n⟩)).getD k []).sum ≤ r then (1 : ℝ) else 0)
    (fun k hkm => if_pos ((hk k).1 hkm)) (fun k hkm => if_neg fun hc => hkm ((hk k).2 hc)) c
  refine ⟨q, hq1, fun e => ?_⟩
  have := hq2 e
  rwa [spaceIntegral_pn, spaceIntegral_pn] at this

/-- Non-vacuity: cutting quartic polynomials on the triangle, given at the equispaced nodes of the library, to quadratic ones. -/
example : ∃ (X : NdArray ℝ) (b : Basis ℝ) (V : Matrix (Fin (nodeTuples (.pn ⟨2, 4⟩)).length) (Fin (nodeTuples (.pn ⟨2, 4⟩)).length) ℝ),
    equispacedNodes (.pn ⟨2, 4⟩) (.simplex 2) = .ok X ∧ IsOrthonormalBasisOf b (.pn ⟨2, 4⟩) ∧
    IsVandermonde b (factorNodes ⟨2, 4⟩ X) V ∧ (∀ i, RegularFor (.pn ⟨2, 4⟩) (factorNodes ⟨2, 4⟩ X i)) ∧
    UnisolventFor (.pn ⟨2, 4⟩) (factorNodes ⟨2, 4⟩ X) ∧ SubSpace (.pn ⟨2, 2⟩) (.pn ⟨2, 4⟩) := by
  obtain ⟨X, hX, hg⟩ := good_equispaced ⟨2, 4⟩ (by simp) (by simp)
  have hb : IsOrthonormalBasisOf (orthonormalBasisPN ⟨2, 4⟩) (.pn ⟨2, 4⟩) := ⟨.simplex 2, Or.inl rfl⟩
  have hreg : ∀ i, RegularFor (.pn ⟨2, 4⟩) (factorNodes ⟨2, 4⟩ X i) := fun i => hg.regular i (lt_of_lt_of_eq i.2 (length_pn _))
  obtain ⟨fs, V, -, hV, -⟩ := C95_modal_coefficients hb (by simp [Space.flatBases]) (factorNodes ⟨2, 4⟩ X) hreg hg.unisolvent
  exact ⟨X, _, V, hX, hb, hV, hreg, hg.unisolvent, rfl, by simp [Space.flatBases]⟩

/-- Six of the fifteen modes are kept. -/
example : ((nodeTuples (.pn ⟨2, 4⟩)).filter fun t => t.sum ≤ 2).length = 6 := by decide

/-- On the product of a triangle and an interval the ids of the smaller space are those with smaller entries. -/
example : SubSpace (.tp [⟨2, 1⟩, ⟨1, 0⟩]) (.tp [⟨2, 3⟩, ⟨1, 2⟩]) := ⟨rfl, by simp [Space.flatBases]⟩

end Modepy

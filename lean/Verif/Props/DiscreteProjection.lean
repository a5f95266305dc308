import Verif.Props.ModalFilter
import Verif.Props.ConvergenceCube
import Verif.Props.SpectralMass
import Verif.Props.SubmeshIntegral

/-!
# Property C98: modal coefficients computed with a quadrature rule

`V.T @ (weights * u)` with `V = vandermonde(basis.functions, quad.nodes)`: the coefficients of the discrete least squares
approximation, close to the best approximation of a continuous function; with as many nodes as modes it interpolates.
-/

namespace Modepy
open Spec NdArray Matrix MeasureTheory Quadrature

/-- A function which is continuous on the product of the simplices of the given dimensions. -/
def Spec.ContinuousOnProduct (dims : List Nat) (f : List ℝ → ℝ) : Prop :=
  ContinuousOn (fun x : Fin dims.sum → ℝ => f (List.ofFn x)) {x | InProduct dims (List.ofFn x)}

/-- The dimensions of the factors of a space. -/
abbrev Spec.domainDims (space : Space) : List Nat := space.flatBases.map PNSpace.spatialDim

/-- The rule integrates products of two polynomials of the space. -/
def Spec.ExactOnProducts (space : Space) {m : Nat} (y : Fin m → List ℝ) (w : Fin m → ℝ) : Prop :=
  ∀ c e, ∑ k, w k * (spacePoly space c (y k) * spacePoly space e (y k)) =
    spaceIntegral space fun x => spacePoly space c x * spacePoly space e x

theorem ofFn_getD {d : Nat} {x : List ℝ} (hx : x.length = d) : List.ofFn (fun j : Fin d => x.getD j 0) = x := by
  subst hx
  apply List.ext_getElem <;> simp

/-- The product of the simplices as a set of tuples of tuples. -/
def factorSet (dims : List Nat) : Set ((i : Fin dims.length) → Fin dims[i] → ℝ) := Set.univ.pi fun i => simplexSet dims[i]

theorem simplex_mem_list {d : Nat} {x : Fin d → ℝ} (h : x ∈ simplexSet d) : InSimplex d (List.ofFn x) := by
  refine ⟨by simp, fun m hm => ?_⟩
  cases m with
  | zero =>
    have e : ((List.ofFn x).map fun c => (1 + c) / 2).sum = ∑ i, (1 + x i) / 2 := by
      rw [List.map_ofFn, List.sum_ofFn]
      rfl
    rw [bary, e]
    linarith [h.2]
  | succ m =>
    rw [bary, List.getD_eq_getElem _ _ (by simpa using hm), List.getElem_ofFn]
    linarith [h.1 ⟨m, hm⟩]

theorem inProduct_flatten : ∀ dims : List Nat, ∀ y ∈ factorSet dims,
    InProduct dims (List.ofFn fun i => List.ofFn (y i)).flatten
  | [], y, _ => by simp [InProduct]
  | d :: ds, y, hy => by
    rw [List.ofFn_succ, List.flatten_cons]
    have hl : (List.ofFn (y 0)).length = d := List.length_ofFn
    refine ⟨?_, ?_⟩
    · rw [List.take_left' hl]
      exact simplex_mem_list (hy 0 trivial)
    · rw [List.drop_left' hl]
      exact inProduct_flatten ds (fun i => y i.succ) fun i _ => hy i.succ trivial

theorem exists_flatten : ∀ (dims : List Nat) (x : List ℝ), InProduct dims x →
    ∃ y ∈ factorSet dims, x = (List.ofFn fun i => List.ofFn (y i)).flatten
  | [], x, h => ⟨fun i => i.elim0, fun i => i.elim0, by rw [h]; rfl⟩
  | d :: ds, x, h => by
    obtain ⟨y, hy, he⟩ := exists_flatten ds _ h.2
    refine ⟨Fin.cases (fun i => (x.take d).getD i 0) y, fun i _ => ?_, ?_⟩
    · refine Fin.cases ?_ (fun i => ?_) i
      · exact inSimplex_mem h.1
      · exact hy i trivial
    · rw [List.ofFn_succ, List.flatten_cons]
      show x = List.ofFn (fun i : Fin d => (x.take d).getD i 0) ++ _
      rw [ofFn_getD h.1.1]
      conv_lhs => rw [← List.take_append_drop d x, he]
      rfl

theorem factor_sum (space : Space) : (domainDims space).sum = space.spatialDim := by
  cases space <;> simp [domainDims, Space.spatialDim, Space.flatBases]

theorem product_length {dims : List Nat} {x : List ℝ} (h : InProduct dims x) : x.length = dims.sum := by
  obtain ⟨y, -, rfl⟩ := exists_flatten _ _ h
  rw [length_flatten_ofFn]

/-- The coordinates of a point of the product of the factors, in one tuple. -/
theorem continuous_flat (dims : List Nat) :
    Continuous fun (y : (i : Fin dims.length) → Fin dims[i] → ℝ) (j : Fin dims.sum) => (List.ofFn fun i => List.ofFn (y i)).flatten.getD j 0 := by
  refine continuous_pi fun j => ?_
  simp only [flatten_eq_coordinates]
  have hl : (coordinates dims).length = dims.sum := by
    rw [← length_flatten_ofFn dims fun _ _ => 0, flatten_eq_coordinates, List.length_map]
  have hj : (j : Nat) < (coordinates dims).length := by rw [hl]; exact j.2
  have : (fun y : (i : Fin dims.length) → Fin dims[i] → ℝ => ((coordinates dims).map fun c => c y).getD j 0) = (coordinates dims)[(j : Nat)] := by
    funext y
    simp [List.getD_eq_getElem?_getD, hj]
  rw [this]
  exact continuous_coordinates dims _ (List.getElem_mem _)

theorem compact_factors (dims : List Nat) : IsCompact (factorSet dims) :=
  isCompact_univ_pi fun _ => Table.isCompact_simplexSet _

theorem compact_product (dims : List Nat) : IsCompact {x : Fin dims.sum → ℝ | InProduct dims (List.ofFn x)} := by
  have := (compact_factors dims).image (continuous_flat dims)
  convert this using 1
  ext x
  simp only [Set.mem_ofPred_eq, Set.mem_image]
  constructor
  · intro h
    obtain ⟨y, hy, he⟩ := exists_flatten _ _ h
    refine ⟨y, hy, funext fun j => ?_⟩
    rw [← he]
    simp
  · rintro ⟨y, hy, rfl⟩
    rw [ofFn_getD (length_flatten_ofFn dims y)]
    exact inProduct_flatten dims y hy

theorem continuousOn_factors {dims : List Nat} {f : List ℝ → ℝ} (hf : ContinuousOnProduct dims f) :
    ContinuousOn (fun y : (i : Fin dims.length) → Fin dims[i] → ℝ => f (List.ofFn fun i => List.ofFn (y i)).flatten)
      (factorSet dims) := by
  have := hf.comp (continuous_flat dims).continuousOn
    (s := factorSet dims) (fun y hy => by
      show InProduct dims _
      rw [ofFn_getD (length_flatten_ofFn dims y)]
      exact inProduct_flatten dims y hy)
  refine this.congr fun y _ => ?_
  simp only [Function.comp_apply]
  rw [ofFn_getD (length_flatten_ofFn dims y)]

theorem integrable_factors {dims : List Nat} {f : List ℝ → ℝ} (hf : ContinuousOnProduct dims f) :
    IntegrableOn (fun y : (i : Fin dims.length) → Fin dims[i] → ℝ => f (List.ofFn fun i => List.ofFn (y i)).flatten)
      (factorSet dims) :=
  (continuousOn_factors hf).integrableOn_compact (compact_factors dims)

theorem productIntegral_mono {dims : List Nat} {f g : List ℝ → ℝ} (hf : ContinuousOnProduct dims f) (hg : ContinuousOnProduct dims g)
    (h : ∀ x, InProduct dims x → f x ≤ g x) : productIntegral dims f ≤ productIntegral dims g :=
  setIntegral_mono_on (integrable_factors hf) (integrable_factors hg) (MeasurableSet.univ_pi fun _ => measurable_simplexSet _)
    fun y hy => h _ (inProduct_flatten dims y hy)

theorem productIntegral_linear {dims : List Nat} {f g : List ℝ → ℝ} (hf : ContinuousOnProduct dims f) (hg : ContinuousOnProduct dims g)
    (a b : ℝ) : productIntegral dims (fun x => a * f x + b * g x) = a * productIntegral dims f + b * productIntegral dims g := by
  refine (integral_add ((integrable_factors hf).const_mul a) ((integrable_factors hg).const_mul b)).trans ?_
  rw [integral_const_mul, integral_const_mul]
  rfl

theorem continuous_spacePoly (space : Space) (c : Fin (nodeTuples space).length → ℝ) :
    ContinuousOnProduct (domainDims space) (spacePoly space c) := by
  obtain ⟨P, -, hx⟩ := spacePoly_polyAt space (factor_sum space).symm c
  have h := continuousOf_polyAt P
  refine h.continuousOn.congr fun x _ => ?_
  exact hx _ (by simp)

/-! ## Discrete least squares -/

section
variable {space : Space} {C : Matrix (Fin (nodeTuples space).length) (Fin (nodeTuples space).length) ℝ}
  (hC : ∀ k l, spaceIntegral space (fun x => spacePoly space (C k) x * spacePoly space (C l) x) = if k = l then 1 else 0)
  {m : Nat} (y : Fin m → List ℝ) (w : Fin m → ℝ) (hex : ExactOnProducts space y w)
include hC hex

theorem discrete_gram : (vandermonde (fun k => spacePoly space (C k)) y)ᵀ * diagonal w * vandermonde (fun k => spacePoly space (C k)) y = 1 := by
  ext k l
  rw [Matrix.one_apply, ← hC k l, ← hex, mul_apply]
  refine Finset.sum_congr rfl fun i _ => ?_
  rw [mul_diagonal]
  simp only [transpose_apply, vandermonde, of_apply]
  ring

theorem discrete_square (u : Fin m → ℝ) (a : Fin (nodeTuples space).length → ℝ) :
    ∑ k, w k * (u k - combine (fun k => spacePoly space (C k)) a (y k)) ^ 2 =
      ∑ k, w k * u k ^ 2 - 2 * ∑ j, a j * ((vandermonde (fun k => spacePoly space (C k)) y)ᵀ *ᵥ fun k => w k * u k) j + ∑ j, a j * a j := by
  have h1 : ∑ k, w k * (combine (fun k => spacePoly space (C k)) a (y k) * combine (fun k => spacePoly space (C k)) a (y k)) = ∑ j, a j * a j := by
    rw [← integral_combine hC a a]
    have := hex (a ᵥ* C) (a ᵥ* C)
    simpa only [← combine_represents] using this
  have h2 : ∑ k, w k * u k * combine (fun k => spacePoly space (C k)) a (y k) =
      ∑ j, a j * ((vandermonde (fun k => spacePoly space (C k)) y)ᵀ *ᵥ fun k => w k * u k) j := by
    simp only [combine, mulVec, dotProduct, transpose_apply, vandermonde, of_apply, Finset.mul_sum]
    rw [Finset.sum_comm]
    refine Finset.sum_congr rfl fun j _ => Finset.sum_congr rfl fun k _ => ?_
    ring
  rw [← h1, ← h2, Finset.mul_sum, ← Finset.sum_sub_distrib, ← Finset.sum_add_distrib]
  refine Finset.sum_congr rfl fun k _ => ?_
  ring

theorem discrete_min (u : Fin m → ℝ) (a : Fin (nodeTuples space).length → ℝ) :
    ∑ k, w k * (u k - combine (fun k => spacePoly space (C k)) ((vandermonde (fun k => spacePoly space (C k)) y)ᵀ *ᵥ fun k => w k * u k) (y k)) ^ 2 ≤
      ∑ k, w k * (u k - combine (fun k => spacePoly space (C k)) a (y k)) ^ 2 := by
  rw [discrete_square hC y w hex, discrete_square hC y w hex]
  set c := (vandermonde (fun k => spacePoly space (C k)) y)ᵀ *ᵥ fun k => w k * u k
  have : 0 ≤ ∑ j, (a j - c j) * (a j - c j) := Finset.sum_nonneg fun j _ => mul_self_nonneg _
  have e : ∑ j, (a j - c j) * (a j - c j) = ∑ j, a j * a j - 2 * ∑ j, a j * c j + ∑ j, c j * c j := by
    rw [Finset.mul_sum, ← Finset.sum_sub_distrib, ← Finset.sum_add_distrib]
    refine Finset.sum_congr rfl fun j _ => ?_
    ring
  linarith

theorem discrete_stable (hw : ∀ k, 0 ≤ w k) (u : Fin m → ℝ) :
    ∑ j, ((vandermonde (fun k => spacePoly space (C k)) y)ᵀ *ᵥ fun k => w k * u k) j *
      ((vandermonde (fun k => spacePoly space (C k)) y)ᵀ *ᵥ fun k => w k * u k) j ≤ ∑ k, w k * u k ^ 2 := by
  have h := discrete_square hC y w hex u ((vandermonde (fun k => spacePoly space (C k)) y)ᵀ *ᵥ fun k => w k * u k)
  have : 0 ≤ ∑ k, w k * (u k - combine (fun k => spacePoly space (C k)) ((vandermonde (fun k => spacePoly space (C k)) y)ᵀ *ᵥ fun k => w k * u k) (y k)) ^ 2 :=
    Finset.sum_nonneg fun k _ => mul_nonneg (hw k) (sq_nonneg _)
  linarith

theorem discrete_reproduce (a : Fin (nodeTuples space).length → ℝ) :
    ((vandermonde (fun k => spacePoly space (C k)) y)ᵀ *ᵥ fun k => w k * combine (fun k => spacePoly space (C k)) a (y k)) = a := by
  have e : (fun k => w k * combine (fun k => spacePoly space (C k)) a (y k)) =
      diagonal w *ᵥ (vandermonde (fun k => spacePoly space (C k)) y *ᵥ a) := by
    funext k
    rw [mulVec_diagonal, vandermonde_mulVec]
  rw [e, mulVec_mulVec, mulVec_mulVec, discrete_gram hC y w hex, one_mulVec]
end

/-- The coefficients `V.T @ (weights * u)` of the functions of the basis give the polynomial with the coefficients `p`. -/
def Spec.IsDiscreteProjection (b : Basis ℝ) (space : Space) {m : Nat} (y : Fin m → List ℝ) (w u : Fin m → ℝ)
    (p : Fin (nodeTuples space).length → ℝ) : Prop :=
  ∃ (fs : List (List ℝ → Py ℝ)) (V : Matrix (Fin m) (Fin (nodeTuples space).length) ℝ), b.functions = .ok fs ∧ IsVandermonde b y V ∧
    ∀ x, RegularFor space x → ∃ v : Fin (nodeTuples space).length → ℝ,
      (∀ k : Fin (nodeTuples space).length, (fs.getD k fun _ => .error .IndexError) x = .ok (v k)) ∧
        ∑ k, (Vᵀ *ᵥ fun i => w i * u i) k * v k = spacePoly space p x

/-- `V.T @ diag(weights) @ V` is the identity matrix. -/
theorem C98_gram {b : Basis ℝ} {space : Space} (hb : IsOrthonormalBasisOf b space)
    (hd : ∀ s ∈ space.flatBases, 1 ≤ s.spatialDim ∧ s.spatialDim ≤ 3) {m : Nat} (y : Fin m → List ℝ) (hreg : ∀ i, RegularFor space (y i))
    (w : Fin m → ℝ) (hex : ExactOnProducts space y w) :
    ∃ V : Matrix (Fin m) (Fin (nodeTuples space).length) ℝ, IsVandermonde b y V ∧ Vᵀ * diagonal w * V = 1 := by
  obtain ⟨fs, C, hr, hG⟩ := represents_isOrthonormal hb hd
  exact ⟨vandermonde (fun k => spacePoly space (C k)) y, ⟨fs, hr.functions,
    vandermondeRows_eq fs hr.length y _ fun k i => hr.value k _ (hreg i)⟩, discrete_gram hG y w hex⟩

/-- The polynomial with these coefficients is the least squares approximation in the discrete norm, is bounded by the data,
and is the polynomial the data come from if there is one. -/
theorem C98_projection {b : Basis ℝ} {space : Space} (hb : IsOrthonormalBasisOf b space)
    (hd : ∀ s ∈ space.flatBases, 1 ≤ s.spatialDim ∧ s.spatialDim ≤ 3) {m : Nat} (y : Fin m → List ℝ) (hreg : ∀ i, RegularFor space (y i))
    (w : Fin m → ℝ) (hw : ∀ k, 0 ≤ w k) (hex : ExactOnProducts space y w) (u : Fin m → ℝ) :
    ∃ p, IsDiscreteProjection b space y w u p ∧
      (∀ e, ∑ k, w k * (u k - spacePoly space p (y k)) ^ 2 ≤ ∑ k, w k * (u k - spacePoly space e (y k)) ^ 2) ∧
      spaceIntegral space (fun x => spacePoly space p x * spacePoly space p x) ≤ ∑ k, w k * u k ^ 2 ∧
      ∀ e, (∀ k, u k = spacePoly space e (y k)) → ∀ x, spacePoly space p x = spacePoly space e x := by
  obtain ⟨fs, C, hr, hG⟩ := represents_isOrthonormal hb hd
  refine ⟨((vandermonde (fun k => spacePoly space (C k)) y)ᵀ *ᵥ fun i => w i * u i) ᵥ* C, ⟨fs, _, hr.functions,
    ⟨fs, hr.functions, vandermondeRows_eq fs hr.length y _ fun k i => hr.value k _ (hreg i)⟩, fun x hx =>
      ⟨fun k => spacePoly space (C k) x, fun k => hr.value k x hx, ?_⟩⟩, fun e => ?_, ?_, fun e he x => ?_⟩
  · rw [← combine_represents]
    rfl
  · obtain ⟨a, ha⟩ := exists_combine space C hr.det e
    simp only [← combine_represents, ha]
    exact discrete_min hG y w hex u a
  · simp only [← combine_represents]
    rw [integral_combine hG]
    exact discrete_stable hG y w hex hw u
  · obtain ⟨a, ha⟩ := exists_combine space C hr.det e
    rw [ha] at he ⊢
    simp only [he, discrete_reproduce hG y w hex a, ← combine_represents]

/-- With as many nodes as modes the polynomial takes the given values at the nodes. -/
theorem C98_interpolation {b : Basis ℝ} {space : Space} (hb : IsOrthonormalBasisOf b space)
    (hd : ∀ s ∈ space.flatBases, 1 ≤ s.spatialDim ∧ s.spatialDim ≤ 3) (y : Fin (nodeTuples space).length → List ℝ)
    (hreg : ∀ i, RegularFor space (y i)) (w : Fin (nodeTuples space).length → ℝ) (hex : ExactOnProducts space y w)
    (u : Fin (nodeTuples space).length → ℝ) : ∃ p, IsDiscreteProjection b space y w u p ∧ ∀ i, spacePoly space p (y i) = u i := by
  obtain ⟨fs, C, hr, hG⟩ := represents_isOrthonormal hb hd
  refine ⟨((vandermonde (fun k => spacePoly space (C k)) y)ᵀ *ᵥ fun i => w i * u i) ᵥ* C, ⟨fs, _, hr.functions,
    ⟨fs, hr.functions, vandermondeRows_eq fs hr.length y _ fun k i => hr.value k _ (hreg i)⟩, fun x hx =>
      ⟨fun k => spacePoly space (C k) x, fun k => hr.value k x hx, ?_⟩⟩, fun i => ?_⟩
  · rw [← combine_represents]
    rfl
  · have h := mul_eq_one_comm.1 (discrete_gram hG y w hex)
    have e : (fun i => w i * u i) = diagonal w *ᵥ u := by
      funext k
      rw [mulVec_diagonal]
    rw [← combine_represents, ← vandermonde_mulVec (fun k => spacePoly space (C k)) y _ i, e, mulVec_mulVec, mulVec_mulVec,
      Matrix.mul_assoc, h, one_mulVec]

/-- The coefficients determine the values. -/
theorem discreteProjection_unique {b : Basis ℝ} {space : Space} {m : Nat} {y : Fin m → List ℝ} {w u : Fin m → ℝ}
    {p q : Fin (nodeTuples space).length → ℝ} (hp : IsDiscreteProjection b space y w u p) (hq : IsDiscreteProjection b space y w u q)
    (x : List ℝ) (hx : RegularFor space x) : spacePoly space p x = spacePoly space q x := by
  obtain ⟨fs, V, h1, h2, h3⟩ := hp
  obtain ⟨fs', V', h1', h2', h3'⟩ := hq
  obtain rfl := Except.ok.inj (h1.symm.trans h1')
  obtain rfl := isVandermonde_unique h2 h2'
  obtain ⟨v, hv, hp⟩ := h3 x hx
  obtain ⟨v', hv', hq⟩ := h3' x hx
  obtain rfl : v = v' := funext fun k => Except.ok.inj ((hv k).symm.trans (hv' k))
  exact hp.symm.trans hq

theorem continuousOn_combination {dims : List Nat} {f g : List ℝ → ℝ} (hf : ContinuousOnProduct dims f) (hg : ContinuousOnProduct dims g) :
    ContinuousOnProduct dims (fun x => (f x - g x) ^ 2) := (hf.sub hg).pow 2

/-- The volume of the domain is the sum of the weights. -/
theorem sum_weights {space : Space} {m : Nat} (y : Fin m → List ℝ) (hy : ∀ i, (y i).length = space.spatialDim)
    (w : Fin m → ℝ) (hex : ExactOnProducts space y w) : ∑ k, w k = spaceIntegral space fun _ => 1 := by
  obtain ⟨c, hc⟩ := exists_one space
  have h := hex c c
  rw [spaceIntegral_congr space _ (fun _ => 1) (fun x hx => by rw [hc x hx, one_mul])] at h
  rw [← h]
  exact Finset.sum_congr rfl fun k _ => by rw [hc _ (hy k), one_mul, mul_one]

theorem volume_nonneg (space : Space) : 0 ≤ spaceIntegral space fun _ => 1 := by
  rw [spaceIntegral_one]
  refine List.prod_nonneg fun a ha => ?_
  obtain ⟨s, -, rfl⟩ := List.mem_map.1 ha
  positivity

theorem discrete_error {space : Space} {C : Matrix (Fin (nodeTuples space).length) (Fin (nodeTuples space).length) ℝ} (hdet : C.det ≠ 0)
    (hC : ∀ k l, spaceIntegral space (fun x => spacePoly space (C k) x * spacePoly space (C l) x) = if k = l then 1 else 0)
    {m : Nat} (y : Fin m → List ℝ) (hy : ∀ i, InProduct (domainDims space) (y i)) (w : Fin m → ℝ) (hw : ∀ k, 0 ≤ w k)
    (hex : ExactOnProducts space y w) (f : List ℝ → ℝ) (hf : ContinuousOnProduct (domainDims space) f)
    (e : Fin (nodeTuples space).length → ℝ) (δ : ℝ) (he : ∀ x, InProduct (domainDims space) x → |f x - spacePoly space e x| ≤ δ) :
    spaceIntegral space (fun x => (f x - spacePoly space
      (((vandermonde (fun k => spacePoly space (C k)) y)ᵀ *ᵥ fun i => w i * f (y i)) ᵥ* C) x) ^ 2) ≤
        4 * (spaceIntegral space fun _ => 1) * δ ^ 2 := by
  have hlen : ∀ i, (y i).length = space.spatialDim := fun i => (product_length (hy i)).trans (factor_sum space)
  have hsq : ∀ x, InProduct (domainDims space) x → (f x - spacePoly space e x) ^ 2 ≤ δ ^ 2 := fun x hx => by
    rw [← sq_abs]
    exact pow_le_pow_left₀ (abs_nonneg _) (he x hx) 2
  obtain ⟨a, ha⟩ := exists_combine space C hdet e
  set V := vandermonde (fun k => spacePoly space (C k)) y
  set c := Vᵀ *ᵥ fun i => w i * f (y i)
  have hone : ∀ r : ℝ, ContinuousOnProduct (domainDims space) fun _ => r := fun _ => continuousOn_const
  have hce := continuous_spacePoly space e
  have hcp := continuous_spacePoly space (c ᵥ* C)
  -- the part of the error in the space
  have h1 : spaceIntegral space (fun x => (spacePoly space e x - spacePoly space (c ᵥ* C) x) ^ 2) ≤ δ ^ 2 * spaceIntegral space fun _ => 1 := by
    have hd : Vᵀ *ᵥ (fun i => w i * (f (y i) - spacePoly space e (y i))) = c - a := by
      have := discrete_reproduce hC y w hex a
      rw [← ha] at this
      conv_rhs => rw [← this]
      rw [← mulVec_sub]
      congr 1
      funext i
      simp only [Pi.sub_apply]
      ring
    have hs := discrete_stable hC y w hex hw fun i => f (y i) - spacePoly space e (y i)
    rw [show (vandermonde (fun k => spacePoly space (C k)) y)ᵀ *ᵥ (fun i => w i * (f (y i) - spacePoly space e (y i))) = c - a from hd] at hs
    have e1 : spaceIntegral space (fun x => (spacePoly space e x - spacePoly space (c ᵥ* C) x) ^ 2) = ∑ k, (c - a) k * (c - a) k := by
      rw [← integral_combine hC]
      congr 1
      funext x
      rw [ha, ← combine_represents]
      simp only [combine, Pi.sub_apply, sub_mul, Finset.sum_sub_distrib]
      ring
    rw [e1, ← sum_weights y hlen w hex, Finset.mul_sum]
    refine hs.trans (Finset.sum_le_sum fun k _ => ?_)
    rw [mul_comm (δ ^ 2)]
    exact mul_le_mul_of_nonneg_left (hsq _ (hy k)) (hw k)
  -- the part outside
  have h2 : spaceIntegral space (fun x => (f x - spacePoly space e x) ^ 2) ≤ δ ^ 2 * spaceIntegral space fun _ => 1 := by
    have hm := productIntegral_mono (continuousOn_combination hf hce) (hone (δ ^ 2)) hsq
    have hl := productIntegral_linear (hone 1) (hone 1) (δ ^ 2) 0
    simp only [zero_mul, add_zero, mul_one] at hl
    rw [hl] at hm
    exact hm
  have h3 : spaceIntegral space (fun x => (f x - spacePoly space (c ᵥ* C) x) ^ 2) ≤
      spaceIntegral space fun x => 2 * (f x - spacePoly space e x) ^ 2 + 2 * (spacePoly space e x - spacePoly space (c ᵥ* C) x) ^ 2 := by
    refine productIntegral_mono (continuousOn_combination hf hcp)
      (((continuousOn_const (c := (2 : ℝ))).mul (continuousOn_combination hf hce)).add
        ((continuousOn_const (c := (2 : ℝ))).mul (continuousOn_combination hce hcp))) fun x _ => ?_
    nlinarith [sq_nonneg ((f x - spacePoly space e x) - (spacePoly space e x - spacePoly space (c ᵥ* C) x))]
  have h4 : (spaceIntegral space fun x => 2 * (f x - spacePoly space e x) ^ 2 + 2 * (spacePoly space e x - spacePoly space (c ᵥ* C) x) ^ 2) =
      2 * spaceIntegral space (fun x => (f x - spacePoly space e x) ^ 2) +
        2 * spaceIntegral space fun x => (spacePoly space e x - spacePoly space (c ᵥ* C) x) ^ 2 :=
    productIntegral_linear (continuousOn_combination hf hce) (continuousOn_combination hce hcp) 2 2
  rw [h4] at h3
  linarith

/-- The mean square error for a continuous function is at most four times the volume times the square of the distance to the
polynomials of the space in the maximum norm. -/
theorem C98_error {b : Basis ℝ} {space : Space} (hb : IsOrthonormalBasisOf b space)
    (hd : ∀ s ∈ space.flatBases, 1 ≤ s.spatialDim ∧ s.spatialDim ≤ 3) {m : Nat} (y : Fin m → List ℝ) (hreg : ∀ i, RegularFor space (y i))
    (hy : ∀ i, InProduct (domainDims space) (y i)) (w : Fin m → ℝ) (hw : ∀ k, 0 ≤ w k) (hex : ExactOnProducts space y w)
    (f : List ℝ → ℝ) (hf : ContinuousOnProduct (domainDims space) f) :
    ∃ p, IsDiscreteProjection b space y w (fun k => f (y k)) p ∧ ∀ e δ,
      (∀ x, InProduct (domainDims space) x → |f x - spacePoly space e x| ≤ δ) →
        spaceIntegral space (fun x => (f x - spacePoly space p x) ^ 2) ≤ 4 * (spaceIntegral space fun _ => 1) * δ ^ 2 := by
  obtain ⟨fs, C, hr, hG⟩ := represents_isOrthonormal hb hd
  refine ⟨((vandermonde (fun k => spacePoly space (C k)) y)ᵀ *ᵥ fun i => w i * f (y i)) ᵥ* C, ⟨fs, _, hr.functions,
    ⟨fs, hr.functions, vandermondeRows_eq fs hr.length y _ fun k i => hr.value k _ (hreg i)⟩, fun x hx =>
      ⟨fun k => spacePoly space (C k) x, fun k => hr.value k x hx, ?_⟩⟩, fun e δ he => ?_⟩
  · rw [← combine_represents]
    rfl
  · exact discrete_error hr.det hG y hy w hw hex f hf e δ he

/-! ## Convergence -/

/-- Polynomials are dense in the continuous functions on a compact set. -/
theorem exists_polynomial_compact {d : Nat} (K : Set (Fin d → ℝ)) (hK : IsCompact K) (f : (Fin d → ℝ) → ℝ) (hf : ContinuousOn f K)
    (ε : ℝ) (hε : 0 < ε) : ∃ p : MvPolynomial (Fin d) ℝ, ∀ x ∈ K, |MvPolynomial.eval x p - f x| < ε := by
  have : CompactSpace K := isCompact_iff_compactSpace.1 hK
  let c : Fin d → C(K, ℝ) := fun i => ⟨fun x => x.1 i, (continuous_apply i).comp continuous_subtype_val⟩
  let φ : MvPolynomial (Fin d) ℝ →ₐ[ℝ] C(K, ℝ) := MvPolynomial.aeval c
  have hφ : ∀ p x, φ p x = MvPolynomial.eval x.1 p := by
    intro p x
    have := congrArg (fun h : MvPolynomial (Fin d) ℝ →ₐ[ℝ] ℝ => h p)
      (MvPolynomial.comp_aeval (R := ℝ) c (ContinuousMap.evalAlgHom ℝ ℝ x))
    simp only [AlgHom.comp_apply, ContinuousMap.evalAlgHom_apply] at this
    rw [this, ← MvPolynomial.coe_aeval_eq_eval]
    rfl
  have hsep : φ.range.SeparatesPoints := by
    intro x y hxy
    have : ∃ i, x.1 i ≠ y.1 i := by
      by_contra h
      push Not at h
      exact hxy (Subtype.ext (funext h))
    obtain ⟨i, hi⟩ := this
    refine ⟨c i, ⟨c i, ⟨MvPolynomial.X i, ?_⟩, rfl⟩, hi⟩
    exact MvPolynomial.aeval_X c i
  obtain ⟨⟨g, ⟨p, rfl⟩⟩, hg⟩ := ContinuousMap.exists_mem_subalgebra_near_continuous_of_separatesPoints φ.range hsep
    (fun x : K => f x.1) (continuousOn_iff_continuous_domRestrict.1 hf) ε hε
  refine ⟨p, fun x hx => ?_⟩
  have := hg ⟨x, hx⟩
  rw [Real.norm_eq_abs] at this
  change |φ p ⟨x, hx⟩ - f x| < ε at this
  rwa [hφ] at this

theorem forall₂_slices (N : Nat) : ∀ (bases : List PNSpace) (t : List Nat), t.length = (bases.map PNSpace.spatialDim).sum → t.sum ≤ N →
    (∀ s ∈ bases, N ≤ s.order) → ∃ parts : List (List Nat),
      List.Forall₂ (fun b p => p.length = b.spatialDim ∧ p.sum ≤ b.order) bases parts ∧ t = parts.flatten
  | [], t, hl, _, _ => ⟨[], .nil, by simpa using hl⟩
  | s :: bases, t, hl, hs, hb => by
    have ht := congrArg List.sum (List.take_append_drop s.spatialDim t)
    rw [List.sum_append] at ht
    simp only [List.map_cons, List.sum_cons] at hl
    obtain ⟨parts, hp, he⟩ := forall₂_slices N bases (t.drop s.spatialDim) (by simp; omega) (by omega) fun s hs => hb s (List.mem_cons_of_mem _ hs)
    refine ⟨t.take s.spatialDim :: parts, .cons ⟨by simp; omega, ?_⟩ hp, ?_⟩
    · have := hb s (List.mem_cons_self ..)
      omega
    · rw [List.flatten_cons, ← he, List.take_append_drop]

/-- A polynomial of total degree at most the smallest order belongs to the space. -/
theorem polyIn_of_totalDegree {space : Space} {d N : Nat} (hd : space.spatialDim = d) (h : ∀ s ∈ space.flatBases, N ≤ s.order)
    (P : MvPolynomial (Fin d) ℝ) (hP : P.totalDegree ≤ N) : PolyIn space P := by
  intro m hm
  rw [mem_nodeTuples]
  have := MvPolynomial.le_totalDegree hm
  rw [Finsupp.sum_fintype _ _ (fun _ => rfl)] at this
  refine forall₂_slices N _ _ ?_ ?_ h
  · rw [List.length_ofFn, ← hd]
    exact (factor_sum space).symm
  · rw [List.sum_ofFn]
    omega

/-- A continuous function on the domain is close to polynomials of every space of high enough order. -/
theorem exists_near_space (dims : List Nat) (f : List ℝ → ℝ) (hf : ContinuousOnProduct dims f) (ε : ℝ) (hε : 0 < ε) :
    ∃ N, ∀ space : Space, domainDims space = dims → (∀ s ∈ space.flatBases, N ≤ s.order) →
      ∃ e, ∀ x, InProduct dims x → |f x - spacePoly space e x| ≤ ε := by
  obtain ⟨P, hP⟩ := exists_polynomial_compact _ (compact_product dims) _ hf ε hε
  refine ⟨P.totalDegree, fun space hs ho => ?_⟩
  have hd : space.spatialDim = dims.sum := by rw [← hs, factor_sum]
  obtain ⟨e, he⟩ := polyAt_spacePoly space hd P (polyIn_of_totalDegree hd ho P le_rfl)
  refine ⟨e, fun x hx => ?_⟩
  have hl := product_length hx
  have := hP (fun j => x.getD j 0) (by
    show InProduct dims _
    rwa [ofFn_getD hl])
  simp only [ofFn_getD hl] at this
  rw [← he x hl, abs_sub_comm]
  exact this.le

/-- For every continuous function the mean square error is small for every space of high enough order, with any rule with
nonnegative weights which integrates the products. -/
theorem C98_converges (dims : List Nat) (hd : ∀ d ∈ dims, 1 ≤ d ∧ d ≤ 3) (f : List ℝ → ℝ) (hf : ContinuousOnProduct dims f) (ε : ℝ) (hε : 0 < ε) :
    ∃ N, ∀ space : Space, domainDims space = dims → (∀ s ∈ space.flatBases, N ≤ s.order) → ∀ b, IsOrthonormalBasisOf b space →
      ∀ (m : Nat) (y : Fin m → List ℝ) (w : Fin m → ℝ), (∀ i, RegularFor space (y i)) → (∀ i, InProduct dims (y i)) → (∀ k, 0 ≤ w k) →
        ExactOnProducts space y w → ∃ p, IsDiscreteProjection b space y w (fun k => f (y k)) p ∧
          spaceIntegral space (fun x => (f x - spacePoly space p x) ^ 2) < ε := by
  set vol := productIntegral dims fun _ => 1
  obtain ⟨δ, hδ, hδε⟩ : ∃ δ : ℝ, 0 < δ ∧ 4 * vol * δ ^ 2 < ε := by
    have ht : Filter.Tendsto (fun δ : ℝ => 4 * vol * δ ^ 2) (nhdsWithin 0 (Set.Ioi 0)) (nhds (4 * vol * 0 ^ 2)) :=
      ((continuous_const.mul (continuous_id.pow 2)).tendsto 0).mono_left nhdsWithin_le_nhds
    rw [show 4 * vol * 0 ^ 2 = (0 : ℝ) by ring] at ht
    obtain ⟨δ, h1, h2⟩ := ((ht.eventually (gt_mem_nhds hε)).and self_mem_nhdsWithin).exists
    exact ⟨δ, h2, h1⟩
  obtain ⟨N, hN⟩ := exists_near_space dims f hf δ hδ
  refine ⟨N, fun space hs ho b hb m y w hreg hy hw hex => ?_⟩
  obtain ⟨e, he⟩ := hN space hs ho
  subst hs
  obtain ⟨p, hp, hpe⟩ := C98_error hb (fun s h => hd _ (List.mem_map_of_mem h)) y hreg hy w hw hex f hf
  exact ⟨p, hp, lt_of_le_of_lt (hpe e δ he) hδε⟩

/-! ## Interpolation at Gauss nodes -/

theorem inProduct_of_inCube : ∀ (d : Nat) (x : List ℝ), InCube d x → InProduct (List.replicate d 1) x
  | 0, x, h => by
    have := h.1
    simpa [InProduct] using this
  | d + 1, [], h => by simp [InCube] at h
  | d + 1, y :: x, h => by
    rw [List.replicate_succ]
    refine ⟨?_, ?_⟩
    · have := h.2 y (List.mem_cons_self ..)
      refine ⟨by simp, fun m hm => ?_⟩
      rcases Nat.le_one_iff_eq_zero_or_eq_one.1 hm with rfl | rfl
      · simp [bary]
        linarith
      · simp [bary]
        linarith
    · exact inProduct_of_inCube d x ⟨by simpa using h.1, fun c hc => h.2 c (List.mem_cons_of_mem _ hc)⟩

theorem continuousOnProduct_iff {dims : List Nat} {d : Nat} (h : dims.sum = d) (f : List ℝ → ℝ) :
    ContinuousOnProduct dims f ↔ ContinuousOn (fun x : Fin d → ℝ => f (List.ofFn x)) {x | InProduct dims (List.ofFn x)} := by
  subst h
  rfl

theorem cube_product (d : Nat) : {x : Fin d → ℝ | InProduct (List.replicate d 1) (List.ofFn x)} = cubeSet d := by
  ext x
  simp only [Set.mem_ofPred_eq, cubeSet]
  constructor
  · intro h i
    exact (inCube_of_inProduct d _ h).2 _ (List.mem_ofFn.2 ⟨i, rfl⟩)
  · intro h
    refine inProduct_of_inCube d _ ⟨by simp, fun c hc => ?_⟩
    obtain ⟨i, rfl⟩ := List.mem_ofFn.1 hc
    exact h i

theorem continuousCube_iff (d : Nat) (f : List ℝ → ℝ) : ContinuousCube d f ↔ ContinuousOnProduct (List.replicate d 1) f := by
  rw [continuousOnProduct_iff (d := d) (by simp), cube_product]
  rfl

/-- The integral over the product of intervals is the integral over the cube. -/
theorem productIntegral_cube (d : Nat) (f : List ℝ → ℝ) (hf : ContinuousCube d f) :
    productIntegral (List.replicate d 1) f = cubeIntegral d f := by
  have hpoly : ∀ P : MvPolynomial (Fin d) ℝ, productIntegral (List.replicate d 1) (polyAt P) = cubeIntegral d (polyAt P) := by
    intro P
    have := spaceIntegral_polyAt (space := .qn d 0) (shape := .hypercube d) (N := 0) (by simp [Conforms, Space.flatBases, Shape.flatBases]) (d := d)
      (by simp [Shape.dim]) P
    simpa [spaceIntegral, Space.flatBases, Spec.shapeIntegral] using this
  have hint : ∀ g, ContinuousCube d g → IntegrableOn (fun x : Fin d → ℝ => g (List.ofFn x)) (cubeSet d) := fun g hg =>
    ContinuousOn.integrableOn_compact (compact_cube d) hg
  have hc := fun P : MvPolynomial (Fin d) ℝ => (continuousOf_polyAt P).continuousOn (s := cubeSet d)
  have hone : ∀ r : ℝ, ContinuousCube d fun _ => r := fun _ => continuousOn_const
  set vol := cubeIntegral d fun _ => 1
  have hvol : productIntegral (List.replicate d 1) (fun _ => 1) = vol := by
    have := hpoly 1
    have e : (polyAt (1 : MvPolynomial (Fin d) ℝ)) = fun _ => 1 := funext fun x => map_one _
    rwa [e] at this
  have key : ∀ ε > 0, |productIntegral (List.replicate d 1) f - cubeIntegral d f| ≤ 2 * vol * ε := by
    intro ε hε
    obtain ⟨P, hP⟩ := exists_mvPolynomial_near d _ hf ε hε
    have hP' : ∀ x : Fin d → ℝ, x ∈ cubeSet d → |polyAt P (List.ofFn x) - f (List.ofFn x)| < ε := by
      intro x hx
      have := hP x hx
      rw [polyAt, getD_ofFn]
      exact this
    have hPl : ∀ x, InProduct (List.replicate d 1) x → |polyAt P x - f x| < ε := by
      intro x hx
      have hl : x.length = d := by simpa using product_length hx
      have := hP' (fun i => x.getD i 0) (by
        rw [← cube_product]
        show InProduct _ _
        rwa [ofFn_getD hl])
      rwa [ofFn_getD hl] at this
    have hfp := (continuousCube_iff d f).1 hf
    have hcp := (continuousCube_iff d (polyAt P)).1 (hc P)
    have h1p := (continuousCube_iff d _).1 (hone 1)
    have a1 := productIntegral_mono hfp ((continuousCube_iff d fun x => 1 * polyAt P x + ε * 1).1
      (by have := ((continuousOn_const (c := (1 : ℝ))).mul (hc P)).add ((continuousOn_const (c := ε * 1) (s := cubeSet d))); exact this)) fun x hx => by
        have := abs_lt.1 (hPl x hx)
        linarith
    have a2 := productIntegral_mono ((continuousCube_iff d fun x => 1 * polyAt P x + (-ε) * 1).1
      (by have := ((continuousOn_const (c := (1 : ℝ))).mul (hc P)).add ((continuousOn_const (c := -ε * 1) (s := cubeSet d))); exact this)) hfp fun x hx => by
        have := abs_lt.1 (hPl x hx)
        linarith
    rw [productIntegral_linear hcp h1p] at a1 a2
    have lin : ∀ r : ℝ, cubeIntegral d (fun x => polyAt P x + r) = cubeIntegral d (polyAt P) + r * vol := by
      intro r
      have e := integral_add (hint _ (hc P)) (hint _ (hone r))
      have e2 : ∫ _ in cubeSet d, r = r * vol := by
        rw [show vol = ∫ _ in cubeSet d, (1 : ℝ) from rfl, ← integral_const_mul, mul_one]
      rw [e2] at e
      exact e
    have mono : ∀ g h, ContinuousCube d g → ContinuousCube d h → (∀ x ∈ cubeSet d, g (List.ofFn x) ≤ h (List.ofFn x)) →
        cubeIntegral d g ≤ cubeIntegral d h := fun g h hg hh hle =>
      setIntegral_mono_on (hint g hg) (hint h hh) (compact_cube d).measurableSet hle
    have b1 := mono f (fun x => polyAt P x + ε) hf ((hc P).add continuousOn_const) fun x hx => by
      have := abs_lt.1 (hP' x hx)
      linarith
    have b2 := mono (fun x => polyAt P x + -ε) f ((hc P).add continuousOn_const) hf fun x hx => by
      have := abs_lt.1 (hP' x hx)
      linarith
    rw [lin] at b1 b2
    rw [hpoly, hvol] at a1 a2
    rw [abs_le]
    constructor <;> linarith
  have hv : 0 ≤ vol := by
    have : 0 ≤ ∫ _ in cubeSet d, (1 : ℝ) := by rw [volume_cube]; positivity
    exact this
  by_contra hne
  have hpos : 0 < |productIntegral (List.replicate d 1) f - cubeIntegral d f| := abs_pos.2 (sub_ne_zero.2 hne)
  set D := |productIntegral (List.replicate d 1) f - cubeIntegral d f|
  have := key (D / (2 * vol + 1)) (by positivity)
  rw [mul_div_assoc', le_div_iff₀ (by positivity)] at this
  nlinarith

/-- The nodes and weights of the tensor product of the Gauss-Legendre rule with `n + 1` points meet the hypotheses above for
`QN(d, n)`, with as many nodes as modes. -/
theorem C98_gauss_rule (ext : Ext) (hext : ext.EighOk) (d n : Nat) (hd : 0 < d) :
    ∃ A Q w b, legendreGaussTensorProductNodes ext d n = .ok A ∧ legendreGaussTensorProduct ext n d .builtin = .ok Q ∧
      spectralDiag Q = .ok w ∧ IsOrthonormalBasisOf b (.qn d n) ∧
      (∀ i : Fin (nodeTuples (.qn d n)).length, RegularFor (.qn d n) (column A d i)) ∧
      (∀ i : Fin (nodeTuples (.qn d n)).length, InProduct (List.replicate d 1) (column A d i)) ∧
      (∀ i : Fin (nodeTuples (.qn d n)).length, 0 ≤ w.get [(i : Nat)]) ∧
      ExactOnProducts (.qn d n) (fun i : Fin (nodeTuples (.qn d n)).length => column A d i) (fun i => w.get [(i : Nat)]) ∧
      UnisolventFor (.qn d n) (fun i : Fin (nodeTuples (.qn d n)).length => column A d i) := by
  have hfac : ∀ s ∈ (Space.qn d n).flatBases, 1 ≤ s.spatialDim ∧ s.spatialDim ≤ 3 := by
    intro s hs
    simp only [Space.flatBases] at hs
    rw [(List.mem_replicate.1 hs).2]
    simp
  obtain ⟨b, hb⟩ : ∃ b : Basis ℝ, orthonormalBasisForSpace (.qn d n) (.hypercube d) = .ok b := by
    simp only [orthonormalBasisForSpace, basisForSpaceWith]
    rw [if_neg (by simp [Space.spatialDim, Space.flatBases, Shape.dim]), if_neg (by simp [Space.flatBases, Shape.flatBases])]
    exact ⟨_, rfl⟩
  have hbo : IsOrthonormalBasisOf b (.qn d n) := ⟨_, Or.inl hb⟩
  obtain ⟨A, Q, w, M, hA, hQ, -, -, -, hw', -, hM, hdiag⟩ := C80_gauss ext hext d n hd b (Or.inl hb)
  obtain ⟨A', x, hA', -, -, hin, -, hget, hu⟩ := C70_legendre_gauss ext hext d n hd
  obtain rfl : A = A' := Except.ok.inj (hA.symm.trans hA')
  set y : Fin (nodeTuples (.qn d n)).length → List ℝ := fun i => column A d i
  have hreg : ∀ i, RegularFor (.qn d n) (y i) := fun i => regular_qn d n _ (by simp [y, column])
  have hy : ∀ i, InProduct (List.replicate d 1) (y i) := by
    intro i
    refine inProduct_of_inCube d _ ⟨by simp [y, column], fun c hc => ?_⟩
    simp only [y, column, List.mem_map, List.mem_range] at hc
    obtain ⟨r, hr, rfl⟩ := hc
    rw [hget r i hr (lt_of_lt_of_eq i.2 (length_qn d n))]
    exact ⟨(hin _).1.le, (hin _).2.le⟩
  obtain ⟨M', hM', hpd, hform⟩ := mass_isOrthonormal hbo hfac y hreg hu
  obtain rfl : M = M' := Except.ok.inj (hM.symm.trans hM')
  have hw : ∀ i : Fin (nodeTuples (.qn d n)).length, 0 ≤ w.get [(i : Nat)] := by
    intro i
    have := hpd.diag_pos (i := i)
    rw [hdiag, if_pos rfl] at this
    exact this.le
  have hex : ExactOnProducts (.qn d n) y fun i => w.get [(i : Nat)] := by
    intro c e
    rw [← hform]
    refine Finset.sum_congr rfl fun i _ => ?_
    rw [Finset.sum_eq_single i]
    · rw [hdiag, if_pos rfl]
      ring
    · intro j _ hj
      rw [hdiag, if_neg (Ne.symm hj)]
      ring
    · simp
  exact ⟨A, Q, w, b, hA, hQ, hw', hbo, hreg, hy, hw, hex, hu⟩

/-- The interpolant of a continuous function at the nodes of `legendre_gauss_tensor_product_nodes(d, n)` converges to it in the
mean square. -/
theorem C98_gauss (ext : Ext) (hext : ext.EighOk) (d : Nat) (hd : 0 < d) (f : List ℝ → ℝ) (hf : ContinuousCube d f) (ε : ℝ) (hε : 0 < ε) :
    ∃ N, ∀ n ≥ N, ∃ A, legendreGaussTensorProductNodes ext d n = .ok A ∧
      (∃ p, ∀ k < (n + 1) ^ d, spacePoly (.qn d n) p (column A d k) = f (column A d k)) ∧
      ∀ p, (∀ k < (n + 1) ^ d, spacePoly (.qn d n) p (column A d k) = f (column A d k)) →
        cubeIntegral d (fun x => (f x - spacePoly (.qn d n) p x) ^ 2) < ε := by
  have hdims : ∀ n, domainDims (.qn d n) = List.replicate d 1 := fun n => by simp [domainDims, Space.flatBases]
  have hfp := (continuousCube_iff d f).1 hf
  obtain ⟨N, hN⟩ := C98_converges (List.replicate d 1) (fun a ha => by rw [(List.mem_replicate.1 ha).2]; omega) f hfp ε hε
  refine ⟨N, fun n hn => ?_⟩
  have hfac : ∀ s ∈ (Space.qn d n).flatBases, 1 ≤ s.spatialDim ∧ s.spatialDim ≤ 3 := by
    intro s hs
    simp only [Space.flatBases] at hs
    rw [(List.mem_replicate.1 hs).2]
    simp
  obtain ⟨A, Q, w, b, hA, -, -, hbo, hreg, hy, hw, hex, hu⟩ := C98_gauss_rule ext hext d n hd
  set y : Fin (nodeTuples (.qn d n)).length → List ℝ := fun i => column A d i
  obtain ⟨p, hp, hpe⟩ := hN (.qn d n) (hdims n) (fun s hs => by
    simp only [Space.flatBases] at hs
    rw [(List.mem_replicate.1 hs).2]
    exact hn) b hbo _ y _ hreg hy hw hex
  obtain ⟨p', hp', hint⟩ := C98_interpolation hbo hfac y hreg _ hex fun k => f (y k)
  have hpi : ∀ i, spacePoly (.qn d n) p (y i) = f (y i) := fun i =>
    (discreteProjection_unique hp hp' _ (hreg i)).trans (hint i)
  refine ⟨A, hA, ⟨p, fun k hk => hpi ⟨k, hk.trans_eq (length_qn d n).symm⟩⟩, fun q hq => ?_⟩
  have hqp : q = p := by
    have := hu (q - p) fun i => by
      have h1 := hq i (lt_of_lt_of_eq i.2 (length_qn d n))
      have h2 := hpi i
      have h3 : spacePoly (.qn d n) (q - p) (y i) = spacePoly (.qn d n) q (y i) - spacePoly (.qn d n) p (y i) := by
        simp only [spacePoly, combine, Pi.sub_apply, sub_mul, Finset.sum_sub_distrib]
      have : spacePoly (.qn d n) (q - p) (y i) = 0 := by
        rw [h3, h2, h1, sub_self]
      exact this
    exact sub_eq_zero.1 this
  subst hqp
  have hc : ContinuousCube d fun x => (f x - spacePoly (.qn d n) q x) ^ 2 := by
    rw [continuousCube_iff]
    have := continuous_spacePoly (.qn d n) q
    rw [hdims n] at this
    exact continuousOn_combination hfp this
  rw [spaceIntegral, show (Space.qn d n).flatBases.map PNSpace.spatialDim = List.replicate d 1 from hdims n, productIntegral_cube d _ hc] at hpe
  exact hpe

/-- The rules of `quadrature_for_space` for twice the orders of a space integrate the products of its polynomials. -/
theorem C98_quadratureForSpace (ext : Ext) (hext : ext.EighOk) (t : XgTables) (ht : XgOk t) (space space2 : Space) (shape : Shape)
    (h2 : space2.flatBases = space.flatBases.map fun s => ⟨s.spatialDim, 2 * s.order⟩)
    (hshape : shape.flatBases = domainDims space) (hpos : space.spatialDim ≠ 0) (q : Quadrature)
    (hq : quadratureForSpace ext t space2 shape = .ok q) :
    ExactOnProducts space (fun k : Fin q.nnodes => q.node k) fun k => q.weights.get [(k : Nat)] :=
  (quadratureForSpace_products ext hext t ht space space2 shape h2 hshape hpos q hq).2

/-- The hypotheses are met on the square with order three and sixteen nodes, and the interpolants of `|x + y|`, which has a
kink, converge. -/
example : ∃ ext : Ext, ext.EighOk ∧ (∃ (A w : NdArray ℝ) (b : Basis ℝ), legendreGaussTensorProductNodes ext 2 3 = .ok A ∧ IsOrthonormalBasisOf b (.qn 2 3) ∧
      ∃ p, IsDiscreteProjection b (.qn 2 3) (fun i : Fin (nodeTuples (.qn 2 3)).length => column A 2 i) (fun i => w.get [(i : Nat)])
        (fun i => |(column A 2 i).getD 0 0 + (column A 2 i).getD 1 0|) p) ∧
    ∃ N, ∀ n ≥ N, ∃ A p, legendreGaussTensorProductNodes ext 2 n = .ok A ∧
      (∀ k < (n + 1) ^ 2, spacePoly (.qn 2 n) p (column A 2 k) = |(column A 2 k).getD 0 0 + (column A 2 k).getD 1 0|) ∧
      cubeIntegral 2 (fun x => (|x.getD 0 0 + x.getD 1 0| - spacePoly (.qn 2 n) p x) ^ 2) < 1 / 1000 := by
  obtain ⟨ext, hext⟩ := exists_eighOk
  refine ⟨ext, hext, ?_, ?_⟩
  · obtain ⟨A, Q, w, b, hA, -, -, hb, hreg, -, hw, hex, -⟩ := C98_gauss_rule ext hext 2 3 (by norm_num)
    obtain ⟨p, hp, -⟩ := C98_projection hb (fun s hs => by
      simp only [Space.flatBases] at hs
      rw [(List.mem_replicate.1 hs).2]
      simp) _ hreg _ hw hex fun i => |(column A 2 i).getD 0 0 + (column A 2 i).getD 1 0|
    exact ⟨A, w, b, hA, hb, p, hp⟩
  · obtain ⟨N, hN⟩ := C98_gauss ext hext 2 (by norm_num) (fun x => |x.getD 0 0 + x.getD 1 0|) (by
      have : Continuous fun x : Fin 2 → ℝ => |x 0 + x 1| := by fun_prop
      refine this.continuousOn.congr fun x _ => ?_
      simp) (1 / 1000) (by norm_num)
    refine ⟨N, fun n hn => ?_⟩
    obtain ⟨A, hA, ⟨p, hp⟩, hall⟩ := hN n hn
    exact ⟨A, p, hA, hp, hall p hp⟩

end Modepy

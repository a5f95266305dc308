import Verif.Props.SimplexTrace
import Verif.Props.MassAlgebra
import Verif.Props.SummationByParts
import Verif.Props.LobattoNorm
import Verif.Props.SpectralMass
import Verif.Props.ConvergenceCube
import Verif.Props.DiffAlgebra
import Verif.Props.DiscreteProjection
import Mathlib.Analysis.Calculus.MeanValue
import Mathlib.Analysis.Complex.Basic

/-!
# Stability of discontinuous Galerkin operators assembled from the matrices of the library
-/

namespace Modepy
open Spec MeasureTheory Matrix

/-- The number of unknowns of a space. -/
abbrev Spec.unknowns (space : Space) : Nat := (nodeTuples space).length

/-- The matrices of one element as returned by `mass_matrix`, `diff_matrices`, `nodal_quadrature_bilinear_form_matrix` (with
`test_function_node_map = face.map_to_volume`, one per face) and `resampling_matrix` (from the volume nodes to the nodes of each face). -/
structure Spec.Assembled {space : Space} {N : Nat} (faces : List Face) (b : Basis ℝ) (nodes : Fin (unknowns space) → List ℝ)
    (S : (l : Fin faces.length) → FaceOperators space faces[l] N) (ls : Bool)
    (pinv : (n : Nat) → Matrix (Fin (unknowns space)) (Fin n) ℝ → Matrix (Fin n) (Fin (unknowns space)) ℝ)
    (M : Matrix (Fin (unknowns space)) (Fin (unknowns space)) ℝ)
    (D : Fin space.spatialDim → Matrix (Fin (unknowns space)) (Fin (unknowns space)) ℝ)
    (A : (l : Fin faces.length) → Matrix (Fin (unknowns space)) (Fin (unknowns (S l).fspace)) ℝ)
    (R : (l : Fin faces.length) → Matrix (Fin (unknowns (S l).fspace)) (Fin (unknowns space)) ℝ) : Prop where
  mass : massMatrixOfBasis b nodes = .ok M
  diff : diffMatricesOf space.spatialDim b nodes nodes = .ok D
  face : ∀ l, bilinearFormMatrixOf (S l).quadNodes (S l).quadWeights b (S l).basis (S l).nodes nodes faces[l].mapToVolume = .ok (A l)
  restrict : ∀ l, resamplingMatrixOf b (S l).volumeNodes nodes ls pinv = .ok (R l)

/-- The component `k` of the normal of a face, times the ratio of the areas of the face and its reference shape. -/
noncomputable def Spec.scaledNormal (f : Face) (k : Nat) : ℝ := (okOr [] (faceNormal f false)).getD k 0 / 2 ^ f.shape.dim

/-- The velocity through a face. -/
noncomputable def Spec.fluxThrough {d : Nat} (β : Fin d → ℝ) (f : Face) : ℝ := ∑ k : Fin d, β k * scaledNormal f k

/-- The upwind discretisation of `-β·∇u` with no inflow on one element, times the mass matrix. -/
noncomputable def Spec.upwindMatrix {m d F : Nat} (M : Matrix (Fin m) (Fin m) ℝ) (D : Fin d → Matrix (Fin m) (Fin m) ℝ)
    (B : Fin F → Matrix (Fin m) (Fin m) ℝ) (β : Fin d → ℝ) (a : Fin F → ℝ) : Matrix (Fin m) (Fin m) ℝ :=
  -(M * ∑ k, β k • D k) + ∑ l, min (a l) 0 • B l

/-- The symmetric interior penalty form of the Laplacian on one element, with homogeneous boundary values. -/
noncomputable def Spec.penaltyForm {m d : Nat} (faces : List Face) (M : Matrix (Fin m) (Fin m) ℝ) (D : Fin d → Matrix (Fin m) (Fin m) ℝ)
    (B : Fin faces.length → Matrix (Fin m) (Fin m) ℝ) (σ : Fin faces.length → ℝ) (u : Fin m → ℝ) : ℝ :=
  ∑ k, (D k *ᵥ u) ⬝ᵥ M *ᵥ (D k *ᵥ u) -
    2 * ∑ l : Fin faces.length, (∑ k : Fin d, scaledNormal faces[l] k • D k *ᵥ u) ⬝ᵥ B l *ᵥ u +
    ∑ l, σ l * (u ⬝ᵥ B l *ᵥ u)

theorem quad_form {m : Nat} (A : Matrix (Fin m) (Fin m) ℝ) (u v : Fin m → ℝ) : u ⬝ᵥ A *ᵥ v = ∑ i, ∑ j, u i * A i j * v j := by
  simp only [dotProduct, mulVec, Finset.mul_sum, mul_assoc]

theorem swap_form {m : Nat} (A : Matrix (Fin m) (Fin m) ℝ) (u v : Fin m → ℝ) : u ⬝ᵥ Aᵀ *ᵥ v = v ⬝ᵥ A *ᵥ u := by
  rw [Matrix.mulVec_transpose, dotProduct_comm, ← Matrix.dotProduct_mulVec]

theorem sum_form {m F : Nat} (B : Fin F → Matrix (Fin m) (Fin m) ℝ) (t : Fin F → ℝ) (u v : Fin m → ℝ) :
    u ⬝ᵥ (∑ l, t l • B l) *ᵥ v = ∑ l, t l * (u ⬝ᵥ B l *ᵥ v) := by
  rw [Matrix.sum_mulVec, dotProduct_sum]
  simp only [Matrix.smul_mulVec, dotProduct_smul, smul_eq_mul]

theorem form_cauchy {m d : Nat} (M : Matrix (Fin m) (Fin m) ℝ) (hM : Mᵀ = M) (hnn : ∀ z, 0 ≤ z ⬝ᵥ M *ᵥ z) (n : Fin d → ℝ)
    (v : Fin d → Fin m → ℝ) :
    (∑ k, n k • v k) ⬝ᵥ M *ᵥ (∑ k, n k • v k) ≤ (∑ k, n k ^ 2) * ∑ k, v k ⬝ᵥ M *ᵥ v k := by
  have hsw : ∀ a b : Fin m → ℝ, a ⬝ᵥ M *ᵥ b = b ⬝ᵥ M *ᵥ a := fun a b => by rw [← swap_form, hM]
  have h : 0 ≤ ∑ j, ∑ k, (n j • v k - n k • v j) ⬝ᵥ M *ᵥ (n j • v k - n k • v j) :=
    Finset.sum_nonneg fun j _ => Finset.sum_nonneg fun k _ => hnn _
  have e : ∀ j k, (n j • v k - n k • v j) ⬝ᵥ M *ᵥ (n j • v k - n k • v j) =
      n j ^ 2 * (v k ⬝ᵥ M *ᵥ v k) + n k ^ 2 * (v j ⬝ᵥ M *ᵥ v j) - 2 * (n j * n k * (v j ⬝ᵥ M *ᵥ v k)) := by
    intro j k
    simp only [Matrix.mulVec_sub, dotProduct_sub, sub_dotProduct, Matrix.mulVec_smul, dotProduct_smul, smul_dotProduct, smul_eq_mul]
    rw [hsw (v k) (v j)]
    ring
  have e2 : (∑ k, n k • v k) ⬝ᵥ M *ᵥ (∑ k, n k • v k) = ∑ j, ∑ k, n j * n k * (v j ⬝ᵥ M *ᵥ v k) := by
    rw [Matrix.mulVec_sum, sum_dotProduct]
    refine Finset.sum_congr rfl fun j _ => ?_
    rw [dotProduct_sum]
    refine Finset.sum_congr rfl fun k _ => ?_
    simp only [Matrix.mulVec_smul, dotProduct_smul, smul_dotProduct, smul_eq_mul]
    ring
  simp only [e, Finset.sum_sub_distrib, Finset.sum_add_distrib, ← Finset.mul_sum] at h
  rw [← e2] at h
  have e3 : ∑ j, n j ^ 2 * ∑ k, v k ⬝ᵥ M *ᵥ v k = (∑ k, n k ^ 2) * ∑ k, v k ⬝ᵥ M *ᵥ v k := by rw [Finset.sum_mul]
  have e4 : ∑ j : Fin d, ∑ k, n k ^ 2 * (v j ⬝ᵥ M *ᵥ v j) = (∑ k, n k ^ 2) * ∑ k, v k ⬝ᵥ M *ᵥ v k := by
    rw [Finset.mul_sum]
    exact Finset.sum_congr rfl fun j _ => by rw [Finset.sum_mul]
  rw [e3, e4] at h
  linarith

section
variable {shape : Shape} (h1 : shape ≠ .hypercube 1) {faces : List Face} (hf : facesForShape shape = .ok faces) {N : Nat} {space : Space}
  (hs : Conforms space shape N) {b : Basis ℝ} (hb : orthonormalBasisForSpace space shape = .ok b)
  {nodes : Fin (unknowns space) → List ℝ} (hreg : ∀ i, RegularFor space (nodes i)) (hu : UnisolventFor space nodes)
  {S : (l : Fin faces.length) → FaceOperators space faces[l] N} {ls : Bool}
  {pinv : (n : Nat) → Matrix (Fin (unknowns space)) (Fin n) ℝ → Matrix (Fin n) (Fin (unknowns space)) ℝ}

include h1 hf hs hb hreg hu

/-- **C107.**  All these calls succeed. -/
theorem C107_assembled : ∃ M D A R, Assembled faces b nodes S ls pinv M D A R := by
  obtain ⟨M, D, A, R, h2, h3, h4, h5, -⟩ := C79_summation_by_parts shape h1 faces hf N space hs b hb nodes hreg hu S ls pinv
  exact ⟨M, D, A, R, h2, h3, h4, h5⟩

variable {M : Matrix (Fin (unknowns space)) (Fin (unknowns space)) ℝ}
  {D : Fin space.spatialDim → Matrix (Fin (unknowns space)) (Fin (unknowns space)) ℝ}
  {A : (l : Fin faces.length) → Matrix (Fin (unknowns space)) (Fin (unknowns (S l).fspace)) ℝ}
  {R : (l : Fin faces.length) → Matrix (Fin (unknowns (S l).fspace)) (Fin (unknowns space)) ℝ}

omit hreg hu in
theorem assembled_dims : ∀ s ∈ space.flatBases, 1 ≤ s.spatialDim ∧ s.spatialDim ≤ 3 := by
  intro s hs'
  rw [hs] at hs'
  obtain ⟨d, hd, rfl⟩ := List.mem_map.1 hs'
  cases shape with
  | simplex d' =>
    have : d = d' := by simpa [Shape.flatBases] using hd
    subst this
    by_contra hc
    rw [C08_simplex_other d (by dsimp only at hc; omega)] at hf
    exact absurd hf (by simp)
  | hypercube d' =>
    have : d = 1 := (List.mem_replicate.1 hd).2
    subst this
    simp
  | tp dims => cases hf

theorem assembled_mass (h : Assembled faces b nodes S ls pinv M D A R) : Mᵀ = M ∧
    (∀ u : Fin (unknowns space) → ℝ, u ≠ 0 → 0 < u ⬝ᵥ M *ᵥ u) ∧
    ∀ c e, (fun i => spacePoly space c (nodes i)) ⬝ᵥ M *ᵥ (fun i => spacePoly space e (nodes i)) =
      spaceIntegral space fun x => spacePoly space c x * spacePoly space e x := by
  have hdim := assembled_dims h1 hf hs hb
  have hb' : IsOrthonormalBasisOf b space := ⟨shape, Or.inl hb⟩
  obtain ⟨M', h2, h3, h4, -⟩ := C87_mass space b hb' hdim nodes hreg hu
  obtain rfl := Except.ok.inj (h.mass.symm.trans h2)
  obtain ⟨M', h5, h6⟩ := C75_mass space shape b hb hdim nodes hreg hu
  obtain rfl := Except.ok.inj (h.mass.symm.trans h5)
  refine ⟨h3, fun u hu => ?_, fun c e => ?_⟩
  · rw [quad_form]
    exact h4 u hu
  · rw [quad_form]
    exact h6 c e

theorem assembled_face (h : Assembled faces b nodes S ls pinv M D A R) (l : Fin faces.length) (c e) :
    (fun i => spacePoly space c (nodes i)) ⬝ᵥ (A l * R l) *ᵥ (fun i => spacePoly space e (nodes i)) =
      Spec.shapeIntegral faces[l].shape fun p =>
        spacePoly space c (okOr [] (faces[l].mapToVolume p)) * spacePoly space e (okOr [] (faces[l].mapToVolume p)) := by
  have hdim := assembled_dims h1 hf hs hb
  have hb' : IsBasisOf b space := ⟨shape, Or.inl ⟨hb, fun s hs => (hdim s hs).2⟩⟩
  obtain ⟨A', R', h2, h3, h4⟩ := C79_face shape h1 faces hf faces[l] (List.getElem_mem _) N space hs b hb' nodes hreg hu (S l) ls pinv
  obtain rfl := Except.ok.inj ((h.face l).symm.trans h2)
  obtain rfl := Except.ok.inj ((h.restrict l).symm.trans h3)
  rw [quad_form]
  exact h4 c e

/-- **C107.**  Face mass matrix times restriction is symmetric and positive semidefinite, for every face. -/
theorem C107_face_mass (h : Assembled faces b nodes S ls pinv M D A R) (l : Fin faces.length) :
    (A l * R l)ᵀ = A l * R l ∧ ∀ u : Fin (unknowns space) → ℝ, 0 ≤ u ⬝ᵥ (A l * R l) *ᵥ u := by
  have hB := assembled_face h1 hf hs hb hreg hu h l
  constructor
  · apply form_unique space nodes hu
    intro c e
    rw [← quad_form _ (fun i => spacePoly space c (nodes i)) fun i => spacePoly space e (nodes i),
      ← quad_form _ (fun i => spacePoly space c (nodes i)) fun i => spacePoly space e (nodes i), swap_form, hB, hB]
    congr 1
    funext p
    ring
  · intro u
    obtain ⟨c, hc⟩ := exists_values hu u
    obtain rfl : (fun i => spacePoly space c (nodes i)) = u := funext hc
    rw [hB]
    generalize faces[l] = f
    cases f.shape with
    | simplex d => exact integral_nonneg fun x => mul_self_nonneg _
    | hypercube d => exact integral_nonneg fun x => mul_self_nonneg _
    | tp dims => exact integral_nonneg fun x => mul_self_nonneg _

/-- **C107.**  The energy identity of the upwind operator, for every constant velocity. -/
theorem C107_energy (h : Assembled faces b nodes S ls pinv M D A R) (β : Fin space.spatialDim → ℝ) (u : Fin (unknowns space) → ℝ) :
    2 * (u ⬝ᵥ upwindMatrix M D (fun l => A l * R l) β (fun l => fluxThrough β faces[l]) *ᵥ u) =
      -∑ l : Fin faces.length, |fluxThrough β faces[l]| * (u ⬝ᵥ (A l * R l) *ᵥ u) := by
  obtain ⟨hM, -, -⟩ := assembled_mass h1 hf hs hb hreg hu h
  have hsbp : ∀ k, M * D k + (D k)ᵀ * M = ∑ l : Fin faces.length, scaledNormal faces[l] k • (A l * R l) := by
    obtain ⟨M', D', A', R', h2, h3, h4, h5, h6⟩ := C79_summation_by_parts shape h1 faces hf N space hs b hb nodes hreg hu S ls pinv
    obtain rfl := Except.ok.inj (h.mass.symm.trans h2)
    obtain rfl := Except.ok.inj (h.diff.symm.trans h3)
    obtain rfl : A = A' := funext fun l => Except.ok.inj ((h.face l).symm.trans (h4 l))
    obtain rfl : R = R' := funext fun l => Except.ok.inj ((h.restrict l).symm.trans (h5 l))
    exact h6
  have hk : ∀ k, 2 * (u ⬝ᵥ (M * D k) *ᵥ u) = ∑ l : Fin faces.length, scaledNormal faces[l] k * (u ⬝ᵥ (A l * R l) *ᵥ u) := by
    intro k
    rw [← sum_form, ← hsbp, Matrix.add_mulVec, dotProduct_add]
    have : (D k)ᵀ * M = (M * D k)ᵀ := by rw [Matrix.transpose_mul, hM]
    rw [this, swap_form]
    ring
  rw [upwindMatrix, Matrix.add_mulVec, dotProduct_add, Matrix.neg_mulVec, dotProduct_neg, Finset.mul_sum]
  simp only [Matrix.mul_smul]
  rw [sum_form, sum_form, mul_add, mul_neg, Finset.mul_sum]
  have : ∀ k, 2 * (β k * (u ⬝ᵥ (M * D k) *ᵥ u)) = ∑ l : Fin faces.length, β k * scaledNormal faces[l] k * (u ⬝ᵥ (A l * R l) *ᵥ u) := by
    intro k
    rw [mul_left_comm, hk, Finset.mul_sum]
    exact Finset.sum_congr rfl fun l _ => by ring
  simp only [this]
  rw [Finset.sum_comm, Finset.mul_sum, ← Finset.sum_neg_distrib, ← Finset.sum_neg_distrib, ← Finset.sum_add_distrib]
  refine Finset.sum_congr rfl fun l _ => ?_
  rw [← Finset.sum_mul, show ∑ k : Fin space.spatialDim, β k * scaledNormal faces[l] k = fluxThrough β faces[l] from rfl]
  generalize fluxThrough β faces[l] = a
  rcases le_total a 0 with ha | ha
  · rw [min_eq_left ha, abs_of_nonpos ha]; ring
  · rw [min_eq_right ha, abs_of_nonneg ha]; ring

theorem upwind_nonpos (h : Assembled faces b nodes S ls pinv M D A R) (β : Fin space.spatialDim → ℝ) (u : Fin (unknowns space) → ℝ) :
    u ⬝ᵥ upwindMatrix M D (fun l => A l * R l) β (fun l => fluxThrough β faces[l]) *ᵥ u ≤ 0 := by
  have h2 := C107_energy h1 hf hs hb hreg hu h β u
  have : 0 ≤ ∑ l : Fin faces.length, |fluxThrough β faces[l]| * (u ⬝ᵥ (A l * R l) *ᵥ u) :=
    Finset.sum_nonneg fun l _ => mul_nonneg (abs_nonneg _) ((C107_face_mass h1 hf hs hb hreg hu h l).2 u)
  linarith

/-- **C107.**  Along every solution of the semidiscrete equation the energy does not increase. -/
theorem C107_decay (h : Assembled faces b nodes S ls pinv M D A R) (β : Fin space.spatialDim → ℝ)
    (u u' : ℝ → Fin (unknowns space) → ℝ) (hd : ∀ t, HasDerivAt u (u' t) t)
    (he : ∀ t, M *ᵥ u' t = upwindMatrix M D (fun l => A l * R l) β (fun l => fluxThrough β faces[l]) *ᵥ u t) :
    Antitone fun t => u t ⬝ᵥ M *ᵥ u t := by
  obtain ⟨hM, -, -⟩ := assembled_mass h1 hf hs hb hreg hu h
  have hd' : ∀ t, HasDerivAt (fun t => u t ⬝ᵥ M *ᵥ u t) (2 * (u t ⬝ᵥ M *ᵥ u' t)) t := by
    intro t
    have hi : ∀ i, HasDerivAt (fun t => u t i) (u' t i) t := fun i => hasDerivAt_pi.1 (hd t) i
    have : HasDerivAt (fun t => ∑ i, ∑ j, u t i * M i j * u t j) (∑ i, ∑ j, (u' t i * M i j * u t j + u t i * M i j * u' t j)) t := by
      refine HasDerivAt.fun_sum fun i _ => HasDerivAt.fun_sum fun j _ => ?_
      exact ((hi i).mul_const (M i j)).mul (hi j)
    simp only [quad_form]
    refine this.congr_deriv ?_
    simp only [Finset.sum_add_distrib, two_mul]
    congr 1
    rw [← quad_form, ← quad_form, ← swap_form, hM]
  refine antitone_of_deriv_nonpos (fun t => (hd' t).differentiableAt) fun t => ?_
  rw [(hd' t).deriv, he]
  linarith [upwind_nonpos h1 hf hs hb hreg hu h β (u t)]

/-- **C107.**  No eigenvalue of the upwind operator has a positive real part. -/
theorem C107_spectrum (h : Assembled faces b nodes S ls pinv M D A R) (β : Fin space.spatialDim → ℝ) (ν : ℂ)
    (v : Fin (unknowns space) → ℂ) (hv : v ≠ 0)
    (he : (upwindMatrix M D (fun l => A l * R l) β (fun l => fluxThrough β faces[l])).map Complex.ofReal *ᵥ v =
      ν • (M.map Complex.ofReal *ᵥ v)) : ν.re ≤ 0 := by
  obtain ⟨hM, hpos, -⟩ := assembled_mass h1 hf hs hb hreg hu h
  set G := upwindMatrix M D (fun l => A l * R l) β (fun l => fluxThrough β faces[l])
  set x : Fin (unknowns space) → ℝ := fun i => (v i).re
  set y : Fin (unknowns space) → ℝ := fun i => (v i).im
  have hre : ∀ (B : Matrix (Fin (unknowns space)) (Fin (unknowns space)) ℝ) i, ((B.map Complex.ofReal *ᵥ v) i).re = (B *ᵥ x) i := by
    intro B i
    simp [mulVec, dotProduct, x]
  have him : ∀ (B : Matrix (Fin (unknowns space)) (Fin (unknowns space)) ℝ) i, ((B.map Complex.ofReal *ᵥ v) i).im = (B *ᵥ y) i := by
    intro B i
    simp [mulVec, dotProduct, y]
  have e1 : G *ᵥ x = ν.re • (M *ᵥ x) - ν.im • (M *ᵥ y) := by
    funext i
    have := congrArg Complex.re (congrFun he i)
    rw [hre, Pi.smul_apply, smul_eq_mul, Complex.mul_re, hre, him] at this
    simpa using this
  have e2 : G *ᵥ y = ν.re • (M *ᵥ y) + ν.im • (M *ᵥ x) := by
    funext i
    have := congrArg Complex.im (congrFun he i)
    rw [him, Pi.smul_apply, smul_eq_mul, Complex.mul_im, hre, him] at this
    simpa using this
  have n1 := upwind_nonpos h1 hf hs hb hreg hu h β x
  have n2 := upwind_nonpos h1 hf hs hb hreg hu h β y
  have hxy : x ⬝ᵥ M *ᵥ y = y ⬝ᵥ M *ᵥ x := by rw [← swap_form, hM]
  have hsum : x ⬝ᵥ G *ᵥ x + y ⬝ᵥ G *ᵥ y = ν.re * (x ⬝ᵥ M *ᵥ x + y ⬝ᵥ M *ᵥ y) := by
    rw [e1, e2, dotProduct_sub, dotProduct_add]
    simp only [dotProduct_smul, smul_eq_mul]
    rw [hxy]
    ring
  have hnn : ∀ z : Fin (unknowns space) → ℝ, 0 ≤ z ⬝ᵥ M *ᵥ z := by
    intro z
    by_cases hz : z = 0
    · simp [hz]
    · exact (hpos z hz).le
  have hp : 0 < x ⬝ᵥ M *ᵥ x + y ⬝ᵥ M *ᵥ y := by
    by_cases hx : x = 0
    · have hy : y ≠ 0 := by
        intro hy
        apply hv
        funext i
        exact Complex.ext (congrFun hx i) (congrFun hy i)
      linarith [hnn x, hpos y hy]
    · linarith [hnn y, hpos x hx]
  by_contra hc
  have := mul_pos (not_le.1 hc) hp
  linarith

theorem assembled_trace (h : Assembled faces b nodes S ls pinv M D A R) (l : Fin faces.length) {K : ℝ}
    (hK : IsGreatest (unitTraces space faces[l]) K) :
    (∀ u : Fin (unknowns space) → ℝ, u ⬝ᵥ (A l * R l) *ᵥ u ≤ K * (u ⬝ᵥ M *ᵥ u)) ∧
      ∃ u : Fin (unknowns space) → ℝ, u ⬝ᵥ M *ᵥ u = 1 ∧ u ⬝ᵥ (A l * R l) *ᵥ u = K := by
  obtain ⟨-, hpos, hm⟩ := assembled_mass h1 hf hs hb hreg hu h
  have hB := assembled_face h1 hf hs hb hreg hu h l
  have hsq : ∀ c, Spec.shapeIntegral faces[l].shape (fun p => spacePoly space c (okOr [] (faces[l].mapToVolume p)) ^ 2) =
      (fun i => spacePoly space c (nodes i)) ⬝ᵥ (A l * R l) *ᵥ (fun i => spacePoly space c (nodes i)) := by
    intro c
    rw [hB]
    simp only [sq]
  constructor
  · intro u
    by_cases hu0 : u = 0
    · simp [hu0]
    have hp := hpos u hu0
    set t := Real.sqrt (u ⬝ᵥ M *ᵥ u)
    have ht : t * t = u ⬝ᵥ M *ᵥ u := Real.mul_self_sqrt hp.le
    have ht0 : t ≠ 0 := (Real.sqrt_pos.2 hp).ne'
    obtain ⟨c, hc⟩ := exists_values hu (t⁻¹ • u)
    have hc' : (fun i => spacePoly space c (nodes i)) = t⁻¹ • u := funext hc
    have h2 := hK.2 ⟨c, by
      rw [← hm c c, hc', Matrix.mulVec_smul, dotProduct_smul, smul_dotProduct, ← ht]
      simp only [smul_eq_mul]
      field_simp, rfl⟩
    rw [hsq, hc', Matrix.mulVec_smul, dotProduct_smul, smul_dotProduct] at h2
    simp only [smul_eq_mul] at h2
    rw [← ht]
    have := mul_le_mul_of_nonneg_right h2 (mul_self_nonneg t)
    have e : t⁻¹ * (t⁻¹ * u ⬝ᵥ (A l * R l) *ᵥ u) * (t * t) = u ⬝ᵥ (A l * R l) *ᵥ u := by field_simp
    linarith
  · obtain ⟨c, h2, h3⟩ := hK.1
    exact ⟨fun i => spacePoly space c (nodes i), by rw [hm, h2], by rw [h3, hsq]⟩

/-- The interior penalty form is coercive once the penalties exceed the constant of the trace inequality. -/
theorem penalty_coercive (h : Assembled faces b nodes S ls pinv M D A R) {K : ℝ} (hK0 : 0 < K)
    (hK : ∀ l : Fin faces.length, IsGreatest (unitTraces space faces[l]) K) (u : Fin (unknowns space) → ℝ) :
    1 / 2 * ∑ k, (D k *ᵥ u) ⬝ᵥ M *ᵥ (D k *ᵥ u) ≤ penaltyForm faces M D (fun l => A l * R l)
      (fun l => 2 * faces.length * K * ∑ k : Fin space.spatialDim, scaledNormal faces[l] k ^ 2) u := by
  obtain ⟨hM, hpos, hm⟩ := assembled_mass h1 hf hs hb hreg hu h
  have hnn : ∀ z : Fin (unknowns space) → ℝ, 0 ≤ z ⬝ᵥ M *ᵥ z := by
    intro z
    by_cases hz : z = 0
    · simp [hz]
    · exact (hpos z hz).le
  set G := ∑ k, (D k *ᵥ u) ⬝ᵥ M *ᵥ (D k *ᵥ u)
  have key : ∀ l : Fin faces.length, 2 * ((∑ k : Fin space.spatialDim, scaledNormal faces[l] k • D k *ᵥ u) ⬝ᵥ (A l * R l) *ᵥ u) ≤
      G / (2 * faces.length) + 2 * faces.length * K * (∑ k : Fin space.spatialDim, scaledNormal faces[l] k ^ 2) * (u ⬝ᵥ (A l * R l) *ᵥ u) := by
    intro l
    have hF : (0 : ℝ) < faces.length := by exact_mod_cast l.pos
    have hG : 0 ≤ G := Finset.sum_nonneg fun k _ => hnn _
    obtain ⟨hsym, hpsd⟩ := C107_face_mass h1 hf hs hb hreg hu h l
    have htr := (assembled_trace h1 hf hs hb hreg hu h l (hK l)).1 (∑ k : Fin space.spatialDim, scaledNormal faces[l] k • D k *ᵥ u)
    have hcs := form_cauchy M hM hnn (fun k : Fin space.spatialDim => scaledNormal faces[l] k) fun k => D k *ᵥ u
    set w := ∑ k : Fin space.spatialDim, scaledNormal faces[l] k • D k *ᵥ u
    rcases (Finset.sum_nonneg fun k _ => sq_nonneg _ : 0 ≤ ∑ k : Fin space.spatialDim, scaledNormal faces[l] k ^ 2).eq_or_lt with h0 | h0
    · have : w = 0 := by
        refine Finset.sum_eq_zero fun k _ => ?_
        have := (Finset.sum_eq_zero_iff_of_nonneg fun k _ => sq_nonneg _).1 h0.symm k (Finset.mem_univ k)
        rw [pow_eq_zero_iff (by norm_num)] at this
        rw [this, zero_smul]
      rw [this, ← h0]
      simp
      positivity
    · set ν := ∑ k : Fin space.spatialDim, scaledNormal faces[l] k ^ 2
      set τ := 2 * faces.length * K * ν
      have hτ : 0 < τ := by positivity
      have h2 := hpsd (w - τ • u)
      have hwu : u ⬝ᵥ (A l * R l) *ᵥ w = w ⬝ᵥ (A l * R l) *ᵥ u := by rw [← swap_form, hsym]
      rw [Matrix.mulVec_sub, dotProduct_sub, sub_dotProduct, sub_dotProduct, Matrix.mulVec_smul, dotProduct_smul, dotProduct_smul,
        smul_dotProduct, smul_dotProduct, hwu] at h2
      simp only [smul_eq_mul] at h2
      have h3 : w ⬝ᵥ (A l * R l) *ᵥ w ≤ K * (ν * G) := htr.trans (mul_le_mul_of_nonneg_left hcs hK0.le)
      have h4 : G / (2 * faces.length) = K * (ν * G) / τ := by
        simp only [τ]
        field_simp
      rw [h4, div_add' _ _ _ hτ.ne', le_div_iff₀ hτ]
      nlinarith
  have hsum := Finset.sum_le_sum fun l (_ : l ∈ (Finset.univ : Finset (Fin faces.length))) => key l
  rw [Finset.sum_add_distrib, Finset.sum_const, Finset.card_univ, Fintype.card_fin, nsmul_eq_mul, ← Finset.mul_sum] at hsum
  have hG : (faces.length : ℝ) * (G / (2 * faces.length)) ≤ G / 2 := by
    by_cases h0 : (faces.length : ℝ) = 0
    · have : 0 ≤ G := Finset.sum_nonneg fun k _ => hnn _
      rw [h0, zero_mul]
      linarith
    · exact le_of_eq (by field_simp)
  rw [penaltyForm]
  linarith

end

theorem unitTraces_subset {shape : Shape} {space space' : Space} {N : Nat} (hs : Conforms space shape N) (hs' : Conforms space' shape N) (f : Face)
    (hlen : ∀ p : List ℝ, p.length = f.shape.dim → (okOr [] (f.mapToVolume p)).length = shape.dim) :
    unitTraces space f ⊆ unitTraces space' f := by
  rintro r ⟨c, hc, rfl⟩
  have hflat : space.flatBases = space'.flatBases := hs.trans hs'.symm
  obtain ⟨P, hP, hv⟩ := spacePoly_polyAt space (conforms_spatialDim hs) c
  obtain ⟨c', hv'⟩ := polyAt_spacePoly space' (conforms_spatialDim hs') P fun m hm => by
    have := hP m hm
    rw [mem_nodeTuples] at this ⊢
    rwa [← hflat]
  have he : ∀ x : List ℝ, x.length = shape.dim → spacePoly space c x = spacePoly space' c' x := fun x hx => (hv x hx).trans (hv' x hx)
  refine ⟨c', ?_, ?_⟩
  · rw [← hc, spaceIntegral, spaceIntegral, ← hflat]
    apply productIntegral_congr
    intro x hx
    have hx' : x.length = shape.dim := by
      rw [hx, ← conforms_spatialDim hs]
      cases space <;> simp [Space.spatialDim, Space.flatBases]
    rw [he x hx']
  · apply shapeIntegral_congr
    intro p hp
    rw [he _ (hlen p hp)]

theorem unitTraces_congr {shape : Shape} {space space' : Space} {N : Nat} (hs : Conforms space shape N) (hs' : Conforms space' shape N) (f : Face)
    (hlen : ∀ p : List ℝ, p.length = f.shape.dim → (okOr [] (f.mapToVolume p)).length = shape.dim) :
    unitTraces space f = unitTraces space' f :=
  (unitTraces_subset hs hs' f hlen).antisymm (unitTraces_subset hs' hs f hlen)

theorem shape_volume_pos (shape : Shape) : 0 < Spec.shapeIntegral shape fun _ => 1 := by
  cases shape with
  | simplex d => exact volume_simplex_pos d
  | hypercube d =>
    have : Spec.cubeIntegral d (fun _ => 1) = 2 ^ d := volume_cube d
    rw [Spec.shapeIntegral, this]
    positivity
  | tp dims =>
    have : Spec.productIntegral dims (fun _ => 1) = spaceIntegral (.tp (dims.map fun d => ⟨d, 0⟩)) fun _ => 1 := by
      simp [spaceIntegral, Space.flatBases, Function.comp_def]
    rw [Spec.shapeIntegral, this, spaceIntegral_one]
    refine List.prod_pos fun a ha => ?_
    obtain ⟨s, -, rfl⟩ := List.mem_map.1 ha
    positivity

/-- The constant of the trace inequality on the faces of simplices and cubes. -/
noncomputable def Spec.traceConstant : Shape → Nat → ℝ
  | .simplex d, n => (n + 1) * (n + d) / 2
  | .hypercube _, n => (n + 1) ^ 2 / 2
  | .tp _, _ => 0

section
variable {shape : Shape} (h1 : shape ≠ .hypercube 1) {faces : List Face} (hf : facesForShape shape = .ok faces) {N : Nat} {space : Space}
  (hs : Conforms space shape N) {b : Basis ℝ} (hb : orthonormalBasisForSpace space shape = .ok b)
  {nodes : Fin (unknowns space) → List ℝ} (hreg : ∀ i, RegularFor space (nodes i)) (hu : UnisolventFor space nodes)
  {S : (l : Fin faces.length) → FaceOperators space faces[l] N} {ls : Bool}
  {pinv : (n : Nat) → Matrix (Fin (unknowns space)) (Fin n) ℝ → Matrix (Fin n) (Fin (unknowns space)) ℝ}
  {M : Matrix (Fin (unknowns space)) (Fin (unknowns space)) ℝ}
  {D : Fin space.spatialDim → Matrix (Fin (unknowns space)) (Fin (unknowns space)) ℝ}
  {A : (l : Fin faces.length) → Matrix (Fin (unknowns space)) (Fin (unknowns (S l).fspace)) ℝ}
  {R : (l : Fin faces.length) → Matrix (Fin (unknowns (S l).fspace)) (Fin (unknowns space)) ℝ}

include h1 hf hs

theorem traces_of_shape : 0 < traceConstant shape N ∧
    ∀ l : Fin faces.length, IsGreatest (unitTraces space faces[l]) (traceConstant shape N) := by
  have hlen : ∀ l : Fin faces.length, ∀ p : List ℝ, p.length = faces[l].shape.dim → (okOr [] (faces[l].mapToVolume p)).length = shape.dim :=
    fun l => (trace_faces shape h1 faces hf _ (List.getElem_mem _)).1
  cases shape with
  | simplex d =>
    refine ⟨?_, fun l => ?_⟩
    · have : d ≠ 0 := by
        rintro rfl
        rw [C08_simplex_other 0 (by omega)] at hf
        exact absurd hf (by simp)
      have : (0 : ℝ) < d := by exact_mod_cast Nat.pos_of_ne_zero this
      simp only [traceConstant]
      positivity
    · rw [unitTraces_congr hs (conforms_pn d N) _ (hlen l)]
      exact C106_trace d N faces hf _ (List.getElem_mem _)
  | hypercube d =>
    refine ⟨by simp only [traceConstant]; positivity, fun l => ?_⟩
    rw [unitTraces_congr hs (conforms_qn d N) _ (hlen l)]
    exact C100_trace d (fun h => h1 (by rw [h])) N faces hf _ (List.getElem_mem _)
  | tp dims => cases hf

include hb hreg hu

/-- **C107.**  On every face the face mass matrix is bounded by the mass matrix, with the best constant. -/
theorem C107_trace (h : Assembled faces b nodes S ls pinv M D A R) (l : Fin faces.length) :
    (∀ u : Fin (unknowns space) → ℝ, u ⬝ᵥ (A l * R l) *ᵥ u ≤ traceConstant shape N * (u ⬝ᵥ M *ᵥ u)) ∧
      ∃ u : Fin (unknowns space) → ℝ, u ⬝ᵥ M *ᵥ u = 1 ∧ u ⬝ᵥ (A l * R l) *ᵥ u = traceConstant shape N := by
  obtain ⟨h3, h4⟩ := traces_of_shape h1 hf hs
  exact assembled_trace h1 hf hs hb hreg hu h l (h4 l)

/-- **C107.**  The symmetric interior penalty form of one element is bounded below by half the energy of the gradient and the boundary
values, if the penalty on each face is at least twice the number of faces times the trace constant times the square of its scaled
normal. -/
theorem C107_penalty (h : Assembled faces b nodes S ls pinv M D A R) (σ : Fin faces.length → ℝ) (u : Fin (unknowns space) → ℝ) :
    1 / 2 * ∑ k, (D k *ᵥ u) ⬝ᵥ M *ᵥ (D k *ᵥ u) +
      ∑ l : Fin faces.length, (σ l - 2 * faces.length * traceConstant shape N * ∑ k : Fin space.spatialDim, scaledNormal faces[l] k ^ 2) *
        (u ⬝ᵥ (A l * R l) *ᵥ u) ≤ penaltyForm faces M D (fun l => A l * R l) σ u := by
  obtain ⟨h3, h4⟩ := traces_of_shape h1 hf hs
  have := penalty_coercive h1 hf hs hb hreg hu h h3 h4 u
  rw [penaltyForm] at this ⊢
  simp only [sub_mul, Finset.sum_sub_distrib]
  linarith

/-- **C107.**  With a larger penalty on at least one face the form is positive definite, so its matrix can be inverted. -/
theorem C107_definite (h : Assembled faces b nodes S ls pinv M D A R) (σ : Fin faces.length → ℝ)
    (hσ : ∀ l : Fin faces.length, 2 * faces.length * traceConstant shape N * ∑ k : Fin space.spatialDim, scaledNormal faces[l] k ^ 2 ≤ σ l)
    (l₀ : Fin faces.length)
    (hl₀ : 2 * faces.length * traceConstant shape N * ∑ k : Fin space.spatialDim, scaledNormal faces[l₀] k ^ 2 < σ l₀)
    (u : Fin (unknowns space) → ℝ) (hne : u ≠ 0) : 0 < penaltyForm faces M D (fun l => A l * R l) σ u := by
  obtain ⟨hM, hpos, -⟩ := assembled_mass h1 hf hs hb hreg hu h
  have hnn : ∀ z : Fin (unknowns space) → ℝ, 0 ≤ z ⬝ᵥ M *ᵥ z := by
    intro z
    by_cases hz : z = 0
    · simp [hz]
    · exact (hpos z hz).le
  have hdim := assembled_dims h1 hf hs hb
  have hb' : IsBasisOf b space := ⟨shape, Or.inl ⟨hb, fun s hs => (hdim s hs).2⟩⟩
  have hlow := C107_penalty h1 hf hs hb hreg hu h σ u
  have hB : ∀ l, 0 ≤ u ⬝ᵥ (A l * R l) *ᵥ u := fun l => (C107_face_mass h1 hf hs hb hreg hu h l).2 u
  have t1 : 0 ≤ ∑ k, (D k *ᵥ u) ⬝ᵥ M *ᵥ (D k *ᵥ u) := Finset.sum_nonneg fun k _ => hnn _
  have t2 := fun l : Fin faces.length => mul_nonneg (sub_nonneg.2 (hσ l)) (hB l)
  rcases t1.eq_or_lt with hG | hG
  · have hk : ∀ k, D k *ᵥ u = 0 := by
      intro k
      by_contra hc
      have h0 := (Finset.sum_eq_zero_iff_of_nonneg fun k _ => hnn _).1 hG.symm k (Finset.mem_univ k)
      exact (hpos _ hc).ne' h0
    have h0 : space.spatialDim ≠ 0 := by
      intro hc
      rw [conforms_spatialDim hs] at hc
      cases shape with
      | simplex d' =>
        rw [C08_simplex_other d' (by simp only [Shape.dim] at hc; omega)] at hf
        exact absurd hf (by simp)
      | hypercube d' =>
        obtain rfl : d' = 0 := by simpa [Shape.dim] using hc
        exact absurd hf (by simp [facesForShape, facesForHypercube, hypercubeFaces])
      | tp dims => cases hf
    obtain ⟨D', hD', -, hconst⟩ := C86_constants space b hb' (fun s hs => (hdim s hs).1) h0 nodes hreg hu
    obtain rfl := Except.ok.inj (h.diff.symm.trans hD')
    obtain ⟨a, ha⟩ := (hconst u).1 hk
    have ha0 : a ≠ 0 := by
      rintro rfl
      exact hne (funext ha)
    obtain ⟨c, hc⟩ := exists_one space
    have hu1 : u = a • fun i => spacePoly space c (nodes i) := by
      funext i
      rw [Pi.smul_apply, hc _ (hreg i).1, ha]
      simp
    have hlen := (trace_faces shape h1 faces hf faces[l₀] (List.getElem_mem _)).1
    have hval : u ⬝ᵥ (A l₀ * R l₀) *ᵥ u = a * (a * Spec.shapeIntegral faces[l₀].shape fun _ => 1) := by
      rw [hu1, Matrix.mulVec_smul, dotProduct_smul, smul_dotProduct, assembled_face h1 hf hs hb hreg hu h]
      simp only [smul_eq_mul]
      congr 2
      apply shapeIntegral_congr
      intro p hp
      rw [hc _ ((hlen p hp).trans (conforms_spatialDim hs).symm), mul_one]
    have hvol := shape_volume_pos faces[l₀].shape
    have hp : 0 < u ⬝ᵥ (A l₀ * R l₀) *ᵥ u := by
      rw [hval, ← mul_assoc]
      exact mul_pos (mul_self_pos.2 ha0) hvol
    have := Finset.single_le_sum (fun l _ => t2 l) (Finset.mem_univ l₀)
    have := mul_pos (sub_pos.2 hl₀) hp
    linarith
  · have : 0 ≤ ∑ l : Fin faces.length, (σ l - 2 * faces.length * traceConstant shape N * ∑ k : Fin space.spatialDim, scaledNormal faces[l] k ^ 2) *
        (u ⬝ᵥ (A l * R l) *ᵥ u) := Finset.sum_nonneg fun l _ => t2 l
    linarith

end

/-- The hypotheses are met by linear functions on the triangle with the vertices as nodes; the trace constant is `3`. -/
example : ∃ (faces : List Face) (S : (l : Fin faces.length) → FaceOperators (.pn ⟨2, 1⟩) faces[l] 1) (b : Basis ℝ)
    (nodes : Fin (unknowns (.pn ⟨2, 1⟩)) → List ℝ) (M : _) (D : _) (A : _) (R : _),
    faces.length = 3 ∧ Assembled faces b nodes S false (fun _ _ => 0) M D A R ∧
    (∀ l, ∃ u, u ⬝ᵥ M *ᵥ u = 1 ∧ u ⬝ᵥ (A l * R l) *ᵥ u = 3) ∧
    ∀ β : Fin 2 → ℝ, ∀ u, u ⬝ᵥ upwindMatrix M D (fun l => A l * R l) β (fun l => fluxThrough β faces[l]) *ᵥ u ≤ 0 := by
  obtain ⟨faces, S, b, nodes, hf, hlen, hs, hb, hreg, hu⟩ := sbp_triangle
  obtain ⟨M, D, A, R, h⟩ := C107_assembled (S := S) (ls := false) (pinv := fun _ _ => 0) (by simp) hf hs hb hreg hu
  refine ⟨faces, S, b, nodes, M, D, A, R, hlen, h, fun l => ?_, fun β u => ?_⟩
  · have := (C107_trace (by simp) hf hs hb hreg hu h l).2
    norm_num [traceConstant] at this
    exact this
  · exact upwind_nonpos (by simp) hf hs hb hreg hu h β u

end Modepy

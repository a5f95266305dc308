import Verif.Props.DiffAlgebra
import Mathlib.LinearAlgebra.Matrix.PosDef
import Mathlib.Algebra.Order.Star.Real

/-!
# Property C87: the algebra of mass matrices

`mass_matrix` is symmetric and positive definite, its row sums are quadrature weights exact for the space, its entries add up
to the volume of the reference domain, it does not depend on the orthonormal basis, and it transforms with resampling.
-/

namespace Modepy
open Spec Matrix

/-- The bases of the library with orthonormality weight one for spaces whose factors have dimension one to three. -/
def Spec.IsOrthonormalBasisOf (b : Basis ℝ) (space : Space) : Prop :=
  ∃ shape, orthonormalBasisForSpace space shape = .ok b ∨ basisForSpace space shape = .ok b

theorem mass_isOrthonormal {b : Basis ℝ} {space : Space} (hb : IsOrthonormalBasisOf b space)
    (hd : ∀ s ∈ space.flatBases, 1 ≤ s.spatialDim ∧ s.spatialDim ≤ 3)
    (nodes : Fin (nodeTuples space).length → List ℝ) (hreg : ∀ i, RegularFor space (nodes i)) (hu : UnisolventFor space nodes) :
    ∃ M, massMatrixOfBasis b nodes = .ok M ∧ M.PosDef ∧ ∀ c e,
      ∑ i, ∑ j, spacePoly space c (nodes i) * M i j * spacePoly space e (nodes j) =
        spaceIntegral space (fun x => spacePoly space c x * spacePoly space e x) := by
  have hpos : ∀ (fs : List (List ℝ → Py ℝ)) (C : Matrix (Fin (nodeTuples space).length) (Fin (nodeTuples space).length) ℝ),
      Represents b space fs C → b.orthonormalityWeight = .ok 1 → ∀ M, massMatrixOfBasis b nodes = .ok M → M.PosDef := by
    intro fs C hr hw M hM
    rw [massMatrixOf_eq b hw fs hr.functions hr.length nodes (fun k => spacePoly space (C k)) fun k i => hr.value k _ (hreg i)] at hM
    have hun := unisolvent_represents space nodes hu C hr.det
    have hdet := (unisolvent_iff_det _ _).1 hun
    have hV : (vandermonde (fun k => spacePoly space (C k)) nodes * (vandermonde (fun k => spacePoly space (C k)) nodes)ᵀ).PosDef := by
      rw [← conjTranspose_eq_transpose_of_trivial]
      refine PosDef.mul_conjTranspose_self _ ?_
      exact Matrix.vecMul_injective_of_isUnit ((isUnit_iff_isUnit_det _).2 (isUnit_iff_ne_zero.2 hdet))
    have e : massMatrix (.ok 1) (fun k => spacePoly space (C k)) nodes =
        .ok (vandermonde (fun k => spacePoly space (C k)) nodes * (vandermonde (fun k => spacePoly space (C k)) nodes)ᵀ)⁻¹ := by
      simp [massMatrix, inverseMassMatrix, npInv, hdet]
    rw [e] at hM
    obtain rfl := Except.ok.inj hM
    exact hV.inv
  obtain ⟨shape, h | h⟩ := hb
  · obtain ⟨fs, C, h1, -⟩ := represents_orthonormal space shape b h fun s hs => (hd s hs).2
    obtain ⟨M, hM, hm⟩ := C75_mass space shape b h hd nodes hreg hu
    exact ⟨M, hM, hpos fs C h1 (C41_orthonormal_accepted space shape b h) M hM, hm⟩
  · obtain ⟨fs, C, h1, -⟩ := represents_basis space shape b h
    obtain ⟨M, hM, hm⟩ := C75_mass_basis space shape b h hd nodes hreg hu
    have hw : b.orthonormalityWeight = .ok 1 := by
      rw [C41_basis_for_space space shape b h, if_pos fun s hs => (hd s hs).2]
    exact ⟨M, hM, hpos fs C h1 hw M hM, hm⟩

/-- The constant one is in the space. -/
theorem exists_one (space : Space) : ∃ c, ∀ x : List ℝ, x.length = space.spatialDim → spacePoly space c x = 1 := by
  obtain ⟨c, hc⟩ := polyAt_spacePoly space rfl _ (polyIn_C space 1)
  exact ⟨c, fun x hx => by rw [← hc x hx]; simp [polyAt]⟩

theorem spaceIntegral_congr (space : Space) (F G : List ℝ → ℝ) (h : ∀ x : List ℝ, x.length = space.spatialDim → F x = G x) :
    spaceIntegral space F = spaceIntegral space G := by
  apply productIntegral_congr
  intro x hx
  refine h x (hx.trans ?_)
  cases space <;> simp [Space.spatialDim, Space.flatBases]

/-- The volume of the reference domain. -/
theorem spaceIntegral_one (space : Space) :
    spaceIntegral space (fun _ => 1) = (space.flatBases.map fun s => (2 : ℝ) ^ s.spatialDim / s.spatialDim.factorial).prod := by
  have h1 : ∀ d : Nat, Spec.simplexIntegral d (fun _ => 1) = 2 ^ d / d.factorial := by
    intro d
    have := C45_simplex ⟨List.replicate d 0, 1⟩
    simp only [Mono.simplexIntegral, List.length_replicate, List.sum_replicate, List.map_replicate, List.prod_replicate,
      Nat.factorial_zero, one_pow, smul_zero, add_zero, one_mul, Nat.cast_one, mul_one] at this
    rw [← this]
    congr 1
    funext x
    have : ∀ (l : List Nat) (x : List ℝ), (∀ a ∈ l, a = 0) → (List.zipWith (fun e c => ((c + 1) / 2 : ℝ) ^ e) l x).prod = 1 := by
      intro l
      induction l with
      | nil => intro x _; simp
      | cons a l ih =>
        intro x hl
        rcases x with _ | ⟨y, x⟩
        · simp
        · simp only [List.zipWith_cons_cons, List.prod_cons, ih x fun a ha => hl a (List.mem_cons_of_mem _ ha), hl a (by simp)]
          simp
    rw [monoValue, this _ _ fun a ha => List.eq_of_mem_replicate ha, mul_one]
  have h2 := productIntegral_product (space.flatBases.map PNSpace.spatialDim) (space.flatBases.map fun _ _ => 1) (by simp)
  have h3 : ∀ (l : List PNSpace) (zs : List (List ℝ)),
      (List.zipWith (fun (F : List ℝ → ℝ) z => F z) (l.map fun _ _ => 1) zs).prod = 1 := by
    intro l
    induction l with
    | nil => intro zs; simp
    | cons a l ih => intro zs; cases zs with
      | nil => simp
      | cons z zs => simp only [List.map_cons, List.zipWith_cons_cons, List.prod_cons, ih, mul_one]
  simp only [h3] at h2
  rw [spaceIntegral, h2, List.zipWith_map_left, List.zipWith_map_right, List.zipWith_self]
  simp only [h1]

/-- **C87 (positive definite, weights and volume).**  For a basis of orthonormality weight one and unisolvent nodes:
`mass_matrix` is symmetric and positive definite; its row sums are weights of a quadrature at the nodes that is exact for the
whole space; all its entries add up to the volume `Π 2^d/d!` of the reference domain. -/
theorem C87_mass (space : Space) (b : Basis ℝ) (hb : IsOrthonormalBasisOf b space)
    (hd : ∀ s ∈ space.flatBases, 1 ≤ s.spatialDim ∧ s.spatialDim ≤ 3)
    (nodes : Fin (nodeTuples space).length → List ℝ) (hreg : ∀ i, RegularFor space (nodes i)) (hu : UnisolventFor space nodes) :
    ∃ M, massMatrixOfBasis b nodes = .ok M ∧ Mᵀ = M ∧ (∀ u : Fin (nodeTuples space).length → ℝ, u ≠ 0 → 0 < ∑ i, ∑ j, u i * M i j * u j) ∧
      (∀ c, ∑ i, (∑ j, M i j) * spacePoly space c (nodes i) = spaceIntegral space (spacePoly space c)) ∧
      ∑ i, ∑ j, M i j = (space.flatBases.map fun s => (2 : ℝ) ^ s.spatialDim / s.spatialDim.factorial).prod := by
  obtain ⟨M, hM, hpd, hm⟩ := mass_isOrthonormal hb hd nodes hreg hu
  obtain ⟨c1, hc1⟩ := exists_one space
  have hw : ∀ c, ∑ i, (∑ j, M i j) * spacePoly space c (nodes i) = spaceIntegral space (spacePoly space c) := by
    intro c
    have h := hm c c1
    simp only [hc1 _ (hreg _).1, mul_one] at h
    rw [spaceIntegral_congr space _ (spacePoly space c) fun x hx => by rw [hc1 x hx, mul_one]] at h
    rw [← h]
    refine Finset.sum_congr rfl fun i _ => ?_
    rw [← Finset.mul_sum, mul_comm]
  refine ⟨M, hM, ?_, fun u hu0 => ?_, hw, ?_⟩
  · have := hpd.1
    rwa [IsHermitian, conjTranspose_eq_transpose_of_trivial] at this
  · have := hpd.dotProduct_mulVec_pos hu0
    simp only [dotProduct, mulVec, Finset.mul_sum, star_trivial] at this
    simpa [mul_assoc] using this
  · have h := hw c1
    simp only [hc1 _ (hreg _).1, mul_one] at h
    rw [h, ← spaceIntegral_one]
    exact spaceIntegral_congr space _ _ hc1

/-- **C87 (basis independence).**  Every basis of orthonormality weight one gives the same mass matrix. -/
theorem C87_basis_independent (space : Space) (b b' : Basis ℝ) (hb : IsOrthonormalBasisOf b space)
    (hb' : IsOrthonormalBasisOf b' space) (hd : ∀ s ∈ space.flatBases, 1 ≤ s.spatialDim ∧ s.spatialDim ≤ 3)
    (nodes : Fin (nodeTuples space).length → List ℝ) (hreg : ∀ i, RegularFor space (nodes i)) (hu : UnisolventFor space nodes) :
    ∃ M, massMatrixOfBasis b nodes = .ok M ∧ massMatrixOfBasis b' nodes = .ok M := by
  obtain ⟨M, hM, -, hm⟩ := mass_isOrthonormal hb hd nodes hreg hu
  obtain ⟨M', hM', -, hm'⟩ := mass_isOrthonormal hb' hd nodes hreg hu
  refine ⟨M, hM, ?_⟩
  rw [hM', form_unique space nodes hu M' M fun c e => (hm' c e).trans (hm c e).symm]

/-- **C87 (resampling).**  The mass matrices at two node sets are congruent by the resampling matrix between them. -/
theorem C87_resampling (space : Space) (b b' : Basis ℝ) (hb : IsOrthonormalBasisOf b space) (hb' : IsBasisOf b' space)
    (hd : ∀ s ∈ space.flatBases, 1 ≤ s.spatialDim ∧ s.spatialDim ≤ 3)
    (newNodes oldNodes : Fin (nodeTuples space).length → List ℝ) (hn : ∀ i, RegularFor space (newNodes i))
    (ho : ∀ i, RegularFor space (oldNodes i)) (hun : UnisolventFor space newNodes) (huo : UnisolventFor space oldNodes)
    (ls : Bool) (pinv : (n : Nat) → Matrix (Fin (nodeTuples space).length) (Fin n) ℝ → Matrix (Fin n) (Fin (nodeTuples space).length) ℝ) :
    ∃ R M M', resamplingMatrixOf b' newNodes oldNodes ls pinv = .ok R ∧ massMatrixOfBasis b oldNodes = .ok M ∧
      massMatrixOfBasis b newNodes = .ok M' ∧ M = Rᵀ * M' * R := by
  obtain ⟨R, hok, hR⟩ := C77_resampling space b' hb' newNodes oldNodes hn ho huo ls pinv
  obtain ⟨M, hM, -, hm⟩ := mass_isOrthonormal hb hd oldNodes ho huo
  obtain ⟨M', hM', -, hm'⟩ := mass_isOrthonormal hb hd newNodes hn hun
  refine ⟨R, M, M', hok, hM, hM', form_unique space oldNodes huo _ _ fun c e => ?_⟩
  rw [hm, ← hm']
  simp only [← hR, Matrix.mul_apply, Matrix.transpose_apply, Finset.mul_sum, Finset.sum_mul]
  calc _ = ∑ k, ∑ l, ∑ j, ∑ i, spacePoly space c (oldNodes i) * (R k i * M' k l * R l j) * spacePoly space e (oldNodes j) := by
        refine Finset.sum_congr rfl fun k _ => Finset.sum_congr rfl fun l _ => Finset.sum_congr rfl fun j _ =>
          Finset.sum_congr rfl fun i _ => ?_
        ring
    _ = ∑ k, ∑ l, ∑ i, ∑ j, spacePoly space c (oldNodes i) * (R k i * M' k l * R l j) * spacePoly space e (oldNodes j) :=
        Finset.sum_congr rfl fun k _ => Finset.sum_congr rfl fun l _ => Finset.sum_comm
    _ = ∑ k, ∑ i, ∑ l, ∑ j, spacePoly space c (oldNodes i) * (R k i * M' k l * R l j) * spacePoly space e (oldNodes j) :=
        Finset.sum_congr rfl fun k _ => Finset.sum_comm
    _ = ∑ i, ∑ k, ∑ l, ∑ j, spacePoly space c (oldNodes i) * (R k i * M' k l * R l j) * spacePoly space e (oldNodes j) :=
        Finset.sum_comm
    _ = ∑ i, ∑ k, ∑ j, ∑ l, spacePoly space c (oldNodes i) * (R k i * M' k l * R l j) * spacePoly space e (oldNodes j) :=
        Finset.sum_congr rfl fun i _ => Finset.sum_congr rfl fun k _ => Finset.sum_comm
    _ = ∑ i, ∑ j, ∑ k, ∑ l, spacePoly space c (oldNodes i) * (R k i * M' k l * R l j) * spacePoly space e (oldNodes j) :=
        Finset.sum_congr rfl fun i _ => Finset.sum_comm
    _ = ∑ i, ∑ j, ∑ l, ∑ k, spacePoly space c (oldNodes i) * (R k i * M' k l * R l j) * spacePoly space e (oldNodes j) :=
        Finset.sum_congr rfl fun i _ => Finset.sum_congr rfl fun j _ => Finset.sum_comm

/-- Non-vacuity: a cubic triangle times a quadratic interval with its equispaced nodes; the entries of the 30 by 30 mass matrix
add up to the volume four. -/
example : ∃ (b : Basis ℝ) (nodes : Fin (nodeTuples (.tp [⟨2, 3⟩, ⟨1, 2⟩])).length → List ℝ) (M : Matrix _ _ ℝ),
    IsOrthonormalBasisOf b (.tp [⟨2, 3⟩, ⟨1, 2⟩]) ∧ massMatrixOfBasis b nodes = .ok M ∧ ∑ i, ∑ j, M i j = 4 := by
  obtain ⟨A, -, hreg, hu⟩ := equispaced_regular [⟨2, 3⟩, ⟨1, 2⟩] (by simp) (by simp)
  have hb : IsOrthonormalBasisOf ((orthonormalBasisForSpace (R := ℝ) (.tp [⟨2, 3⟩, ⟨1, 2⟩]) (.tp [2, 1])).toOption.get rfl)
      (.tp [⟨2, 3⟩, ⟨1, 2⟩]) := ⟨.tp [2, 1], Or.inl rfl⟩
  obtain ⟨M, hM, -, -, -, h⟩ := C87_mass _ _ hb (by simp [Space.flatBases]) _ hreg hu
  refine ⟨_, _, M, hb, hM, h.trans ?_⟩
  norm_num [Space.flatBases, Nat.factorial]

end Modepy

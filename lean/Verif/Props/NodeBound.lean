import Verif.Props.ConvergenceCube
import Verif.Proofs.TableRules
import Verif.Props.Indexing
import Mathlib.Algebra.MvPolynomial.Funext
import Mathlib.LinearAlgebra.FiniteDimensional.Lemmas

/-!
# Property C90: how many nodes an exact rule needs
-/

namespace Modepy
open Spec MeasureTheory MvPolynomial

/-- A polynomial whose square has integral zero over a compact set containing a box is zero. -/
theorem eq_zero_of_integral_sq {d : Nat} (S : Set (Fin d → ℝ)) (hS : IsCompact S) (a b : Fin d → ℝ) (hab : ∀ i, a i < b i)
    (hbox : (Set.univ.pi fun i => Set.Ioo (a i) (b i)) ⊆ S) (P : MvPolynomial (Fin d) ℝ)
    (h : ∫ x in S, eval x (P * P) = 0) : P = 0 := by
  have hopen : IsOpen (Set.univ.pi fun i => Set.Ioo (a i) (b i)) := isOpen_set_pi Set.finite_univ fun i _ => isOpen_Ioo
  have hc : Continuous fun x => eval x (P * P) := MvPolynomial.continuous_eval _
  have hnn : ∀ x, 0 ≤ eval x (P * P) := fun x => by rw [map_mul]; exact mul_self_nonneg _
  have hint : IntegrableOn (fun x => eval x (P * P)) S := hc.continuousOn.integrableOn_compact hS
  have h1 : ∫ x in Set.univ.pi fun i => Set.Ioo (a i) (b i), eval x (P * P) = 0 := by
    refine le_antisymm ?_ (setIntegral_nonneg hopen.measurableSet fun x _ => hnn x)
    rw [← h]
    exact setIntegral_mono_set hint (Filter.Eventually.of_forall hnn) (HasSubset.Subset.eventuallyLE hbox)
  have h2 := (setIntegral_eq_zero_iff_of_nonneg_ae (Filter.Eventually.of_forall hnn) (hint.mono_set hbox)).1 h1
  have h3 : Set.EqOn (fun x => eval x (P * P)) (fun _ => 0) (Set.univ.pi fun i => Set.Ioo (a i) (b i)) :=
    Measure.eqOn_open_of_ae_eq h2 hopen hc.continuousOn continuousOn_const
  refine funext_set (fun i => Set.Ioo (a i) (b i)) (fun i => Set.Ioo_infinite (hab i)) fun x hx => ?_
  have := h3 hx
  simp only [map_mul, mul_self_eq_zero] at this
  rw [this, map_zero]

/-- Fewer nodes than monomials of degree at most `k`: some nonzero polynomial of degree `k` vanishes at all nodes. -/
theorem exists_vanishing (d k m : Nat) (x : Fin m → Fin d → ℝ) (hm : m < (k + d).choose d) :
    ∃ P : MvPolynomial (Fin d) ℝ, P ≠ 0 ∧ P.totalDegree ≤ k ∧ ∀ i, eval (x i) P = 0 := by
  classical
  let L := nodeTuples (.pn ⟨d, k⟩)
  have hL : L.length = (k + d).choose d := (C01_length d k).1.trans (C01_length d k).2
  let e : Fin L.length → (Fin d →₀ ℕ) := fun l => Finsupp.equivFunOnFinite.symm fun i => (L[l]).getD i 0
  have hmem : ∀ l : Fin L.length, (L[l]).length = d ∧ (L[l]).sum ≤ k := fun l => (C01_mem d k _).1 (List.getElem_mem _)
  have he : Function.Injective e := by
    intro l l' h
    have : L[l] = L[l'] := by
      apply List.ext_getElem
      · rw [(hmem l).1, (hmem l').1]
      · intro i h1 h2
        have hi : i < d := by rw [← (hmem l).1]; exact h1
        have := DFunLike.congr_fun h ⟨i, hi⟩
        simp only [e, Finsupp.equivFunOnFinite_symm_apply_apply] at this
        rwa [List.getD_eq_getElem _ _ h1, List.getD_eq_getElem _ _ h2] at this
    have h3 := (C01_nodup d k).getElem_inj_iff.1 this
    exact Fin.ext h3
  let φ : (Fin L.length → ℝ) →ₗ[ℝ] (Fin m → ℝ) :=
    { toFun := fun c i => ∑ l, c l * eval (x i) (MvPolynomial.monomial (e l) 1)
      map_add' := fun c c' => by
        funext i
        simp only [Pi.add_apply, add_mul, Finset.sum_add_distrib]
      map_smul' := fun r c => by
        funext i
        simp only [Pi.smul_apply, smul_eq_mul, RingHom.id_apply, Finset.mul_sum, mul_assoc] }
  have hker : LinearMap.ker φ ≠ ⊥ := LinearMap.ker_ne_bot_of_finrank_lt (by simpa [hL] using hm)
  obtain ⟨c, hc, hne⟩ := (Submodule.ne_bot_iff _).1 hker
  refine ⟨∑ l, MvPolynomial.monomial (e l) (c l), ?_, ?_, fun i => ?_⟩
  · intro h0
    apply hne
    funext l
    have := congrArg (coeff (e l)) h0
    rw [coeff_sum, Finset.sum_eq_single l (fun l' _ hl' => by rw [coeff_monomial, if_neg fun h => hl' (he h)]) (by simp),
      coeff_monomial, if_pos rfl, coeff_zero] at this
    exact this
  · refine (totalDegree_finsetSum _ _).trans (Finset.sup_le fun l _ => ?_)
    refine (totalDegree_monomial_le _ _).trans ?_
    rw [Finsupp.sum_fintype _ _ fun _ => rfl]
    refine le_trans (le_of_eq ?_) (hmem l).2
    simp only [e, Finsupp.equivFunOnFinite_symm_apply_apply]
    conv_rhs => rw [← List.ofFn_getElem (xs := L[l])]
    rw [List.sum_ofFn]
    refine Fintype.sum_equiv (finCongr (hmem l).1.symm) _ _ fun i => ?_
    exact List.getD_eq_getElem _ _ (by rw [(hmem l).1]; exact i.2)
  · have := congrFun (LinearMap.mem_ker.1 hc) i
    simp only [φ, LinearMap.coe_mk, AddHom.coe_mk, Pi.zero_apply] at this
    rw [map_sum, ← this]
    refine Finset.sum_congr rfl fun l _ => ?_
    rw [eval_monomial, eval_monomial, one_mul]

theorem node_bound {d : Nat} (S : Set (Fin d → ℝ)) (hS : IsCompact S) (a b : Fin d → ℝ) (hab : ∀ i, a i < b i)
    (hbox : (Set.univ.pi fun i => Set.Ioo (a i) (b i)) ⊆ S) (q : Quadrature) (k : Nat)
    (hex : ∀ p : MvPolynomial (Fin d) ℝ, p.totalDegree ≤ 2 * k →
      q.call (fun x => eval (fun i : Fin d => x.getD i 0) p) = ∫ x in S, eval x p) :
    (k + d).choose d ≤ q.nnodes := by
  by_contra hlt
  obtain ⟨P, hP, hd, hz⟩ := exists_vanishing d k q.nnodes (fun j i => (q.node j).getD i 0) (not_le.1 hlt)
  refine hP (eq_zero_of_integral_sq S hS a b hab hbox P ?_)
  rw [← hex (P * P) ((totalDegree_mul _ _).trans (by omega)), Quadrature.call, sum_map_range_real]
  refine Finset.sum_eq_zero fun j hj => ?_
  rw [map_mul, hz ⟨j, Finset.mem_range.1 hj⟩]
  ring

theorem box_subset_simplex (d : Nat) :
    (Set.univ.pi fun _ : Fin d => Set.Ioo (-1 : ℝ) (-1 + 2 / (d + 1))) ⊆ simplexSet d := by
  intro x hx
  have hx' : ∀ i, -1 < x i ∧ x i < -1 + 2 / (d + 1) := fun i => hx i (Set.mem_univ i)
  refine ⟨fun i => (hx' i).1.le, ?_⟩
  have h1 : ∑ i, (1 + x i) / 2 ≤ ∑ _i : Fin d, (1 : ℝ) / (d + 1) := Finset.sum_le_sum fun i _ => by
    have := (hx' i).2
    have e : (2 : ℝ) / (d + 1) = 2 * (1 / (d + 1)) := by ring
    rw [e] at this
    linarith
  refine h1.trans ?_
  rw [Finset.sum_const, Finset.card_univ, Fintype.card_fin, nsmul_eq_mul, mul_one_div, div_le_one (by positivity)]
  linarith

/-- **C90 (simplex).**  A rule that integrates all polynomials of degree `2k` over the reference simplex exactly has at least
`C(k + d, d)` nodes, the dimension of the polynomials of degree `k`. -/
theorem C90_simplex (d k : Nat) (q : Quadrature) (hex : ∀ p : MvPolynomial (Fin d) ℝ, p.totalDegree ≤ 2 * k →
      q.call (fun x => eval (fun i : Fin d => x.getD i 0) p) = ∫ x in simplexSet d, eval x p) :
    (k + d).choose d ≤ q.nnodes :=
  node_bound _ (Table.isCompact_simplexSet d) (fun _ => -1) (fun _ => -1 + 2 / (d + 1)) (fun _ => by
    have : (0 : ℝ) < 2 / (d + 1) := by positivity
    linarith) (box_subset_simplex d) q k hex

/-- **C90 (hypercube).** -/
theorem C90_cube (d k : Nat) (q : Quadrature) (hex : ∀ p : MvPolynomial (Fin d) ℝ, p.totalDegree ≤ 2 * k →
      q.call (fun x => eval (fun i : Fin d => x.getD i 0) p) = ∫ x in cubeSet d, eval x p) :
    (k + d).choose d ≤ q.nnodes :=
  node_bound _ (Table.isCompact_cubeSet d) (fun _ => -1) (fun _ => 1) (fun _ => by norm_num) (fun x hx i =>
    ⟨(hx i (Set.mem_univ i)).1.le, (hx i (Set.mem_univ i)).2.le⟩) q k hex

/-- **C90 (`quadrature_for_space`).**  The rule chosen for `PN(d, N)` on the simplex has at least `C(⌊N/2⌋ + d, d)` nodes. -/
theorem C90_quadrature_for_space (ext : Ext) (hext : ext.EighOk) (t : XgTables) (ht : XgOk t) (d N : Nat) :
    ∃ q, quadratureForSpace ext t (.pn ⟨d, N⟩) (.simplex d) = .ok q ∧ (N / 2 + d).choose d ≤ q.nnodes := by
  obtain ⟨q, e, hq, -, -, -, hex⟩ := C36_pn ext hext t ht ⟨d, N⟩
  refine ⟨q, hq, C90_simplex d (N / 2) q fun p hp => ?_⟩
  rw [hex _ ⟨p, hp.trans (by simp only; omega), rfl⟩]
  exact simplexIntegral_eval p

/-- **C90 (entries of the tables).**  A table entry used by `quadrature_for_space` for order `N` must list at least `C(⌊N/2⌋ + d, d)`
points: shorter entries cannot be what the tables claim. -/
theorem C90_tables (t : XgTables) (ht : XgOk t) (N : Nat) :
    (∀ r, t.triangle N = some r → (N / 2 + 2).choose 2 ≤ r.n) ∧ (∀ r, t.tetrahedron N = some r → (N / 2 + 3).choose 3 ≤ r.n) := by
  refine ⟨fun r hr => ?_, fun r hr => ?_⟩
  · have := C90_simplex 2 (N / 2) (xgBuild equilateralToUnitMap2 r N) fun p hp =>
      xgBuild_exact equilateralToUnitMap2 det_equi2 equilateralTriangle equilateralTriangle_eq r N (ht.triangle N r hr) p (hp.trans (by omega))
    exact this
  · have := C90_simplex 3 (N / 2) (xgBuild equilateralToUnitMap3 r N) fun p hp =>
      xgBuild_exact equilateralToUnitMap3 det_equi3 equilateralTetrahedron equilateralTetrahedron_eq r N (ht.tetrahedron N r hr) p (hp.trans (by omega))
    exact this

/-- An instance: the Grundmann–Möller rule of order `s` in `n` dimensions, of degree `2s + 1`, has at least `C(s + n, n)` nodes. -/
theorem C90_grundmann_moeller (s n : Nat) (hn : n ≠ 0) :
    ∃ q, grundmannMoeller s n = .ok q ∧ (s + n).choose n ≤ q.nnodes := by
  obtain ⟨q, hq, -, hex, -⟩ := C32_exact s n hn
  exact ⟨q, hq, C90_simplex n s q fun p hp => hex p (hp.trans (by omega))⟩

/-- In three dimensions, degree five (`s = 2`) needs ten nodes; a rule with nine is not exact. -/
example : (∃ q, grundmannMoeller 2 3 = .ok q ∧ 10 ≤ q.nnodes) ∧ ∀ q : Quadrature, q.nnodes = 9 →
    ∃ p : MvPolynomial (Fin 3) ℝ, p.totalDegree ≤ 4 ∧
      q.call (fun x => eval (fun i : Fin 3 => x.getD i 0) p) ≠ ∫ x in simplexSet 3, eval x p := by
  refine ⟨C90_grundmann_moeller 2 3 (by decide), fun q hq => ?_⟩
  by_contra h
  push Not at h
  have := C90_simplex 3 2 q fun p hp => h p hp
  rw [hq] at this
  exact absurd this (by decide)

end Modepy

import Verif.Proofs.BasisSpan
import Verif.Proofs.ProductIntegral

/-!
# Gradients and Gram matrices of the bases, in terms of their coefficients
-/

namespace Modepy
open Spec MvPolynomial MeasureTheory NdArray

theorem isGradientAt_congr {d : Nat} {F G : List ℝ → ℝ} {x g : List ℝ} (hx : x.length = d)
    (h : ∀ y : List ℝ, y.length = d → F y = G y) (hF : IsGradientAt d F x g) : IsGradientAt d G x g := by
  refine ⟨hF.1, fun j hj => ?_⟩
  have e : (fun t => G (x.set j t)) = fun t => F (x.set j t) := by
    funext t
    exact (h _ (by simp [hx])).symm
  rw [e]
  exact hF.2 j hj

/-- The gradients in the list are those of the polynomials with the given coefficients. -/
def GradPN (b : Basis ℝ) (s : PNSpace) (gs : List (List ℝ → Py (List ℝ))) (C : Nat → Nat → ℝ) : Prop :=
  b.gradients = .ok gs ∧ gs.length = s.spaceDim ∧
  ∀ k < s.spaceDim, ∀ x, Regular s.spatialDim x →
    ∃ g, (gs.getD k fun _ => .error .IndexError) x = .ok g ∧ IsGradientAt s.spatialDim (polyPN s C k) x g

/-- The polynomials are orthogonal and the integral of their squares is `κ`. -/
def GramPN (s : PNSpace) (C : Nat → Nat → ℝ) (κ : ℝ) : Prop :=
  ∀ j < s.spaceDim, ∀ l < s.spaceDim,
    Spec.simplexIntegral s.spatialDim (fun x => polyPN s C j x * polyPN s C l x) = if j = l then κ else 0

theorem gram_of_rows {d N : Nat} {C : Nat → Nat → ℝ} {Q : List Nat → MvPolynomial (Fin d) ℝ} (hr : RowsAre d N C Q)
    (hQ : ∀ t ∈ Pytools.gnitsam N d, ∀ t' ∈ Pytools.gnitsam N d,
      ∫ x in simplexSet d, eval x (Q t) * eval x (Q t') = if t = t' then 1 else 0) : GramPN ⟨d, N⟩ C 1 := by
  intro j hj l hl
  have hlen : (Pytools.gnitsam N d).length = (PNSpace.mk d N).spaceDim := length_nodeTuplesPN ⟨d, N⟩
  rw [← hlen] at hj hl
  simp only [Spec.simplexIntegral]
  have e : ∀ x : Fin d → ℝ, polyPN ⟨d, N⟩ C j (List.ofFn x) * polyPN ⟨d, N⟩ C l (List.ofFn x) =
      eval x (Q (Pytools.gnitsam N d)[j]) * eval x (Q (Pytools.gnitsam N d)[l]) := by
    intro x
    rw [hr j hj _ (by simp), hr l hl _ (by simp), getD_ofFn]
  simp only [e]
  rw [hQ _ (List.getElem_mem hj) _ (List.getElem_mem hl)]
  simp only [List.Nodup.getElem_inj_iff (Pytools.nodup_gnitsam d N)]

theorem grad_of_rows {d N : Nat} {C : Nat → Nat → ℝ} {Q : List Nat → MvPolynomial (Fin d) ℝ} (hr : RowsAre d N C Q)
    (G : List Nat → List ℝ → Py (List ℝ))
    (hG : ∀ t ∈ Pytools.gnitsam N d, ∀ x, Regular d x →
      ∃ g, G t x = .ok g ∧ IsGradientAt d (fun y => eval (fun i : Fin d => y.getD i 0) (Q t)) x g)
    (b : Basis ℝ) (hb : b.gradients = .ok ((Pytools.gnitsam N d).map G)) :
    GradPN b ⟨d, N⟩ ((Pytools.gnitsam N d).map G) C := by
  have hlen : (Pytools.gnitsam N d).length = (PNSpace.mk d N).spaceDim := length_nodeTuplesPN ⟨d, N⟩
  refine ⟨hb, by simp [hlen], fun k hk x hx => ?_⟩
  rw [← hlen] at hk
  obtain ⟨g, h1, h2⟩ := hG _ (List.getElem_mem hk) x hx
  refine ⟨g, ?_, isGradientAt_congr (regular_length hx) (fun y hy => (hr k hk y hy).symm) h2⟩
  rw [← h1]
  simp [List.getD_eq_getElem?_getD, hk]

/-! ## Lines, triangles, tetrahedra -/

theorem gram_line (t t' : List Nat) (ht : t.length = 1) (ht' : t'.length = 1) :
    ∫ x in simplexSet 1, eval x (lineMode t) * eval x (lineMode t') = if t = t' then 1 else 0 := by
  obtain ⟨i, rfl⟩ := List.length_eq_one_iff.1 ht
  obtain ⟨j, rfl⟩ := List.length_eq_one_iff.1 ht'
  have e : ∀ x : Fin 1 → ℝ, x = ![x 0] := fun x => by funext k; fin_cases k; rfl
  have h := integral_simplexSet_one fun r => jacobi 0 0 i r * jacobi 0 0 j r
  have h2 := jacobi_orthonormal_pow 0 i j
  have e2 : ∀ x : Fin 1 → ℝ, eval x (lineMode [i]) * eval x (lineMode [j]) =
      (fun r => jacobi 0 0 i r * jacobi 0 0 j r) (x 0) := by
    intro x
    simp only [eval_lineMode]
    rw [← e x]
  simp only [e2]
  rw [h]
  simpa using h2

theorem gram_triangle (t t' : List Nat) (ht : t.length = 2) (ht' : t'.length = 2) :
    ∫ x in simplexSet 2, eval x (triModeOf t) * eval x (triModeOf t') = if t = t' then 1 else 0 := by
  obtain ⟨i, j, rfl⟩ := List.length_eq_two.1 ht
  obtain ⟨k, l, rfl⟩ := List.length_eq_two.1 ht'
  have e : ∀ x : Fin 2 → ℝ, x = ![x 0, x 1] := fun x => by funext k; fin_cases k <;> rfl
  have e2 : ∀ x : Fin 2 → ℝ, eval x (triModeOf [i, j]) * eval x (triModeOf [k, l]) =
      (fun p : ℝ × ℝ => eval ![p.1, p.2] (triMode i j) * eval ![p.1, p.2] (triMode k l)) (x 0, x 1) := by
    intro x
    simp only [← e x]
    rfl
  simp only [e2]
  rw [integral_simplexSet_two (fun p : ℝ × ℝ => eval ![p.1, p.2] (triMode i j) * eval ![p.1, p.2] (triMode k l)),
    triMode_orthonormal]
  simp

theorem gram_tetrahedron (t t' : List Nat) (ht : t.length = 3) (ht' : t'.length = 3) :
    ∫ x in simplexSet 3, eval x (tetModeOf t) * eval x (tetModeOf t') = if t = t' then 1 else 0 := by
  obtain ⟨i, j, k, rfl⟩ := List.length_eq_three.1 ht
  obtain ⟨l, m, n, rfl⟩ := List.length_eq_three.1 ht'
  have e : ∀ x : Fin 3 → ℝ, x = ![x 0, x 1, x 2] := fun x => by funext k; fin_cases k <;> rfl
  have e2 : ∀ x : Fin 3 → ℝ, eval x (tetModeOf [i, j, k]) * eval x (tetModeOf [l, m, n]) =
      (fun p : ℝ × ℝ × ℝ => eval ![p.1, p.2.1, p.2.2] (tetMode i j k) * eval ![p.1, p.2.1, p.2.2] (tetMode l m n))
        (x 0, x 1, x 2) := by
    intro x
    simp only [← e x]
    rfl
  simp only [e2]
  rw [integral_simplexSet_three (fun p : ℝ × ℝ × ℝ => eval ![p.1, p.2.1, p.2.2] (tetMode i j k) *
    eval ![p.1, p.2.1, p.2.2] (tetMode l m n)), tetMode_orthonormal]
  simp

theorem grad_line (t : List Nat) (ht : t.length = 1) (x : List ℝ) (hx : Regular 1 x) :
    ∃ g, gradPkdo t x = .ok g ∧ IsGradientAt 1 (fun y => eval (fun i : Fin 1 => y.getD i 0) (lineMode t)) x g := by
  obtain ⟨i, rfl⟩ := List.length_eq_one_iff.1 ht
  obtain ⟨r, rfl⟩ := List.length_eq_one_iff.1 (regular_length hx)
  refine ⟨_, rfl, rfl, fun j hj => ?_⟩
  obtain rfl : j = 0 := by omega
  have e : (fun t => eval (fun i : Fin 1 => ([r].set 0 t).getD i 0) (lineMode [i])) = fun t => jacobi 0 0 i t := by
    funext t
    rw [eval_lineMode]
    congr 2
    funext k; fin_cases k; rfl
  rw [e]
  exact C19_derivative 0 0 params_zero i r

theorem grad_triangle (t : List Nat) (ht : t.length = 2) (x : List ℝ) (hx : Regular 2 x) :
    ∃ g, gradPkdo t x = .ok g ∧ IsGradientAt 2 (fun y => eval (fun i : Fin 2 => y.getD i 0) (triModeOf t)) x g := by
  obtain ⟨i, j, rfl⟩ := List.length_eq_two.1 ht
  obtain ⟨r, s, rfl⟩ := List.length_eq_two.1 (regular_length hx)
  obtain ⟨h1, h2⟩ := C23_gradient i j _ (computesTri_triMode i j) r s hx
  refine ⟨_, rfl, rfl, fun k hk => ?_⟩
  have e : ∀ a b : ℝ, (fun i : Fin 2 => [a, b].getD i 0) = ![a, b] := fun a b => by funext k; fin_cases k <;> rfl
  interval_cases k
  · simp only [List.set_cons_zero, e]
    exact h1
  · simp only [List.set_cons_succ, List.set_cons_zero, e]
    exact h2

theorem grad_tetrahedron (t : List Nat) (ht : t.length = 3) (x : List ℝ) (hx : Regular 3 x) :
    ∃ g, gradPkdo t x = .ok g ∧ IsGradientAt 3 (fun y => eval (fun i : Fin 3 => y.getD i 0) (tetModeOf t)) x g := by
  obtain ⟨i, j, k, rfl⟩ := List.length_eq_three.1 ht
  obtain ⟨r, s, t, rfl⟩ := List.length_eq_three.1 (regular_length hx)
  obtain ⟨h1, h2, h3⟩ := C24_gradient i j k _ (computesTet_tetMode i j k) r s t hx
  refine ⟨_, rfl, rfl, fun m hm => ?_⟩
  have e : ∀ a b c : ℝ, (fun i : Fin 3 => [a, b, c].getD i 0) = ![a, b, c] :=
    fun a b c => by funext k; fin_cases k <;> rfl
  interval_cases m
  · simp only [List.set_cons_zero, e]
    exact h1
  · simp only [List.set_cons_succ, List.set_cons_zero, e]
    exact h2
  · simp only [List.set_cons_succ, List.set_cons_zero, e]
    exact h3

/-- The integral of the square of a mode: one, except on the zero-dimensional simplex, where the mode is 2. -/
noncomputable def modeNorm (s : PNSpace) : ℝ := if s.spatialDim = 0 then 4 else 1

theorem onb_facts (s : PNSpace) (h : s.spatialDim ≤ 3) :
    ∃ fs C, (orthonormalBasisPN s : Basis ℝ).functions = .ok fs ∧ SpansPN fs s C ∧ GramPN s C (modeNorm s) ∧
      (s.spatialDim ≠ 0 → ∃ gs, GradPN (orthonormalBasisPN s) s gs C) := by
  obtain ⟨d, N⟩ := s
  simp only at h
  have hmem : ∀ {d : Nat} {t : List Nat}, t ∈ Pytools.gnitsam N d → t.length = d :=
    fun ht => ((Pytools.mem_gnitsam _ _ _).1 ht).1
  interval_cases d
  · refine ⟨[zerodBasis], fun _ _ => 2, by simp [orthonormalBasisPN, simplexONB], spansPN_point_two N, ?_, by simp⟩
    intro j hj l hl
    have hd : (PNSpace.mk 0 N).spaceDim = 1 := by simp [PNSpace.spaceDim]
    rw [hd] at hj hl
    obtain rfl : j = 0 := by omega
    obtain rfl : l = 0 := by omega
    have hT : nodeTuplesPN ⟨0, N⟩ = [[]] := by simp [nodeTuplesPN, Pytools.gnitsam]
    have e : ∀ x, polyPN ⟨0, N⟩ (fun _ _ => 2) 0 x = 2 := by
      intro x
      simp [polyPN, hd, hT, monomialValue]
    simp only [Spec.simplexIntegral, e, modeNorm]
    rw [integral_simplexSet_zero (fun _ => (2 : ℝ) * 2)]
    norm_num
  · obtain ⟨C, hC, hr⟩ := spansPN_line N
    refine ⟨_, C, by simp [orthonormalBasisPN, simplexONB], hC, ?_, fun _ => ⟨_, grad_of_rows hr gradPkdo
      (fun t ht x hx => grad_line t (hmem ht) x hx) _ (by simp [orthonormalBasisPN, simplexONB])⟩⟩
    have := gram_of_rows hr fun t ht t' ht' => gram_line t t' (hmem ht) (hmem ht')
    simpa [modeNorm] using this
  · obtain ⟨C, hC, hr⟩ := spansPN_triangle N
    refine ⟨_, C, by simp [orthonormalBasisPN, simplexONB], hC, ?_, fun _ => ⟨_, grad_of_rows hr gradPkdo
      (fun t ht x hx => grad_triangle t (hmem ht) x hx) _ (by simp [orthonormalBasisPN, simplexONB])⟩⟩
    have := gram_of_rows hr fun t ht t' ht' => gram_triangle t t' (hmem ht) (hmem ht')
    simpa [modeNorm] using this
  · obtain ⟨C, hC, hr⟩ := spansPN_tetrahedron N
    refine ⟨_, C, by simp [orthonormalBasisPN, simplexONB], hC, ?_, fun _ => ⟨_, grad_of_rows hr gradPkdo
      (fun t ht x hx => grad_tetrahedron t (hmem ht) x hx) _ (by simp [orthonormalBasisPN, simplexONB])⟩⟩
    have := gram_of_rows hr fun t ht t' ht' => gram_tetrahedron t t' (hmem ht) (hmem ht')
    simpa [modeNorm] using this

theorem mono_facts (s : PNSpace) : ∃ fs C, (monomialBasisPN s : Basis ℝ).functions = .ok fs ∧ SpansPN fs s C ∧
    ∃ gs, GradPN (monomialBasisPN s) s gs C := by
  obtain ⟨d, N⟩ := s
  have hlen : (Pytools.gnitsam N d).length = (PNSpace.mk d N).spaceDim := length_nodeTuplesPN ⟨d, N⟩
  have hT : nodeTuplesPN ⟨d, N⟩ = Pytools.gnitsam N d := rfl
  refine ⟨_, _, rfl, spansPN_monomial d N, (Pytools.gnitsam N d).map gradMonomial, rfl, by simp [hlen], ?_⟩
  intro k hk x hx
  have hk' : k < (Pytools.gnitsam N d).length := by rw [hlen]; exact hk
  have hl : (Pytools.gnitsam N d)[k].length = d := ((Pytools.mem_gnitsam _ _ _).1 (List.getElem_mem hk')).1
  obtain ⟨g, h1, h2⟩ := C17_gradient (Pytools.gnitsam N d)[k] x (by rw [hl, regular_length hx])
  rw [hl] at h2
  refine ⟨g, ?_, isGradientAt_congr (regular_length hx) (fun y hy => ?_) h2⟩
  · rw [← h1]
    simp [List.getD_eq_getElem?_getD, hk']
  · simp only [polyPN, ite_mul, one_mul, zero_mul]
    rw [Finset.sum_ite_eq, if_pos (Finset.mem_range.2 hk)]
    simp [hT, List.getD_eq_getElem?_getD, hk']

/-- The zero-dimensional `basis_for_space` has no gradients. -/
theorem basis_facts (s : PNSpace) : ∃ fs C, (basisPN s : Basis ℝ).functions = .ok fs ∧ SpansPN fs s C ∧
    (s.spatialDim ≠ 0 → ∃ gs, GradPN (basisPN s) s gs C) := by
  unfold basisPN
  split_ifs with h
  · obtain ⟨fs, C, h1, h2, -, h3⟩ := onb_facts s h
    exact ⟨fs, C, h1, h2, h3⟩
  · obtain ⟨fs, C, h1, h2, h3⟩ := mono_facts s
    exact ⟨fs, C, h1, h2, fun _ => h3⟩

/-! ## Products -/

/-- The polynomial with the coefficients in row `k` of the product matrix. -/
noncomputable def polyTP (bases : List PNSpace) (C : PNSpace → Nat → Nat → ℝ) (k : Nat) (x : List ℝ) : ℝ :=
  ∑ l ∈ Finset.range (bases.map PNSpace.spaceDim).prod,
    kron (bases.map fun s => (s.spaceDim, C s)) k l * monomialValue ((nodeTuplesTP bases).getD l []) x

/-- Its factors. -/
noncomputable def factorFns (C : PNSpace → Nat → Nat → ℝ) : List PNSpace → Nat → List (List ℝ → ℝ)
  | [], _ => []
  | s :: ss, k => polyPN s (C s) (k % s.spaceDim) :: factorFns C ss (k / s.spaceDim)

theorem length_factorFns (C : PNSpace → Nat → Nat → ℝ) (bases : List PNSpace) (k : Nat) :
    (factorFns C bases k).length = bases.length := by
  induction bases generalizing k with
  | nil => rfl
  | cons s ss ih => simp [factorFns, ih]

theorem factorFns_values (C : PNSpace → Nat → Nat → ℝ) (bases : List PNSpace) (x : List ℝ) (k : Nat) :
    List.zipWith (fun F z => F z) (factorFns C bases k) (slices (bases.map PNSpace.spatialDim) x) =
      factorValues C bases x k := by
  induction bases generalizing x k with
  | nil => rfl
  | cons s ss ih => simp only [factorFns, List.map_cons, slices, List.zipWith_cons_cons, factorValues, ih]; rfl

theorem factorFns_get (C : PNSpace → Nat → Nat → ℝ) (bases : List PNSpace) (k i : Nat) (s : PNSpace)
    (hs : bases[i]? = some s) :
    (factorFns C bases k).getD i (fun _ => 0) = polyPN s (C s) (digit (bases.map PNSpace.spaceDim) k i) := by
  induction bases generalizing k i with
  | nil => simp at hs
  | cons b ss ih =>
    cases i with
    | zero =>
      simp at hs
      subst hs
      simp [factorFns, digit]
    | succ i =>
      simp only [List.getElem?_cons_succ] at hs
      simp only [factorFns, List.getD_cons_succ, List.map_cons]
      rw [ih _ _ hs]
      simp [digit, Nat.div_div_eq_div_mul]

theorem polyTP_eq (bases : List PNSpace) (C : PNSpace → Nat → Nat → ℝ) (k : Nat) (x : List ℝ)
    (hx : x.length = (bases.map PNSpace.spatialDim).sum) :
    polyTP bases C k x = (List.zipWith (fun F z => F z) (factorFns C bases k)
      (slices (bases.map PNSpace.spatialDim) x)).prod := by
  rw [factorFns_values, factorValues_prod _ _ _ _ hx, polyTP]
  refine Finset.sum_congr rfl fun l hl => ?_
  rw [Finset.mem_range] at hl
  have hkey : (nodeTuplesTP bases)[l]? = some (List.zipWith (fun (ts : List (List Nat)) j => ts.getD j [])
      (bases.map nodeTuplesPN) (unravelF (bases.map PNSpace.spaceDim) l)).flatten := by
    rw [nodeTuplesTP_eq, List.getElem?_map, List.getElem?_range (by rw [size_eq_prod]; exact hl)]
    rfl
  rw [List.getD_eq_getElem?_getD, hkey, Option.getD_some]

theorem gram_product (bases : List PNSpace) (C : PNSpace → Nat → Nat → ℝ) (κ : PNSpace → ℝ)
    (h : ∀ s ∈ bases, GramPN s (C s) (κ s)) (k l : Nat) (hk : k < (bases.map PNSpace.spaceDim).prod)
    (hl : l < (bases.map PNSpace.spaceDim).prod) :
    productIntegral (bases.map PNSpace.spatialDim) (fun x => polyTP bases C k x * polyTP bases C l x) =
      if k = l then (bases.map κ).prod else 0 := by
  have e : productIntegral (bases.map PNSpace.spatialDim) (fun x => polyTP bases C k x * polyTP bases C l x) =
      productIntegral (bases.map PNSpace.spatialDim) (fun x => (List.zipWith (fun F z => F z)
        (List.zipWith (fun F G z => F z * G z) (factorFns C bases k) (factorFns C bases l))
        (slices (bases.map PNSpace.spatialDim) x)).prod) := by
    apply productIntegral_congr
    intro x hx
    rw [polyTP_eq _ _ _ _ hx, polyTP_eq _ _ _ _ hx]
    clear hx h hk hl
    generalize slices (bases.map PNSpace.spatialDim) x = L
    induction bases generalizing k l L with
    | nil => simp [factorFns]
    | cons s ss ih =>
      cases L with
      | nil => simp
      | cons z L =>
        simp only [factorFns, List.zipWith_cons_cons, List.prod_cons]
        rw [← ih]
        ring
  rw [e, productIntegral_product _ _ (by simp [length_factorFns])]
  clear e
  induction bases generalizing k l with
  | nil =>
    simp only [List.map_nil, List.prod_nil, Nat.lt_one_iff] at hk hl
    simp [hk, hl]
  | cons s ss ih =>
    simp only [List.map_cons, List.prod_cons] at hk hl
    have hpos : 0 < s.spaceDim := Nat.pos_of_ne_zero fun h0 => by simp [h0] at hk
    simp only [factorFns, List.map_cons, List.zipWith_cons_cons, List.prod_cons]
    rw [ih (fun s hs => h s (List.mem_cons_of_mem _ hs)) _ _ (Nat.div_lt_of_lt_mul hk) (Nat.div_lt_of_lt_mul hl),
      h s (List.mem_cons_self ..) _ (Nat.mod_lt _ hpos) _ (Nat.mod_lt _ hpos)]
    by_cases hkl : k = l
    · simp [hkl]
    · rw [if_neg hkl]
      by_cases h1 : k % s.spaceDim = l % s.spaceDim
      · by_cases h2 : k / s.spaceDim = l / s.spaceDim
        · exact absurd (by rw [← Nat.div_add_mod k s.spaceDim, ← Nat.div_add_mod l s.spaceDim, h1, h2]) hkl
        · simp [h2]
      · simp [h1]

theorem gradient_product (forPN : PNSpace → Basis ℝ) (bases : List PNSpace) (F : PNSpace → List (List ℝ → Py ℝ))
    (G : PNSpace → List (List ℝ → Py (List ℝ))) (C : PNSpace → Nat → Nat → ℝ)
    (hF : ∀ s ∈ bases, (forPN s).functions = .ok (F s)) (hS : ∀ s ∈ bases, SpansPN (F s) s (C s))
    (hG : ∀ s ∈ bases, GradPN (forPN s) s (G s) (C s)) :
    ∃ gs, (tensorProductBasis (bases.map forPN) (bases.map PNSpace.spatialDim)).gradients = .ok gs ∧
      gs.length = (bases.map PNSpace.spaceDim).prod ∧
      ∀ k g, gs[k]? = some g → ∀ x : List ℝ, x.length = (bases.map PNSpace.spatialDim).sum →
        List.Forall₂ Regular (bases.map PNSpace.spatialDim) (slices (bases.map PNSpace.spatialDim) x) →
        ∃ v, g x = .ok v ∧ IsGradientAt (bases.map PNSpace.spatialDim).sum (polyTP bases C k) x v := by
  have hlen : (bases.map F).map List.length = bases.map PNSpace.spaceDim := by
    rw [List.map_map]
    exact List.map_congr_left fun s hs => (hS s hs).1
  have hglen : (bases.map G).map List.length = bases.map PNSpace.spaceDim := by
    rw [List.map_map]
    exact List.map_congr_left fun s hs => (hG s hs).2.1
  obtain ⟨gs, hgs, hl, hv⟩ := C15_gradient (bases.map forPN) (bases.map PNSpace.spatialDim) (bases.map F) (bases.map G)
    (by
      rw [List.map_map, List.map_map]
      exact List.map_congr_left fun s hs => hF s hs)
    (by
      rw [List.map_map, List.map_map]
      exact List.map_congr_left fun s hs => (hG s hs).1) (by simp) (by rw [hlen, hglen])
  refine ⟨gs, hgs, by rw [hl, hlen], ?_⟩
  intro k g hk x hx hreg
  have hkl : k < (bases.map PNSpace.spaceDim).prod := by
    rw [← hlen, ← hl]
    by_contra hc
    rw [List.getElem?_eq_none (by omega)] at hk
    cases hk
  have hfac : ∀ i (hi : i < bases.length), digit (bases.map PNSpace.spaceDim) k i < bases[i].spaceDim ∧
      Regular bases[i].spatialDim ((slices (bases.map PNSpace.spatialDim) x).getD i []) := by
    intro i hi
    have hpos : 0 < bases[i].spaceDim := by
      refine Nat.pos_of_ne_zero fun h0 => ?_
      have : (bases.map PNSpace.spaceDim).prod = 0 :=
        List.prod_eq_zero (List.mem_map.2 ⟨_, List.getElem_mem hi, h0⟩)
      omega
    constructor
    · have e : (bases.map PNSpace.spaceDim).getD i 1 = bases[i].spaceDim := by
        simp [List.getD_eq_getElem?_getD, hi]
      rw [digit, e]
      exact Nat.mod_lt _ hpos
    · have := (List.forall₂_iff_get.1 hreg).2 i (by simpa using hi) (by simpa using hi)
      simp only [List.get_eq_getElem, List.getElem_map] at this
      rw [List.getD_eq_getElem?_getD, List.getElem?_eq_getElem (by simpa using hi)]
      exact this
  have hgrad : ∀ i (hi : i < bases.length), ∃ v, ((G bases[i]).getD (digit (bases.map PNSpace.spaceDim) k i)
      fun _ => .error .IndexError) ((slices (bases.map PNSpace.spatialDim) x).getD i []) = .ok v ∧
      IsGradientAt bases[i].spatialDim (polyPN bases[i] (C bases[i]) (digit (bases.map PNSpace.spaceDim) k i))
        ((slices (bases.map PNSpace.spatialDim) x).getD i []) v := fun i hi =>
    (hG _ (List.getElem_mem hi)).2.2 _ (hfac i hi).1 _ (hfac i hi).2
  choose v hv1 hv2 using hgrad
  obtain ⟨V, hV1, hV2⟩ := hv k g hk x (factorFns C bases k) (List.ofFn fun i : Fin bases.length => v i i.2)
    hx (by simp [length_factorFns]) (by simp) (by
      intro i hi
      simp only [List.length_map] at hi
      have hs : bases[i]? = some bases[i] := List.getElem?_eq_getElem hi
      have e1 : (bases.map F).getD i [] = F bases[i] := by simp [List.getD_eq_getElem?_getD, hi]
      have e2 : (bases.map G).getD i [] = G bases[i] := by simp [List.getD_eq_getElem?_getD, hi]
      have e3 : (List.ofFn fun i : Fin bases.length => v i i.2).getD i [] = v i hi := by
        simp [List.getD_eq_getElem?_getD, hi]
      have e4 : (bases.map PNSpace.spatialDim).getD i 0 = bases[i].spatialDim := by
        simp [List.getD_eq_getElem?_getD, hi]
      rw [factorFns_get _ _ _ _ _ hs, hlen, e1, e2, e3, e4]
      exact ⟨(hS _ (List.getElem_mem hi)).2.2 _ (hfac i hi).1 _ (hfac i hi).2, hv1 i hi, hv2 i hi⟩)
  exact ⟨V, hV1, isGradientAt_congr hx (fun y hy => (polyTP_eq _ _ _ _ hy).symm) hV2⟩

end Modepy

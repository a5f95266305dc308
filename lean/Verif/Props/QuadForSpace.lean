import Verif.Model.QuadForSpace
import Verif.Proofs.Equilateral
import Verif.Props.Quadrature
import Verif.Props.GrundmannMoeller
import Verif.Props.Gauss
import Verif.Props.ExactTo

/-!
# Property C36: `quadrature_for_space`
-/

namespace Modepy
open Spec MeasureTheory Quadrature

/-- What the tables of Xiao and Gimbutas claim: the entry for order `N` integrates polynomials of total degree
at most `N` over the equilateral triangle (tetrahedron). -/
structure Spec.XgOk (t : XgTables) : Prop where
  triangle : ∀ N r, t.triangle N = some r → ∀ p : MvPolynomial (Fin 2) ℝ, p.totalDegree ≤ N →
    ∑ k, r.weights k * MvPolynomial.eval (r.points k) p = ∫ x in equilateralTriangle, MvPolynomial.eval x p
  tetrahedron : ∀ N r, t.tetrahedron N = some r → ∀ p : MvPolynomial (Fin 3) ℝ, p.totalDegree ≤ N →
    ∑ k, r.weights k * MvPolynomial.eval (r.points k) p = ∫ x in equilateralTetrahedron, MvPolynomial.eval x p

/-- `F` is a polynomial function of degree at most `order` in `spatial_dim` variables. -/
def Spec.InPN (s : PNSpace) (F : List ℝ → ℝ) : Prop :=
  ∃ p : MvPolynomial (Fin s.spatialDim) ℝ, p.totalDegree ≤ s.order ∧
    F = fun x => MvPolynomial.eval (fun i : Fin s.spatialDim => x.getD i 0) p

theorem getD_ofFn {n : Nat} (x : Fin n → ℝ) : (fun i : Fin n => (List.ofFn x).getD i 0) = x := by
  funext i
  simp only [List.getD_eq_getElem?_getD]
  rw [List.getElem?_eq_getElem (by simp)]
  simp

theorem simplexIntegral_eval {n : Nat} (p : MvPolynomial (Fin n) ℝ) :
    Spec.simplexIntegral n (fun x => MvPolynomial.eval (fun i : Fin n => x.getD i 0) p) =
      ∫ x in simplexSet n, MvPolynomial.eval x p := by
  simp only [Spec.simplexIntegral, getD_ofFn]

theorem simplexIntegral_functional (n : Nat) : IsFunctional n (Spec.simplexIntegral n) where
  congr F G h := by
    simp only [Spec.simplexIntegral]
    congr 1
    funext x
    exact h _ (by simp)
  smul c F := by
    simp only [Spec.simplexIntegral]
    exact integral_mul_const _ _

theorem integral_simplexSet_zero (g : (Fin 0 → ℝ) → ℝ) : ∫ x in simplexSet 0, g x = g ![] := by
  have h : simplexSet 0 = Set.univ := by
    ext x; simp [simplexSet]
  rw [h, Measure.restrict_univ, integral_unique]
  have : (volume : Measure (Fin 0 → ℝ)).real Set.univ = 1 := by
    rw [volume_pi, Measure.real, Measure.pi_of_empty (x := ![])]
    simp
  rw [this, one_smul]
  exact congrArg g (Subsingleton.elim _ _)

theorem integral_simplexSet_one (g : ℝ → ℝ) : ∫ x in simplexSet 1, g (x 0) = ∫ t in (-1)..1, g t := by
  have h : simplexSet 1 = (MeasurableEquiv.funUnique (Fin 1) ℝ) ⁻¹' Set.Icc (-1) 1 := by
    ext x
    simp only [simplexSet, Set.mem_ofPred_eq, Set.mem_preimage, Set.mem_Icc]
    have : (MeasurableEquiv.funUnique (Fin 1) ℝ) x = x 0 := rfl
    rw [this]
    simp only [Fin.sum_univ_one]
    constructor
    · rintro ⟨h1, h2⟩; exact ⟨h1 0, by linarith⟩
    · rintro ⟨h1, h2⟩
      refine ⟨fun i => ?_, by linarith⟩
      rw [Subsingleton.elim i 0]; exact h1
  rw [h]
  have := (volume_preserving_funUnique (Fin 1) ℝ).setIntegral_preimage_emb
    (MeasurableEquiv.measurableEmbedding _) g (Set.Icc (-1) 1)
  rw [intervalIntegral.integral_of_le (by norm_num), ← integral_Icc_eq_integral_Ioc, ← this]
  rfl

/-- A polynomial in one of one variables. -/
noncomputable def toPoly (p : MvPolynomial (Fin 1) ℝ) : Polynomial ℝ := MvPolynomial.aeval (fun _ => Polynomial.X) p

theorem eval_toPoly (p : MvPolynomial (Fin 1) ℝ) (t : ℝ) : (toPoly p).eval t = MvPolynomial.eval (fun _ => t) p := by
  rw [toPoly, MvPolynomial.aeval_def, MvPolynomial.eval₂_eq', MvPolynomial.eval_eq', Polynomial.eval_finsetSum]
  refine Finset.sum_congr rfl fun m _ => ?_
  simp

theorem natDegree_toPoly (p : MvPolynomial (Fin 1) ℝ) : (toPoly p).natDegree ≤ p.totalDegree := by
  rw [toPoly, MvPolynomial.aeval_def, MvPolynomial.eval₂_eq']
  refine Polynomial.natDegree_sum_le_of_forall_le _ _ fun m hm => ?_
  have h := MvPolynomial.le_totalDegree hm
  rw [Finsupp.sum_fintype _ _ (fun _ => rfl)] at h
  simp only [Fin.prod_univ_one, Fin.sum_univ_one] at h ⊢
  refine le_trans ?_ h
  rw [← Polynomial.C_eq_algebraMap]
  exact Polynomial.natDegree_C_mul_X_pow_le _ _

/-! ## The Xiao-Gimbutas rules -/

theorem xgBuild_facts {d : Nat} (f : AffineMap d) (r : XgRule d) (N : Nat) :
    (xgBuild f r N).dim = d ∧ WellShaped (xgBuild f r N) ∧
      ∀ F, (xgBuild f r N).call F = ∑ k, r.weights k * f.jacobian * F (List.ofFn (f.callPoint (r.points k))) := by
  refine ⟨rfl, ⟨r.n, rfl, Or.inr ⟨d, rfl⟩⟩, fun F => ?_⟩
  rw [call]
  have hn : (xgBuild f r N).nnodes = r.n := rfl
  rw [hn, sum_map_range_real, Finset.sum_range]
  refine Finset.sum_congr rfl fun k _ => ?_
  have hw : (xgBuild f r N).weights.get [(k : Nat)] = r.weights k * f.jacobian :=
    ofFn_get (fun k => r.weights k * f.jacobian) k
  have hx : (xgBuild f r N).node k = List.ofFn (f.callPoint (r.points k)) := by
    have h0 : (xgBuild f r N).node k = (List.range d).map fun i => (xgBuild f r N).nodes.get [i, k] := rfl
    rw [h0]
    apply List.ext_getElem
    · simp
    · intro i h1 h2
      have hi : i < d := by simpa using h1
      simp only [List.getElem_map, List.getElem_range, List.getElem_ofFn]
      have : (xgBuild f r N).nodes.get [i, (k : Nat)] = f.call r.points.transpose ⟨i, hi⟩ k := by
        show (if h : i < d ∧ (k : Nat) < r.n then _ else _) = _
        rw [dif_pos ⟨hi, k.2⟩]
      rw [this]
      simp [AffineMap.call, AffineMap.callPoint, Matrix.mul_apply, Matrix.mulVec, dotProduct, mul_comm]
  rw [hw, hx]

/-- Mapping a rule for the equilateral simplex to the bi-unit simplex keeps its exactness. -/
theorem xgBuild_exact {d : Nat} (f : AffineMap d) (hf : 0 < f.a.det) (S : Set (Fin d → ℝ))
    (hS : S = f.callPoint ⁻¹' simplexSet d) (r : XgRule d) (N : Nat)
    (hr : ∀ p : MvPolynomial (Fin d) ℝ, p.totalDegree ≤ N →
      ∑ k, r.weights k * MvPolynomial.eval (r.points k) p = ∫ x in S, MvPolynomial.eval x p)
    (p : MvPolynomial (Fin d) ℝ) (hp : p.totalDegree ≤ N) :
    (xgBuild f r N).call (fun x => MvPolynomial.eval (fun i : Fin d => x.getD i 0) p) =
      ∫ x in simplexSet d, MvPolynomial.eval x p := by
  rw [(xgBuild_facts f r N).2.2, integral_callPoint f hf.ne' S hS, abs_of_pos hf]
  have h := hr (pullback f p) ((totalDegree_pullback f p).trans hp)
  simp only [eval_pullback] at h
  rw [← h, Finset.mul_sum]
  refine Finset.sum_congr rfl fun k _ => ?_
  simp only [getD_ofFn, AffineMap.jacobian]
  ring

theorem det_equi2 : 0 < equilateralToUnitMap2.a.det := by
  have : equilateralToUnitMap2.a.det = 2 / √3 := by
    simp [equilateralToUnitMap2, Matrix.det_fin_two]
  rw [this]
  positivity

theorem det_equi3 : 0 < equilateralToUnitMap3.a.det := by
  have : equilateralToUnitMap3.a.det = 2 / √3 * (√6 / 2) := by
    simp [equilateralToUnitMap3, Matrix.det_fin_three]
  rw [this]
  positivity

/-! ## `PN` spaces -/

/-- The values `exact_to` takes here: a finite number or the float infinity. -/
def NumLike : PyVal → Prop
  | .num _ | .posInf => True
  | _ => False

theorem numLike_order (a b : PyVal) (ha : NumLike a) (hb : NumLike b) :
    pyCmp .lt a b = .ok (decide (exactValue a < exactValue b)) ∧
    pyCmp .ge a b = .ok (decide (exactValue b ≤ exactValue a)) := by
  cases a <;> cases b <;> simp [NumLike] at ha hb <;>
    simp [pyCmp, dunder, numCmp, exactValue]

theorem assertExact_eq (q : Quadrature) (e : PyVal) (he : q.exactTo = some e) (h : NumLike e) (n : Nat) :
    assertExact q n = if exactValue (.num n) ≤ exactValue e then .ok q else .error .AssertionError := by
  rw [assertExact, getExactTo, he]
  simp only
  rw [(numLike_order e (.num n) h trivial).2]
  by_cases hle : exactValue (.num n) ≤ exactValue e
  · rw [decide_eq_true hle, if_pos hle]
  · rw [decide_eq_false hle, if_neg hle]

theorem gaussParams_zero : GaussParams 0 0 := ⟨by norm_num, by norm_num, by norm_num, by norm_num⟩

/-- What `quadrature_for_space` returns for a `PN` space. -/
theorem pn_facts (ext : Ext) (hext : ext.EighOk) (t : XgTables) (ht : XgOk t) (s : PNSpace) :
    ∃ q e, quadratureForPn ext t s (.simplex s.spatialDim) = .ok q ∧ q.exactTo = some e ∧ NumLike e ∧
      exactValue (.num s.order) ≤ exactValue e ∧ WellShaped q ∧ q.dim = s.spatialDim ∧
      (s.spatialDim = 1 → e = .num (2 * s.order + 1)) ∧
      ∀ F, InPN s F → q.call F = Spec.simplexIntegral s.spatialDim F := by
  obtain ⟨d, N⟩ := s
  simp only
  by_cases h0 : d = 0
  · subst h0
    have hle : exactValue (.num (N : ℚ)) ≤ exactValue .posInf := le_top
    refine ⟨zeroDimensional, .posInf, ?_, rfl, trivial, le_top, ⟨1, rfl, Or.inr ⟨0, rfl⟩⟩, rfl, by simp, ?_⟩
    · simp only [quadratureForPn, ne_eq, not_true_eq_false, if_false, if_true]
      rw [assertExact_eq _ .posInf rfl trivial, if_pos hle]
    · rintro F ⟨p, -, rfl⟩
      rw [simplexIntegral_eval, integral_simplexSet_zero]
      simp only [call, nnodes, zeroDimensional, node, List.headD_cons, List.range_one, List.map_cons, List.map_nil,
        List.sum_cons, List.sum_nil, one_mul, add_zero]
      congr 2
      exact Subsingleton.elim _ _
  by_cases h1 : d = 1
  · subst h1
    obtain ⟨q, hq, hq2, hex, hsh, hwsh, -⟩ := C27_exact ext hext 0 0 gaussParams_zero N true
    have hle : exactValue (.num (N : ℚ)) ≤ exactValue (.num (2 * N + 1)) := by
      simp only [exactValue]
      have : (N : ℚ) ≤ 2 * N + 1 := by
        have : (0 : ℚ) ≤ N := Nat.cast_nonneg N
        linarith
      exact WithTop.coe_le_coe.2 this
    have he : q.exactTo = some (.num (2 * N + 1)) := by
      rw [getExactTo] at hq2
      cases h : q.exactTo with
      | none => rw [h] at hq2; simp at hq2
      | some e => rw [h] at hq2; simpa using hq2
    refine ⟨q, .num (2 * N + 1), ?_, he, trivial, hle, ⟨N + 1, hwsh, Or.inr ⟨1, by simpa using hsh⟩⟩, ?_,
      fun _ => rfl, ?_⟩
    · simp only [quadratureForPn, ne_eq, not_true_eq_false, if_false, one_ne_zero, if_true, legendreGaussQuadrature]
      rw [hq]
      simp only
      rw [assertExact_eq _ _ he trivial, if_pos hle]
    · simp [dim, hsh]
    · rintro F ⟨p, hp, rfl⟩
      simp only at hp
      rw [simplexIntegral_eval]
      have h := hex (toPoly p) ((natDegree_toPoly p).trans (by omega))
      simp only [Real.rpow_zero, mul_one, eval_toPoly] at h
      have e1 : ∀ x : Fin 1 → ℝ, MvPolynomial.eval x p = MvPolynomial.eval (fun _ => x 0) p := by
        intro x
        congr 2
        funext i
        rw [Subsingleton.elim i 0]
      have e2 : ∀ x : List ℝ, (fun i : Fin 1 => x.getD i 0) = fun _ => x.headD 0 := by
        intro x
        funext i
        rw [Subsingleton.elim i 0]
        cases x <;> rfl
      simp only [e2]
      rw [h]
      simp only [e1]
      exact (integral_simplexSet_one fun t => MvPolynomial.eval (fun _ => t) p).symm
  -- two and more dimensions
  have hgm : ∃ q e, grundmannMoeller (N / 2) d = .ok q ∧ q.exactTo = some e ∧ NumLike e ∧
      exactValue (.num (N : ℚ)) ≤ exactValue e ∧ WellShaped q ∧ q.dim = d ∧
      ∀ F, InPN ⟨d, N⟩ F → q.call F = Spec.simplexIntegral d F := by
    obtain ⟨q, hq, hq2, hex, hdim, -⟩ := C32_exact (N / 2) d h0
    have he : q.exactTo = some (.num (2 * (N / 2) + 1 : Nat)) := by
      rw [getExactTo] at hq2
      cases h : q.exactTo with
      | none => rw [h] at hq2; simp at hq2
      | some e => rw [h] at hq2; simpa using hq2
    refine ⟨q, _, hq, he, trivial, ?_, ?_, hdim, ?_⟩
    · simp only [exactValue]
      refine WithTop.coe_le_coe.2 (Nat.cast_le.2 ?_)
      omega
    · rw [gm_ok (N / 2) d h0] at hq
      obtain rfl := Except.ok.inj hq
      exact ⟨_, rfl, Or.inr ⟨d, by simp⟩⟩
    · rintro F ⟨p, hp, rfl⟩
      simp only at hp
      rw [simplexIntegral_eval]
      exact hex p (by omega)
  have hxg : ∀ q, xiaoGimbutas t N d = .ok q → q.exactTo = some (.num N) ∧ WellShaped q ∧ q.dim = d ∧
      ∀ F, InPN ⟨d, N⟩ F → q.call F = Spec.simplexIntegral d F := by
    intro q hq
    rw [xiaoGimbutas] at hq
    by_cases h2 : d = 2
    · subst h2
      rw [if_pos rfl] at hq
      cases hr : t.triangle N with
      | none => rw [hr] at hq; simp at hq
      | some r =>
        rw [hr] at hq
        obtain rfl := Except.ok.inj hq
        obtain ⟨g1, g2, -⟩ := xgBuild_facts equilateralToUnitMap2 r N
        refine ⟨rfl, g2, g1, ?_⟩
        rintro F ⟨p, hp, rfl⟩
        rw [simplexIntegral_eval]
        exact xgBuild_exact _ det_equi2 _ equilateralTriangle_eq r N (ht.triangle N r hr) p hp
    · rw [if_neg h2] at hq
      by_cases h3 : d = 3
      · subst h3
        rw [if_pos rfl] at hq
        cases hr : t.tetrahedron N with
        | none => rw [hr] at hq; simp at hq
        | some r =>
          rw [hr] at hq
          obtain rfl := Except.ok.inj hq
          obtain ⟨g1, g2, -⟩ := xgBuild_facts equilateralToUnitMap3 r N
          refine ⟨rfl, g2, g1, ?_⟩
          rintro F ⟨p, hp, rfl⟩
          rw [simplexIntegral_eval]
          exact xgBuild_exact _ det_equi3 _ equilateralTetrahedron_eq r N (ht.tetrahedron N r hr) p hp
      · rw [if_neg h3] at hq
        simp at hq
  have hxe : ∀ e, xiaoGimbutas t N d = .error e → e = .QuadratureRuleUnavailable := by
    intro e he
    rw [xiaoGimbutas] at he
    split_ifs at he
    · split at he <;> simp at he
      exact he.symm
    · split at he <;> simp at he
      exact he.symm
    · simpa using he.symm
  cases hx : xiaoGimbutas t N d with
  | ok q =>
    obtain ⟨g1, g2, g3, g4⟩ := hxg q hx
    refine ⟨q, _, ?_, g1, trivial, le_refl _, g2, g3, fun h => absurd h h1, g4⟩
    simp only [quadratureForPn, ne_eq, not_true_eq_false, if_false, h0, h1, hx]
    rw [assertExact_eq _ _ g1 trivial, if_pos (le_refl _)]
  | error e =>
    obtain rfl := hxe e hx
    obtain ⟨q, e, g1, g2, g3, g4, g5, g6, g7⟩ := hgm
    refine ⟨q, e, ?_, g2, g3, g4, g5, g6, fun h => absurd h h1, g7⟩
    simp only [quadratureForPn, ne_eq, not_true_eq_false, if_false, h0, h1, hx, g1]
    rw [assertExact_eq _ _ g2 g3, if_pos g4]

/-- **C36 (`PN`).**  In every dimension and for every order `quadrature_for_space` returns a rule that declares
at least the order of the space and integrates every function of the space exactly over the simplex, whichever
orders the tables contain. -/
theorem C36_pn (ext : Ext) (hext : ext.EighOk) (t : XgTables) (ht : XgOk t) (s : PNSpace) :
    ∃ q e, quadratureForSpace ext t (.pn s) (.simplex s.spatialDim) = .ok q ∧ q.getExactTo = .ok e ∧
      pyCmp .ge e (.num s.order) = .ok true ∧ q.dim = s.spatialDim ∧
      ∀ F, InPN s F → q.call F = Spec.simplexIntegral s.spatialDim F := by
  obtain ⟨q, e, h1, h2, h3, h4, h5, h6, -, h7⟩ := pn_facts ext hext t ht s
  refine ⟨q, e, h1, by rw [getExactTo, h2], ?_, h6, h7⟩
  rw [(numLike_order e (.num s.order) h3 trivial).2]
  exact congrArg Except.ok (decide_eq_true h4)

/-- Shapes that do not fit are rejected. -/
theorem C36_rejects (ext : Ext) (t : XgTables) :
    (∀ s d, s.spatialDim ≠ d → quadratureForSpace ext t (.pn s) (.simplex d) = .error .ValueError) ∧
    (∀ s sh, sh.isTP = true → quadratureForSpace ext t (.pn s) sh = .error .NotImplementedError) ∧
    (∀ sp : Space, sp.isTP = true → ∀ d, quadratureForSpace ext t sp (.simplex d) = .error .AttributeError) ∧
    (∀ sp : Space, sp.isTP = true → ∀ sh : Shape, sh.isTP = true → sp.spatialDim ≠ sh.dim →
      quadratureForSpace ext t sp sh = .error .ValueError) := by
  refine ⟨?_, ?_, ?_, ?_⟩
  · intro s d h
    simp [quadratureForSpace, quadratureForPn, h]
  · intro s sh h
    cases sh <;> simp [Shape.isTP] at h <;> rfl
  · intro sp h d
    cases sp <;> simp [Space.isTP] at h <;> rfl
  · intro sp h sh hsh hd
    cases sp <;> simp [Space.isTP] at h <;> cases sh <;> simp [Shape.isTP] at hsh <;>
      simp only [quadratureForSpace, quadratureForTp, if_pos hd]

/-! ## Tensor product spaces -/

theorem numLike_min (l : List PyVal) (hne : l ≠ []) (h : ∀ a ∈ l, NumLike a) :
    ∃ m ∈ l, minExact (l.map some) = .ok (some m) ∧ ∀ a ∈ l, exactValue m ≤ exactValue a := by
  have key : ∀ (xs : List PyVal) (c : PyVal), NumLike c → (∀ a ∈ xs, NumLike a) →
      ∃ m, minExactFrom c (xs.map some) = .ok (some m) ∧ m ∈ c :: xs ∧
        ∀ a ∈ c :: xs, exactValue m ≤ exactValue a := by
    intro xs
    induction xs with
    | nil => intro c _ _; exact ⟨c, rfl, by simp, by simp⟩
    | cons x xs ih =>
      intro c hc hx
      have h1 := (numLike_order x c (hx x (by simp)) hc).1
      rw [List.map_cons, minExactFrom, h1]
      by_cases hlt : exactValue x < exactValue c
      · rw [decide_eq_true hlt]
        obtain ⟨m, hm, hmem, hle⟩ := ih x (hx x (by simp)) fun a ha => hx a (by simp [ha])
        refine ⟨m, hm, List.mem_cons_of_mem _ hmem, ?_⟩
        intro a ha
        rcases List.mem_cons.1 ha with rfl | ha
        · exact (hle x (by simp)).trans hlt.le
        · exact hle a ha
      · rw [decide_eq_false hlt]
        obtain ⟨m, hm, hmem, hle⟩ := ih c hc fun a ha => hx a (by simp [ha])
        refine ⟨m, hm, ?_, ?_⟩
        · rcases List.mem_cons.1 hmem with rfl | h
          · simp
          · simp [h]
        · intro a ha
          rcases List.mem_cons.1 ha with rfl | ha
          · exact hle a (by simp)
          · rcases List.mem_cons.1 ha with rfl | ha
            · exact (hle c (by simp)).trans (not_lt.1 hlt)
            · exact hle a (by simp [ha])
  cases l with
  | nil => exact absurd rfl hne
  | cons c xs =>
    obtain ⟨m, h1, h2, h3⟩ := key xs c (h c (by simp)) fun a ha => h a (by simp [ha])
    exact ⟨m, h2, h1, h3⟩

open Classical in
theorem assertExactAll_eq (q : Quadrature) (e : PyVal) (he : q.exactTo = some e) (h : NumLike e) (bs : List PNSpace) :
    assertExactAll q bs = if ∀ s ∈ bs, exactValue (.num (s.order : ℚ)) ≤ exactValue e then .ok q
      else .error .AssertionError := by
  induction bs with
  | nil => simp [assertExactAll]
  | cons s bs ih =>
    rw [assertExactAll, assertExact_eq q e he h]
    by_cases h1 : exactValue (.num (s.order : ℚ)) ≤ exactValue e
    · rw [if_pos h1]
      simp only [ih]
      refine if_congr ?_ rfl rfl
      simp [h1]
    · rw [if_neg h1]
      simp only
      rw [if_neg]
      intro h2
      exact h1 (h2 s (by simp))

/-- A member of a tensor product space: a linear combination of products of members of the bases, each of its own
block of coordinates. -/
noncomputable def Spec.tpSpaceFunction (dims : List Nat) (terms : List (ℝ × List (List ℝ → ℝ))) (x : List ℝ) : ℝ :=
  (terms.map fun cF => cF.1 * (List.zipWith (fun F z => F z) cF.2 (slices dims x)).prod).sum

/-- Its integral over the product of the simplices. -/
noncomputable def Spec.tpIntegral (dims : List Nat) (terms : List (ℝ × List (List ℝ → ℝ))) : ℝ :=
  (terms.map fun cF => cF.1 * iterated (dims.map Spec.simplexIntegral)
    (fun x => (List.zipWith (fun F z => F z) cF.2 (slices dims x)).prod)).sum

theorem call_linear (Q : Quadrature) {β : Type} (l : List β) (c : β → ℝ) (F : β → List ℝ → ℝ) :
    Q.call (fun x => (l.map fun b => c b * F b x).sum) = (l.map fun b => c b * Q.call (F b)).sum := by
  induction l with
  | nil => simp [call]
  | cons b l ih =>
    simp only [List.map_cons, List.sum_cons, ← ih]
    simp only [call]
    rw [← List.sum_map_mul_left, ← List.sum_map_add]
    congr 1
    apply List.map_congr_left
    intro k _
    ring

/-- **C36 (tensor products).**  Whether a rule is returned depends on the assertion at the end: every base rule must
declare at least the order of *every* base.  Then the returned product rule integrates every function of the space
exactly.  Otherwise the call fails with `AssertionError` although the product rule would be exact for the space: the
claim "for every choice of base orders" fails (`C36_mixed_orders_rejected`). -/
theorem C36_tp_partial (ext : Ext) (hext : ext.EighOk) (t : XgTables) (ht : XgOk t) (sp : Space) (sh : Shape)
    (h1 : sp.isTP = true) (h2 : sh.isTP = true) (hb : sh.flatBases = sp.flatBases.map PNSpace.spatialDim)
    (hpos : sp.spatialDim ≠ 0) :
    ∃ quads : PNSpace → Quadrature, ∃ e : PNSpace → PyVal,
      (∀ s, quadratureForSpace ext t (.pn s) (.simplex s.spatialDim) = .ok (quads s) ∧
        (quads s).getExactTo = .ok (e s)) ∧
      ((∀ s ∈ sp.flatBases, ∀ s' ∈ sp.flatBases, exactValue (.num (s.order : ℚ)) ≤ exactValue (e s')) →
        ∃ Q, quadratureForSpace ext t sp sh = .ok Q ∧ Q.dim = sp.spatialDim ∧
          ∀ terms : List (ℝ × List (List ℝ → ℝ)), (∀ cF ∈ terms, List.Forall₂ InPN sp.flatBases cF.2) →
            Q.call (tpSpaceFunction (sp.flatBases.map PNSpace.spatialDim) terms) =
              tpIntegral (sp.flatBases.map PNSpace.spatialDim) terms) ∧
      (¬ (∀ s ∈ sp.flatBases, ∀ s' ∈ sp.flatBases, exactValue (.num (s.order : ℚ)) ≤ exactValue (e s')) →
        quadratureForSpace ext t sp sh = .error .AssertionError) := by
  choose q e hq he hnum hle hws hdim _ hex using pn_facts ext hext t ht
  refine ⟨q, e, fun s => ⟨hq s, by rw [getExactTo, he]⟩, ?_⟩
  set bs := sp.flatBases with hbs
  have hsd : sp.spatialDim = (bs.map PNSpace.spatialDim).sum := by
    cases sp <;> simp [Space.isTP] at h1 <;> rfl
  have hdims : (bs.map q).map dim = bs.map PNSpace.spatialDim := by
    rw [List.map_map]
    exact List.map_congr_left fun s _ => hdim s
  have hshd : sp.spatialDim = sh.dim := by
    rw [hsd, ← hb]
    cases sh <;> simp [Shape.isTP] at h2 <;> rfl
  have hne : bs ≠ [] := by
    intro h0
    rw [h0] at hsd
    exact hpos hsd
  have hquads : quadraturesForBases ext t bs (bs.map PNSpace.spatialDim) = .ok (bs.map q) := by
    rw [quadraturesForBases, List.zipWith_map_right, List.zipWith_self,
      collect_map_of_ok bs _ q fun s _ => hq s]
    simp
  have hz : ((bs.map q).map dim).sum = 0 → ((bs.map q).map nnodes).prod = 1 := by
    intro h0
    rw [hdims, ← hsd] at h0
    exact absurd h0 hpos
  have hwsl : ∀ x ∈ bs.map q, WellShaped x := by
    intro x hx
    obtain ⟨s, -, rfl⟩ := List.mem_map.1 hx
    exact hws s
  obtain ⟨m, hm, hmin, hmle⟩ := numLike_min (bs.map e) (by simpa using hne) (by
    intro a ha
    obtain ⟨s, -, rfl⟩ := List.mem_map.1 ha
    exact hnum s)
  have hmin' : minExact ((bs.map q).map (·.exactTo)) = .ok (some m) := by
    rw [← hmin, List.map_map, List.map_map]
    congr 1
    exact List.map_congr_left fun s _ => he s
  obtain ⟨Q, hQ, hQe, hQs, -⟩ := C34_iterated (bs.map q) hwsl hz (some m) hmin'
  have hmnum : NumLike m := by
    obtain ⟨s, -, rfl⟩ := List.mem_map.1 hm
    exact hnum s
  have hcall : quadratureForSpace ext t sp sh = assertExactAll Q bs := by
    have : quadratureForSpace ext t sp sh = quadratureForTp ext t sp sh := by
      cases sp <;> simp [Space.isTP] at h1 <;> rfl
    rw [this]
    have e1 : (match (Quadrature.tensorProduct (bs.map q)) with
        | .error e => (.error e : Py Quadrature)
        | .ok quad => assertExactAll quad bs) = assertExactAll Q bs := by rw [hQ]
    rw [← e1]
    cases sh <;> simp [Shape.isTP] at h2 <;>
      simp only [quadratureForTp, ne_eq, hshd, not_true_eq_false, if_false] <;>
      rw [if_neg (by rw [← hshd]; exact hpos), hb, ← hbs, hquads] <;> simp only [hQ]
  have hiff : (∀ s ∈ bs, exactValue (.num (s.order : ℚ)) ≤ exactValue m) ↔
      ∀ s ∈ bs, ∀ s' ∈ bs, exactValue (.num (s.order : ℚ)) ≤ exactValue (e s') := by
    constructor
    · intro h s hs s' hs'
      exact (h s hs).trans (hmle _ (List.mem_map_of_mem hs'))
    · intro h s hs
      obtain ⟨s', hs', rfl⟩ := List.mem_map.1 hm
      exact h s hs s' hs'
  rw [hcall, assertExactAll_eq Q m hQe hmnum]
  constructor
  · intro h
    rw [if_pos (hiff.2 h)]
    refine ⟨Q, rfl, ?_, ?_⟩
    · simp only [dim, hQs, List.headD_cons, hdims, hsd]
    · intro terms hterms
      have hfun : tpSpaceFunction (bs.map PNSpace.spatialDim) terms = fun x => (terms.map fun cF => cF.1 *
        (fun x => (List.zipWith (fun F z => F z) cF.2 (slices (bs.map PNSpace.spatialDim) x)).prod) x).sum := rfl
      rw [hfun, call_linear, tpIntegral]
      congr 1
      apply List.map_congr_left
      intro cF hcF
      have hF := hterms cF hcF
      have hlen := hF.length_eq
      have hI : List.Forall₂ IsFunctional ((bs.map q).map dim)
          ((bs.map PNSpace.spatialDim).map Spec.simplexIntegral) := by
        rw [hdims]
        have : ∀ l : List Nat, List.Forall₂ IsFunctional l (l.map Spec.simplexIntegral) := by
          intro l
          induction l with
          | nil => exact .nil
          | cons a l ih => exact .cons (simplexIntegral_functional a) ih
        exact this _
      have h := C34_products (bs.map q) hwsl _ hI cF.2 (by simp [hlen]) (by
        intro i hi
        have hi' : i < bs.length := by simpa using hi
        simp only [List.getElem_map]
        exact hex _ _ (List.forall₂_iff_get.1 hF |>.2 i hi' (by omega))) Q hQ hz
      rw [hdims] at h
      rw [h]
  · intro h
    rw [if_neg (mt hiff.1 h)]

/-- When all bases have the same order a rule is always returned. -/
theorem C36_equal_orders (ext : Ext) (hext : ext.EighOk) (t : XgTables) (ht : XgOk t) (sp : Space) (sh : Shape)
    (h1 : sp.isTP = true) (h2 : sh.isTP = true) (hb : sh.flatBases = sp.flatBases.map PNSpace.spatialDim)
    (hpos : sp.spatialDim ≠ 0) (n : Nat) (hn : ∀ s ∈ sp.flatBases, s.order = n) :
    ∃ Q, quadratureForSpace ext t sp sh = .ok Q ∧ Q.dim = sp.spatialDim ∧
      ∀ terms : List (ℝ × List (List ℝ → ℝ)), (∀ cF ∈ terms, List.Forall₂ InPN sp.flatBases cF.2) →
        Q.call (tpSpaceFunction (sp.flatBases.map PNSpace.spatialDim) terms) =
          tpIntegral (sp.flatBases.map PNSpace.spatialDim) terms := by
  obtain ⟨q, e, hqe, hok, -⟩ := C36_tp_partial ext hext t ht sp sh h1 h2 hb hpos
  refine hok fun s hs s' hs' => ?_
  obtain ⟨q', e', g1, g2, g3, g4, -⟩ := pn_facts ext hext t ht s'
  obtain ⟨k1, k2⟩ := hqe s'
  have : q' = q s' := Except.ok.inj (g1.symm.trans k1)
  subst this
  rw [getExactTo, g2] at k2
  obtain rfl := Except.ok.inj k2
  rw [hn s hs, ← hn s' hs']
  exact g4

/-- On products of segments the call succeeds iff the largest order is at most `2 m + 1` with `m` the smallest. -/
theorem C36_segments (ext : Ext) (hext : ext.EighOk) (t : XgTables) (ht : XgOk t) (orders : List Nat)
    (hne : orders ≠ []) :
    (∃ Q, quadratureForSpace ext t (.tp (orders.map fun n => ⟨1, n⟩)) (.tp (orders.map fun _ => 1)) = .ok Q) ↔
      ∀ n ∈ orders, ∀ m ∈ orders, n ≤ 2 * m + 1 := by
  obtain ⟨q, e, hqe, hok, hbad⟩ := C36_tp_partial ext hext t ht (.tp (orders.map fun n => ⟨1, n⟩))
    (.tp (orders.map fun _ => 1)) rfl rfl (by simp [Shape.flatBases, Space.flatBases, Function.comp_def]) (by
      simp [Space.spatialDim, Space.flatBases, Function.comp_def, hne])
  have he : ∀ m : Nat, e ⟨1, m⟩ = .num (2 * m + 1) := by
    intro m
    obtain ⟨q', e', g1, g2, -, -, -, -, g7, -⟩ := pn_facts ext hext t ht ⟨1, m⟩
    obtain ⟨k1, k2⟩ := hqe ⟨1, m⟩
    have : q' = q ⟨1, m⟩ := Except.ok.inj (g1.symm.trans k1)
    subst this
    rw [getExactTo, g2] at k2
    obtain rfl := Except.ok.inj k2
    exact g7 rfl
  have hiff : (∀ s ∈ (Space.tp (orders.map fun n => ⟨1, n⟩)).flatBases,
      ∀ s' ∈ (Space.tp (orders.map fun n => ⟨1, n⟩)).flatBases,
        exactValue (.num (s.order : ℚ)) ≤ exactValue (e s')) ↔ ∀ n ∈ orders, ∀ m ∈ orders, n ≤ 2 * m + 1 := by
    simp only [Space.flatBases, List.mem_map]
    constructor
    · intro h n hn m hm
      have := h ⟨1, n⟩ ⟨n, hn, rfl⟩ ⟨1, m⟩ ⟨m, hm, rfl⟩
      rw [he] at this
      simp only [exactValue, WithTop.coe_le_coe] at this
      exact_mod_cast this
    · rintro h _ ⟨n, hn, rfl⟩ _ ⟨m, hm, rfl⟩
      rw [he]
      simp only [exactValue, WithTop.coe_le_coe]
      exact_mod_cast h n hn m hm
  rw [← hiff]
  constructor
  · rintro ⟨Q, hQ⟩
    by_contra h
    rw [hbad h] at hQ
    simp at hQ
  · intro h
    obtain ⟨Q, hQ, -⟩ := hok h
    exact ⟨Q, hQ⟩

/-- Orders 1 and 10 on the square: no rule is returned. -/
theorem C36_mixed_orders_rejected (ext : Ext) (hext : ext.EighOk) (t : XgTables) (ht : XgOk t) :
    ¬ ∃ Q, quadratureForSpace ext t (.tp [⟨1, 1⟩, ⟨1, 10⟩]) (.tp [1, 1]) = .ok Q := by
  intro h
  have := (C36_segments ext hext t ht [1, 10] (by simp)).1 h 10 (by simp) 1 (by simp)
  omega

/-- Products of points only: the rule has the single node. -/
theorem C36_tp_zero (ext : Ext) (t : XgTables) (sp : Space) (sh : Shape) (h1 : sp.isTP = true)
    (h2 : sh.isTP = true) (h3 : sp.spatialDim = 0) (h4 : sh.dim = 0) :
    ∃ Q, quadratureForSpace ext t sp sh = .ok Q ∧ ∀ F, Q.call F = F [] := by
  refine ⟨zeroDimensional, ?_, fun F => by simp [call, nnodes, zeroDimensional, node]⟩
  have : quadratureForSpace ext t sp sh = quadratureForTp ext t sp sh := by
    cases sp <;> simp [Space.isTP] at h1 <;> rfl
  have h5 : sp.spatialDim = sh.dim := by rw [h3, h4]
  rw [this]
  have h6 : assertExactAll zeroDimensional sp.flatBases = .ok zeroDimensional := by
    rw [assertExactAll_eq _ .posInf rfl trivial, if_pos]
    intro s _
    exact le_top
  cases sh <;> simp [Shape.isTP] at h2 <;>
    simp only [quadratureForTp, ne_eq, h5, not_true_eq_false, if_false, h4, if_true, h6]

/-- Instances: the tables may be empty (every call in two and more dimensions falls back to Grundmann-Möller); a
prism with equal orders. -/
example : XgOk ⟨fun _ => none, fun _ => none⟩ := ⟨by simp, by simp⟩

example (ext : Ext) (hext : ext.EighOk) (t : XgTables) (ht : XgOk t) :
    ∃ Q, quadratureForSpace ext t (.tp [⟨2, 4⟩, ⟨1, 4⟩]) (.tp [2, 1]) = .ok Q ∧ Q.dim = 3 := by
  obtain ⟨Q, h1, h2, -⟩ := C36_equal_orders ext hext t ht (.tp [⟨2, 4⟩, ⟨1, 4⟩]) (.tp [2, 1]) rfl rfl rfl
    (by decide) 4 (by simp [Space.flatBases])
  exact ⟨Q, h1, h2⟩

end Modepy

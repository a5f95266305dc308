import Mathlib.Topology.ContinuousMap.StoneWeierstrass
import Mathlib.MeasureTheory.Integral.Pi
import Verif.Props.Convergence
import Verif.Proofs.Grid
import Verif.Proofs.TableRules

/-!
# Property C84 (continued): tensor product rules with positive weights converge for every continuous integrand
-/

namespace Modepy
open Spec MeasureTheory Quadrature NdArray

/-- The integrand is a continuous function on the cube. -/
def Spec.ContinuousCube (d : Nat) (f : List ℝ → ℝ) : Prop := ContinuousOn (fun x : Fin d → ℝ => f (List.ofFn x)) (cubeSet d)

/-- The value of a polynomial in `d` variables at a list of coordinates. -/
noncomputable def Spec.mvValue {d : Nat} (p : MvPolynomial (Fin d) ℝ) (x : List ℝ) : ℝ :=
  MvPolynomial.eval (fun i : Fin d => x.getD i 0) p

/-- The error of the functional `Q` on a continuous function is at most twice the volume times the distance of the function to
the polynomials of total degree at most `D`. -/
def Spec.NearBestCube (d D : Nat) (Q : (List ℝ → ℝ) → ℝ) : Prop :=
  ∀ f, ContinuousCube d f → ∀ p : MvPolynomial (Fin d) ℝ, p.totalDegree ≤ D →
    ∀ ε, (∀ x ∈ cubeSet d, |MvPolynomial.eval x p - f (List.ofFn x)| ≤ ε) → |Q f - cubeIntegral d f| ≤ 2 * 2 ^ d * ε

/-- The rules `Q N` exist for large `N` and their values for each continuous function on the cube tend to its integral. -/
def Spec.ConvergesCube (d : Nat) (Q : Nat → Py Quadrature) : Prop :=
  ∀ f, ContinuousCube d f → ∀ ε > 0, ∃ N₀, ∀ N ≥ N₀, ∃ q, Q N = .ok q ∧ |q.call f - cubeIntegral d f| < ε

theorem cubeSet_eq_pi (n : Nat) : cubeSet n = Set.univ.pi fun _ : Fin n => Set.Icc (-1 : ℝ) 1 := by
  ext x
  simp only [cubeSet, Set.mem_ofPred_eq, Set.mem_pi, Set.mem_univ, true_implies, Set.mem_Icc]

theorem compact_cube (n : Nat) : IsCompact (cubeSet n) := by
  rw [cubeSet_eq_pi]
  exact isCompact_univ_pi fun _ => isCompact_Icc

/-- Polynomials are dense in the continuous functions on the cube. -/
theorem exists_mvPolynomial_near (d : Nat) (f : (Fin d → ℝ) → ℝ) (hf : ContinuousOn f (cubeSet d)) (ε : ℝ) (hε : 0 < ε) :
    ∃ p : MvPolynomial (Fin d) ℝ, ∀ x ∈ cubeSet d, |MvPolynomial.eval x p - f x| < ε := by
  have : CompactSpace (cubeSet d) := isCompact_iff_compactSpace.1 (compact_cube d)
  let c : Fin d → C(cubeSet d, ℝ) := fun i => ⟨fun x => x.1 i, (continuous_apply i).comp continuous_subtype_val⟩
  let φ : MvPolynomial (Fin d) ℝ →ₐ[ℝ] C(cubeSet d, ℝ) := MvPolynomial.aeval c
  have hφ : ∀ p x, φ p x = MvPolynomial.eval x.1 p := by
    intro p x
    have := congrArg (fun h : MvPolynomial (Fin d) ℝ →ₐ[ℝ] ℝ => h p)
      (MvPolynomial.comp_aeval (R := ℝ) c (ContinuousMap.evalAlgHom ℝ ℝ x))
    simp only [AlgHom.comp_apply, ContinuousMap.evalAlgHom_apply] at this
    rw [this, ← MvPolynomial.coe_aeval_eq_eval]
    rfl
  have hsep : φ.range.SeparatesPoints := by
    intro x y hxy
    have : ∃ i, x.1 i ≠ y.1 i := by
      by_contra h
      push Not at h
      exact hxy (Subtype.ext (funext h))
    obtain ⟨i, hi⟩ := this
    refine ⟨c i, ⟨c i, ⟨MvPolynomial.X i, ?_⟩, rfl⟩, hi⟩
    exact MvPolynomial.aeval_X c i
  obtain ⟨⟨g, ⟨p, rfl⟩⟩, hg⟩ := ContinuousMap.exists_mem_subalgebra_near_continuous_of_separatesPoints φ.range hsep
    (fun x : cubeSet d => f x.1) (continuousOn_iff_continuous_domRestrict.1 hf) ε hε
  refine ⟨p, fun x hx => ?_⟩
  have := hg ⟨x, hx⟩
  rw [Real.norm_eq_abs] at this
  change |φ p ⟨x, hx⟩ - f x| < ε at this
  rwa [hφ] at this

theorem volume_cube (d : Nat) : ∫ _ in cubeSet d, (1 : ℝ) = 2 ^ d := by
  have h : ∫ x in cubeSet d, ∏ _i : Fin d, (1 : ℝ) = ∏ _i : Fin d, ∫ _ in Set.Icc (-1 : ℝ) 1, (1 : ℝ) := by
    rw [cubeSet_eq_pi, volume_pi, Measure.restrict_pi_pi]
    exact integral_fintype_prod_eq_prod (fun (_ : Fin d) (_ : ℝ) => (1 : ℝ))
  rw [Finset.prod_const_one] at h
  rw [h]
  simp
  norm_num

theorem multi_near (d D m : Nat) (w : Nat → ℝ) (x : Nat → List ℝ) (hw : ∀ k < m, 0 ≤ w k)
    (hx : ∀ k < m, (x k).length = d ∧ ∀ t ∈ x k, -1 ≤ t ∧ t ≤ 1)
    (hex : ∀ a : List Nat, a.length = d → a.sum ≤ D →
      ((List.range m).map fun k => w k * power a (x k)).sum = cubeIntegral d (power a)) :
    NearBestCube d D fun f => ((List.range m).map fun k => w k * f (x k)).sum := by
  intro f hf p hp ε hε
  simp only [map_range_sum] at hex ⊢
  have hpow : ∀ (e : Fin d →₀ Nat) (y : Fin d → ℝ), power (List.ofFn e) (List.ofFn y) = ∏ i, y i ^ e i := by
    intro e y
    rw [power, ← List.prod_ofFn]
    congr 1
    apply List.ext_getElem <;> simp
  have hofx : ∀ k < m, ∃ y ∈ cubeSet d, x k = List.ofFn y := by
    intro k hk
    obtain ⟨h1, h2⟩ := hx k hk
    refine ⟨fun i => (x k)[i]'(by omega), fun i => h2 _ (List.getElem_mem _), ?_⟩
    apply List.ext_getElem
    · simp [h1]
    · intro i h3 h4
      simp
  have hint : ∀ g : (Fin d → ℝ) → ℝ, ContinuousOn g (cubeSet d) → IntegrableOn g (cubeSet d) := fun g hg =>
    hg.integrableOn_compact (compact_cube d)
  -- exactness for polynomials
  have hpoly : ∀ p : MvPolynomial (Fin d) ℝ, p.totalDegree ≤ D →
      ∑ k ∈ Finset.range m, w k * mvValue p (x k) = ∫ y in cubeSet d, MvPolynomial.eval y p := by
    intro p hp
    have e1 : ∀ y : Fin d → ℝ, MvPolynomial.eval y p = ∑ e ∈ p.support, p.coeff e * power (List.ofFn e) (List.ofFn y) := by
      intro y
      rw [MvPolynomial.eval_eq']
      simp only [hpow]
    have e2 : ∀ k ∈ Finset.range m, w k * mvValue p (x k) =
        ∑ e ∈ p.support, p.coeff e * (w k * power (List.ofFn e) (x k)) := by
      intro k hk
      obtain ⟨y, -, hy⟩ := hofx k (Finset.mem_range.1 hk)
      rw [hy, mvValue]
      have : (fun i : Fin d => (List.ofFn y).getD i 0) = y := by
        funext i
        simp
      rw [this, e1, Finset.mul_sum]
      refine Finset.sum_congr rfl fun e _ => ?_
      ring
    rw [Finset.sum_congr rfl e2, Finset.sum_comm]
    simp only [e1]
    rw [integral_finsetSum _ (fun e _ => (hint _ (by
      simp only [hpow]
      fun_prop)))]
    refine Finset.sum_congr rfl fun e he => ?_
    rw [← Finset.mul_sum, integral_const_mul]
    congr 1
    refine hex (List.ofFn e) (by simp) ?_
    rw [List.sum_ofFn]
    refine le_trans ?_ hp
    have := MvPolynomial.le_totalDegree he
    rwa [Finsupp.sum_fintype _ _ (fun _ => rfl)] at this
  have h1 := hpoly 1 (by simp)
  simp only [mvValue, map_one, mul_one] at h1
  rw [volume_cube] at h1
  have h2 := hpoly p hp
  have hfi := hint _ hf
  have hpi := hint (fun y => MvPolynomial.eval y p) (MvPolynomial.continuous_eval p).continuousOn
  have e : ∑ k ∈ Finset.range m, w k * f (x k) - cubeIntegral d f =
      (∑ k ∈ Finset.range m, w k * (f (x k) - mvValue p (x k))) +
        ∫ y in cubeSet d, (MvPolynomial.eval y p - f (List.ofFn y)) := by
    simp only [mul_sub, cubeIntegral]
    rw [Finset.sum_sub_distrib, integral_sub hpi hfi, h2]
    ring
  have b1 : |∑ k ∈ Finset.range m, w k * (f (x k) - mvValue p (x k))| ≤ 2 ^ d * ε := by
    rw [← h1, Finset.sum_mul]
    refine (Finset.abs_sum_le_sum_abs _ _).trans (Finset.sum_le_sum fun k hk => ?_)
    have hk := Finset.mem_range.1 hk
    obtain ⟨y, hy, hyx⟩ := hofx k hk
    have : mvValue p (x k) = MvPolynomial.eval y p := by
      rw [mvValue, hyx]
      congr 2
      funext i
      simp
    rw [abs_mul, abs_of_nonneg (hw k hk), abs_sub_comm, this, hyx]
    exact mul_le_mul_of_nonneg_left (hε y hy) (hw k hk)
  have b2 : |∫ y in cubeSet d, (MvPolynomial.eval y p - f (List.ofFn y))| ≤ 2 ^ d * ε := by
    have hfin : volume (cubeSet d) < ⊤ := (compact_cube d).measure_lt_top
    have := norm_setIntegral_le_of_norm_le_const (f := fun y => MvPolynomial.eval y p - f (List.ofFn y)) (C := ε) hfin
      (fun y hy => by rw [Real.norm_eq_abs]; exact hε y hy)
    have hv := volume_cube d
    rw [setIntegral_const, smul_eq_mul, mul_one] at hv
    rw [hv, Real.norm_eq_abs] at this
    linarith
  rw [e]
  calc _ ≤ _ := abs_add_le _ _
    _ ≤ 2 ^ d * ε + 2 ^ d * ε := add_le_add b1 b2
    _ = _ := by ring

theorem convergesCube_of_near (d : Nat) (Q : Nat → Py Quadrature) (D : Nat → Nat) (start : Nat)
    (hD : ∀ e, ∃ N₀, ∀ N ≥ N₀, e ≤ D N)
    (hQ : ∀ N ≥ start, ∃ q, Q N = .ok q ∧ NearBestCube d (D N) q.call) : ConvergesCube d Q := by
  intro f hf ε hε
  obtain ⟨p, hp⟩ := exists_mvPolynomial_near d _ hf (ε / (2 * 2 ^ d + 1)) (by positivity)
  obtain ⟨N₀, hN₀⟩ := hD p.totalDegree
  refine ⟨max start N₀, fun N hN => ?_⟩
  obtain ⟨q, hq, hnear⟩ := hQ N (le_of_max_le_left hN)
  refine ⟨q, hq, lt_of_le_of_lt (hnear f hf p (hN₀ N (le_of_max_le_right hN)) _ fun t ht => (hp t ht).le) ?_⟩
  rw [mul_div_assoc', div_lt_iff₀ (by positivity)]
  have : (0 : ℝ) < 2 ^ d := by positivity
  nlinarith

/-- The integral over one coordinate. -/
noncomputable def lineInt (F : List ℝ → ℝ) : ℝ := ∫ t in (-1 : ℝ)..1, F [t]

theorem lineInt_functional : IsFunctional 1 lineInt where
  congr F G h := by
    simp only [lineInt]
    congr 1
    funext t
    exact h [t] rfl
  smul c F := by
    simp only [lineInt]
    rw [intervalIntegral.integral_mul_const]

theorem iterated_lineInt (a : List Nat) (c : ℝ) :
    iterated (List.replicate a.length lineInt) (fun y => c * power a y) = c * (a.map fun k => ∫ t in (-1 : ℝ)..1, t ^ k).prod := by
  induction a generalizing c with
  | nil => simp [iterated, power]
  | cons k a ih =>
    rw [List.length_cons, List.replicate_succ, iterated]
    have : ∀ t : ℝ, iterated (List.replicate a.length lineInt) (fun y => c * power (k :: a) ([t] ++ y)) =
        c * t ^ k * (a.map fun k => ∫ t in (-1 : ℝ)..1, t ^ k).prod := by
      intro t
      rw [← ih (c * t ^ k)]
      congr 1
      funext y
      simp [power, mul_assoc]
    rw [lineInt]
    simp only [this]
    rw [intervalIntegral.integral_mul_const, intervalIntegral.integral_const_mul, List.map_cons, List.prod_cons]
    ring

theorem cubeIntegral_power (a : List Nat) : cubeIntegral a.length (power a) = (a.map fun k => ∫ t in (-1 : ℝ)..1, t ^ k).prod := by
  rw [cubeIntegral]
  have h : ∀ y : Fin a.length → ℝ, power a (List.ofFn y) = ∏ i, y i ^ a[i] := by
    intro y
    rw [power, ← List.prod_ofFn]
    congr 1
    apply List.ext_getElem <;> simp
  simp only [h]
  rw [cubeSet_eq_pi, volume_pi, Measure.restrict_pi_pi, integral_fintype_prod_eq_prod (fun (i : Fin a.length) t => t ^ a[i]),
    ← List.prod_ofFn]
  congr 1
  apply List.ext_getElem
  · simp
  · intro i h1 h2
    simp only [List.getElem_ofFn, List.getElem_map]
    rw [integral_Icc_eq_integral_Ioc, ← intervalIntegral.integral_of_le (by norm_num)]
    rfl

/-- **C84 (tensor products).**  A tensor product of one-dimensional rules with positive weights, nodes in `[-1, 1]` and degree
`N` has error at most twice the volume times the distance of the integrand to polynomials of total degree `N`. -/
theorem C84_tensor (quads : List Quadrature) (N : Nat)
    (hq : ∀ q ∈ quads, WellShaped q ∧ q.dim = 1 ∧ (∀ k < q.nnodes, 0 < q.weights.get [k]) ∧
      (∀ k < q.nnodes, ∃ t, q.node k = [t] ∧ -1 ≤ t ∧ t ≤ 1) ∧ ExactOn N (-1) 1 q.call)
    (Q : Quadrature) (hQ : tensorProduct quads = .ok Q) : NearBestCube quads.length N Q.call := by
  have hdims : quads.map dim = List.replicate quads.length 1 :=
    List.eq_replicate_iff.2 ⟨by simp, by
      intro b hb
      obtain ⟨q, h, rfl⟩ := List.mem_map.1 hb
      exact (hq q h).2.1⟩
  have hz : (quads.map dim).sum = 0 → (quads.map nnodes).prod = 1 := by
    intro h
    rw [hdims] at h
    have : quads.length = 0 := by simpa using h
    rw [List.length_eq_zero_iff.1 this]
    rfl
  obtain ⟨e, he⟩ := minExact_of_ok quads Q hQ
  obtain ⟨Q', hQ', -, -, hws, -, hwt, hnode, -⟩ := C34_iterated quads (fun q h => (hq q h).1) hz e he
  rw [hQ] at hQ'
  obtain rfl := Except.ok.inj hQ'
  have hex := (C34_exact quads (fun q h => (hq q h).1) (List.replicate quads.length lineInt) (by
    rw [hdims, List.forall₂_iff_get]
    refine ⟨by simp, fun i h1 h2 => ?_⟩
    simp only [List.get_eq_getElem, List.getElem_replicate]
    exact lineInt_functional) (List.replicate quads.length N) (by simp) (by
      intro i hi
      simp only [List.getElem_replicate]
      obtain ⟨h1, h2, -, -, h5⟩ := hq quads[i] (List.getElem_mem hi)
      intro a ha hs
      rw [h2] at ha
      obtain ⟨k, rfl⟩ := List.length_eq_one_iff.1 ha
      have := h5 (Polynomial.X ^ k) (by simpa using hs)
      simp only [Polynomial.eval_pow, Polynomial.eval_X] at this
      rw [(call_isFunctional _ h1).congr (power [k]) (fun x => x.headD 0 ^ k) (fun x hx => by
        rw [h2] at hx
        obtain ⟨t, rfl⟩ := List.length_eq_one_iff.1 hx
        simp [power]), this, lineInt]
      simp [power]) Q hQ hz).2 N (by
        intro i hi
        simp)
  have hdsum : (quads.map dim).sum = quads.length := by rw [hdims]; simp
  rw [hdsum] at hex
  have hnn : Q.nnodes = (quads.map nnodes).prod := by rw [Quadrature.nnodes, hws]; rfl
  have hdig : ∀ k < Q.nnodes, ∀ i < quads.length, digit (quads.map nnodes) k i < (quads.getD i zeroDimensional).nnodes := by
    intro k hk i hi
    have hpos : 0 < (quads.map nnodes).prod := by omega
    have e1 : (quads.map nnodes).getD i 1 = (quads.getD i zeroDimensional).nnodes := by
      simp [List.getD_eq_getElem?_getD, hi]
    rw [digit, e1]
    apply Nat.mod_lt
    rcases Nat.eq_zero_or_pos (quads.getD i zeroDimensional).nnodes with h | h
    · exfalso
      have hmem : (0 : Nat) ∈ quads.map nnodes := by
        rw [List.mem_map]
        refine ⟨quads[i], List.getElem_mem hi, ?_⟩
        rw [← h]
        simp [List.getD_eq_getElem?_getD, hi]
      exact hpos.ne' (List.prod_eq_zero hmem)
    · exact h
  have hget : ∀ i, i < quads.length → quads.getD i zeroDimensional ∈ quads := by
    intro i hi
    rw [List.getD_eq_getElem?_getD, List.getElem?_eq_getElem hi]
    exact List.getElem_mem hi
  refine multi_near quads.length N Q.nnodes (fun k => Q.weights.get [k]) Q.node ?_ ?_ ?_
  · intro k hk
    rw [hwt k hk]
    apply List.prod_nonneg
    intro v hv
    obtain ⟨i, hi, rfl⟩ := List.mem_map.1 hv
    have hi := List.mem_range.1 hi
    exact ((hq _ (hget i hi)).2.2.1 _ (hdig k hk i hi)).le
  · intro k hk
    rw [hnode k hk]
    have hone : ∀ i < quads.length, ∃ t, (quads.getD i zeroDimensional).node (digit (quads.map nnodes) k i) = [t] ∧
        -1 ≤ t ∧ t ≤ 1 := fun i hi => (hq _ (hget i hi)).2.2.2.1 _ (hdig k hk i hi)
    constructor
    · rw [List.length_flatten, List.map_map, List.map_congr_left (g := fun _ => 1)]
      · simp
      · intro i hi
        obtain ⟨t, ht, -⟩ := hone i (List.mem_range.1 hi)
        simp only [Function.comp, ht, List.length_singleton]
    · intro t ht
      obtain ⟨l, hl, htl⟩ := List.mem_flatten.1 ht
      obtain ⟨i, hi, rfl⟩ := List.mem_map.1 hl
      obtain ⟨u, hu, h1, h2⟩ := hone i (List.mem_range.1 hi)
      rw [hu, List.mem_singleton] at htl
      rw [htl]
      exact ⟨h1, h2⟩
  · intro a ha hs
    have := hex a ha hs
    rw [Quadrature.call] at this
    rw [this, ← ha, cubeIntegral_power]
    have h2 := iterated_lineInt a 1
    simp only [one_mul] at h2
    exact h2

/-- **C84 (tensor product Gauss and Gauss-Lobatto rules).**  In every dimension the rules converge for every continuous
integrand on the cube, with the error bound above for degrees `2N + 1` and `2N - 1`. -/
theorem C84_cube (ext : Ext) (hext : ext.EighOk) (dims : Nat) :
    (∀ N, ∃ Q, legendreGaussTensorProduct ext N dims .builtin = .ok Q ∧ NearBestCube dims (2 * N + 1) Q.call) ∧
    (∀ N, 1 ≤ N → ∃ Q, legendreGaussLobattoTensorProduct ext N dims .builtin = .ok Q ∧ NearBestCube dims (2 * N - 1) Q.call) ∧
    ConvergesCube dims (fun N => legendreGaussTensorProduct ext N dims .builtin) ∧
    ConvergesCube dims fun N => legendreGaussLobattoTensorProduct ext N dims .builtin := by
  have key : ∀ (q : Quadrature) (D m : Nat) (e : ℚ), q.exactTo = some (.num e) → q.nodes.shape = [1, m] → q.weights.shape = [m] →
      (∀ k < m, 0 < q.weights.get [k]) → (∀ k < m, ∃ t, q.node k = [t] ∧ -1 ≤ t ∧ t ≤ 1) → ExactOn D (-1) 1 q.call →
      ∃ Q, tensorProduct (List.replicate dims q) = .ok Q ∧ NearBestCube dims D Q.call := by
    intro q D m e hqe hsn hsw hw hx hex
    have hws : WellShaped q := ⟨m, hsw, Or.inr ⟨1, hsn⟩⟩
    have hdim : q.dim = 1 := by simp [dim, hsn]
    have hnn : q.nnodes = m := by rw [Quadrature.nnodes, hsw]; rfl
    obtain ⟨r, hr⟩ := minExact_replicate dims e
    obtain ⟨Q, hQ, -⟩ := C34_iterated (List.replicate dims q) (fun q' h => by rw [List.eq_of_mem_replicate h]; exact hws)
      (by
        intro h
        rw [List.map_replicate, hdim] at h
        have : dims = 0 := by simpa using h
        rw [this]
        rfl) r (by rw [List.map_replicate, hqe]; exact hr)
    refine ⟨Q, hQ, ?_⟩
    have := C84_tensor (List.replicate dims q) D (fun q' h => by
      rw [List.eq_of_mem_replicate h]
      exact ⟨hws, hdim, fun k hk => hw k (by omega), fun k hk => hx k (by omega), hex⟩) Q hQ
    rwa [List.length_replicate] at this
  have hget : ∀ (q : Quadrature) (v : PyVal), q.getExactTo = .ok v → q.exactTo = some v := by
    intro q v h
    rw [getExactTo] at h
    cases he : q.exactTo with
    | none => rw [he] at h; simp at h
    | some e => rw [he] at h; simpa using h
  have h1 : ∀ N, ∃ Q, legendreGaussTensorProduct ext N dims .builtin = .ok Q ∧ NearBestCube dims (2 * N + 1) Q.call := by
    intro N
    obtain ⟨q, hq, he, hex, hsn, hsw, hw, hx, -⟩ := C27_exact ext hext 0 0 gaussParams_zero N true
    obtain ⟨Q, hQ, hn⟩ := key q (2 * N + 1) (N + 1) _ (hget q _ he) hsn hsw (fun k hk => hw k (by omega)) (fun k hk => by
      obtain ⟨t, h1, h2, h3⟩ := hx k (by omega)
      exact ⟨t, h1, h2.le, h3.le⟩) (by
        intro p hp
        have := hex p hp
        simpa using this)
    exact ⟨Q, by rw [legendreGaussTensorProduct, legendreGaussQuadrature, hq]; exact hQ, hn⟩
  have h2 : ∀ N, 1 ≤ N → ∃ Q, legendreGaussLobattoTensorProduct ext N dims .builtin = .ok Q ∧
      NearBestCube dims (2 * N - 1) Q.call := by
    intro N hN
    obtain ⟨q, hq, he, hex, hsn, hsw, hw, hl, hr, hmono⟩ := C29_legendre ext hext N hN true
    obtain ⟨Q, hQ, hn⟩ := key q (2 * N - 1) (N + 1) _ (hget q _ he) hsn hsw (fun k hk => hw k (by omega)) (fun k hk => by
      have ht : q.node k = [q.nodes.get [0, k]] := by rw [Quadrature.node, hsn]; rfl
      refine ⟨_, ht, ?_, ?_⟩
      · rcases Nat.eq_zero_or_pos k with rfl | h
        · rw [hl] at ht
          injection ht with ht
          exact ht.le
        · exact (hmono 0 k (-1) _ h (by omega) hl ht).le
      · rcases Nat.lt_or_ge k N with h | h
        · exact (hmono k N _ 1 h le_rfl ht hr).le
        · obtain rfl : k = N := by omega
          rw [hr] at ht
          injection ht with ht
          exact ht.ge) hex
    exact ⟨Q, by rw [legendreGaussLobattoTensorProduct, hq]; exact hQ, hn⟩
  exact ⟨h1, h2, convergesCube_of_near dims _ (fun N => 2 * N + 1) 0 (fun e => ⟨e, fun N hN => by omega⟩) fun N _ => h1 N,
    convergesCube_of_near dims _ (fun N => 2 * N - 1) 1 (fun e => ⟨e + 1, fun N hN => by omega⟩) h2⟩

/-- The largest coordinate is continuous on the square and no polynomial. -/
example : (∃ ext : Ext, ext.EighOk) ∧ ContinuousCube 2 fun x => max (x.getD 0 0) (x.getD 1 0) := by
  refine ⟨exists_eighOk, ?_⟩
  simp only [ContinuousCube, List.ofFn_succ, List.ofFn_zero, List.getD_cons_zero, List.getD_cons_succ]
  fun_prop

end Modepy

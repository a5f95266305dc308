import Mathlib.Topology.ContinuousMap.Weierstrass
import Verif.Props.Gauss
import Verif.Props.Chebyshev
import Verif.Props.Lobatto
import Verif.Props.ClenshawCurtis
import Verif.Props.Fejer
import Verif.Props.KronrodRule
import Verif.Props.QuadForSpace

/-!
# Property C84: the rules with positive weights converge for every continuous integrand
-/

namespace Modepy
open Polynomial Spec MeasureTheory

/-- The weight function `(1-t)^α (1+t)^β`. -/
noncomputable def Spec.weightFn (α β t : ℝ) : ℝ := (1 - t) ^ α * (1 + t) ^ β

/-- The rules `Q N`, `N ≥ start`, exist and their values for each continuous function on `[-1, 1]` tend to its integral against
the weight `ρ`. -/
def Spec.Converges (Q : Nat → Py Quadrature) (ρ : ℝ → ℝ) : Prop :=
  ∀ f : ℝ → ℝ, ContinuousOn f (Set.Icc (-1) 1) → ∀ ε > 0, ∃ N₀, ∀ N ≥ N₀, ∃ q, Q N = .ok q ∧
    |q.call (fun x => f (x.headD 0)) - ∫ t in (-1)..1, f t * ρ t| < ε

/-- The error of the functional `Q` on a continuous function is at most twice the mass times the distance of the function to
polynomials of degree at most `D`. -/
def Spec.NearBest (D : Nat) (ρ : ℝ → ℝ) (Q : (List ℝ → ℝ) → ℝ) : Prop :=
  ∀ f : ℝ → ℝ, ContinuousOn f (Set.Icc (-1) 1) → ∀ p : ℝ[X], p.natDegree ≤ D → ∀ ε, (∀ t ∈ Set.Icc (-1 : ℝ) 1, |p.eval t - f t| ≤ ε) →
    |Q (fun x => f (x.headD 0)) - ∫ t in (-1)..1, f t * ρ t| ≤ 2 * (∫ t in (-1)..1, ρ t) * ε

theorem weighted_near (ρ : ℝ → ℝ) (hρ : IntervalIntegrable ρ volume (-1) 1) (hρ0 : ∀ t ∈ Set.Icc (-1 : ℝ) 1, 0 ≤ ρ t) (D m : Nat)
    (w x : Nat → ℝ) (hw : ∀ k < m, 0 ≤ w k) (hx : ∀ k < m, x k ∈ Set.Icc (-1 : ℝ) 1)
    (hex : ∀ p : ℝ[X], p.natDegree ≤ D → ((List.range m).map fun k => w k * p.eval (x k)).sum = ∫ t in (-1)..1, p.eval t * ρ t)
    (f : ℝ → ℝ) (hf : ContinuousOn f (Set.Icc (-1) 1)) (p : ℝ[X]) (hp : p.natDegree ≤ D) (ε : ℝ)
    (hε : ∀ t ∈ Set.Icc (-1 : ℝ) 1, |p.eval t - f t| ≤ ε) :
    |((List.range m).map fun k => w k * f (x k)).sum - ∫ t in (-1)..1, f t * ρ t| ≤ 2 * (∫ t in (-1)..1, ρ t) * ε := by
  simp only [map_range_sum] at hex ⊢
  have h1 := hex 1 (by simp)
  simp only [eval_one, mul_one, one_mul] at h1
  have h2 := hex p hp
  have hif : IntervalIntegrable (fun t => f t * ρ t) volume (-1) 1 :=
    hρ.continuousOn_mul (by rw [Set.uIcc_of_le (by norm_num)]; exact hf)
  have hip : IntervalIntegrable (fun t => p.eval t * ρ t) volume (-1) 1 :=
    hρ.continuousOn_mul p.continuous.continuousOn
  have e : ∑ k ∈ Finset.range m, w k * f (x k) - ∫ t in (-1)..1, f t * ρ t =
      (∑ k ∈ Finset.range m, w k * (f (x k) - p.eval (x k))) + ∫ t in (-1)..1, (p.eval t - f t) * ρ t := by
    simp only [mul_sub, sub_mul]
    rw [Finset.sum_sub_distrib, intervalIntegral.integral_sub hip hif, h2]
    ring
  have b1 : |∑ k ∈ Finset.range m, w k * (f (x k) - p.eval (x k))| ≤ (∫ t in (-1)..1, ρ t) * ε := by
    rw [← h1, Finset.sum_mul]
    refine (Finset.abs_sum_le_sum_abs _ _).trans (Finset.sum_le_sum fun k hk => ?_)
    have hk := Finset.mem_range.1 hk
    rw [abs_mul, abs_of_nonneg (hw k hk), abs_sub_comm]
    exact mul_le_mul_of_nonneg_left (hε _ (hx k hk)) (hw k hk)
  have b2 : |∫ t in (-1)..1, (p.eval t - f t) * ρ t| ≤ (∫ t in (-1)..1, ρ t) * ε := by
    have hle : (-1 : ℝ) ≤ 1 := by norm_num
    have := intervalIntegral.norm_integral_le_of_norm_le (f := fun t => (p.eval t - f t) * ρ t) (g := fun t => ρ t * ε) hle
      (Filter.Eventually.of_forall fun t ht => by
        have ht : t ∈ Set.Icc (-1 : ℝ) 1 := ⟨ht.1.le, ht.2⟩
        rw [norm_mul, Real.norm_eq_abs, Real.norm_eq_abs, abs_of_nonneg (hρ0 t ht), mul_comm]
        exact mul_le_mul_of_nonneg_left (hε t ht) (hρ0 t ht)) (hρ.mul_const ε)
    rw [intervalIntegral.integral_mul_const] at this
    exact this
  rw [e]
  calc _ ≤ _ := abs_add_le _ _
    _ ≤ (∫ t in (-1)..1, ρ t) * ε + (∫ t in (-1)..1, ρ t) * ε := add_le_add b1 b2
    _ = _ := by ring

/-- A quadrature with positive weights and nodes in `[-1, 1]` is near best. -/
theorem quad_near (ρ : ℝ → ℝ) (hρ : IntervalIntegrable ρ volume (-1) 1) (hρ0 : ∀ t ∈ Set.Icc (-1 : ℝ) 1, 0 ≤ ρ t) (D : Nat)
    (q : Quadrature) (hw : ∀ k < q.nnodes, 0 < q.weights.get [k]) (hx : ∀ k < q.nnodes, ∃ t, q.node k = [t] ∧ -1 ≤ t ∧ t ≤ 1)
    (hex : ∀ p : ℝ[X], p.natDegree ≤ D → q.call (fun x => p.eval (x.headD 0)) = ∫ t in (-1)..1, p.eval t * ρ t) :
    NearBest D ρ q.call := by
  intro f hf p hp ε hε
  refine weighted_near ρ hρ hρ0 D q.nnodes (fun k => q.weights.get [k]) (fun k => (q.node k).headD 0)
    (fun k hk => (hw k hk).le) (fun k hk => ?_) hex f hf p hp ε hε
  obtain ⟨t, ht, h1, h2⟩ := hx k hk
  simp only [ht, List.headD_cons]
  exact ⟨h1, h2⟩

/-- Near best rules whose degree tends to infinity converge. -/
theorem converges_of_near (ρ : ℝ → ℝ) (hρ0 : ∀ t ∈ Set.Icc (-1 : ℝ) 1, 0 ≤ ρ t) (Q : Nat → Py Quadrature) (D : Nat → Nat) (start : Nat)
    (hD : ∀ d, ∃ N₀, ∀ N ≥ N₀, d ≤ D N)
    (hQ : ∀ N ≥ start, ∃ q, Q N = .ok q ∧ NearBest (D N) ρ q.call) : Converges Q ρ := by
  intro f hf ε hε
  have hm : 0 ≤ ∫ t in (-1 : ℝ)..1, ρ t := intervalIntegral.integral_nonneg (by norm_num) hρ0
  set M := ∫ t in (-1 : ℝ)..1, ρ t
  obtain ⟨p, hp⟩ := exists_polynomial_near_of_continuousOn (-1) 1 f hf (ε / (2 * M + 1)) (by positivity)
  obtain ⟨N₀, hN₀⟩ := hD p.natDegree
  refine ⟨max start N₀, fun N hN => ?_⟩
  obtain ⟨q, hq, hnear⟩ := hQ N (le_of_max_le_left hN)
  refine ⟨q, hq, lt_of_le_of_lt (hnear f hf p (hN₀ N (le_of_max_le_right hN)) _ fun t ht => (hp t ht).le) ?_⟩
  rw [mul_div_assoc', div_lt_iff₀ (by positivity)]
  nlinarith

theorem weightFn_facts {α β : ℝ} (hα : -1 < α) (hβ : -1 < β) :
    IntervalIntegrable (weightFn α β) volume (-1) 1 ∧ ∀ t ∈ Set.Icc (-1 : ℝ) 1, 0 ≤ weightFn α β t := by
  refine ⟨jacobiWeight_integrable hα hβ, fun t ht => ?_⟩
  exact mul_nonneg (Real.rpow_nonneg (by linarith [ht.2]) _) (Real.rpow_nonneg (by linarith [ht.1]) _)

theorem weightFn_zero : weightFn 0 0 = fun _ => 1 := by
  funext t
  simp [weightFn]

/-- **C84 (Gauss-Jacobi).**  The error of the Gauss-Jacobi rule of order `N` is at most twice the mass of the weight times the
distance of the integrand to the polynomials of degree `2N + 1`; so the rules converge for every continuous integrand. -/
theorem C84_gauss (ext : Ext) (hext : ext.EighOk) (α β : ℝ) (h : GaussParams α β) (fd : Bool) :
    (∀ N, ∃ q, jacobiGaussQuadrature ext α β N .builtin fd = .ok q ∧ NearBest (2 * N + 1) (weightFn α β) q.call) ∧
    Converges (fun N => jacobiGaussQuadrature ext α β N .builtin fd) (weightFn α β) := by
  obtain ⟨hi, h0⟩ := weightFn_facts h.1 h.2.1
  have hn : ∀ N, ∃ q, jacobiGaussQuadrature ext α β N .builtin fd = .ok q ∧ NearBest (2 * N + 1) (weightFn α β) q.call := by
    intro N
    obtain ⟨q, hq, -, hex, -, hs, hw, hx, -⟩ := C27_exact ext hext α β h N fd
    have hnn : q.nnodes = N + 1 := by rw [Quadrature.nnodes, hs]; rfl
    refine ⟨q, hq, quad_near _ hi h0 _ q (fun k hk => hw k (by omega)) (fun k hk => ?_) hex⟩
    obtain ⟨t, h1, h2, h3⟩ := hx k (by omega)
    exact ⟨t, h1, h2.le, h3.le⟩
  exact ⟨hn, converges_of_near _ h0 _ (fun N => 2 * N + 1) 0 (fun d => ⟨d, fun N hN => by omega⟩) fun N _ => hn N⟩

/-- **C84 (Chebyshev).**  The same for the closed form of the Chebyshev weight of the first kind. -/
theorem C84_chebyshev (ext : Ext) (fd : Bool) :
    (∀ N, ∃ q, chebyshevGaussQuadrature ext N 1 .builtin fd = .ok q ∧ NearBest (2 * N + 1) (weightFn (-0.5) (-0.5)) q.call) ∧
    Converges (fun N => chebyshevGaussQuadrature ext N 1 .builtin fd) (weightFn (-0.5) (-0.5)) := by
  obtain ⟨hi, h0⟩ := weightFn_facts (α := -0.5) (β := -0.5) (by norm_num) (by norm_num)
  have hn : ∀ N, ∃ q, chebyshevGaussQuadrature ext N 1 .builtin fd = .ok q ∧
      NearBest (2 * N + 1) (weightFn (-0.5) (-0.5)) q.call := by
    intro N
    obtain ⟨q, -, hq, -, hex, -, hs, hw, hx, -⟩ := C28_exact ext N fd
    have hnn : q.nnodes = N + 1 := by rw [Quadrature.nnodes, hs]; rfl
    refine ⟨q, hq, quad_near _ hi h0 _ q (fun k hk => ?_) (fun k hk => ?_) hex⟩
    · rw [hw k (by omega)]
      have := Real.pi_pos
      positivity
    · obtain ⟨t, h1, -, h2, h3⟩ := hx k (by omega)
      exact ⟨t, h1, h2.le, h3.le⟩
  exact ⟨hn, converges_of_near _ h0 _ (fun N => 2 * N + 1) 0 (fun d => ⟨d, fun N hN => by omega⟩) fun N _ => hn N⟩

/-- **C84 (Gauss-Lobatto).**  The same for the Gauss-Lobatto rules with the Legendre weight, with degree `2N - 1`. -/
theorem C84_lobatto (ext : Ext) (hext : ext.EighOk) (fd : Bool) :
    (∀ N, 1 ≤ N → ∃ q, legendreGaussLobattoQuadrature ext N .builtin fd = .ok q ∧ NearBest (2 * N - 1) (fun _ => 1) q.call) ∧
    Converges (fun N => legendreGaussLobattoQuadrature ext N .builtin fd) fun _ => 1 := by
  have h0 : ∀ t ∈ Set.Icc (-1 : ℝ) 1, (0 : ℝ) ≤ (fun _ => (1 : ℝ)) t := fun _ _ => zero_le_one
  have hn : ∀ N, 1 ≤ N → ∃ q, legendreGaussLobattoQuadrature ext N .builtin fd = .ok q ∧
      NearBest (2 * N - 1) (fun _ => 1) q.call := by
    intro N hN
    obtain ⟨q, hq, -, hex, hsn, hs, hw, hl, hr, hmono⟩ := C29_legendre ext hext N hN fd
    have hnn : q.nnodes = N + 1 := by rw [Quadrature.nnodes, hs]; rfl
    refine ⟨q, hq, quad_near _ (by simp) h0 _ q (fun k hk => hw k (by omega)) (fun k hk => ?_) (by simpa using hex)⟩
    have hone : ∃ t, q.node k = [t] := by
      cases fd
      · exact ⟨q.nodes.get [k], by rw [Quadrature.node, hsn]; rfl⟩
      · exact ⟨q.nodes.get [0, k], by rw [Quadrature.node, hsn]; rfl⟩
    obtain ⟨t, ht⟩ := hone
    refine ⟨t, ht, ?_, ?_⟩
    · rcases Nat.eq_zero_or_pos k with rfl | h
      · rw [hl] at ht
        injection ht with ht
        exact ht.le
      · exact (hmono 0 k (-1) t h (by omega) hl ht).le
    · rcases Nat.lt_or_ge k N with h | h
      · exact (hmono k N t 1 h le_rfl ht hr).le
      · rw [show k = N by omega, hr] at ht
        injection ht with ht
        exact ht.ge
  exact ⟨hn, converges_of_near _ h0 _ (fun N => 2 * N - 1) 1 (fun d => ⟨d + 1, fun N hN => by omega⟩) hn⟩

/-- **C84 (Clenshaw-Curtis).**  The same for Clenshaw-Curtis rules, with degree `N`. -/
theorem C84_clenshaw_curtis (fd : Bool) :
    (∀ N, 1 ≤ N → ∃ q, clenshawCurtisQuadrature N fd = .ok q ∧ NearBest N (fun _ => 1) q.call) ∧
    Converges (fun N => clenshawCurtisQuadrature N fd) fun _ => 1 := by
  have h0 : ∀ t ∈ Set.Icc (-1 : ℝ) 1, (0 : ℝ) ≤ (fun _ => (1 : ℝ)) t := fun _ _ => zero_le_one
  have hn : ∀ N, 1 ≤ N → ∃ q, clenshawCurtisQuadrature N fd = .ok q ∧ NearBest N (fun _ => 1) q.call := by
    intro N hN
    obtain ⟨q, hq, -, hex, -, hs, hw, hx, -⟩ := C30_exact N hN fd
    have hnn : q.nnodes = N + 1 := by rw [Quadrature.nnodes, hs]; rfl
    exact ⟨q, hq, quad_near _ (by simp) h0 _ q (fun k hk => hw k (by omega)) (fun k hk => hx k (by omega))
      (by simpa [ExactOn] using hex)⟩
  exact ⟨hn, converges_of_near _ h0 _ (fun N => N) 1 (fun d => ⟨d, fun N hN => hN⟩) hn⟩

/-- **C84 (Fejér).**  The same for the Fejér rules of both kinds, with degrees `N - 1` and `N - 2`. -/
theorem C84_fejer (fd : Bool) :
    (∀ N, 1 ≤ N → ∃ q, fejerQuadrature N 1 fd = .ok q ∧ NearBest (N - 1) (fun _ => 1) q.call) ∧
    (∀ N, 2 ≤ N → ∃ q, fejerQuadrature N 2 fd = .ok q ∧ NearBest (N - 2) (fun _ => 1) q.call) ∧
    Converges (fun N => fejerQuadrature N 1 fd) (fun _ => 1) ∧ Converges (fun N => fejerQuadrature N 2 fd) fun _ => 1 := by
  have h0 : ∀ t ∈ Set.Icc (-1 : ℝ) 1, (0 : ℝ) ≤ (fun _ => (1 : ℝ)) t := fun _ _ => zero_le_one
  have hn1 : ∀ N, 1 ≤ N → ∃ q, fejerQuadrature N 1 fd = .ok q ∧ NearBest (N - 1) (fun _ => 1) q.call := by
    intro N hN
    obtain ⟨q, hq, hex, -, hs, hw, -, hx⟩ := C31_first N hN fd
    have hnn : q.nnodes = N := by rw [Quadrature.nnodes, hs]; rfl
    refine ⟨q, hq, quad_near _ (by simp) h0 _ q (fun k hk => hw k (by omega)) (fun k hk => ?_) (by simpa [ExactOn] using hex)⟩
    obtain ⟨t, h1, h2, h3, -⟩ := hx k (by omega)
    exact ⟨t, h1, h2.le, h3.le⟩
  have hn2 : ∀ N, 2 ≤ N → ∃ q, fejerQuadrature N 2 fd = .ok q ∧ NearBest (N - 2) (fun _ => 1) q.call := by
    intro N hN
    obtain ⟨q, hq, hex, -, hs, hw, -, hx⟩ := C31_second N hN fd
    have hnn : q.nnodes = N - 1 := by rw [Quadrature.nnodes, hs]; rfl
    refine ⟨q, hq, quad_near _ (by simp) h0 _ q (fun k hk => hw k (by omega)) (fun k hk => ?_) (by simpa [ExactOn] using hex)⟩
    obtain ⟨t, h1, h2, h3, -⟩ := hx k (by omega)
    exact ⟨t, h1, h2.le, h3.le⟩
  exact ⟨hn1, hn2, converges_of_near _ h0 _ (fun N => N - 1) 1 (fun d => ⟨d + 1, fun N hN => by omega⟩) hn1,
    converges_of_near _ h0 _ (fun N => N - 2) 2 (fun d => ⟨d + 2, fun N hN => by omega⟩) hn2⟩

/-- The absolute value is continuous but no polynomial; rules exist for the Legendre weight. -/
example : (∃ ext : Ext, ext.EighOk) ∧ GaussParams 0 0 ∧ ContinuousOn (fun t : ℝ => |t|) (Set.Icc (-1) 1) :=
  ⟨exists_eighOk, gaussParams_zero, continuous_abs.continuousOn⟩

end Modepy

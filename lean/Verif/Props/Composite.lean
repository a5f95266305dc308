import Verif.Props.Convergence
import Mathlib.Analysis.Calculus.Taylor

/-!
# Property C96: composite rules converge, and with the order their degree promises

An interval is cut into equal pieces and `Transformed1DQuadrature` puts a rule on each piece.
-/

namespace Modepy
open Spec Quadrature Set MeasureTheory Polynomial

/-- The sum of the absolute values of the weights. -/
noncomputable def Spec.absWeights (q : Quadrature) : ℝ := ((List.range q.nnodes).map fun k => |q.weights.get [k]|).sum

/-- The rules `t i` are the rule `q` transformed to the `n` equal pieces of `[a, b]`. -/
def Spec.IsComposite (q : Quadrature) (a b : ℝ) (n : Nat) (t : Nat → Quadrature) : Prop :=
  ∀ i < n, transformed1D q (a + i * ((b - a) / n)) (a + (i + 1 : Nat) * ((b - a) / n)) = .ok (t i)

theorem piece_error (q : Quadrature) (N : Nat) (hn : q.nodes.shape = [N] ∨ q.nodes.shape = [1, N])
    (m : Nat) (hq : ExactOn m (-1) 1 q.call) (hx : ∀ k < q.nnodes, ∃ t, q.node k = [t] ∧ -1 ≤ t ∧ t ≤ 1)
    (l r : ℝ) (h : l < r) (f : ℝ → ℝ) (hf : ContinuousOn f (Icc l r)) (p : ℝ[X]) (hp : p.natDegree ≤ m) (δ : ℝ)
    (hδ : ∀ y ∈ Icc l r, |f y - p.eval y| ≤ δ) (t : Quadrature) (ht : transformed1D q l r = .ok t) :
    |t.call (fun x => f (x.headD 0)) - ∫ y in l..r, f y| ≤ (absWeights q / 2 + 1) * (r - l) * δ := by
  obtain ⟨t', ht', hex, -, -⟩ := C35_exact q N hn m hq l r h
  obtain rfl := Except.ok.inj (ht.symm.trans ht')
  have ht2 := transformed1D_ok q l r h
  rw [ht] at ht2
  obtain rfl := Except.ok.inj ht2
  have hδ0 : 0 ≤ δ := (abs_nonneg _).trans (hδ l ⟨le_rfl, h.le⟩)
  have hpe := hex p hp
  have hif : IntervalIntegrable f volume l r := by
    apply ContinuousOn.intervalIntegrable
    rwa [uIcc_of_le h.le]
  have hip : IntervalIntegrable (fun y => p.eval y) volume l r := p.continuous.intervalIntegrable _ _
  simp only [call] at hpe ⊢
  have hnn : Quadrature.nnodes ⟨⟨q.nodes.shape, fun i => l + (q.nodes.get i + 1) / 2 * (r - l)⟩,
        ⟨q.weights.shape, fun i => (r - l) / 2 * q.weights.get i⟩, q.exactTo, none⟩ = q.nnodes := rfl
  have hnode : ∀ k < q.nnodes, ((Quadrature.node ⟨⟨q.nodes.shape, fun i => l + (q.nodes.get i + 1) / 2 * (r - l)⟩,
        ⟨q.weights.shape, fun i => (r - l) / 2 * q.weights.get i⟩, q.exactTo, none⟩ k).headD 0) ∈ Icc l r := by
    intro k hk
    obtain ⟨s, hs, h1, h2⟩ := hx k hk
    have e : ((Quadrature.node ⟨⟨q.nodes.shape, fun i => l + (q.nodes.get i + 1) / 2 * (r - l)⟩,
        ⟨q.weights.shape, fun i => (r - l) / 2 * q.weights.get i⟩, q.exactTo, none⟩ k).headD 0) = l + (s + 1) / 2 * (r - l) := by
      rcases hn with hn | hn <;> simp_all [node]
    rw [e]
    constructor <;> nlinarith
  rw [hnn] at hpe ⊢
  simp only [map_range_sum] at hpe ⊢
  generalize hX : (fun k => (Quadrature.node ⟨⟨q.nodes.shape, fun i => l + (q.nodes.get i + 1) / 2 * (r - l)⟩,
        ⟨q.weights.shape, fun i => (r - l) / 2 * q.weights.get i⟩, q.exactTo, none⟩ k).headD 0) = X at *
  have hX' : ∀ k, (Quadrature.node ⟨⟨q.nodes.shape, fun i => l + (q.nodes.get i + 1) / 2 * (r - l)⟩,
        ⟨q.weights.shape, fun i => (r - l) / 2 * q.weights.get i⟩, q.exactTo, none⟩ k).headD 0 = X k := fun k => congrFun hX k
  simp only [hX'] at hpe hnode ⊢
  have e : ∑ k ∈ Finset.range q.nnodes, (r - l) / 2 * q.weights.get [k] * f (X k) - ∫ y in l..r, f y =
      (∑ k ∈ Finset.range q.nnodes, (r - l) / 2 * q.weights.get [k] * (f (X k) - p.eval (X k))) - ∫ y in l..r, (f y - p.eval y) := by
    simp only [mul_sub]
    rw [Finset.sum_sub_distrib, intervalIntegral.integral_sub hif hip, hpe]
    ring
  have b1 : |∑ k ∈ Finset.range q.nnodes, (r - l) / 2 * q.weights.get [k] * (f (X k) - p.eval (X k))| ≤
      absWeights q / 2 * (r - l) * δ := by
    rw [absWeights, map_range_sum, Finset.sum_div, Finset.sum_mul, Finset.sum_mul]
    refine (Finset.abs_sum_le_sum_abs _ _).trans (Finset.sum_le_sum fun k hk => ?_)
    have hk := Finset.mem_range.1 hk
    rw [abs_mul, abs_mul, abs_of_nonneg (by linarith : 0 ≤ (r - l) / 2)]
    have := hδ _ (hnode k hk)
    have h0 : 0 ≤ (r - l) / 2 * |q.weights.get [k]| := mul_nonneg (by linarith) (abs_nonneg _)
    calc _ ≤ (r - l) / 2 * |q.weights.get [k]| * δ := mul_le_mul_of_nonneg_left this h0
      _ = _ := by ring
  have b2 : |∫ y in l..r, (f y - p.eval y)| ≤ (r - l) * δ := by
    have := intervalIntegral.norm_integral_le_of_norm_le_const (a := l) (b := r) (C := δ) (f := fun y => f y - p.eval y) fun y hy => by
      rw [uIoc_of_le h.le] at hy
      exact hδ y ⟨hy.1.le, hy.2⟩
    rw [abs_of_pos (by linarith : 0 < r - l)] at this
    rw [← Real.norm_eq_abs]
    linarith
  rw [e]
  calc _ ≤ _ := abs_sub _ _
    _ ≤ absWeights q / 2 * (r - l) * δ + (r - l) * δ := add_le_add b1 b2
    _ = _ := by ring

/-- If on each piece the function is within `δ` of a polynomial of the degree of the rule, the error of the composite rule is at
most `(Σ|w| / 2 + 1) (b - a) δ`. -/
theorem composite_error (q : Quadrature) (N : Nat) (hn : q.nodes.shape = [N] ∨ q.nodes.shape = [1, N])
    (m : Nat) (hq : ExactOn m (-1) 1 q.call) (hx : ∀ k < q.nnodes, ∃ t, q.node k = [t] ∧ -1 ≤ t ∧ t ≤ 1)
    (a b : ℝ) (h : a < b) (f : ℝ → ℝ) (hf : ContinuousOn f (Icc a b)) (n : Nat) (hn1 : 1 ≤ n) (δ : ℝ)
    (hδ : ∀ i < n, ∃ p : ℝ[X], p.natDegree ≤ m ∧
      ∀ y ∈ Icc (a + i * ((b - a) / n)) (a + (i + 1 : Nat) * ((b - a) / n)), |f y - p.eval y| ≤ δ)
    (t : Nat → Quadrature) (ht : IsComposite q a b n t) :
    |∑ i ∈ Finset.range n, (t i).call (fun x => f (x.headD 0)) - ∫ y in a..b, f y| ≤ (absWeights q / 2 + 1) * (b - a) * δ := by
  have hn0 : (0 : ℝ) < n := by exact_mod_cast hn1
  set s := (b - a) / n with hs
  have hs0 : 0 < s := div_pos (by linarith) hn0
  have hns : n * s = b - a := by rw [hs]; field_simp
  have hsub : ∀ i < n, Icc (a + i * s) (a + (i + 1 : Nat) * s) ⊆ Icc a b := by
    intro i hi y hy
    have h1 : (0 : ℝ) ≤ i := Nat.cast_nonneg _
    have h2 : ((i + 1 : Nat) : ℝ) ≤ n := by exact_mod_cast hi
    exact ⟨by nlinarith [hy.1], by nlinarith [hy.2]⟩
  have hlt : ∀ i : Nat, a + i * s < a + (i + 1 : Nat) * s := by
    intro i
    push_cast
    nlinarith
  have hint : ∑ i ∈ Finset.range n, ∫ y in (a + i * s)..(a + (i + 1 : Nat) * s), f y = ∫ y in a..b, f y := by
    have := intervalIntegral.sum_integral_adjacent_intervals (f := f) (μ := volume) (a := fun i : Nat => a + i * s) (n := n) fun i hi => by
      apply ContinuousOn.intervalIntegrable
      rw [uIcc_of_le (hlt i).le]
      exact hf.mono (hsub i hi)
    simp only [Nat.cast_zero, zero_mul, add_zero] at this
    rw [this, hns]
    congr 1
    ring
  rw [← hint, ← Finset.sum_sub_distrib]
  calc _ ≤ ∑ i ∈ Finset.range n, |(t i).call (fun x => f (x.headD 0)) - ∫ y in (a + i * s)..(a + (i + 1 : Nat) * s), f y| :=
        Finset.abs_sum_le_sum_abs _ _
    _ ≤ ∑ i ∈ Finset.range n, (absWeights q / 2 + 1) * s * δ := by
        refine Finset.sum_le_sum fun i hi => ?_
        have hi := Finset.mem_range.1 hi
        obtain ⟨p, hp, hpd⟩ := hδ i hi
        have := piece_error q N hn m hq hx _ _ (hlt i) f (hf.mono (hsub i hi)) p hp δ hpd (t i) (ht i hi)
        have e : a + (i + 1 : Nat) * s - (a + i * s) = s := by push_cast; ring
        rwa [e] at this
    _ = n * s * ((absWeights q / 2 + 1) * δ) := by rw [Finset.sum_const, Finset.card_range, nsmul_eq_mul]; ring
    _ = _ := by rw [hns]; ring

theorem exists_composite (q : Quadrature) (a b : ℝ) (h : a < b) (n : Nat) (hn1 : 1 ≤ n) : ∃ t, IsComposite q a b n t := by
  have hn0 : (0 : ℝ) < n := by exact_mod_cast hn1
  have hs0 : 0 < (b - a) / n := div_pos (by linarith) hn0
  refine ⟨_, fun i _ => transformed1D_ok q _ _ ?_⟩
  push_cast
  nlinarith

/-- **C96 (order).**  A rule with nodes in `[-1, 1]`, exact to degree `m`, transformed to `n` equal pieces of `[a, b]`: for every
function with `m + 1` continuous derivatives the error is at most `(Σ|w| / 2 + 1) (b - a) C h^(m+1) / m!`, where `h = (b - a) / n`
and `C` bounds derivative `m + 1`. -/
theorem C96_order (q : Quadrature) (N : Nat) (hn : q.nodes.shape = [N] ∨ q.nodes.shape = [1, N])
    (m : Nat) (hq : ExactOn m (-1) 1 q.call) (hx : ∀ k < q.nnodes, ∃ t, q.node k = [t] ∧ -1 ≤ t ∧ t ≤ 1)
    (a b : ℝ) (h : a < b) (f : ℝ → ℝ) (hf : ContDiff ℝ (m + 1) f) (C : ℝ) (hC : ∀ y ∈ Icc a b, |iteratedDeriv (m + 1) f y| ≤ C)
    (n : Nat) (hn1 : 1 ≤ n) :
    ∃ t, IsComposite q a b n t ∧ |∑ i ∈ Finset.range n, (t i).call (fun x => f (x.headD 0)) - ∫ y in a..b, f y| ≤
      (absWeights q / 2 + 1) * (b - a) * (C * ((b - a) / n) ^ (m + 1) / m.factorial) := by
  obtain ⟨t, ht⟩ := exists_composite q a b h n hn1
  refine ⟨t, ht, composite_error q N hn m hq hx a b h f hf.continuous.continuousOn n hn1 _ (fun i hi => ?_) t ht⟩
  have hn0 : (0 : ℝ) < n := by exact_mod_cast hn1
  have hC0 : 0 ≤ C := (abs_nonneg _).trans (hC a ⟨le_rfl, h.le⟩)
  set s := (b - a) / n with hs
  have hs0 : 0 < s := div_pos (by linarith) hn0
  have hns : n * s = b - a := by rw [hs]; field_simp
  have h1 : (0 : ℝ) ≤ i := Nat.cast_nonneg _
  have h2 : ((i + 1 : Nat) : ℝ) ≤ n := by exact_mod_cast hi
  set l := a + i * s with hl
  set r := a + (i + 1 : Nat) * s with hr
  have hlr : r - l = s := by rw [hl, hr]; push_cast; ring
  have hlt : l < r := by linarith
  have hsub : Icc l r ⊆ Icc a b := fun y hy => ⟨by nlinarith [hy.1], by nlinarith [hy.2]⟩
  -- the Taylor polynomial at the left end
  obtain ⟨p, hp, hpe⟩ : ∃ p : ℝ[X], p.natDegree ≤ m ∧ ∀ y, p.eval y = taylorWithinEval f m (Icc l r) l y := by
    refine ⟨∑ k ∈ Finset.range (m + 1), Polynomial.C ((k.factorial : ℝ)⁻¹ * iteratedDerivWithin k f (Icc l r) l) *
      (Polynomial.X - Polynomial.C l) ^ k, ?_, fun y => ?_⟩
    · refine Polynomial.natDegree_sum_le_of_forall_le _ _ fun k hk => ?_
      refine (Polynomial.natDegree_C_mul_le _ _).trans (Polynomial.natDegree_pow_le.trans ?_)
      rw [Polynomial.natDegree_X_sub_C, mul_one]
      have := Finset.mem_range.1 hk
      omega
    · rw [taylor_within_apply, Polynomial.eval_finsetSum]
      refine Finset.sum_congr rfl fun k _ => ?_
      simp only [Polynomial.eval_mul, Polynomial.eval_C, Polynomial.eval_pow, Polynomial.eval_sub, Polynomial.eval_X, smul_eq_mul]
      ring
  refine ⟨p, hp, fun y hy => ?_⟩
  have htay := taylor_mean_remainder_bound (f := f) (n := m) hlt.le hf.contDiffOn hy (C := C) fun z hz => by
    rw [iteratedDerivWithin_eq_iteratedDeriv (uniqueDiffOn_Icc hlt) hf.contDiffAt hz]
    exact hC z (hsub hz)
  rw [hpe, ← Real.norm_eq_abs]
  refine htay.trans ?_
  have : (y - l) ^ (m + 1) ≤ s ^ (m + 1) := pow_le_pow_left₀ (by linarith [hy.1]) (by linarith [hy.2]) _
  gcongr

/-- **C96 (continuous functions).**  If the rule is exact for constants, the composite rules converge for every continuous
function. -/
theorem C96_continuous (q : Quadrature) (N : Nat) (hn : q.nodes.shape = [N] ∨ q.nodes.shape = [1, N])
    (hq : ExactOn 0 (-1) 1 q.call) (hx : ∀ k < q.nnodes, ∃ t, q.node k = [t] ∧ -1 ≤ t ∧ t ≤ 1)
    (a b : ℝ) (h : a < b) (f : ℝ → ℝ) (hf : ContinuousOn f (Icc a b)) (ε : ℝ) (hε : 0 < ε) :
    ∃ n₀, ∀ n ≥ n₀, ∃ t, IsComposite q a b n t ∧
      |∑ i ∈ Finset.range n, (t i).call (fun x => f (x.headD 0)) - ∫ y in a..b, f y| < ε := by
  have hW : 0 ≤ absWeights q := List.sum_nonneg (by
    intro x hx
    obtain ⟨k, -, rfl⟩ := List.mem_map.1 hx
    exact abs_nonneg _)
  set K := (absWeights q / 2 + 1) * (b - a) with hK
  have hK0 : 0 < K := mul_pos (by linarith) (by linarith)
  have huc := isCompact_Icc.uniformContinuousOn_of_continuous hf
  rw [Metric.uniformContinuousOn_iff] at huc
  obtain ⟨d, hd, hfd⟩ := huc (ε / (2 * K)) (by positivity)
  obtain ⟨n₀, hn₀⟩ := exists_nat_gt ((b - a) / d)
  refine ⟨n₀ + 1, fun n hnn => ?_⟩
  have hn1 : 1 ≤ n := by omega
  have hn0 : (0 : ℝ) < n := by exact_mod_cast hn1
  obtain ⟨t, ht⟩ := exists_composite q a b h n hn1
  refine ⟨t, ht, ?_⟩
  have hsd : (b - a) / n < d := by
    rw [div_lt_iff₀ hn0]
    rw [div_lt_iff₀ hd] at hn₀
    have : (n₀ : ℝ) ≤ n := by exact_mod_cast (by omega : n₀ ≤ n)
    nlinarith
  have := composite_error q N hn 0 hq hx a b h f hf n hn1 (ε / (2 * K)) (fun i hi => ?_) t ht
  · refine this.trans_lt ?_
    rw [← hK, mul_div_assoc']
    rw [div_lt_iff₀ (by positivity)]
    nlinarith
  · set s := (b - a) / n with hs
    have hs0 : 0 < s := div_pos (by linarith) hn0
    have hns : n * s = b - a := by rw [hs]; field_simp
    have h1 : (0 : ℝ) ≤ i := Nat.cast_nonneg _
    have h2 : ((i + 1 : Nat) : ℝ) ≤ n := by exact_mod_cast hi
    refine ⟨Polynomial.C (f (a + i * s)), by simp, fun y hy => ?_⟩
    have hyab : y ∈ Icc a b := ⟨by nlinarith [hy.1], by nlinarith [hy.2]⟩
    have hlab : a + i * s ∈ Icc a b := ⟨by nlinarith, by push_cast at h2; nlinarith⟩
    have hdist : dist y (a + i * s) < d := by
      have := hy.2
      push_cast at this
      rw [Real.dist_eq, abs_of_nonneg (by linarith [hy.1])]
      linarith
    have := hfd y hyab _ hlab hdist
    rw [Real.dist_eq] at this
    rw [Polynomial.eval_C]
    exact this.le

/-- **C96 (Gauss rules).**  Composite Gauss-Legendre rules of order `N` converge like `h^(2N+2)`. -/
theorem C96_gauss (ext : Ext) (hext : ext.EighOk) (N : Nat) (fd : Bool) (a b : ℝ) (h : a < b) (f : ℝ → ℝ)
    (hf : ContDiff ℝ (2 * N + 1 + 1 : Nat) f) (C : ℝ) (hC : ∀ y ∈ Icc a b, |iteratedDeriv (2 * N + 1 + 1) f y| ≤ C) :
    ∃ q, legendreGaussQuadrature ext N .builtin fd = .ok q ∧ ∀ n : Nat, 1 ≤ n → ∃ t, IsComposite q a b n t ∧
      |∑ i ∈ Finset.range n, (t i).call (fun x => f (x.headD 0)) - ∫ y in a..b, f y| ≤
        2 * (b - a) * (C * ((b - a) / n) ^ (2 * N + 1 + 1) / (2 * N + 1).factorial) := by
  obtain ⟨q, hq, -, hex, hsn, hs, hw, hx, -⟩ := C27_exact ext hext 0 0 ⟨by norm_num, by norm_num, by norm_num⟩ N fd
  have hnn : q.nnodes = N + 1 := by rw [Quadrature.nnodes, hs]; rfl
  have hex' : ExactOn (2 * N + 1) (-1) 1 q.call := by
    intro p hp
    rw [hex p hp]
    simp
  have hone : absWeights q = 2 := by
    have h1 := hex' 1 (by simp)
    simp only [eval_one, intervalIntegral.integral_const, call, mul_one] at h1
    rw [absWeights, map_range_sum]
    rw [map_range_sum] at h1
    rw [Finset.sum_congr rfl fun k hk => abs_of_pos (hw k (by have := Finset.mem_range.1 hk; omega)), h1]
    norm_num
  refine ⟨q, hq, fun n hn1 => ?_⟩
  obtain ⟨t, ht, hb⟩ := C96_order q (N + 1) (by cases fd <;> simp [hsn]) (2 * N + 1) hex'
    (fun k hk => by obtain ⟨s, h1, h2, h3⟩ := hx k (by omega); exact ⟨s, h1, h2.le, h3.le⟩) a b h f (by exact_mod_cast hf) C hC n hn1
  refine ⟨t, ht, hb.trans (le_of_eq ?_)⟩
  rw [hone]
  norm_num

/-- An instance: the composite midpoint rule for the exponential on `[0, 1]` has error at most `2 e / n²`. -/
example : ∃ ext : Ext, ext.EighOk ∧ ∃ q, legendreGaussQuadrature ext 0 .builtin true = .ok q ∧ ∀ n : Nat, 1 ≤ n →
    ∃ t, IsComposite q 0 1 n t ∧
      |∑ i ∈ Finset.range n, (t i).call (fun x => Real.exp (x.headD 0)) - (Real.exp 1 - 1)| ≤ 2 * Real.exp 1 / (n : ℝ) ^ 2 := by
  obtain ⟨ext, hext⟩ := exists_eighOk
  obtain ⟨q, hq, h⟩ := C96_gauss ext hext 0 true 0 1 one_pos Real.exp Real.contDiff_exp (Real.exp 1) (fun y hy => by
    rw [iteratedDeriv_eq_iterate, Real.iter_deriv_exp, abs_of_pos (Real.exp_pos y)]
    exact Real.exp_le_exp.2 hy.2)
  refine ⟨ext, hext, q, hq, fun n hn => ?_⟩
  obtain ⟨t, ht, hb⟩ := h n hn
  refine ⟨t, ht, ?_⟩
  rw [integral_exp, Real.exp_zero] at hb
  refine hb.trans (le_of_eq ?_)
  simp only [sub_zero, mul_zero, zero_add, Nat.factorial_one, Nat.cast_one, div_one, mul_one, div_pow, one_pow]
  ring

end Modepy

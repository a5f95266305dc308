import Verif.Props.Fekete
import Mathlib.Analysis.Normed.Operator.BanachSteinhaus
import Mathlib.Analysis.SpecialFunctions.Bernstein
import Mathlib.Analysis.SpecificLimits.Normed
import Mathlib.Topology.ContinuousMap.Bounded.Normed

/-!
# Property C103: interpolation at Gauss-Lobatto nodes converges uniformly for smooth functions, at equispaced nodes it diverges
for some continuous function
-/

namespace Modepy
open Spec NdArray Matrix MeasureTheory Quadrature

/-! ## Approximation by Bernstein polynomials -/

/-- The Bernstein polynomial of a function whose derivative is Lipschitz continuous. -/
theorem bernstein_rate (f f' : ℝ → ℝ) (M : ℝ) (hf : ∀ y, |y| ≤ 1 → HasDerivAt f (f' y) y)
    (hM : ∀ y z, |y| ≤ 1 → |z| ≤ 1 → |f' y - f' z| ≤ M * |y - z|) (n : Nat) (hn : 1 ≤ n) :
    ∃ q : Polynomial ℝ, q.natDegree ≤ n ∧ ∀ y, |y| ≤ 1 → |f y - q.eval y| ≤ M / n := by
  have hn0 : (0 : ℝ) < n := by positivity
  have hM0 : 0 ≤ M := by
    have := (abs_nonneg _).trans (hM 1 0 (by norm_num) (by norm_num))
    simpa using this
  have htaylor : ∀ y z, |y| ≤ 1 → |z| ≤ 1 → |f z - f y - f' y * (z - y)| ≤ M * (z - y) ^ 2 := by
    intro y z hy hz
    have hseg : ∀ s ∈ segment ℝ y z, |s| ≤ 1 ∧ |s - y| ≤ |z - y| := by
      intro s hs
      refine ⟨?_, ?_⟩
      · have h1 : y ∈ Set.Icc (-1 : ℝ) 1 := abs_le.1 hy
        have h2 : z ∈ Set.Icc (-1 : ℝ) 1 := abs_le.1 hz
        exact abs_le.2 ((convex_Icc (-1 : ℝ) 1).segment_subset h1 h2 hs)
      · obtain ⟨a, b, ha, hb, hab, rfl⟩ := hs
        have : a • y + b • z - y = b * (z - y) := by
          simp only [smul_eq_mul]
          rw [show a = 1 - b by linarith]
          ring
        rw [this, abs_mul, abs_of_nonneg hb]
        exact mul_le_of_le_one_left (abs_nonneg _) (by linarith)
    have := (convex_segment y z).norm_image_sub_le_of_norm_hasDerivWithin_le
      (f := fun s => f s - f' y * s) (f' := fun s => f' s - f' y) (C := M * |z - y|)
      (fun s hs => (((hf s (hseg s hs).1).sub ((hasDerivAt_id s).const_mul (f' y))).congr_deriv (by simp)).hasDerivWithinAt)
      (fun s hs => by
        rw [Real.norm_eq_abs]
        exact (hM s y (hseg s hs).1 hy).trans (mul_le_mul_of_nonneg_left (hseg s hs).2 hM0))
      (left_mem_segment ℝ y z) (right_mem_segment ℝ y z)
    rw [Real.norm_eq_abs, Real.norm_eq_abs] at this
    calc |f z - f y - f' y * (z - y)| = |f z - f' y * z - (f y - f' y * y)| := by congr 1; ring
      _ ≤ M * |z - y| * |z - y| := this
      _ = M * (z - y) ^ 2 := by rw [mul_assoc, ← sq, sq_abs]
  set φ : Polynomial ℝ := Polynomial.C (1 / 2) * (Polynomial.X + 1)
  have hφ : φ.natDegree ≤ 1 := by
    refine (Polynomial.natDegree_C_mul_le _ _).trans ?_
    refine (Polynomial.natDegree_add_le _ _).trans (max_le Polynomial.natDegree_X_le (by simp))
  refine ⟨∑ k : Fin (n + 1), Polynomial.C (f (2 * (k : ℝ) / n - 1)) * (bernsteinPolynomial ℝ n k).comp φ, ?_, fun y hy => ?_⟩
  · refine Polynomial.natDegree_sum_le_of_forall_le _ _ fun k _ => (Polynomial.natDegree_C_mul_le _ _).trans ?_
    refine Polynomial.natDegree_comp_le.trans ?_
    have hb : (bernsteinPolynomial ℝ n k).natDegree ≤ n := by
      have hk : (k : Nat) ≤ n := Nat.lt_succ_iff.1 k.2
      rw [bernsteinPolynomial]
      refine Polynomial.natDegree_mul_le.trans ?_
      have h1 : ((n.choose k : Polynomial ℝ) * Polynomial.X ^ (k : Nat)).natDegree ≤ (k : Nat) := by
        rw [← Polynomial.C_eq_natCast]
        exact (Polynomial.natDegree_C_mul_le _ _).trans (Polynomial.natDegree_X_pow_le _)
      have h2 : ((1 - Polynomial.X : Polynomial ℝ) ^ (n - k)).natDegree ≤ n - k := by
        refine Polynomial.natDegree_pow_le.trans ?_
        have : (1 - Polynomial.X : Polynomial ℝ).natDegree ≤ 1 :=
          (Polynomial.natDegree_sub_le _ _).trans (max_le (by simp) Polynomial.natDegree_X_le)
        nlinarith
      omega
    nlinarith
  · obtain ⟨hy1, hy2⟩ := abs_le.1 hy
    set s : unitInterval := ⟨(1 + y) / 2, by linarith, by linarith⟩ with hs
    have hprob := bernstein.probability n s
    have hvar := bernstein.variance (n := n) (by omega) s
    set B : Fin (n + 1) → ℝ := fun k => bernstein n k s with hB
    have hB0 : ∀ k, 0 ≤ B k := fun k => bernstein_nonneg
    have hval : ∀ k : Fin (n + 1), ((bernsteinPolynomial ℝ n k).comp φ).eval y = B k := by
      intro k
      have : φ.eval y = (1 + y) / 2 := by simp [φ]; ring
      rw [Polynomial.eval_comp, this]
      rfl
    have hmean : ∑ k : Fin (n + 1), (k : ℝ) * B k = n * ((1 + y) / 2) := by
      have := congrArg (Polynomial.eval ((1 + y) / 2)) (bernsteinPolynomial.sum_smul ℝ n)
      rw [Polynomial.eval_finsetSum, Finset.sum_range] at this
      simp only [nsmul_eq_mul, Polynomial.eval_mul, Polynomial.eval_natCast, Polynomial.eval_X] at this
      exact this
    have hvar' : ∑ k : Fin (n + 1), ((1 + y) / 2 - (k : ℝ) / n) ^ 2 * B k = (1 + y) / 2 * (1 - (1 + y) / 2) / n := hvar
    have hz : ∀ k : Fin (n + 1), |2 * (k : ℝ) / n - 1| ≤ 1 := by
      intro k
      have h1 : (k : ℝ) ≤ n := by exact_mod_cast Nat.lt_succ_iff.1 k.2
      have h2 : (k : ℝ) / n ≤ 1 := (div_le_one hn0).2 h1
      have h3 : 0 ≤ (k : ℝ) / n := by positivity
      rw [abs_le, mul_div_assoc]
      constructor <;> linarith
    have hlin : ∑ k : Fin (n + 1), B k * (f' y * (2 * (k : ℝ) / n - 1 - y)) = 0 := by
      have : ∀ k : Fin (n + 1), B k * (f' y * (2 * (k : ℝ) / n - 1 - y))
          = 2 * f' y / n * ((k : ℝ) * B k) - f' y * (1 + y) * B k := fun k => by field_simp; ring
      rw [Finset.sum_congr rfl fun k _ => this k, Finset.sum_sub_distrib, ← Finset.mul_sum, ← Finset.mul_sum, hmean, hprob]
      field_simp
      ring
    rw [Polynomial.eval_finsetSum]
    have hdiff : f y - ∑ k : Fin (n + 1), (Polynomial.C (f (2 * (k : ℝ) / n - 1)) * (bernsteinPolynomial ℝ n k).comp φ).eval y
        = -∑ k : Fin (n + 1), B k * (f (2 * (k : ℝ) / n - 1) - f y - f' y * (2 * (k : ℝ) / n - 1 - y)) := by
      simp only [Polynomial.eval_mul, Polynomial.eval_C, hval, mul_sub (B _)]
      rw [Finset.sum_sub_distrib, hlin, Finset.sum_sub_distrib, ← Finset.sum_mul, hprob]
      simp only [mul_comm (B _)]
      ring
    rw [hdiff, abs_neg]
    calc |∑ k : Fin (n + 1), B k * (f (2 * (k : ℝ) / n - 1) - f y - f' y * (2 * (k : ℝ) / n - 1 - y))|
        ≤ ∑ k : Fin (n + 1), |B k * (f (2 * (k : ℝ) / n - 1) - f y - f' y * (2 * (k : ℝ) / n - 1 - y))| :=
          Finset.abs_sum_le_sum_abs _ _
      _ ≤ ∑ k : Fin (n + 1), 4 * M * (((1 + y) / 2 - (k : ℝ) / n) ^ 2 * B k) := by
          refine Finset.sum_le_sum fun k _ => ?_
          rw [abs_mul, abs_of_nonneg (hB0 k)]
          refine (mul_le_mul_of_nonneg_left (htaylor y _ hy (hz k)) (hB0 k)).trans (le_of_eq ?_)
          field_simp
          ring
      _ = 4 * M * ((1 + y) / 2 * (1 - (1 + y) / 2) / n) := by rw [← Finset.mul_sum, hvar']
      _ = (M / n) * (1 - y ^ 2) := by field_simp; ring
      _ ≤ M / n := mul_le_of_le_one_right (by positivity) (by nlinarith [sq_nonneg y])

/-- A polynomial in the first coordinate as a member of a space. -/
theorem first_coordinate (space : Space) {d n : Nat} (hdim : space.spatialDim = d) (hd : 0 < d) (hb : ∀ s ∈ space.flatBases, n ≤ s.order)
    (q : Polynomial ℝ) (hq : q.natDegree ≤ n) : ∃ c, ∀ y : List ℝ, y.length = d → spacePoly space c y = q.eval (y.getD 0 0) := by
  set P : MvPolynomial (Fin d) ℝ := Polynomial.aeval (MvPolynomial.X ⟨0, hd⟩) q with hP
  have hPv : ∀ y : List ℝ, polyAt P y = q.eval (y.getD 0 0) := by
    intro y
    rw [polyAt, hP, ← MvPolynomial.coe_aeval_eq_eval]
    show (MvPolynomial.aeval _) _ = _
    rw [← Polynomial.aeval_algHom_apply, MvPolynomial.aeval_X, Polynomial.coe_aeval_eq_eval]
  have hPd : P.totalDegree ≤ n := by
    rw [hP, Polynomial.aeval_eq_sum_range]
    refine MvPolynomial.totalDegree_finsetSum_le fun e he => ?_
    refine (MvPolynomial.totalDegree_smul_le _ _).trans ?_
    rw [MvPolynomial.totalDegree_X_pow]
    have := Finset.mem_range.1 he
    omega
  obtain ⟨c, hc⟩ := polyAt_spacePoly space hdim P (polyIn_of_totalDegree hdim hb P hPd)
  exact ⟨c, fun y hy => by rw [← hc y hy, hPv]⟩

/-- **C103 (quasi-optimality with an explicit constant).**  If some polynomial of the space is within `δ` of a function on the
cube, then the interpolant at the tensor product Gauss-Lobatto nodes, resampled by `resampling_matrix` to any point of the cube, is
within `(1 + (n + 1)^(dims / 2)) δ` of it. -/
theorem C103_quasi_optimal (ext : Ext) (hext : ext.EighOk) (dims n : Nat) (hd : 0 < dims) (hn : 1 ≤ n) (b : Basis ℝ)
    (hb : IsBasisOf b (.qn dims n)) {p : Nat} (newNodes : Fin p → List ℝ) (hnew : ∀ i, InCube dims (newNodes i)) (ls : Bool)
    (pinv : (m : Nat) → Matrix (Fin (nodeTuples (.qn dims n)).length) (Fin m) ℝ → Matrix (Fin m) (Fin (nodeTuples (.qn dims n)).length) ℝ) :
    ∃ A R, legendreGaussLobattoTensorProductNodes ext dims n = .ok A ∧
      resamplingMatrixOf b newNodes (fun i : Fin (nodeTuples (.qn dims n)).length => column A dims i) ls pinv = .ok R ∧
      (∀ j : Fin (nodeTuples (.qn dims n)).length, InCube dims (column A dims j)) ∧
      ∀ (f : List ℝ → ℝ) (c : Fin (nodeTuples (.qn dims n)).length → ℝ) (δ : ℝ),
        (∀ x, InCube dims x → |f x - spacePoly (.qn dims n) c x| ≤ δ) →
        ∀ i, |∑ j : Fin (nodeTuples (.qn dims n)).length, R i j * f (column A dims j) - f (newNodes i)|
          ≤ (1 + Real.sqrt ((n + 1) ^ dims)) * δ := by
  obtain ⟨A, R, hA, hR, -, -, hrow, -⟩ := C102_resampling ext hext dims n hd hn b hb newNodes hnew ls pinv
  obtain ⟨A', Q, x, w, r, hA', hQ, hAs, hQs, hnodes, hdiag, hws, hq, hx, h0, h1, hpos, hex, hwt, hget, hcol, hu⟩ :=
    lobatto_setup ext hext dims n hd hn
  obtain rfl : A = A' := Except.ok.inj (hA.symm.trans hA')
  rw [← hcol] at hu
  have hin : ∀ j : Fin (nodeTuples (.qn dims n)).length, InCube dims (column A dims j) := by
    intro j
    refine ⟨by simp [column], fun a ha => ?_⟩
    rw [column, List.mem_map] at ha
    obtain ⟨i, hi, rfl⟩ := ha
    rw [hget i j (List.mem_range.1 hi) (lt_of_lt_of_eq j.2 (length_qn dims n))]
    exact ⟨h0 ▸ hx.monotone (Fin.zero_le _), h1 ▸ hx.monotone (Fin.le_last _)⟩
  refine ⟨A, R, hA, hR, hin, fun f c δ hδ i => ?_⟩
  obtain ⟨R', hR', -, -, hquasi, -⟩ := C85_resampling (.qn dims n) b hb newNodes _ (fun i => regular_qn dims n _ (hnew i).1)
    (fun i => regular_qn dims n _ (by simp [column])) hu ls pinv
  obtain rfl : R = R' := Except.ok.inj (hR.symm.trans hR')
  refine (hquasi f c δ i (fun j => hδ _ (hin j)) (hδ _ (hnew i))).trans ?_
  have hδ0 : 0 ≤ δ := (abs_nonneg _).trans (hδ _ (hnew i))
  refine mul_le_mul_of_nonneg_right (add_le_add le_rfl ?_) hδ0
  exact Real.le_sqrt_of_sq_le (hrow i)

/-- **C103 (rate).**  On the interval, for a function whose derivative is Lipschitz continuous with constant `M`, the error of
interpolation at the `n + 1` Gauss-Lobatto nodes is at most `(1 + √(n + 1)) M / n` at every point. -/
theorem C103_rate (ext : Ext) (hext : ext.EighOk) (n : Nat) (hn : 1 ≤ n) (b : Basis ℝ)
    (hb : IsBasisOf b (.qn 1 n)) {p : Nat} (newNodes : Fin p → List ℝ) (hnew : ∀ i, InCube 1 (newNodes i)) (ls : Bool)
    (pinv : (m : Nat) → Matrix (Fin (nodeTuples (.qn 1 n)).length) (Fin m) ℝ → Matrix (Fin m) (Fin (nodeTuples (.qn 1 n)).length) ℝ) :
    ∃ A R, legendreGaussLobattoTensorProductNodes ext 1 n = .ok A ∧
      resamplingMatrixOf b newNodes (fun i : Fin (nodeTuples (.qn 1 n)).length => column A 1 i) ls pinv = .ok R ∧
      ∀ (f f' : ℝ → ℝ) (M : ℝ), (∀ y, |y| ≤ 1 → HasDerivAt f (f' y) y) →
        (∀ y z, |y| ≤ 1 → |z| ≤ 1 → |f' y - f' z| ≤ M * |y - z|) →
        ∀ i, |∑ j : Fin (nodeTuples (.qn 1 n)).length, R i j * f (A.get [0, (j : Nat)]) - f ((newNodes i).getD 0 0)|
          ≤ (1 + Real.sqrt (n + 1)) * (M / n) := by
  obtain ⟨A, R, hA, hR, hin, hquasi⟩ := C103_quasi_optimal ext hext 1 n one_pos hn b hb newNodes hnew ls pinv
  refine ⟨A, R, hA, hR, fun f f' M hf hM i => ?_⟩
  obtain ⟨q, hqd, hq⟩ := bernstein_rate f f' M hf hM n hn
  obtain ⟨c, hc⟩ := first_coordinate (.qn 1 n) (d := 1) (n := n) (by simp [Space.spatialDim, Space.flatBases]) one_pos (by simp [Space.flatBases]) q hqd
  have := hquasi (fun x => f (x.getD 0 0)) c (M / n) (fun x hx => by
    rw [hc x hx.1]
    refine hq _ ?_
    obtain ⟨hl, hc⟩ := hx
    obtain ⟨a, rfl⟩ := List.length_eq_one_iff.1 hl
    exact abs_le.2 (hc a (by simp))) i
  simpa [column] using this

/-- **C103 (uniform convergence).** -/
theorem C103_converges (ext : Ext) (hext : ext.EighOk) (f f' : ℝ → ℝ) (M : ℝ) (hf : ∀ y, |y| ≤ 1 → HasDerivAt f (f' y) y)
    (hM : ∀ y z, |y| ≤ 1 → |z| ≤ 1 → |f' y - f' z| ≤ M * |y - z|) (ε : ℝ) (hε : 0 < ε) :
    ∃ N, ∀ n ≥ N, ∃ A, legendreGaussLobattoTensorProductNodes ext 1 n = .ok A ∧
      ∀ (b : Basis ℝ) (p : Nat) (newNodes : Fin p → List ℝ), IsBasisOf b (.qn 1 n) → (∀ i, InCube 1 (newNodes i)) →
        ∀ (ls : Bool) (pinv : (m : Nat) → Matrix (Fin (nodeTuples (.qn 1 n)).length) (Fin m) ℝ →
          Matrix (Fin m) (Fin (nodeTuples (.qn 1 n)).length) ℝ),
        ∃ R, resamplingMatrixOf b newNodes (fun i : Fin (nodeTuples (.qn 1 n)).length => column A 1 i) ls pinv = .ok R ∧
          ∀ i, |∑ j : Fin (nodeTuples (.qn 1 n)).length, R i j * f (A.get [0, (j : Nat)]) - f ((newNodes i).getD 0 0)| < ε := by
  have hM0 : 0 ≤ M := by
    have := (abs_nonneg _).trans (hM 1 0 (by norm_num) (by norm_num))
    simpa using this
  obtain ⟨N, hN⟩ := exists_nat_gt ((3 * M / ε) ^ 2)
  refine ⟨N + 1, fun n hn => ?_⟩
  have hn1 : 1 ≤ n := by omega
  obtain ⟨A, hA, -⟩ := C102_bound ext hext 1 n one_pos hn1
  refine ⟨A, hA, fun b p newNodes hb hnew ls pinv => ?_⟩
  obtain ⟨A', R, hA', hR, h⟩ := C103_rate ext hext n hn1 b hb newNodes hnew ls pinv
  obtain rfl : A = A' := Except.ok.inj (hA.symm.trans hA')
  refine ⟨R, hR, fun i => lt_of_le_of_lt (h f f' M hf hM i) ?_⟩
  have hn0 : (1 : ℝ) ≤ n := by exact_mod_cast hn1
  have hNn : (N : ℝ) ≤ n := by exact_mod_cast (show N ≤ n by omega)
  have hs1 : Real.sqrt ((n : ℝ) + 1) ≤ 2 * Real.sqrt n := by
    rw [Real.sqrt_le_left (by positivity), mul_pow, Real.sq_sqrt (by positivity)]
    linarith
  have hs2 : 1 ≤ Real.sqrt n := Real.one_le_sqrt.2 hn0
  have hs3 : 3 * M / ε < Real.sqrt n := Real.lt_sqrt_of_sq_lt (hN.trans_le hNn)
  rw [div_lt_iff₀ hε] at hs3
  have hsq : Real.sqrt n * Real.sqrt n = n := Real.mul_self_sqrt (by positivity)
  rw [← mul_div_assoc, div_lt_iff₀ (by positivity)]
  calc (1 + Real.sqrt (n + 1)) * M ≤ (3 * Real.sqrt n) * M := mul_le_mul_of_nonneg_right (by linarith) hM0
    _ = 3 * M * Real.sqrt n := by ring
    _ < Real.sqrt n * ε * Real.sqrt n := mul_lt_mul_of_pos_right hs3 (by linarith)
    _ = ε * (Real.sqrt n * Real.sqrt n) := by ring
    _ = ε * n := by rw [hsq]

/-! ## Divergence at equispaced nodes -/

/-- Point functionals that grow on bounded data are unbounded at one continuous function. -/
theorem resonance (m : ℕ → ℕ) (R x : (n : ℕ) → Fin (m n) → ℝ)
    (h : ∀ n, 1 ≤ n → ∃ q : ℝ → ℝ, Continuous q ∧ (∀ j, |q (x n j)| ≤ 1) ∧ 2 ^ n / (4 * (n : ℝ) ^ 2) ≤ ∑ j, R n j * q (x n j)) :
    ∃ f : ℝ → ℝ, Continuous f ∧ (∃ K, ∀ t, |f t| ≤ K) ∧ ∀ (B : ℝ) (N : ℕ), ∃ n ≥ N, 1 ≤ n ∧ B < |∑ j, R n j * f (x n j)| := by
  set L : ℕ → (BoundedContinuousFunction ℝ ℝ →L[ℝ] ℝ) := fun n => ∑ j, R n j • BoundedContinuousFunction.evalCLM ℝ (x n j) with hL
  have hLv : ∀ n f, L n f = ∑ j, R n j * f (x n j) := fun n f => by simp [hL]
  by_contra hcon
  have hb : ∀ f : BoundedContinuousFunction ℝ ℝ, ∃ C, ∀ n, ‖L n f‖ ≤ C := by
    intro f
    by_contra hf
    push Not at hf
    refine hcon ⟨f, f.continuous, ⟨‖f‖, fun t => f.norm_coe_le_norm t⟩, fun B N => ?_⟩
    obtain ⟨n, hn⟩ := hf (|B| + ∑ k ∈ Finset.range (N + 1), ‖L k f‖)
    have hsum : 0 ≤ ∑ k ∈ Finset.range (N + 1), ‖L k f‖ := Finset.sum_nonneg fun _ _ => norm_nonneg _
    have hnN : N < n := by
      by_contra hle
      have := Finset.single_le_sum (f := fun k => ‖L k f‖) (fun _ _ => norm_nonneg _) (Finset.mem_range.2 (show n < N + 1 by omega))
      linarith [abs_nonneg B]
    refine ⟨n, hnN.le, by omega, ?_⟩
    rw [← hLv, ← Real.norm_eq_abs]
    linarith [le_abs_self B]
  obtain ⟨C, hC⟩ := banach_steinhaus hb
  have hC' : ∀ n : ℕ, 1 ≤ n → 2 ^ n / (4 * (n : ℝ) ^ 2) ≤ C := by
    intro n hn
    obtain ⟨q, hqc, hq1, hq2⟩ := h n hn
    set g : BoundedContinuousFunction ℝ ℝ := BoundedContinuousFunction.ofNormedAddCommGroup (fun t => max (-1) (min 1 (q t)))
      (by fun_prop) 1 (fun t => by
        rw [Real.norm_eq_abs, abs_le]
        exact ⟨le_max_left _ _, max_le (by norm_num) (min_le_left _ _)⟩) with hg
    have hgn : ‖g‖ ≤ 1 := BoundedContinuousFunction.norm_ofNormedAddCommGroup_le _ zero_le_one _
    have hgv : ∀ j, g (x n j) = q (x n j) := by
      intro j
      obtain ⟨h1, h2⟩ := abs_le.1 (hq1 j)
      show max (-1) (min 1 (q (x n j))) = _
      rw [min_eq_right h2, max_eq_right h1]
    calc 2 ^ n / (4 * (n : ℝ) ^ 2) ≤ ∑ j, R n j * q (x n j) := hq2
      _ = L n g := by rw [hLv]; simp only [hgv]
      _ ≤ ‖L n g‖ := le_abs_self _
      _ ≤ ‖L n‖ * ‖g‖ := (L n).le_opNorm g
      _ ≤ C * 1 := mul_le_mul (hC n) hgn (norm_nonneg _) ((norm_nonneg _).trans (hC n))
      _ = C := mul_one C
  have hC0 : 0 ≤ C := (norm_nonneg _).trans (hC 0)
  have ht := tendsto_pow_const_div_const_pow_of_one_lt 2 (show (1 : ℝ) < 2 by norm_num)
  have hev := (ht.eventually (gt_mem_nhds (show (0 : ℝ) < 1 / (4 * (C + 1)) by positivity))).and (Filter.eventually_ge_atTop 1)
  obtain ⟨n, h1, h2⟩ := hev.exists
  have hn0 : (0 : ℝ) < n := by exact_mod_cast h2
  have := hC' n h2
  rw [div_le_iff₀ (by positivity)] at this
  rw [div_lt_div_iff₀ (by positivity) (by positivity)] at h1
  nlinarith [sq_nonneg (n : ℝ), pow_pos hn0 2]

/-- **C103 (divergence).**  There is a bounded continuous function whose interpolants at the equispaced nodes of the interval are
unbounded: at the midpoint of the first two nodes, resampling exceeds every bound at arbitrarily high orders. -/
theorem C103_diverges : ∃ f : ℝ → ℝ, Continuous f ∧ (∃ K, ∀ t, |f t| ≤ K) ∧ ∀ (B : ℝ) (N : ℕ), ∃ n ≥ N, 1 ≤ n ∧
    ∃ A, equispacedNodes (.pn ⟨1, n⟩) (.simplex 1) = .ok A ∧
      ∀ b : Basis ℝ, IsBasisOf b (.pn ⟨1, n⟩) →
        ∀ (ls : Bool) (pinv : (m : Nat) → Matrix (Fin (nodeTuples (.pn ⟨1, n⟩)).length) (Fin m) ℝ →
          Matrix (Fin m) (Fin (nodeTuples (.pn ⟨1, n⟩)).length) ℝ),
        ∃ R, resamplingMatrixOf b (fun _ : Fin 1 => [1 / (n : ℝ) - 1])
            (fun i : Fin (nodeTuples (.pn ⟨1, n⟩)).length => column A 1 i) ls pinv = .ok R ∧
          B < |∑ j : Fin (nodeTuples (.pn ⟨1, n⟩)).length, R 0 j * f (A.get [0, (j : Nat)])| := by
  have hreg : ∀ (n : Nat) (y : ℝ), RegularFor (.pn ⟨1, n⟩) [y] := fun n y => by
    simp [RegularFor, Space.spatialDim, Space.flatBases, slices, Regular]
  choose A hA hu using fun n => C62_pn 1 n
  choose ℓ hℓ using fun n => lagrange_exists _ _ (hu n)
  have hcol : ∀ n (k : Nat), column (A n) 1 k = [(A n).get [0, k]] := fun n k => by simp [column]
  obtain ⟨f, hf, hK, hdiv⟩ := resonance (fun n => (nodeTuples (.pn ⟨1, n⟩)).length)
    (fun n j => ℓ n j [1 / (n : ℝ) - 1]) (fun n j => (A n).get [0, (j : Nat)]) (by
      intro n hn
      obtain ⟨q, hqd, hqb, hql⟩ := equispaced_growth n hn
      refine ⟨fun t => q.eval t, q.continuous, fun j => ?_, ?_⟩
      · obtain ⟨A', hA', -, hget⟩ := C04_pn (K := ℝ) 1 n hn
        obtain rfl : A n = A' := Except.ok.inj ((hA n).symm.trans hA')
        simp only [hget]
        exact hqb _ (getD_le _ (fun t ht => entry_le (.pn ⟨1, n⟩) n (by simp [Space.flatBases]) t ht) _ _)
      · obtain ⟨c, hc⟩ := first_coordinate (.pn ⟨1, n⟩) (d := 1) (n := n) rfl one_pos (by simp [Space.flatBases]) q hqd
        refine hql.trans (le_of_eq ?_)
        have := lagrange_reproduces _ _ (hu n) (ℓ n) (hℓ n) c [1 / (n : ℝ) - 1]
        have h2 := hc [1 / (n : ℝ) - 1] rfl
        rw [spacePoly] at h2
        rw [h2] at this
        simp only [List.getD_cons_zero] at this
        rw [← this]
        refine Finset.sum_congr rfl fun j _ => ?_
        have h3 := hc (column (A n) 1 j) (by simp [column])
        rw [spacePoly] at h3
        rw [h3, hcol, List.getD_cons_zero, mul_comm])
  refine ⟨f, hf, hK, fun B N => ?_⟩
  obtain ⟨n, hnN, hn1, hB⟩ := hdiv B N
  refine ⟨n, hnN, hn1, A n, hA n, fun b hb ls pinv => ?_⟩
  obtain ⟨R, hR, -, hRℓ, -⟩ := C85_resampling (.pn ⟨1, n⟩) b hb (fun _ : Fin 1 => [1 / (n : ℝ) - 1])
    (fun i : Fin (nodeTuples (.pn ⟨1, n⟩)).length => column (A n) 1 i) (fun _ => hreg n _) (fun i => by rw [hcol]; exact hreg n _)
    (hu n) ls pinv
  refine ⟨R, hR, ?_⟩
  simp only [hRℓ (ℓ n) (hℓ n)]
  exact hB

/-- Non-vacuity: the sine has a Lipschitz continuous derivative; its interpolants at Gauss-Lobatto nodes converge, and at order
100 a basis exists and the error at a point of the interval is at most 12/100. -/
example : ∃ ext : Ext, ext.EighOk ∧
    (∃ N, ∀ n ≥ N, ∃ A, legendreGaussLobattoTensorProductNodes ext 1 n = .ok A) ∧
    ∃ b : Basis ℝ, basisForSpace (.qn 1 100) (.hypercube 1) = .ok b ∧ ∃ A R,
      legendreGaussLobattoTensorProductNodes ext 1 100 = .ok A ∧
      resamplingMatrixOf b (fun _ : Fin 1 => [1 / 3]) (fun i : Fin (nodeTuples (.qn 1 100)).length => column A 1 i) false
        (fun _ _ => 0) = .ok R ∧
      |∑ j : Fin (nodeTuples (.qn 1 100)).length, R 0 j * Real.sin (A.get [0, (j : Nat)]) - Real.sin (1 / 3)| ≤ 12 / 100 := by
  obtain ⟨ext, hext⟩ := exists_eighOk
  have hd : ∀ y, |y| ≤ 1 → HasDerivAt Real.sin (Real.cos y) y := fun y _ => Real.hasDerivAt_sin y
  have hl : ∀ y z : ℝ, |y| ≤ 1 → |z| ≤ 1 → |Real.cos y - Real.cos z| ≤ 1 * |y - z| := fun y z _ _ => by
    have := Real.abs_cos_sub_cos_le y z
    linarith
  refine ⟨ext, hext, ?_, ?_⟩
  · obtain ⟨N, hN⟩ := C103_converges ext hext Real.sin Real.cos 1 hd hl (1 / 100) (by norm_num)
    exact ⟨N, fun n hn => (hN n hn).imp fun A h => h.1⟩
  · refine ⟨_, rfl, ?_⟩
    obtain ⟨A, R, hA, hR, h⟩ := C103_rate ext hext 100 (by norm_num) _ ⟨.hypercube 1, Or.inr (Or.inl rfl)⟩ (fun _ : Fin 1 => [1 / 3])
      (fun _ => ⟨rfl, by intro c hc; simp at hc; subst hc; norm_num⟩) false (fun _ _ => 0)
    refine ⟨A, R, hA, hR, ?_⟩
    have := h Real.sin Real.cos 1 hd hl 0
    simp only [List.getD_cons_zero] at this
    refine this.trans ?_
    have hs : Real.sqrt ((100 : ℕ) + 1) ≤ 11 := by
      rw [Real.sqrt_le_left (by norm_num)]
      norm_num
    have : (1 + Real.sqrt ((100 : ℕ) + 1)) * (1 / ((100 : ℕ) : ℝ)) ≤ (1 + 11) * (1 / ((100 : ℕ) : ℝ)) :=
      mul_le_mul_of_nonneg_right (by linarith) (by norm_num)
    refine this.trans (by norm_num)

end Modepy

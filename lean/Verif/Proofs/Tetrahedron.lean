import Verif.Proofs.Triangle

/-!
# The polynomials behind `pkdo_3d`
-/

namespace Modepy
open Spec Polynomial MvPolynomial

/-- The polynomial mode `(i, j, k)` on the tetrahedron. -/
noncomputable def tetMode (i j k : Nat) : MvPolynomial (Fin 3) ℝ :=
  MvPolynomial.C (2 * Real.sqrt 2 * 2 ^ i) *
    hom (jpoly 0 0 i) i
      (MvPolynomial.C 2 * (1 + MvPolynomial.X 0) - (-MvPolynomial.X 1 - MvPolynomial.X 2))
      (-MvPolynomial.X 1 - MvPolynomial.X 2) *
    hom (jpoly (2 * i + 1) 0 j) j (MvPolynomial.C 2 * (1 + MvPolynomial.X 1) - (1 - MvPolynomial.X 2))
      (1 - MvPolynomial.X 2) *
    Polynomial.aeval (MvPolynomial.X 2) (jpoly (2 * (i + j) + 2) 0 k)

theorem totalDegree_tetMode (i j k : Nat) : (tetMode i j k).totalDegree ≤ i + j + k := by
  have hneg : (-MvPolynomial.X 1 - MvPolynomial.X 2 : MvPolynomial (Fin 3) ℝ).totalDegree ≤ 1 := by
    refine (MvPolynomial.totalDegree_sub _ _).trans (max_le ?_ ?_)
    · rw [MvPolynomial.totalDegree_neg, MvPolynomial.totalDegree_X]
    · rw [MvPolynomial.totalDegree_X]
  rw [tetMode]
  refine (MvPolynomial.totalDegree_mul _ _).trans (Nat.add_le_add ?_ ?_)
  · refine (MvPolynomial.totalDegree_mul _ _).trans (Nat.add_le_add ?_ ?_)
    · refine (MvPolynomial.totalDegree_mul _ _).trans ?_
      rw [MvPolynomial.totalDegree_C, zero_add]
      apply totalDegree_hom_le
      · exact (MvPolynomial.totalDegree_sub _ _).trans (max_le (totalDegree_two_one_add_X 0) hneg)
      · exact hneg
    · apply totalDegree_hom_le
      · exact (MvPolynomial.totalDegree_sub _ _).trans
          (max_le (totalDegree_two_one_add_X 1) (totalDegree_one_sub_X 2))
      · exact totalDegree_one_sub_X 2
  · refine (totalDegree_aeval_le _ _ ?_).trans (natDegree_jpoly _ _ _)
    rw [MvPolynomial.totalDegree_X]

theorem eval_tetMode (i j k : Nat) (r s t : ℝ) :
    MvPolynomial.eval ![r, s, t] (tetMode i j k) =
      2 * Real.sqrt 2 * 2 ^ i * hom (jpoly 0 0 i) i (2 * (1 + r) - (-s - t)) (-s - t) *
        hom (jpoly (2 * i + 1) 0 j) j (2 * (1 + s) - (1 - t)) (1 - t) *
        (jpoly (2 * (i + j) + 2) 0 k).eval t := by
  rw [← MvPolynomial.coe_aeval_eq_eval]
  rw [tetMode, RingHom.coe_coe, map_mul, map_mul, map_mul, hom_map, hom_map]
  simp only [map_sub, map_mul, map_neg, map_add, map_one, MvPolynomial.aeval_C, MvPolynomial.aeval_X,
    Matrix.cons_val_zero, Matrix.cons_val_one, Matrix.cons_val, ← Polynomial.aeval_algHom_apply,
    Algebra.algebraMap_self_apply]
  rw [Polynomial.coe_aeval_eq_eval]

theorem eval_tetMode_off (i j k : Nat) (r s t : ℝ) (hw : -s - t ≠ 0) (ht : t ≠ 1) :
    MvPolynomial.eval ![r, s, t] (tetMode i j k) =
      2 * Real.sqrt 2 * 2 ^ i * ((-s - t) ^ i * jacobi 0 0 i (2 * (1 + r) / (-s - t) - 1)) *
        ((1 - t) ^ j * jacobi (2 * i + 1) 0 j (2 * (1 + s) / (1 - t) - 1)) *
        jacobi (2 * (i + j) + 2) 0 k t := by
  have hv : (1 : ℝ) - t ≠ 0 := sub_ne_zero.2 (Ne.symm ht)
  rw [eval_tetMode, hom_eq _ _ (natDegree_jpoly _ _ _) _ hw, hom_eq _ _ (natDegree_jpoly _ _ _) _ hv,
    eval_jpoly params_zero, eval_jpoly (params_two i), eval_jpoly (params_three i j),
    sub_div, div_self hw, sub_div, div_self hv]

theorem continuous_eval3 (p : MvPolynomial (Fin 3) ℝ) :
    Continuous fun q : ℝ × ℝ × ℝ => MvPolynomial.eval ![q.1, q.2.1, q.2.2] p := by
  apply (MvPolynomial.continuous_eval p).comp
  apply continuous_pi
  intro k
  fin_cases k
  · exact continuous_fst
  · exact continuous_fst.comp continuous_snd
  · exact continuous_snd.comp continuous_snd

theorem tetMode_orthonormal (i j k l m n : Nat) :
    ∫ p in tetrahedron, MvPolynomial.eval ![p.1, p.2.1, p.2.2] (tetMode i j k) *
        MvPolynomial.eval ![p.1, p.2.1, p.2.2] (tetMode l m n) =
      if i = l ∧ j = m ∧ k = n then 1 else 0 := by
  rw [integral_tetrahedron (fun p => MvPolynomial.eval ![p.1, p.2.1, p.2.2] (tetMode i j k) *
    MvPolynomial.eval ![p.1, p.2.1, p.2.2] (tetMode l m n))
    ((continuous_eval3 _).mul (continuous_eval3 _))]
  have hsq : Real.sqrt 2 * Real.sqrt 2 = 2 := Real.mul_self_sqrt (by norm_num)
  -- the innermost integral
  have inner : ∀ t, t ≠ 1 → ∀ s ∈ Set.uIcc (-1 : ℝ) (-t),
      (∫ r in (-1 : ℝ)..(-1 - s - t), MvPolynomial.eval ![r, s, t] (tetMode i j k) *
        MvPolynomial.eval ![r, s, t] (tetMode l m n)) =
      (if i = l then 1 else 0) * (4 * 2 ^ (i + l) * (-s - t) ^ (i + l + 1) * (1 - t) ^ (j + m) *
        (jacobi (2 * i + 1) 0 j (2 * (1 + s) / (1 - t) - 1) *
         jacobi (2 * l + 1) 0 m (2 * (1 + s) / (1 - t) - 1)) *
        (jacobi (2 * (i + j) + 2) 0 k t * jacobi (2 * (l + m) + 2) 0 n t)) := by
    intro t ht s _
    by_cases hw : -s - t = 0
    · have : -1 - s - t = -1 := by linarith
      rw [this, hw, intervalIntegral.integral_same]
      simp
    have hh : (-s - t) / 2 ≠ 0 := div_ne_zero hw (by norm_num)
    have hc := integral_collapse (fun a => jacobi 0 0 i a * jacobi 0 0 l a) hh
    rw [show -1 + 2 * ((-s - t) / 2) = -1 - s - t by ring] at hc
    have ho : ∫ a in (-1 : ℝ)..1, jacobi 0 0 i a * jacobi 0 0 l a = if i = l then 1 else 0 := by
      have := jacobi_orthonormal_pow 0 i l
      simpa using this
    rw [ho] at hc
    have e : ∀ r : ℝ, MvPolynomial.eval ![r, s, t] (tetMode i j k) *
        MvPolynomial.eval ![r, s, t] (tetMode l m n) =
        8 * 2 ^ (i + l) * (-s - t) ^ (i + l) * (1 - t) ^ (j + m) *
        (jacobi (2 * i + 1) 0 j (2 * (1 + s) / (1 - t) - 1) *
         jacobi (2 * l + 1) 0 m (2 * (1 + s) / (1 - t) - 1)) *
        (jacobi (2 * (i + j) + 2) 0 k t * jacobi (2 * (l + m) + 2) 0 n t) *
        (jacobi 0 0 i ((1 + r) / ((-s - t) / 2) - 1) * jacobi 0 0 l ((1 + r) / ((-s - t) / 2) - 1)) := by
      intro r
      rw [eval_tetMode_off i j k r s t hw ht, eval_tetMode_off l m n r s t hw ht,
        show (1 + r) / ((-s - t) / 2) = 2 * (1 + r) / (-s - t) by field_simp]
      simp only [pow_add]
      generalize jacobi 0 0 i (2 * (1 + r) / (-s - t) - 1) = x1
      generalize jacobi 0 0 l (2 * (1 + r) / (-s - t) - 1) = x2
      generalize jacobi (2 * (i : ℝ) + 1) 0 j (2 * (1 + s) / (1 - t) - 1) = x3
      generalize jacobi (2 * (l : ℝ) + 1) 0 m (2 * (1 + s) / (1 - t) - 1) = x4
      linear_combination (4 * 2 ^ i * 2 ^ l * (-s - t) ^ i * (-s - t) ^ l * (1 - t) ^ j * (1 - t) ^ m *
        x1 * x2 * x3 * x4 * jacobi (2 * ((i : ℝ) + j) + 2) 0 k t *
        jacobi (2 * ((l : ℝ) + m) + 2) 0 n t) * hsq
    simp only [e]
    rw [intervalIntegral.integral_const_mul, hc]
    rw [pow_succ]; ring
  have middle : ∀ t ∈ Set.uIcc (-1 : ℝ) 1,
      (∫ s in (-1 : ℝ)..-t, ∫ r in (-1 : ℝ)..(-1 - s - t), MvPolynomial.eval ![r, s, t] (tetMode i j k) *
        MvPolynomial.eval ![r, s, t] (tetMode l m n)) =
      (if i = l ∧ j = m then 1 else 0) * ((1 - t) ^ (2 * (i + j) + 2) *
        (jacobi (2 * (i + j) + 2) 0 k t * jacobi (2 * (l + m) + 2) 0 n t)) := by
    intro t _
    by_cases ht : t = 1
    · subst ht
      rw [intervalIntegral.integral_same]; simp
    have hv : (1 : ℝ) - t ≠ 0 := sub_ne_zero.2 (Ne.symm ht)
    rw [intervalIntegral.integral_congr (inner t ht), intervalIntegral.integral_const_mul]
    by_cases hil : i = l
    · subst hil
      have hh : (1 - t) / 2 ≠ 0 := div_ne_zero hv (by norm_num)
      have hc := integral_collapse (fun b => (1 - b) ^ (2 * i + 1) *
        (jacobi (2 * i + 1) 0 j b * jacobi (2 * i + 1) 0 m b)) hh
      rw [show -1 + 2 * ((1 - t) / 2) = -t by ring] at hc
      have ho := jacobi_orthonormal_pow (2 * i + 1) j m
      push_cast at ho
      rw [ho] at hc
      have e : ∀ s : ℝ, 4 * 2 ^ (i + i) * (-s - t) ^ (i + i + 1) * (1 - t) ^ (j + m) *
          (jacobi (2 * i + 1) 0 j (2 * (1 + s) / (1 - t) - 1) *
          jacobi (2 * i + 1) 0 m (2 * (1 + s) / (1 - t) - 1)) *
          (jacobi (2 * (i + j) + 2) 0 k t * jacobi (2 * (i + m) + 2) 0 n t) =
          2 * (1 - t) ^ (2 * i + 1 + (j + m)) *
          (jacobi (2 * (i + j) + 2) 0 k t * jacobi (2 * (i + m) + 2) 0 n t) *
          ((1 - ((1 + s) / ((1 - t) / 2) - 1)) ^ (2 * i + 1) *
          (jacobi (2 * i + 1) 0 j ((1 + s) / ((1 - t) / 2) - 1) *
           jacobi (2 * i + 1) 0 m ((1 + s) / ((1 - t) / 2) - 1))) := by
        intro s
        have e1 : (1 - t) * (1 - ((1 + s) / ((1 - t) / 2) - 1)) = 2 * (-s - t) := by
          field_simp; ring
        have e2 : (1 - t) ^ (2 * i + 1) * (1 - ((1 + s) / ((1 - t) / 2) - 1)) ^ (2 * i + 1) =
            2 ^ (2 * i + 1) * (-s - t) ^ (2 * i + 1) := by rw [← mul_pow, e1, mul_pow]
        have e3 : 2 * (1 + s) / (1 - t) = (1 + s) / ((1 - t) / 2) := by field_simp
        rw [e3, show i + i + 1 = 2 * i + 1 by ring, show i + i = 2 * i by ring, pow_add (1 - t) (2 * i + 1)]
        rw [pow_succ (2 : ℝ)] at e2
        linear_combination -(2 * (1 - t) ^ (j + m) *
          (jacobi (2 * i + 1) 0 j ((1 + s) / ((1 - t) / 2) - 1) *
           jacobi (2 * i + 1) 0 m ((1 + s) / ((1 - t) / 2) - 1)) *
          (jacobi (2 * ((i : ℝ) + j) + 2) 0 k t * jacobi (2 * ((i : ℝ) + m) + 2) 0 n t)) * e2
      simp only [e]
      rw [intervalIntegral.integral_const_mul, hc]
      simp only [true_and, if_true]
      by_cases hjm : j = m
      · subst hjm
        rw [if_pos rfl, show 2 * (i + j) + 2 = 2 * i + 1 + (j + j) + 1 by ring,
          pow_succ (1 - t) (2 * i + 1 + (j + j))]
        ring
      · rw [if_neg hjm]; ring
    · rw [if_neg hil, if_neg (fun h => hil h.1)]; ring
  rw [intervalIntegral.integral_congr middle, intervalIntegral.integral_const_mul]
  by_cases h : i = l ∧ j = m
  · obtain ⟨rfl, rfl⟩ := h
    have := jacobi_orthonormal_pow (2 * (i + j) + 2) k n
    push_cast at this
    rw [if_pos ⟨rfl, rfl⟩, this]
    simp
  · rw [if_neg h, if_neg (fun h' => h ⟨h'.1, h'.2.1⟩), zero_mul]

/-! ## Values and gradients -/

/-- Value and partial derivatives of `(r, w) ↦ w^i p(2(1+r)/w - 1)`. -/
def HomD (p : ℝ[X]) (i : Nat) (r w h dr dw : ℝ) : Prop :=
  hom p i (2 * (1 + r) - w) w = h ∧
  HasDerivAt (fun r' => hom p i (2 * (1 + r') - w) w) dr r ∧
  HasDerivAt (fun w' => hom p i (2 * (1 + r) - w') w') dw w

theorem homD_off (p : ℝ[X]) (i : Nat) (hp : p.natDegree ≤ i) (r w : ℝ) (hw : w ≠ 0) :
    HomD p i r w (w ^ i * p.eval (2 * (1 + r) / w - 1))
      (w ^ i * ((derivative p).eval (2 * (1 + r) / w - 1) * (2 / w)))
      (i * w ^ (i - 1) * p.eval (2 * (1 + r) / w - 1) -
        w ^ i * ((derivative p).eval (2 * (1 + r) / w - 1) * (2 * (1 + r) / w ^ 2))) := by
  have val : ∀ r' w' : ℝ, w' ≠ 0 → hom p i (2 * (1 + r') - w') w' =
      w' ^ i * p.eval (2 * (1 + r') / w' - 1) := by
    intro r' w' hw'
    rw [hom_eq p i hp _ hw', sub_div, div_self hw']
  refine ⟨val r w hw, ?_, ?_⟩
  · have e : (fun r' => hom p i (2 * (1 + r') - w) w) =
        fun r' => w ^ i * p.eval (2 * (1 + r') / w - 1) := by
      funext r'; exact val r' w hw
    have hin : HasDerivAt (fun t : ℝ => 2 * (1 + t) / w - 1) (2 / w) r := by
      have := ((((hasDerivAt_id' r).const_add 1).const_mul 2).div_const w).sub_const 1
      rwa [mul_one] at this
    rw [e]
    exact (HasDerivAt.comp r (p.hasDerivAt (2 * (1 + r) / w - 1)) hin).const_mul (w ^ i)
  · have hin : HasDerivAt (fun t : ℝ => 2 * (1 + r) / t - 1) (-(2 * (1 + r) / w ^ 2)) w := by
      have := ((hasDerivAt_const w (2 * (1 + r))).div (hasDerivAt_id' w) hw).sub_const 1
      have e2 : (0 * w - 2 * (1 + r) * 1) / w ^ 2 = -(2 * (1 + r) / w ^ 2) := by ring
      rw [e2] at this
      exact this
    have hpw : HasDerivAt (fun t : ℝ => t ^ i) (i * w ^ (i - 1) * 1) w := (hasDerivAt_id' w).pow i
    have hd := hpw.mul (HasDerivAt.comp w (p.hasDerivAt (2 * (1 + r) / w - 1)) hin)
    have ev : ↑i * w ^ (i - 1) * p.eval (2 * (1 + r) / w - 1) -
        w ^ i * ((derivative p).eval (2 * (1 + r) / w - 1) * (2 * (1 + r) / w ^ 2)) =
        ↑i * w ^ (i - 1) * 1 * p.eval (2 * (1 + r) / w - 1) +
        w ^ i * ((derivative p).eval (2 * (1 + r) / w - 1) * -(2 * (1 + r) / w ^ 2)) := by ring
    rw [ev]
    refine hd.congr_of_eventuallyEq ?_
    filter_upwards [isOpen_ne.mem_nhds hw] with t ht
    exact val r t ht

theorem homD_zero (p : ℝ[X]) (i : Nat) {w : ℝ} (hw : w = 0) :
    HomD p i (-1) w (if i = 0 then p.coeff 0 else 0) (if i = 1 then 2 * p.coeff 1 else 0)
      (if i = 1 then p.coeff 0 - p.coeff 1 else 0) := by
  subst hw
  refine ⟨?_, ?_, ?_⟩
  · rw [show (2 : ℝ) * (1 + -1) - 0 = 0 by norm_num, hom_zero_zero]
  · have e : (fun r' : ℝ => hom p i (2 * (1 + r') - 0) 0) =
        fun t => hom p i ((t - (-1)) * 2) ((t - (-1)) * 0) := by
      funext t; rw [mul_zero]; congr 1; ring
    have h := hasDerivAt_hom_line p i 2 0 (-1)
    rw [hom_one] at h
    rw [e]
    have ev : (p.coeff 0 * 0 + p.coeff 1 * 2) = 2 * p.coeff 1 := by ring
    rw [ev] at h
    exact h
  · have e : (fun w' : ℝ => hom p i (2 * (1 + -1) - w') w') =
        fun t => hom p i ((t - 0) * (-1)) ((t - 0) * 1) := by
      funext t; rw [sub_zero, mul_one]; congr 1; ring
    have h := hasDerivAt_hom_line p i (-1) 1 0
    rw [hom_one] at h
    rw [e]
    have ev : (p.coeff 0 * 1 + p.coeff 1 * -1) = p.coeff 0 - p.coeff 1 := by ring
    rw [ev] at h
    exact h

/-- Gradient of a tetrahedron mode from those of its factors. -/
theorem tetMode_grad (i j k : Nat) (r s t h1 d1r d1w h2 d2s d2v : ℝ)
    (H1 : HomD (jpoly 0 0 i) i r (-s - t) h1 d1r d1w)
    (H2 : HomD (jpoly (2 * i + 1) 0 j) j s (1 - t) h2 d2s d2v) :
    HasDerivAt (fun x => MvPolynomial.eval ![x, s, t] (tetMode i j k))
      (2 * Real.sqrt 2 * 2 ^ i * d1r * h2 * jacobi (2 * (i + j) + 2) 0 k t) r ∧
    HasDerivAt (fun x => MvPolynomial.eval ![r, x, t] (tetMode i j k))
      (2 * Real.sqrt 2 * 2 ^ i * (-d1w * h2 + h1 * d2s) * jacobi (2 * (i + j) + 2) 0 k t) s ∧
    HasDerivAt (fun x => MvPolynomial.eval ![r, s, x] (tetMode i j k))
      (2 * Real.sqrt 2 * 2 ^ i * ((-d1w * h2 - h1 * d2v) * jacobi (2 * (i + j) + 2) 0 k t +
        h1 * h2 * gradJacobi (2 * (i + j) + 2) 0 k t)) t := by
  obtain ⟨e1, dr1, dw1⟩ := H1
  obtain ⟨e2, ds2, dv2⟩ := H2
  refine ⟨?_, ?_, ?_⟩
  · have hd := ((dr1.const_mul (2 * Real.sqrt 2 * 2 ^ i)).mul_const
      (hom (jpoly (2 * i + 1) 0 j) j (2 * (1 + s) - (1 - t)) (1 - t))).mul_const
      ((jpoly (2 * (i + j) + 2) 0 k).eval t)
    rw [e2, eval_jpoly (params_three i j)] at hd
    simp only [eval_tetMode, e2, eval_jpoly (params_three i j)]
    exact hd
  · have hw : HasDerivAt (fun x : ℝ => -x - t) (-1) s := (hasDerivAt_id' s).neg.sub_const t
    have hd := (((HasDerivAt.comp s dw1 hw).const_mul (2 * Real.sqrt 2 * 2 ^ i)).mul ds2).mul_const
      ((jpoly (2 * (i + j) + 2) 0 k).eval t)
    simp only [Function.comp] at hd
    rw [e1, e2, eval_jpoly (params_three i j)] at hd
    simp only [eval_tetMode, eval_jpoly (params_three i j)]
    have ev : 2 * Real.sqrt 2 * 2 ^ i * (-d1w * h2 + h1 * d2s) * jacobi (2 * (i + j) + 2) 0 k t =
      (2 * Real.sqrt 2 * 2 ^ i * (d1w * -1) * h2 + 2 * Real.sqrt 2 * 2 ^ i * h1 * d2s) *
        jacobi (2 * (i + j) + 2) 0 k t := by ring
    rw [ev]
    exact hd
  · have hw : HasDerivAt (fun x : ℝ => -s - x) (-1) t := (hasDerivAt_id' t).const_sub (-s)
    have hv : HasDerivAt (fun x : ℝ => 1 - x) (-1) t := (hasDerivAt_id' t).const_sub 1
    have hd := (((HasDerivAt.comp t dw1 hw).const_mul (2 * Real.sqrt 2 * 2 ^ i)).mul
      (HasDerivAt.comp t dv2 hv)).mul ((jpoly (2 * (i + j) + 2) 0 k).hasDerivAt t)
    simp only [Function.comp, Pi.mul_apply] at hd
    rw [e1, e2, eval_jpoly (params_three i j), eval_derivative_jpoly (params_three i j)] at hd
    simp only [eval_tetMode]
    have ev : 2 * Real.sqrt 2 * 2 ^ i * ((-d1w * h2 - h1 * d2v) * jacobi (2 * (i + j) + 2) 0 k t +
        h1 * h2 * gradJacobi (2 * (i + j) + 2) 0 k t) =
      (2 * Real.sqrt 2 * 2 ^ i * (d1w * -1) * h2 + 2 * Real.sqrt 2 * 2 ^ i * h1 * (d2v * -1)) *
        jacobi (2 * (i + j) + 2) 0 k t +
      2 * Real.sqrt 2 * 2 ^ i * h1 * h2 * gradJacobi (2 * (i + j) + 2) 0 k t := by ring
    rw [ev]
    exact hd

end Modepy

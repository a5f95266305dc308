import Verif.Proofs.Tetrahedron

/-!
# `grad_pkdo_3d` computes the gradients of the tetrahedron modes
-/

namespace Modepy
open Spec Polynomial MvPolynomial

theorem two_rpow_three_halves (i j : Nat) :
    (2 : ℝ) ^ (2 * (i : ℝ) + j + 1.5) = (2 ^ i) ^ 2 * 2 ^ j * (2 * Real.sqrt 2) := by
  rw [show (2 * (i : ℝ) + j + 1.5) = ((2 * i + j + 1 : Nat) : ℝ) + 0.5 by push_cast; norm_num; ring,
    two_rpow_half, pow_add, pow_add, mul_comm 2 i, pow_mul]
  ring

theorem hasDerivAt_congr_val {f : ℝ → ℝ} {d d' x : ℝ} (h : HasDerivAt f d x) (e : d' = d) :
    HasDerivAt f d' x := e ▸ h

theorem rsttoabc_off (r s t : ℝ) (h1 : 1e-10 < |s + t|) (h2 : 1e-10 < |t - 1|) :
    rsttoabc r s t = (2 * (1 + r) / (-s - t) - 1, 2 * (1 + s) / (1 - t) - 1, t) := by
  rw [rsttoabc]
  simp only [Duck.whereGt, Duck.abs, Duck.lit, id]
  rw [if_pos h1, if_pos h2]

theorem rsttoabc_edge (r t : ℝ) (h2 : 1e-10 < |t - 1|) : rsttoabc r (-t) t = (-1, 1, t) := by
  have ht : t ≠ 1 := by rintro rfl; norm_num at h2
  have hv : (1 : ℝ) - t ≠ 0 := sub_ne_zero.2 (Ne.symm ht)
  rw [rsttoabc]
  simp only [Duck.whereGt, Duck.abs, Duck.lit, id]
  rw [if_neg (by rw [neg_add_cancel, abs_zero]; norm_num), if_pos h2]
  have : 2 * (1 + -t) / (1 - t) - 1 = 1 := by field_simp; ring
  rw [this]

theorem rsttoabc_vertex (r : ℝ) : rsttoabc r (-1 : ℝ) 1 = (-1, -1, 1) := by
  rw [rsttoabc]
  simp only [Duck.whereGt, Duck.abs, Duck.lit, id]
  rw [if_neg (by norm_num), if_neg (by norm_num)]

theorem pkdo3d_off (i j k : Nat) (r s t : ℝ) (h1 : 1e-10 < |s + t|) (h2 : 1e-10 < |t - 1|) :
    pkdo3d i j k r s t = MvPolynomial.eval ![r, s, t] (tetMode i j k) := by
  have ht : t ≠ 1 := by rintro rfl; norm_num at h2
  have hv : (1 : ℝ) - t ≠ 0 := sub_ne_zero.2 (Ne.symm ht)
  have hw : -s - t ≠ 0 := by
    intro h
    have : s + t = 0 := by linarith
    rw [this] at h1; norm_num at h1
  rw [eval_tetMode_off i j k r s t hw ht, pkdo3d, rsttoabc_off r s t h1 h2]
  simp only [Duck.lit, Duck.npow, id]
  have e1 : (1 - t) * (1 - (2 * (1 + s) / (1 - t) - 1)) = 2 * (-s - t) := by
    field_simp; ring
  have e2 : (1 - t) ^ i * (1 - (2 * (1 + s) / (1 - t) - 1)) ^ i = 2 ^ i * (-s - t) ^ i := by
    rw [← mul_pow, e1, mul_pow]
  rw [pow_add]
  generalize jacobi 0 0 i (2 * (1 + r) / (-s - t) - 1) = x1
  generalize jacobi (2 * (i : ℝ) + 1) 0 j (2 * (1 + s) / (1 - t) - 1) = x3
  linear_combination (2 * Real.sqrt 2 * x1 * x3 * (1 - t) ^ j *
    jacobi (2 * ((i : ℝ) + j) + 2) 0 k t) * e2

theorem pkdo3d_edge (i j k : Nat) (t : ℝ) (h2 : 1e-10 < |t - 1|) :
    pkdo3d i j k (-1) (-t) t = MvPolynomial.eval ![-1, -t, t] (tetMode i j k) := by
  have ht : t ≠ 1 := by rintro rfl; norm_num at h2
  have hv : (1 : ℝ) - t ≠ 0 := sub_ne_zero.2 (Ne.symm ht)
  rw [eval_tetMode, pkdo3d, rsttoabc_edge _ t h2, hom_eq _ j (natDegree_jpoly _ _ _) _ hv,
    show 2 * (1 + (-1 : ℝ)) - (- -t - t) = 0 by ring, show - -t - t = 0 by ring, hom_zero_zero,
    eval_jpoly (params_three i j), eval_jpoly (params_two i)]
  have : (2 * (1 + -t) - (1 - t)) / (1 - t) = 1 := by field_simp; ring
  rw [this]
  simp only [Duck.lit, Duck.npow, id, sub_self]
  by_cases hi : i = 0
  · subst hi
    rw [if_pos rfl, hom_jacobi_zero _ (-1) (natDegree_jpoly _ _ _), eval_jpoly params_zero]
    simp only [pow_zero, zero_add]
    ring
  · rw [if_neg hi, zero_pow hi]; ring

theorem pkdo3d_vertex (i j k : Nat) :
    pkdo3d i j k (-1) (-1) (1 : ℝ) = MvPolynomial.eval ![-1, -1, 1] (tetMode i j k) := by
  rw [eval_tetMode, pkdo3d, rsttoabc_vertex,
    show 2 * (1 + (-1 : ℝ)) - (- -1 - 1) = 0 by norm_num, show (- -1 - 1 : ℝ) = 0 by norm_num,
    show 2 * (1 + (-1 : ℝ)) - (1 - 1) = 0 by norm_num, show (1 - 1 : ℝ) = 0 by norm_num,
    hom_zero_zero, hom_zero_zero, eval_jpoly (params_three i j)]
  simp only [Duck.lit, Duck.npow, id, sub_self]
  by_cases hi : i = 0
  · subst hi
    by_cases hj : j = 0
    · subst hj
      rw [if_pos rfl, if_pos rfl, hom_jacobi_zero _ (-1) (natDegree_jpoly _ _ _), eval_jpoly params_zero,
        hom_jacobi_zero _ (-1) (natDegree_jpoly _ _ _), eval_jpoly (params_two _)]
      simp only [pow_zero]
      ring
    · rw [if_neg hj, zero_pow (by omega)]; ring
  · rw [if_neg hi, zero_pow (by omega)]; ring

theorem grad3d_off (i j k : Nat) (r s t : ℝ) (h1 : 1e-10 < |s + t|) (h2 : 1e-10 < |t - 1|) :
    HasDerivAt (fun x => MvPolynomial.eval ![x, s, t] (tetMode i j k)) (gradPkdo3d i j k r s t).1 r ∧
    HasDerivAt (fun x => MvPolynomial.eval ![r, x, t] (tetMode i j k)) (gradPkdo3d i j k r s t).2.1 s ∧
    HasDerivAt (fun x => MvPolynomial.eval ![r, s, x] (tetMode i j k)) (gradPkdo3d i j k r s t).2.2 t := by
  have ht : t ≠ 1 := by rintro rfl; norm_num at h2
  have hv : (1 : ℝ) - t ≠ 0 := sub_ne_zero.2 (Ne.symm ht)
  have hw : -s - t ≠ 0 := by
    intro h
    have : s + t = 0 := by linarith
    rw [this] at h1; norm_num at h1
  have key := tetMode_grad i j k r s t _ _ _ _ _ _
    (homD_off (jpoly 0 0 i) i (natDegree_jpoly _ _ _) r (-s - t) hw)
    (homD_off (jpoly (2 * i + 1) 0 j) j (natDegree_jpoly _ _ _) s (1 - t) hv)
  simp only [eval_jpoly params_zero, eval_jpoly (params_two i), eval_derivative_jpoly params_zero,
    eval_derivative_jpoly (params_two i)] at key
  obtain ⟨kr, ks, kt⟩ := key
  have hdf0 : ∀ x : ℝ, gradJacobi 0 0 0 x = 0 := fun x => by simp [gradJacobi, Duck.lit]
  have hdg0 : ∀ (q : ℝ) (x : ℝ), gradJacobi q 0 0 x = 0 := fun q x => by simp [gradJacobi, Duck.lit]
  -- `w = B v`
  obtain ⟨B, hB⟩ : ∃ B : ℝ, -s - t = B * (1 - t) := ⟨(-s - t) / (1 - t), by field_simp⟩
  have hB0 : B ≠ 0 := by rintro rfl; exact hw (by rw [hB]; ring)
  have hb : 2 * (1 + s) / (1 - t) - 1 = 1 - 2 * B := by
    have : 1 + s = (1 - t) - B * (1 - t) := by linarith
    rw [this]; field_simp; ring
  have hb5 : (0.5 : ℝ) * (1 - (1 - 2 * B)) = B := by norm_num; ring
  have h5 : ∀ (n : Nat) (v : ℝ), (0.5 * v) ^ n = v ^ n / 2 ^ n := by
    intro n v
    rw [mul_pow, show (0.5 : ℝ) = 1 / 2 by norm_num, div_pow, one_pow]; ring
  have hbs : 2 * (1 + s) / (1 - t) ^ 2 = (2 - 2 * B) / (1 - t) := by
    have : 2 * (1 + s) / (1 - t) ^ 2 = (2 * (1 + s) / (1 - t) - 1 + 1) / (1 - t) := by
      field_simp; ring
    rw [this, hb]; ring
  rw [hbs] at kt
  rw [hb] at kr ks kt
  set a : ℝ := 2 * (1 + r) / (-s - t) - 1 with ha
  have hra : 2 * (1 + r) / (-s - t) ^ 2 = (1 + a) / (-s - t) := by rw [ha]; field_simp; ring
  rw [hra] at ks kt
  refine ⟨?_, ?_, ?_⟩
  · refine hasDerivAt_congr_val kr ?_
    rw [gradPkdo3d, rsttoabc_off r s t h1 h2, hb, ← ha]
    simp only [Duck.lit, Duck.npow, Duck.cse, id, two_rpow_three_halves, hb5, h5]
    rw [hB]
    generalize 1 - t = v at hv
    rcases i with _ | i
    · simp [hdf0]
    · rw [if_neg (by omega), if_neg (by omega), show i + 1 + j - 1 = i + j by omega, Nat.add_sub_cancel]
      field_simp
      ring
  · refine hasDerivAt_congr_val ks ?_
    rw [gradPkdo3d, rsttoabc_off r s t h1 h2, hb, ← ha]
    simp only [Duck.lit, Duck.npow, Duck.cse, id, two_rpow_three_halves, hb5, h5]
    rw [hB]
    generalize 1 - t = v at hv
    rcases i with _ | i
    · rcases j with _ | j
      · simp [hdf0, hdg0]
      · rw [if_pos rfl, if_neg (by omega), if_pos rfl, if_neg (by omega), hdf0,
          show 0 + (j + 1) - 1 = j by omega, show (0 : Nat) - 1 = 0 by omega]
        simp only [pow_zero, Nat.cast_zero]
        field_simp
        ring
    · rw [if_neg (by omega), if_neg (by omega), if_neg (by omega), if_neg (by omega),
        show i + 1 + j - 1 = i + j by omega, Nat.add_sub_cancel]
      field_simp
      ring
  · refine hasDerivAt_congr_val kt ?_
    rw [gradPkdo3d, rsttoabc_off r s t h1 h2, hb, ← ha]
    simp only [Duck.lit, Duck.npow, Duck.cse, id, two_rpow_three_halves, hb5, h5]
    rw [hB]
    generalize 1 - t = v at hv
    rcases i with _ | i
    · rcases j with _ | j
      · simp [hdf0, hdg0]
        ring
      · rw [if_pos rfl, if_neg (by omega), if_pos rfl, if_neg (by omega), if_neg (by omega), hdf0,
          show 0 + (j + 1) - 1 = j by omega, show (0 : Nat) - 1 = 0 by omega]
        simp only [pow_zero, Nat.cast_zero, zero_add, Nat.add_sub_cancel]
        field_simp
        ring
    · rw [if_neg (by omega), if_neg (by omega), if_neg (by omega), if_neg (by omega), if_neg (by omega),
        show i + 1 + j - 1 = i + j by omega, Nat.add_sub_cancel]
      rcases j with _ | j
      · simp only [hdg0, Nat.cast_zero]
        field_simp
        ring
      · rw [Nat.add_sub_cancel]
        push_cast
        field_simp
        ring

theorem grad3d_edge (i j k : Nat) (t : ℝ) (h2 : 1e-10 < |t - 1|) :
    HasDerivAt (fun x => MvPolynomial.eval ![x, -t, t] (tetMode i j k))
      (gradPkdo3d i j k (-1) (-t) t).1 (-1) ∧
    HasDerivAt (fun x => MvPolynomial.eval ![-1, x, t] (tetMode i j k))
      (gradPkdo3d i j k (-1) (-t) t).2.1 (-t) ∧
    HasDerivAt (fun x => MvPolynomial.eval ![-1, -t, x] (tetMode i j k))
      (gradPkdo3d i j k (-1) (-t) t).2.2 t := by
  have ht : t ≠ 1 := by rintro rfl; norm_num at h2
  have hv : (1 : ℝ) - t ≠ 0 := sub_ne_zero.2 (Ne.symm ht)
  have hz := homD_zero (jpoly 0 0 i) i (show - -t - t = 0 by ring)
  have key := tetMode_grad i j k (-1) (-t) t _ _ _ _ _ _ hz
    (homD_off (jpoly (2 * i + 1) 0 j) j (natDegree_jpoly _ _ _) (-t) (1 - t) hv)
  have hb : 2 * (1 + -t) / (1 - t) - 1 = 1 := by field_simp; ring
  have hb2 : 2 * (1 + -t) / (1 - t) ^ 2 = 2 / (1 - t) := by field_simp; ring
  rw [hb2, hb] at key
  simp only [eval_jpoly (params_two i), 
    eval_derivative_jpoly (params_two i)] at key
  obtain ⟨kr, ks, kt⟩ := key
  have hdf0 : ∀ x : ℝ, gradJacobi 0 0 0 x = 0 := fun x => by simp [gradJacobi, Duck.lit]
  have hdg0 : ∀ (q : ℝ) (x : ℝ), gradJacobi q 0 0 x = 0 := fun q x => by simp [gradJacobi, Duck.lit]
  have h5 : ∀ (n : Nat) (v : ℝ), (0.5 * v) ^ n = v ^ n / 2 ^ n := by
    intro n v
    rw [mul_pow, show (0.5 : ℝ) = 1 / 2 by norm_num, div_pow, one_pow]; ring
  have hdeg := natDegree_jpoly 0 0 i
  refine ⟨?_, ?_, ?_⟩
  · refine hasDerivAt_congr_val kr ?_
    rw [gradPkdo3d, rsttoabc_edge _ t h2]
    simp only [Duck.lit, Duck.npow, Duck.cse, id, two_rpow_three_halves, h5, sub_self]
    generalize 1 - t = v at hv
    rcases i with _ | _ | i
    · simp [hdf0]
    · obtain ⟨e1, -⟩ := eval_derivative_deg_one _ hdeg (-1)
      rw [eval_derivative_jpoly params_zero] at e1
      rw [← e1, if_neg (by omega), if_neg (by omega), if_pos rfl, show 0 + 1 + j - 1 = j by omega]
      simp only [zero_add, Nat.sub_self, pow_zero, pow_one]
      field_simp
    · rw [if_neg (by omega), if_neg (by omega), if_neg (by omega)]
      simp
  · refine hasDerivAt_congr_val ks ?_
    rw [gradPkdo3d, rsttoabc_edge _ t h2]
    simp only [Duck.lit, Duck.npow, Duck.cse, id, two_rpow_three_halves, h5, sub_self]
    generalize 1 - t = v at hv
    rcases i with _ | _ | i
    · rw [hom_jacobi_zero _ (-1) hdeg, eval_jpoly params_zero, hdf0]
      rcases j with _ | j
      · simp [hdg0]
      · rw [if_pos rfl, if_neg (by omega), if_pos rfl, if_neg (by omega), if_neg (by omega), if_pos rfl,
          show 0 + (j + 1) - 1 = j by omega]
        simp only [pow_zero]
        field_simp
        ring
    · obtain ⟨-, e1⟩ := eval_derivative_deg_one _ hdeg (-1)
      rw [eval_jpoly params_zero] at e1
      rw [e1, if_neg (by omega), if_neg (by omega), if_neg (by omega), if_neg (by omega), if_pos rfl,
        if_neg (by omega), show 0 + 1 + j - 1 = j by omega]
      simp only [zero_add, Nat.sub_self, pow_zero, pow_one, Nat.cast_one]
      field_simp
      ring
    · rw [if_neg (by omega), if_neg (by omega), if_neg (by omega), if_neg (by omega), if_neg (by omega),
        if_neg (by omega)]
      simp
  · refine hasDerivAt_congr_val kt ?_
    rw [gradPkdo3d, rsttoabc_edge _ t h2]
    simp only [Duck.lit, Duck.npow, Duck.cse, id, two_rpow_three_halves, h5, sub_self]
    generalize 1 - t = v at hv
    rcases i with _ | _ | i
    · rw [hom_jacobi_zero _ (-1) hdeg, eval_jpoly params_zero, hdf0]
      rcases j with _ | j
      · simp [hdg0]
        ring
      · rw [if_pos rfl, if_neg (by omega), if_pos rfl, if_neg (by omega), if_neg (by omega),
          if_neg (by omega), if_pos rfl, show 0 + (j + 1) - 1 = j by omega]
        simp only [pow_zero, zero_add, Nat.add_sub_cancel]
        field_simp
        ring
    · obtain ⟨-, e1⟩ := eval_derivative_deg_one _ hdeg (-1)
      rw [eval_jpoly params_zero] at e1
      rw [e1, if_neg (by omega), if_neg (by omega), if_neg (by omega), if_neg (by omega), if_neg (by omega),
        if_pos rfl, if_neg (by omega), show 0 + 1 + j - 1 = j by omega]
      simp only [zero_add, Nat.sub_self, pow_zero, pow_one, Nat.cast_one]
      field_simp
      ring
    · rw [if_neg (by omega), if_neg (by omega), if_neg (by omega), if_neg (by omega), if_neg (by omega),
        if_neg (by omega), if_neg (by omega)]
      simp

theorem grad3d_vertex (i j k : Nat) :
    HasDerivAt (fun x => MvPolynomial.eval ![x, -1, 1] (tetMode i j k))
      (gradPkdo3d i j k (-1) (-1) (1 : ℝ)).1 (-1) ∧
    HasDerivAt (fun x => MvPolynomial.eval ![-1, x, 1] (tetMode i j k))
      (gradPkdo3d i j k (-1) (-1) (1 : ℝ)).2.1 (-1) ∧
    HasDerivAt (fun x => MvPolynomial.eval ![-1, -1, x] (tetMode i j k))
      (gradPkdo3d i j k (-1) (-1) (1 : ℝ)).2.2 1 := by
  have hz := homD_zero (jpoly 0 0 i) i (show (- -1 - 1 : ℝ) = 0 by norm_num)
  have hz2 := homD_zero (jpoly (2 * i + 1) 0 j) j (sub_self (1 : ℝ))
  have key := tetMode_grad i j k (-1) (-1) 1 _ _ _ _ _ _ hz hz2
  obtain ⟨kr, ks, kt⟩ := key
  have hdf0 : ∀ x : ℝ, gradJacobi 0 0 0 x = 0 := fun x => by simp [gradJacobi, Duck.lit]
  have hdg0 : ∀ (q : ℝ) (x : ℝ), gradJacobi q 0 0 x = 0 := fun q x => by simp [gradJacobi, Duck.lit]
  have hdeg := natDegree_jpoly 0 0 i
  have hdeg2 := natDegree_jpoly (2 * i + 1) 0 j
  refine ⟨?_, ?_, ?_⟩
  · refine hasDerivAt_congr_val kr ?_
    rw [gradPkdo3d, rsttoabc_vertex]
    simp only [Duck.lit, Duck.npow, Duck.cse, id, two_rpow_three_halves, sub_self]
    rcases i with _ | _ | i
    · simp [hdf0]
    · rcases j with _ | j
      · obtain ⟨e1, -⟩ := eval_derivative_deg_one _ hdeg (-1)
        rw [eval_derivative_jpoly params_zero] at e1
        rw [← e1, hom_jacobi_zero _ (-1) hdeg2, eval_jpoly (params_two _)]
        norm_num
        ring
      · simp
    · simp
  · refine hasDerivAt_congr_val ks ?_
    rw [gradPkdo3d, rsttoabc_vertex]
    simp only [Duck.lit, Duck.npow, Duck.cse, id, two_rpow_three_halves, sub_self]
    rcases i with _ | _ | i
    · rw [hom_jacobi_zero _ (-1) hdeg, eval_jpoly params_zero, hdf0]
      rcases j with _ | _ | j
      · simp [hdg0]
      · obtain ⟨e1, -⟩ := eval_derivative_deg_one _ hdeg2 (-1)
        rw [eval_derivative_jpoly (params_two _)] at e1
        rw [← e1]
        norm_num
        ring
      · simp
    · rcases j with _ | j
      · obtain ⟨-, e1⟩ := eval_derivative_deg_one _ hdeg (-1)
        rw [eval_jpoly params_zero] at e1
        rw [e1, hom_jacobi_zero _ (-1) hdeg2, eval_jpoly (params_two _), hdg0]
        norm_num
        ring
      · simp
    · simp
  · refine hasDerivAt_congr_val kt ?_
    rw [gradPkdo3d, rsttoabc_vertex]
    simp only [Duck.lit, Duck.npow, Duck.cse, id, two_rpow_three_halves, sub_self]
    rcases i with _ | _ | i
    · rw [hom_jacobi_zero _ (-1) hdeg, eval_jpoly params_zero, hdf0]
      rcases j with _ | _ | j
      · rw [hom_jacobi_zero _ (-1) hdeg2, eval_jpoly (params_two _), hdg0]
        norm_num
        ring
      · obtain ⟨-, e1⟩ := eval_derivative_deg_one _ hdeg2 (-1)
        rw [eval_jpoly (params_two _)] at e1
        rw [e1]
        norm_num
        ring
      · simp
    · rcases j with _ | j
      · obtain ⟨-, e1⟩ := eval_derivative_deg_one _ hdeg (-1)
        rw [eval_jpoly params_zero] at e1
        rw [e1, hom_jacobi_zero _ (-1) hdeg2, eval_jpoly (params_two _), hdg0]
        norm_num
        ring
      · simp
    · simp

end Modepy

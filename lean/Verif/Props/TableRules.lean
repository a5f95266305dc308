import Verif.Proofs.TableClose
import Verif.Proofs.TableCheckWv
import Verif.Proofs.TableCheckJs1
import Verif.Proofs.TableCheckJs2
import Verif.Proofs.TableCheckVr
import Verif.Proofs.TableCheckXg1
import Verif.Proofs.TableCheckXg2
import Verif.Proofs.TableCheckXg3
import Verif.Proofs.TableCheckXg4
import Verif.Props.QuadForSpace

/-!
# Property C74: the rules read from tables

All four tables are part of the model, every entry of them is checked, and the theorems are about every polynomial
of the degree which the rule claims.
-/

namespace Modepy
open Spec Quadrature NdArray MeasureTheory Table

namespace Table

theorem beq_eq {a b : Nat} (h : Nat.beq a b = true) : a = b := Nat.eq_of_beq_eq_true h

/-! ## Witherden-Vincent -/

theorem wv_tabulated2 {r : TableRule} (h : wvOk 2 r = true) :
    TabulatedRule 2 r.quadDegree (cubeSet 2)
      ⟨array2 19 r.points, array1 19 r.weights, some (.num r.quadDegree), none⟩ := by
  have hc := wv_close (q := ⟨array2 19 r.points, array1 19 r.weights, some (.num r.quadDegree), none⟩)
    (fun k => rfl) (fun i k => rfl) h
  simp only [wvOk, Bool.and_eq_true] at h
  obtain ⟨⟨⟨hl, hl'⟩, -⟩, hin, hcheck⟩ := h
  have hl := beq_eq hl
  have hl' := beq_eq hl'
  refine tabulated_cube2 (A := wvScaling) (tn := 1) (td := 10 ^ 14) ?_ rfl rfl
    ⟨hc.D, hc.E, hc.W, hc.u, hc.v, fun k _ => abs_sub_self_le _ _ _ _ rfl⟩ hin (by norm_num) (by norm_num) ?_ ?_
  · show [r.points.length, (r.points.headD []).length] = _
    rw [hl, hl']
  · have e : Nat.mul (Nat.sub 2 2) r.quadDegree = 0 := Nat.zero_mul _
    rw [e] at hcheck
    exact hcheck
  · norm_num

theorem wv_tabulated3 {r : TableRule} (h : wvOk 3 r = true) :
    TabulatedRule 3 r.quadDegree (cubeSet 3)
      ⟨array2 19 r.points, array1 19 r.weights, some (.num r.quadDegree), none⟩ := by
  have hc := wv_close (q := ⟨array2 19 r.points, array1 19 r.weights, some (.num r.quadDegree), none⟩)
    (fun k => rfl) (fun i k => rfl) h
  simp only [wvOk, Bool.and_eq_true] at h
  obtain ⟨⟨⟨hl, hl'⟩, -⟩, hin, hcheck⟩ := h
  have hl := beq_eq hl
  have hl' := beq_eq hl'
  refine tabulated_cube3 (A := wvScaling) (tn := 1) (td := 10 ^ 14) ?_ rfl rfl hc hin (by norm_num) (by norm_num) ?_ ?_
  · show [r.points.length, (r.points.headD []).length] = _
    rw [hl, hl']
  · have e : Nat.mul (Nat.sub 3 2) r.quadDegree = r.quadDegree := Nat.one_mul _
    rw [e] at hcheck
    exact hcheck
  · norm_num

theorem wvQuad_keys : wvQuad.map Prod.fst = [1, 3, 5, 7, 9, 11, 13, 15, 17, 19, 21] := rfl
theorem wvHex_keys : wvHex.map Prod.fst = [1, 3, 5, 7, 9, 11] := rfl

theorem wvQuad_ok : ∀ e ∈ wvQuad, wvOk 2 e.2 = true ∧ (e.2.quadDegree : Int) = e.1 := by
  simp only [wvQuad, List.forall_mem_cons]
  refine ⟨⟨wvQuad_1_ok, rfl⟩, ⟨wvQuad_3_ok, rfl⟩, ⟨wvQuad_5_ok, rfl⟩, ⟨wvQuad_7_ok, rfl⟩, ⟨wvQuad_9_ok, rfl⟩,
    ⟨wvQuad_11_ok, rfl⟩, ⟨wvQuad_13_ok, rfl⟩, ⟨wvQuad_15_ok, rfl⟩, ⟨wvQuad_17_ok, rfl⟩, ⟨wvQuad_19_ok, rfl⟩,
    ⟨wvQuad_21_ok, rfl⟩, by simp⟩

theorem wvHex_ok : ∀ e ∈ wvHex, wvOk 3 e.2 = true ∧ (e.2.quadDegree : Int) = e.1 := by
  simp only [wvHex, List.forall_mem_cons]
  refine ⟨⟨wvHex_1_ok, rfl⟩, ⟨wvHex_3_ok, rfl⟩, ⟨wvHex_5_ok, rfl⟩, ⟨wvHex_7_ok, rfl⟩, ⟨wvHex_9_ok, rfl⟩,
    ⟨wvHex_11_ok, rfl⟩, by simp⟩

end Table

/-- **C74.**  `WitherdenVincentQuadrature(order, dims)` is available for the odd orders up to 21 on squares and up
to 11 on cubes; it has positive weights and points in the cube, and integrates all polynomials of total degree up to
`order`, up to the accuracy of the tables.  Everything else raises `QuadratureRuleUnavailable`. -/
theorem C74_witherden_vincent (order dims : Int) :
    if dims = 2 ∧ order ∈ [1, 3, 5, 7, 9, 11, 13, 15, 17, 19, 21] ∨ dims = 3 ∧ order ∈ [1, 3, 5, 7, 9, 11] then
      ∃ q, witherdenVincent wvQuad wvHex order dims = .ok q ∧
        TabulatedRule dims.toNat order.toNat (cubeSet dims.toNat) q
    else witherdenVincent wvQuad wvHex order dims = .error .QuadratureRuleUnavailable := by
  by_cases h2 : dims = 2
  · subst h2
    simp only [true_and, witherdenVincent, if_true]
    by_cases hm : order ∈ [1, 3, 5, 7, 9, 11, 13, 15, 17, 19, 21]
    · rw [if_pos (Or.inl hm)]
      obtain ⟨r, hr⟩ := lookup_some (t := wvQuad) (k := order) (by rw [wvQuad_keys]; exact hm)
      obtain ⟨hok, hdeg⟩ := wvQuad_ok _ (lookup_mem hr)
      simp only [hr]
      refine ⟨_, rfl, ?_⟩
      have e : order.toNat = r.quadDegree := by
        simp only at hdeg; omega
      rw [e]
      exact wv_tabulated2 hok
    · rw [if_neg (by simpa using hm), lookup_none (by rw [wvQuad_keys]; exact hm)]
  · by_cases h3 : dims = 3
    · subst h3
      simp only [true_and, witherdenVincent]
      by_cases hm : order ∈ [1, 3, 5, 7, 9, 11]
      · rw [if_pos (Or.inr hm)]
        obtain ⟨r, hr⟩ := lookup_some (t := wvHex) (k := order) (by rw [wvHex_keys]; exact hm)
        obtain ⟨hok, hdeg⟩ := wvHex_ok _ (lookup_mem hr)
        rw [if_neg h2, if_pos trivial]
        simp only [hr]
        refine ⟨_, rfl, ?_⟩
        have e : order.toNat = r.quadDegree := by
          simp only at hdeg; omega
        rw [e]
        exact wv_tabulated3 hok
      · rw [if_neg (by simpa using hm), if_neg h2, if_pos trivial, lookup_none (by rw [wvHex_keys]; exact hm)]
    · rw [if_neg (by simp [h2, h3])]
      simp only [witherdenVincent, h2, h3, if_false]

/-! ## Jaskowiec-Sukumar -/

namespace Table

theorem js_tabulated {r : TableRule} (h : jsOk r = true) :
    TabulatedRule 3 r.quadDegree (simplexSet 3)
      ⟨⟨(array2 25 r.points).shape, fun i => 2 * (array2 25 r.points).get i - 1⟩,
        ⟨(array1 25 r.weights).shape, fun i => 4 / 3 * (array1 25 r.weights).get i⟩,
        some (.num r.quadDegree), none⟩ := by
  have hc := js_close (q := ⟨⟨(array2 25 r.points).shape, fun i => 2 * (array2 25 r.points).get i - 1⟩,
        ⟨(array1 25 r.weights).shape, fun i => 4 / 3 * (array1 25 r.weights).get i⟩,
        some (.num r.quadDegree), none⟩)
    (fun k => rfl) (fun i k => rfl) h
  simp only [jsOk, Bool.and_eq_true] at h
  obtain ⟨⟨⟨hl, hl'⟩, -⟩, hin, hcheck⟩ := h
  have hl := beq_eq hl
  have hl' := beq_eq hl'
  refine tabulated_simplex3 (A := jsScaling) (tn := 1) (td := 10 ^ 14) ?_ rfl rfl hc hin (by norm_num) (by norm_num)
    hcheck ?_
  · show [r.points.length, (r.points.headD []).length] = _
    rw [hl, hl']
  · norm_num

theorem jsTet_keys : jsTet.map Prod.fst = [0, 1, 2, 3, 4, 5, 6, 7, 8, 9, 10, 11, 12, 13, 14, 15, 16, 17, 18, 19] := rfl

theorem jsTet_ok : ∀ e ∈ jsTet, jsOk e.2 = true ∧ (e.2.quadDegree : Int) = e.1 + 1 := by
  simp only [jsTet, List.forall_mem_cons]
  refine ⟨⟨jsTet_0_ok, rfl⟩, ⟨jsTet_1_ok, rfl⟩, ⟨jsTet_2_ok, rfl⟩, ⟨jsTet_3_ok, rfl⟩, ⟨jsTet_4_ok, rfl⟩,
    ⟨jsTet_5_ok, rfl⟩, ⟨jsTet_6_ok, rfl⟩, ⟨jsTet_7_ok, rfl⟩, ⟨jsTet_8_ok, rfl⟩, ⟨jsTet_9_ok, rfl⟩,
    ⟨jsTet_10_ok, rfl⟩, ⟨jsTet_11_ok, rfl⟩, ⟨jsTet_12_ok, rfl⟩, ⟨jsTet_13_ok, rfl⟩, ⟨jsTet_14_ok, rfl⟩,
    ⟨jsTet_15_ok, rfl⟩, ⟨jsTet_16_ok, rfl⟩, ⟨jsTet_17_ok, rfl⟩, ⟨jsTet_18_ok, rfl⟩, ⟨jsTet_19_ok, rfl⟩, by simp⟩

end Table

/-- **C74.**  `JaskowiecSukumarQuadrature(order, dims)` is available for `dims = 3` and orders from 0 to 19, and is
exact to degree `order + 1`, up to the accuracy of the tables. -/
theorem C74_jaskowiec_sukumar (order dims : Int) :
    if dims = 3 ∧ 0 ≤ order ∧ order ≤ 19 then
      ∃ q, jaskowiecSukumar jsTet order dims = .ok q ∧ TabulatedRule 3 (order + 1).toNat (simplexSet 3) q
    else jaskowiecSukumar jsTet order dims = .error .QuadratureRuleUnavailable := by
  have hkey : order ∈ jsTet.map Prod.fst ↔ 0 ≤ order ∧ order ≤ 19 := by
    rw [jsTet_keys]; simp only [List.mem_cons, List.not_mem_nil, or_false]; omega
  by_cases h3 : dims = 3
  · simp only [jaskowiecSukumar, h3, true_and, if_true]
    by_cases hm : 0 ≤ order ∧ order ≤ 19
    · rw [if_pos hm]
      obtain ⟨r, hr⟩ := lookup_some (hkey.mpr hm)
      obtain ⟨hok, hdeg⟩ := jsTet_ok _ (lookup_mem hr)
      simp only [hr]
      refine ⟨_, rfl, ?_⟩
      have e : (order + 1).toNat = r.quadDegree := by
        simp only at hdeg; omega
      rw [e]
      exact js_tabulated hok
    · rw [if_neg hm, lookup_none (fun h => hm (hkey.mp h))]
  · rw [if_neg (by simp [h3])]
    simp only [jaskowiecSukumar, h3, if_false]

/-! ## Rules in equilateral coordinates -/

namespace Table

theorem equi_bound {n N : Nat} (hn : n ≤ 1000) (hN : N ≤ 100) :
    ((9 : Nat) : ℝ) / ((10 ^ 15 : Nat) : ℝ) + (n * (((2 : Nat) : ℝ) / ((10 ^ 20 : Nat) : ℝ)) +
      9 * (N * (((2 : Nat) : ℝ) / ((10 ^ 20 : Nat) : ℝ)))) ≤ 1 / 10 ^ 14 := by
  have h1 : (n : ℝ) ≤ 1000 := by exact_mod_cast hn
  have h2 : (N : ℝ) ≤ 100 := by exact_mod_cast hN
  push_cast
  linarith

theorem tri_tabulated {q : Quadrature} {cw : Int} {kw N : Nat} {ws xs ys : List Int}
    (h : triOk cw kw N ws xs ys = true) (hs : q.nodes.shape = [2, ws.length]) (hws : q.weights.shape = [ws.length])
    (he : q.getExactTo = .ok (.num N))
    (hx : ∀ k < ws.length, q.nodes.get [0, k] =
      1 * decimal 35 (xs.getD k 0) + -1 / √3 * decimal 35 (ys.getD k 0) + -1 / 3)
    (hy : ∀ k < ws.length, q.nodes.get [1, k] =
      0 * decimal 35 (xs.getD k 0) + 2 / √3 * decimal 35 (ys.getD k 0) + -1 / 3)
    (hW : bounded (5 * 10 ^ 35) ws = true → ∀ k < ws.length, 0 < wHat (triScaling cw kw) ws k →
      |q.weights.get [k] - (wHat (triScaling cw kw) ws k : ℝ) / ((10 ^ 20 : Nat) : ℝ)| ≤
        ((2 : Nat) : ℝ) / ((10 ^ 20 : Nat) : ℝ)) :
    TabulatedRule 2 N (simplexSet 2) q := by
  simp only [triOk, Bool.and_eq_true] at h
  obtain ⟨⟨⟨-, by'⟩, bw⟩, ⟨hn, hN⟩, hin, hcheck⟩ := h
  have hn := Nat.le_of_ble_eq_true hn
  have hN := Nat.le_of_ble_eq_true hN
  have hins := fun k hk => insideSimplex_spec (allP_conv (triScaling cw kw) _ ws xs ys [] hin k hk)
  refine tabulated_simplex2 (A := triScaling cw kw) (m := 2) (tn := 9) (td := 10 ^ 15) hs hws he
    ⟨Nat.pow_pos (by decide), Nat.pow_pos (by decide), ?_, ?_, ?_, fun k _ => abs_sub_self_le _ _ _ _ rfl⟩ hin
    (by norm_num) (by norm_num) hcheck (equi_bound hn hN)
  · intro k hk
    exact hW bw k hk (by have := (hins k hk).1; omega)
  · intro k hk
    rw [ruleC, hx k hk]
    exact triP_close (bounded_spec by' k) (show 0 < cHat triP xs ys [] k by
      have := (hins k hk).2.1
      have e : cHat (triScaling cw kw).p xs ys [] k = cHat triP xs ys [] k := rfl
      omega)
  · intro k hk
    rw [ruleC, hy k hk]
    exact triQ_close (bounded_spec by' k) (show 0 < cHat triQ xs ys [] k by
      have := (hins k hk).2.2.1
      have e : cHat (triScaling cw kw).q xs ys [] k = cHat triQ xs ys [] k := rfl
      omega)

theorem tet_tabulated {q : Quadrature} {cw : Int} {kw N : Nat} {ws xs ys zs : List Int}
    (h : tetOk cw kw N ws xs ys zs = true) (hs : q.nodes.shape = [3, ws.length]) (hws : q.weights.shape = [ws.length])
    (he : q.getExactTo = .ok (.num N))
    (hx : ∀ k < ws.length, q.nodes.get [0, k] = 1 * decimal 35 (xs.getD k 0) +
      -1 / √3 * decimal 35 (ys.getD k 0) + -1 / √6 * decimal 35 (zs.getD k 0) + -1 / 2)
    (hy : ∀ k < ws.length, q.nodes.get [1, k] = 0 * decimal 35 (xs.getD k 0) +
      2 / √3 * decimal 35 (ys.getD k 0) + -1 / √6 * decimal 35 (zs.getD k 0) + -1 / 2)
    (hz : ∀ k < ws.length, q.nodes.get [2, k] = 0 * decimal 35 (xs.getD k 0) +
      0 * decimal 35 (ys.getD k 0) + √6 / 2 * decimal 35 (zs.getD k 0) + -1 / 2)
    (hW : bounded (5 * 10 ^ 35) ws = true → ∀ k < ws.length, 0 < wHat (tetScaling cw kw) ws k →
      |q.weights.get [k] - (wHat (tetScaling cw kw) ws k : ℝ) / ((10 ^ 20 : Nat) : ℝ)| ≤
        ((2 : Nat) : ℝ) / ((10 ^ 20 : Nat) : ℝ)) :
    TabulatedRule 3 N (simplexSet 3) q := by
  simp only [tetOk, Bool.and_eq_true] at h
  obtain ⟨⟨⟨-, by', bz⟩, bw⟩, ⟨hn, hN⟩, hin, hcheck⟩ := h
  have hn := Nat.le_of_ble_eq_true hn
  have hN := Nat.le_of_ble_eq_true hN
  have hins := fun k hk => insideSimplex_spec (allP_conv (tetScaling cw kw) _ ws xs ys zs hin k hk)
  refine tabulated_simplex3 (A := tetScaling cw kw) (m := 2) (tn := 9) (td := 10 ^ 15) hs hws he
    ⟨Nat.pow_pos (by decide), Nat.pow_pos (by decide), ?_, ?_, ?_, ?_⟩ hin
    (by norm_num) (by norm_num) hcheck (equi_bound hn hN)
  · intro k hk
    exact hW bw k hk (by have := (hins k hk).1; omega)
  · intro k hk
    rw [ruleC, hx k hk]
    exact tetP_close (bounded_spec by' k) (bounded_spec bz k) (show 0 < cHat tetP xs ys zs k by
      have := (hins k hk).2.1
      have e : cHat (tetScaling cw kw).p xs ys zs k = cHat tetP xs ys zs k := rfl
      omega)
  · intro k hk
    rw [ruleC, hy k hk]
    exact tetQ_close (bounded_spec by' k) (bounded_spec bz k) (show 0 < cHat tetQ xs ys zs k by
      have := (hins k hk).2.2.1
      have e : cHat (tetScaling cw kw).q xs ys zs k = cHat tetQ xs ys zs k := rfl
      omega)
  · intro k hk
    rw [ruleC, hz k hk]
    exact tetR_close (bounded_spec bz k) (show 0 < cHat tetR xs ys zs k by
      have := (hins k hk).2.2.2.1
      have e : cHat (tetScaling cw kw).r xs ys zs k = cHat tetR xs ys zs k := rfl
      omega)

theorem ofMatrix_get {d p : Nat} (M : Matrix (Fin d) (Fin p) ℝ) (i j : Nat) (hi : i < d) (hj : j < p) :
    (ofMatrix M).get [i, j] = M ⟨i, hi⟩ ⟨j, hj⟩ := by
  simp only [ofMatrix]
  rw [dif_pos ⟨hi, hj⟩]

theorem map2_call {p : Nat} (M : Matrix (Fin 2) (Fin p) ℝ) (k : Fin p) :
    equilateralToUnitMap2.call M 0 k = 1 * M 0 k + -1 / √3 * M 1 k + -1 / 3 ∧
      equilateralToUnitMap2.call M 1 k = 0 * M 0 k + 2 / √3 * M 1 k + -1 / 3 := by
  constructor <;>
    simp [AffineMap.call, equilateralToUnitMap2, Matrix.vecMul, dotProduct, Fin.sum_univ_two, Matrix.transpose_apply]

theorem map3_call {p : Nat} (M : Matrix (Fin 3) (Fin p) ℝ) (k : Fin p) :
    equilateralToUnitMap3.call M 0 k = 1 * M 0 k + -1 / √3 * M 1 k + -1 / √6 * M 2 k + -1 / 2 ∧
      equilateralToUnitMap3.call M 1 k = 0 * M 0 k + 2 / √3 * M 1 k + -1 / √6 * M 2 k + -1 / 2 ∧
      equilateralToUnitMap3.call M 2 k = 0 * M 0 k + 0 * M 1 k + √6 / 2 * M 2 k + -1 / 2 := by
  refine ⟨?_, ?_, ?_⟩ <;>
    simp [AffineMap.call, equilateralToUnitMap3, Matrix.vecMul, dotProduct, Fin.sum_univ_three, Matrix.transpose_apply]

theorem jacobian2 : equilateralToUnitMap2.jacobian = 2 / √3 := by
  simp [AffineMap.jacobian, equilateralToUnitMap2, Matrix.det_fin_two]

theorem jacobian3 : equilateralToUnitMap3.jacobian = √2 := by
  have h3 : √3 ≠ 0 := by positivity
  have h : √6 = √2 * √3 := by rw [← Real.sqrt_mul (by norm_num)]; norm_num
  simp only [AffineMap.jacobian, equilateralToUnitMap3, Matrix.det_fin_three]
  simp
  rw [h]
  field_simp

theorem total_eq (ws : List Int) (h : nonneg ws = true) : (total ws : ℝ) = (ws.map fun (w : Int) => (w : ℝ)).sum := by
  induction ws with
  | nil => simp [total]
  | cons w ws ih =>
    have e : total (w :: ws) = w.toNat + total ws := rfl
    have h0 : 0 ≤ w := by simpa using nonneg_spec h 0
    have h1 : nonneg ws = true := by
      simp only [nonneg, List.all_cons, Bool.and_eq_true] at h ⊢
      exact h.2
    rw [e, List.map_cons, List.sum_cons, ← ih h1, Nat.cast_add]
    congr 1
    have := Int.toNat_of_nonneg h0
    exact_mod_cast congrArg (fun z : ℤ => (z : ℝ)) this

theorem vr_total (ws : List Int) (h : nonneg ws = true) :
    ((List.range ws.length).map fun k => (array1 35 ws).get [k]).sum = (total ws : ℝ) / 10 ^ 35 := by
  rw [total_eq ws h, div_eq_mul_inv, ← List.sum_map_mul_right]
  congr 1
  apply List.ext_getElem
  · simp
  · intro i h1 h2
    have h3 : i < ws.length := by simpa using h1
    simp [array1, decimal, h3, div_eq_mul_inv]

/-! ## Vioreanu-Rokhlin -/

/-- The weights after rescaling. -/
theorem vr_weight {ws : List Int} (h : nonneg ws = true) (V : ℝ) (k : Nat) :
    (array1 35 ws).get [k] * (V / ((List.range ws.length).map fun k => (array1 35 ws).get [k]).sum) =
      ws.getD k 0 * V / total ws := by
  rw [vr_total ws h]
  show (ws.getD k 0 : ℝ) / 10 ^ 35 * (V / (total ws / 10 ^ 35)) = _
  by_cases h0 : (total ws : ℝ) = 0
  · rw [h0]; simp
  · field_simp

theorem vrTri_tabulated {table : List (Int × TableRule)} {order : Int} {r : TableRule}
    (hr : table.lookup order = some r) (h : vrTriOk r = true) :
    ∃ q, vrBuild equilateralToUnitMap2 2 table order = .ok q ∧ q.nnodes = r.weights.length ∧
      (0 < total r.weights → ∑ k ∈ Finset.range q.nnodes, q.weights.get [k] = 2) ∧
      TabulatedRule 2 r.quadDegree (simplexSet 2) q := by
  simp only [vrTriOk, Bool.and_eq_true] at h
  obtain ⟨⟨hl, hl'⟩, hnn, hok⟩ := h
  have hl := beq_eq hl
  have hl' := beq_eq hl'
  simp only [vrBuild, hr]
  have hp : (array2 35 (processPoints r.points)).shape.getD 1 0 = r.weights.length := hl'
  refine ⟨_, rfl, rfl, ?_, ?_⟩
  · intro ht
    show ∑ k ∈ Finset.range r.weights.length, _ = _
    simp only [vr_weight hnn]
    have e : ∀ k : Nat, (r.weights.getD k 0 : ℝ) * 2 / total r.weights =
        (array1 35 r.weights).get [k] * (2 * 10 ^ 35 / total r.weights) := by
      intro k
      show _ = (r.weights.getD k 0 : ℝ) / 10 ^ 35 * _
      ring
    simp only [e]
    rw [← Finset.sum_mul, Finset.sum_range, ← List.sum_ofFn]
    have e2 : List.ofFn (fun i : Fin r.weights.length => (array1 35 r.weights).get [(i : Nat)]) =
        (List.range r.weights.length).map fun k => (array1 35 r.weights).get [k] := by
      apply List.ext_getElem <;> simp
    rw [e2, vr_total _ hnn]
    have : (total r.weights : ℝ) ≠ 0 := by exact_mod_cast ht.ne'
    field_simp
  · refine tri_tabulated hok ?_ rfl rfl ?_ ?_ ?_
    · show [2, (array2 35 (processPoints r.points)).shape.getD 1 0] = _
      rw [hp]
    · intro k hk
      refine (ofMatrix_get _ 0 k (by norm_num) (by rw [hp]; exact hk)).trans ?_
      exact (map2_call _ _).1
    · intro k hk
      refine (ofMatrix_get _ 1 k (by norm_num) (by rw [hp]; exact hk)).trans ?_
      exact (map2_call _ _).2
    · intro _ k hk hpos
      show |(array1 35 r.weights).get [k] * _ - _| ≤ _
      rw [vr_weight hnn]
      have e : wHat (triScaling (2 * 10 ^ 20) (total r.weights)) r.weights k =
        (2 * 10 ^ 20 * r.weights.getD k 0 / (total r.weights : Int)).toNat := rfl
      rw [e] at hpos ⊢
      have ht : 0 < total r.weights := by
        rcases Nat.eq_zero_or_pos (total r.weights) with h0 | h0
        · rw [h0] at hpos; simp at hpos
        · exact h0
      refine round_close ht hpos ?_
      have e2 : (((2 * 10 ^ 20 * r.weights.getD k 0 : Int)) : ℝ) / (total r.weights : ℝ) -
          10 ^ 20 * ((r.weights.getD k 0 : ℝ) * 2 / total r.weights) = 0 := by
        push_cast; ring
      rw [e2]; simp

theorem vrTet_tabulated {table : List (Int × TableRule)} {order : Int} {r : TableRule}
    (hr : table.lookup order = some r) (h : vrTetOk r = true) :
    ∃ q, vrBuild equilateralToUnitMap3 (4 / 3) table order = .ok q ∧ q.nnodes = r.weights.length ∧
      (0 < total r.weights → ∑ k ∈ Finset.range q.nnodes, q.weights.get [k] = 4 / 3) ∧
      TabulatedRule 3 r.quadDegree (simplexSet 3) q := by
  simp only [vrTetOk, Bool.and_eq_true] at h
  obtain ⟨⟨hl, hl'⟩, hnn, hok⟩ := h
  have hl := beq_eq hl
  have hl' := beq_eq hl'
  simp only [vrBuild, hr]
  have hp : (array2 35 (processPoints r.points)).shape.getD 1 0 = r.weights.length := hl'
  refine ⟨_, rfl, rfl, ?_, ?_⟩
  · intro ht
    show ∑ k ∈ Finset.range r.weights.length, _ = _
    simp only [vr_weight hnn]
    have e : ∀ k : Nat, (r.weights.getD k 0 : ℝ) * (4 / 3) / total r.weights =
        (array1 35 r.weights).get [k] * ((4 / 3) * 10 ^ 35 / total r.weights) := by
      intro k
      show _ = (r.weights.getD k 0 : ℝ) / 10 ^ 35 * _
      ring
    simp only [e]
    rw [← Finset.sum_mul, Finset.sum_range, ← List.sum_ofFn]
    have e2 : List.ofFn (fun i : Fin r.weights.length => (array1 35 r.weights).get [(i : Nat)]) =
        (List.range r.weights.length).map fun k => (array1 35 r.weights).get [k] := by
      apply List.ext_getElem <;> simp
    rw [e2, vr_total _ hnn]
    have : (total r.weights : ℝ) ≠ 0 := by exact_mod_cast ht.ne'
    field_simp
  · refine tet_tabulated hok ?_ rfl rfl ?_ ?_ ?_ ?_
    · show [3, (array2 35 (processPoints r.points)).shape.getD 1 0] = _
      rw [hp]
    · intro k hk
      refine (ofMatrix_get _ 0 k (by norm_num) (by rw [hp]; exact hk)).trans ?_
      exact (map3_call _ _).1
    · intro k hk
      refine (ofMatrix_get _ 1 k (by norm_num) (by rw [hp]; exact hk)).trans ?_
      exact (map3_call _ _).2.1
    · intro k hk
      refine (ofMatrix_get _ 2 k (by norm_num) (by rw [hp]; exact hk)).trans ?_
      exact (map3_call _ _).2.2
    · intro _ k hk hpos
      show |(array1 35 r.weights).get [k] * _ - _| ≤ _
      rw [vr_weight hnn]
      have e : wHat (tetScaling (4 * 10 ^ 20) (Nat.mul 3 (total r.weights))) r.weights k =
        (4 * 10 ^ 20 * r.weights.getD k 0 / ((3 * total r.weights : Nat) : Int)).toNat := rfl
      rw [e] at hpos ⊢
      have ht : 0 < total r.weights := by
        rcases Nat.eq_zero_or_pos (total r.weights) with h0 | h0
        · rw [h0] at hpos; simp at hpos
        · exact h0
      refine round_close (by omega) hpos ?_
      have e2 : (((4 * 10 ^ 20 * r.weights.getD k 0 : Int)) : ℝ) / ((3 * total r.weights : Nat) : ℝ) -
          10 ^ 20 * ((r.weights.getD k 0 : ℝ) * (4 / 3) / total r.weights) = 0 := by
        push_cast; field_simp; ring
      rw [e2]; simp

/-- `quad_degree` in `triangle_data` and `tetrahedron_data`, by order. -/
def vrTriDegrees : List Nat :=
  [1, 2, 4, 5, 7, 8, 10, 12, 14, 15, 17, 19, 20, 22, 24, 25, 27, 28, 30, 32, 33]
def vrTetDegrees : List Nat := [1, 2, 3, 5, 6, 7, 9, 10, 11, 13, 15]

theorem vrTri_keys :
    vrTri.map Prod.fst = [0, 1, 2, 3, 4, 5, 6, 7, 8, 9, 10, 11, 12, 13, 14, 15, 16, 17, 18, 19, 20] := rfl
theorem vrTet_keys : vrTet.map Prod.fst = [0, 1, 2, 3, 4, 5, 6, 7, 8, 9, 10] := rfl

theorem vrTri_data : ∀ e ∈ vrTri, (e.2.quadDegree = vrTriDegrees.getD e.1.toNat 0 ∧
    e.2.weights.length = (e.1.toNat + 1) * (e.1.toNat + 2) / 2) ∧ 0 < total e.2.weights := by
  decide +kernel

theorem vrTet_data : ∀ e ∈ vrTet, (e.2.quadDegree = vrTetDegrees.getD e.1.toNat 0 ∧
    e.2.weights.length = (e.1.toNat + 1) * (e.1.toNat + 2) * (e.1.toNat + 3) / 6) ∧ 0 < total e.2.weights := by
  decide +kernel

theorem vrTri_ok : ∀ e ∈ vrTri, vrTriOk e.2 = true := by
  simp only [vrTri, List.forall_mem_cons]
  exact ⟨vrTri_0_ok, vrTri_1_ok, vrTri_2_ok, vrTri_3_ok, vrTri_4_ok, vrTri_5_ok, vrTri_6_ok, vrTri_7_ok, vrTri_8_ok,
    vrTri_9_ok, vrTri_10_ok, vrTri_11_ok, vrTri_12_ok, vrTri_13_ok, vrTri_14_ok, vrTri_15_ok, vrTri_16_ok, vrTri_17_ok,
    vrTri_18_ok, vrTri_19_ok, vrTri_20_ok, by simp⟩

theorem vrTet_ok : ∀ e ∈ vrTet, vrTetOk e.2 = true := by
  simp only [vrTet, List.forall_mem_cons]
  exact ⟨vrTet_0_ok, vrTet_1_ok, vrTet_2_ok, vrTet_3_ok, vrTet_4_ok, vrTet_5_ok, vrTet_6_ok, vrTet_7_ok, vrTet_8_ok,
    vrTet_9_ok, vrTet_10_ok, by simp⟩

end Table

/-- **C74.**  `VioreanuRokhlinSimplexQuadrature(order, dims)` is available on triangles for orders from 0 to 20 and on
tetrahedra for orders from 0 to 10.  It has as many nodes as the polynomials of degree `order` have dimensions, its
weights add up to the volume of the simplex, and it is exact to the degree in the table, up to the accuracy of the
tables. -/
theorem C74_vioreanu_rokhlin (order dims : Int) :
    if dims = 2 ∧ 0 ≤ order ∧ order ≤ 20 then
      ∃ q, vioreanuRokhlin vrTri vrTet order dims = .ok q ∧ q.nnodes = (order.toNat + 1) * (order.toNat + 2) / 2 ∧
        ∑ k ∈ Finset.range q.nnodes, q.weights.get [k] = 2 ∧
        TabulatedRule 2 (vrTriDegrees.getD order.toNat 0) (simplexSet 2) q
    else if dims = 3 ∧ 0 ≤ order ∧ order ≤ 10 then
      ∃ q, vioreanuRokhlin vrTri vrTet order dims = .ok q ∧
        q.nnodes = (order.toNat + 1) * (order.toNat + 2) * (order.toNat + 3) / 6 ∧
        ∑ k ∈ Finset.range q.nnodes, q.weights.get [k] = 4 / 3 ∧
        TabulatedRule 3 (vrTetDegrees.getD order.toNat 0) (simplexSet 3) q
    else vioreanuRokhlin vrTri vrTet order dims = .error .QuadratureRuleUnavailable := by
  have hkey2 : order ∈ vrTri.map Prod.fst ↔ 0 ≤ order ∧ order ≤ 20 := by
    rw [vrTri_keys]; simp only [List.mem_cons, List.not_mem_nil, or_false]; omega
  have hkey3 : order ∈ vrTet.map Prod.fst ↔ 0 ≤ order ∧ order ≤ 10 := by
    rw [vrTet_keys]; simp only [List.mem_cons, List.not_mem_nil, or_false]; omega
  by_cases h2 : dims = 2
  · subst h2
    have h3 : ¬(2 : Int) = 3 := by decide
    simp only [vioreanuRokhlin, true_and, if_true, h3, false_and, if_false]
    by_cases hm : 0 ≤ order ∧ order ≤ 20
    · rw [if_pos hm]
      obtain ⟨r, hr⟩ := lookup_some (hkey2.mpr hm)
      have hmem := lookup_mem hr
      obtain ⟨⟨hd, hn⟩, ht⟩ := vrTri_data _ hmem
      obtain ⟨q, h1, h2, h3, h4⟩ := vrTri_tabulated hr (vrTri_ok _ hmem)
      exact ⟨q, h1, h2.trans hn, h3 ht, hd ▸ h4⟩
    · rw [if_neg hm, vrBuild, lookup_none (fun h => hm (hkey2.mp h))]
  · rw [if_neg (by simp [h2])]
    by_cases h3 : dims = 3
    · subst h3
      simp only [vioreanuRokhlin, true_and, if_true, h2, if_false]
      by_cases hm : 0 ≤ order ∧ order ≤ 10
      · rw [if_pos hm]
        obtain ⟨r, hr⟩ := lookup_some (hkey3.mpr hm)
        have hmem := lookup_mem hr
        obtain ⟨⟨hd, hn⟩, ht⟩ := vrTet_data _ hmem
        obtain ⟨q, h1, h2, h3, h4⟩ := vrTet_tabulated hr (vrTet_ok _ hmem)
        exact ⟨q, h1, h2.trans hn, h3 ht, hd ▸ h4⟩
      · rw [if_neg hm, vrBuild, lookup_none (fun h => hm (hkey3.mp h))]
    · rw [if_neg (by simp [h3])]
      simp only [vioreanuRokhlin, h2, h3, if_false]

/-! ## Xiao-Gimbutas -/

namespace Table

theorem getD_column (rows : List (List Int)) (i k : Nat) :
    (column i rows).getD k 0 = (rows.getD k []).getD i 0 := by
  simp only [column, List.getD_eq_getElem?_getD, List.getElem?_map]
  cases rows[k]? <;> simp

theorem xgTri_tabulated {N : Nat} {r : XgTableRule} (h : xgTriOk N r = true) :
    TabulatedRule 2 N (simplexSet 2) (xgBuild equilateralToUnitMap2 (r.toRule 2) N) := by
  simp only [xgTriOk, Bool.and_eq_true, Int.toNat_natCast] at h
  obtain ⟨hl, hok⟩ := h
  refine tri_tabulated hok rfl rfl rfl ?_ ?_ ?_
  · intro k hk
    refine (ofMatrix_get _ 0 k (by norm_num) hk).trans ?_
    rw [getD_column, getD_column]
    exact (map2_call _ _).1
  · intro k hk
    refine (ofMatrix_get _ 1 k (by norm_num) hk).trans ?_
    rw [getD_column, getD_column]
    exact (map2_call _ _).2
  · intro hb k hk hpos
    have e0 : (xgBuild equilateralToUnitMap2 (r.toRule 2) N).weights.get [k] =
        decimal 35 (r.weights.getD k 0) * (2 / √3) := by
      rw [← jacobian2]
      show (if h : k < r.weights.length then _ else _) = _
      rw [dif_pos hk]
      rfl
    rw [e0]
    have e : wHat (triScaling (2 * sqrt3inv) (10 ^ 39)) r.weights k =
      (2 * (sqrt3inv : Int) * r.weights.getD k 0 / ((10 ^ 39 : Nat) : Int)).toNat := rfl
    rw [e] at hpos ⊢
    refine round_close (by norm_num) hpos ?_
    have hh := entry_err (bounded_spec hb k) sqrt3inv_close
    have e2 : (((2 * (sqrt3inv : Int) * r.weights.getD k 0 : Int)) : ℝ) / ((10 ^ 39 : Nat) : ℝ) -
        10 ^ 20 * (decimal 35 (r.weights.getD k 0) * (2 / √3)) =
        -(2 * ((r.weights.getD k 0 : ℝ) * (10 ^ 24 * (1 / √3) - (sqrt3inv : ℝ))) / 10 ^ 39) := by
      simp only [decimal]; push_cast; ring
    rw [e2, abs_neg, abs_div, abs_mul, abs_of_pos (by positivity : (0 : ℝ) < 2),
      abs_of_pos (by positivity : (0 : ℝ) < 10 ^ 39), div_le_one (by positivity)]
    push_cast at hh
    linarith

theorem xgTet_tabulated {N : Nat} {r : XgTableRule} (h : xgTetOk N r = true) :
    TabulatedRule 3 N (simplexSet 3) (xgBuild equilateralToUnitMap3 (r.toRule 3) N) := by
  simp only [xgTetOk, Bool.and_eq_true, Int.toNat_natCast] at h
  obtain ⟨hl, hok⟩ := h
  refine tet_tabulated hok rfl rfl rfl ?_ ?_ ?_ ?_
  · intro k hk
    refine (ofMatrix_get _ 0 k (by norm_num) hk).trans ?_
    rw [getD_column, getD_column, getD_column]
    exact (map3_call _ _).1
  · intro k hk
    refine (ofMatrix_get _ 1 k (by norm_num) hk).trans ?_
    rw [getD_column, getD_column, getD_column]
    exact (map3_call _ _).2.1
  · intro k hk
    refine (ofMatrix_get _ 2 k (by norm_num) hk).trans ?_
    rw [getD_column, getD_column, getD_column]
    exact (map3_call _ _).2.2
  · intro hb k hk hpos
    have e0 : (xgBuild equilateralToUnitMap3 (r.toRule 3) N).weights.get [k] =
        decimal 35 (r.weights.getD k 0) * √2 := by
      rw [← jacobian3]
      show (if h : k < r.weights.length then _ else _) = _
      rw [dif_pos hk]
      rfl
    rw [e0]
    have e : wHat (tetScaling sqrt2 (10 ^ 39)) r.weights k =
      ((sqrt2 : Int) * r.weights.getD k 0 / ((10 ^ 39 : Nat) : Int)).toNat := rfl
    rw [e] at hpos ⊢
    refine round_close (by norm_num) hpos ?_
    have hh := entry_err (bounded_spec hb k) sqrt2_close
    have e2 : ((((sqrt2 : Int) * r.weights.getD k 0 : Int)) : ℝ) / ((10 ^ 39 : Nat) : ℝ) -
        10 ^ 20 * (decimal 35 (r.weights.getD k 0) * √2) =
        -(((r.weights.getD k 0 : ℝ) * (10 ^ 24 * √2 - (sqrt2 : ℝ))) / 10 ^ 39) := by
      simp only [decimal]; push_cast; ring
    rw [e2, abs_neg, abs_div, abs_of_pos (by positivity : (0 : ℝ) < 10 ^ 39), div_le_one (by positivity)]
    push_cast at hh
    linarith

theorem xgTri_keys : xgTri.map Prod.fst = [1, 2, 3, 4, 5, 6, 7, 8, 9, 10, 11, 12, 13, 14, 15, 16, 17, 18, 19, 20,
    21, 22, 23, 24, 25, 26, 27, 28, 29, 30, 31, 32, 33, 34, 35, 36, 37, 38, 39, 40, 41, 42, 43, 44, 45, 46, 47, 48,
    49, 50] := rfl
theorem xgTet_keys : xgTet.map Prod.fst = [1, 2, 3, 4, 5, 6, 7, 8, 9, 10, 11, 12, 13, 14, 15] := rfl

theorem xgTri_ok : ∀ e ∈ xgTri, xgTriOk e.1 e.2 = true := by
  simp only [xgTri, List.forall_mem_cons]
  exact ⟨xgTri_1_ok, xgTri_2_ok, xgTri_3_ok, xgTri_4_ok, xgTri_5_ok, xgTri_6_ok, xgTri_7_ok, xgTri_8_ok, xgTri_9_ok, xgTri_10_ok, xgTri_11_ok, xgTri_12_ok, xgTri_13_ok, xgTri_14_ok, xgTri_15_ok, xgTri_16_ok, xgTri_17_ok, xgTri_18_ok, xgTri_19_ok, xgTri_20_ok, xgTri_21_ok, xgTri_22_ok, xgTri_23_ok, xgTri_24_ok, xgTri_25_ok, xgTri_26_ok, xgTri_27_ok, xgTri_28_ok, xgTri_29_ok, xgTri_30_ok, xgTri_31_ok, xgTri_32_ok, xgTri_33_ok, xgTri_34_ok, xgTri_35_ok, xgTri_36_ok, xgTri_37_ok, xgTri_38_ok, xgTri_39_ok, xgTri_40_ok, xgTri_41_ok, xgTri_42_ok, xgTri_43_ok, xgTri_44_ok, xgTri_45_ok, xgTri_46_ok, xgTri_47_ok, xgTri_48_ok, xgTri_49_ok, xgTri_50_ok, by simp⟩

theorem xgTet_ok : ∀ e ∈ xgTet, xgTetOk e.1 e.2 = true := by
  simp only [xgTet, List.forall_mem_cons]
  exact ⟨xgTet_1_ok, xgTet_2_ok, xgTet_3_ok, xgTet_4_ok, xgTet_5_ok, xgTet_6_ok, xgTet_7_ok, xgTet_8_ok, xgTet_9_ok, xgTet_10_ok, xgTet_11_ok, xgTet_12_ok, xgTet_13_ok, xgTet_14_ok, xgTet_15_ok, by simp⟩

end Table

/-- The Xiao-Gimbutas tables of the package. -/
noncomputable def xgTables : XgTables := XgTables.ofData xgTri xgTet

/-- **C74.**  `XiaoGimbutasSimplexQuadrature(order, dims)` is available on triangles for orders from 1 to 50 and on
tetrahedra for orders from 1 to 15, and is exact to degree `order`, up to the accuracy of the tables. -/
theorem C74_xiao_gimbutas (order dims : Nat) :
    if dims = 2 ∧ 1 ≤ order ∧ order ≤ 50 ∨ dims = 3 ∧ 1 ≤ order ∧ order ≤ 15 then
      ∃ q, xiaoGimbutas xgTables order dims = .ok q ∧ TabulatedRule dims order (simplexSet dims) q
    else xiaoGimbutas xgTables order dims = .error .QuadratureRuleUnavailable := by
  have hkey2 : (order : Int) ∈ xgTri.map Prod.fst ↔ 1 ≤ order ∧ order ≤ 50 := by
    rw [xgTri_keys]; simp only [List.mem_cons, List.not_mem_nil, or_false]; omega
  have hkey3 : (order : Int) ∈ xgTet.map Prod.fst ↔ 1 ≤ order ∧ order ≤ 15 := by
    rw [xgTet_keys]; simp only [List.mem_cons, List.not_mem_nil, or_false]; omega
  by_cases h2 : dims = 2
  · subst h2
    have h3 : ¬(2 : Nat) = 3 := by decide
    simp only [xiaoGimbutas, true_and, if_true, h3, false_and, or_false, xgTables, XgTables.ofData]
    by_cases hm : 1 ≤ order ∧ order ≤ 50
    · rw [if_pos hm]
      obtain ⟨r, hr⟩ := lookup_some (hkey2.mpr hm)
      simp only [hr, Option.map_some]
      exact ⟨_, rfl, xgTri_tabulated (xgTri_ok _ (lookup_mem hr))⟩
    · rw [if_neg hm, lookup_none (fun h => hm (hkey2.mp h))]
      rfl
  · by_cases h3 : dims = 3
    · subst h3
      simp only [xiaoGimbutas, true_and, if_true, h2, false_and, false_or, if_false, xgTables, XgTables.ofData]
      by_cases hm : 1 ≤ order ∧ order ≤ 15
      · rw [if_pos hm]
        obtain ⟨r, hr⟩ := lookup_some (hkey3.mpr hm)
        simp only [hr, Option.map_some]
        exact ⟨_, rfl, xgTet_tabulated (xgTet_ok _ (lookup_mem hr))⟩
      · rw [if_neg hm, lookup_none (fun h => hm (hkey3.mp h))]
        rfl
    · rw [if_neg (by simp [h2, h3])]
      simp only [xiaoGimbutas, h2, h3, if_false]

/-- **C74.**  `quadrature_for_space` with the tables of the package: on triangles up to order 50 and tetrahedra up to
order 15 (from order 1) the rule is exact up to the accuracy of the tables, with positive weights and nodes in the
simplex; in all other cases it integrates every function of the space exactly. -/
theorem C74_quadrature_for_space (ext : Ext) (hext : ext.EighOk) (s : PNSpace) :
    ∃ q, quadratureForSpace ext xgTables (.pn s) (.simplex s.spatialDim) = .ok q ∧
      if s.spatialDim = 2 ∧ 1 ≤ s.order ∧ s.order ≤ 50 ∨ s.spatialDim = 3 ∧ 1 ≤ s.order ∧ s.order ≤ 15 then
        TabulatedRule s.spatialDim s.order (simplexSet s.spatialDim) q
      else ∀ F, InPN s F → q.call F = Spec.simplexIntegral s.spatialDim F := by
  obtain ⟨d, N⟩ := s
  have h := C74_xiao_gimbutas N d
  simp only
  by_cases hc : d = 2 ∧ 1 ≤ N ∧ N ≤ 50 ∨ d = 3 ∧ 1 ≤ N ∧ N ≤ 15
  · rw [if_pos hc] at h
    obtain ⟨q, hq, hT⟩ := h
    refine ⟨q, ?_, by rw [if_pos hc]; exact hT⟩
    have h0 : d ≠ 0 := by omega
    have h1 : d ≠ 1 := by omega
    have he : q.exactTo = some (.num N) := by
      have := hT.exactTo
      rw [getExactTo] at this
      cases h : q.exactTo with
      | none => rw [h] at this; simp at this
      | some e => rw [h] at this; simpa using this
    simp only [quadratureForSpace, quadratureForPn, ne_eq, not_true_eq_false, if_false, h0, h1, hq]
    rw [assertExact_eq _ _ he trivial, if_pos (le_refl _)]
  · rw [if_neg hc] at h
    obtain ⟨q, e, h1, -, -, -, -, -, -, h7⟩ :=
      pn_facts ext hext ⟨fun _ => none, fun _ => none⟩ ⟨by simp, by simp⟩ ⟨d, N⟩
    refine ⟨q, ?_, by rw [if_neg hc]; exact h7⟩
    have hx : xiaoGimbutas ⟨fun _ => none, fun _ => none⟩ N d = .error .QuadratureRuleUnavailable := by
      simp [xiaoGimbutas]
    rw [← h1]
    simp only [quadratureForSpace, quadratureForPn, h, hx]

/-! ## Cases -/

/-- The rule of degree 15 on the tetrahedron integrates `((x+1)/2)^10 ((y+1)/2)^5`. -/
example : ∃ q, xiaoGimbutas xgTables 15 3 = .ok q ∧
    |q.call (polyValue [(1, [10, 5, 0])]) - ∫ x in simplexSet 3, polyValue [(1, [10, 5, 0])] (List.ofFn x)| ≤
      1 / 10 ^ 14 := by
  have h := C74_xiao_gimbutas 15 3
  rw [if_pos (by norm_num)] at h
  obtain ⟨q, h1, h2⟩ := h
  refine ⟨q, h1, ?_⟩
  simpa using h2.accurate [(1, [10, 5, 0])] (by simp)

/-- The triangle rule of order 50 has only positive weights; there is none of order 51. -/
example : (∃ q, xiaoGimbutas xgTables 50 2 = .ok q ∧ ∀ k < q.nnodes, 0 < q.weights.get [k]) ∧
    xiaoGimbutas xgTables 51 2 = .error .QuadratureRuleUnavailable := by
  have h := C74_xiao_gimbutas 50 2
  have h' := C74_xiao_gimbutas 51 2
  rw [if_pos (by norm_num)] at h
  rw [if_neg (by norm_num)] at h'
  obtain ⟨q, h1, h2⟩ := h
  exact ⟨⟨q, h1, h2.positive⟩, h'⟩

example : ∃ q, vioreanuRokhlin vrTri vrTet 20 2 = .ok q ∧ q.nnodes = 231 ∧ q.getExactTo = .ok (.num 33) := by
  have h := C74_vioreanu_rokhlin 20 2
  rw [if_pos (by norm_num)] at h
  obtain ⟨q, h1, h2, -, h4⟩ := h
  exact ⟨q, h1, h2, h4.exactTo⟩

end Modepy

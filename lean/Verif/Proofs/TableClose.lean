import Verif.Proofs.TableScaling

/-!
# The rules built from tables are close to the numbers that are checked
-/

namespace Modepy.Table
open Spec Quadrature NdArray

theorem lookup_mem {α : Type} {t : List (Int × α)} {k : Int} {r : α} (h : t.lookup k = some r) : (k, r) ∈ t := by
  induction t with
  | nil => simp at h
  | cons e t ih =>
    obtain ⟨a, b⟩ := e
    rw [List.lookup_cons] at h
    by_cases hk : k = a
    · subst hk
      simp at h
      simp [h]
    · have hf : (k == a) = false := by simpa using hk
      rw [hf] at h
      exact List.mem_cons_of_mem _ (ih h)

theorem lookup_none {α : Type} {t : List (Int × α)} {k : Int} (h : k ∉ t.map Prod.fst) : t.lookup k = none := by
  induction t with
  | nil => rfl
  | cons e t ih =>
    obtain ⟨a, b⟩ := e
    simp only [List.map_cons, List.mem_cons, not_or] at h
    have hf : (k == a) = false := by simpa using h.1
    rw [List.lookup_cons, hf]
    exact ih h.2

theorem lookup_some {α : Type} {t : List (Int × α)} {k : Int} (h : k ∈ t.map Prod.fst) : ∃ r, t.lookup k = some r := by
  cases hl : t.lookup k with
  | some r => exact ⟨r, rfl⟩
  | none =>
    exfalso
    induction t with
    | nil => simp at h
    | cons e t ih =>
      obtain ⟨a, b⟩ := e
      rw [List.lookup_cons] at hl
      by_cases hk : k = a
      · subst hk; simp at hl
      · have hf : (k == a) = false := by simpa using hk
        rw [hf] at hl
        refine ih ?_ hl
        simpa [hk] using h

/-! ## Exact conversions -/

theorem toNat_div_one (n : Int) (h : 0 ≤ n) : (((n / ((1 : Nat) : Int)).toNat : Nat) : ℝ) = n := by
  rw [Nat.cast_one, Int.ediv_one]
  have := Int.toNat_of_nonneg h
  exact_mod_cast congrArg (fun z : ℤ => (z : ℝ)) this

theorem abs_sub_self_le (x y : ℝ) (m : Nat) (D : Nat) (h : x = y) : |x - y| ≤ (m : ℝ) / D := by
  rw [h, sub_self, abs_zero]; positivity

section wv
variable {d : Nat} {r : TableRule} {q : Quadrature}

theorem wv_close (hw : ∀ k, q.weights.get [k] = decimal 19 (r.weights.getD k 0))
    (hx : ∀ i k, q.nodes.get [i, k] = decimal 19 ((r.points.getD i []).getD k 0)) (h : wvOk d r = true) :
    Close wvScaling 0 r.weights (r.points.getD 0 []) (r.points.getD 1 []) (r.points.getD 2 []) (ruleW q) (ruleC q 0)
      (ruleC q 1) (ruleC q 2) := by
  simp only [wvOk, Bool.and_eq_true] at h
  obtain ⟨⟨-, b1, b2, b3⟩, hin, -⟩ := h
  have hcoord : ∀ x : Int, -((10 ^ 19 : Nat) : ℤ) ≤ x → ∀ n : Int, n = 10 ^ 19 + x →
      (decimal 19 x + 1) / 2 = (((n / ((1 : Nat) : Int)).toNat : Nat) : ℝ) / ((2 * 10 ^ 19 : Nat) : ℝ) := by
    intro x hx n hn
    rw [toNat_div_one n (by rw [hn]; push_cast at hx; linarith), hn, decimal]
    push_cast
    ring
  refine ⟨by decide, by decide, ?_, ?_, ?_, ?_⟩
  · intro k hk
    refine abs_sub_self_le _ _ _ _ ?_
    have h0 := (insideCube_spec (allP_conv wvScaling _ _ _ _ _ hin k hk)).1
    have e : wHat wvScaling r.weights k = (1 * r.weights.getD k 0 / ((1 : Nat) : Int)).toNat := rfl
    rw [e] at h0 ⊢
    have h1 : 0 ≤ 1 * r.weights.getD k 0 := by
      rw [Nat.cast_one, Int.ediv_one] at h0; omega
    rw [toNat_div_one _ h1, ruleW, hw, decimal, one_mul]
    congr 1
    show (10 : ℝ) ^ 19 = ((10 ^ 19 : Nat) : ℝ)
    norm_num
  · intro k hk
    refine abs_sub_self_le _ _ _ _ ?_
    rw [ruleC, hx]
    exact hcoord _ (bounded_spec b1 k).1 _ (by simp only [wvScaling, Aff.num]; ring)
  · intro k hk
    refine abs_sub_self_le _ _ _ _ ?_
    rw [ruleC, hx]
    exact hcoord _ (bounded_spec b2 k).1 _ (by simp only [wvScaling, Aff.num]; ring)
  · intro k hk
    refine abs_sub_self_le _ _ _ _ ?_
    rw [ruleC, hx]
    exact hcoord _ (bounded_spec b3 k).1 _ (by simp only [wvScaling, Aff.num]; ring)

theorem js_close (hw : ∀ k, q.weights.get [k] = 4 / 3 * decimal 25 (r.weights.getD k 0))
    (hx : ∀ i k, q.nodes.get [i, k] = 2 * decimal 25 ((r.points.getD i []).getD k 0) - 1) (h : jsOk r = true) :
    Close jsScaling 0 r.weights (r.points.getD 0 []) (r.points.getD 1 []) (r.points.getD 2 []) (ruleW q) (ruleC q 0)
      (ruleC q 1) (ruleC q 2) := by
  simp only [jsOk, Bool.and_eq_true] at h
  obtain ⟨⟨-, b1, b2, b3⟩, hin, -⟩ := h
  have hcoord : ∀ x : Int, 0 ≤ x → ∀ n : Int, n = x →
      (2 * decimal 25 x - 1 + 1) / 2 = (((n / ((1 : Nat) : Int)).toNat : Nat) : ℝ) / ((10 ^ 25 : Nat) : ℝ) := by
    intro x hx n hn
    rw [toNat_div_one n (by rw [hn]; exact hx), hn, decimal]
    push_cast
    ring
  refine ⟨by decide, by decide, ?_, ?_, ?_, ?_⟩
  · intro k hk
    refine abs_sub_self_le _ _ _ _ ?_
    have h0 := (insideSimplex_spec (allP_conv jsScaling _ _ _ _ _ hin k hk)).1
    have e : wHat jsScaling r.weights k = (4 * r.weights.getD k 0 / ((1 : Nat) : Int)).toNat := rfl
    rw [e] at h0 ⊢
    have h1 : 0 ≤ 4 * r.weights.getD k 0 := by
      rw [Nat.cast_one, Int.ediv_one] at h0; omega
    rw [toNat_div_one _ h1, ruleW, hw, decimal]
    have e2 : ((jsScaling.E : Nat) : ℝ) = 3 * 10 ^ 25 := by
      show ((3 * 10 ^ 25 : Nat) : ℝ) = _
      norm_num
    rw [e2]
    push_cast
    ring
  · intro k hk
    refine abs_sub_self_le _ _ _ _ ?_
    rw [ruleC, hx]
    exact hcoord _ (nonneg_spec b1 k) _ (by simp only [jsScaling, Aff.num]; ring)
  · intro k hk
    refine abs_sub_self_le _ _ _ _ ?_
    rw [ruleC, hx]
    exact hcoord _ (nonneg_spec b2 k) _ (by simp only [jsScaling, Aff.num]; ring)
  · intro k hk
    refine abs_sub_self_le _ _ _ _ ?_
    rw [ruleC, hx]
    exact hcoord _ (nonneg_spec b3 k) _ (by simp only [jsScaling, Aff.num]; ring)

end wv

/-! ## Equilateral coordinates -/

theorem sqrt_close (x : ℝ) (n : Nat) (h1 : (n : ℝ) ^ 2 ≤ x) (h2 : x ≤ ((n : ℝ) + 1) ^ 2) : |√x - n| ≤ 1 := by
  have a1 : (n : ℝ) ≤ √x := Real.le_sqrt_of_sq_le h1
  have a2 : √x ≤ (n : ℝ) + 1 := (Real.sqrt_le_left (by positivity)).mpr h2
  rw [abs_le]; constructor <;> linarith

theorem sqrt3inv_close : |10 ^ 24 * (1 / √3) - (sqrt3inv : ℝ)| ≤ 1 := by
  have e : (10 : ℝ) ^ 24 * (1 / √3) = √(10 ^ 48 / 3) := by
    rw [Real.sqrt_div (by positivity), show (10 : ℝ) ^ 48 = (10 ^ 24) ^ 2 by norm_num, Real.sqrt_sq (by positivity)]
    ring
  rw [e]
  apply sqrt_close <;> norm_num [sqrt3inv]

theorem sqrt6inv_close : |10 ^ 24 * (1 / √6) - (sqrt6inv : ℝ)| ≤ 1 := by
  have e : (10 : ℝ) ^ 24 * (1 / √6) = √(10 ^ 48 / 6) := by
    rw [Real.sqrt_div (by positivity), show (10 : ℝ) ^ 48 = (10 ^ 24) ^ 2 by norm_num, Real.sqrt_sq (by positivity)]
    ring
  rw [e]
  apply sqrt_close <;> norm_num [sqrt6inv]

theorem sqrt2_close : |10 ^ 24 * √2 - (sqrt2 : ℝ)| ≤ 1 := by
  have e : (10 : ℝ) ^ 24 * √2 = √(10 ^ 48 * 2) := by
    rw [Real.sqrt_mul (by positivity), show (10 : ℝ) ^ 48 = (10 ^ 24) ^ 2 by norm_num, Real.sqrt_sq (by positivity)]
  rw [e]
  apply sqrt_close <;> norm_num [sqrt2]

/-- Rounding and the approximation of the coefficients together. -/
theorem round_close {n : Int} {k : Nat} {x : ℝ} (hk : 0 < k) (hpos : 0 < (n / (k : Int)).toNat)
    (h : |(n : ℝ) / k - 10 ^ 20 * x| ≤ 1) :
    |x - (((n / (k : Int)).toNat : Nat) : ℝ) / ((10 ^ 20 : Nat) : ℝ)| ≤ ((2 : Nat) : ℝ) / ((10 ^ 20 : Nat) : ℝ) := by
  have h1 := floor_close n k hk hpos
  set t := (((n / (k : Int)).toNat : Nat) : ℝ)
  have e0 : ((10 ^ 20 : Nat) : ℝ) = 10 ^ 20 := by norm_num
  have e : x - t / 10 ^ 20 = (10 ^ 20 * x - t) / 10 ^ 20 := by ring
  rw [e0, e, abs_div, abs_of_pos (by positivity : (0 : ℝ) < 10 ^ 20)]
  gcongr
  rw [Nat.cast_ofNat]
  have h2 := abs_le.mp h
  have h1 := abs_le.mp h1
  rw [abs_le]; constructor <;> linarith

/-- A product of an entry with an error of at most one. -/
theorem entry_err {Y : Int} {B : Nat} {e : ℝ} (hY : -(B : ℤ) ≤ Y ∧ Y ≤ B) (he : |e| ≤ 1) : |(Y : ℝ) * e| ≤ B := by
  rw [abs_mul]
  have : |(Y : ℝ)| ≤ B := by
    rw [abs_le]; constructor
    · exact_mod_cast hY.1
    · exact_mod_cast hY.2
  calc _ ≤ (B : ℝ) * 1 := by gcongr
    _ = _ := by ring

/-- Barycentric coordinates of a point of the equilateral triangle. -/
theorem triP_close {X Y : Int} {z : Int} (hY : -((2 * 10 ^ 35 : Nat) : ℤ) ≤ Y ∧ Y ≤ (2 * 10 ^ 35 : Nat))
    (hp : 0 < triP.approx X Y z) :
    |(1 * decimal 35 X + -1 / √3 * decimal 35 Y + -1 / 3 + 1) / 2 - (triP.approx X Y z : ℝ) / ((10 ^ 20 : Nat) : ℝ)| ≤
      ((2 : Nat) : ℝ) / ((10 ^ 20 : Nat) : ℝ) := by
  refine round_close (by decide) hp ?_
  have h := entry_err hY sqrt3inv_close
  have e : ((triP.num X Y z : ℤ) : ℝ) / ((triP.k : Nat) : ℝ) -
      10 ^ 20 * ((1 * decimal 35 X + -1 / √3 * decimal 35 Y + -1 / 3 + 1) / 2) =
      3 * ((Y : ℝ) * (10 ^ 24 * (1 / √3) - (sqrt3inv : ℝ))) / (6 * 10 ^ 39) := by
    simp only [triP, Aff.num, decimal]
    push_cast
    ring
  rw [e, abs_div, abs_mul]
  rw [abs_of_pos (by positivity : (0 : ℝ) < 3), abs_of_pos (by positivity : (0 : ℝ) < 6 * 10 ^ 39),
    div_le_one (by positivity)]
  push_cast at h
  linarith

theorem triQ_close {X Y : Int} {z : Int} (hY : -((2 * 10 ^ 35 : Nat) : ℤ) ≤ Y ∧ Y ≤ (2 * 10 ^ 35 : Nat))
    (hp : 0 < triQ.approx X Y z) :
    |(0 * decimal 35 X + 2 / √3 * decimal 35 Y + -1 / 3 + 1) / 2 - (triQ.approx X Y z : ℝ) / ((10 ^ 20 : Nat) : ℝ)| ≤
      ((2 : Nat) : ℝ) / ((10 ^ 20 : Nat) : ℝ) := by
  refine round_close (by decide) hp ?_
  have h := entry_err hY sqrt3inv_close
  have e : ((triQ.num X Y z : ℤ) : ℝ) / ((triQ.k : Nat) : ℝ) -
      10 ^ 20 * ((0 * decimal 35 X + 2 / √3 * decimal 35 Y + -1 / 3 + 1) / 2) =
      -(6 * ((Y : ℝ) * (10 ^ 24 * (1 / √3) - (sqrt3inv : ℝ))) / (6 * 10 ^ 39)) := by
    simp only [triQ, Aff.num, decimal]
    push_cast
    ring
  rw [e, abs_neg, abs_div, abs_mul]
  rw [abs_of_pos (by positivity : (0 : ℝ) < 6), abs_of_pos (by positivity : (0 : ℝ) < 6 * 10 ^ 39),
    div_le_one (by positivity)]
  push_cast at h
  linarith

/-- Barycentric coordinates of a point of the equilateral tetrahedron. -/
theorem tetP_close {X Y Z : Int} (hY : -((2 * 10 ^ 35 : Nat) : ℤ) ≤ Y ∧ Y ≤ (2 * 10 ^ 35 : Nat))
    (hZ : -((2 * 10 ^ 35 : Nat) : ℤ) ≤ Z ∧ Z ≤ (2 * 10 ^ 35 : Nat)) (hp : 0 < tetP.approx X Y Z) :
    |(1 * decimal 35 X + -1 / √3 * decimal 35 Y + -1 / √6 * decimal 35 Z + -1 / 2 + 1) / 2 -
      (tetP.approx X Y Z : ℝ) / ((10 ^ 20 : Nat) : ℝ)| ≤ ((2 : Nat) : ℝ) / ((10 ^ 20 : Nat) : ℝ) := by
  refine round_close (by decide) hp ?_
  have h := entry_err hY sqrt3inv_close
  have h' := entry_err hZ sqrt6inv_close
  have e : ((tetP.num X Y Z : ℤ) : ℝ) / ((tetP.k : Nat) : ℝ) -
      10 ^ 20 * ((1 * decimal 35 X + -1 / √3 * decimal 35 Y + -1 / √6 * decimal 35 Z + -1 / 2 + 1) / 2) =
      (2 * ((Y : ℝ) * (10 ^ 24 * (1 / √3) - (sqrt3inv : ℝ))) + 2 * ((Z : ℝ) * (10 ^ 24 * (1 / √6) - (sqrt6inv : ℝ)))) /
        (4 * 10 ^ 39) := by
    simp only [tetP, Aff.num, decimal]
    push_cast
    ring
  rw [e, abs_div, abs_of_pos (by positivity : (0 : ℝ) < 4 * 10 ^ 39), div_le_one (by positivity)]
  have h := abs_le.mp h
  have h' := abs_le.mp h'
  push_cast at h h'
  rw [abs_le]; constructor <;> linarith

theorem tetQ_close {X Y Z : Int} (hY : -((2 * 10 ^ 35 : Nat) : ℤ) ≤ Y ∧ Y ≤ (2 * 10 ^ 35 : Nat))
    (hZ : -((2 * 10 ^ 35 : Nat) : ℤ) ≤ Z ∧ Z ≤ (2 * 10 ^ 35 : Nat)) (hp : 0 < tetQ.approx X Y Z) :
    |(0 * decimal 35 X + 2 / √3 * decimal 35 Y + -1 / √6 * decimal 35 Z + -1 / 2 + 1) / 2 -
      (tetQ.approx X Y Z : ℝ) / ((10 ^ 20 : Nat) : ℝ)| ≤ ((2 : Nat) : ℝ) / ((10 ^ 20 : Nat) : ℝ) := by
  refine round_close (by decide) hp ?_
  have h := entry_err hY sqrt3inv_close
  have h' := entry_err hZ sqrt6inv_close
  have e : ((tetQ.num X Y Z : ℤ) : ℝ) / ((tetQ.k : Nat) : ℝ) -
      10 ^ 20 * ((0 * decimal 35 X + 2 / √3 * decimal 35 Y + -1 / √6 * decimal 35 Z + -1 / 2 + 1) / 2) =
      (-4 * ((Y : ℝ) * (10 ^ 24 * (1 / √3) - (sqrt3inv : ℝ))) + 2 * ((Z : ℝ) * (10 ^ 24 * (1 / √6) - (sqrt6inv : ℝ)))) /
        (4 * 10 ^ 39) := by
    simp only [tetQ, Aff.num, decimal]
    push_cast
    ring
  rw [e, abs_div, abs_of_pos (by positivity : (0 : ℝ) < 4 * 10 ^ 39), div_le_one (by positivity)]
  have h := abs_le.mp h
  have h' := abs_le.mp h'
  push_cast at h h'
  rw [abs_le]; constructor <;> linarith

theorem tetR_close {X Y Z : Int} (hZ : -((2 * 10 ^ 35 : Nat) : ℤ) ≤ Z ∧ Z ≤ (2 * 10 ^ 35 : Nat))
    (hp : 0 < tetR.approx X Y Z) :
    |(0 * decimal 35 X + 0 * decimal 35 Y + √6 / 2 * decimal 35 Z + -1 / 2 + 1) / 2 -
      (tetR.approx X Y Z : ℝ) / ((10 ^ 20 : Nat) : ℝ)| ≤ ((2 : Nat) : ℝ) / ((10 ^ 20 : Nat) : ℝ) := by
  refine round_close (by decide) hp ?_
  have h' := entry_err hZ sqrt6inv_close
  have h6 : √6 / 2 = 3 * (1 / √6) := by
    have : √6 * √6 = 6 := Real.mul_self_sqrt (by norm_num)
    have hne : √6 ≠ 0 := by positivity
    field_simp
    linarith [sq (√6)]
  have e : ((tetR.num X Y Z : ℤ) : ℝ) / ((tetR.k : Nat) : ℝ) -
      10 ^ 20 * ((0 * decimal 35 X + 0 * decimal 35 Y + √6 / 2 * decimal 35 Z + -1 / 2 + 1) / 2) =
      (-6 * ((Z : ℝ) * (10 ^ 24 * (1 / √6) - (sqrt6inv : ℝ)))) / (4 * 10 ^ 39) := by
    rw [h6]
    simp only [tetR, Aff.num, decimal]
    push_cast
    ring
  rw [e, abs_div, abs_of_pos (by positivity : (0 : ℝ) < 4 * 10 ^ 39), div_le_one (by positivity)]
  have h' := abs_le.mp h'
  push_cast at h'
  rw [abs_le]; constructor <;> linarith

end Modepy.Table

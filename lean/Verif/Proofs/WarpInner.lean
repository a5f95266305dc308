import Verif.Proofs.WarpShift

/-!
# The warp function and the node map of orders four and five
-/

namespace Modepy
open Polynomial

/-- Bounds for the warp function of orders four and five at the interior points. -/
structure WarpBounds (n : Nat) (W : ℝ → ℝ) : Prop where
  four : n = 4 → 0 ≤ W (1 / 4) ∧ W (1 / 4) ≤ 1 / 3
  five : n = 5 → (0 ≤ W (1 / 5) ∧ W (1 / 5) ≤ 1 / 5) ∧ 0 ≤ W (2 / 5) ∧ W (2 / 5) ≤ 1 / 2

/-- The squares of the inner Legendre-Gauss-Lobatto nodes of orders three to five. -/
theorem lobatto_moment (ext : Ext) (hext : ext.EighOk) (m : Nat) (x : Fin (m + 2) → ℝ)
    (hok : lobattoNodes ext 0 0 (m + 1) .builtin = .ok x) :
    (∀ h : m = 2, x ⟨2, by omega⟩ ^ 2 = 1 / 5) ∧
    (∀ h : m = 3, x ⟨3, by omega⟩ ^ 2 = 3 / 7) ∧
    (∀ h : m = 4, x ⟨3, by omega⟩ ^ 2 + x ⟨4, by omega⟩ ^ 2 = 2 / 3 ∧ x ⟨3, by omega⟩ ^ 2 * x ⟨4, by omega⟩ ^ 2 = 1 / 21) := by
  obtain ⟨x', v, hok', -, -, hmono, -, -, -, hex⟩ := lobattoNodes_facts ext hext (α := 0) (β := 0) (by norm_num) (by norm_num) m
  obtain ⟨x'', hok'', -, -, -, hsym⟩ := lobatto_symm ext hext (α := 0) (by norm_num) m
  rw [hok] at hok' hok''
  injection hok' with e
  subst e
  injection hok'' with e
  subst e
  have hint : ∀ k : ℕ, Even k → ∫ t in (-1 : ℝ)..1, (X ^ k : ℝ[X]).eval t * ((1 - t) ^ ((0 : ℝ) + 1) * (1 + t) ^ ((0 : ℝ) + 1)) =
      2 / (k + 1) - 2 / (k + 3) := by
    intro k hk
    have e : ∀ t : ℝ, (X ^ k : ℝ[X]).eval t * ((1 - t) ^ ((0 : ℝ) + 1) * (1 + t) ^ ((0 : ℝ) + 1)) = t ^ k - t ^ (k + 2) := by
      intro t
      rw [zero_add, Real.rpow_one, Real.rpow_one, eval_pow, eval_X]
      ring
    simp only [e]
    rw [intervalIntegral.integral_sub (Continuous.intervalIntegrable (by fun_prop) _ _)
      (Continuous.intervalIntegrable (by fun_prop) _ _), integral_pow, integral_pow]
    have h1 : (-1 : ℝ) ^ (k + 1) = -1 := (hk.add_one).neg_one_pow
    have h2 : (-1 : ℝ) ^ (k + 2 + 1) = -1 := ((hk.add (by decide : Even 2)).add_one).neg_one_pow
    rw [h1, h2]
    push_cast
    ring
  have hsum : ∀ k : ℕ, Even k → k + 1 ≤ 2 * m → ∑ i, v i * x i.succ.castSucc ^ k = 2 / (k + 1) - 2 / (k + 3) := by
    intro k hk hkm
    rw [← hint k hk, ← hex (X ^ k) (Or.inr (by rw [natDegree_X_pow]; exact hkm))]
    simp
  refine ⟨?_, ?_, ?_⟩
  · rintro rfl
    have h0 := hsum 0 (by decide) (by omega)
    have h2 := hsum 2 (by decide) (by omega)
    have s1 : x ⟨1, by omega⟩ = -x ⟨2, by omega⟩ := hsym ⟨2, by omega⟩
    rw [Fin.sum_univ_two] at h0 h2
    change v 0 * x ⟨1, by omega⟩ ^ 0 + v 1 * x ⟨2, by omega⟩ ^ 0 = _ at h0
    change v 0 * x ⟨1, by omega⟩ ^ 2 + v 1 * x ⟨2, by omega⟩ ^ 2 = _ at h2
    rw [s1] at h0 h2
    norm_num at h0 h2
    generalize x ⟨2, by omega⟩ = s at *
    have : (4 / 3 : ℝ) * s ^ 2 = 4 / 15 := by rw [← h2, ← h0]; ring
    linarith
  · rintro rfl
    have h2 := hsum 2 (by decide) (by omega)
    have h4 := hsum 4 (by decide) (by omega)
    have s1 : x ⟨1, by omega⟩ = -x ⟨3, by omega⟩ := hsym ⟨3, by omega⟩
    have s2 : x ⟨2, by omega⟩ = 0 := by
      have : x ⟨2, by omega⟩ = -x ⟨2, by omega⟩ := hsym ⟨2, by omega⟩
      linarith
    rw [Fin.sum_univ_three] at h2 h4
    change v 0 * x ⟨1, by omega⟩ ^ 2 + v 1 * x ⟨2, by omega⟩ ^ 2 + v 2 * x ⟨3, by omega⟩ ^ 2 = _ at h2
    change v 0 * x ⟨1, by omega⟩ ^ 4 + v 1 * x ⟨2, by omega⟩ ^ 4 + v 2 * x ⟨3, by omega⟩ ^ 4 = _ at h4
    rw [s1, s2] at h2 h4
    norm_num at h2 h4
    generalize x ⟨3, by omega⟩ = s at *
    have e2 : (v 0 + v 2) * s ^ 2 = 4 / 15 := by linarith
    have e4 : (v 0 + v 2) * s ^ 4 = 4 / 35 := by linarith
    have : (4 / 15 : ℝ) * s ^ 2 = 4 / 35 := by rw [← e2, ← e4]; ring
    linarith
  · rintro rfl
    have h0 := hsum 0 (by decide) (by omega)
    have h2 := hsum 2 (by decide) (by omega)
    have h4 := hsum 4 (by decide) (by omega)
    have h6 := hsum 6 (by decide) (by omega)
    have s1 : x ⟨1, by omega⟩ = -x ⟨4, by omega⟩ := hsym ⟨4, by omega⟩
    have s2 : x ⟨2, by omega⟩ = -x ⟨3, by omega⟩ := hsym ⟨3, by omega⟩
    rw [Fin.sum_univ_four] at h0 h2 h4 h6
    have hch : ∀ k : ℕ, v 0 * x (Fin.castSucc (Fin.succ 0)) ^ k + v 1 * x (Fin.castSucc (Fin.succ 1)) ^ k +
        v 2 * x (Fin.castSucc (Fin.succ 2)) ^ k + v 3 * x (Fin.castSucc (Fin.succ 3)) ^ k =
        v 0 * x ⟨1, by omega⟩ ^ k + v 1 * x ⟨2, by omega⟩ ^ k + v 2 * x ⟨3, by omega⟩ ^ k + v 3 * x ⟨4, by omega⟩ ^ k :=
      fun k => rfl
    rw [hch, s1, s2] at h0 h2 h4 h6
    norm_num at h0 h2 h4 h6
    have hab : x ⟨3, by omega⟩ < x ⟨4, by omega⟩ := hmono (by simp [Fin.lt_def])
    have ha : 0 < x ⟨3, by omega⟩ := by
      have : x ⟨2, by omega⟩ < x ⟨3, by omega⟩ := hmono (by simp [Fin.lt_def])
      linarith
    generalize x ⟨3, by omega⟩ = a at *
    generalize x ⟨4, by omega⟩ = c at *
    set A := v 1 + v 2
    set C' := v 0 + v 3
    have e0 : A + C' = 4 / 3 := by linarith
    have e2 : A * a ^ 2 + C' * c ^ 2 = 4 / 15 := by linarith
    have e4 : A * a ^ 4 + C' * c ^ 4 = 4 / 35 := by linarith
    have e6 : A * a ^ 6 + C' * c ^ 6 = 4 / 63 := by linarith
    have f1 : 4 / 35 - (a ^ 2 + c ^ 2) * (4 / 15) + a ^ 2 * c ^ 2 * (4 / 3) = 0 := by
      rw [← e4, ← e2, ← e0]; ring
    have f2 : 4 / 63 - (a ^ 2 + c ^ 2) * (4 / 35) + a ^ 2 * c ^ 2 * (4 / 15) = 0 := by
      rw [← e6, ← e4, ← e2]; ring
    constructor <;> linarith

/-- The inner Legendre-Gauss-Lobatto nodes up to order five stay away from the ends. -/
theorem lobatto_inner (ext : Ext) (hext : ext.EighOk) (m : Nat) (hm : m ≤ 4) (x : Fin (m + 2) → ℝ)
    (hok : lobattoNodes ext 0 0 (m + 1) .builtin = .ok x) (hmono : StrictMono x) (hsym : ∀ i, x i.rev = -x i)
    (j : Fin (m + 2)) (h0 : 0 < (j : ℕ)) (h1 : (j : ℕ) < m + 1) : -(9 / 10) ≤ x j ∧ x j ≤ 9 / 10 := by
  obtain ⟨e2, e3, e4⟩ := lobatto_moment ext hext m x hok
  have top : ∀ h : m < m + 2, x ⟨m, h⟩ ≤ 9 / 10 := by
    intro h
    obtain rfl | rfl | rfl | rfl | rfl : m = 0 ∨ m = 1 ∨ m = 2 ∨ m = 3 ∨ m = 4 := by omega
    · omega
    · have : x ⟨1, h⟩ = -x ⟨1, h⟩ := hsym ⟨1, h⟩
      linarith
    · nlinarith [e2 rfl]
    · nlinarith [e3 rfl]
    · obtain ⟨f1, f2⟩ := e4 rfl
      have : 0 ≤ x ⟨3, by omega⟩ ^ 2 := sq_nonneg _
      nlinarith
  have hle : ∀ i : Fin (m + 2), (i : ℕ) < m + 1 → x i ≤ 9 / 10 := fun i hi =>
    (hmono.monotone (show i ≤ ⟨m, by omega⟩ by rw [Fin.le_def]; exact Nat.lt_succ_iff.1 hi)).trans (top (by omega))
  refine ⟨?_, hle j h1⟩
  have := hle j.rev (by rw [Fin.val_rev]; omega)
  rw [hsym] at this
  linarith

set_option maxHeartbeats 1000000 in
/-- The warp function of orders four and five. -/
theorem warp_bounds (ext : Ext) (hext : ext.EighOk) (m : Nat) (P : ℝ[X]) (x : Fin (m + 2) → ℝ)
    (hok : lobattoNodes ext 0 0 (m + 1) .builtin = .ok x) (h1 : x (Fin.last (m + 1)) = 1) (hmono : StrictMono x)
    (hsym : ∀ i, x i.rev = -x i) (hdeg : P.natDegree ≤ m + 1)
    (hint : ∀ j, P.eval (linspaceUnit (m + 1) j) = x j - linspaceUnit (m + 1) j)
    (hodd : ∀ t, P.eval (-t) = -P.eval t) : WarpBounds (m + 1) (scaledWarp P) := by
  have hinj := linspaceUnit_injective (Nat.succ_ne_zero m)
  obtain ⟨-, hm3, hm4⟩ := lobatto_moment ext hext m x hok
  have hP0 : P.eval 0 = 0 := by
    have := hodd 0
    rw [neg_zero] at this
    linarith
  constructor
  · intro hm
    obtain rfl : m = 3 := by omega
    have hsq := hm3 rfl
    have hlast : x ⟨4, by omega⟩ = 1 := h1
    have hlt : x ⟨3, by omega⟩ < 1 := by rw [← hlast]; exact hmono (by simp [Fin.lt_def])
    have hpos : 0 < x ⟨3, by omega⟩ := by
      have h2 : x ⟨2, by omega⟩ < x ⟨3, by omega⟩ := hmono (by simp [Fin.lt_def])
      have h3 : x ⟨2, by omega⟩ = -x ⟨2, by omega⟩ := hsym ⟨2, by omega⟩
      linarith
    have hhalf : P.eval (1 / 2) = x ⟨3, by omega⟩ - 1 / 2 := by
      have := hint ⟨3, by omega⟩
      rw [show linspaceUnit (3 + 1) ⟨3, by omega⟩ = 1 / 2 by rw [linspaceUnit]; norm_num] at this
      exact this
    have hone : P.eval 1 = 0 := by
      have := hint ⟨4, by omega⟩
      rw [show linspaceUnit (3 + 1) ⟨4, by omega⟩ = 1 by rw [linspaceUnit]; norm_num, hlast] at this
      rw [this]; norm_num
    set K := (8 / 3) * P.eval (1 / 2) with hK
    have hQ : P - C K * (X - X ^ 3) = 0 := by
      refine eq_zero_of_natDegree_lt_card_of_eval_eq_zero _ hinj (fun j => ?_) ?_
      · have hl : ∀ j : Fin 5, linspaceUnit 4 j = -1 ∨ linspaceUnit 4 j = -(1 / 2) ∨ linspaceUnit 4 j = 0 ∨
            linspaceUnit 4 j = 1 / 2 ∨ linspaceUnit 4 j = 1 := by
          intro j
          fin_cases j <;> norm_num [linspaceUnit]
        simp only [eval_sub, eval_mul, eval_C, eval_X, eval_pow]
        rcases hl j with h | h | h | h | h <;> rw [h] <;> (try rw [hodd]) <;> (try rw [hone]) <;> (try rw [hP0]) <;>
          (try rw [hK]) <;> ring
      · rw [Fintype.card_fin]
        refine Nat.lt_succ_of_le ((natDegree_sub_le _ _).trans (max_le hdeg ?_))
        refine (natDegree_C_mul_le _ _).trans ((natDegree_sub_le _ _).trans (max_le ?_ ?_))
        · rw [natDegree_X]; omega
        · rw [natDegree_X_pow]; omega
    have hq : P.eval (1 / 4) = K * (1 / 4 - (1 / 4) ^ 3) := by
      have := congrArg (fun p => p.eval (1 / 4)) hQ
      simp only [eval_sub, eval_mul, eval_C, eval_X, eval_pow, eval_zero] at this
      linarith
    have hW : scaledWarp P (1 / 4) = K / 4 := by
      rw [scaledWarp, if_pos (by rw [abs_of_pos (by norm_num)]; norm_num), hq]
      ring
    have hge : 1 / 2 ≤ x ⟨3, by omega⟩ := by nlinarith
    rw [hW, hK, hhalf]
    constructor <;> linarith
  · intro hm
    obtain rfl : m = 4 := by omega
    obtain ⟨hs, hp⟩ := hm4 rfl
    have hlast : x ⟨5, by omega⟩ = 1 := h1
    have hlt : x ⟨4, by omega⟩ < 1 := by rw [← hlast]; exact hmono (by simp [Fin.lt_def])
    have hab : x ⟨3, by omega⟩ < x ⟨4, by omega⟩ := hmono (by simp [Fin.lt_def])
    have hpos : 0 < x ⟨3, by omega⟩ := by
      have h2 : x ⟨2, by omega⟩ < x ⟨3, by omega⟩ := hmono (by simp [Fin.lt_def])
      have h3 : x ⟨2, by omega⟩ = -x ⟨3, by omega⟩ := hsym ⟨3, by omega⟩
      linarith
    have h15 : P.eval (1 / 5) = x ⟨3, by omega⟩ - 1 / 5 := by
      have := hint ⟨3, by omega⟩
      rw [show linspaceUnit (4 + 1) ⟨3, by omega⟩ = 1 / 5 by rw [linspaceUnit]; norm_num] at this
      exact this
    have h35 : P.eval (3 / 5) = x ⟨4, by omega⟩ - 3 / 5 := by
      have := hint ⟨4, by omega⟩
      rw [show linspaceUnit (4 + 1) ⟨4, by omega⟩ = 3 / 5 by rw [linspaceUnit]; norm_num] at this
      exact this
    have hone : P.eval 1 = 0 := by
      have := hint ⟨5, by omega⟩
      rw [show linspaceUnit (4 + 1) ⟨5, by omega⟩ = 1 by rw [linspaceUnit]; norm_num, hlast] at this
      rw [this]; norm_num
    set U := P.eval (1 / 5) / (24 / 125) with hU
    set V := P.eval (3 / 5) / (48 / 125) with hV
    -- the factor of `t (1 - t²)` takes the values `U`, `V` at `1/5`, `3/5`
    set K := (V - U) * (25 / 8) with hK
    have hQ : P - (X - X ^ 3) * (C (U - K / 25) + C K * X ^ 2) = 0 := by
      refine eq_zero_of_natDegree_lt_card_of_eval_eq_zero _ hinj (fun j => ?_) ?_
      · have hl : ∀ j : Fin 6, linspaceUnit 5 j = -1 ∨ linspaceUnit 5 j = -(3 / 5) ∨ linspaceUnit 5 j = -(1 / 5) ∨
            linspaceUnit 5 j = 1 / 5 ∨ linspaceUnit 5 j = 3 / 5 ∨ linspaceUnit 5 j = 1 := by
          intro j
          fin_cases j <;> norm_num [linspaceUnit]
        simp only [eval_sub, eval_mul, eval_add, eval_C, eval_X, eval_pow]
        rcases hl j with h | h | h | h | h | h <;> rw [h] <;> (try rw [hodd]) <;> (try rw [hone]) <;>
          rw [hK, hU, hV] <;> ring
      · rw [Fintype.card_fin]
        refine Nat.lt_succ_of_le ((natDegree_sub_le _ _).trans (max_le hdeg ?_))
        refine natDegree_mul_le.trans ?_
        have d1 : (X - X ^ 3 : ℝ[X]).natDegree ≤ 3 := by
          refine (natDegree_sub_le _ _).trans (max_le ?_ ?_)
          · rw [natDegree_X]; omega
          · rw [natDegree_X_pow]
        have d2 : (C (U - K / 25) + C K * X ^ 2 : ℝ[X]).natDegree ≤ 2 := by
          refine (natDegree_add_le _ _).trans (max_le ?_ ?_)
          · rw [natDegree_C]; omega
          · exact natDegree_C_mul_X_pow_le _ _
        omega
    have hq : P.eval (2 / 5) = (2 / 5 - (2 / 5) ^ 3) * ((U - K / 25) + K * (2 / 5) ^ 2) := by
      have := congrArg (fun p => p.eval (2 / 5)) hQ
      simp only [eval_sub, eval_mul, eval_add, eval_C, eval_X, eval_pow, eval_zero] at this
      linarith
    have hW1 : scaledWarp P (1 / 5) = P.eval (1 / 5) / (24 / 25) := by
      rw [scaledWarp, if_pos (by rw [abs_of_pos (by norm_num)]; norm_num)]
      norm_num
    have hW2 : scaledWarp P (2 / 5) = 2 / 5 * (5 / 8 * U + 3 / 8 * V) := by
      rw [scaledWarp, if_pos (by rw [abs_of_pos (by norm_num)]; norm_num), hq, hK]
      ring
    rw [hW1, hW2, hU, hV, h15, h35]
    generalize x ⟨3, by omega⟩ = a at *
    generalize x ⟨4, by omega⟩ = c at *
    have hc : 3 / 5 ≤ c := by
      by_contra hcon
      push Not at hcon
      have : c ^ 2 < 9 / 25 := by nlinarith
      have h6 : a ^ 2 < c ^ 2 := by nlinarith
      nlinarith
    have ha1 : 1 / 5 ≤ a := by
      by_contra hcon
      push Not at hcon
      have h5 : a ^ 2 < 1 / 25 := by nlinarith
      have h6 : c ^ 2 < 1 := by nlinarith
      nlinarith
    have ha2 : a ≤ 39 / 100 := by
      by_contra hcon
      push Not at hcon
      have h5 : (39 / 100) ^ 2 < a ^ 2 := by nlinarith
      have h6 : a ^ 2 < c ^ 2 := by nlinarith
      nlinarith
    refine ⟨⟨?_, ?_⟩, ?_, ?_⟩ <;> linarith

/-- What the node map of orders four and five does to the points inside faces and tetrahedra: they move towards the vertex
with the larger count, but not too far. -/
structure WarpInner (d n : Nat) (B : (Fin (d + 1) → ℝ) → Fin (d + 1) → ℝ) : Prop where
  four : n = 4 → ∀ l p q r, p ≠ q → p ≠ r → q ≠ r → l p = 1 / 2 → l q = 1 / 4 → l r = 1 / 4 →
    (∀ s, s ≠ p → s ≠ q → s ≠ r → l s = 0) → 1 / 2 ≤ B l p ∧ B l p ≤ 9 / 10
  five : n = 5 → ∀ l p q r, p ≠ q → p ≠ r → q ≠ r → l p = 3 / 5 → l q = 1 / 5 → l r = 1 / 5 →
    (∀ s, s ≠ p → s ≠ q → s ≠ r → l s = 0) → 3 / 5 ≤ B l p ∧ B l p ≤ 9 / 10
  pair : n = 5 → ∀ l p q r, p ≠ q → p ≠ r → q ≠ r → l p = 1 / 5 → l q = 2 / 5 → l r = 2 / 5 →
    (∀ s, s ≠ p → s ≠ q → s ≠ r → l s = 0) → 1 / 10 ≤ B l p ∧ B l p ≤ 1 / 5
  body : n = 5 → ∀ l p q r s, p ≠ q → p ≠ r → p ≠ s → q ≠ r → q ≠ s → r ≠ s → l p = 2 / 5 → l q = 1 / 5 → l r = 1 / 5 →
    l s = 1 / 5 → (∀ u, u ≠ p → u ≠ q → u ≠ r → u ≠ s → l u = 0) → 2 / 5 ≤ B l p ∧ B l p ≤ 9 / 10

/-- Points on a triangle, for any map displacing them like a triangle. -/
theorem inner_face {d n : Nat} {W : ℝ → ℝ} (hW : ∀ t, W (-t) = -W t) (hb : WarpBounds n W) {α : ℝ}
    (hα : n = 4 ∨ n = 5 → α ^ 2 ≤ 2) (l : Fin (d + 1) → ℝ) (p q r : Fin (d + 1)) (D : ℝ)
    (hD : D = (edgeC W α l p q r + edgeC W α l p r q) / 2) :
    (n = 4 → l p = 1 / 2 → l q = 1 / 4 → l r = 1 / 4 → 1 / 2 ≤ l p + D ∧ l p + D ≤ 9 / 10) ∧
    (n = 5 → l p = 3 / 5 → l q = 1 / 5 → l r = 1 / 5 → 3 / 5 ≤ l p + D ∧ l p + D ≤ 9 / 10) ∧
    (n = 5 → l p = 1 / 5 → l q = 2 / 5 → l r = 2 / 5 → 1 / 10 ≤ l p + D ∧ l p + D ≤ 1 / 5) := by
  refine ⟨fun hn h1 h2 h3 => ?_, fun hn h1 h2 h3 => ?_, fun hn h1 h2 h3 => ?_⟩
  · obtain ⟨w0, w1⟩ := hb.four hn
    have ha := hα (Or.inl hn)
    have e : D = 1 / 2 * W (1 / 4) + 1 / 32 * (W (1 / 4) * α ^ 2) := by
      rw [hD, edgeC, edgeC, h1, h2, h3, show (1 / 2 : ℝ) - 1 / 4 = 1 / 4 by norm_num]
      ring
    have g1 : 0 ≤ W (1 / 4) * α ^ 2 := by positivity
    have g2 : W (1 / 4) * α ^ 2 ≤ 1 / 3 * 2 := mul_le_mul w1 ha (by positivity) (by norm_num)
    rw [h1, e]
    constructor <;> linarith
  · obtain ⟨-, w0, w1⟩ := hb.five hn
    have ha := hα (Or.inr hn)
    have e : D = 12 / 25 * W (2 / 5) + 12 / 625 * (W (2 / 5) * α ^ 2) := by
      rw [hD, edgeC, edgeC, h1, h2, h3, show (3 / 5 : ℝ) - 1 / 5 = 2 / 5 by norm_num]
      ring
    have g1 : 0 ≤ W (2 / 5) * α ^ 2 := by positivity
    have g2 : W (2 / 5) * α ^ 2 ≤ 1 / 2 * 2 := mul_le_mul w1 ha (by positivity) (by norm_num)
    rw [h1, e]
    constructor <;> linarith
  · obtain ⟨⟨w0, w1⟩, -⟩ := hb.five hn
    have ha := hα (Or.inr hn)
    have e : D = -(8 / 25 * W (1 / 5) + 32 / 625 * (W (1 / 5) * α ^ 2)) := by
      rw [hD, edgeC, edgeC, h1, h2, h3, show (1 / 5 : ℝ) - 2 / 5 = -(1 / 5) by norm_num, hW]
      ring
    have g1 : 0 ≤ W (1 / 5) * α ^ 2 := by positivity
    have g2 : W (1 / 5) * α ^ 2 ≤ 1 / 5 * 2 := mul_le_mul w1 ha (by positivity) (by norm_num)
    rw [h1, e]
    constructor <;> linarith

theorem disp2_eq (W : ℝ → ℝ) (α : ℝ) (l : Fin 3 → ℝ) (p q r : Fin 3) (hpq : p ≠ q) (hpr : p ≠ r) (hqr : q ≠ r) :
    disp2 W α l p = (edgeC W α l p q r + edgeC W α l p r q) / 2 := by
  have h : ∀ p q r : Fin 3, p ≠ q → p ≠ r → q ≠ r → (Finset.univ : Finset (Fin 3)) = {p, q, r} ∧ -(p + q) = r ∧
      -(p + r) = q := by decide
  obtain ⟨h1, h2, h3⟩ := h p q r hpq hpr hqr
  rw [disp2, h1, Finset.sum_insert (by simp [hpq, hpr]), Finset.sum_pair hqr, if_pos rfl, if_neg hpq.symm, if_neg hpr.symm,
    h2, h3, zero_add]

theorem faceDisp_eq (W : ℝ → ℝ) (α : ℝ) (l : Fin 4 → ℝ) (f p q r : Fin 4) (hfp : f ≠ p) (hfq : f ≠ q) (hfr : f ≠ r)
    (hpq : p ≠ q) (hpr : p ≠ r) (hqr : q ≠ r) :
    faceDisp W α l f p = (edgeC W α l p q r + edgeC W α l p r q) / 2 := by
  have h : ∀ f p q r : Fin 4, f ≠ p → f ≠ q → f ≠ r → p ≠ q → p ≠ r → q ≠ r →
      (Finset.univ : Finset (Fin 4)) = {f, p, q, r} ∧ 2 - f - p - q = r ∧ 2 - f - p - r = q := by decide
  obtain ⟨h1, h2, h3⟩ := h f p q r hfp hfq hfr hpq hpr hqr
  rw [faceDisp, if_neg hfp.symm, h1, Finset.sum_insert (by simp [hfp, hfq, hfr]), Finset.sum_insert (by simp [hpq, hpr]),
    Finset.sum_pair hqr, if_pos (Or.inr rfl), if_pos (Or.inl rfl), if_neg (by simp [hpq.symm, hfq.symm]),
    if_neg (by simp [hpr.symm, hfr.symm]), h2, h3, zero_add, zero_add]

theorem warpInner2 {n : Nat} {W : ℝ → ℝ} (hW : ∀ t, W (-t) = -W t) (hb : WarpBounds n W) {α : ℝ}
    (hα : n = 4 ∨ n = 5 → α ^ 2 ≤ 2) : WarpInner 2 n fun l p => l p + disp2 W α l p := by
  refine ⟨fun hn l p q r h1 h2 h3 a1 a2 a3 _ => ?_, fun hn l p q r h1 h2 h3 a1 a2 a3 _ => ?_,
    fun hn l p q r h1 h2 h3 a1 a2 a3 _ => ?_, ?_⟩
  · exact (inner_face hW hb hα l p q r _ (disp2_eq W α l p q r h1 h2 h3)).1 hn a1 a2 a3
  · exact (inner_face hW hb hα l p q r _ (disp2_eq W α l p q r h1 h2 h3)).2.1 hn a1 a2 a3
  · exact (inner_face hW hb hα l p q r _ (disp2_eq W α l p q r h1 h2 h3)).2.2 hn a1 a2 a3
  · intro _ l p q r s h1 h2 h3 h4 h5 h6
    have h : ∀ p q r s : Fin 3, ¬(p ≠ q ∧ p ≠ r ∧ p ≠ s ∧ q ≠ r ∧ q ≠ s ∧ r ≠ s) := by decide
    exact (h p q r s ⟨h1, h2, h3, h4, h5, h6⟩).elim

theorem warpInner1 {n : Nat} (B : (Fin 2 → ℝ) → Fin 2 → ℝ) : WarpInner 1 n B := by
  have h : ∀ p q r : Fin 2, p ≠ q → p ≠ r → q ≠ r → False := by decide
  exact ⟨fun _ _ p q r h1 h2 h3 => (h p q r h1 h2 h3).elim, fun _ _ p q r h1 h2 h3 => (h p q r h1 h2 h3).elim,
    fun _ _ p q r h1 h2 h3 => (h p q r h1 h2 h3).elim, fun _ _ p q r _ h1 h2 _ h3 => (h p q r h1 h2 h3).elim⟩

theorem warpInner3 {n : Nat} {W : ℝ → ℝ} (hW : ∀ t, W (-t) = -W t) (hb : WarpBounds n W) {α : ℝ}
    (hα : n = 4 ∨ n = 5 → α ^ 2 ≤ 2) : WarpInner 3 n fun l p => l p + disp3 W α l p := by
  have hface : ∀ l p q r, p ≠ q → p ≠ r → q ≠ r → (∀ s, s ≠ p → s ≠ q → s ≠ r → l s = 0) →
      disp3 W α l p = (edgeC W α l p q r + edgeC W α l p r q) / 2 := by
    intro l p q r h1 h2 h3 h0
    have h : ∀ p q r : Fin 4, p ≠ q → p ≠ r → q ≠ r → ∃ f, f ≠ p ∧ f ≠ q ∧ f ≠ r := by decide
    obtain ⟨f, hp, hq, hr⟩ := h p q r h1 h2 h3
    have hf := h0 f hp hq hr
    have hex : ∃ f, l f = 0 := ⟨f, hf⟩
    rw [disp3, dif_pos hex, faceDisp_eq_of_zero _ α l _ f hex.choose_spec hf p, faceDisp_eq W α l f p q r hp hq hr h1 h2 h3]
  refine ⟨fun hn l p q r h1 h2 h3 a1 a2 a3 h0 => ?_, fun hn l p q r h1 h2 h3 a1 a2 a3 h0 => ?_,
    fun hn l p q r h1 h2 h3 a1 a2 a3 h0 => ?_, ?_⟩
  · exact (inner_face hW hb hα l p q r _ (hface l p q r h1 h2 h3 h0)).1 hn a1 a2 a3
  · exact (inner_face hW hb hα l p q r _ (hface l p q r h1 h2 h3 h0)).2.1 hn a1 a2 a3
  · exact (inner_face hW hb hα l p q r _ (hface l p q r h1 h2 h3 h0)).2.2 hn a1 a2 a3
  · intro hn l p q r s h1 h2 h3 h4 h5 h6 a1 a2 a3 a4 _
    have huniv : ∀ p q r s : Fin 4, p ≠ q → p ≠ r → p ≠ s → q ≠ r → q ≠ s → r ≠ s →
        (Finset.univ : Finset (Fin 4)) = {p, q, r, s} := by decide
    have hu := huniv p q r s h1 h2 h3 h4 h5 h6
    have hne : ¬∃ f, l f = 0 := by
      rintro ⟨f, hf⟩
      have : f ∈ ({p, q, r, s} : Finset (Fin 4)) := hu ▸ Finset.mem_univ f
      simp only [Finset.mem_insert, Finset.mem_singleton] at this
      rcases this with rfl | rfl | rfl | rfl
      · rw [a1] at hf; norm_num at hf
      · rw [a2] at hf; norm_num at hf
      · rw [a3] at hf; norm_num at hf
      · rw [a4] at hf; norm_num at hf
    obtain ⟨⟨w0, w1⟩, -⟩ := hb.five hn
    have ha := hα (Or.inr hn)
    -- the displacement along one face
    have hdisp : ∀ f q r : Fin 4, f ≠ p → f ≠ q → f ≠ r → p ≠ q → p ≠ r → q ≠ r → l q = 1 / 5 → l r = 1 / 5 →
        faceDisp W α l f p = 8 / 25 * W (1 / 5) + 8 / 625 * (W (1 / 5) * α ^ 2) := by
      intro f q r e1 e2 e3 e4 e5 e6 b2 b3
      rw [faceDisp_eq W α l f p q r e1 e2 e3 e4 e5 e6, edgeC, edgeC, a1, b2, b3,
        show (2 / 5 : ℝ) - 1 / 5 = 1 / 5 by norm_num]
      ring
    have hblend : ∀ f q r : Fin 4, f ≠ p → f ≠ q → f ≠ r → p ≠ q → p ≠ r → q ≠ r → l f = 1 / 5 → l q = 1 / 5 → l r = 1 / 5 →
        faceBlend α l f = 16 / 45 * (1 + α ^ 2 / 25) := by
      intro f q r e1 e2 e3 e4 e5 e6 b1 b2 b3
      have herase : (Finset.univ : Finset (Fin 4)).erase f = {p, q, r} := by
        rw [huniv f p q r e1 e2 e3 e4 e5 e6, Finset.erase_insert (by simp [e1, e2, e3])]
      rw [faceBlend, herase]
      simp only [Finset.prod_insert (show p ∉ ({q, r} : Finset (Fin 4)) by simp [e4, e5]), Finset.prod_pair e6, a1, b1, b2, b3]
      rw [if_pos (by norm_num)]
      norm_num
      ring
    have hself : faceDisp W α l p p = 0 := by simp [faceDisp]
    have e : disp3 W α l p = 3 * (16 / 45 * (1 + α ^ 2 / 25) * (8 / 25 * W (1 / 5) + 8 / 625 * (W (1 / 5) * α ^ 2))) := by
      rw [disp3, dif_neg hne, hu, Finset.sum_insert (by simp [h1, h2, h3]), Finset.sum_insert (by simp [h4, h5]),
        Finset.sum_pair h6, hself, hdisp q r s h1.symm h4 h5 h2 h3 h6 a3 a4, hdisp r q s h2.symm h4.symm h6 h1 h3 h5 a2 a4,
        hdisp s q r h3.symm h5.symm h6.symm h1 h2 h4 a2 a3, hblend q r s h1.symm h4 h5 h2 h3 h6 a2 a3 a4,
        hblend r q s h2.symm h4.symm h6 h1 h3 h5 a3 a2 a4, hblend s q r h3.symm h5.symm h6.symm h1 h2 h4 a4 a2 a3]
      ring
    have g1 : 0 ≤ W (1 / 5) * α ^ 2 := by positivity
    have g2 : W (1 / 5) * α ^ 2 ≤ 1 / 5 * 2 := mul_le_mul w1 ha (by positivity) (by norm_num)
    have g3 : (1 + α ^ 2 / 25) * (8 / 25 * W (1 / 5) + 8 / 625 * (W (1 / 5) * α ^ 2)) ≤ 2 * (1 / 5) := by
      apply mul_le_mul
      · linarith
      · linarith
      · positivity
      · norm_num
    have g4 : 0 ≤ (1 + α ^ 2 / 25) * (8 / 25 * W (1 / 5) + 8 / 625 * (W (1 / 5) * α ^ 2)) := by positivity
    simp only [a1, e]
    constructor <;> linarith

theorem alpha2_bound (n : Nat) : n = 4 ∨ n = 5 → alphaFor alphaOpt2D (5 / 3) n ^ 2 ≤ 2 := by
  rintro (rfl | rfl)
  · rw [alphaFor, show pyIndex alphaOpt2D.length (((4 : ℕ) : Int) - 1) = some 3 from rfl]
    norm_num [alphaOpt2D]
  · rw [alphaFor, show pyIndex alphaOpt2D.length (((5 : ℕ) : Int) - 1) = some 4 from rfl]
    norm_num [alphaOpt2D]

theorem alpha3_bound (n : Nat) : n = 4 ∨ n = 5 → alphaFor alphaOpt3D 1 n ^ 2 ≤ 2 := by
  rintro (rfl | rfl)
  · rw [alphaFor, show pyIndex alphaOpt3D.length (((4 : ℕ) : Int) - 1) = some 3 from rfl]
    norm_num [alphaOpt3D]
  · rw [alphaFor, show pyIndex alphaOpt3D.length (((5 : ℕ) : Int) - 1) = some 4 from rfl]
    norm_num [alphaOpt3D]

end Modepy

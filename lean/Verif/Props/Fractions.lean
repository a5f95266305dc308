import Verif.Model.GrundmannMoeller
import Mathlib.Tactic.LinearCombination
import Mathlib.Data.Int.GCD
import Mathlib.Tactic.Ring
import Mathlib.Tactic.Linarith
import Mathlib.Tactic.FieldSimp

/-!
# Property C33: fraction bookkeeping of the Grundmann–Möller rules
-/

namespace Modepy

theorem euclidLoop_spec (Q R : Int) (n : Nat) : ∀ (q r : Int) (bq br : Int × Int), r.natAbs ≤ n →
    bq.1 * Q + bq.2 * R = q → br.1 * Q + br.2 * R = r →
    let res := euclidLoop q r bq br
    res.1 = res.2.1 * Q + res.2.2 * R ∧ res.1.natAbs = Int.gcd q r ∧
      (r = 0 → res.1 = q) ∧ (0 < r → 0 < res.1) ∧ (r < 0 → res.1 < 0) := by
  induction n with
  | zero =>
    intro q r bq br hn hq hr
    have h0 : r = 0 := by omega
    rw [euclidLoop, dif_pos h0]
    refine ⟨hq.symm, by simp [h0], fun _ => rfl, by omega, by omega⟩
  | succ n ih =>
    intro q r bq br hn hq hr
    by_cases h0 : r = 0
    · rw [euclidLoop, dif_pos h0]
      refine ⟨hq.symm, by simp [h0], fun _ => rfl, by omega, by omega⟩
    · rw [euclidLoop, dif_neg h0]
      have hlt := natAbs_fmod_lt q h0
      have hdm := Int.mul_fdiv_add_fmod q r
      have e : Int.gcd r (Int.fmod q r) = Int.gcd q r := by
        have h1 : Int.fmod q r = q - r * Int.fdiv q r := by omega
        rw [h1, Int.gcd_sub_mul_left_right]
        exact Int.gcd_comm _ _
      obtain ⟨i1, i2, i3, i4, i5⟩ := ih r (Int.fmod q r) br
        (bq.1 - Int.fdiv q r * br.1, bq.2 - Int.fdiv q r * br.2) (by omega) hr (by
          simp only
          linear_combination hq - Int.fdiv q r * hr - hdm)
      refine ⟨i1, i2.trans e, fun h => absurd h h0, fun h => ?_, fun h => ?_⟩
      · have h1 := Int.fmod_nonneg_of_pos q h
        by_cases h2 : Int.fmod q r = 0
        · rw [i3 h2]; exact h
        · exact i4 (by omega)
      · have h1 := Int.fmod_nonneg_of_pos (-q) (show 0 < -r by omega)
        rw [Int.neg_fmod_neg] at h1
        by_cases h2 : Int.fmod q r = 0
        · rw [i3 h2]; exact h
        · exact i5 (by omega)

theorem extendedEuclidean_swap {q r : Int} (h : q.natAbs < r.natAbs) :
    extendedEuclidean q r =
      ((euclidLoop r q (1, 0) (0, 1)).1, (euclidLoop r q (1, 0) (0, 1)).2.2,
        (euclidLoop r q (1, 0) (0, 1)).2.1) := by
  rw [extendedEuclidean, dif_pos h, extendedEuclidean, dif_neg (by omega)]

theorem extendedEuclidean_noswap {q r : Int} (h : ¬ q.natAbs < r.natAbs) :
    extendedEuclidean q r = euclidLoop q r (1, 0) (0, 1) := by
  rw [extendedEuclidean, dif_neg h]

/-- **C33 (Bézout).**  For all integers, `p = a q + b r` and `p` is a greatest common divisor (up to
sign). -/
theorem C33_bezout (q r : Int) :
    (extendedEuclidean q r).1 = (extendedEuclidean q r).2.1 * q + (extendedEuclidean q r).2.2 * r ∧
      (extendedEuclidean q r).1.natAbs = Int.gcd q r := by
  by_cases h : q.natAbs < r.natAbs
  · rw [extendedEuclidean_swap h]
    obtain ⟨h1, h2, -⟩ := euclidLoop_spec r q q.natAbs r q (1, 0) (0, 1) le_rfl (by ring) (by ring)
    refine ⟨by simp only; rw [h1]; ring, by simp only; rw [h2, Int.gcd_comm]⟩
  · rw [extendedEuclidean_noswap h]
    obtain ⟨h1, h2, -⟩ := euclidLoop_spec q r r.natAbs q r (1, 0) (0, 1) le_rfl (by ring) (by ring)
    exact ⟨h1, h2⟩

/-- The sign of the returned divisor: that of the argument of smaller absolute value, unless it is
zero. -/
theorem C33_sign (q r : Int) :
    (q.natAbs < r.natAbs → (0 < q → 0 < pyGcd q r) ∧ (q < 0 → pyGcd q r < 0) ∧ (q = 0 → pyGcd q r = r)) ∧
      (r.natAbs ≤ q.natAbs →
        (0 < r → 0 < pyGcd q r) ∧ (r < 0 → pyGcd q r < 0) ∧ (r = 0 → pyGcd q r = q)) := by
  constructor
  · intro h
    rw [pyGcd, extendedEuclidean_swap h]
    obtain ⟨-, -, h3, h4, h5⟩ := euclidLoop_spec r q q.natAbs r q (1, 0) (0, 1) le_rfl (by ring) (by ring)
    exact ⟨h4, h5, h3⟩
  · intro h
    rw [pyGcd, extendedEuclidean_noswap (by omega)]
    obtain ⟨-, -, h3, h4, h5⟩ := euclidLoop_spec q r r.natAbs q r (1, 0) (0, 1) le_rfl (by ring) (by ring)
    exact ⟨h4, h5, h3⟩

/-- For nonnegative arguments the result is *the* greatest common divisor, as documented. -/
theorem C33_gcd {q r : Int} (hq : 0 ≤ q) (hr : 0 ≤ r) : pyGcd q r = Int.gcd q r := by
  have h1 := (C33_bezout q r).2
  rw [← pyGcd] at h1
  have h2 := C33_sign q r
  have : 0 ≤ pyGcd q r := by
    rcases Nat.lt_or_ge q.natAbs r.natAbs with h | h
    · obtain ⟨a, -, c⟩ := h2.1 h
      rcases hq.lt_or_eq with h3 | h3
      · exact (a h3).le
      · rw [c h3.symm]; exact hr
    · obtain ⟨a, -, c⟩ := h2.2 h
      rcases hr.lt_or_eq with h3 | h3
      · exact (a h3).le
      · rw [c h3.symm]; exact hq
  omega

/-- The documented claim "`p` is the greatest common divisor" fails for negative arguments. -/
theorem C33_negative_partial : pyGcd 4 (-2) = -2 := by
  have h := (C33_bezout 4 (-2)).2
  have h2 := ((C33_sign 4 (-2)).2 (by decide)).2.1 (by decide)
  rw [← pyGcd] at h
  have : Int.gcd 4 (-2) = 2 := by decide
  omega

theorem pyGcd_dvd (a b : Int) : pyGcd a b ∣ a ∧ pyGcd a b ∣ b := by
  have h := (C33_bezout a b).2
  rw [← pyGcd] at h
  constructor
  · rw [← Int.natAbs_dvd, h]; exact Int.gcd_dvd_left ..
  · rw [← Int.natAbs_dvd, h]; exact Int.gcd_dvd_right ..

theorem pyGcd_eq_zero {a b : Int} : pyGcd a b = 0 ↔ a = 0 ∧ b = 0 := by
  have h := (C33_bezout a b).2
  rw [← pyGcd] at h
  rw [← Int.gcd_eq_zero_iff, ← h]
  omega

/-- **C33 (value).**  Simplifying a fraction keeps its value and leaves coprime parts; only `(0, 0)`
raises. -/
theorem C33_value (a b : Int) :
    (a = 0 ∧ b = 0 ∧ simplifyFraction (a, b) = .error .ZeroDivisionError) ∨
      ∃ a' b', simplifyFraction (a, b) = .ok (a', b') ∧ a' * b = a * b' ∧ Int.gcd a' b' = 1 ∧
        (b ≠ 0 → b' ≠ 0 ∧ (a' : ℝ) / b' = a / b) := by
  by_cases h0 : pyGcd a b = 0
  · left
    obtain ⟨ha, hb⟩ := pyGcd_eq_zero.1 h0
    refine ⟨ha, hb, ?_⟩
    simp only [simplifyFraction]
    rw [if_pos h0]
  · right
    obtain ⟨⟨x, hx⟩, ⟨y, hy⟩⟩ := pyGcd_dvd a b
    have hg := (C33_bezout a b).2
    rw [← pyGcd] at hg
    set g := pyGcd a b with hgd
    have e1 : Int.fdiv a g = x := by rw [hx, Int.mul_fdiv_cancel_left _ h0]
    have e2 : Int.fdiv b g = y := by rw [hy, Int.mul_fdiv_cancel_left _ h0]
    refine ⟨x, y, ?_, ?_, ?_, ?_⟩
    · simp only [simplifyFraction]
      rw [← hgd, if_neg h0, e1, e2]
    · rw [hx, hy]; ring
    · rw [hx, hy, Int.gcd_mul_left] at hg
      have : 0 < g.natAbs := Int.natAbs_pos.2 h0
      exact Nat.eq_of_mul_eq_mul_left this (by omega)
    · intro hb
      have hy0 : y ≠ 0 := by rintro rfl; simp at hy; exact hb hy
      refine ⟨hy0, ?_⟩
      have hyr : (y : ℝ) ≠ 0 := by exact_mod_cast hy0
      have hgr : (g : ℝ) ≠ 0 := by exact_mod_cast h0
      rw [hx, hy]
      push_cast
      rw [mul_div_mul_left _ _ hgr]

/-- The sign convention that makes the reduced pair unique. -/
theorem simplify_sign {a b a' b' : Int} (hb : b ≠ 0) (h : simplifyFraction (a, b) = .ok (a', b')) :
    (a.natAbs < b.natAbs → 0 < a' ∨ (a' = 0 ∧ b' = 1)) ∧ (b.natAbs ≤ a.natAbs → 0 < b') := by
  have h0 : pyGcd a b ≠ 0 := fun hc => hb (pyGcd_eq_zero.1 hc).2
  obtain ⟨⟨x, hx⟩, ⟨y, hy⟩⟩ := pyGcd_dvd a b
  have hs := C33_sign a b
  set g := pyGcd a b with hgd
  have e1 : Int.fdiv a g = x := by rw [hx, Int.mul_fdiv_cancel_left _ h0]
  have e2 : Int.fdiv b g = y := by rw [hy, Int.mul_fdiv_cancel_left _ h0]
  simp only [simplifyFraction] at h
  rw [← hgd, if_neg h0, e1, e2] at h
  injection h with h
  injection h with h1 h2
  subst h1 h2
  constructor
  · intro hlt
    obtain ⟨s1, s2, s3⟩ := hs.1 hlt
    rcases lt_trichotomy a 0 with ha | ha | ha
    · left
      have := s2 ha
      nlinarith
    · right
      have hgb := s3 ha
      refine ⟨?_, ?_⟩
      · rw [ha] at hx
        rcases mul_eq_zero.1 hx.symm with h | h
        · exact absurd h h0
        · exact h
      · have : g * y = g * 1 := by rw [← hy, hgb, mul_one]
        exact mul_left_cancel₀ h0 this
    · left
      have := s1 ha
      nlinarith
  · intro hge
    obtain ⟨s1, s2, s3⟩ := hs.2 hge
    rcases lt_trichotomy b 0 with hb' | hb' | hb'
    · have := s2 hb'
      nlinarith
    · exact absurd hb' hb
    · have := s1 hb'
      nlinarith

/-- **C33 (one representative per value).**  Two fractions with nonzero denominators simplify to the same
pair exactly when they have the same value. -/
theorem C33_canonical {a b c d : Int} (hb : b ≠ 0) (hd : d ≠ 0) :
    simplifyFraction (a, b) = simplifyFraction (c, d) ↔ a * d = c * b := by
  rcases C33_value a b with ⟨-, h, -⟩ | ⟨a', b', h1, h2, h3, h4⟩
  · exact absurd h hb
  rcases C33_value c d with ⟨-, h, -⟩ | ⟨c', d', k1, k2, k3, k4⟩
  · exact absurd h hd
  have hb' := (h4 hb).1
  have hd' := (k4 hd).1
  rw [h1, k1]
  constructor
  · intro h
    injection h with h
    injection h with e1 e2
    subst e1 e2
    apply mul_left_cancel₀ hb'
    linear_combination -d * h2 + b * k2
  · intro h
    have hcross : a' * d' = c' * b' := by
      apply mul_left_cancel₀ hb
      apply mul_left_cancel₀ hd
      linear_combination d * d' * h2 - b * b' * k2 + b' * d' * h
    -- coprime pairs with equal cross products agree up to sign
    have dvd1 : a' ∣ c' := by
      have : a' ∣ c' * b' := ⟨d', hcross.symm⟩
      exact Int.dvd_of_dvd_mul_left_of_gcd_one this h3
    have dvd2 : c' ∣ a' := by
      have : c' ∣ a' * d' := ⟨b', hcross⟩
      exact Int.dvd_of_dvd_mul_left_of_gcd_one this k3
    have hab := Int.natAbs_eq_natAbs_iff.1 (Nat.dvd_antisymm (Int.natAbs_dvd_natAbs.2 dvd1)
      (Int.natAbs_dvd_natAbs.2 dvd2))
    have hmag : a.natAbs < b.natAbs ↔ c.natAbs < d.natAbs := by
      have e : a.natAbs * d.natAbs = c.natAbs * b.natAbs := by
        rw [← Int.natAbs_mul, ← Int.natAbs_mul, h]
      have pb := Int.natAbs_pos.2 hb
      have pd := Int.natAbs_pos.2 hd
      constructor
      · intro hl
        by_contra hc
        have : a.natAbs * d.natAbs < b.natAbs * d.natAbs := Nat.mul_lt_mul_of_pos_right hl pd
        have : d.natAbs * b.natAbs ≤ c.natAbs * b.natAbs := Nat.mul_le_mul_right _ (by omega)
        nlinarith
      · intro hl
        by_contra hc
        have : c.natAbs * b.natAbs < d.natAbs * b.natAbs := Nat.mul_lt_mul_of_pos_right hl pb
        have : b.natAbs * d.natAbs ≤ a.natAbs * d.natAbs := Nat.mul_le_mul_right _ (by omega)
        nlinarith
    obtain ⟨s1, s2⟩ := simplify_sign hb h1
    obtain ⟨t1, t2⟩ := simplify_sign hd k1
    by_cases hl : a.natAbs < b.natAbs
    · rcases s1 hl with p | ⟨p, p'⟩ <;> rcases t1 (hmag.1 hl) with q | ⟨q, q'⟩
      · have e : a' = c' := by omega
        subst e
        have : d' = b' := mul_left_cancel₀ p.ne' hcross
        rw [this]
      · omega
      · omega
      · rw [p, p', q, q']
    · have p := s2 (by omega)
      have q := t2 (by omega)
      rcases hab with e | e
      · subst e
        by_cases ha0 : a' = 0
        · subst ha0
          rw [Int.gcd_zero_left] at h3 k3
          congr 2
          omega
        · have : d' = b' := mul_left_cancel₀ ha0 hcross
          rw [this]
      · have : a' = 0 := by
          by_contra hne
          have h5 : a' * (d' + b') = 0 := by rw [e] at hcross ⊢; linear_combination hcross
          rcases mul_eq_zero.1 h5 with h6 | h6
          · exact hne h6
          · omega
        rw [this] at h3 e
        have hc0 : c' = 0 := by omega
        rw [hc0] at k3 ⊢
        rw [this]
        rw [Int.gcd_zero_left] at h3 k3
        congr 2
        omega

/-- Instances: `9/6` and `6/4` become `3/2`; `-1/2` is stored as `1/(-2)`. -/
example : simplifyFraction (9, 6) = simplifyFraction (6, 4) :=
  (C33_canonical (by decide) (by decide)).2 (by decide)

example : simplifyFraction (3, 9) ≠ simplifyFraction (3, 7) := fun h =>
  absurd ((C33_canonical (by decide) (by decide)).1 h) (by decide)

end Modepy

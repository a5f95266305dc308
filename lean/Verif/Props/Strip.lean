import Verif.Proofs.Elliptic
import Verif.Props.Transplanted
import Mathlib.MeasureTheory.Function.JacobianOneDim
import Mathlib.Analysis.Complex.ExponentialBounds
import Mathlib.Analysis.Real.Pi.Bounds

/-!
# C69: the strip map
-/

namespace Modepy
open Real Set Filter Topology MeasureTheory

/-- Contract of Brent's method: on a bracket without a change of sign it raises `ValueError`; otherwise it returns a root in the
bracket (in exact arithmetic). -/
def Spec.BrentqOk (brentq : Brentq) : Prop := ∀ f a b, a ≤ b → ContinuousOn f (Icc a b) →
  (0 < f a * f b → brentq f a b = .error .ValueError) ∧ (f a * f b ≤ 0 → ∃ r ∈ Icc a b, brentq f a b = .ok r ∧ f r = 0)

open Classical in
/-- The contract can be met. -/
theorem exists_brentqOk : ∃ brentq, Spec.BrentqOk brentq := by
  refine ⟨fun f a b => if h : ∃ r ∈ Icc a b, f r = 0 then (if 0 < f a * f b then .error .ValueError else .ok h.choose)
    else .error .ValueError, fun f a b hab hf => ⟨fun h => ?_, fun h => ?_⟩⟩
  · simp only [h, if_true]
    split <;> rfl
  · have hr : ∃ r ∈ Icc a b, f r = 0 := by
      rcases mul_nonpos_iff.1 h with ⟨h1, h2⟩ | ⟨h1, h2⟩
      · exact intermediate_value_Icc' hab hf ⟨h2, h1⟩
      · exact intermediate_value_Icc hab hf ⟨h1, h2⟩
    refine ⟨hr.choose, hr.choose_spec.1, ?_, hr.choose_spec.2⟩
    simp only [dif_pos hr, if_neg (not_lt.2 h)]

section
variable {m : ℝ}

theorem hasDerivAt_artanh {x : ℝ} (hx : x ∈ Ioo (-1 : ℝ) 1) : HasDerivAt artanh (1 / (1 - x ^ 2)) x := by
  have h1 : (0 : ℝ) < 1 + x := by linarith [hx.1]
  have h2 : (0 : ℝ) < 1 - x := by linarith [hx.2]
  have hd : HasDerivAt (fun y : ℝ => 1 / 2 * log ((1 + y) / (1 - y))) (1 / (1 - x ^ 2)) x := by
    have hq := ((hasDerivAt_id x).const_add 1).div ((hasDerivAt_id x).const_sub 1) h2.ne'
    have hl := (hq.log (div_pos h1 h2).ne').const_mul (1 / 2 : ℝ)
    refine hl.congr_deriv ?_
    simp only [id]
    have : (1 : ℝ) - x ^ 2 = (1 + x) * (1 - x) := by ring
    rw [this]
    simp only [Pi.div_apply, id]
    field_simp
    ring
  refine hd.congr_of_eventuallyEq ?_
  filter_upwards [Ioo_mem_nhds hx.1 hx.2] with y hy using artanh_eq_half_log ⟨hy.1.le, hy.2.le⟩

theorem artanh_neg' (x : ℝ) (hx : x ∈ Ioo (-1 : ℝ) 1) : artanh (-x) = -artanh x := by
  have h1 : (0 : ℝ) < 1 + x := by linarith [hx.1]
  have h2 : (0 : ℝ) < 1 - x := by linarith [hx.2]
  rw [artanh_eq_half_log ⟨by linarith, by linarith⟩, artanh_eq_half_log ⟨hx.1.le, hx.2.le⟩]
  have : (1 + -x) / (1 - -x) = ((1 + x) / (1 - x))⁻¹ := by
    rw [inv_div]
    ring
  rw [this, log_inv]
  ring

/-- The argument of the amplitude. -/
noncomputable def stripPhase (m s : ℝ) : ℝ := ellipAm m (2 * ellipk m * arcsin s / π)

theorem stripPhase_one (h1 : m < 1) : stripPhase m 1 = π / 2 := by
  rw [stripPhase, arcsin_one]
  have : 2 * ellipk m * (π / 2) / π = ellipk m := by
    field_simp
  rw [this, am_ellipk h1]

theorem stripPhase_neg (h0 : 0 ≤ m) (h1 : m < 1) (s : ℝ) : stripPhase m (-s) = -stripPhase m s := by
  rw [stripPhase, stripPhase, ← am_neg h0 h1, arcsin_neg]
  congr 1
  ring

theorem stripPhase_strictMonoOn (h0 : 0 ≤ m) (h1 : m < 1) : StrictMonoOn (stripPhase m) (Icc (-1) 1) := by
  intro s hs t ht hst
  refine strictMono_am h0 h1 ?_
  have hk := ellipk_pos h0 h1
  have := strictMonoOn_arcsin hs ht hst
  have hpi := pi_pos
  gcongr

theorem stripPhase_mem (h0 : 0 ≤ m) (h1 : m < 1) {s : ℝ} (hs : s ∈ Ioo (-1 : ℝ) 1) : stripPhase m s ∈ Ioo (-(π / 2)) (π / 2) := by
  have hm := stripPhase_strictMonoOn h0 h1
  have hs' : s ∈ Icc (-1 : ℝ) 1 := ⟨hs.1.le, hs.2.le⟩
  constructor
  · rw [← stripPhase_one h1, ← stripPhase_neg h0 h1]
    exact hm ⟨by norm_num, by norm_num⟩ hs' hs.1
  · rw [← stripPhase_one h1]
    exact hm hs' ⟨by norm_num, by norm_num⟩ hs.2

theorem m4_mem (h0 : 0 < m) (h1 : m < 1) : √(√m) ∈ Ioo (0 : ℝ) 1 := by
  have h : √m < 1 := by rw [sqrt_lt' one_pos]; simpa using h1
  refine ⟨sqrt_pos.2 (sqrt_pos.2 h0), ?_⟩
  rw [sqrt_lt' one_pos]
  simpa using h

theorem m4_sin_mem (h0 : 0 < m) (h1 : m < 1) (φ : ℝ) : √(√m) * sin φ ∈ Ioo (-1 : ℝ) 1 := by
  have h := m4_mem h0 h1
  have h2 := neg_one_le_sin φ
  have h3 := sin_le_one φ
  constructor <;> nlinarith [h.1, h.2]

theorem stripPoint_fst (m s : ℝ) : (stripPoint m s).1 = artanh (√(√m) * sin (stripPhase m s)) / artanh (√(√m)) := by
  simp only [stripPoint, ellipj, stripPhase]
  norm_num

theorem stripPoint_snd (m s : ℝ) : (stripPoint m s).2 = 2 * ellipk m * √(√m) * cos (stripPhase m s) *
    √(1 - m * sin (stripPhase m s) ^ 2) / (π * √(1 - s ^ 2) * (1 - √m * sin (stripPhase m s) ^ 2) * artanh (√(√m))) := by
  simp only [stripPoint, ellipj, stripPhase]
  norm_num

theorem artanh_m4_pos (h0 : 0 < m) (h1 : m < 1) : 0 < artanh (√(√m)) := artanh_pos (m4_mem h0 h1)

/-- The map that `map_strip` evaluates. -/
theorem strip_properties (h0 : 0 < m) (h1 : m < 1) :
    (∀ s ∈ Ioo (-1 : ℝ) 1, HasDerivAt (fun s => (stripPoint m s).1) (stripPoint m s).2 s ∧ 0 < (stripPoint m s).2) ∧
    ContinuousOn (fun s => (stripPoint m s).1) (Icc (-1) 1) ∧ StrictMonoOn (fun s => (stripPoint m s).1) (Icc (-1) 1) ∧
    (stripPoint m 1).1 = 1 ∧ (stripPoint m (-1)).1 = -1 ∧ ∀ s, (stripPoint m (-s)).1 = -(stripPoint m s).1 := by
  have hA := artanh_m4_pos h0 h1
  have hK := ellipk_pos h0.le h1
  have h4 := m4_mem h0 h1
  have hsq : √(√m) ^ 2 = √m := sq_sqrt (sqrt_nonneg m)
  have hneg : ∀ s, (stripPoint m (-s)).1 = -(stripPoint m s).1 := by
    intro s
    rw [stripPoint_fst, stripPoint_fst, stripPhase_neg h0.le h1, sin_neg, mul_neg, artanh_neg' _ (m4_sin_mem h0 h1 _), neg_div]
  have hone : (stripPoint m 1).1 = 1 := by
    rw [stripPoint_fst, stripPhase_one h1, sin_pi_div_two, mul_one, div_self hA.ne']
  have hder : ∀ s ∈ Ioo (-1 : ℝ) 1, HasDerivAt (fun s => (stripPoint m s).1) (stripPoint m s).2 s ∧ 0 < (stripPoint m s).2 := by
    intro s hs
    have hs2 : 0 < 1 - s ^ 2 := by nlinarith [hs.1, hs.2]
    have hsr : 0 < √(1 - s ^ 2) := sqrt_pos.2 hs2
    have hden : 0 < 1 - √m * sin (stripPhase m s) ^ 2 := by
      have := m4_sin_mem h0 h1 (stripPhase m s)
      have h : √m * sin (stripPhase m s) ^ 2 = (√(√m) * sin (stripPhase m s)) ^ 2 := by rw [mul_pow, hsq]
      rw [h]
      nlinarith [this.1, this.2]
    have hcos : 0 < cos (stripPhase m s) := cos_pos_of_mem_Ioo (stripPhase_mem h0.le h1 hs)
    have hdn : 0 < √(1 - m * sin (stripPhase m s) ^ 2) := sqrt_pos.2 (ell_radicand_pos h1 _)
    constructor
    · have d1 := hasDerivAt_arcsin hs.1.ne' hs.2.ne
      have d2 := (d1.const_mul (2 * ellipk m)).div_const π
      have d3 := (hasDerivAt_am h0.le h1 (2 * ellipk m * arcsin s / π)).comp s d2
      have d4 := (d3.sin.const_mul (√(√m)))
      have d5 := ((hasDerivAt_artanh (m4_sin_mem h0 h1 (stripPhase m s))).comp s d4).div_const (artanh (√(√m)))
      have d6 : HasDerivAt (fun s => (stripPoint m s).1) _ s := d5.congr_of_eventuallyEq (Eventually.of_forall fun s => stripPoint_fst m s)
      refine d6.congr_deriv ?_
      rw [stripPoint_snd]
      have e : ellipAm m (2 * ellipk m * arcsin s / π) = stripPhase m s := rfl
      have e' : (ellipAm m ∘ fun x => 2 * ellipk m * arcsin x / π) s = stripPhase m s := rfl
      rw [e', mul_pow, hsq, e]
      have hpi := pi_pos
      field_simp
    · rw [stripPoint_snd]
      have hpi := pi_pos
      have := h4.1
      positivity
  have hcont : ContinuousOn (fun s => (stripPoint m s).1) (Icc (-1) 1) := by
    refine Continuous.continuousOn ?_
    have hfun : (fun s => (stripPoint m s).1) = fun s => artanh (√(√m) * sin (stripPhase m s)) / artanh (√(√m)) :=
      funext fun s => stripPoint_fst m s
    rw [hfun]
    refine Continuous.div_const (continuous_iff_continuousAt.2 fun s => ?_) _
    refine ContinuousAt.comp (f := fun s => √(√m) * sin (stripPhase m s)) (hasDerivAt_artanh (m4_sin_mem h0 h1 (stripPhase m s))).continuousAt ?_
    refine Continuous.continuousAt ?_
    have : Continuous (stripPhase m) := (continuous_am h0.le h1).comp (by fun_prop)
    fun_prop
  refine ⟨hder, hcont, ?_, hone, ?_, hneg⟩
  · refine strictMonoOn_of_deriv_pos (convex_Icc _ _) hcont fun s hs => ?_
    rw [interior_Icc] at hs
    rw [(hder s hs).1.deriv]
    exact (hder s hs).2
  · rw [hneg, hone]

end

/-! ## The parameter -/

theorem stripEquation_eq (rho m : ℝ) : stripEquation rho m = ellipk (1 - m) / ellipk m - 4 * log rho / π := by
  rw [stripEquation]
  norm_num

theorem stripEquation_lt (rho : ℝ) {m m' : ℝ} (h0 : 0 < m) (h : m < m') (h1 : m' < 1) : stripEquation rho m' < stripEquation rho m := by
  rw [stripEquation_eq, stripEquation_eq]
  have a1 := ellipk_lt h h1
  have a2 : ellipk (1 - m') < ellipk (1 - m) := ellipk_lt (by linarith) (by linarith)
  have p1 := ellipk_pos h0.le (h.trans h1)
  have p2 : 0 < ellipk (1 - m') := ellipk_pos (by linarith) (by linarith)
  have : ellipk (1 - m') / ellipk m' < ellipk (1 - m) / ellipk m := div_lt_div₀ a2 a1.le (p2.trans a2).le p1
  linarith

theorem continuousOn_stripEquation (rho : ℝ) : ContinuousOn (stripEquation rho) (Ioo 0 1) := by
  have : stripEquation rho = fun m => ellipk (1 - m) / ellipk m - 4 * log rho / π := funext fun m => stripEquation_eq rho m
  rw [this]
  refine ContinuousOn.sub (ContinuousOn.div ?_ ?_ ?_) continuousOn_const
  · exact continuousOn_ellipk.comp (by fun_prop) fun m hm => by simpa using hm.1
  · exact continuousOn_ellipk.mono fun m hm => hm.2
  · exact fun m hm => (ellipk_pos hm.1.le hm.2).ne'

/-- The loop ends with an admissible upper end, and ends because its condition fails. -/
theorem stripUpperLoop_spec (f : ℝ → ℝ) (k j : Nat) (hj : j + k = 108) (h8 : 8 ≤ j) (h16 : j ≤ 16) :
    ∃ i : Nat, 8 ≤ i ∧ i ≤ 16 ∧ stripUpperLoop f k (1 - 1 / 10 ^ j) = 1 - 1 / 10 ^ i ∧
      (0 < f (1 - 1 / 10 ^ i) → i = 16) := by
  induction k generalizing j with
  | zero => omega
  | succ k ih =>
    rw [stripUpperLoop]
    split_ifs with h
    · have hlt : j < 16 := by
        by_contra hj
        have : j = 16 := by omega
        subst this
        have := h.2
        norm_num at this
      have e : (1.0 : ℝ) - (1.0 - (1 - 1 / 10 ^ j)) / 10.0 = 1 - 1 / 10 ^ (j + 1) := by
        rw [pow_succ]
        norm_num
        field_simp
      rw [e]
      exact ih (j + 1) (by omega) (by omega) (by omega)
    · refine ⟨j, h8, h16, rfl, fun hf => ?_⟩
      by_contra hne
      refine h ⟨by norm_num at hf ⊢; exact hf, ?_⟩
      have hlt : j < 16 := by omega
      have hp : (10 : ℝ) ^ j < 10 ^ 16 := pow_lt_pow_right₀ (by norm_num) hlt
      have : (1 : ℝ) / 10 ^ 16 < 1 / 10 ^ j := one_div_lt_one_div_of_lt (by positivity) hp
      norm_num at this ⊢
      linarith

theorem stripParameter_eq (brentq : Brentq) {rho : ℝ} (h : 1 < rho) : ∃ i : Nat, 8 ≤ i ∧ i ≤ 16 ∧
    (0 < stripEquation rho (1 - 1 / 10 ^ i) → i = 16 ∧ stripParameter brentq rho = .error .RuntimeError) ∧
    (stripEquation rho (1 - 1 / 10 ^ i) ≤ 0 →
      stripParameter brentq rho = brentq (stripEquation rho) (1 / 10 ^ 14) (1 - 1 / 10 ^ i)) := by
  obtain ⟨i, h1, h2, h3, h4⟩ := stripUpperLoop_spec (stripEquation rho) 100 8 (by norm_num) (by norm_num) (by norm_num)
  have e : stripUpperLoop (stripEquation rho) 100 (1.0 - 1.0e-8) = 1 - 1 / 10 ^ i := by
    rw [← h3]
    congr 1
    norm_num
  refine ⟨i, h1, h2, fun hp => ⟨h4 hp, ?_⟩, fun hp => ?_⟩
  · rw [stripParameter, if_neg (by norm_num; exact h)]
    simp only [e]
    rw [if_pos (by norm_num at hp ⊢; exact hp)]
  · rw [stripParameter, if_neg (by norm_num; exact h)]
    simp only [e]
    rw [if_neg (by norm_num at hp ⊢; exact hp)]
    congr 1
    norm_num

theorem bracket_le {i : Nat} (h8 : 8 ≤ i) : (1 : ℝ) / 10 ^ 14 < 1 - 1 / 10 ^ i ∧ (1 : ℝ) - 1 / 10 ^ i < 1 := by
  have hp : (10 : ℝ) ^ 8 ≤ 10 ^ i := pow_le_pow_right₀ (by norm_num) h8
  have : (1 : ℝ) / 10 ^ i ≤ 1 / 10 ^ 8 := one_div_le_one_div_of_le (by positivity) hp
  have h2 : (0 : ℝ) < 1 / 10 ^ i := by positivity
  constructor
  · norm_num at this ⊢
    linarith
  · linarith

/-- **C69 (parameter).**  If a parameter is found it is the one number `m` between 0 and 1 with `K(1 - m) / K(m) = 4 log(rho) / π`. -/
theorem C69_parameter (brentq : Brentq) (hb : Spec.BrentqOk brentq) (rho m : ℝ) (h : stripParameter brentq rho = .ok m) :
    1 < rho ∧ 0 < m ∧ m < 1 ∧ ellipk (1 - m) / ellipk m = 4 * log rho / π ∧
    ∀ m', 0 < m' → m' < 1 → ellipk (1 - m') / ellipk m' = 4 * log rho / π → m' = m := by
  have hr : 1 < rho := by
    by_contra hr
    rw [stripParameter, if_pos (by norm_num; exact not_lt.1 hr)] at h
    cases h
  obtain ⟨i, h8, h16, e1, e2⟩ := stripParameter_eq brentq hr
  have hbr := bracket_le h8
  have hpos : (0 : ℝ) < 1 / 10 ^ 14 := by positivity
  have hf : stripEquation rho (1 - 1 / 10 ^ i) ≤ 0 := by
    by_contra hf
    rw [(e1 (not_le.1 hf)).2] at h
    cases h
  rw [e2 hf] at h
  have hc : ContinuousOn (stripEquation rho) (Icc (1 / 10 ^ 14) (1 - 1 / 10 ^ i)) :=
    (continuousOn_stripEquation rho).mono fun x hx => ⟨hpos.trans_le hx.1, hx.2.trans_lt hbr.2⟩
  have hok := hb _ _ _ hbr.1.le hc
  rcases lt_or_ge 0 (stripEquation rho (1 / 10 ^ 14) * stripEquation rho (1 - 1 / 10 ^ i)) with hs | hs
  · rw [hok.1 hs] at h
    cases h
  · obtain ⟨r, hr1, hr2, hr3⟩ := hok.2 hs
    rw [hr2] at h
    injection h with h
    subst h
    have h0 : 0 < r := hpos.trans_le hr1.1
    have h1 : r < 1 := hr1.2.trans_lt hbr.2
    refine ⟨hr, h0, h1, ?_, fun m' h0' h1' he => ?_⟩
    · rw [stripEquation_eq] at hr3
      linarith
    · have he' : stripEquation rho m' = 0 := by rw [stripEquation_eq, he, sub_self]
      rcases lt_trichotomy m' r with hlt | heq | hgt
      · have := stripEquation_lt rho h0' hlt h1
        linarith
      · exact heq
      · have := stripEquation_lt rho h0 hgt h1'
        linarith

theorem log_two_gt' : (0.693 : ℝ) < log 2 := lt_trans (by norm_num) log_two_gt_d9

theorem log_ten_bounds : (2.279 : ℝ) ≤ log 10 ∧ log 10 ≤ 2.33 := by
  have e : log 10 = 3 * log 2 + log (5 / 4) := by
    rw [show (10 : ℝ) = 2 ^ 3 * (5 / 4) by norm_num, log_mul (by norm_num) (by norm_num), log_pow]
    norm_num
  have h1 := one_sub_inv_le_log_of_pos (show (0 : ℝ) < 5 / 4 by norm_num)
  have h2 := log_le_sub_one_of_pos (show (0 : ℝ) < 5 / 4 by norm_num)
  have h3 := log_two_gt'
  have h4 := log_two_lt_d9
  rw [e]
  norm_num at h1 h2 h3 h4 ⊢
  constructor <;> linarith

theorem log_three_ge : (1.02 : ℝ) ≤ log 3 := by
  have e : log 3 = log 2 + log (3 / 2) := by
    rw [← log_mul (by norm_num) (by norm_num)]
    norm_num
  have h1 := one_sub_inv_le_log_of_pos (show (0 : ℝ) < 3 / 2 by norm_num)
  have h3 := log_two_gt'
  rw [e]
  norm_num at h1 h3 ⊢
  linarith

theorem ellipk_small {m : ℝ} (h0 : 0 ≤ m) (h1 : m ≤ 0.01) : ellipk m ≤ 1.6 := by
  refine (ellipk_le (lt_of_le_of_lt h1 (by norm_num)) h0).trans ?_
  have : (0.99 : ℝ) ≤ √(1 - m) := by
    rw [le_sqrt (by norm_num) (by norm_num at h1 ⊢; linarith)]
    norm_num at h1 ⊢
    linarith
  have hpi := pi_lt_d2
  rw [div_le_iff₀ (by linarith)]
  norm_num at this hpi ⊢
  linarith

theorem ellipk_large (k : Nat) : 2.279 * k + 1.02 ≤ ellipk (1 - 1 / 10 ^ (2 * k)) := by
  refine le_trans ?_ (ellipk_ge_arsinh (ε := 1 / 10 ^ (2 * k)) (by positivity))
  have hs : √(1 / 10 ^ (2 * k)) = 1 / 10 ^ k := by
    rw [show (1 : ℝ) / 10 ^ (2 * k) = (1 / 10 ^ k) ^ 2 by rw [div_pow, one_pow, ← pow_mul, mul_comm]]
    exact sqrt_sq (by positivity)
  rw [hs, arsinh, div_div_eq_mul_div, div_one]
  have hpi := pi_gt_three
  have h1 : 3 * (10 : ℝ) ^ k ≤ π / 2 * 10 ^ k + √(1 + (π / 2 * 10 ^ k) ^ 2) := by
    have hx : (0 : ℝ) ≤ π / 2 * 10 ^ k := by positivity
    have : π / 2 * 10 ^ k ≤ √(1 + (π / 2 * 10 ^ k) ^ 2) := by
      rw [le_sqrt hx (by positivity)]
      linarith
    have hp : (0 : ℝ) < 10 ^ k := by positivity
    nlinarith
  refine le_trans ?_ (log_le_log (by positivity) h1)
  rw [log_mul (by norm_num) (by positivity), log_pow]
  have h2 := log_ten_bounds.1
  have h3 := log_three_ge
  have hk : (0 : ℝ) ≤ k := Nat.cast_nonneg k
  nlinarith

/-- **C69 (existence of the parameter).**  For `1.1 ≤ rho ≤ 1000` a parameter is found. -/
theorem C69_found (brentq : Brentq) (hb : Spec.BrentqOk brentq) (rho : ℝ) (h1 : 1.1 ≤ rho) (h2 : rho ≤ 1000) :
    ∃ m, stripParameter brentq rho = .ok m := by
  have hr : 1 < rho := lt_of_lt_of_le (by norm_num) h1
  have hpi := pi_pos
  have ht1 : 0.11 ≤ 4 * log rho / π := by
    rw [le_div_iff₀ hpi]
    have a : 1 - (1.1 : ℝ)⁻¹ ≤ log rho := (one_sub_inv_le_log_of_pos (by norm_num)).trans (log_le_log (by norm_num) h1)
    have b := pi_lt_d2
    norm_num at a b ⊢
    linarith
  have ht2 : 4 * log rho / π < 10 := by
    rw [div_lt_iff₀ hpi]
    have a : log rho ≤ 3 * log 10 := by
      refine (log_le_log (by linarith) h2).trans (le_of_eq ?_)
      rw [show (1000 : ℝ) = 10 ^ 3 by norm_num, log_pow]
      norm_num
    have b := pi_gt_three
    have c := log_ten_bounds.2
    norm_num at c
    linarith
  obtain ⟨i, h8, h16, e1, e2⟩ := stripParameter_eq brentq hr
  have hbr := bracket_le h8
  have hpos : (0 : ℝ) < 1 / 10 ^ 14 := by positivity
  have hlow : 0 < stripEquation rho (1 / 10 ^ 14) := by
    rw [stripEquation_eq]
    have a := ellipk_small (m := 1 / 10 ^ 14) (by positivity) (by norm_num)
    have b := ellipk_large 7
    have c : 0 < ellipk (1 / 10 ^ 14) := ellipk_pos (by positivity) (by norm_num)
    have : 10 < ellipk (1 - 1 / 10 ^ 14) / ellipk (1 / 10 ^ 14) := by
      rw [lt_div_iff₀ c]
      norm_num at a b ⊢
      linarith
    linarith
  have hup : stripEquation rho (1 - 1 / 10 ^ i) ≤ 0 := by
    by_contra hp
    push Not at hp
    obtain ⟨rfl, -⟩ := e1 hp
    rw [stripEquation_eq] at hp
    have a := ellipk_small (m := 1 / 10 ^ 16) (by positivity) (by norm_num)
    have b := ellipk_large 8
    have c : 0 < ellipk (1 - 1 / 10 ^ 16) := lt_of_lt_of_le (by norm_num) b
    have : ellipk (1 - (1 - 1 / 10 ^ 16)) / ellipk (1 - 1 / 10 ^ 16) ≤ 0.11 := by
      rw [div_le_iff₀ c, sub_sub_cancel]
      norm_num at a b ⊢
      linarith
    linarith
  have hc : ContinuousOn (stripEquation rho) (Icc (1 / 10 ^ 14) (1 - 1 / 10 ^ i)) :=
    (continuousOn_stripEquation rho).mono fun x hx => ⟨hpos.trans_le hx.1, hx.2.trans_lt hbr.2⟩
  obtain ⟨r, -, hr2, -⟩ := (hb _ _ _ hbr.1.le hc).2 (mul_nonpos_of_nonneg_of_nonpos hlow.le hup)
  exact ⟨r, by rw [e2 hup, hr2]⟩

/-- **C69 (rejections).**  End points and points outside of the interval, and parameters `rho ≤ 1`, raise `ValueError`. -/
theorem C69_rejects (brentq : Brentq) (s : List ℝ) (rho : ℝ) :
    ((∃ x ∈ s, 1 ≤ |x|) → mapStrip brentq s rho = .error .ValueError) ∧
    (rho ≤ 1 → mapStrip brentq s rho = .error .ValueError) := by
  have hr : rho ≤ 1 → stripParameter brentq rho = .error .ValueError := fun h => by
    rw [stripParameter, if_pos (by norm_num; exact h)]
  constructor
  · rintro ⟨x, hx, hx1⟩
    rw [mapStrip, if_pos ⟨x, hx, by norm_num; exact hx1⟩]
  · intro h
    rw [mapStrip, hr h]
    split <;> rfl

/-- **C69 (map).**  When a parameter is found, `map_strip` applies to interior points a function `g` that is odd, strictly
increasing and continuous on `[-1, 1]`, fixes the end points, and returns its derivative, which is positive. -/
theorem C69_map (brentq : Brentq) (hb : Spec.BrentqOk brentq) (rho m : ℝ) (h : stripParameter brentq rho = .ok m) :
    ∃ g gp : ℝ → ℝ, (∀ s : List ℝ, (∀ x ∈ s, |x| < 1) → mapStrip brentq s rho = .ok (s.map g, s.map gp)) ∧
      (∀ s ∈ Ioo (-1 : ℝ) 1, HasDerivAt g (gp s) s ∧ 0 < gp s) ∧ ContinuousOn g (Icc (-1) 1) ∧ StrictMonoOn g (Icc (-1) 1) ∧
      g 1 = 1 ∧ g (-1) = -1 ∧ ∀ s, g (-s) = -g s := by
  obtain ⟨-, h0, h1, -⟩ := C69_parameter brentq hb rho m h
  refine ⟨fun s => (stripPoint m s).1, fun s => (stripPoint m s).2, fun s hs => ?_, strip_properties h0 h1⟩
  rw [mapStrip, if_neg, h]
  rintro ⟨x, hx, hx1⟩
  have := hs x hx
  norm_num at hx1
  linarith

/-- **C69 (change of variables).**  Integrals over the interval may be computed in the new variable, for every function. -/
theorem C69_change_of_variables (brentq : Brentq) (hb : Spec.BrentqOk brentq) (rho m : ℝ) (h : stripParameter brentq rho = .ok m) :
    ∃ g gp : ℝ → ℝ, (∀ s : List ℝ, (∀ x ∈ s, |x| < 1) → mapStrip brentq s rho = .ok (s.map g, s.map gp)) ∧
      ∀ f : ℝ → ℝ, ∫ t in (-1 : ℝ)..1, f t = ∫ s in (-1 : ℝ)..1, f (g s) * gp s := by
  obtain ⟨g, gp, hmap, hder, hcont, hmono, h1, h2, -⟩ := C69_map brentq hb rho m h
  refine ⟨g, gp, hmap, fun f => ?_⟩
  have himg : g '' Ioo (-1) 1 = Ioo (-1) 1 := by
    apply Subset.antisymm
    · rintro _ ⟨s, hs, rfl⟩
      have hs' : s ∈ Icc (-1 : ℝ) 1 := ⟨hs.1.le, hs.2.le⟩
      constructor
      · rw [← h2]; exact hmono ⟨le_rfl, by norm_num⟩ hs' hs.1
      · rw [← h1]; exact hmono hs' ⟨by norm_num, le_rfl⟩ hs.2
    · have := intermediate_value_Ioo (show (-1 : ℝ) ≤ 1 by norm_num) hcont
      rwa [h1, h2] at this
  have hinj : InjOn g (Ioo (-1) 1) := (hmono.mono Ioo_subset_Icc_self).injOn
  have key := integral_image_eq_integral_abs_deriv_smul (s := Ioo (-1 : ℝ) 1) measurableSet_Ioo
    (fun s hs => (hder s hs).1.hasDerivWithinAt) hinj f
  rw [himg] at key
  rw [intervalIntegral.integral_of_le (by norm_num), intervalIntegral.integral_of_le (by norm_num), integral_Ioc_eq_integral_Ioo,
    integral_Ioc_eq_integral_Ioo, key]
  refine setIntegral_congr_fun measurableSet_Ioo fun s hs => ?_
  simp only [smul_eq_mul, abs_of_pos (hder s hs).2]
  ring

theorem transplanted1D_congr (q : Quadrature) (n : Nat) (hq : Spec.OneDim q n) (F F' : List ℝ → Py (List ℝ × List ℝ))
    (h : ∀ l : List ℝ, (∀ x ∈ l, ∃ k < n, x = (q.node k).headD 0) → F l = F' l) :
    transplanted1D q (.other F) = transplanted1D q (.other F') := by
  obtain ⟨-, hn⟩ := hq
  unfold transplanted1D
  rcases hn with hn | hn
  · have := h ((List.range n).map fun k => q.nodes.get [k]) (by
      intro x hx
      obtain ⟨k, hk, rfl⟩ := List.mem_map.1 hx
      exact ⟨k, List.mem_range.1 hk, by simp [Quadrature.node, hn]⟩)
    simp only [hn, MapFn.call, this]
    rfl
  · have := h ((List.range n).map fun k => q.nodes.get [0, k]) (by
      intro x hx
      obtain ⟨k, hk, rfl⟩ := List.mem_map.1 hx
      exact ⟨k, List.mem_range.1 hk, by simp [Quadrature.node, hn]⟩)
    simp only [hn, MapFn.call, this]
    rfl

/-- **C69 (transplanted rule).**  The strip transplant of a rule on the segment with interior nodes applies the rule to the integrand
in the new variable; it is exact for `f` whenever the rule is exact for that integrand.  A rule with a node at an end point is
rejected. -/
theorem C69_transplant (brentq : Brentq) (hb : Spec.BrentqOk brentq) (rho m : ℝ) (h : stripParameter brentq rho = .ok m)
    (q : Quadrature) (n : Nat) (hq : Spec.OneDim q n) :
    ((∀ k < n, |(q.node k).headD 0| < 1) → ∃ g gp : ℝ → ℝ, ∃ q',
      (∀ f : ℝ → ℝ, ∫ t in (-1 : ℝ)..1, f t = ∫ s in (-1 : ℝ)..1, f (g s) * gp s) ∧
      transplanted1D q (.other fun s => mapStrip brentq s rho) = .ok q' ∧
      (∀ f : ℝ → ℝ, q'.call (fun x => f (x.headD 0)) = q.call fun x => f (g (x.headD 0)) * gp (x.headD 0)) ∧
      ∀ f : ℝ → ℝ, q.call (fun x => f (g (x.headD 0)) * gp (x.headD 0)) = ∫ s in (-1 : ℝ)..1, f (g s) * gp s →
        q'.call (fun x => f (x.headD 0)) = ∫ t in (-1 : ℝ)..1, f t) ∧
    ((∃ k < n, 1 ≤ |(q.node k).headD 0|) →
      transplanted1D q (.other fun s => mapStrip brentq s rho) = .error .ValueError) := by
  obtain ⟨g, gp, hmap, hchange⟩ := C69_change_of_variables brentq hb rho m h
  constructor
  · intro hin
    obtain ⟨q', hq', -, -, hcall, -⟩ := C49_change q n hq (.other fun l => .ok (l.map g, l.map gp)) g gp fun l => rfl
    have hc : ∀ f : ℝ → ℝ, q'.call (fun x => f (x.headD 0)) = q.call fun x => f (g (x.headD 0)) * gp (x.headD 0) := by
      intro f
      rw [hcall]
      simp only [List.headD_cons]
    refine ⟨g, gp, q', hchange, ?_, hc, fun f hf => ?_⟩
    · rw [← hq']
      refine transplanted1D_congr q n hq _ _ fun l hl => hmap l fun x hx => ?_
      obtain ⟨k, hk, rfl⟩ := hl x hx
      exact hin k hk
    · exact ((hc f).trans hf).trans (hchange f).symm
  · rintro ⟨k, hk, hk1⟩
    unfold transplanted1D
    rcases hq.2 with hn | hn
    · have := (C69_rejects brentq ((List.range n).map fun k => q.nodes.get [k]) rho).1 ⟨q.nodes.get [k],
        List.mem_map.2 ⟨k, List.mem_range.2 hk, rfl⟩, by simpa [Quadrature.node, hn] using hk1⟩
      simp only [hn, MapFn.call, this]
    · have := (C69_rejects brentq ((List.range n).map fun k => q.nodes.get [0, k]) rho).1 ⟨q.nodes.get [0, k],
        List.mem_map.2 ⟨k, List.mem_range.2 hk, rfl⟩, by simpa [Quadrature.node, hn] using hk1⟩
      simp only [hn, MapFn.call, this]

/-- The default parameter. -/
example : ∃ brentq, Spec.BrentqOk brentq ∧ ∃ m, stripParameter brentq 1.4 = .ok m := by
  obtain ⟨b, hb⟩ := exists_brentqOk
  exact ⟨b, hb, C69_found b hb 1.4 (by norm_num) (by norm_num)⟩

/-- A one-point rule with its node in the interior. -/
example : Spec.OneDim ⟨⟨[1], fun _ => 0⟩, ⟨[1], fun _ => 2⟩, none, none⟩ 1 ∧
    ∀ k < 1, |((⟨⟨[1], fun _ => 0⟩, ⟨[1], fun _ => 2⟩, none, none⟩ : Quadrature).node k).headD 0| < 1 := by
  refine ⟨⟨rfl, .inl rfl⟩, fun k _ => ?_⟩
  simp [Quadrature.node]

end Modepy

import Verif.Props.Quadgk
import Mathlib.MeasureTheory.Function.JacobianOneDim
import Mathlib.MeasureTheory.Integral.IntervalIntegral.Basic

/-!
# Property C55: infinite intervals of integration
-/

namespace Modepy
open MeasureTheory Set

section
variable {V : Type} [NormedAddCommGroup V] [NormedSpace ℝ V]

/-- The integral of `F` from `p` to `q`, either of which may be infinite, with orientation. -/
noncomputable def Spec.oriented (F : ℝ → V) (p q : EReal) : V :=
  open Classical in
  if p ≤ q then ∫ x in {x : ℝ | p < x ∧ (x : EReal) < q}, F x else -∫ x in {x : ℝ | q < x ∧ (x : EReal) < p}, F x
open Spec

/-- One piece of a monotone change of variables `x = φ t` on `(lo, hi)`, inverted on `dom` by `ψ`. -/
theorem change_piece (F : ℝ → V) (lo hi : ℝ) (φ φ' : ℝ → ℝ) (hd : ∀ t ∈ Ioo lo hi, HasDerivAt φ (φ' t) t)
    (hinj : InjOn φ (Ioo lo hi)) (ψ : EReal → ℝ) (dom : Set EReal) (hψ : ∀ p ∈ dom, ψ p ∈ Icc lo hi)
    (hlt : ∀ p ∈ dom, ∀ t ∈ Ioo lo hi, ψ p < t ↔ p < φ t) (hgt : ∀ p ∈ dom, ∀ t ∈ Ioo lo hi, t < ψ p ↔ (φ t : EReal) < p)
    (hsurj : ∀ x : ℝ, (∃ p ∈ dom, p < (x : EReal)) → (∃ q ∈ dom, (x : EReal) < q) → ∃ t ∈ Ioo lo hi, φ t = x)
    (p q : EReal) (hp : p ∈ dom) (hq : q ∈ dom) :
    ∫ t in ψ p..ψ q, |φ' t| • F (φ t) = oriented F p q := by
  have main : ∀ p q, p ∈ dom → q ∈ dom → p ≤ q →
      ψ p ≤ ψ q ∧ ∫ t in Ioo (ψ p) (ψ q), |φ' t| • F (φ t) = ∫ x in {x : ℝ | p < x ∧ (x : EReal) < q}, F x := by
    intro p q hp hq hpq
    refine ⟨?_, ?_⟩
    · by_contra hcon
      push Not at hcon
      obtain ⟨t, t1, t2⟩ := exists_between hcon
      have ht : t ∈ Ioo lo hi := ⟨(hψ q hq).1.trans_lt t1, t2.trans_le (hψ p hp).2⟩
      exact absurd (((hlt q hq t ht).1 t1).trans ((hgt p hp t ht).1 t2)) (not_lt.2 hpq)
    · have hsub : Ioo (ψ p) (ψ q) ⊆ Ioo lo hi := fun t ht => ⟨(hψ p hp).1.trans_lt ht.1, ht.2.trans_le (hψ q hq).2⟩
      rw [← integral_image_eq_integral_abs_deriv_smul measurableSet_Ioo
        (fun t ht => (hd t (hsub ht)).hasDerivWithinAt) (hinj.mono hsub)]
      congr 2
      ext x
      simp only [mem_image, mem_ofPred_eq]
      constructor
      · rintro ⟨t, ht, rfl⟩
        exact ⟨(hlt p hp t (hsub ht)).1 ht.1, (hgt q hq t (hsub ht)).1 ht.2⟩
      · rintro ⟨h1, h2⟩
        obtain ⟨t, ht, rfl⟩ := hsurj x ⟨p, hp, h1⟩ ⟨q, hq, h2⟩
        exact ⟨t, ⟨(hlt p hp t ht).2 h1, (hgt q hq t ht).2 h2⟩, rfl⟩
  rw [oriented]
  by_cases hpq : p ≤ q
  · obtain ⟨h1, h2⟩ := main p q hp hq hpq
    rw [if_pos hpq, intervalIntegral.integral_of_le h1, integral_Ioc_eq_integral_Ioo, h2]
  · obtain ⟨h1, h2⟩ := main q p hq hp (le_of_not_ge hpq)
    rw [if_neg hpq, intervalIntegral.integral_of_ge h1, integral_Ioc_eq_integral_Ioo, h2]

/-! ## The whole line -/

theorem bothInfMap_coe (x : ℝ) : bothInfMap (x : EReal) = 2 * x / (1 + √ (1 + (2 * x) ^ 2)) := by
  change 2 * x / (1 + √ (1 ^ 2 + (2 * x) ^ 2)) = _
  rw [one_pow]

theorem bothInf_mem (x : ℝ) : bothInfMap (x : EReal) ∈ Ioo (-1 : ℝ) 1 := by
  rw [bothInfMap_coe]
  have h : |2 * x| < √ (1 + (2 * x) ^ 2) := by
    rw [← Real.sqrt_sq_eq_abs]
    exact Real.sqrt_lt_sqrt (sq_nonneg _) (by linarith)
  have hp : 0 < 1 + √ (1 + (2 * x) ^ 2) := by positivity
  obtain ⟨h1, h2⟩ := abs_lt.1 h
  exact ⟨by rw [lt_div_iff₀ hp]; linarith, by rw [div_lt_iff₀ hp]; linarith⟩

theorem bothInf_inv (x : ℝ) :
    bothInfMap (x : EReal) / (1 - bothInfMap (x : EReal) * bothInfMap (x : EReal)) = x := by
  rw [bothInfMap_coe]
  set r := √ (1 + (2 * x) ^ 2) with hr
  have hr2 : r ^ 2 = 1 + (2 * x) ^ 2 := Real.sq_sqrt (by positivity)
  have hr0 : 0 ≤ r := Real.sqrt_nonneg _
  have hp : 1 + r ≠ 0 := by positivity
  have e : 1 - 2 * x / (1 + r) * (2 * x / (1 + r)) = 2 / (1 + r) := by
    rw [div_mul_div_comm, eq_div_iff hp, sub_mul, div_mul_eq_mul_div, sub_eq_iff_eq_add, ← sub_eq_iff_eq_add',
      eq_div_iff (mul_ne_zero hp hp)]
    linear_combination (1 + r) * hr2
  rw [e]
  field_simp

theorem bothInf_strictMono : StrictMonoOn (fun t : ℝ => t / (1 - t * t)) (Ioo (-1) 1) := by
  intro s hs t ht hst
  have h1 : 0 < 1 - s * s := by nlinarith [hs.1, hs.2]
  have h2 : 0 < 1 - t * t := by nlinarith [ht.1, ht.2]
  simp only
  rw [div_lt_div_iff₀ h1 h2]
  have h3 : 0 < 1 + s * t := by nlinarith [hs.1, hs.2, ht.1, ht.2]
  nlinarith [mul_pos (sub_pos.2 hst) h3]

theorem bothInf_lt (p : EReal) (t : ℝ) (ht : t ∈ Ioo (-1 : ℝ) 1) :
    (bothInfMap p < t ↔ p < ((t / (1 - t * t) : ℝ) : EReal)) ∧ (t < bothInfMap p ↔ ((t / (1 - t * t) : ℝ) : EReal) < p) := by
  induction p using EReal.rec with
  | bot =>
    have e : bothInfMap ⊥ = -1 := rfl
    rw [e]
    exact ⟨⟨fun _ => EReal.bot_lt_coe _, fun _ => ht.1⟩, ⟨fun h => absurd h (not_lt.2 ht.1.le), fun h => absurd h not_lt_bot⟩⟩
  | top =>
    have e : bothInfMap ⊤ = 1 := rfl
    rw [e]
    exact ⟨⟨fun h => absurd h (not_lt.2 ht.2.le), fun h => absurd h not_top_lt⟩, ⟨fun _ => EReal.coe_lt_top _, fun _ => ht.2⟩⟩
  | coe x =>
    have hx := bothInf_mem x
    have hi := bothInf_inv x
    rw [EReal.coe_lt_coe_iff, EReal.coe_lt_coe_iff]
    constructor
    · rw [← bothInf_strictMono.lt_iff_lt hx ht]
      simp only [hi]
    · rw [← bothInf_strictMono.lt_iff_lt ht hx]
      simp only [hi]

theorem bothInf_piece (F : ℝ → V) (p q : EReal) :
    ∫ t in bothInfMap p..bothInfMap q, (bothInfIntegrand (fun x => some (F x)) t).getD 0 = oriented F p q := by
  rw [← change_piece F (-1) 1 (fun t => t / (1 - t * t)) (fun t => (1 + t * t) / (1 - t * t) ^ 2) ?_ bothInf_strictMono.injOn
    bothInfMap univ ?_ (fun p _ t ht => (bothInf_lt p t ht).1) (fun p _ t ht => (bothInf_lt p t ht).2)
    (fun x _ _ => ⟨bothInfMap x, bothInf_mem x, bothInf_inv x⟩) p q trivial trivial]
  · congr 1
    funext t
    rw [bothInfIntegrand]
    split
    · rename_i h
      simp [h]
    · rename_i h
      rw [Option.map_some, Option.getD_some, abs_of_nonneg (div_nonneg (by nlinarith [mul_self_nonneg t]) (sq_nonneg _))]
      congr 1
      · field_simp
      · congr 1
        ring
  · intro t ht
    have h2 : 1 - t * t ≠ 0 := by nlinarith [ht.1, ht.2]
    have hd : HasDerivAt (fun t : ℝ => 1 - t * t) (-(t + t)) t := by
      have := ((hasDerivAt_id t).mul (hasDerivAt_id t)).const_sub 1
      simpa using this
    exact ((hasDerivAt_id t).div hd h2).congr_deriv (by simp only [id]; congr 1; ring)
  · intro p _
    induction p using EReal.rec with
    | bot => exact ⟨le_refl (-1 : ℝ), by norm_num [show bothInfMap ⊥ = -1 from rfl]⟩
    | top => exact ⟨by norm_num [show bothInfMap ⊤ = 1 from rfl], le_refl (1 : ℝ)⟩
    | coe x => exact ⟨(bothInf_mem x).1.le, (bothInf_mem x).2.le⟩

/-! ## Half lines -/

theorem semiInfMapDiff_eq (d : ℝ) (h : 0 ≤ d) : semiInfMapDiff d = d / (1 + d) := by
  rw [semiInfMapDiff]
  split
  · rename_i h0; simp [h0]
  · rename_i h0
    field_simp
    ring

theorem semiInfPosMap_coe (a x : ℝ) : semiInfPosMap a (x : EReal) = semiInfMapDiff (x - a) := rfl

theorem semiInfPos_strictMono (a : ℝ) : StrictMonoOn (fun t : ℝ => a + t / (1 - t)) (Ioo 0 1) := by
  intro s hs t ht hst
  have h1 : 0 < 1 - s := by linarith [hs.2]
  have h2 : 0 < 1 - t := by linarith [ht.2]
  simp only
  have : s / (1 - s) < t / (1 - t) := by
    rw [div_lt_div_iff₀ h1 h2]
    nlinarith
  linarith

theorem semiInfPos_lt (a : ℝ) (p : EReal) (hp : (a : EReal) ≤ p) (t : ℝ) (ht : t ∈ Ioo (0 : ℝ) 1) :
    (semiInfPosMap a p < t ↔ p < ((a + t / (1 - t) : ℝ) : EReal)) ∧
    (t < semiInfPosMap a p ↔ ((a + t / (1 - t) : ℝ) : EReal) < p) := by
  induction p using EReal.rec with
  | bot => simp at hp
  | top =>
    have e : semiInfPosMap a ⊤ = 1 := rfl
    rw [e]
    exact ⟨⟨fun h => absurd h (not_lt.2 ht.2.le), fun h => absurd h not_top_lt⟩, ⟨fun _ => EReal.coe_lt_top _, fun _ => ht.2⟩⟩
  | coe x =>
    rw [EReal.coe_le_coe_iff] at hp
    have hd : 0 < 1 + (x - a) := by linarith
    have h2 : 0 < 1 - t := by linarith [ht.2]
    rw [EReal.coe_lt_coe_iff, EReal.coe_lt_coe_iff, semiInfPosMap_coe, semiInfMapDiff_eq _ (by linarith), div_lt_iff₀ hd,
      lt_div_iff₀ hd, ← sub_lt_iff_lt_add', ← lt_sub_iff_add_lt', lt_div_iff₀ h2, div_lt_iff₀ h2]
    constructor <;> constructor <;> intro h <;> nlinarith

theorem semiInfPos_piece (F : ℝ → V) (a : ℝ) (p q : EReal) (hp : (a : EReal) ≤ p) (hq : (a : EReal) ≤ q) :
    ∫ t in semiInfPosMap a p..semiInfPosMap a q, (semiInfPosIntegrand (fun x => some (F x)) a t).getD 0 = oriented F p q := by
  rw [← change_piece F 0 1 (fun t => a + t / (1 - t)) (fun t => 1 / (1 - t) ^ 2) ?_ (semiInfPos_strictMono a).injOn
    (semiInfPosMap a) {p | (a : EReal) ≤ p} ?_ (fun p hp t ht => (semiInfPos_lt a p hp t ht).1)
    (fun p hp t ht => (semiInfPos_lt a p hp t ht).2) ?_ p q hp hq]
  · congr 1
    funext t
    rw [semiInfPosIntegrand]
    split
    · rename_i h
      simp [h]
    · rename_i h
      rw [Option.map_some, Option.getD_some, abs_of_nonneg (by positivity)]
      congr 1
      · field_simp
      · congr 1
        ring
  · intro t ht
    have h2 : 1 - t ≠ 0 := by linarith [ht.2]
    have hd : HasDerivAt (fun t : ℝ => 1 - t) (-1) t := by
      simpa using (hasDerivAt_id t).const_sub 1
    exact (((hasDerivAt_id t).div hd h2).const_add a).congr_deriv (by simp only [id]; congr 1; ring)
  · intro p hp
    induction p using EReal.rec with
    | bot => simp at hp
    | top => exact ⟨by norm_num [show semiInfPosMap a ⊤ = 1 from rfl], le_refl (1 : ℝ)⟩
    | coe x =>
      have hx : a ≤ x := EReal.coe_le_coe_iff.1 hp
      rw [semiInfPosMap_coe, semiInfMapDiff_eq _ (by linarith)]
      have hd : 0 < 1 + (x - a) := by linarith
      exact ⟨div_nonneg (by linarith) hd.le, by rw [div_le_one hd]; linarith⟩
  · rintro x ⟨p, hp, hpx⟩ -
    have hx : a < x := EReal.coe_lt_coe_iff.1 (lt_of_le_of_lt hp hpx)
    have hd : 0 < 1 + (x - a) := by linarith
    refine ⟨(x - a) / (1 + (x - a)), ⟨div_pos (by linarith) hd, by rw [div_lt_one hd]; linarith⟩, ?_⟩
    have e : 1 - (x - a) / (1 + (x - a)) = 1 / (1 + (x - a)) := by
      field_simp
      ring
    simp only [e]
    field_simp
    ring

theorem oriented_neg (F : ℝ → V) (p q : EReal) : oriented (fun x => F (-x)) (-q) (-p) = oriented F p q := by
  have h : ∀ p q : EReal, ∫ x in {x : ℝ | -q < (x : EReal) ∧ (x : EReal) < -p}, F (-x) =
      ∫ x in {x : ℝ | p < x ∧ (x : EReal) < q}, F x := by
    intro p q
    have hs : {x : ℝ | -q < (x : EReal) ∧ (x : EReal) < -p} = Neg.neg ⁻¹' {x : ℝ | p < x ∧ (x : EReal) < q} := by
      ext x
      simp only [mem_ofPred_eq, mem_preimage, EReal.coe_neg]
      rw [EReal.neg_lt_comm, EReal.lt_neg_comm, and_comm]
    rw [hs]
    exact (Measure.measurePreserving_neg volume).setIntegral_preimage_emb (Homeomorph.neg ℝ).measurableEmbedding F _
  rw [oriented, oriented]
  by_cases hpq : p ≤ q
  · rw [if_pos hpq, if_pos (EReal.neg_le_neg_iff.2 hpq), h]
  · rw [if_neg hpq, if_neg (fun hc => hpq (EReal.neg_le_neg_iff.1 hc)), h]

theorem semiInfNegMap_eq (b : ℝ) (p : EReal) : semiInfNegMap b p = semiInfPosMap (-b) (-p) := by
  induction p using EReal.rec with
  | bot => rfl
  | top => rfl
  | coe x =>
    rw [← EReal.coe_neg, semiInfPosMap_coe]
    change semiInfMapDiff (b - x) = _
    congr 1
    ring

theorem semiInfNeg_piece (F : ℝ → V) (b : ℝ) (p q : EReal) (hp : p ≤ (b : EReal)) (hq : q ≤ (b : EReal)) :
    ∫ t in semiInfNegMap b q..semiInfNegMap b p, (semiInfNegIntegrand (fun x => some (F x)) b t).getD 0 = oriented F p q := by
  rw [semiInfNegMap_eq, semiInfNegMap_eq, ← oriented_neg,
    ← semiInfPos_piece (fun x => F (-x)) (-b) (-q) (-p) (by rw [EReal.coe_neg]; exact EReal.neg_le_neg_iff.2 hq)
      (by rw [EReal.coe_neg]; exact EReal.neg_le_neg_iff.2 hp)]
  congr 1
  funext t
  rw [semiInfNegIntegrand, semiInfPosIntegrand]
  split
  · rfl
  · simp only [Option.map_some, Option.getD_some]
    congr 2
    ring

theorem interval_oriented (F : ℝ → V) (a b : ℝ) : ∫ t in a..b, F t = oriented F a b := by
  have hs : ∀ a b : ℝ, {x : ℝ | (a : EReal) < x ∧ (x : EReal) < b} = Ioo a b := by
    intro a b
    ext x
    simp [EReal.coe_lt_coe_iff]
  rw [oriented, hs, hs]
  by_cases h : a ≤ b
  · rw [if_pos (EReal.coe_le_coe_iff.2 h), intervalIntegral.integral_of_le h, integral_Ioc_eq_integral_Ioo]
  · rw [if_neg (fun hc => h (EReal.coe_le_coe_iff.1 hc)), intervalIntegral.integral_of_ge (le_of_not_ge h),
      integral_Ioc_eq_integral_Ioo]

/-! ## Lists of break points -/

theorem consecutive_map {α β : Type} (f : α → β) (l : List α) :
    consecutive (l.map f) = (consecutive l).map (Prod.map f f) := by
  induction l with
  | nil => rfl
  | cons a l ih =>
    cases l with
    | nil => rfl
    | cons b l =>
      rw [List.map_cons] at ih
      rw [List.map_cons, List.map_cons, consecutive, consecutive, List.map_cons, ih]
      rfl

theorem consecutive_append {α : Type} (l : List α) (a b : α) :
    consecutive (l ++ [a, b]) = consecutive (l ++ [a]) ++ [(a, b)] := by
  induction l with
  | nil => rfl
  | cons c l ih =>
    cases l with
    | nil => rfl
    | cons d l =>
      simp only [List.cons_append] at ih ⊢
      rw [consecutive, ih, consecutive]
      rfl

theorem consecutive_reverse {α : Type} (l : List α) : consecutive l.reverse = ((consecutive l).map Prod.swap).reverse := by
  induction l with
  | nil => rfl
  | cons a l ih =>
    cases l with
    | nil => rfl
    | cons b l =>
      rw [List.reverse_cons, List.reverse_cons, List.append_assoc, List.singleton_append, consecutive_append,
        ← List.reverse_cons, ih, consecutive, List.map_cons, List.reverse_cons]
      rfl

theorem mem_consecutive {α : Type} (l : List α) (p : α × α) (h : p ∈ consecutive l) : p.1 ∈ l ∧ p.2 ∈ l := by
  induction l with
  | nil => simp [consecutive] at h
  | cons a l ih =>
    cases l with
    | nil => simp [consecutive] at h
    | cons b l =>
      rw [consecutive, List.mem_cons] at h
      rcases h with rfl | h
      · simp
      · exact ⟨List.mem_cons_of_mem _ (ih h).1, List.mem_cons_of_mem _ (ih h).2⟩

/-- The combinations of end points that `quadgk` treats as documented, with the break points in between on the right side. -/
def Spec.InfSupported (first : EReal) (mid : List ℝ) (last : EReal) : Prop :=
  ((first = ⊤ ∨ first = ⊥) ∧ (last = ⊤ ∨ last = ⊥)) ∨
  (∃ a : ℝ, first = a ∧ last = ⊤ ∧ ∀ x ∈ mid, a ≤ x) ∨
  (∃ b : ℝ, first = ⊥ ∧ last = b ∧ ∀ x ∈ mid, x ≤ b) ∨
  (∃ a b : ℝ, first = a ∧ last = b)

theorem bothInfMap_range (p : EReal) : bothInfMap p ∈ Icc (-1 : ℝ) 1 := by
  induction p using EReal.rec with
  | bot => exact ⟨le_refl (-1 : ℝ), by norm_num [show bothInfMap ⊥ = -1 from rfl]⟩
  | top => exact ⟨by norm_num [show bothInfMap ⊤ = 1 from rfl], le_refl (1 : ℝ)⟩
  | coe x => exact ⟨(bothInf_mem x).1.le, (bothInf_mem x).2.le⟩

theorem semiInfPosMap_range (a : ℝ) (p : EReal) (hp : (a : EReal) ≤ p) : semiInfPosMap a p ≤ 1 := by
  induction p using EReal.rec with
  | bot => simp at hp
  | top => exact le_refl (1 : ℝ)
  | coe x =>
    have hx : a ≤ x := EReal.coe_le_coe_iff.1 hp
    rw [semiInfPosMap_coe, semiInfMapDiff_eq _ (by linarith), div_le_one (by linarith)]
    linarith

theorem oriented_telescope (F : ℝ → V) (hF : Integrable F) (p q : EReal) :
    oriented F p q = (∫ x in {x : ℝ | (x : EReal) < q}, F x) - ∫ x in {x : ℝ | (x : EReal) < p}, F x := by
  have hm : ∀ p : EReal, MeasurableSet {x : ℝ | (x : EReal) < p} := fun p =>
    measurable_coe_real_ereal measurableSet_Iio
  have hm2 : ∀ p : EReal, MeasurableSet {x : ℝ | p < (x : EReal)} := fun p =>
    measurable_coe_real_ereal measurableSet_Ioi
  have key : ∀ p q : EReal, p ≤ q → ∫ x in {x : ℝ | p < x ∧ (x : EReal) < q}, F x =
      (∫ x in {x : ℝ | (x : EReal) < q}, F x) - ∫ x in {x : ℝ | (x : EReal) < p}, F x := by
    intro p q hpq
    have hu : {x : ℝ | (x : EReal) < q} =ᵐ[volume] ({x : ℝ | (x : EReal) < p} ∪ {x : ℝ | p < x ∧ (x : EReal) < q} : Set ℝ) := by
      have hnull : volume {x : ℝ | (x : EReal) = p} = 0 := by
        refine Set.Subsingleton.measure_zero ?_ _
        intro x hx y hy
        simp only [mem_ofPred_eq] at hx hy
        exact EReal.coe_injective (hx.trans hy.symm)
      have hae : ∀ᵐ x : ℝ, (x : EReal) ≠ p := by
        rw [ae_iff]
        simpa using hnull
      filter_upwards [hae] with x hx
      refine propext ?_
      change (x : EReal) < q ↔ ((x : EReal) < p ∨ (p < x ∧ (x : EReal) < q))
      constructor
      · intro h
        rcases lt_or_gt_of_ne hx with h1 | h1
        · exact .inl h1
        · exact .inr ⟨h1, h⟩
      · rintro (h | h)
        · exact h.trans_le hpq
        · exact h.2
    rw [setIntegral_congr_set hu, setIntegral_union ?_ (show MeasurableSet {x : ℝ | p < x ∧ (x : EReal) < q} from (hm2 p).inter (hm q)) hF.integrableOn hF.integrableOn]
    · abel
    · rw [Set.disjoint_left]
      intro x h1 h2
      exact absurd (lt_trans h1 h2.1) (lt_irrefl _)
  rw [oriented]
  by_cases h : p ≤ q
  · rw [if_pos h, key p q h]
  · rw [if_neg h, key q p (le_of_not_ge h)]
    abel

/-- **C55.**  In the supported combinations of end points the transformations at the head of `_do_quadgk` are correct changes
of variables: the transformed integrand is defined strictly between any two consecutive transformed break points, its
integrals over consecutive transformed break points are, piece by piece (in reverse order for `(-∞, b)`), the integrals
of the integrand over consecutive break points, with orientation; hence they add up to the requested integral. -/
theorem C55_change_of_variables (F : ℝ → V) (first : EReal) (mid : List ℝ) (last : EReal) (h : InfSupported first mid last) :
    let gs := transformInf (fun x => some (F x)) first mid last
    let pts : List EReal := first :: (mid.map fun (x : ℝ) => (x : EReal)) ++ [last]
    gs.2.length = mid.length + 2 ∧
    (∀ p ∈ consecutive gs.2, ∀ t, min p.1 p.2 < t → t < max p.1 p.2 → gs.1 t ≠ none) ∧
    ((consecutive gs.2).map fun p => ∫ t in p.1..p.2, (gs.1 t).getD 0).Perm
      ((consecutive pts).map fun p => oriented F p.1 p.2) ∧
    (Integrable F → ((consecutive gs.2).map fun p => ∫ t in p.1..p.2, (gs.1 t).getD 0).sum = oriented F first last) := by
  intro gs pts
  suffices hmain : gs.2.length = mid.length + 2 ∧
      (∀ p ∈ consecutive gs.2, ∀ t, min p.1 p.2 < t → t < max p.1 p.2 → gs.1 t ≠ none) ∧
      ((consecutive gs.2).map fun p => ∫ t in p.1..p.2, (gs.1 t).getD 0).Perm
        ((consecutive pts).map fun p => oriented F p.1 p.2) by
    refine ⟨hmain.1, hmain.2.1, hmain.2.2, fun hF => ?_⟩
    rw [hmain.2.2.sum_eq]
    simp only [oriented_telescope F hF]
    have tele : ∀ (H : EReal → V) (l : List EReal) (a b : EReal), l.head? = some a → l.getLast? = some b →
        ((consecutive l).map fun p => H p.2 - H p.1).sum = H b - H a := by
      intro H l
      induction l with
      | nil => intro a b ha; simp at ha
      | cons c l ih =>
        intro a b ha hb
        simp only [List.head?_cons, Option.some.injEq] at ha
        subst ha
        cases l with
        | nil =>
          simp only [List.getLast?_singleton, Option.some.injEq] at hb
          subst hb
          simp [consecutive]
        | cons d l =>
          rw [consecutive, List.map_cons, List.sum_cons, ih d b rfl (by rw [← hb]; simp [List.getLast?_cons_cons])]
          abel
    exact tele (fun p => ∫ x in {x : ℝ | (x : EReal) < p}, F x) pts first last rfl (by simp only [pts, List.getLast?_concat])
  rcases h with ⟨h1, h2⟩ | ⟨a, h1, h2, h3⟩ | ⟨b, h1, h2, h3⟩ | ⟨a, b, h1, h2⟩
  · have e : gs = (bothInfIntegrand (fun x => some (F x)), pts.map bothInfMap) := by
      simp only [gs, transformInf, pts]
      rw [if_pos (.inl h1), if_pos ⟨h1, h2⟩]
    rw [e]
    refine ⟨by simp [pts], ?_, ?_⟩
    · intro p hp t ht1 ht2
      rw [consecutive_map] at hp
      obtain ⟨q, -, rfl⟩ := List.mem_map.1 hp
      have r1 := bothInfMap_range q.1
      have r2 := bothInfMap_range q.2
      have h1 : -1 < t := lt_of_le_of_lt (le_min r1.1 r2.1) ht1
      have h2 : t < 1 := lt_of_lt_of_le ht2 (max_le r1.2 r2.2)
      simp only [bothInfIntegrand]
      rw [if_neg (by nlinarith)]
      simp
    · rw [consecutive_map, List.map_map]
      refine List.Perm.of_eq (List.map_congr_left fun p _ => ?_)
      exact bothInf_piece F p.1 p.2
  · subst h1 h2
    have e : gs = (semiInfPosIntegrand (fun x => some (F x)) a, pts.map (semiInfPosMap a)) := by
      simp only [gs, transformInf, pts]
      rw [if_pos (by simp), if_neg (by simp), if_neg (by simp), EReal.toReal_coe]
    have hmem : ∀ p ∈ pts, (a : EReal) ≤ p := by
      intro p hp
      simp only [pts, List.cons_append, List.mem_cons, List.mem_append, List.mem_map, List.not_mem_nil, or_false] at hp
      rcases hp with rfl | ⟨x, hx, rfl⟩ | rfl
      · exact le_rfl
      · exact EReal.coe_le_coe_iff.2 (h3 x hx)
      · exact le_top
    rw [e]
    refine ⟨by simp [pts], ?_, ?_⟩
    · intro p hp t ht1 ht2
      rw [consecutive_map] at hp
      obtain ⟨q, hq, rfl⟩ := List.mem_map.1 hp
      obtain ⟨q1, q2⟩ := mem_consecutive _ _ hq
      have h2 : t < 1 := lt_of_lt_of_le ht2 (max_le (semiInfPosMap_range a _ (hmem _ q1)) (semiInfPosMap_range a _ (hmem _ q2)))
      simp only [semiInfPosIntegrand]
      rw [if_neg (by linarith)]
      simp
    · rw [consecutive_map, List.map_map]
      refine List.Perm.of_eq (List.map_congr_left fun p hp => ?_)
      obtain ⟨q1, q2⟩ := mem_consecutive _ _ hp
      exact semiInfPos_piece F a p.1 p.2 (hmem _ q1) (hmem _ q2)
  · subst h1 h2
    have e : gs = (semiInfNegIntegrand (fun x => some (F x)) b, (pts.map (semiInfNegMap b)).reverse) := by
      simp only [gs, transformInf, pts]
      rw [if_pos (by simp), if_neg (by simp), if_pos (by simp), EReal.toReal_coe]
    have hmem : ∀ p ∈ pts, p ≤ (b : EReal) := by
      intro p hp
      simp only [pts, List.cons_append, List.mem_cons, List.mem_append, List.mem_map, List.not_mem_nil, or_false] at hp
      rcases hp with rfl | ⟨x, hx, rfl⟩ | rfl
      · exact bot_le
      · exact EReal.coe_le_coe_iff.2 (h3 x hx)
      · exact le_rfl
    have hr : ∀ p ∈ pts, semiInfNegMap b p ≤ 1 := by
      intro p hp
      rw [semiInfNegMap_eq]
      exact semiInfPosMap_range _ _ (by rw [EReal.coe_neg]; exact EReal.neg_le_neg_iff.2 (hmem p hp))
    rw [e]
    refine ⟨by simp [pts], ?_, ?_⟩
    · intro p hp t ht1 ht2
      obtain ⟨m1, m2⟩ := mem_consecutive _ _ hp
      rw [List.mem_reverse, List.mem_map] at m1 m2
      obtain ⟨q1, hq1, e1⟩ := m1
      obtain ⟨q2, hq2, e2⟩ := m2
      have h2 : t < 1 := lt_of_lt_of_le ht2 (max_le (e1 ▸ hr q1 hq1) (e2 ▸ hr q2 hq2))
      simp only [semiInfNegIntegrand]
      rw [if_neg (by linarith)]
      simp
    · rw [consecutive_reverse, consecutive_map, List.map_reverse, List.map_map, List.map_map]
      refine (List.reverse_perm _).trans (List.Perm.of_eq (List.map_congr_left fun p hp => ?_))
      obtain ⟨q1, q2⟩ := mem_consecutive _ _ hp
      exact semiInfNeg_piece F b p.1 p.2 (hmem _ q1) (hmem _ q2)
  · subst h1 h2
    have e : gs = (fun x => some (F x), (a :: mid) ++ [b]) := by
      simp only [gs, transformInf]
      rw [if_neg (by simp), EReal.toReal_coe, EReal.toReal_coe]
    have ep : pts = ((a :: mid) ++ [b]).map fun (x : ℝ) => (x : EReal) := by simp [pts]
    rw [e, ep]
    refine ⟨by simp, fun p _ t _ _ => by simp, ?_⟩
    rw [consecutive_map, List.map_map]
    exact List.Perm.of_eq (List.map_congr_left fun p _ => interval_oriented F p.1 p.2)

/-- **C55 (defect).**  From a finite `a` down to `-∞` the code integrates over `(a, +∞)` instead, and from `+∞` down to a
finite `a` it integrates over `(-∞, a)` instead; the results differ from the requested integrals already for the
indicator function of an interval around `a`. -/
theorem C55_wrong_half_line (a : ℝ) :
    (∀ F : ℝ → V, ∀ gs, gs = transformInf (fun x => some (F x)) (a : EReal) [] ⊥ →
      ((consecutive gs.2).map fun p => ∫ t in p.1..p.2, (gs.1 t).getD 0).sum = oriented F a ⊤) ∧
    (∀ F : ℝ → V, ∀ gs, gs = transformInf (fun x => some (F x)) ⊤ [] (a : EReal) →
      ((consecutive gs.2).map fun p => ∫ t in p.1..p.2, (gs.1 t).getD 0).sum = oriented F ⊥ a) ∧
    ∃ F : ℝ → ℝ, Integrable F ∧ oriented F a ⊤ = 1 ∧ oriented F a ⊥ = -1 ∧ oriented F ⊥ a = 1 ∧ oriented F ⊤ a = -1 := by
  refine ⟨?_, ?_, ?_⟩
  · rintro F gs rfl
    simp only [transformInf, List.map_nil, List.cons_append, List.nil_append]
    rw [if_pos (by simp), if_neg (by simp), if_neg (by simp), EReal.toReal_coe]
    simp only [List.map_cons, List.map_nil, consecutive, List.sum_cons, List.sum_nil, add_zero]
    exact semiInfPos_piece F a a ⊤ le_rfl le_top
  · rintro F gs rfl
    simp only [transformInf, List.map_nil, List.cons_append, List.nil_append]
    rw [if_pos (by simp), if_neg (by simp), if_pos (by simp), EReal.toReal_coe]
    simp only [List.map_cons, List.map_nil, List.reverse_cons, List.reverse_nil, List.nil_append, List.singleton_append,
      consecutive, List.sum_cons, List.sum_nil, add_zero]
    exact semiInfNeg_piece F a ⊥ a bot_le le_rfl
  · refine ⟨indicator (Ioo (a - 1) (a + 1)) fun _ => 1, ?_, ?_⟩
    · rw [integrable_indicator_iff measurableSet_Ioo]
      exact integrableOn_const (by simp)
    have s1 : {x : ℝ | (a : EReal) < x ∧ (x : EReal) < ⊤} = Ioi a := by
      ext x; simp [EReal.coe_lt_coe_iff, EReal.coe_lt_top]
    have s2 : {x : ℝ | (⊥ : EReal) < x ∧ (x : EReal) < a} = Iio a := by
      ext x; simp [EReal.coe_lt_coe_iff, EReal.bot_lt_coe]
    have v1 : ∫ x in Ioi a, indicator (Ioo (a - 1) (a + 1)) (fun _ => (1 : ℝ)) x = 1 := by
      rw [setIntegral_indicator measurableSet_Ioo]
      have : Ioi a ∩ Ioo (a - 1) (a + 1) = Ioo a (a + 1) := by
        ext x; simp only [mem_inter_iff, mem_Ioi, mem_Ioo]; constructor
        · rintro ⟨h1, h2, h3⟩; exact ⟨h1, h3⟩
        · rintro ⟨h1, h2⟩; exact ⟨h1, by linarith, h2⟩
      rw [this]
      simp
    have v2 : ∫ x in Iio a, indicator (Ioo (a - 1) (a + 1)) (fun _ => (1 : ℝ)) x = 1 := by
      rw [setIntegral_indicator measurableSet_Ioo]
      have : Iio a ∩ Ioo (a - 1) (a + 1) = Ioo (a - 1) a := by
        ext x; simp only [mem_inter_iff, mem_Iio, mem_Ioo]; constructor
        · rintro ⟨h1, h2, h3⟩; exact ⟨h2, h1⟩
        · rintro ⟨h1, h2⟩; exact ⟨h2, h1, by linarith⟩
      rw [this]
      simp
    refine ⟨?_, ?_, ?_, ?_⟩
    · rw [oriented, if_pos le_top, s1, v1]
    · rw [oriented, if_neg (by simp), s2, v2]
    · rw [oriented, if_pos bot_le, s2, v2]
    · rw [oriented, if_neg (by simp), s1, v1]

/-- Supported: the whole line, `(1, ∞)` through `2`, `(-∞, 0)` through `-3, -1`. -/
example : InfSupported ⊥ [5, -2] ⊤ ∧ InfSupported (1 : ℝ) [2] ⊤ ∧ InfSupported ⊥ [-3, -1] (0 : ℝ) :=
  ⟨.inl ⟨.inr rfl, .inl rfl⟩, .inr (.inl ⟨1, rfl, rfl, by simp⟩),
    .inr (.inr (.inl ⟨0, rfl, rfl, by simp⟩))⟩

end

end Modepy

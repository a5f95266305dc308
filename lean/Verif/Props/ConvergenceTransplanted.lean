import Verif.Props.Convergence
import Verif.Props.Transplanted

/-!
# Property C84 (continued): transplanted Legendre-Gauss rules converge for every continuous integrand
-/

namespace Modepy
open Spec MeasureTheory Set

/-- **C84 (transplanted rules).**  For every map whose Jacobian is the continuous, non-negative derivative of the map and which
fixes the end points, the transplanted Legendre-Gauss rules converge for every continuous integrand. -/
theorem C84_transplanted (ext : Ext) (hext : ext.EighOk) (fd : Bool) (map : MapFn) (g gp : ℝ → ℝ)
    (hmap : ∀ l, map.call l = .ok (l.map g, l.map gp))
    (hder : ∀ s ∈ Icc (-1 : ℝ) 1, HasDerivAt g (gp s) s) (hpos : ∀ s ∈ Icc (-1 : ℝ) 1, 0 ≤ gp s)
    (hcont : ContinuousOn gp (Icc (-1) 1)) (h1 : g 1 = 1) (h2 : g (-1) = -1) :
    Converges (fun N => transplantedLegendreGauss ext N map .builtin fd) fun _ => 1 := by
  intro f hf ε hε
  have hg : ContinuousOn g (Icc (-1) 1) := fun s hs => (hder s hs).continuousAt.continuousWithinAt
  have hmono : MonotoneOn g (Icc (-1) 1) := by
    refine monotoneOn_of_deriv_nonneg (convex_Icc _ _) hg ?_ ?_
    · intro s hs
      exact (hder s (interior_subset hs)).differentiableAt.differentiableWithinAt
    · intro s hs
      rw [(hder s (interior_subset hs)).deriv]
      exact hpos s (interior_subset hs)
  have hmem : ∀ s ∈ Icc (-1 : ℝ) 1, g s ∈ Icc (-1 : ℝ) 1 := by
    intro s hs
    constructor
    · rw [← h2]; exact hmono ⟨le_rfl, by norm_num⟩ hs hs.1
    · rw [← h1]; exact hmono hs ⟨by norm_num, le_rfl⟩ hs.2
  have hF : ContinuousOn (fun s => f (g s) * gp s) (Icc (-1) 1) := (hf.comp hg hmem).mul hcont
  obtain ⟨N₀, hN₀⟩ := (C84_gauss ext hext 0 0 gaussParams_zero fd).2 _ hF ε hε
  refine ⟨N₀, fun N hN => ?_⟩
  obtain ⟨q, hq, hlt⟩ := hN₀ N hN
  obtain ⟨q0, hq0, -, -, hsn, hsw, -⟩ := C27_exact ext hext 0 0 gaussParams_zero N fd
  simp only at hq
  rw [hq] at hq0
  obtain rfl := Except.ok.inj hq0
  have hone : OneDim q (N + 1) := by
    refine ⟨hsw, ?_⟩
    cases fd
    · exact Or.inl hsn
    · exact Or.inr hsn
  obtain ⟨q', hq', -, -, hcall, -⟩ := C49_change q (N + 1) hone map g gp hmap
  refine ⟨q', ?_, ?_⟩
  · change transplantedLegendreGauss ext N map .builtin fd = .ok q'
    rw [transplantedLegendreGauss, legendreGaussQuadrature, hq]
    exact hq'
  · rw [hcall]
    simp only [List.headD_cons, mul_one]
    rw [weightFn_zero] at hlt
    simp only [mul_one] at hlt
    have e := intervalIntegral.integral_comp_mul_deriv'' (a := -1) (b := 1) (f := g) (f' := gp) (g := f)
      (by rw [uIcc_of_le (by norm_num)]; exact hg)
      (fun s hs => (hder s (by
        rw [min_eq_left (by norm_num), max_eq_right (by norm_num)] at hs
        exact ⟨hs.1.le, hs.2.le⟩)).hasDerivWithinAt)
      (by rw [uIcc_of_le (by norm_num)]; exact hcont)
      (by
        rw [uIcc_of_le (by norm_num)]
        refine hf.mono ?_
        rintro _ ⟨s, hs, rfl⟩
        exact hmem s hs)
    simp only [Function.comp] at e
    rw [h1, h2] at e
    rw [← e]
    exact hlt

/-- **C84 (the maps of the module).**  The rules transplanted by `map_sausage` of every odd degree and by `map_kosloff_tal_ezer`
for every admissible parameter converge for every continuous integrand. -/
theorem C84_transplanted_maps (ext : Ext) (hext : ext.EighOk) (fd : Bool) :
    (∀ n : Nat, Converges (fun N => transplantedLegendreGauss ext N
      (.other (pointwise fun s => mapSausage s (2 * n + 1))) .builtin fd) fun _ => 1) ∧
    (∀ a : ℝ, 0 < a → a < 1 → ∀ rho, Converges (fun N => transplantedLegendreGauss ext N
      (.other (pointwise fun s => mapKosloffTalEzer s rho (some a))) .builtin fd) fun _ => 1) ∧
    (∀ rho : ℝ, 1 < rho → Converges (fun N => transplantedLegendreGauss ext N
      (.other (pointwise fun s => mapKosloffTalEzer s rho none)) .builtin fd) fun _ => 1) := by
  have hkte : ∀ a : ℝ, 0 < a → a < 1 → ∀ rho, Converges (fun N => transplantedLegendreGauss ext N
      (.other (pointwise fun s => mapKosloffTalEzer s rho (some a))) .builtin fd) fun _ => 1 := by
    intro a h0 h1 rho
    obtain ⟨g, gp, hval, hder, e1, e2, -⟩ := C48_kte.1 a h0 h1 rho
    refine C84_transplanted ext hext fd _ g gp (fun l => pointwise_ok _ g gp hval l) (fun s hs => (hder s hs.1 hs.2).1)
      (fun s hs => (hder s hs.1 hs.2).2.le) ?_ e1 e2
    have hgp : gp = fun s => a / (Real.arcsin a * √(1.0 - a ^ 2 * s ^ 2)) := by
      funext s
      have := hval s
      rw [kte_eq h0 h1] at this
      exact (congrArg Prod.snd (Except.ok.inj this)).symm
    rw [hgp]
    refine ContinuousOn.div (by fun_prop) (by fun_prop) fun s hs => ?_
    have hd : 0 < Real.arcsin a := Real.arcsin_pos.2 h0
    have hq : 0 < (1.0 - a ^ 2 * s ^ 2 : ℝ) := by
      have h2 : s ^ 2 ≤ 1 := by nlinarith [hs.1, hs.2]
      norm_num
      nlinarith [sq_nonneg s]
    exact (mul_pos hd (Real.sqrt_pos.2 hq)).ne'
  refine ⟨fun n => ?_, hkte, fun rho hr => ?_⟩
  · obtain ⟨g, gp, hval, hder, hpos, e1, e2, -⟩ := C48_sausage n
    refine C84_transplanted ext hext fd _ g gp (fun l => pointwise_ok _ g gp hval l) (fun s _ => hder s)
      (fun s _ => (hpos s).le) ?_ e1 e2
    have hgp : gp = fun s => sausageDer n s / sausageNum n 1 := by
      funext s
      have := hval s
      rw [mapSausage_eq] at this
      exact (congrArg Prod.snd (Except.ok.inj this)).symm
    rw [hgp]
    unfold sausageDer
    fun_prop
  · obtain ⟨h0, h1, h⟩ := C48_kte.2 rho hr
    simp only [h]
    exact hkte _ h0 h1 rho

/-- An eigensolver with the documented behaviour exists, as do admissible parameters. -/
example : (∃ ext : Ext, ext.EighOk) ∧ (0 : ℝ) < 0.9 ∧ (0.9 : ℝ) < 1 ∧ (1 : ℝ) < 1.4 :=
  ⟨exists_eighOk, by norm_num, by norm_num, by norm_num⟩

end Modepy

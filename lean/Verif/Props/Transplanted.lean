import Verif.Model.Transplanted
import Verif.Props.Quadrature
import Mathlib.Data.Nat.Choose.Central
import Mathlib.Algebra.Polynomial.Derivative
import Mathlib.Analysis.Calculus.Deriv.Polynomial
import Mathlib.Topology.Algebra.Polynomial
import Mathlib.Analysis.SpecialFunctions.Trigonometric.InverseDeriv
import Mathlib.MeasureTheory.Integral.IntervalIntegral.IntegrationByParts

/-!
# Properties C48 and C49: transplant maps and transplanted rules
-/

namespace Modepy
open Spec Quadrature

/-! ## C48: the sausage maps -/

/-- Coefficient of `s^(2k+1)` in the Taylor series of `arcsin`. -/
noncomputable def arcsinCoeff (k : Nat) : ℝ := (Nat.centralBinom k : ℝ) / (4 ^ k * (2 * k + 1))

theorem arcsinCoeff_pos (k : Nat) : 0 < arcsinCoeff k := by
  have := Nat.centralBinom_pos k
  unfold arcsinCoeff
  positivity

theorem arcsinCoeff_succ (j : Nat) :
    arcsinCoeff (j + 1) = arcsinCoeff j * (2.0 * (j : ℝ) + 1.0) ^ 2 / (2.0 * ((j + 1 : Nat) : ℝ) * (2.0 * (j : ℝ) + 3.0)) := by
  have h : ((j : ℝ) + 1) * Nat.centralBinom (j + 1) = 2 * (2 * j + 1) * Nat.centralBinom j := by
    exact_mod_cast Nat.succ_mul_centralBinom_succ j
  have h' : (Nat.centralBinom (j + 1) : ℝ) = 2 * (2 * j + 1) * Nat.centralBinom j / (j + 1) := by
    field_simp
    linarith
  unfold arcsinCoeff
  rw [h']
  push_cast
  norm_num
  field_simp
  ring

theorem arcsinLoop_eq (m : Nat) : arcsinLoop (List.range' 1 m) [1.0] = (List.range (m + 1)).map arcsinCoeff := by
  induction m with
  | zero => simp [arcsinLoop, arcsinCoeff]; norm_num
  | succ m ih =>
    rw [arcsinLoop] at ih ⊢
    rw [List.range'_1_concat, List.foldl_append, ih, List.range_succ (n := m + 1), List.map_append]
    simp only [List.foldl_cons, List.foldl_nil, List.map_cons, List.map_nil, Nat.add_sub_cancel_left]
    have hg : ((List.range (m + 1)).map arcsinCoeff).getD m 0 = arcsinCoeff m := by
      simp only [List.getD_eq_getElem?_getD]
      rw [List.getElem?_eq_getElem (by simp)]
      simp
    rw [hg, arcsinCoeff_succ, Nat.add_comm 1 m]

/-- The coefficients are those of the Taylor series of `arcsin`. -/
theorem arcsinTaylor_eq (n : Nat) :
    arcsinTaylorCoefficients (2 * n + 1) = .ok ((List.range (n + 1)).map arcsinCoeff) := by
  have h1 : ¬ ((2 * (n : Int) + 1) < 1 ∨ Int.fmod (2 * (n : Int) + 1) 2 = 0) := by
    rw [Int.fmod_eq_emod_of_nonneg _ (by norm_num)]
    omega
  have h2 : (Int.fdiv (2 * (n : Int) + 1 + 1) 2).toNat - 1 = n := by
    rw [Int.fdiv_eq_ediv_of_nonneg _ (by norm_num)]
    omega
  rw [arcsinTaylorCoefficients, if_neg h1]
  simp only
  rw [h2, arcsinLoop_eq]

/-- Numerator of the sausage map and its derivative. -/
noncomputable def sausageNum (n : Nat) (s : ℝ) : ℝ := ∑ k ∈ Finset.range (n + 1), arcsinCoeff k * s ^ (2 * k + 1)
noncomputable def sausageDer (n : Nat) (s : ℝ) : ℝ :=
  ∑ k ∈ Finset.range (n + 1), arcsinCoeff k * ((2 * k + 1 : Nat) : ℝ) * s ^ (2 * k)

theorem mapSausage_eq (n : Nat) (s : ℝ) :
    mapSausage s (2 * n + 1) = .ok (sausageNum n s / sausageNum n 1, sausageDer n s / sausageNum n 1) := by
  rw [mapSausage, arcsinTaylor_eq]
  simp only
  have hz : ((List.range (n + 1)).map arcsinCoeff).zipIdx = (List.range (n + 1)).map fun k => (arcsinCoeff k, k) := by
    apply List.ext_getElem
    · simp
    · intro i h1 h2
      simp
  have hf : ∀ m : Nat, ((List.range m).map fun k => (arcsinCoeff k, k)).foldl (fun (acc : ℝ × ℝ) (ck : ℝ × Nat) =>
      (acc.1 + ck.1 * s ^ (2 * ck.2 + 1), acc.2 + ck.1 * ((2 * ck.2 + 1 : Nat) : ℝ) * s ^ (2 * ck.2 + 1 - 1))) (0, 0) =
      (∑ k ∈ Finset.range m, arcsinCoeff k * s ^ (2 * k + 1),
        ∑ k ∈ Finset.range m, arcsinCoeff k * ((2 * k + 1 : Nat) : ℝ) * s ^ (2 * k)) := by
    intro m
    induction m with
    | zero => rfl
    | succ m ih =>
      rw [List.range_succ, List.map_append, List.foldl_append, ih, Finset.sum_range_succ, Finset.sum_range_succ]
      simp
  have hs : ((List.range (n + 1)).map arcsinCoeff).sum = sausageNum n 1 := by
    rw [sausageNum]
    simp only [one_pow, mul_one]
    rfl
  rw [hz, hs]
  have := hf (n + 1)
  rw [this]
  rfl

theorem sausageNum_one_pos (n : Nat) : 0 < sausageNum n 1 := by
  rw [sausageNum]
  refine Finset.sum_pos (fun k _ => ?_) ⟨0, by simp⟩
  simpa using arcsinCoeff_pos k

theorem hasDerivAt_sausage (n : Nat) (s : ℝ) : HasDerivAt (sausageNum n) (sausageDer n s) s := by
  have : ∀ k ∈ Finset.range (n + 1), HasDerivAt (fun s : ℝ => arcsinCoeff k * s ^ (2 * k + 1))
      (arcsinCoeff k * ((2 * k + 1 : Nat) : ℝ) * s ^ (2 * k)) s := by
    intro k _
    refine ((hasDerivAt_pow (2 * k + 1) s).const_mul (arcsinCoeff k)).congr_deriv ?_
    simp only [Nat.add_sub_cancel]
    ring
  have h := HasDerivAt.fun_sum this
  exact h

theorem sausageDer_pos (n : Nat) (s : ℝ) : 0 < sausageDer n s := by
  rw [sausageDer, Finset.sum_range_succ']
  have h0 : (0 : ℝ) < arcsinCoeff 0 * ((2 * 0 + 1 : Nat) : ℝ) * s ^ (2 * 0) := by
    have := arcsinCoeff_pos 0
    simp [this]
  refine add_pos_of_nonneg_of_pos (Finset.sum_nonneg fun k _ => ?_) h0
  have := (arcsinCoeff_pos (k + 1)).le
  have h2 : 0 ≤ s ^ (2 * (k + 1)) := by rw [pow_mul]; positivity
  positivity

theorem sausageNum_neg (n : Nat) (s : ℝ) : sausageNum n (-s) = -sausageNum n s := by
  rw [sausageNum, sausageNum, ← Finset.sum_neg_distrib]
  refine Finset.sum_congr rfl fun k _ => ?_
  rw [Odd.neg_pow ⟨k, rfl⟩]
  ring

/-- **C48 (sausage).**  For every odd degree `2n+1`, `map_sausage` returns `(g, g')` where `g` is the Taylor polynomial
of `arcsin` scaled to fix `±1`; the second component is the derivative of the first, everywhere positive; `g` is odd. -/
theorem C48_sausage (n : Nat) : ∃ g gp : ℝ → ℝ,
    (∀ s, mapSausage s (2 * n + 1) = .ok (g s, gp s)) ∧ (∀ s, HasDerivAt g (gp s) s) ∧ (∀ s, 0 < gp s) ∧
      g 1 = 1 ∧ g (-1) = -1 ∧ (∀ s, g (-s) = -g s) ∧
      ∀ s, g s = (∑ k ∈ Finset.range (n + 1), (Nat.centralBinom k : ℝ) / (4 ^ k * (2 * k + 1)) * s ^ (2 * k + 1)) /
        ∑ k ∈ Finset.range (n + 1), (Nat.centralBinom k : ℝ) / (4 ^ k * (2 * k + 1)) := by
  have hpos := sausageNum_one_pos n
  have h1 : sausageNum n 1 / sausageNum n 1 = 1 := div_self hpos.ne'
  refine ⟨fun s => sausageNum n s / sausageNum n 1, fun s => sausageDer n s / sausageNum n 1, mapSausage_eq n,
    fun s => (hasDerivAt_sausage n s).div_const _, fun s => div_pos (sausageDer_pos n s) hpos, h1, ?_, ?_, ?_⟩
  · simp only [sausageNum_neg, neg_div, h1]
  · intro s
    simp only [sausageNum_neg, neg_div]
  · intro s
    simp only [sausageNum, arcsinCoeff, one_pow, mul_one]

/-- Even or nonpositive degrees are rejected. -/
theorem C48_sausage_rejects (s : ℝ) (degree : Int) (h : degree < 1 ∨ degree % 2 = 0) :
    mapSausage s degree = .error .ValueError := by
  rw [mapSausage, arcsinTaylorCoefficients, if_pos]
  rwa [Int.fmod_eq_emod_of_nonneg _ (by norm_num)]

/-! ## C48: the Kosloff-Tal-Ezer map -/

theorem kte_eq {a : ℝ} (h0 : 0 < a) (h1 : a < 1) (s rho : ℝ) :
    mapKosloffTalEzer s rho (some a) =
      .ok (Real.arcsin (a * s) / Real.arcsin a, a / (Real.arcsin a * √(1.0 - a ^ 2 * s ^ 2))) := by
  rw [mapKosloffTalEzer]
  simp only
  rw [if_neg]
  rw [not_not]
  constructor <;> norm_num <;> assumption

/-- **C48 (Kosloff-Tal-Ezer).**  For `0 < α < 1` the map returns `(g, g')` with `g = arcsin(α s)/arcsin α`; on `[-1,1]`
the second component is the derivative of the first and positive; `g` is odd and fixes `±1`.  Without `α` the
parameter is `2/(ρ + 1/ρ)`, which lies in `(0, 1)` for every `ρ > 1`. -/
theorem C48_kte :
    (∀ a : ℝ, 0 < a → a < 1 → ∀ rho, ∃ g gp : ℝ → ℝ,
      (∀ s, mapKosloffTalEzer s rho (some a) = .ok (g s, gp s)) ∧
      (∀ s, -1 ≤ s → s ≤ 1 → HasDerivAt g (gp s) s ∧ 0 < gp s) ∧
      g 1 = 1 ∧ g (-1) = -1 ∧ (∀ s, g (-s) = -g s) ∧ ∀ s, g s = Real.arcsin (a * s) / Real.arcsin a) ∧
    (∀ rho : ℝ, 1 < rho → 0 < 2 / (rho + 1 / rho) ∧ 2 / (rho + 1 / rho) < 1 ∧
      ∀ s, mapKosloffTalEzer s rho none = mapKosloffTalEzer s rho (some (2 / (rho + 1 / rho)))) := by
  constructor
  · intro a h0 h1 rho
    have hd : 0 < Real.arcsin a := Real.arcsin_pos.2 h0
    refine ⟨fun s => Real.arcsin (a * s) / Real.arcsin a, fun s => a / (Real.arcsin a * √(1.0 - a ^ 2 * s ^ 2)),
      fun s => kte_eq h0 h1 s rho, ?_, ?_, ?_, ?_, fun s => rfl⟩
    · intro s hs1 hs2
      have hlt : a * s < 1 := by nlinarith
      have hgt : -1 < a * s := by nlinarith
      have hq : 0 < 1 - (a * s) ^ 2 := by nlinarith
      have e : (1.0 - a ^ 2 * s ^ 2 : ℝ) = 1 - (a * s) ^ 2 := by norm_num; ring
      simp only [e]
      have hsq : 0 < √(1 - (a * s) ^ 2) := Real.sqrt_pos.2 hq
      constructor
      · have h2 : HasDerivAt (fun s : ℝ => a * s) a s := by
          simpa using (hasDerivAt_id s).const_mul a
        have h3 := (Real.hasDerivAt_arcsin hgt.ne' hlt.ne).comp s h2
        refine (h3.div_const (Real.arcsin a)).congr_deriv ?_
        field_simp
      · positivity
    · simp [div_self hd.ne']
    · simp [neg_div, div_self hd.ne']
    · intro s
      simp [neg_div]
  · intro rho hr
    have hp : 0 < rho := by linarith
    refine ⟨by positivity, ?_, ?_⟩
    · rw [div_lt_one (by positivity)]
      have : 0 < (rho - 1) ^ 2 / rho := by
        have : rho - 1 ≠ 0 := by linarith
        positivity
      have e : rho + 1 / rho = (rho - 1) ^ 2 / rho + 2 := by
        field_simp
        ring
      linarith
    · intro s
      have e : (2.0 / (rho + 1.0 / rho) : ℝ) = 2 / (rho + 1 / rho) := by norm_num
      rw [mapKosloffTalEzer, mapKosloffTalEzer]
      simp only
      rw [if_neg (by norm_num; exact hr), e]

/-- Parameters out of range are rejected. -/
theorem C48_kte_rejects (s rho : ℝ) :
    (rho ≤ 1 → mapKosloffTalEzer s rho none = .error .ValueError) ∧
    ∀ a : ℝ, a ≤ 0 ∨ 1 ≤ a → mapKosloffTalEzer s rho (some a) = .error .ValueError := by
  constructor
  · intro h
    rw [mapKosloffTalEzer]
    simp only
    rw [if_pos (by norm_num; exact h)]
  · intro a h
    rw [mapKosloffTalEzer]
    simp only
    rw [if_pos]
    rintro ⟨h1, h2⟩
    norm_num at h1 h2
    rcases h with h | h <;> linarith

/-! ## C49 -/

theorem pointwise_ok (f : ℝ → Py (ℝ × ℝ)) (g gp : ℝ → ℝ) (h : ∀ s, f s = .ok (g s, gp s)) (l : List ℝ) :
    pointwise f l = .ok (l.map g, l.map gp) := by
  rw [pointwise, collect_map_of_ok l f (fun s => (g s, gp s)) fun s _ => h s]
  simp only [List.map_map]
  rfl

/-- A rule on a segment: nodes of shape `(n,)` or `(1, n)` and weights of shape `(n,)`. -/
def Spec.OneDim (q : Quadrature) (n : Nat) : Prop :=
  q.weights.shape = [n] ∧ (q.nodes.shape = [n] ∨ q.nodes.shape = [1, n])

theorem getD_map_lt {β : Type} (l : List β) (f : β → ℝ) (k : Nat) (hk : k < l.length) :
    (l.map f).getD k 0 = f l[k] := by
  simp only [List.getD_eq_getElem?_getD]
  rw [List.getElem?_eq_getElem (by simpa using hk)]
  simp

/-- **C49 (change of variables).**  For a map acting pointwise as `s ↦ (g s, g' s)` the transplanted rule applied to
`f` is the base rule applied to `(f ∘ g) · g'`; node array layout and node count are those of the base rule.  A declared
exactness is kept for `map_identity` and dropped for every other map. -/
theorem C49_change (q : Quadrature) (n : Nat) (hq : OneDim q n) (map : MapFn) (g gp : ℝ → ℝ)
    (hmap : ∀ l, map.call l = .ok (l.map g, l.map gp)) :
    ∃ q', transplanted1D q map = .ok q' ∧ q'.nodes.shape = q.nodes.shape ∧ q'.weights.shape = [n] ∧
      (∀ f : List ℝ → ℝ, q'.call f = q.call fun x => f [g (x.headD 0)] * gp (x.headD 0)) ∧
      (map = .identity → q'.getExactTo = q.getExactTo) ∧
      (map ≠ .identity → q'.getExactTo = .error .AttributeError) := by
  obtain ⟨hw, hn⟩ := hq
  have hnn : q.nnodes = n := by simp [nnodes, hw]
  have hmul : ∀ s : List ℝ, s.length = n → mul1D ((List.range n).map fun k => q.weights.get [k]) (s.map gp) =
      .ok (List.zipWith (· * ·) ((List.range n).map fun k => q.weights.get [k]) (s.map gp)) := by
    intro s hs
    unfold mul1D
    rw [if_pos (by simp [hs])]
  have hzip : ∀ x : Nat → ℝ, List.zipWith (· * ·) ((List.range n).map fun k => q.weights.get [k])
      (((List.range n).map x).map gp) = (List.range n).map fun k => q.weights.get [k] * gp (x k) := by
    intro x
    apply List.ext_getElem
    · simp
    · intro i h1 h2
      simp
  have hex : ∀ (N W : NdArray ℝ),
      (map = .identity → (⟨N, W, q.keptExactTo map, none⟩ : Quadrature).getExactTo
          = q.getExactTo) ∧
        (map ≠ .identity → (⟨N, W, q.keptExactTo map, none⟩ : Quadrature).getExactTo
          = .error .AttributeError) := by
    intro N W
    cases map with
    | identity => exact ⟨fun _ => rfl, fun h => absurd rfl h⟩
    | other f => exact ⟨fun h => by simp at h, fun _ => rfl⟩
  have e1 : ∀ (Q : Quadrature) (m : Nat), Q.weights.shape = [m] → Q.nnodes = m := by
    intro Q m h; simp [nnodes, h]
  rcases hn with hn | hn
  · have hv : transplanted1D q map = .ok
        ⟨⟨[n], fun idx => ((List.range n).map fun k => g (q.nodes.get [k])).getD (idx.getD 0 0) 0⟩,
          ⟨[n], fun idx => ((List.range n).map fun k => q.weights.get [k] * gp (q.nodes.get [k])).getD (idx.getD 0 0) 0⟩,
          q.keptExactTo map, none⟩ := by
      unfold transplanted1D
      simp only [hn]
      rw [hmap]
      simp only
      rw [hnn, hmul _ (by simp), hzip]
      simp [Function.comp_def]
    refine ⟨_, hv, hn.symm, rfl, ?_, hex _ _⟩
    intro f
    simp only [call, hnn]
    rw [e1 _ n rfl]
    congr 1
    refine List.map_congr_left fun k hk => ?_
    have hk := List.mem_range.1 hk
    simp only [node, hn, List.getD_cons_zero, List.headD_cons]
    rw [getD_map_lt _ _ k (by simpa using hk), getD_map_lt _ _ k (by simpa using hk)]
    simp only [List.getElem_range]
    ring
  · have hv : transplanted1D q map = .ok
        ⟨⟨[1, n], fun idx => ((List.range n).map fun k => g (q.nodes.get [0, k])).getD (idx.getD 1 0) 0⟩,
          ⟨[n], fun idx => ((List.range n).map fun k => q.weights.get [k] * gp (q.nodes.get [0, k])).getD (idx.getD 0 0) 0⟩,
          q.keptExactTo map, none⟩ := by
      unfold transplanted1D
      simp only [hn]
      rw [hmap]
      simp only
      rw [hnn, hmul _ (by simp), hzip]
      simp [Function.comp_def]
    refine ⟨_, hv, hn.symm, rfl, ?_, hex _ _⟩
    intro f
    simp only [call, hnn]
    rw [e1 _ n rfl]
    congr 1
    refine List.map_congr_left fun k hk => ?_
    have hk := List.mem_range.1 hk
    simp only [node, hn, List.range_one, List.map_cons, List.map_nil, List.getD_cons_succ,
      List.getD_cons_zero, List.headD_cons]
    rw [getD_map_lt _ _ k (by simpa using hk), getD_map_lt _ _ k (by simpa using hk)]
    simp only [List.getElem_range]
    ring

/-- **C49 (exactness).**  If the base rule integrates `(f ∘ g) g'` exactly and `g` is a differentiable
reparametrisation of `[-1,1]`, the transplanted rule integrates `f` exactly. -/
theorem C49_exact (q : Quadrature) (n : Nat) (hq : OneDim q n) (map : MapFn) (g gp : ℝ → ℝ)
    (hmap : ∀ l, map.call l = .ok (l.map g, l.map gp))
    (hder : ∀ s ∈ Set.uIcc (-1 : ℝ) 1, HasDerivAt g (gp s) s) (hcont : ContinuousOn gp (Set.uIcc (-1 : ℝ) 1))
    (h1 : g 1 = 1) (h2 : g (-1) = -1) (f : ℝ → ℝ) (hf : Continuous f)
    (hex : q.call (fun x => f (g (x.headD 0)) * gp (x.headD 0)) = ∫ s in (-1)..1, f (g s) * gp s) :
    ∃ q', transplanted1D q map = .ok q' ∧ q'.call (fun x => f (x.headD 0)) = ∫ t in (-1)..1, f t := by
  obtain ⟨q', hq', -, -, hcall, -⟩ := C49_change q n hq map g gp hmap
  refine ⟨q', hq', ?_⟩
  rw [hcall]
  simp only [List.headD_cons]
  rw [hex]
  have := intervalIntegral.integral_comp_mul_deriv (a := -1) (b := 1) hder hcont hf
  simp only [Function.comp] at this
  rw [this, h1, h2]

/-- Rules that are not one-dimensional are rejected. -/
theorem C49_rejects (q : Quadrature) (d n : Nat) (hd : d ≠ 1) (hn : q.nodes.shape = [d, n]) (map : MapFn) :
    transplanted1D q map = .error .ValueError := by
  unfold transplanted1D
  rw [hn]
  match d, hd with
  | 0, _ => rfl
  | _ + 2, _ => rfl

/-- The three maps of the module act pointwise as required. -/
theorem C49_maps :
    (∀ l, MapFn.identity.call l = .ok (l.map id, l.map fun _ => 1)) ∧
    (∀ n : Nat, ∃ g gp, ∀ l, (MapFn.other (pointwise fun s => mapSausage s (2 * n + 1))).call l =
      .ok (l.map g, l.map gp)) ∧
    (∀ a : ℝ, 0 < a → a < 1 → ∃ g gp, ∀ l, (MapFn.other (pointwise fun s => mapKosloffTalEzer s 0 (some a))).call l =
      .ok (l.map g, l.map gp)) := by
  refine ⟨fun l => by simp [MapFn.call], ?_, ?_⟩
  · intro n
    obtain ⟨g, gp, h, -⟩ := C48_sausage n
    exact ⟨g, gp, fun l => pointwise_ok _ g gp h l⟩
  · intro a h0 h1
    obtain ⟨g, gp, h, -⟩ := C48_kte.1 a h0 h1 0
    exact ⟨g, gp, fun l => pointwise_ok _ g gp h l⟩

/-- The sausage transplant of any rule exact to degree `N` integrates polynomials `p` with
`(2n+1) (deg p + 1) ≤ N + 1` exactly. -/
theorem C49_sausage_exact (q : Quadrature) (m : Nat) (hq : OneDim q m) (N n : Nat) (hex : ExactOn N (-1) 1 q.call)
    (p : Polynomial ℝ) (hp : (2 * n + 1) * (p.natDegree + 1) ≤ N + 1) :
    ∃ q', transplanted1D q (.other (pointwise fun s => mapSausage s (2 * n + 1))) = .ok q' ∧
      q'.call (fun x => p.eval (x.headD 0)) = ∫ t in (-1)..1, p.eval t := by
  obtain ⟨g, gp, hval, hder, -, h1, h2, -, hform⟩ := C48_sausage n
  -- `g` as a polynomial
  let G : Polynomial ℝ := Polynomial.C (sausageNum n 1)⁻¹ * ∑ k ∈ Finset.range (n + 1),
    Polynomial.C (arcsinCoeff k) * Polynomial.X ^ (2 * k + 1)
  have hG : ∀ s, g s = G.eval s := by
    intro s
    rw [hform]
    simp only [G, Polynomial.eval_mul, Polynomial.eval_C, Polynomial.eval_finsetSum, Polynomial.eval_pow,
      Polynomial.eval_X, sausageNum, arcsinCoeff, one_pow, mul_one]
    rw [div_eq_inv_mul]
  have hGd : G.natDegree ≤ 2 * n + 1 := by
    refine (Polynomial.natDegree_C_mul_le _ _).trans (Polynomial.natDegree_sum_le_of_forall_le _ _ fun k hk => ?_)
    refine (Polynomial.natDegree_C_mul_X_pow_le _ _).trans ?_
    have := Finset.mem_range.1 hk
    omega
  have hgp : ∀ s, gp s = G.derivative.eval s := by
    intro s
    have e : g = fun s => G.eval s := funext hG
    have h := hder s
    rw [e] at h
    exact h.unique (G.hasDerivAt s)
  have hdeg : (p.comp G * G.derivative).natDegree ≤ N := by
    refine Polynomial.natDegree_mul_le.trans ?_
    have a1 : (p.comp G).natDegree ≤ p.natDegree * (2 * n + 1) :=
      Polynomial.natDegree_comp_le.trans (Nat.mul_le_mul_left _ hGd)
    have a2 : G.derivative.natDegree ≤ 2 * n := (Polynomial.natDegree_derivative_le G).trans (by omega)
    have a3 : (2 * n + 1) * (p.natDegree + 1) = p.natDegree * (2 * n + 1) + (2 * n + 1) := by ring
    omega
  have hbase := hex _ hdeg
  simp only [Polynomial.eval_mul, Polynomial.eval_comp, ← hG, ← hgp] at hbase
  refine C49_exact q m hq (.other (pointwise fun s => mapSausage s (2 * n + 1))) g gp (fun l => pointwise_ok _ g gp hval l) (fun s _ => hder s) ?_ h1 h2
    (fun t => p.eval t) p.continuous hbase
  have : gp = fun s => G.derivative.eval s := funext hgp
  rw [this]
  exact G.derivative.continuous.continuousOn

/-- Instances: the cubic sausage map is `(s + s³/6)/(7/6)`; parameters in range. -/
example : mapSausage 1 3 = .ok (1, 9 / 7) := by
  have := mapSausage_eq 1 1
  norm_num [sausageNum, sausageDer, Finset.sum_range_succ, arcsinCoeff, Nat.centralBinom, Nat.choose] at this
  exact_mod_cast this

example : (0 : ℝ) < 1 / 2 ∧ (1 / 2 : ℝ) < 1 ∧ (1 : ℝ) < 1.4 := by norm_num

end Modepy

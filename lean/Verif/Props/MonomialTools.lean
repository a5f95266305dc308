import Verif.Model.Tools
import Verif.Proofs.BaryPoly
import Verif.Proofs.TensorNodes
import Mathlib.MeasureTheory.Integral.Pi
import Mathlib.Analysis.Calculus.Deriv.Pow

/-!
# Property C45: `modepy.tools.Monomial`
-/

namespace Modepy
open Spec MeasureTheory

/-- The function a `Monomial` stands for: `factor * Π ((x_i + 1)/2)^{e_i}`. -/
noncomputable def monoValue (exponents : List Nat) (factor : ℝ) (x : List ℝ) : ℝ :=
  factor * (List.zipWith (fun e c => ((c + 1) / 2) ^ e) exponents x).prod

/-- **C45.**  `__call__` evaluates `factor * Π ((x_i + 1)/2)^{e_i}`; a point with too few coordinates raises. -/
theorem C45_call (m : Mono) (x : List ℝ) :
    m.call x = if m.exponents.length ≤ x.length then .ok (monoValue m.exponents m.factor x) else .error .IndexError := by
  rw [Mono.call]
  have key : ∀ (es : List Nat) (k : Nat), collect ((es.zipIdx k).map fun (e, i) =>
      match (x.map fun c => (c + 1) / 2)[i]? with
      | some c => (.ok (c ^ e) : Py ℝ)
      | none => .error .IndexError) =
      if k + es.length ≤ x.length ∨ es = [] then
        .ok (List.zipWith (fun e c => ((c + 1) / 2) ^ e) es (x.drop k)) else .error .IndexError := by
    intro es
    induction es with
    | nil => intro k; simp [collect]
    | cons e es ih =>
      intro k
      rw [List.zipIdx_cons, List.map_cons]
      by_cases hk : k < x.length
      · have h1 : (x.map fun c => (c + 1) / 2)[k]? = some ((x[k] + 1) / 2) := by
          rw [List.getElem?_map, List.getElem?_eq_getElem hk]; rfl
        simp only [h1, collect, ih (k + 1)]
        rw [List.drop_eq_getElem_cons hk]
        by_cases h2 : k + 1 + es.length ≤ x.length
        · rw [if_pos (Or.inl h2), if_pos (Or.inl (by simpa [Nat.add_assoc, Nat.add_comm 1] using h2))]
          rfl
        · by_cases h3 : es = []
          · subst h3
            simp at h2
            omega
          · rw [if_neg (by simp [h2, h3]), if_neg]
            simp only [List.length_cons, reduceCtorEq, or_false]
            omega
      · have h1 : (x.map fun c => (c + 1) / 2)[k]? = none := by
          rw [List.getElem?_map, List.getElem?_eq_none (by omega)]; rfl
        simp only [h1, collect]
        rw [if_neg]
        simp only [List.length_cons, reduceCtorEq, or_false]
        omega
  have h := key m.exponents 0
  simp only [List.drop_zero, Nat.zero_add] at h
  by_cases h2 : m.exponents.length ≤ x.length
  · rw [if_pos (Or.inl h2)] at h
    rw [if_pos h2, monoValue]
    exact (congrArg (fun r : Py (List ℝ) => match r with
      | .ok l => (.ok (m.factor * l.prod) : Py ℝ)
      | .error e => .error e) h)
  · have h3 : m.exponents ≠ [] := by
      intro h0; rw [h0] at h2; simp at h2
    rw [if_neg (by simp [h2, h3])] at h
    rw [if_neg h2]
    exact (congrArg (fun r : Py (List ℝ) => match r with
      | .ok l => (.ok (m.factor * l.prod) : Py ℝ)
      | .error e => .error e) h)

theorem monoValue_ofFn {n : Nat} (e : Fin n → Nat) (c : ℝ) (x : Fin n → ℝ) :
    monoValue (List.ofFn e) c (List.ofFn x) = c * ∏ i, ((x i + 1) / 2) ^ e i := by
  rw [monoValue, ← List.prod_ofFn]
  congr 2
  apply List.ext_getElem
  · simp
  · intro i h1 h2
    simp

/-- **C45.**  `simplex_integral` is the integral over the bi-unit simplex. -/
theorem C45_simplex (m : Mono) :
    Spec.simplexIntegral m.exponents.length (monoValue m.exponents m.factor) = m.simplexIntegral := by
  obtain ⟨es, c⟩ := m
  obtain ⟨n, e, rfl⟩ : ∃ n, ∃ e : Fin n → Nat, es = List.ofFn e := ⟨es.length, es.get, (List.ofFn_get es).symm⟩
  simp only [Mono.simplexIntegral, List.length_ofFn]
  have hl : (List.ofFn e).length = n := List.length_ofFn
  have hn : ∀ k, k = n → Spec.simplexIntegral k (monoValue (List.ofFn e) c) =
      Spec.simplexIntegral n (monoValue (List.ofFn e) c) := by rintro k rfl; rfl
  have hb := integral_bary n (Fin.cons 0 e : Fin (n + 1) → Nat)
  have hval : ∀ x : Fin n → ℝ, monoValue (List.ofFn e) c (List.ofFn x) =
      c * ∏ j, baryFin x j ^ (Fin.cons 0 e : Fin (n + 1) → Nat) j := by
    intro x
    rw [monoValue_ofFn, Fin.prod_univ_succ]
    simp [baryFin, add_comm]
  rw [Spec.simplexIntegral]
  simp only [hval]
  rw [integral_const_mul, hb, Fin.prod_univ_succ, Fin.sum_univ_succ]
  simp only [Fin.cons_zero, Fin.cons_succ, Nat.factorial_zero, Nat.cast_one, one_mul, zero_add]
  rw [List.sum_ofFn, List.map_ofFn, List.prod_ofFn]
  simp only [Function.comp]
  push_cast
  ring

theorem integral_pow_unit (e : Nat) : ∫ t in Set.Icc (-1 : ℝ) 1, ((t + 1) / 2) ^ e = 2 / (e + 1) := by
  rw [integral_Icc_eq_integral_Ioc, ← intervalIntegral.integral_of_le (by norm_num)]
  have h : ∀ t ∈ Set.uIcc (-1 : ℝ) 1, HasDerivAt (fun t : ℝ => 2 / (e + 1) * ((t + 1) / 2) ^ (e + 1))
      (((t + 1) / 2) ^ e) t := by
    intro t _
    have h1 : HasDerivAt (fun t : ℝ => (t + 1) / 2) (1 / 2) t := ((hasDerivAt_id t).add_const 1).div_const 2
    refine ((h1.pow (e + 1)).const_mul (2 / ((e : ℝ) + 1))).congr_deriv ?_
    have : (e : ℝ) + 1 ≠ 0 := by positivity
    push_cast
    field_simp
  rw [intervalIntegral.integral_eq_sub_of_hasDerivAt h
    ((Continuous.pow (by fun_prop) e).intervalIntegrable _ _)]
  norm_num

/-- The integral over the cube. -/
theorem cubeIntegral_mono {n : Nat} (e : Fin n → Nat) (c : ℝ) :
    Spec.cubeIntegral n (monoValue (List.ofFn e) c) = c * ∏ i, (2 / ((e i : ℝ) + 1)) := by
  rw [Spec.cubeIntegral]
  simp only [monoValue_ofFn]
  rw [integral_const_mul]
  congr 1
  have hset : cubeSet n = Set.univ.pi fun _ : Fin n => Set.Icc (-1 : ℝ) 1 := by
    ext x
    simp only [cubeSet, Set.mem_ofPred_eq, Set.mem_pi, Set.mem_univ, true_implies, Set.mem_Icc]
  rw [hset, volume_pi, Measure.restrict_pi_pi, integral_fintype_prod_eq_prod (fun i t => ((t + 1) / 2) ^ e i)]
  exact Finset.prod_congr rfl fun i _ => integral_pow_unit (e i)

theorem hypercubeIntegral_eq (es : List Nat) (c : ℝ) :
    Mono.hypercubeIntegral ⟨es, c⟩ = (es.map fun (n : Nat) => 1 / ((n : ℝ) + 1)).prod := by
  rw [Mono.hypercubeIntegral]
  have : ∀ (es : List Nat) (a : ℝ), es.foldl (fun integral (n : Nat) => integral * 1 / ((n : ℝ) + 1)) a =
      a * (es.map fun (n : Nat) => 1 / ((n : ℝ) + 1)).prod := by
    intro es
    induction es with
    | nil => simp
    | cons e es ih =>
      intro a
      rw [List.foldl_cons, ih, List.map_cons, List.prod_cons]
      ring
  rw [this]
  norm_num

/-- **C45 (cube).**  `hypercube_integral` ignores the factor: `2^n * hypercube_integral()` is the integral over
`[-1,1]^n` iff the factor is one.  The claim for arbitrary factors is therefore false of the code. -/
theorem C45_hypercube_partial (m : Mono) :
    (Spec.cubeIntegral m.exponents.length (monoValue m.exponents m.factor) =
      2 ^ m.exponents.length * m.hypercubeIntegral) ↔ m.factor = 1 := by
  obtain ⟨es, c⟩ := m
  obtain ⟨n, e, rfl⟩ : ∃ n, ∃ e : Fin n → Nat, es = List.ofFn e := ⟨es.length, es.get, (List.ofFn_get es).symm⟩
  have hp : (∏ i, (2 / ((e i : ℝ) + 1))) = 2 ^ n * ∏ i, (1 / ((e i : ℝ) + 1)) := by
    have : (2 : ℝ) ^ n = ∏ _i : Fin n, (2 : ℝ) := by simp
    rw [this, ← Finset.prod_mul_distrib]
    exact Finset.prod_congr rfl fun i _ => by ring
  have hpos : (0 : ℝ) < 2 ^ n * ∏ i, (1 / ((e i : ℝ) + 1)) := by
    refine mul_pos (by positivity) (Finset.prod_pos fun i _ => by positivity)
  have hh : Mono.hypercubeIntegral ⟨List.ofFn e, c⟩ = ∏ i, (1 / ((e i : ℝ) + 1)) := by
    rw [hypercubeIntegral_eq, List.map_ofFn, List.prod_ofFn]
    rfl
  simp only [hh, List.length_ofFn]
  rw [cubeIntegral_mono, hp]
  constructor
  · intro h
    have : (c - 1) * (2 ^ n * ∏ i, (1 / ((e i : ℝ) + 1))) = 0 := by linarith
    rcases mul_eq_zero.1 this with h | h
    · linarith
    · exact absurd h hpos.ne'
  · rintro rfl
    ring

/-- Pulling out the factor of coordinate `k`. -/
theorem prod_split : ∀ (es : List Nat) (x : List ℝ) (k : Nat), k < es.length → k < x.length →
    ∃ r : ℝ, ∀ (v : ℝ) (e : Nat), (List.zipWith (fun e c => ((c + 1) / 2) ^ e) (es.set k e) (x.set k v)).prod =
      ((v + 1) / 2) ^ e * r := by
  intro es
  induction es with
  | nil => intro x k h; simp at h
  | cons e0 es ih =>
    intro x k h1 h2
    match x, k with
    | c :: cs, 0 =>
      refine ⟨(List.zipWith (fun e c => ((c + 1) / 2) ^ e) es cs).prod, fun v e => ?_⟩
      simp only [List.set_cons_zero, List.zipWith_cons_cons, List.prod_cons]
    | c :: cs, k + 1 =>
      obtain ⟨r, hr⟩ := ih cs k (by simpa using h1) (by simpa using h2)
      refine ⟨((c + 1) / 2) ^ e0 * r, fun v e => ?_⟩
      simp only [List.set_cons_succ, List.zipWith_cons_cons, List.prod_cons, hr]
      ring

theorem pyIndex_nat {n k : Nat} (h : k < n) : pyIndex n k = some k := by
  rw [pyIndex, if_pos ⟨by omega, by omega⟩]
  simp

theorem pyIndex_neg {n k : Nat} (h : k < n) : pyIndex n ((k : Int) - n) = some k := by
  rw [pyIndex, if_neg (by omega), if_pos ⟨by omega, by omega⟩]
  simp

/-- **C45 (derivative).**  `diff(k)` (also with the negative index `k - n`) is the derivative with respect to the
`[0,1]` coordinate number `k`. -/
theorem C45_diff (m : Mono) (k : Nat) (hk : k < m.exponents.length) :
    ∃ m', m.diff k = .ok m' ∧ m.diff ((k : Int) - m.exponents.length) = .ok m' ∧
      m'.exponents.length = m.exponents.length ∧
      ∀ x : List ℝ, x.length = m.exponents.length → ∀ ξ : ℝ,
        HasDerivAt (fun ξ => monoValue m.exponents m.factor (x.set k (2 * ξ - 1)))
          (monoValue m'.exponents m'.factor (x.set k (2 * ξ - 1))) ξ := by
  obtain ⟨es, c⟩ := m
  simp only at hk
  simp only [Mono.diff, pyIndex_nat hk, pyIndex_neg hk]
  have hek : es.getD k 0 = es[k] := by
    rw [List.getD_eq_getElem?_getD, List.getElem?_eq_getElem hk]; rfl
  have hself : es.set k es[k] = es := by
    apply List.ext_getElem
    · simp
    · intro i h1 h2
      rw [List.getElem_set]
      split_ifs with h
      · subst h; rfl
      · rfl
  have hx : ∀ ξ : ℝ, (2 * ξ - 1 + 1) / 2 = ξ := fun ξ => by ring
  by_cases h0 : es[k] = 0
  · rw [hek, if_pos h0]
    refine ⟨_, rfl, rfl, rfl, ?_⟩
    intro x hxl ξ
    obtain ⟨r, hr⟩ := prod_split es x k hk (by omega)
    have e : ∀ ξ : ℝ, monoValue es c (x.set k (2 * ξ - 1)) = c * r := by
      intro ξ
      have := hr (2 * ξ - 1) es[k]
      rw [hself, h0, pow_zero, one_mul] at this
      rw [monoValue, this]
    simp only [e]
    have z : monoValue es 0 (x.set k (2 * ξ - 1)) = 0 := by simp [monoValue]
    rw [z]
    exact hasDerivAt_const _ _
  · rw [hek, if_neg h0]
    refine ⟨_, rfl, rfl, by simp, ?_⟩
    intro x hxl ξ
    obtain ⟨r, hr⟩ := prod_split es x k hk (by omega)
    have e : ∀ ξ : ℝ, monoValue es c (x.set k (2 * ξ - 1)) = c * (ξ ^ es[k] * r) := by
      intro ξ
      have := hr (2 * ξ - 1) es[k]
      rw [hself, hx] at this
      rw [monoValue, this]
    have e' : monoValue (es.set k (es[k] - 1)) (c * es[k]) (x.set k (2 * ξ - 1)) =
        c * (es[k] * ξ ^ (es[k] - 1) * r) := by
      rw [monoValue, hr, hx]
      ring
    simp only [e, e']
    exact (((hasDerivAt_pow es[k] ξ)).mul_const r).const_mul c

/-- Other indices raise. -/
theorem C45_diff_index (m : Mono) (i : Int) (h : i < -m.exponents.length ∨ (m.exponents.length : Int) ≤ i) :
    m.diff i = .error .IndexError := by
  rw [Mono.diff, pyIndex, if_neg (by omega), if_neg (by omega)]

/-- Instances: `∫ ξ₀² ξ₁` over the triangle is `4·2!·1!/5!`; the derivative of `3 ξ₀² ξ₁`. -/
example : Spec.simplexIntegral 2 (monoValue [2, 1] 1) = 1 / 15 := by
  have := C45_simplex ⟨[2, 1], 1⟩
  rw [show ([2, 1] : List Nat).length = 2 from rfl] at this
  rw [this]
  norm_num [Mono.simplexIntegral, Nat.factorial]

example : ∃ m', Mono.diff ⟨[2, 1], 3⟩ 0 = .ok m' ∧ m'.exponents = [1, 1] ∧ m'.factor = 6 := by
  refine ⟨_, rfl, rfl, ?_⟩
  norm_num

end Modepy

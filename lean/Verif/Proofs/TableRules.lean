import Verif.Proofs.TableCheck
import Verif.Props.QuadForSpace

/-!
# From checked tables to statements about the rules
-/

namespace Modepy
open Spec MeasureTheory Quadrature NdArray

/-- A polynomial in the coordinates `(1 + x_i)/2`, given by coefficients and exponents. -/
noncomputable def Spec.polyValue (terms : List (ℝ × List Nat)) (x : List ℝ) : ℝ :=
  (terms.map fun t => t.1 * monoValue t.2 1 x).sum

/-- A rule with positive weights and points in `S` which integrates polynomials of degree at most `N` up to an
error of `10⁻¹⁴` times the sum of the moduli of the coefficients. -/
structure Spec.TabulatedRule (d N : Nat) (S : Set (Fin d → ℝ)) (q : Quadrature) : Prop where
  nodesShape : q.nodes.shape = [d, q.nnodes]
  weightsShape : q.weights.shape = [q.nnodes]
  exactTo : q.getExactTo = .ok (.num N)
  positive : ∀ k < q.nnodes, 0 < q.weights.get [k]
  inside : ∀ k < q.nnodes, (fun i : Fin d => q.nodes.get [i, k]) ∈ S
  accurate : ∀ terms : List (ℝ × List Nat), (∀ t ∈ terms, t.2.length = d ∧ t.2.sum ≤ N) →
    |q.call (polyValue terms) - ∫ x in S, polyValue terms (List.ofFn x)| ≤
      1 / 10 ^ 14 * (terms.map fun t => |t.1|).sum

namespace Table

theorem continuous_mono {d : Nat} (e : List Nat) (h : e.length = d) :
    Continuous fun x : Fin d → ℝ => monoValue e 1 (List.ofFn x) := by
  subst h
  have : (fun x : Fin e.length → ℝ => monoValue e 1 (List.ofFn x)) = fun x => 1 * ∏ i, ((x i + 1) / 2) ^ e.get i := by
    funext x
    have := monoValue_ofFn e.get 1 x
    rwa [List.ofFn_get] at this
  rw [this]
  fun_prop

theorem continuous_poly {d : Nat} (terms : List (ℝ × List Nat)) (h : ∀ t ∈ terms, t.2.length = d) :
    Continuous fun x : Fin d → ℝ => polyValue terms (List.ofFn x) := by
  induction terms with
  | nil => simpa [polyValue] using continuous_const
  | cons t ts ih =>
    have e : (fun x : Fin d → ℝ => polyValue (t :: ts) (List.ofFn x)) =
        fun x => t.1 * monoValue t.2 1 (List.ofFn x) + polyValue ts (List.ofFn x) := by
      funext x; simp [polyValue]
    rw [e]
    exact (continuous_const.mul (continuous_mono t.2 (h t (by simp)))).add (ih fun t ht => h t (by simp [ht]))

theorem integral_poly {d : Nat} {S : Set (Fin d → ℝ)} (hS : IsCompact S) (terms : List (ℝ × List Nat))
    (h : ∀ t ∈ terms, t.2.length = d) :
    ∫ x in S, polyValue terms (List.ofFn x) =
      (terms.map fun t => t.1 * ∫ x in S, monoValue t.2 1 (List.ofFn x)).sum := by
  induction terms with
  | nil => simp [polyValue]
  | cons t ts ih =>
    have e : ∀ x : Fin d → ℝ, polyValue (t :: ts) (List.ofFn x) =
        t.1 * monoValue t.2 1 (List.ofFn x) + polyValue ts (List.ofFn x) := by
      intro x; simp [polyValue]
    simp only [e]
    rw [integral_add, integral_const_mul, List.map_cons, List.sum_cons, ih fun t ht => h t (by simp [ht])]
    · exact ((continuous_const.mul (continuous_mono t.2 (h t (by simp)))).continuousOn).integrableOn_compact hS
    · exact ((continuous_poly ts fun t ht => h t (by simp [ht])).continuousOn).integrableOn_compact hS

theorem call_poly (q : Quadrature) (terms : List (ℝ × List Nat)) :
    q.call (polyValue terms) = (terms.map fun t => t.1 * q.call (monoValue t.2 1)).sum := by
  induction terms with
  | nil => simp [polyValue, Quadrature.call]
  | cons t ts ih =>
    rw [List.map_cons, List.sum_cons, ← ih]
    simp only [Quadrature.call, polyValue, List.map_cons, List.sum_cons]
    rw [← List.sum_map_mul_left, ← List.sum_map_add]
    congr 1
    refine List.map_congr_left fun k _ => ?_
    ring

theorem accurate_of_monomials {d N : Nat} {S : Set (Fin d → ℝ)} (hS : IsCompact S) (q : Quadrature) {ε : ℝ}
    (h : ∀ e : List Nat, e.length = d → e.sum ≤ N →
      |q.call (monoValue e 1) - ∫ x in S, monoValue e 1 (List.ofFn x)| ≤ ε)
    (terms : List (ℝ × List Nat)) (ht : ∀ t ∈ terms, t.2.length = d ∧ t.2.sum ≤ N) :
    |q.call (polyValue terms) - ∫ x in S, polyValue terms (List.ofFn x)| ≤ ε * (terms.map fun t => |t.1|).sum := by
  rw [call_poly, integral_poly hS terms fun t h' => (ht t h').1]
  induction terms with
  | nil => simp
  | cons t ts ih =>
    have ih := ih fun t h' => ht t (by simp [h'])
    have h1 := h t.2 (ht t (by simp)).1 (ht t (by simp)).2
    simp only [List.map_cons, List.sum_cons]
    set A := (ts.map fun t => t.1 * q.call (monoValue t.2 1)).sum
    set B := (ts.map fun t => t.1 * ∫ x in S, monoValue t.2 1 (List.ofFn x)).sum
    set C := q.call (monoValue t.2 1)
    set D := ∫ x in S, monoValue t.2 1 (List.ofFn x)
    have e : t.1 * C + A - (t.1 * D + B) = t.1 * (C - D) + (A - B) := by ring
    rw [e]
    calc _ ≤ |t.1| * |C - D| + |A - B| := by rw [← abs_mul]; exact abs_add_le _ _
      _ ≤ |t.1| * ε + ε * (ts.map fun t => |t.1|).sum := by gcongr
      _ = _ := by ring

theorem isCompact_cubeSet (d : Nat) : IsCompact (cubeSet d) := by
  have hset : cubeSet d = Set.univ.pi fun _ : Fin d => Set.Icc (-1 : ℝ) 1 := by
    ext x
    simp only [cubeSet, Set.mem_ofPred_eq, Set.mem_pi, Set.mem_univ, true_implies, Set.mem_Icc]
  rw [hset]
  exact isCompact_univ_pi fun _ => isCompact_Icc

theorem simplexSet_subset_cubeSet (d : Nat) : simplexSet d ⊆ cubeSet d := by
  intro x hx i
  refine ⟨hx.1 i, ?_⟩
  have h1 : (1 + x i) / 2 ≤ ∑ j, (1 + x j) / 2 :=
    Finset.single_le_sum (f := fun j => (1 + x j) / 2) (fun j _ => by have := hx.1 j; linarith) (Finset.mem_univ i)
  have := hx.2
  linarith

theorem isCompact_simplexSet (d : Nat) : IsCompact (simplexSet d) := by
  refine (isCompact_cubeSet d).of_isClosed_subset ?_ (simplexSet_subset_cubeSet d)
  have e : simplexSet d = (⋂ i, {x : Fin d → ℝ | -1 ≤ x i}) ∩ {x | ∑ i, (1 + x i) / 2 ≤ 1} := by
    ext x; simp [simplexSet]
  rw [e]
  refine IsClosed.inter (isClosed_iInter fun i => isClosed_le continuous_const (continuous_apply i)) ?_
  exact isClosed_le (by fun_prop) continuous_const

/-! ## Calls -/

theorem call_range (q : Quadrature) (f : List ℝ → ℝ) :
    q.call f = ∑ k ∈ Finset.range q.nnodes, q.weights.get [k] * f (q.node k) := by
  rw [Quadrature.call, Finset.sum_range, ← List.sum_ofFn]
  congr 1
  apply List.ext_getElem <;> simp

theorem node2 {q : Quadrature} {n : Nat} (h : q.nodes.shape = [2, n]) (k : Nat) :
    q.node k = [q.nodes.get [0, k], q.nodes.get [1, k]] := by
  unfold Quadrature.node; rw [h]; rfl

theorem node3 {q : Quadrature} {n : Nat} (h : q.nodes.shape = [3, n]) (k : Nat) :
    q.node k = [q.nodes.get [0, k], q.nodes.get [1, k], q.nodes.get [2, k]] := by
  unfold Quadrature.node; rw [h]; rfl

/-! ## Moments -/

/-- What is known of a rule with `n` points whose weights and barycentric coordinates are `W`, `u`, `v`, `w`. -/
structure Close (A : Scaling) (m : Nat) (ws xs ys zs : List Int) (W u v w : Nat → ℝ) : Prop where
  D : 0 < A.D
  E : 0 < A.E
  W : ∀ k < ws.length, |W k - (wHat A ws k : ℝ) / A.E| ≤ (m : ℝ) / A.E
  u : ∀ k < ws.length, |u k - (cHat A.p xs ys zs k : ℝ) / A.D| ≤ (m : ℝ) / A.D
  v : ∀ k < ws.length, |v k - (cHat A.q xs ys zs k : ℝ) / A.D| ≤ (m : ℝ) / A.D
  w : ∀ k < ws.length, |w k - (cHat A.r xs ys zs k : ℝ) / A.D| ≤ (m : ℝ) / A.D

theorem unit01_hat {p D : Nat} (hD : 0 < D) (h : p ≤ D) : Unit01 ((p : ℝ) / D) := by
  have hD' : (0 : ℝ) < D := by exact_mod_cast hD
  exact ⟨by positivity, by rw [div_le_one hD']; exact_mod_cast h⟩

theorem lower {x : ℝ} {p D m : Nat} (hD : 0 < D) (h : |x - (p : ℝ) / D| ≤ (m : ℝ) / D) (hp : m ≤ p) : 0 ≤ x := by
  have hD' : (0 : ℝ) < D := by exact_mod_cast hD
  have h1 := (abs_le.mp h).1
  have h2 : (m : ℝ) / D ≤ p / D := by gcongr
  linarith

theorem lower_pos {x : ℝ} {p D m : Nat} (hD : 0 < D) (h : |x - (p : ℝ) / D| ≤ (m : ℝ) / D) (hp : m < p) :
    0 < x := by
  have hD' : (0 : ℝ) < D := by exact_mod_cast hD
  have h1 := (abs_le.mp h).1
  have h2 : (m : ℝ) / D < p / D := by gcongr
  linarith

/-- The closeness of all moments. -/
theorem moments {A : Scaling} {m N M tn td : Nat} {ws xs ys zs : List Int} {W u v w : Nat → ℝ}
    {num den : Nat → Nat → Nat → Nat} (hc : Close A m ws xs ys zs W u v w)
    (hhat : ∀ k < ws.length, cHat A.p xs ys zs k ≤ A.D ∧ cHat A.q xs ys zs k ≤ A.D ∧ cHat A.r xs ys zs k ≤ A.D)
    (hu : ∀ k < ws.length, Unit01 (u k)) (hv : ∀ k < ws.length, Unit01 (v k)) (hw : ∀ k < ws.length, Unit01 (w k))
    (htd : 0 < td) (hden : ∀ a b c, 0 < den a b c) (h0 : num 0 0 0 ≤ 8 * den 0 0 0) (ht1 : tn ≤ td)
    (hcheck : check num den A.D A.E tn td N M (conv A ws xs ys zs) = true)
    (hbound : (tn : ℝ) / td + (ws.length * ((m : ℝ) / A.E) + 9 * (N * ((m : ℝ) / A.D))) ≤ 1 / 10 ^ 14)
    (a b c : Nat) (habc : a + b + c ≤ N) (hcM : c ≤ M) :
    |∑ k ∈ Finset.range ws.length, W k * (u k ^ a * (v k ^ b * w k ^ c)) - (num a b c : ℝ) / den a b c| ≤
      1 / 10 ^ 14 := by
  have h1 := check_spec hc.D hc.E htd hden hcheck a b c habc hcM
  have h2 := check_spec hc.D hc.E htd hden hcheck 0 0 0 (by omega) (by omega)
  rw [sumP_real A hc.D hc.E] at h1 h2
  simp only [pow_zero, mul_one] at h2
  have hE' : (0 : ℝ) < A.E := by exact_mod_cast hc.E
  have hD' : (0 : ℝ) < A.D := by exact_mod_cast hc.D
  have h3 := sum_perturb (n := ws.length) (W := W) (u := u) (v := v) (w := w)
    (W' := fun k => (wHat A ws k : ℝ) / A.E) (u' := fun k => (cHat A.p xs ys zs k : ℝ) / A.D)
    (v' := fun k => (cHat A.q xs ys zs k : ℝ) / A.D) (w' := fun k => (cHat A.r xs ys zs k : ℝ) / A.D)
    (δ := (m : ℝ) / A.D) (ε := (m : ℝ) / A.E) (fun k _ => by positivity) hu hv hw
    (fun k hk => unit01_hat hc.D (hhat k hk).1) (fun k hk => unit01_hat hc.D (hhat k hk).2.1)
    (fun k hk => unit01_hat hc.D (hhat k hk).2.2) hc.W hc.u hc.v hc.w a b c
  have htd' : (0 : ℝ) < td := by exact_mod_cast htd
  have h4 : (∑ k ∈ Finset.range ws.length, (wHat A ws k : ℝ) / A.E) ≤ 9 := by
    have h5 : (num 0 0 0 : ℝ) / den 0 0 0 ≤ 8 := by
      have : (0 : ℝ) < den 0 0 0 := by exact_mod_cast hden 0 0 0
      rw [div_le_iff₀ this]; exact_mod_cast h0
    have h6 : (tn : ℝ) / td ≤ 1 := by rw [div_le_one htd']; exact_mod_cast ht1
    have := (abs_le.mp h2).2
    linarith
  have h5 : (∑ k ∈ Finset.range ws.length, (wHat A ws k : ℝ) / A.E) * (((a : ℝ) + (b + c)) * ((m : ℝ) / A.D)) ≤
      9 * (N * ((m : ℝ) / A.D)) := by
    have : (a : ℝ) + (b + c) ≤ N := by exact_mod_cast (by omega : a + (b + c) ≤ N)
    gcongr
  have h6 := abs_sub_le (∑ k ∈ Finset.range ws.length, W k * (u k ^ a * (v k ^ b * w k ^ c)))
    (∑ k ∈ Finset.range ws.length, (wHat A ws k : ℝ) / A.E * (((cHat A.p xs ys zs k : ℝ) / A.D) ^ a *
        (((cHat A.q xs ys zs k : ℝ) / A.D) ^ b * ((cHat A.r xs ys zs k : ℝ) / A.D) ^ c)))
    ((num a b c : ℝ) / den a b c)
  linarith

theorem insideSimplex_spec {D m w p q r : Nat} (h : insideSimplex D m w p q r = true) :
    m < w ∧ m ≤ p ∧ m ≤ q ∧ m ≤ r ∧ p + (q + r) + 3 * m ≤ D := by
  simp only [insideSimplex, Bool.and_eq_true] at h
  exact ⟨Nat.le_of_ble_eq_true h.1, Nat.le_of_ble_eq_true h.2.1, Nat.le_of_ble_eq_true h.2.2.1,
    Nat.le_of_ble_eq_true h.2.2.2.1, Nat.le_of_ble_eq_true h.2.2.2.2⟩

theorem insideCube_spec {D w p q r : Nat} (h : insideCube D w p q r = true) :
    0 < w ∧ p ≤ D ∧ q ≤ D ∧ r ≤ D := by
  simp only [insideCube, Bool.and_eq_true] at h
  exact ⟨Nat.le_of_ble_eq_true h.1, Nat.le_of_ble_eq_true h.2.1, Nat.le_of_ble_eq_true h.2.2.1,
    Nat.le_of_ble_eq_true h.2.2.2⟩

/-- Positivity and position of the points of a simplex rule. -/
theorem simplex_inside {A : Scaling} {m : Nat} {ws xs ys zs : List Int} {W u v w : Nat → ℝ}
    (hc : Close A m ws xs ys zs W u v w) (h : allP (insideSimplex A.D m) (conv A ws xs ys zs) = true)
    (k : Nat) (hk : k < ws.length) :
    0 < W k ∧ 0 ≤ u k ∧ 0 ≤ v k ∧ 0 ≤ w k ∧ u k + v k + w k ≤ 1 := by
  obtain ⟨h1, h2, h3, h4, h5⟩ := insideSimplex_spec (allP_conv A _ ws xs ys zs h k hk)
  have hD' : (0 : ℝ) < A.D := by exact_mod_cast hc.D
  refine ⟨lower_pos hc.E (hc.W k hk) h1, lower hc.D (hc.u k hk) h2, lower hc.D (hc.v k hk) h3,
    lower hc.D (hc.w k hk) h4, ?_⟩
  have e1 := (abs_le.mp (hc.u k hk)).2
  have e2 := (abs_le.mp (hc.v k hk)).2
  have e3 := (abs_le.mp (hc.w k hk)).2
  have e4 : ((cHat A.p xs ys zs k : ℝ) + (cHat A.q xs ys zs k + cHat A.r xs ys zs k) + 3 * m) / A.D ≤ 1 := by
    rw [div_le_one hD']; exact_mod_cast h5
  rw [add_div, add_div, add_div, mul_div_assoc] at e4
  linarith

end Table
end Modepy

namespace Modepy
open Spec MeasureTheory Quadrature NdArray
namespace Table

theorem simplexInt (e : List Nat) : ∫ x in simplexSet e.length, monoValue e 1 (List.ofFn x) =
    Mono.simplexIntegral ⟨e, 1⟩ := C45_simplex ⟨e, 1⟩

theorem simplexInt2 (a b : Nat) : ∫ x in simplexSet 2, monoValue [a, b] 1 (List.ofFn x) =
    (simplexNum 2 a b 0 : ℝ) / simplexDen 2 a b 0 := by
  have h := simplexInt [a, b]
  have e1 : simplexNum 2 a b 0 = 2 ^ 2 * (fact a * (fact b * fact 0)) := rfl
  have e2 : simplexDen 2 a b 0 = fact (a + (b + 0) + 2) := rfl
  rw [e1, e2]
  simp only [fact_eq]
  refine h.trans ?_
  simp only [Mono.simplexIntegral]
  simp
  have e3 : 2 + (a + b) = a + b + 2 := by ring
  simp only [e3]
  ring

theorem simplexInt3 (a b c : Nat) : ∫ x in simplexSet 3, monoValue [a, b, c] 1 (List.ofFn x) =
    (simplexNum 3 a b c : ℝ) / simplexDen 3 a b c := by
  have h := simplexInt [a, b, c]
  have e1 : simplexNum 3 a b c = 2 ^ 3 * (fact a * (fact b * fact c)) := rfl
  have e2 : simplexDen 3 a b c = fact (a + (b + c) + 3) := rfl
  rw [e1, e2]
  simp only [fact_eq]
  refine h.trans ?_
  simp only [Mono.simplexIntegral]
  simp
  have e3 : 3 + (a + (b + c)) = a + (b + c) + 3 := by ring
  simp only [e3]
  ring

theorem cubeInt2 (a b : Nat) : ∫ x in cubeSet 2, monoValue [a, b] 1 (List.ofFn x) =
    (cubeNum 2 a b 0 : ℝ) / cubeDen a b 0 := by
  have h := cubeIntegral_mono ![a, b] 1
  have e1 : cubeNum 2 a b 0 = 2 ^ 2 := rfl
  have e2 : cubeDen a b 0 = (a + 1) * ((b + 1) * (0 + 1)) := rfl
  rw [e1, e2]
  refine (show _ = _ from h).trans ?_
  simp [Fin.prod_univ_succ]
  field_simp
  norm_num

theorem cubeInt3 (a b c : Nat) : ∫ x in cubeSet 3, monoValue [a, b, c] 1 (List.ofFn x) =
    (cubeNum 3 a b c : ℝ) / cubeDen a b c := by
  have h := cubeIntegral_mono ![a, b, c] 1
  have e1 : cubeNum 3 a b c = 2 ^ 3 := rfl
  have e2 : cubeDen a b c = (a + 1) * ((b + 1) * (c + 1)) := rfl
  rw [e1, e2]
  refine (show _ = _ from h).trans ?_
  simp [Fin.prod_univ_succ]
  field_simp
  norm_num

theorem call_mono2 {q : Quadrature} {n : Nat} (hs : q.nodes.shape = [2, n]) (hw : q.weights.shape = [n]) (a b : Nat)
    (w : Nat → ℝ) :
    q.call (monoValue [a, b] 1) = ∑ k ∈ Finset.range n, q.weights.get [k] *
      (((q.nodes.get [0, k] + 1) / 2) ^ a * (((q.nodes.get [1, k] + 1) / 2) ^ b * w k ^ 0)) := by
  have hn : q.nnodes = n := by rw [nnodes, hw]; rfl
  rw [call_range, hn]
  refine Finset.sum_congr rfl fun k _ => ?_
  rw [node2 hs, monoValue]
  simp

theorem call_mono3 {q : Quadrature} {n : Nat} (hs : q.nodes.shape = [3, n]) (hw : q.weights.shape = [n])
    (a b c : Nat) :
    q.call (monoValue [a, b, c] 1) = ∑ k ∈ Finset.range n, q.weights.get [k] *
      (((q.nodes.get [0, k] + 1) / 2) ^ a * (((q.nodes.get [1, k] + 1) / 2) ^ b *
        ((q.nodes.get [2, k] + 1) / 2) ^ c)) := by
  have hn : q.nnodes = n := by rw [nnodes, hw]; rfl
  rw [call_range, hn]
  refine Finset.sum_congr rfl fun k _ => ?_
  rw [node3 hs, monoValue]
  simp

/-- Weights and barycentric coordinates of a rule. -/
noncomputable def ruleW (q : Quadrature) (k : Nat) : ℝ := q.weights.get [k]
noncomputable def ruleC (q : Quadrature) (i k : Nat) : ℝ := (q.nodes.get [i, k] + 1) / 2

section
variable {q : Quadrature} {A : Scaling} {m N tn td : Nat} {ws xs ys zs : List Int}

theorem tabulated_simplex3 (hs : q.nodes.shape = [3, ws.length]) (hws : q.weights.shape = [ws.length])
    (he : q.getExactTo = .ok (.num N)) (hc : Close A m ws xs ys zs (ruleW q) (ruleC q 0) (ruleC q 1) (ruleC q 2))
    (hin : allP (insideSimplex A.D m) (conv A ws xs ys zs) = true) (htd : 0 < td) (ht1 : tn ≤ td)
    (hcheck : check (simplexNum 3) (simplexDen 3) A.D A.E tn td N N (conv A ws xs ys zs) = true)
    (hbound : (tn : ℝ) / td + (ws.length * ((m : ℝ) / A.E) + 9 * (N * ((m : ℝ) / A.D))) ≤ 1 / 10 ^ 14) :
    TabulatedRule 3 N (simplexSet 3) q := by
  have hn : q.nnodes = ws.length := by rw [nnodes, hws]; rfl
  have hpos := simplex_inside hc hin
  refine ⟨by rw [hn]; exact hs, by rw [hn]; exact hws, he, ?_, ?_, ?_⟩
  · intro k hk; exact (hpos k (by rwa [hn] at hk)).1
  · intro k hk
    obtain ⟨-, h0, h1, h2, h3⟩ := hpos k (by rwa [hn] at hk)
    simp only [ruleC] at h0 h1 h2 h3
    refine ⟨fun i => ?_, ?_⟩
    · fin_cases i
      · show (-1 : ℝ) ≤ q.nodes.get [0, k]; linarith
      · show (-1 : ℝ) ≤ q.nodes.get [1, k]; linarith
      · show (-1 : ℝ) ≤ q.nodes.get [2, k]; linarith
    · rw [Fin.sum_univ_three]
      show (1 + q.nodes.get [0, k]) / 2 + (1 + q.nodes.get [1, k]) / 2 + (1 + q.nodes.get [2, k]) / 2 ≤ 1
      linarith
  · refine accurate_of_monomials (isCompact_simplexSet 3) q fun e hel hes => ?_
    obtain ⟨a, b, c, rfl⟩ : ∃ a b c, e = [a, b, c] := by
      match e, hel with
      | [a, b, c], _ => exact ⟨a, b, c, rfl⟩
    have habc : a + b + c ≤ N := by simpa [add_assoc] using hes
    rw [simplexInt3, call_mono3 hs hws]
    refine moments hc (fun k hk => ?_) (fun k hk => ?_) (fun k hk => ?_) (fun k hk => ?_) htd (simplexDen_pos 3)
      (by decide) ht1 hcheck hbound a b c habc (by omega)
    · have := insideSimplex_spec (allP_conv A _ ws xs ys zs hin k hk)
      refine ⟨?_, ?_, ?_⟩ <;> omega
    all_goals
      obtain ⟨-, h0, h1, h2, h3⟩ := hpos k hk
      exact ⟨by assumption, by linarith⟩

theorem tabulated_simplex2 (hs : q.nodes.shape = [2, ws.length]) (hws : q.weights.shape = [ws.length])
    (he : q.getExactTo = .ok (.num N)) (hc : Close A m ws xs ys zs (ruleW q) (ruleC q 0) (ruleC q 1)
      fun k => (cHat A.r xs ys zs k : ℝ) / A.D)
    (hin : allP (insideSimplex A.D m) (conv A ws xs ys zs) = true) (htd : 0 < td) (ht1 : tn ≤ td)
    (hcheck : check (simplexNum 2) (simplexDen 2) A.D A.E tn td N 0 (conv A ws xs ys zs) = true)
    (hbound : (tn : ℝ) / td + (ws.length * ((m : ℝ) / A.E) + 9 * (N * ((m : ℝ) / A.D))) ≤ 1 / 10 ^ 14) :
    TabulatedRule 2 N (simplexSet 2) q := by
  have hn : q.nnodes = ws.length := by rw [nnodes, hws]; rfl
  have hpos := simplex_inside hc hin
  refine ⟨by rw [hn]; exact hs, by rw [hn]; exact hws, he, ?_, ?_, ?_⟩
  · intro k hk; exact (hpos k (by rwa [hn] at hk)).1
  · intro k hk
    obtain ⟨-, h0, h1, h2, h3⟩ := hpos k (by rwa [hn] at hk)
    simp only [ruleC] at h0 h1 h2 h3
    refine ⟨fun i => ?_, ?_⟩
    · fin_cases i
      · show (-1 : ℝ) ≤ q.nodes.get [0, k]; linarith
      · show (-1 : ℝ) ≤ q.nodes.get [1, k]; linarith
    · rw [Fin.sum_univ_two]
      show (1 + q.nodes.get [0, k]) / 2 + (1 + q.nodes.get [1, k]) / 2 ≤ 1
      linarith
  · refine accurate_of_monomials (isCompact_simplexSet 2) q fun e hel hes => ?_
    obtain ⟨a, b, rfl⟩ : ∃ a b, e = [a, b] := by
      match e, hel with
      | [a, b], _ => exact ⟨a, b, rfl⟩
    have habc : a + b + 0 ≤ N := by simpa [add_assoc] using hes
    rw [simplexInt2, call_mono2 hs hws a b fun k => (cHat A.r xs ys zs k : ℝ) / A.D]
    refine moments hc (fun k hk => ?_) (fun k hk => ?_) (fun k hk => ?_) (fun k hk => ?_) htd (simplexDen_pos 2)
      (by decide) ht1 hcheck hbound a b 0 habc le_rfl
    · have := insideSimplex_spec (allP_conv A _ ws xs ys zs hin k hk)
      refine ⟨?_, ?_, ?_⟩ <;> omega
    all_goals
      obtain ⟨-, h0, h1, h2, h3⟩ := hpos k hk
      exact ⟨by assumption, by linarith⟩

/-- Rules on cubes are only needed without rounding. -/
theorem cube_exact (hc : Close A 0 ws xs ys zs W u v w) (k : Nat) (hk : k < ws.length) :
    W k = (wHat A ws k : ℝ) / A.E ∧ u k = (cHat A.p xs ys zs k : ℝ) / A.D ∧
      v k = (cHat A.q xs ys zs k : ℝ) / A.D ∧ w k = (cHat A.r xs ys zs k : ℝ) / A.D := by
  have h : ∀ {x y z : ℝ}, |x - y| ≤ ((0 : Nat) : ℝ) / z → x = y := by
    intro x y z h
    rw [Nat.cast_zero, zero_div] at h
    exact sub_eq_zero.mp (abs_eq_zero.mp (le_antisymm h (abs_nonneg _)))
  exact ⟨h (hc.W k hk), h (hc.u k hk), h (hc.v k hk), h (hc.w k hk)⟩

theorem cube_inside (hc : Close A 0 ws xs ys zs W u v w)
    (hin : allP (insideCube A.D) (conv A ws xs ys zs) = true) (k : Nat) (hk : k < ws.length) :
    0 < W k ∧ Unit01 (u k) ∧ Unit01 (v k) ∧ Unit01 (w k) := by
  obtain ⟨e0, e1, e2, e3⟩ := cube_exact hc k hk
  obtain ⟨h0, h1, h2, h3⟩ := insideCube_spec (allP_conv A _ ws xs ys zs hin k hk)
  rw [e0, e1, e2, e3]
  refine ⟨?_, unit01_hat hc.D h1, unit01_hat hc.D h2, unit01_hat hc.D h3⟩
  have := hc.E
  have h0' : (0 : ℝ) < wHat A ws k := by exact_mod_cast h0
  have : (0 : ℝ) < A.E := by exact_mod_cast this
  positivity

theorem tabulated_cube3 (hs : q.nodes.shape = [3, ws.length]) (hws : q.weights.shape = [ws.length])
    (he : q.getExactTo = .ok (.num N)) (hc : Close A 0 ws xs ys zs (ruleW q) (ruleC q 0) (ruleC q 1) (ruleC q 2))
    (hin : allP (insideCube A.D) (conv A ws xs ys zs) = true) (htd : 0 < td) (ht1 : tn ≤ td)
    (hcheck : check (cubeNum 3) cubeDen A.D A.E tn td N N (conv A ws xs ys zs) = true)
    (hbound : (tn : ℝ) / td ≤ 1 / 10 ^ 14) :
    TabulatedRule 3 N (cubeSet 3) q := by
  have hn : q.nnodes = ws.length := by rw [nnodes, hws]; rfl
  have hpos := cube_inside hc hin
  refine ⟨by rw [hn]; exact hs, by rw [hn]; exact hws, he, ?_, ?_, ?_⟩
  · intro k hk; exact (hpos k (by rwa [hn] at hk)).1
  · intro k hk
    obtain ⟨-, ⟨h0, h0'⟩, ⟨h1, h1'⟩, h2, h2'⟩ := hpos k (by rwa [hn] at hk)
    simp only [ruleC] at h0 h1 h2 h0' h1' h2'
    intro i
    fin_cases i
    · show (-1 : ℝ) ≤ q.nodes.get [0, k] ∧ q.nodes.get [0, k] ≤ 1; constructor <;> linarith
    · show (-1 : ℝ) ≤ q.nodes.get [1, k] ∧ q.nodes.get [1, k] ≤ 1; constructor <;> linarith
    · show (-1 : ℝ) ≤ q.nodes.get [2, k] ∧ q.nodes.get [2, k] ≤ 1; constructor <;> linarith
  · refine accurate_of_monomials (isCompact_cubeSet 3) q fun e hel hes => ?_
    obtain ⟨a, b, c, rfl⟩ : ∃ a b c, e = [a, b, c] := by
      match e, hel with
      | [a, b, c], _ => exact ⟨a, b, c, rfl⟩
    have habc : a + b + c ≤ N := by simpa [add_assoc] using hes
    rw [cubeInt3, call_mono3 hs hws]
    refine moments hc (fun k hk => (insideCube_spec (allP_conv A _ ws xs ys zs hin k hk)).2)
      (fun k hk => (hpos k hk).2.1) (fun k hk => (hpos k hk).2.2.1) (fun k hk => (hpos k hk).2.2.2) htd cubeDen_pos
      (by decide) ht1 hcheck (by simpa using hbound) a b c habc (by omega)

theorem tabulated_cube2 (hs : q.nodes.shape = [2, ws.length]) (hws : q.weights.shape = [ws.length])
    (he : q.getExactTo = .ok (.num N)) (hc : Close A 0 ws xs ys zs (ruleW q) (ruleC q 0) (ruleC q 1)
      fun k => (cHat A.r xs ys zs k : ℝ) / A.D)
    (hin : allP (insideCube A.D) (conv A ws xs ys zs) = true) (htd : 0 < td) (ht1 : tn ≤ td)
    (hcheck : check (cubeNum 2) cubeDen A.D A.E tn td N 0 (conv A ws xs ys zs) = true)
    (hbound : (tn : ℝ) / td ≤ 1 / 10 ^ 14) :
    TabulatedRule 2 N (cubeSet 2) q := by
  have hn : q.nnodes = ws.length := by rw [nnodes, hws]; rfl
  have hpos := cube_inside hc hin
  refine ⟨by rw [hn]; exact hs, by rw [hn]; exact hws, he, ?_, ?_, ?_⟩
  · intro k hk; exact (hpos k (by rwa [hn] at hk)).1
  · intro k hk
    obtain ⟨-, ⟨h0, h0'⟩, ⟨h1, h1'⟩, -⟩ := hpos k (by rwa [hn] at hk)
    simp only [ruleC] at h0 h1 h0' h1'
    intro i
    fin_cases i
    · show (-1 : ℝ) ≤ q.nodes.get [0, k] ∧ q.nodes.get [0, k] ≤ 1; constructor <;> linarith
    · show (-1 : ℝ) ≤ q.nodes.get [1, k] ∧ q.nodes.get [1, k] ≤ 1; constructor <;> linarith
  · refine accurate_of_monomials (isCompact_cubeSet 2) q fun e hel hes => ?_
    obtain ⟨a, b, rfl⟩ : ∃ a b, e = [a, b] := by
      match e, hel with
      | [a, b], _ => exact ⟨a, b, rfl⟩
    have habc : a + b + 0 ≤ N := by simpa [add_assoc] using hes
    rw [cubeInt2, call_mono2 hs hws a b fun k => (cHat A.r xs ys zs k : ℝ) / A.D]
    refine moments hc (fun k hk => (insideCube_spec (allP_conv A _ ws xs ys zs hin k hk)).2)
      (fun k hk => (hpos k hk).2.1) (fun k hk => (hpos k hk).2.2.1) (fun k hk => (hpos k hk).2.2.2) htd cubeDen_pos
      (by decide) ht1 hcheck (by simpa using hbound) a b 0 habc le_rfl

end
end Table
end Modepy

import Verif.Props.Convergence
import Verif.Props.KronrodRule

/-!
# Property C84 (continued): the Gauss-Kronrod rules converge for every continuous integrand
-/

namespace Modepy
open Spec Polynomial MeasureTheory

theorem listDot_map (f : ℝ → ℝ) : ∀ (l v : List ℝ), l.length = v.length →
    listDot (l.map f) v = ((List.range l.length).map fun k => v.getD k 0 * f (l.getD k 0)).sum
  | [], [], _ => by simp [listDot]
  | a :: l, b :: v, h => by
    have := listDot_map f l v (by simpa using h)
    rw [listDot] at this ⊢
    rw [List.map_cons, List.zipWith_cons_cons, List.sum_cons, this, List.length_cons, List.range_succ_eq_map, List.map_cons,
      List.sum_cons, List.map_map]
    simp only [List.getD_cons_zero, Function.comp_def, List.getD_cons_succ, mul_comm]

theorem listDot_append (a b v w : List ℝ) (h : a.length = v.length) :
    listDot (a ++ b) (v ++ w) = listDot a v + listDot b w := by
  rw [listDot, List.zipWith_append h, List.sum_append]
  rfl

/-- **C84 (Gauss-Kronrod rules).**  For every order at least one the rule with `2n + 1` nodes exists, its error on a continuous
function is at most four times the distance of the function to the polynomials of degree `3n + 1`, and so the values tend to the
integral. -/
theorem C84_kronrod (eigvalsh : Eigvalsh) (he : EigvalshOk eigvalsh) :
    (∀ n, 1 ≤ n → ∃ q, makeKronrodQuadrature eigvalsh n = .ok q ∧
      ∀ f, ContinuousOn f (Set.Icc (-1) 1) → ∀ p : ℝ[X], p.natDegree ≤ 3 * n + 1 →
        ∀ ε, (∀ t ∈ Set.Icc (-1 : ℝ) 1, |p.eval t - f t| ≤ ε) → |q.call f - ∫ t in (-1)..1, f t| ≤ 4 * ε) ∧
    ∀ f, ContinuousOn f (Set.Icc (-1) 1) → ∀ ε > 0, ∃ n₀, ∀ n ≥ n₀, ∃ q, makeKronrodQuadrature eigvalsh n = .ok q ∧
      |q.call f - ∫ t in (-1)..1, f t| < ε := by
  have main : ∀ n, 1 ≤ n → ∃ q, makeKronrodQuadrature eigvalsh n = .ok q ∧
      ∀ f, ContinuousOn f (Set.Icc (-1) 1) → ∀ p : ℝ[X], p.natDegree ≤ 3 * n + 1 →
        ∀ ε, (∀ t ∈ Set.Icc (-1 : ℝ) 1, |p.eval t - f t| ≤ ε) → |q.call f - ∫ t in (-1)..1, f t| ≤ 4 * ε := by
    intro n hn
    obtain ⟨q, hq, -, hex, hpoly, hw1, hw2, hw3, -, hnodes, ⟨l1, l2, l3⟩, -⟩ := C68_rule eigvalsh he hn
    refine ⟨q, hq, fun f hf p hp ε hε => ?_⟩
    have l4 : q.gaussQuadrature.nodes.toList1.length = n := by
      have h := hq
      rw [makeKronrodQuadrature] at h
      obtain ⟨X, W, G, -, -, -, -, -, -, -, h8, -⟩ := kronrod_facts eigvalsh he hn
      rw [h8] at h
      obtain rfl := Except.ok.inj h
      exact (C53_assembly (𝕜 := ℝ) (V := ℝ) n ((List.range (n + 1)).map X) ((List.range (n + 1)).map fun j => W (X j))
        ((List.range ((n + 1) / 2)).map fun i => G (X (1 + 2 * i))) (by simp) (by simp) (by simp)).1.2.2.1
    set l := q.gaussQuadrature.nodes.toList1 ++ q.nodes with hl
    set v := q.weightsAtGaussNodes ++ q.weights with hv
    have hlen : l.length = v.length := by simp [hl, hv, l1, l2, l3, l4]
    have hcall : ∀ g : ℝ → ℝ, q.call g = ((List.range l.length).map fun k => v.getD k 0 * g (l.getD k 0)).sum := by
      intro g
      rw [← listDot_map g l v hlen, hl, List.map_append, hv, listDot_append _ _ _ _ (by simp [l3, l4])]
      rfl
    have hget : ∀ (u : List ℝ) (k : Nat), k < u.length → u.getD k 0 ∈ u := by
      intro u k hk
      rw [List.getD_eq_getElem?_getD, List.getElem?_eq_getElem hk]
      exact List.getElem_mem hk
    have := weighted_near (fun _ => 1) (by simp) (fun _ _ => zero_le_one) (3 * n + 1) l.length (fun k => v.getD k 0)
      (fun k => l.getD k 0) (fun k hk => by
        have := hget v k (by omega)
        rcases List.mem_append.1 this with h | h
        · exact (hw2 _ h).le
        · exact (hw1 _ h).le) (fun k hk => by
        have h := hnodes (l.getD k 0) (by
          have := hget l k hk
          rw [hl, List.mem_append] at this
          rw [List.mem_append]
          exact this.symm)
        exact ⟨h.1.le, h.2.le⟩) (fun p hp => by
          rw [← hcall (fun t => p.eval t), hpoly p (by omega)]
          simp) f hf p hp ε hε
    rw [← hcall f] at this
    simp only [mul_one] at this
    norm_num at this
    exact this
  refine ⟨main, fun f hf ε hε => ?_⟩
  obtain ⟨p, hp⟩ := exists_polynomial_near_of_continuousOn (-1) 1 f hf (ε / 5) (by positivity)
  refine ⟨p.natDegree + 1, fun n hn => ?_⟩
  obtain ⟨q, hq, h⟩ := main n (by omega)
  refine ⟨q, hq, lt_of_le_of_lt (h f hf p (by omega) _ fun t ht => (hp t ht).le) ?_⟩
  linarith

/-- The hypotheses hold for the exact eigenvalue solver and the absolute value, which is no polynomial. -/
example : (∃ e, EigvalshOk e) ∧ ContinuousOn (fun t : ℝ => |t|) (Set.Icc (-1) 1) := ⟨exists_eigvalshOk, by fun_prop⟩

end Modepy

import Verif.Model.Monomial
import Verif.Spec.Calculus
import Mathlib.Analysis.Calculus.Deriv.Pow
import Mathlib.Analysis.Calculus.Deriv.Mul
import Mathlib.Analysis.Calculus.Deriv.Add

/-!
# Property C17: monomials and their derivatives
-/

namespace Modepy
open Spec

theorem product_eq_prod (l : List ℝ) : product l = l.prod := by
  have : ∀ (l : List ℝ) (a : ℝ), l.foldl (· * ·) a = a * l.prod := by
    intro l
    induction l with
    | nil => intro a; simp
    | cons b l ih => intro a; rw [List.foldl_cons, ih, List.prod_cons, mul_assoc]
  show l.foldl (· * ·) 1 = _
  rw [this, one_mul]

/-- The value `∏ᵢ xᵢ ^ oᵢ`. -/
noncomputable def Spec.monomialValue (order : List Nat) (x : List ℝ) : ℝ :=
  (List.zipWith (fun o r => r ^ o) order x).prod

/-- **C17 (values).** -/
theorem C17_value (order : List Nat) (x : List ℝ) (h : order.length = x.length) :
    monomial order x = .ok (monomialValue order x) := by
  simp only [monomial, h, ne_eq, not_true, if_false, product_eq_prod]
  rfl

/-- A wrong number of coordinates is rejected by all three functions. -/
theorem C17_length_mismatch (order : List Nat) (x : List ℝ) (k : Nat) (h : order.length ≠ x.length) :
    monomial order x = .error .AssertionError ∧ gradMonomial order x = .error .AssertionError ∧
      diffMonomial order k x = .error .AssertionError := by
  simp [monomial, gradMonomial, diffMonomial, h]

theorem diffMonomial1d_eq (r : ℝ) (o : Nat) : diffMonomial1d r o = o * r ^ (o - 1) := by
  unfold diffMonomial1d
  split
  · subst_vars; show (0 : ℝ) * r = _; simp
  · split
    · subst_vars; show (1 : ℝ) + 0 * r = _; simp
    · rfl

/-- Factors with start index. -/
noncomputable def dfac (k axis : Nat) (order : List Nat) (x : List ℝ) : List ℝ :=
  ((List.zip order x).zipIdx k).map fun ((o, r), i) =>
    if axis = i then diffMonomial1d r o else Duck.npow r o

theorem dfac_cons (k axis o : Nat) (order : List Nat) (r : ℝ) (x : List ℝ) :
    dfac k axis (o :: order) (r :: x) =
      (if axis = k then diffMonomial1d r o else r ^ o) :: dfac (k + 1) axis order x := rfl

theorem dfac_prod_lt (order : List Nat) (x : List ℝ) : ∀ (k axis : Nat), axis < k →
    (dfac k axis order x).prod = monomialValue order x := by
  induction order generalizing x with
  | nil => intros; simp [dfac, monomialValue]
  | cons o order ih =>
    cases x with
    | nil => intros; simp [dfac, monomialValue]
    | cons r x =>
      intro k axis h
      rw [dfac_cons, if_neg (by omega), List.prod_cons, ih x (k + 1) axis (by omega)]
      simp [monomialValue]

theorem hasDerivAt_monomial (order : List Nat) (x : List ℝ) (h : order.length = x.length) :
    ∀ (k j : Nat), j < order.length →
    HasDerivAt (fun t => monomialValue order (x.set j t)) (dfac k (k + j) order x).prod
      (x.getD j 0) := by
  induction order generalizing x with
  | nil => intro k j hj; simp at hj
  | cons o order ih =>
    cases x with
    | nil => simp at h
    | cons r x =>
      intro k j hj
      cases j with
      | zero =>
        simp only [List.set_cons_zero, Nat.add_zero, List.getD_cons_zero]
        rw [dfac_cons, if_pos rfl, List.prod_cons, dfac_prod_lt order x (k + 1) k (by omega),
          diffMonomial1d_eq]
        have : (fun t : ℝ => monomialValue (o :: order) (t :: x)) =
            fun t => t ^ o * monomialValue order x := by
          funext t; simp [monomialValue]
        rw [this]
        exact (hasDerivAt_pow o r).mul_const _
      | succ j =>
        simp only [List.set_cons_succ, List.getD_cons_succ]
        rw [dfac_cons, if_neg (by omega), List.prod_cons]
        have : (fun t : ℝ => monomialValue (o :: order) (r :: x.set j t)) =
            fun t => r ^ o * monomialValue order (x.set j t) := by
          funext t; simp [monomialValue]
        rw [this]
        have := ih x (by simpa using h) (k + 1) j (by simpa using hj)
        rw [show k + 1 + j = k + (j + 1) by omega] at this
        exact this.const_mul _

/-- **C17 (gradient).**  `grad_monomial` lists the partial derivatives of the monomial at every
point. -/
theorem C17_gradient (order : List Nat) (x : List ℝ) (h : order.length = x.length) :
    ∃ g, gradMonomial order x = .ok g ∧ IsGradientAt order.length (monomialValue order) x g := by
  refine ⟨(List.range order.length).map fun j => (dfac 0 j order x).prod, ?_, by simp, ?_⟩
  · simp only [gradMonomial, h, ne_eq, not_true, if_false, product_eq_prod]
    rfl
  · intro j hj
    have := hasDerivAt_monomial order x h 0 j hj
    rw [Nat.zero_add] at this
    simpa [List.getD_eq_getElem?_getD, List.getElem?_range hj] using this

/-- **C17 (single axis).**  `diff_monomial` along an axis is that entry of `grad_monomial`, hence the
partial derivative. -/
theorem C17_diff_eq_grad (order : List Nat) (x : List ℝ) (h : order.length = x.length) (k : Nat)
    (hk : k < order.length) :
    ∃ g, gradMonomial order x = .ok g ∧ diffMonomial order k x = .ok (g.getD k 0) ∧
      HasDerivAt (fun t => monomialValue order (x.set k t)) (g.getD k 0) (x.getD k 0) := by
  obtain ⟨g, hg, hlen, hd⟩ := C17_gradient order x h
  refine ⟨g, hg, ?_, hd k hk⟩
  have : g = (List.range order.length).map fun j => product (diffFactors j order x) := by
    simp only [gradMonomial, h, ne_eq, not_true, if_false] at hg
    injection hg with hg
    rw [← hg, h]
  rw [this]
  simp [diffMonomial, h, List.getD_eq_getElem?_getD, List.getElem?_range (h ▸ hk)]

/-- A boundary of the claim: for an axis that does not exist `diff_monomial` raises nothing and
returns the undifferentiated monomial. -/
theorem C17_diff_axis_out_of_range (order : List Nat) (x : List ℝ) (h : order.length = x.length)
    (k : Nat) (hk : order.length ≤ k) :
    diffMonomial order k x = .ok (monomialValue order x) := by
  have : ∀ (order : List Nat) (x : List ℝ) (s k : Nat), order.length + s ≤ k →
      (dfac s k order x).prod = monomialValue order x := by
    intro order
    induction order with
    | nil => intros; simp [dfac, monomialValue]
    | cons o order ih =>
      intro x s k hk
      cases x with
      | nil => simp [dfac, monomialValue]
      | cons r x =>
        simp only [List.length_cons] at hk
        rw [dfac_cons, if_neg (by omega), List.prod_cons, ih x (s + 1) k (by omega)]
        simp [monomialValue]
  simp only [diffMonomial, h, ne_eq, not_true, if_false, product_eq_prod]
  exact congrArg Except.ok (this order x 0 k (by omega))

/-- Non-vacuity: `d/dy (x² y³)` at `(2, 1)`. -/
example : ∃ g, gradMonomial [2, 3] ([2, 1] : List ℝ) = .ok g ∧ g.length = 2 :=
  (C17_gradient [2, 3] [2, 1] rfl).imp fun _ h => ⟨h.1, h.2.1⟩

end Modepy

import Verif.Model.ExactTo
import Mathlib.Order.WithBot
import Mathlib.Algebra.Order.Monoid.WithTop
import Mathlib.Data.Rat.Cast.Order

/-!
# Property C37: the order of `exact_to` values
-/

namespace Modepy

/-- What the values mean: finite numbers and infinity. -/
def Spec.exactValue : PyVal → WithTop ℚ
  | .num q => q
  | _ => ⊤

/-- A finite number or the `_Inf` sentinel. -/
def Spec.IsExact : PyVal → Prop
  | .num _ | .inf => True
  | _ => False

open Spec

/-- **C37 (comparisons).**  On finite numbers and `_Inf` all four comparison operators, in either
operand order, never raise and agree with the order of `ℚ ∪ {∞}`. -/
theorem C37_order (a b : PyVal) (ha : IsExact a) (hb : IsExact b) :
    pyCmp .lt a b = .ok (decide (exactValue a < exactValue b)) ∧
    pyCmp .le a b = .ok (decide (exactValue a ≤ exactValue b)) ∧
    pyCmp .gt a b = .ok (decide (exactValue b < exactValue a)) ∧
    pyCmp .ge a b = .ok (decide (exactValue b ≤ exactValue a)) ∧
    pyEq a b = decide (exactValue a = exactValue b) := by
  cases a <;> cases b <;> simp [IsExact] at ha hb <;>
    simp [pyCmp, dunder, infCmp, numCmp, exactValue, PyVal.isNumber, PyVal.isNpInf, CmpOp.refl, pyEq]

/-- **C37 (minimum).**  `min` over finite numbers and `_Inf`s never raises on a nonempty list; the
result is a member and at most every member. -/
theorem C37_min (l : List PyVal) (hne : l ≠ []) (h : ∀ a ∈ l, IsExact a) :
    ∃ m, pyMin l = .ok m ∧ m ∈ l ∧ ∀ a ∈ l, exactValue m ≤ exactValue a := by
  have key : ∀ (xs : List PyVal) (c : PyVal), IsExact c → (∀ a ∈ xs, IsExact a) →
      ∃ m, pyMinFrom c xs = .ok m ∧ m ∈ c :: xs ∧ ∀ a ∈ c :: xs, exactValue m ≤ exactValue a := by
    intro xs
    induction xs with
    | nil => intro c _ _; exact ⟨c, rfl, by simp, by simp⟩
    | cons x xs ih =>
      intro c hc hx
      have h1 := (C37_order x c (hx x (by simp)) hc).1
      rw [pyMinFrom, h1]
      by_cases hlt : exactValue x < exactValue c
      · rw [decide_eq_true hlt]
        obtain ⟨m, hm, hmem, hle⟩ := ih x (hx x (by simp)) fun a ha => hx a (by simp [ha])
        refine ⟨m, hm, List.mem_cons_of_mem _ hmem, ?_⟩
        intro a ha
        rcases List.mem_cons.1 ha with rfl | ha
        · exact (hle x (by simp)).trans hlt.le
        · exact hle a ha
      · rw [decide_eq_false hlt]
        obtain ⟨m, hm, hmem, hle⟩ := ih c hc fun a ha => hx a (by simp [ha])
        refine ⟨m, hm, ?_, ?_⟩
        · rcases List.mem_cons.1 hmem with rfl | hmem <;> simp [*]
        · intro a ha
          rcases List.mem_cons.1 ha with rfl | ha
          · exact hle a (by simp)
          · rcases List.mem_cons.1 ha with rfl | ha
            · exact (hle c (by simp)).trans (not_lt.1 hlt)
            · exact hle a (by simp [ha])
  cases l with
  | nil => exact absurd rfl hne
  | cons x xs => exact key xs x (h x (by simp)) fun a ha => h a (by simp [ha])

/-- Adding a finite number on the right keeps infinity; adding it on the left raises. -/
theorem C37_add (q : ℚ) : infAdd (.num q) = .ok .inf ∧ addInf (.num q) = .error .TypeError := ⟨rfl, rfl⟩

/-- Outside the claim: the sentinel and float infinities (`ZeroDimensionalQuadrature` has
`exact_to = np.inf`) cannot be ordered consistently.  Three of the four comparisons raise, `<=` answers
`False`, from the other side `>=` answers `False` as well, and the values are unequal. -/
theorem C37_float_inf :
    pyCmp .lt .inf .posInf = .error .TypeError ∧ pyCmp .gt .inf .posInf = .error .TypeError ∧
    pyCmp .ge .inf .posInf = .error .TypeError ∧ pyCmp .le .inf .posInf = .ok false ∧
    pyCmp .ge .posInf .inf = .ok false ∧ pyEq .inf .posInf = false ∧
    pyMin [.inf, .posInf] = .error .TypeError ∧ infHash = .error .TypeError ∧
    infIndex = .error .ValueError := by
  decide

example : pyMin [.inf, .num 5, .num 3, .inf] = .ok (.num 3) := by decide

end Modepy

import Verif.Spec.Functional
import Verif.Spec.Calculus
import Mathlib.Tactic.Ring
import Mathlib.Algebra.BigOperators.Group.List.Basic

namespace Modepy
open Spec

theorem slices_append {α : Type*} (d : Nat) (ds : List Nat) (x y : List α) (hx : x.length = d) :
    slices (d :: ds) (x ++ y) = x :: slices ds y := by
  simp [slices, ← hx]

theorem iterated_congr : ∀ (dims : List Nat) (Is : List ((List ℝ → ℝ) → ℝ)),
    List.Forall₂ IsFunctional dims Is → ∀ F G : List ℝ → ℝ,
    (∀ x : List ℝ, x.length = dims.sum → F x = G x) → iterated Is F = iterated Is G := by
  intro dims Is h
  induction h with
  | nil => intro F G h; exact h [] rfl
  | @cons d I dims Is hI _ ih =>
    intro F G h
    simp only [iterated]
    apply hI.congr
    intro x hx
    apply ih
    intro y hy
    exact h _ (by simp [hx, hy])

/-- Applied to a product function, the product functional is the product of the functionals. -/
theorem iterated_product : ∀ (dims : List Nat) (Is : List ((List ℝ → ℝ) → ℝ)),
    List.Forall₂ IsFunctional dims Is → ∀ (Fs : List (List ℝ → ℝ)), Fs.length = dims.length →
    iterated Is (fun x => (List.zipWith (fun F z => F z) Fs (slices dims x)).prod) =
      (List.zipWith (fun (I : (List ℝ → ℝ) → ℝ) F => I F) Is Fs).prod := by
  intro dims Is h
  induction h with
  | nil => intro Fs hF; cases Fs with
    | nil => simp [iterated, slices]
    | cons => simp at hF
  | @cons d I dims Is hI hrest ih =>
    intro Fs hF
    cases Fs with
    | nil => simp at hF
    | cons F Fs =>
      simp only [iterated, List.zipWith_cons_cons, List.prod_cons]
      rw [← ih Fs (by simpa using hF), ← hI.smul]
      apply hI.congr
      intro x hx
      have hc : ∀ (dims : List Nat) (Is : List ((List ℝ → ℝ) → ℝ)),
          List.Forall₂ IsFunctional dims Is → ∀ (F : List ℝ → ℝ) (c : ℝ),
          iterated Is (fun y => c * F y) = c * iterated Is F := by
        intro dims Is h
        induction h with
        | nil => intro F c; rfl
        | @cons d I dims Is hI _ ih =>
          intro F c
          simp only [iterated]
          rw [mul_comm, ← hI.smul]
          congr 1
          funext x
          rw [ih, mul_comm]
      rw [← hc dims Is hrest]
      congr 1
      funext y
      rw [slices_append d dims x y hx]
      simp

end Modepy

import Verif.Props.Matrices
import Verif.Props.Monomials
import Verif.Proofs.Pytools
import Mathlib.RingTheory.Polynomial.Pochhammer
import Mathlib.Algebra.Polynomial.Eval.Degree
import Mathlib.Algebra.Polynomial.Degree.Lemmas
import Mathlib.Algebra.Order.BigOperators.Group.List

/-!
# Monomials on affine images of lower sets of multi-indices are unisolvent
-/

namespace Modepy
open Spec Matrix Polynomial

/-- The point with multi-index `t` of a grid with per-axis step and origin. -/
noncomputable def gridPoint (axes : List (ℝ × ℝ)) (t : List Nat) : List ℝ :=
  List.zipWith (fun ab (i : Nat) => ab.1 * (i : ℝ) + ab.2) axes t

/-- Falling factorial of degree `k` in the grid coordinate, as a polynomial in the point
coordinate. -/
noncomputable def fallPoly (ab : ℝ × ℝ) (k : Nat) : ℝ[X] :=
  (descPochhammer ℝ k).comp (C ab.1⁻¹ * (X - C ab.2))

theorem natDegree_fallPoly (ab : ℝ × ℝ) (k : Nat) : (fallPoly ab k).natDegree ≤ k := by
  unfold fallPoly
  refine natDegree_comp_le.trans ?_
  rw [descPochhammer_natDegree]
  have : (C ab.1⁻¹ * (X - C ab.2)).natDegree ≤ 1 := by
    refine (natDegree_C_mul_le _ _).trans ?_
    simp
  calc k * _ ≤ k * 1 := Nat.mul_le_mul_left _ this
    _ = k := by simp

theorem eval_fallPoly (ab : ℝ × ℝ) (h : ab.1 ≠ 0) (k t : Nat) :
    (fallPoly ab k).eval (ab.1 * (t : ℝ) + ab.2) = (t.descFactorial k : ℝ) := by
  simp only [fallPoly, eval_comp, eval_mul, eval_C, eval_sub, eval_X]
  rw [← descPochhammer_eval_eq_descFactorial]
  congr 1
  field_simp
  ring

/-- Coefficient of the monomial `γ` in the product of falling factorials `β`. -/
noncomputable def fallCoeff : List (ℝ × ℝ) → List Nat → List Nat → ℝ
  | ab :: axes, k :: β, l :: γ => (fallPoly ab k).coeff l * fallCoeff axes β γ
  | [], [], [] => 1
  | _, _, _ => 0

noncomputable def fallValue : List (ℝ × ℝ) → List Nat → List ℝ → ℝ
  | ab :: axes, k :: β, r :: x => (fallPoly ab k).eval r * fallValue axes β x
  | _, _, _ => 1

theorem sum_flatMap_map {α β : Type*} (l : List α) (f : α → List β) (g : β → ℝ) :
    ((l.flatMap f).map g).sum = (l.map fun a => ((f a).map g).sum).sum := by
  induction l with
  | nil => simp
  | cons a l ih => simp [List.flatMap_cons, ih]

theorem fall_expand (axes : List (ℝ × ℝ)) : ∀ (β : List Nat) (x : List ℝ),
    β.length = axes.length → x.length = axes.length →
    ((Pytools.gnitb (β.map (· + 1))).map fun γ => fallCoeff axes β γ * monomialValue γ x).sum =
      fallValue axes β x := by
  induction axes with
  | nil =>
    intro β x hβ hx
    obtain rfl := List.length_eq_zero_iff.1 hβ
    obtain rfl := List.length_eq_zero_iff.1 hx
    simp [Pytools.gnitb, fallCoeff, fallValue, monomialValue]
  | cons ab axes ih =>
    intro β x hβ hx
    cases β with
    | nil => simp at hβ
    | cons k β =>
      cases x with
      | nil => simp at hx
      | cons r x =>
        have ih' := ih β x (by simpa using hβ) (by simpa using hx)
        simp only [List.map_cons, Pytools.gnitb, sum_flatMap_map, List.map_map]
        have : ∀ i, ((Pytools.gnitb (β.map (· + 1))).map
            ((fun γ => fallCoeff (ab :: axes) (k :: β) γ * monomialValue γ (r :: x)) ∘ (i :: ·))).sum =
            (fallPoly ab k).coeff i * r ^ i * fallValue axes β x := by
          intro i
          rw [← ih', ← List.sum_map_mul_left]
          congr 1
          apply List.map_congr_left
          intro γ _
          simp only [Function.comp, fallCoeff, monomialValue, List.zipWith_cons_cons, List.prod_cons]
          ring
        simp only [this]
        rw [List.sum_map_mul_right, fallValue]
        congr 1
        rw [eval_eq_sum_range' (n := k + 1) (by have := natDegree_fallPoly ab k; omega)]
        rw [Finset.sum_range]
        rw [← List.sum_ofFn]
        congr 1
        rw [List.ofFn_eq_map, ← List.map_coe_finRange_eq_range, List.map_map]
        rfl

/-- Value of the product of falling factorials at a grid point. -/
def fallAt (t β : List Nat) : Nat := (List.zipWith Nat.descFactorial t β).prod

theorem fallValue_gridPoint (axes : List (ℝ × ℝ)) (ha : ∀ ab ∈ axes, ab.1 ≠ 0) : ∀ (β t : List Nat),
    β.length = axes.length → t.length = axes.length →
    fallValue axes β (gridPoint axes t) = (fallAt t β : ℝ) := by
  induction axes with
  | nil =>
    intro β t hβ ht
    obtain rfl := List.length_eq_zero_iff.1 hβ
    obtain rfl := List.length_eq_zero_iff.1 ht
    simp [fallValue, fallAt]
  | cons ab axes ih =>
    intro β t hβ ht
    cases β with
    | nil => simp at hβ
    | cons k β =>
      cases t with
      | nil => simp at ht
      | cons i t =>
        simp only [gridPoint, List.zipWith_cons_cons, fallValue, fallAt, List.prod_cons, Nat.cast_mul]
        rw [eval_fallPoly ab (ha ab (by simp))]
        congr 1
        exact ih (fun ab h => ha ab (by simp [h])) β t (by simpa using hβ) (by simpa using ht)

theorem fallAt_self_ne (t : List Nat) : fallAt t t ≠ 0 := by
  unfold fallAt
  rw [Ne, List.prod_eq_zero_iff]
  induction t with
  | nil => simp
  | cons i t ih =>
    simp only [List.zipWith_cons_cons, List.mem_cons, not_or]
    refine ⟨?_, ih⟩
    rw [Nat.descFactorial_self]
    exact (Nat.factorial_pos i).ne

theorem fallAt_eq_zero (t β : List Nat) (hl : β.length = t.length) (hne : β ≠ t)
    (hs : t.sum ≤ β.sum) : fallAt t β = 0 := by
  by_contra hc
  have hle : ∀ (t β : List Nat), β.length = t.length → fallAt t β ≠ 0 →
      List.Forall₂ (· ≤ ·) β t := by
    intro t
    induction t with
    | nil => intro β hl _; obtain rfl := List.length_eq_zero_iff.1 hl; exact .nil
    | cons i t ih =>
      intro β hl h
      cases β with
      | nil => simp at hl
      | cons k β =>
        simp only [fallAt, List.zipWith_cons_cons, List.prod_cons, ne_eq, mul_eq_zero, not_or] at h
        refine .cons ?_ (ih β (by simpa using hl) h.2)
        by_contra hk
        exact h.1 (Nat.descFactorial_eq_zero_iff_lt.2 (by omega))
  have hf := hle t β hl hc
  have key : ∀ (β t : List Nat), List.Forall₂ (· ≤ ·) β t → β.sum ≤ t.sum ∧ (t.sum ≤ β.sum → β = t) := by
    intro β t h
    induction h with
    | nil => simp
    | @cons a b as bs hab _ ih =>
      simp only [List.sum_cons]
      refine ⟨by omega, fun h => ?_⟩
      obtain rfl : a = b := by omega
      rw [ih.2 (by omega)]
  exact hne ((key β t hf).2 hs)

/-- Every tuple below a member is a member. -/
def LowerSet' (T : List (List Nat)) : Prop :=
  ∀ t ∈ T, ∀ s : List Nat, List.Forall₂ (· ≤ ·) s t → s ∈ T

theorem mem_gnitb_succ (β γ : List Nat) :
    γ ∈ Pytools.gnitb (β.map (· + 1)) ↔ List.Forall₂ (· ≤ ·) γ β := by
  rw [Pytools.mem_gnitb]
  induction β generalizing γ with
  | nil => cases γ <;> simp
  | cons k β ih =>
    cases γ with
    | nil => simp
    | cons l γ => simp [ih, Nat.lt_succ_iff]

theorem nodup_gnitb (ns : List Nat) : (Pytools.gnitb ns).Nodup := by
  induction ns with
  | nil => simp [Pytools.gnitb]
  | cons n ns ih =>
    rw [Pytools.gnitb, List.nodup_flatMap]
    refine ⟨fun i _ => ih.map fun a b h => by simpa using h, ?_⟩
    apply List.Pairwise.imp_of_mem _ List.nodup_range
    intro i j _ _ hij
    simp only [Function.onFun, List.disjoint_left, List.mem_map]
    rintro t ⟨a, _, rfl⟩ ⟨b, _, h⟩
    exact hij (by simpa using (List.cons.inj h).1.symm)

open Classical in
theorem sum_fin_eq_gnitb (T : List (List Nat)) (hn : T.Nodup) (hlow : LowerSet' T) (β : List Nat)
    (hβ : β ∈ T) (f : List Nat → ℝ) :
    ∑ j : Fin T.length, (if List.Forall₂ (· ≤ ·) T[j] β then f T[j] else 0) =
      ((Pytools.gnitb (β.map (· + 1))).map f).sum := by
  have h1 : ∑ j : Fin T.length, (if List.Forall₂ (· ≤ ·) T[j] β then f T[j] else 0) =
      (T.map fun γ => if List.Forall₂ (· ≤ ·) γ β then f γ else 0).sum := by
    rw [← List.sum_ofFn]
    congr 1
    apply List.ext_getElem <;> simp
  rw [h1]
  have h2 : (T.map fun γ => if List.Forall₂ (· ≤ ·) γ β then f γ else 0).sum =
      ((T.filter fun γ => decide (List.Forall₂ (· ≤ ·) γ β)).map f).sum := by
    clear h1 hn hlow hβ
    induction T with
    | nil => simp
    | cons a T ih =>
      by_cases h : List.Forall₂ (· ≤ ·) a β <;> simp [List.filter_cons, h, ih]
  rw [h2]
  apply List.Perm.sum_eq
  apply List.Perm.map
  rw [List.perm_ext_iff_of_nodup (hn.filter _) (nodup_gnitb _)]
  intro γ
  rw [mem_gnitb_succ, List.mem_filter]
  simp only [decide_eq_true_eq, and_iff_right_iff_imp]
  exact hlow β hβ γ

/-- The key fact: on the affine image of a lower set, the monomials of the same set are
unisolvent. -/
theorem unisolvent_grid (axes : List (ℝ × ℝ)) (ha : ∀ ab ∈ axes, ab.1 ≠ 0) (T : List (List Nat))
    (hlen : ∀ t ∈ T, t.length = axes.length) (hn : T.Nodup) (hlow : LowerSet' T) :
    Unisolvent (fun (j : Fin T.length) => monomialValue T[j])
      (fun (i : Fin T.length) => gridPoint axes T[i]) := by
  classical
  rw [unisolvent_iff_det]
  set V := vandermonde (fun (j : Fin T.length) => monomialValue T[j])
      (fun (i : Fin T.length) => gridPoint axes T[i]) with hV
  let C : Matrix (Fin T.length) (Fin T.length) ℝ := Matrix.of fun j b =>
    if List.Forall₂ (· ≤ ·) T[j] T[b] then fallCoeff axes T[b] T[j] else 0
  have hVC : ∀ i b, (V * C) i b = (fallAt T[i] T[b] : ℝ) := by
    intro i b
    rw [← fallValue_gridPoint axes ha T[b] T[i] (hlen _ (by simp)) (hlen _ (by simp)),
      ← fall_expand axes T[b] _ (hlen _ (by simp)) (by have := hlen T[i] (by simp); simp only [gridPoint, List.length_zipWith]; omega),
      ← sum_fin_eq_gnitb T hn hlow T[b] (by simp)
        (fun γ => fallCoeff axes T[b] γ * monomialValue γ (gridPoint axes T[i])), Matrix.mul_apply]
    refine Finset.sum_congr rfl fun j _ => ?_
    simp only [hV, vandermonde, C, of_apply]
    split
    · ring
    · simp
  have hdet : (V * C).det ≠ 0 := by
    rw [ne_eq, ← Matrix.exists_mulVec_eq_zero_iff]
    rintro ⟨c, hc, hz⟩
    apply hc
    have key : ∀ s, ∀ b : Fin T.length, T[b].sum = s → c b = 0 := by
      intro s
      induction s using Nat.strong_induction_on with
      | _ s ih =>
        intro b hb
        have h0 := congrFun hz b
        simp only [Matrix.mulVec, dotProduct, hVC, Pi.zero_apply] at h0
        rw [Finset.sum_eq_single b] at h0
        · rcases mul_eq_zero.1 h0 with h | h
          · exact absurd (by exact_mod_cast h) (fallAt_self_ne T[b])
          · exact h
        · intro b' _ hne
          by_cases hs : T[b'].sum < s
          · rw [ih _ hs b' rfl, mul_zero]
          · rw [fallAt_eq_zero T[b] T[b'] ?_ ?_ (by omega)]
            · simp
            · rw [hlen _ (by simp), hlen _ (by simp)]
            · intro h
              exact hne (Fin.ext ((hn.getElem_inj_iff).1 h))
        · simp
    exact funext fun b => key _ b rfl
  intro hd
  exact hdet (by rw [det_mul, hd, zero_mul])

end Modepy

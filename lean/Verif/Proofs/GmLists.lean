import Verif.Model.GrundmannMoeller
import Mathlib.Data.List.Nodup
import Mathlib.Data.List.Perm.Basic
import Mathlib.Data.List.Sort
import Mathlib.Algebra.BigOperators.Group.List.Basic
import Mathlib.Tactic.Ring
import Mathlib.Data.Fintype.BigOperators

/-!
# The tuples visited by the Grundmann–Möller construction, and its dictionary
-/

namespace Modepy
open Pytools

theorem mem_decreasingTuples (len : Nat) : ∀ (n mx : Nat) (t : List Nat),
    t ∈ decreasingTuples n (len + 1) mx ↔
      t.length = len + 1 ∧ t.sum = n ∧ t.Pairwise (· ≥ ·) ∧ ∀ x ∈ t, x ≤ mx := by
  induction len with
  | zero =>
    intro n mx t
    rw [decreasingTuples]
    constructor
    · split_ifs with h
      · intro ht
        rw [List.mem_singleton] at ht
        subst ht
        simp [h]
      · simp
    · rintro ⟨hl, hs, -, hm⟩
      obtain ⟨a, rfl⟩ := List.length_eq_one_iff.1 hl
      simp only [List.sum_cons, List.sum_nil, Nat.add_zero, List.mem_singleton, forall_eq] at hs hm
      rw [if_pos (by omega), hs]
      simp
  | succ len ih =>
    intro n mx t
    rw [decreasingTuples]
    simp only [List.mem_flatMap, List.mem_range, List.mem_map, ih]
    constructor
    · rintro ⟨i, hi, u, ⟨hl, hs, hp, hm⟩, rfl⟩
      refine ⟨by simp [hl], by simp [hs]; omega, List.pairwise_cons.2 ⟨fun x hx => hm x hx, hp⟩, ?_⟩
      intro x hx
      rcases List.mem_cons.1 hx with rfl | hx
      · omega
      · have := hm x hx; omega
    · rintro ⟨hl, hs, hp, hm⟩
      match t, hl with
      | i :: u, hl =>
        rw [List.pairwise_cons] at hp
        rw [List.sum_cons] at hs
        have := hm i (by simp)
        refine ⟨i, by omega, u, ⟨by simpa using hl, by omega, hp.2, fun x hx => hp.1 x hx⟩, rfl⟩

theorem nodup_decreasingTuples (len : Nat) : ∀ (n mx : Nat), (decreasingTuples n (len + 1) mx).Nodup := by
  induction len with
  | zero =>
    intro n mx
    rw [decreasingTuples]
    split_ifs <;> simp
  | succ len ih =>
    intro n mx
    rw [decreasingTuples, List.nodup_flatMap]
    refine ⟨fun i _ => (ih _ _).map (List.cons_injective), ?_⟩
    refine (List.nodup_range).imp_of_mem ?_
    intro i j _ _ hij
    simp only [Function.onFun, List.disjoint_left]
    intro t h1 h2
    rw [List.mem_map] at h1 h2
    obtain ⟨u, -, rfl⟩ := h1
    obtain ⟨v, -, h⟩ := h2
    injection h with h _
    exact hij h.symm

theorem mem_permutations {α : Type} : ∀ (l p : List α), p ∈ permutations l ↔ p.Perm l := by
  intro l
  induction l with
  | nil => intro p; simp [permutations]
  | cons a as ih =>
    intro p
    simp only [permutations, List.mem_flatMap, List.mem_map, List.mem_range, ih]
    constructor
    · rintro ⟨q, hq, i, hi, rfl⟩
      have h1 : (q.take i ++ [a] ++ q.drop i).Perm (a :: (q.take i ++ q.drop i)) := by
        rw [List.append_assoc]
        exact List.perm_middle
      rw [List.take_append_drop] at h1
      exact h1.trans (hq.cons a)
    · intro hp
      have ha : a ∈ p := hp.mem_iff.2 (by simp)
      obtain ⟨s, t, rfl⟩ := List.append_of_mem ha
      refine ⟨s ++ t, ?_, s.length, by simp; omega, ?_⟩
      · have : (a :: (s ++ t)).Perm (a :: as) := List.perm_middle.symm.trans hp
        exact this.cons_inv
      · simp

theorem foldl_unique {α : Type} [∀ (a : α) (l : List α), Decidable (a ∈ l)] (l : List α) : ∀ acc : List α, acc.Nodup →
    (l.foldl (fun acc p => if p ∈ acc then acc else acc ++ [p]) acc).Nodup ∧
      ∀ x, x ∈ l.foldl (fun acc p => if p ∈ acc then acc else acc ++ [p]) acc ↔ x ∈ acc ∨ x ∈ l := by
  induction l with
  | nil => intro acc h; simp [h]
  | cons a as ih =>
    intro acc h
    rw [List.foldl_cons]
    by_cases ha : a ∈ acc
    · rw [if_pos ha]
      obtain ⟨h1, h2⟩ := ih acc h
      refine ⟨h1, fun x => ?_⟩
      rw [h2, List.mem_cons]
      constructor
      · rintro (h | h)
        · exact .inl h
        · exact .inr (.inr h)
      · rintro (h | rfl | h)
        · exact .inl h
        · exact .inl ha
        · exact .inr h
    · rw [if_neg ha]
      obtain ⟨h1, h2⟩ := ih (acc ++ [a]) (by
        rw [List.nodup_append]
        refine ⟨h, by simp, ?_⟩
        intro x hx y hy
        rw [List.mem_singleton] at hy
        rintro rfl
        exact ha (hy ▸ hx))
      refine ⟨h1, fun x => ?_⟩
      rw [h2, List.mem_append, List.mem_singleton, List.mem_cons, or_assoc]

theorem mem_uniquePermutations {α : Type} [DecidableEq α] (l p : List α) :
    p ∈ uniquePermutations l ↔ p.Perm l := by
  rw [uniquePermutations, (foldl_unique _ [] List.nodup_nil).2, mem_permutations]
  simp

theorem nodup_uniquePermutations {α : Type} [DecidableEq α] (l : List α) : (uniquePermutations l).Nodup :=
  (foldl_unique _ [] List.nodup_nil).1

theorem nat_le_sum_of_mem : ∀ (l : List Nat) (x : Nat), x ∈ l → x ≤ l.sum
  | a :: as, x, h => by
    rw [List.sum_cons]
    rcases List.mem_cons.1 h with rfl | h
    · omega
    · have := nat_le_sum_of_mem as x h
      omega

/-- The visited tuples are exactly the tuples of the given length with the given sum … -/
theorem mem_gmBetas (m len : Nat) (b : List Nat) :
    b ∈ gmBetas m (len + 1) ↔ b.length = len + 1 ∧ b.sum = m := by
  simp only [gmBetas, List.mem_flatMap, mem_uniquePermutations, mem_decreasingTuples]
  constructor
  · rintro ⟨t, ⟨hl, hs, -, -⟩, hp⟩
    exact ⟨hp.length_eq.trans hl, hp.sum_eq.trans hs⟩
  · rintro ⟨hl, hs⟩
    have hp := List.mergeSort_perm b (fun x y => decide (x ≥ y))
    refine ⟨b.mergeSort (fun x y => decide (x ≥ y)), ⟨hp.length_eq.trans hl, hp.sum_eq.trans hs, ?_, ?_⟩, hp.symm⟩
    · have := List.pairwise_mergeSort (le := fun x y : Nat => decide (x ≥ y))
        (by intro a b c h1 h2; simp at *; omega) (by intro a b; simp; omega) b
      exact this.imp (by simp)
    · intro x hx
      have := nat_le_sum_of_mem b x (hp.mem_iff.1 hx)
      omega

/-- … each once. -/
theorem nodup_gmBetas (m len : Nat) : (gmBetas m (len + 1)).Nodup := by
  rw [gmBetas, List.nodup_flatMap]
  refine ⟨fun t _ => nodup_uniquePermutations t, ?_⟩
  refine (nodup_decreasingTuples len m m).imp_of_mem ?_
  intro t u ht hu htu
  simp only [Function.onFun, List.disjoint_left]
  intro b h1 h2
  rw [mem_uniquePermutations] at h1 h2
  rw [mem_decreasingTuples] at ht hu
  apply htu
  exact (h1.symm.trans h2).eq_of_pairwise (fun a b _ _ h h' => le_antisymm h' h) ht.2.2.1 hu.2.2.1

/-! ## The dictionary -/

theorem dictAdd_keys {κ : Type} [DecidableEq κ] (d : List (κ × ℝ)) (k : κ) (w : ℝ) :
    (dictAdd d k w).map Prod.fst =
      if k ∈ d.map Prod.fst then d.map Prod.fst else d.map Prod.fst ++ [k] := by
  induction d with
  | nil => simp [dictAdd]
  | cons e rest ih =>
    obtain ⟨k', w'⟩ := e
    rw [dictAdd]
    by_cases h : k' = k
    · rw [if_pos h, if_pos (by simp [h])]
      simp
    · rw [if_neg h, List.map_cons, ih]
      simp only [List.map_cons, List.mem_cons]
      by_cases h2 : k ∈ rest.map Prod.fst
      · rw [if_pos h2, if_pos (.inr h2)]
      · rw [if_neg h2, if_neg (by rintro (h3 | h3); exacts [h h3.symm, h2 h3])]
        rfl

theorem dictAdd_sum {κ : Type} [DecidableEq κ] (d : List (κ × ℝ)) (k : κ) (w : ℝ) (F : κ → ℝ) :
    ((dictAdd d k w).map fun e => e.2 * F e.1).sum = (d.map fun e => e.2 * F e.1).sum + w * F k := by
  induction d with
  | nil => simp [dictAdd]
  | cons e rest ih =>
    obtain ⟨k', w'⟩ := e
    rw [dictAdd]
    by_cases h : k' = k
    · rw [if_pos h]
      subst h
      simp only [List.map_cons, List.sum_cons]
      ring
    · rw [if_neg h]
      simp only [List.map_cons, List.sum_cons, ih]
      ring

theorem dict_fold {κ : Type} [DecidableEq κ] (F : κ → ℝ) (entries : List (κ × ℝ)) :
    ∀ d : List (κ × ℝ), (d.map Prod.fst).Nodup →
      let r := entries.foldl (fun dict e => dictAdd dict e.1 e.2) d
      (r.map Prod.fst).Nodup ∧
      (∀ k, k ∈ r.map Prod.fst ↔ k ∈ d.map Prod.fst ∨ k ∈ entries.map Prod.fst) ∧
      (r.map fun e => e.2 * F e.1).sum =
        (d.map fun e => e.2 * F e.1).sum + (entries.map fun e => e.2 * F e.1).sum := by
  induction entries with
  | nil => intro d hd; simp [hd]
  | cons e es ih =>
    intro d hd
    have hk := dictAdd_keys d e.1 e.2
    have hnd : ((dictAdd d e.1 e.2).map Prod.fst).Nodup := by
      rw [hk]
      split_ifs with h
      · exact hd
      · rw [List.nodup_append]
        refine ⟨hd, by simp, ?_⟩
        intro x hx y hy
        rw [List.mem_singleton] at hy
        rintro rfl
        exact h (hy ▸ hx)
    obtain ⟨h1, h2, h3⟩ := ih _ hnd
    rw [List.foldl_cons]
    refine ⟨h1, fun k => ?_, ?_⟩
    · rw [h2, hk, List.map_cons, List.mem_cons]
      split_ifs with h
      · constructor
        · rintro (h4 | h4)
          · exact .inl h4
          · exact .inr (.inr h4)
        · rintro (h4 | rfl | h4)
          · exact .inl h4
          · exact .inl h
          · exact .inr h4
      · rw [List.mem_append, List.mem_singleton, or_assoc]
    · rw [h3, dictAdd_sum, List.map_cons, List.sum_cons]
      ring

end Modepy

import Verif.Proofs.SubmeshHull
import Mathlib.Algebra.Order.Floor.Ring
import Mathlib.Algebra.Order.Floor.Semiring
import Mathlib.Data.Nat.Choose.Sum
import Mathlib.Algebra.Order.Archimedean.Real.Basic
import Mathlib.Tactic.FinCases

/-!
Tessellation facts for the offset tables of `submesh_for_simplex`.
-/

namespace Modepy
open Pytools Spec
set_option linter.unreachableTactic false
set_option linter.unusedTactic false
set_option linter.unnecessarySeqFocus false
set_option linter.unusedSimpArgs false
set_option linter.unusedVariables false

theorem singleValued_gnitsam (n d : Nat) :
    singleValued ((gnitsam n d).map List.length) = .ok d := by
  have hall : ∀ t ∈ gnitsam n d, t.length = d := fun t ht => ((mem_gnitsam d n t).1 ht).1
  have hne : gnitsam n d ≠ [] := by
    intro h
    have : List.replicate d 0 ∈ gnitsam n d := by rw [mem_gnitsam]; simp
    rw [h] at this; simp at this
  cases hg : gnitsam n d with
  | nil => exact absurd hg hne
  | cons t ts =>
    rw [hg] at hall
    simp only [List.map_cons, singleValued]
    rw [if_pos]
    · rw [hall t (by simp)]
    · simp only [List.all_map, List.all_eq_true, Function.comp_apply, decide_eq_true_eq]
      intro t' ht'
      rw [hall t (by simp), hall t' (by simp [ht'])]

/-- Assembling a tessellation from facts about the offset table. -/
theorem tessellation_of_table {d n : Nat} {table : List (List (List Nat))}
    (hlen : ∀ offs ∈ table, offs.length = d + 1)
    (hdet : ∀ offs ∈ table, ∀ cur : List Nat, cur.length = d →
      (edgeMatrix d (offs.map (addTuples cur))).det = 1)
    (hsame : ∀ cur : List Nat, cur.length = d → table.Pairwise fun o o' =>
      NoOverlap d (o.map (addTuples cur)) (o'.map (addTuples cur)))
    (hdiff : ∀ cur cur' : List Nat, cur.length = d → cur'.length = d → cur ≠ cur' →
      ∀ o ∈ table, ∀ o' ∈ table, NoOverlap d (o.map (addTuples cur)) (o'.map (addTuples cur')))
    (hcover : ∀ x, IndexSimplex d n x ↔ x.length = d ∧ ∃ cur ∈ gnitsam n d, ∃ offs ∈ table,
      (∀ o ∈ offs, addTuples cur o ∈ gnitsam n d) ∧ InHull (offs.map (addTuples cur)) x) :
    SimplexTessellation d (gnitsam n d) (collectElements (gnitsam n d) table)
      (IndexSimplex d n) := by
  have hL : ∀ t ∈ gnitsam n d, t.length = d := fun t ht => ((mem_gnitsam d n t).1 ht).1
  refine ⟨?_, ?_, ?_, ?_⟩
  · intro e he
    obtain ⟨cur, hcur, offs, ho, ht⟩ := mem_collectElements.1 he
    obtain ⟨h1, h2, -, -⟩ := tryAdd_some ht
    exact ⟨by rw [h1, hlen _ ho], h2⟩
  · intro e he
    obtain ⟨cur, hcur, offs, ho, ht⟩ := mem_collectElements.1 he
    rw [(tryAdd_some ht).2.2.1]
    exact hdet offs ho cur (hL _ hcur)
  · unfold collectElements
    rw [List.pairwise_flatMap]
    constructor
    · intro cur hcur
      rw [List.pairwise_filterMap]
      refine (hsame cur (hL _ hcur)).imp ?_
      intro o o' h e he e' he'
      rw [(tryAdd_some he).2.2.1, (tryAdd_some he').2.2.1]
      exact h
    · refine List.Pairwise.imp_of_mem ?_ (nodup_gnitsam d n)
      intro cur cur' hcur hcur' hne e he e' he'
      obtain ⟨o, ho, he⟩ := List.mem_filterMap.1 he
      obtain ⟨o', ho', he'⟩ := List.mem_filterMap.1 he'
      rw [(tryAdd_some he).2.2.1, (tryAdd_some he').2.2.1]
      exact hdiff cur cur' (hL _ hcur) (hL _ hcur') hne o ho o' ho'
  · intro x
    rw [hcover]
    constructor
    · rintro ⟨hx, cur, hcur, offs, ho, hall, hh⟩
      obtain ⟨e, he⟩ := tryAdd_isSome.2 hall
      refine ⟨hx, e, mem_collectElements.2 ⟨cur, hcur, offs, ho, he⟩, ?_⟩
      rw [(tryAdd_some he).2.2.1]; exact hh
    · rintro ⟨hx, e, he, hh⟩
      obtain ⟨cur, hcur, offs, ho, he⟩ := mem_collectElements.1 he
      rw [(tryAdd_some he).2.2.1] at hh
      exact ⟨hx, cur, hcur, offs, ho, (tryAdd_some he).2.2.2, hh⟩

theorem nat_eq_of_real {a b : Nat} {x : ℝ} (h1 : (a : ℝ) < x) (h2 : x < a + 1) (h3 : (b : ℝ) ≤ x)
    (h4 : x ≤ b + 1) : a = b := by
  have h5 : (a : ℝ) < b + 1 := by linarith
  have h6 : (b : ℝ) < a + 1 := by linarith
  have h7 : a < b + 1 := by exact_mod_cast h5
  have h8 : b < a + 1 := by exact_mod_cast h6
  omega

def table1 : List (List (List Nat)) :=
  [[[0], [1]]]

theorem simplexOffsets_1 : simplexOffsets 1 = some table1 := rfl

theorem inHull_box_1 {offs : List (List Nat)} (ho : offs ∈ table1) (a : Nat) (x : ℝ)
    (h : InHull (offs.map (addTuples [a])) [x]) :
    (a : ℝ) ≤ x ∧ x ≤ a + 1 := by
  simp only [table1, List.mem_cons, List.not_mem_nil, or_false] at ho
  rcases ho with rfl
  · rw [inHull_1_0] at h
    obtain ⟨k0, k1⟩ := h
    refine ⟨?_, ?_⟩ <;> linarith
theorem inHullInterior_box_1 {offs : List (List Nat)} (ho : offs ∈ table1) (a : Nat) (x : ℝ)
    (h : InHullInterior (offs.map (addTuples [a])) [x]) :
    (a : ℝ) < x ∧ x < a + 1 := by
  simp only [table1, List.mem_cons, List.not_mem_nil, or_false] at ho
  rcases ho with rfl
  · rw [inHullInterior_1_0] at h
    obtain ⟨k0, k1⟩ := h
    refine ⟨?_, ?_⟩ <;> linarith

theorem noOverlap_same_1 (cur : List Nat) (hc : cur.length = 1) : table1.Pairwise fun o o' =>
    NoOverlap 1 (o.map (addTuples cur)) (o'.map (addTuples cur)) := by
  obtain ⟨a, rfl⟩ := natList1 hc
  simp only [table1, List.pairwise_cons, List.mem_cons, List.not_mem_nil, or_false,
    forall_eq_or_imp, forall_eq, false_imp_iff, implies_true, List.Pairwise.nil, and_true, true_and]

theorem noOverlap_diff_1 (cur cur' : List Nat) (hc : cur.length = 1) (hc' : cur'.length = 1)
    (hne : cur ≠ cur') : ∀ o ∈ table1, ∀ o' ∈ table1,
      NoOverlap 1 (o.map (addTuples cur)) (o'.map (addTuples cur')) := by
  obtain ⟨a, rfl⟩ := natList1 hc
  obtain ⟨a', rfl⟩ := natList1 hc'
  intro o ho o' ho' x hx
  obtain ⟨x, rfl⟩ := realList1 hx
  constructor
  · rintro ⟨h1, h2⟩
    obtain ⟨p0, q0⟩ := inHullInterior_box_1 ho _ _ h1
    obtain ⟨r0, s0⟩ := inHull_box_1 ho' _ _ h2
    refine hne ?_
    have e0 := nat_eq_of_real p0 q0 r0 s0
    subst e0; rfl
  · rintro ⟨h1, h2⟩
    obtain ⟨p0, q0⟩ := inHull_box_1 ho _ _ h1
    obtain ⟨r0, s0⟩ := inHullInterior_box_1 ho' _ _ h2
    refine hne ?_
    have e0 := nat_eq_of_real r0 s0 p0 q0
    subst e0; rfl

theorem det_1 : ∀ offs ∈ table1, ∀ cur : List Nat, cur.length = 1 →
    (edgeMatrix 1 (offs.map (addTuples cur))).det = 1 := by
  intro offs ho cur hc
  obtain ⟨a, rfl⟩ := natList1 hc
  simp only [table1, List.mem_cons, List.not_mem_nil, or_false] at ho
  rcases ho with rfl <;> rw [Matrix.det_unique] <;> simp [edgeMatrix, addTuples]

theorem cover_1 (n : Nat) (hn : 1 ≤ n) (x : List ℝ) :
    IndexSimplex 1 n x ↔ x.length = 1 ∧ ∃ cur ∈ gnitsam n 1, ∃ offs ∈ table1,
      (∀ o ∈ offs, addTuples cur o ∈ gnitsam n 1) ∧ InHull (offs.map (addTuples cur)) x := by
  constructor
  · rintro ⟨hl, hpos, hsum⟩
    refine ⟨hl, ?_⟩
    obtain ⟨x, rfl⟩ := realList1 hl
    simp only [List.mem_cons, List.not_mem_nil, or_false, forall_eq_or_imp, forall_eq] at hpos
    simp only [List.sum_cons, List.sum_nil, add_zero] at hsum
    have f0 := Nat.floor_le hpos
    have g0 := Nat.lt_floor_add_one x
    generalize ⌊x⌋₊ = a at f0 g0
    have hfl : a ≤ n := by
      have : ((a : Nat) : ℝ) ≤ n := by push_cast; linarith
      exact_mod_cast this
    rcases Nat.lt_or_ge (a) n with hlt | hge
    · -- generic position
      refine ⟨[a], (mem_gnitsam _ _ _).2 ⟨rfl, by simp; omega⟩, [[0], [1]], by simp [table1], ?_, ?_⟩
      · intro o ho
        rw [mem_gnitsam]
        simp only [table1, List.mem_cons, List.not_mem_nil, or_false] at ho
        rcases ho with rfl | rfl <;> refine ⟨rfl, ?_⟩ <;> simp [addTuples] <;> omega
      · refine (inHull_1_0 _ _ ).2 ⟨?_, ?_⟩ <;> linarith
    · have hnr : ((a : Nat) : ℝ) = n := by exact_mod_cast le_antisymm hfl hge
      push_cast at hnr
      obtain ⟨a', rfl⟩ : ∃ k, a = k + 1 := ⟨a - 1, by omega⟩
      push_cast at hnr f0 g0
      refine ⟨[a'], (mem_gnitsam _ _ _).2 ⟨rfl, by simp; omega⟩, [[0], [1]], by simp [table1], ?_, ?_⟩
      · intro o ho
        rw [mem_gnitsam]
        simp only [table1, List.mem_cons, List.not_mem_nil, or_false] at ho
        rcases ho with rfl | rfl <;> refine ⟨rfl, ?_⟩ <;> simp [addTuples] <;> omega
      · refine (inHull_1_0 _ _ ).2 ⟨?_, ?_⟩ <;> linarith
  · rintro ⟨hl, cur, hcur, offs, ho, hall, hh⟩
    refine ⟨hl, ?_⟩
    have hcl := ((mem_gnitsam _ _ _).1 hcur).1
    obtain ⟨a, rfl⟩ := natList1 hcl
    obtain ⟨x, rfl⟩ := realList1 hl
    have hbox := inHull_box_1 ho _ _ hh
    simp only [List.mem_cons, List.not_mem_nil, or_false, forall_eq_or_imp, forall_eq, List.sum_cons, List.sum_nil, add_zero]
    have hpos : (0:ℝ) ≤ x := by
      have z0 : (0:ℝ) ≤ a := Nat.cast_nonneg _
      obtain ⟨p0, q0⟩ := hbox
      refine ?_ <;> linarith
    refine ⟨hpos, ?_⟩
    simp only [table1, List.mem_cons, List.not_mem_nil, or_false] at ho
    rcases ho with rfl
    · have hM := ((mem_gnitsam _ _ _).1 (hall [1] (by simp))).2
      simp [addTuples] at hM
      have hM' : (((a + 1 : Nat)) : ℝ) ≤ n := by exact_mod_cast (by omega)
      push_cast at hM'
      rw [inHull_1_0] at hh
      obtain ⟨k0, k1⟩ := hh
      linarith

theorem count_1 (n : Nat) : (collectElements (gnitsam n 1) table1).length =
    (if 1 ≤ n then Nat.choose (n - 1 + 1) 1 else 0) := by
  rw [length_collectElements]
  simp only [table1, List.map_cons, List.map_nil, List.sum_cons, List.sum_nil, add_zero]
  rw [countP_simplex (d := 1) (offs := [[0], [1]]) (M := 1) (by simp) (by simp) (by simp)]

def table2 : List (List (List Nat)) :=
  [[[0, 0], [1, 0], [0, 1]],
    [[1, 0], [1, 1], [0, 1]]]

theorem simplexOffsets_2 : simplexOffsets 2 = some table2 := rfl

theorem inHull_box_2 {offs : List (List Nat)} (ho : offs ∈ table2) (a b : Nat) (x y : ℝ)
    (h : InHull (offs.map (addTuples [a, b])) [x, y]) :
    (a : ℝ) ≤ x ∧ x ≤ a + 1 ∧ (b : ℝ) ≤ y ∧ y ≤ b + 1 := by
  simp only [table2, List.mem_cons, List.not_mem_nil, or_false] at ho
  rcases ho with rfl | rfl
  · rw [inHull_2_0] at h
    obtain ⟨k0, k1, k2⟩ := h
    refine ⟨?_, ?_, ?_, ?_⟩ <;> linarith
  · rw [inHull_2_1] at h
    obtain ⟨k0, k1, k2⟩ := h
    refine ⟨?_, ?_, ?_, ?_⟩ <;> linarith
theorem inHullInterior_box_2 {offs : List (List Nat)} (ho : offs ∈ table2) (a b : Nat) (x y : ℝ)
    (h : InHullInterior (offs.map (addTuples [a, b])) [x, y]) :
    (a : ℝ) < x ∧ x < a + 1 ∧ (b : ℝ) < y ∧ y < b + 1 := by
  simp only [table2, List.mem_cons, List.not_mem_nil, or_false] at ho
  rcases ho with rfl | rfl
  · rw [inHullInterior_2_0] at h
    obtain ⟨k0, k1, k2⟩ := h
    refine ⟨?_, ?_, ?_, ?_⟩ <;> linarith
  · rw [inHullInterior_2_1] at h
    obtain ⟨k0, k1, k2⟩ := h
    refine ⟨?_, ?_, ?_, ?_⟩ <;> linarith

theorem noOverlap_same_2 (cur : List Nat) (hc : cur.length = 2) : table2.Pairwise fun o o' =>
    NoOverlap 2 (o.map (addTuples cur)) (o'.map (addTuples cur)) := by
  obtain ⟨a, b, rfl⟩ := natList2 hc
  simp only [table2, List.pairwise_cons, List.mem_cons, List.not_mem_nil, or_false,
    forall_eq_or_imp, forall_eq, false_imp_iff, implies_true, List.Pairwise.nil, and_true, true_and]
  repeat' apply And.intro
  all_goals
    intro x hx
    obtain ⟨x, y, rfl⟩ := realList2 hx
    simp only [inHull_2_0, inHullInterior_2_0, inHull_2_1, inHullInterior_2_1]
    constructor
    · rintro ⟨⟨k0, k1, k2⟩, ⟨l0, l1, l2⟩⟩
      linarith
    · rintro ⟨⟨k0, k1, k2⟩, ⟨l0, l1, l2⟩⟩
      linarith

theorem noOverlap_diff_2 (cur cur' : List Nat) (hc : cur.length = 2) (hc' : cur'.length = 2)
    (hne : cur ≠ cur') : ∀ o ∈ table2, ∀ o' ∈ table2,
      NoOverlap 2 (o.map (addTuples cur)) (o'.map (addTuples cur')) := by
  obtain ⟨a, b, rfl⟩ := natList2 hc
  obtain ⟨a', b', rfl⟩ := natList2 hc'
  intro o ho o' ho' x hx
  obtain ⟨x, y, rfl⟩ := realList2 hx
  constructor
  · rintro ⟨h1, h2⟩
    obtain ⟨p0, q0, p1, q1⟩ := inHullInterior_box_2 ho _ _ _ _ h1
    obtain ⟨r0, s0, r1, s1⟩ := inHull_box_2 ho' _ _ _ _ h2
    refine hne ?_
    have e0 := nat_eq_of_real p0 q0 r0 s0
    have e1 := nat_eq_of_real p1 q1 r1 s1
    subst e0 e1; rfl
  · rintro ⟨h1, h2⟩
    obtain ⟨p0, q0, p1, q1⟩ := inHull_box_2 ho _ _ _ _ h1
    obtain ⟨r0, s0, r1, s1⟩ := inHullInterior_box_2 ho' _ _ _ _ h2
    refine hne ?_
    have e0 := nat_eq_of_real r0 s0 p0 q0
    have e1 := nat_eq_of_real r1 s1 p1 q1
    subst e0 e1; rfl

theorem det_2 : ∀ offs ∈ table2, ∀ cur : List Nat, cur.length = 2 →
    (edgeMatrix 2 (offs.map (addTuples cur))).det = 1 := by
  intro offs ho cur hc
  obtain ⟨a, b, rfl⟩ := natList2 hc
  simp only [table2, List.mem_cons, List.not_mem_nil, or_false] at ho
  rcases ho with rfl | rfl <;> rw [Matrix.det_fin_two] <;> simp [edgeMatrix, addTuples]

theorem cover_2 (n : Nat) (hn : 1 ≤ n) (x : List ℝ) :
    IndexSimplex 2 n x ↔ x.length = 2 ∧ ∃ cur ∈ gnitsam n 2, ∃ offs ∈ table2,
      (∀ o ∈ offs, addTuples cur o ∈ gnitsam n 2) ∧ InHull (offs.map (addTuples cur)) x := by
  constructor
  · rintro ⟨hl, hpos, hsum⟩
    refine ⟨hl, ?_⟩
    obtain ⟨x, y, rfl⟩ := realList2 hl
    simp only [List.mem_cons, List.not_mem_nil, or_false, forall_eq_or_imp, forall_eq] at hpos
    simp only [List.sum_cons, List.sum_nil, add_zero] at hsum
    have f0 := Nat.floor_le hpos.1
    have g0 := Nat.lt_floor_add_one x
    have f1 := Nat.floor_le hpos.2
    have g1 := Nat.lt_floor_add_one y
    generalize ⌊x⌋₊ = a at f0 g0
    generalize ⌊y⌋₊ = b at f1 g1
    have hfl : a + b ≤ n := by
      have : ((a + b : Nat) : ℝ) ≤ n := by push_cast; linarith
      exact_mod_cast this
    rcases Nat.lt_or_ge (a + b) n with hlt | hge
    · -- generic position
      rcases le_or_gt ((x - a) + (y - b)) 1 with h | h
      · refine ⟨[a, b], (mem_gnitsam _ _ _).2 ⟨rfl, by simp; omega⟩, [[0, 0], [1, 0], [0, 1]], by simp [table2], ?_, ?_⟩
        · intro o ho
          rw [mem_gnitsam]
          simp only [table2, List.mem_cons, List.not_mem_nil, or_false] at ho
          rcases ho with rfl | rfl | rfl <;> refine ⟨rfl, ?_⟩ <;> simp [addTuples] <;> omega
        · refine (inHull_2_0 _ _ _ _ ).2 ⟨?_, ?_, ?_⟩ <;> linarith
      · have hsum2 : a + b + 2 ≤ n := by
          have : (((a + b) + 1 : Nat) : ℝ) < n := by push_cast; linarith
          have : a + b + 1 < n := by exact_mod_cast this
          omega
        refine ⟨[a, b], (mem_gnitsam _ _ _).2 ⟨rfl, by simp; omega⟩, [[1, 0], [1, 1], [0, 1]], by simp [table2], ?_, ?_⟩
        · intro o ho
          rw [mem_gnitsam]
          simp only [table2, List.mem_cons, List.not_mem_nil, or_false] at ho
          rcases ho with rfl | rfl | rfl <;> refine ⟨rfl, ?_⟩ <;> simp [addTuples] <;> omega
        · refine (inHull_2_1 _ _ _ _ ).2 ⟨?_, ?_, ?_⟩ <;> linarith
    · have hnr : ((a + b : Nat) : ℝ) = n := by exact_mod_cast le_antisymm hfl hge
      push_cast at hnr
      rcases (show 1 ≤ a ∨ 1 ≤ b by omega) with hp | hp
      · obtain ⟨a', rfl⟩ : ∃ k, a = k + 1 := ⟨a - 1, by omega⟩
        push_cast at hnr f0 g0
        refine ⟨[a', b], (mem_gnitsam _ _ _).2 ⟨rfl, by simp; omega⟩, [[0, 0], [1, 0], [0, 1]], by simp [table2], ?_, ?_⟩
        · intro o ho
          rw [mem_gnitsam]
          simp only [table2, List.mem_cons, List.not_mem_nil, or_false] at ho
          rcases ho with rfl | rfl | rfl <;> refine ⟨rfl, ?_⟩ <;> simp [addTuples] <;> omega
        · refine (inHull_2_0 _ _ _ _ ).2 ⟨?_, ?_, ?_⟩ <;> linarith
      · obtain ⟨b', rfl⟩ : ∃ k, b = k + 1 := ⟨b - 1, by omega⟩
        push_cast at hnr f1 g1
        refine ⟨[a, b'], (mem_gnitsam _ _ _).2 ⟨rfl, by simp; omega⟩, [[0, 0], [1, 0], [0, 1]], by simp [table2], ?_, ?_⟩
        · intro o ho
          rw [mem_gnitsam]
          simp only [table2, List.mem_cons, List.not_mem_nil, or_false] at ho
          rcases ho with rfl | rfl | rfl <;> refine ⟨rfl, ?_⟩ <;> simp [addTuples] <;> omega
        · refine (inHull_2_0 _ _ _ _ ).2 ⟨?_, ?_, ?_⟩ <;> linarith
  · rintro ⟨hl, cur, hcur, offs, ho, hall, hh⟩
    refine ⟨hl, ?_⟩
    have hcl := ((mem_gnitsam _ _ _).1 hcur).1
    obtain ⟨a, b, rfl⟩ := natList2 hcl
    obtain ⟨x, y, rfl⟩ := realList2 hl
    have hbox := inHull_box_2 ho _ _ _ _ hh
    simp only [List.mem_cons, List.not_mem_nil, or_false, forall_eq_or_imp, forall_eq, List.sum_cons, List.sum_nil, add_zero]
    have hpos : (0:ℝ) ≤ x ∧ (0:ℝ) ≤ y := by
      have z0 : (0:ℝ) ≤ a := Nat.cast_nonneg _
      have z1 : (0:ℝ) ≤ b := Nat.cast_nonneg _
      obtain ⟨p0, q0, p1, q1⟩ := hbox
      refine ⟨?_, ?_⟩ <;> linarith
    refine ⟨hpos, ?_⟩
    simp only [table2, List.mem_cons, List.not_mem_nil, or_false] at ho
    rcases ho with rfl | rfl
    · have hM := ((mem_gnitsam _ _ _).1 (hall [1, 0] (by simp))).2
      simp [addTuples] at hM
      have hM' : (((a + 1 + b : Nat)) : ℝ) ≤ n := by exact_mod_cast (by omega)
      push_cast at hM'
      rw [inHull_2_0] at hh
      obtain ⟨k0, k1, k2⟩ := hh
      linarith
    · have hM := ((mem_gnitsam _ _ _).1 (hall [1, 1] (by simp))).2
      simp [addTuples] at hM
      have hM' : (((a + 1 + b + 1 : Nat)) : ℝ) ≤ n := by exact_mod_cast (by omega)
      push_cast at hM'
      rw [inHull_2_1] at hh
      obtain ⟨k0, k1, k2⟩ := hh
      linarith

theorem count_2 (n : Nat) : (collectElements (gnitsam n 2) table2).length =
    (if 1 ≤ n then Nat.choose (n - 1 + 2) 2 else 0) + (if 2 ≤ n then Nat.choose (n - 2 + 2) 2 else 0) := by
  rw [length_collectElements]
  simp only [table2, List.map_cons, List.map_nil, List.sum_cons, List.sum_nil, add_zero]
  rw [countP_simplex (d := 2) (offs := [[0, 0], [1, 0], [0, 1]]) (M := 1) (by simp) (by simp) (by simp)]
  rw [countP_simplex (d := 2) (offs := [[1, 0], [1, 1], [0, 1]]) (M := 2) (by simp) (by simp) (by simp)]

def table3 : List (List (List Nat)) :=
  [[[0, 0, 0], [1, 0, 0], [0, 1, 0], [0, 0, 1]],
    [[1, 0, 1], [1, 0, 0], [0, 0, 1], [0, 1, 0]],
    [[1, 0, 1], [0, 1, 1], [0, 1, 0], [0, 0, 1]],
    [[1, 0, 0], [0, 1, 0], [1, 0, 1], [1, 1, 0]],
    [[0, 1, 1], [0, 1, 0], [1, 1, 0], [1, 0, 1]],
    [[0, 1, 1], [1, 1, 1], [1, 0, 1], [1, 1, 0]]]

theorem simplexOffsets_3 : simplexOffsets 3 = some table3 := rfl

theorem inHull_box_3 {offs : List (List Nat)} (ho : offs ∈ table3) (a b c : Nat) (x y z : ℝ)
    (h : InHull (offs.map (addTuples [a, b, c])) [x, y, z]) :
    (a : ℝ) ≤ x ∧ x ≤ a + 1 ∧ (b : ℝ) ≤ y ∧ y ≤ b + 1 ∧ (c : ℝ) ≤ z ∧ z ≤ c + 1 := by
  simp only [table3, List.mem_cons, List.not_mem_nil, or_false] at ho
  rcases ho with rfl | rfl | rfl | rfl | rfl | rfl
  · rw [inHull_3_0] at h
    obtain ⟨k0, k1, k2, k3⟩ := h
    refine ⟨?_, ?_, ?_, ?_, ?_, ?_⟩ <;> linarith
  · rw [inHull_3_1] at h
    obtain ⟨k0, k1, k2, k3⟩ := h
    refine ⟨?_, ?_, ?_, ?_, ?_, ?_⟩ <;> linarith
  · rw [inHull_3_2] at h
    obtain ⟨k0, k1, k2, k3⟩ := h
    refine ⟨?_, ?_, ?_, ?_, ?_, ?_⟩ <;> linarith
  · rw [inHull_3_3] at h
    obtain ⟨k0, k1, k2, k3⟩ := h
    refine ⟨?_, ?_, ?_, ?_, ?_, ?_⟩ <;> linarith
  · rw [inHull_3_4] at h
    obtain ⟨k0, k1, k2, k3⟩ := h
    refine ⟨?_, ?_, ?_, ?_, ?_, ?_⟩ <;> linarith
  · rw [inHull_3_5] at h
    obtain ⟨k0, k1, k2, k3⟩ := h
    refine ⟨?_, ?_, ?_, ?_, ?_, ?_⟩ <;> linarith
theorem inHullInterior_box_3 {offs : List (List Nat)} (ho : offs ∈ table3) (a b c : Nat) (x y z : ℝ)
    (h : InHullInterior (offs.map (addTuples [a, b, c])) [x, y, z]) :
    (a : ℝ) < x ∧ x < a + 1 ∧ (b : ℝ) < y ∧ y < b + 1 ∧ (c : ℝ) < z ∧ z < c + 1 := by
  simp only [table3, List.mem_cons, List.not_mem_nil, or_false] at ho
  rcases ho with rfl | rfl | rfl | rfl | rfl | rfl
  · rw [inHullInterior_3_0] at h
    obtain ⟨k0, k1, k2, k3⟩ := h
    refine ⟨?_, ?_, ?_, ?_, ?_, ?_⟩ <;> linarith
  · rw [inHullInterior_3_1] at h
    obtain ⟨k0, k1, k2, k3⟩ := h
    refine ⟨?_, ?_, ?_, ?_, ?_, ?_⟩ <;> linarith
  · rw [inHullInterior_3_2] at h
    obtain ⟨k0, k1, k2, k3⟩ := h
    refine ⟨?_, ?_, ?_, ?_, ?_, ?_⟩ <;> linarith
  · rw [inHullInterior_3_3] at h
    obtain ⟨k0, k1, k2, k3⟩ := h
    refine ⟨?_, ?_, ?_, ?_, ?_, ?_⟩ <;> linarith
  · rw [inHullInterior_3_4] at h
    obtain ⟨k0, k1, k2, k3⟩ := h
    refine ⟨?_, ?_, ?_, ?_, ?_, ?_⟩ <;> linarith
  · rw [inHullInterior_3_5] at h
    obtain ⟨k0, k1, k2, k3⟩ := h
    refine ⟨?_, ?_, ?_, ?_, ?_, ?_⟩ <;> linarith

theorem noOverlap_same_3 (cur : List Nat) (hc : cur.length = 3) : table3.Pairwise fun o o' =>
    NoOverlap 3 (o.map (addTuples cur)) (o'.map (addTuples cur)) := by
  obtain ⟨a, b, c, rfl⟩ := natList3 hc
  simp only [table3, List.pairwise_cons, List.mem_cons, List.not_mem_nil, or_false,
    forall_eq_or_imp, forall_eq, false_imp_iff, implies_true, List.Pairwise.nil, and_true, true_and]
  repeat' apply And.intro
  all_goals
    intro x hx
    obtain ⟨x, y, z, rfl⟩ := realList3 hx
    simp only [inHull_3_0, inHullInterior_3_0, inHull_3_1, inHullInterior_3_1, inHull_3_2, inHullInterior_3_2, inHull_3_3, inHullInterior_3_3, inHull_3_4, inHullInterior_3_4, inHull_3_5, inHullInterior_3_5]
    constructor
    · rintro ⟨⟨k0, k1, k2, k3⟩, ⟨l0, l1, l2, l3⟩⟩
      linarith
    · rintro ⟨⟨k0, k1, k2, k3⟩, ⟨l0, l1, l2, l3⟩⟩
      linarith

theorem noOverlap_diff_3 (cur cur' : List Nat) (hc : cur.length = 3) (hc' : cur'.length = 3)
    (hne : cur ≠ cur') : ∀ o ∈ table3, ∀ o' ∈ table3,
      NoOverlap 3 (o.map (addTuples cur)) (o'.map (addTuples cur')) := by
  obtain ⟨a, b, c, rfl⟩ := natList3 hc
  obtain ⟨a', b', c', rfl⟩ := natList3 hc'
  intro o ho o' ho' x hx
  obtain ⟨x, y, z, rfl⟩ := realList3 hx
  constructor
  · rintro ⟨h1, h2⟩
    obtain ⟨p0, q0, p1, q1, p2, q2⟩ := inHullInterior_box_3 ho _ _ _ _ _ _ h1
    obtain ⟨r0, s0, r1, s1, r2, s2⟩ := inHull_box_3 ho' _ _ _ _ _ _ h2
    refine hne ?_
    have e0 := nat_eq_of_real p0 q0 r0 s0
    have e1 := nat_eq_of_real p1 q1 r1 s1
    have e2 := nat_eq_of_real p2 q2 r2 s2
    subst e0 e1 e2; rfl
  · rintro ⟨h1, h2⟩
    obtain ⟨p0, q0, p1, q1, p2, q2⟩ := inHull_box_3 ho _ _ _ _ _ _ h1
    obtain ⟨r0, s0, r1, s1, r2, s2⟩ := inHullInterior_box_3 ho' _ _ _ _ _ _ h2
    refine hne ?_
    have e0 := nat_eq_of_real r0 s0 p0 q0
    have e1 := nat_eq_of_real r1 s1 p1 q1
    have e2 := nat_eq_of_real r2 s2 p2 q2
    subst e0 e1 e2; rfl

theorem det_3 : ∀ offs ∈ table3, ∀ cur : List Nat, cur.length = 3 →
    (edgeMatrix 3 (offs.map (addTuples cur))).det = 1 := by
  intro offs ho cur hc
  obtain ⟨a, b, c, rfl⟩ := natList3 hc
  simp only [table3, List.mem_cons, List.not_mem_nil, or_false] at ho
  rcases ho with rfl | rfl | rfl | rfl | rfl | rfl <;> rw [Matrix.det_fin_three] <;> simp [edgeMatrix, addTuples]

theorem cover_3 (n : Nat) (hn : 1 ≤ n) (x : List ℝ) :
    IndexSimplex 3 n x ↔ x.length = 3 ∧ ∃ cur ∈ gnitsam n 3, ∃ offs ∈ table3,
      (∀ o ∈ offs, addTuples cur o ∈ gnitsam n 3) ∧ InHull (offs.map (addTuples cur)) x := by
  constructor
  · rintro ⟨hl, hpos, hsum⟩
    refine ⟨hl, ?_⟩
    obtain ⟨x, y, z, rfl⟩ := realList3 hl
    simp only [List.mem_cons, List.not_mem_nil, or_false, forall_eq_or_imp, forall_eq] at hpos
    simp only [List.sum_cons, List.sum_nil, add_zero] at hsum
    have f0 := Nat.floor_le hpos.1
    have g0 := Nat.lt_floor_add_one x
    have f1 := Nat.floor_le hpos.2.1
    have g1 := Nat.lt_floor_add_one y
    have f2 := Nat.floor_le hpos.2.2
    have g2 := Nat.lt_floor_add_one z
    generalize ⌊x⌋₊ = a at f0 g0
    generalize ⌊y⌋₊ = b at f1 g1
    generalize ⌊z⌋₊ = c at f2 g2
    have hfl : a + b + c ≤ n := by
      have : ((a + b + c : Nat) : ℝ) ≤ n := by push_cast; linarith
      exact_mod_cast this
    rcases Nat.lt_or_ge (a + b + c) n with hlt | hge
    · -- generic position
      rcases le_or_gt ((x - a) + (y - b) + (z - c)) 1 with h | h
      · refine ⟨[a, b, c], (mem_gnitsam _ _ _).2 ⟨rfl, by simp; omega⟩, [[0, 0, 0], [1, 0, 0], [0, 1, 0], [0, 0, 1]], by simp [table3], ?_, ?_⟩
        · intro o ho
          rw [mem_gnitsam]
          simp only [table3, List.mem_cons, List.not_mem_nil, or_false] at ho
          rcases ho with rfl | rfl | rfl | rfl <;> refine ⟨rfl, ?_⟩ <;> simp [addTuples] <;> omega
        · refine (inHull_3_0 _ _ _ _ _ _ ).2 ⟨?_, ?_, ?_, ?_⟩ <;> linarith
      · have hsum2 : a + b + c + 2 ≤ n := by
          have : (((a + b + c) + 1 : Nat) : ℝ) < n := by push_cast; linarith
          have : a + b + c + 1 < n := by exact_mod_cast this
          omega
        rcases le_or_gt ((x - a) + (y - b) + (z - c)) 2 with h2 | h2
        · rcases le_total ((x - a) + (y - b)) 1 with hxy | hxy <;>
            rcases le_total ((y - b) + (z - c)) 1 with hyz | hyz
          · refine ⟨[a, b, c], (mem_gnitsam _ _ _).2 ⟨rfl, by simp; omega⟩, [[1, 0, 1], [1, 0, 0], [0, 0, 1], [0, 1, 0]], by simp [table3], ?_, ?_⟩
            · intro o ho
              rw [mem_gnitsam]
              simp only [table3, List.mem_cons, List.not_mem_nil, or_false] at ho
              rcases ho with rfl | rfl | rfl | rfl <;> refine ⟨rfl, ?_⟩ <;> simp [addTuples] <;> omega
            · refine (inHull_3_1 _ _ _ _ _ _ ).2 ⟨?_, ?_, ?_, ?_⟩ <;> linarith
          · refine ⟨[a, b, c], (mem_gnitsam _ _ _).2 ⟨rfl, by simp; omega⟩, [[1, 0, 1], [0, 1, 1], [0, 1, 0], [0, 0, 1]], by simp [table3], ?_, ?_⟩
            · intro o ho
              rw [mem_gnitsam]
              simp only [table3, List.mem_cons, List.not_mem_nil, or_false] at ho
              rcases ho with rfl | rfl | rfl | rfl <;> refine ⟨rfl, ?_⟩ <;> simp [addTuples] <;> omega
            · refine (inHull_3_2 _ _ _ _ _ _ ).2 ⟨?_, ?_, ?_, ?_⟩ <;> linarith
          · refine ⟨[a, b, c], (mem_gnitsam _ _ _).2 ⟨rfl, by simp; omega⟩, [[1, 0, 0], [0, 1, 0], [1, 0, 1], [1, 1, 0]], by simp [table3], ?_, ?_⟩
            · intro o ho
              rw [mem_gnitsam]
              simp only [table3, List.mem_cons, List.not_mem_nil, or_false] at ho
              rcases ho with rfl | rfl | rfl | rfl <;> refine ⟨rfl, ?_⟩ <;> simp [addTuples] <;> omega
            · refine (inHull_3_3 _ _ _ _ _ _ ).2 ⟨?_, ?_, ?_, ?_⟩ <;> linarith
          · refine ⟨[a, b, c], (mem_gnitsam _ _ _).2 ⟨rfl, by simp; omega⟩, [[0, 1, 1], [0, 1, 0], [1, 1, 0], [1, 0, 1]], by simp [table3], ?_, ?_⟩
            · intro o ho
              rw [mem_gnitsam]
              simp only [table3, List.mem_cons, List.not_mem_nil, or_false] at ho
              rcases ho with rfl | rfl | rfl | rfl <;> refine ⟨rfl, ?_⟩ <;> simp [addTuples] <;> omega
            · refine (inHull_3_4 _ _ _ _ _ _ ).2 ⟨?_, ?_, ?_, ?_⟩ <;> linarith
        · have hsum3 : a + b + c + 3 ≤ n := by
            have : (((a + b + c) + 2 : Nat) : ℝ) < n := by push_cast; linarith
            have : a + b + c + 2 < n := by exact_mod_cast this
            omega
          refine ⟨[a, b, c], (mem_gnitsam _ _ _).2 ⟨rfl, by simp; omega⟩, [[0, 1, 1], [1, 1, 1], [1, 0, 1], [1, 1, 0]], by simp [table3], ?_, ?_⟩
          · intro o ho
            rw [mem_gnitsam]
            simp only [table3, List.mem_cons, List.not_mem_nil, or_false] at ho
            rcases ho with rfl | rfl | rfl | rfl <;> refine ⟨rfl, ?_⟩ <;> simp [addTuples] <;> omega
          · refine (inHull_3_5 _ _ _ _ _ _ ).2 ⟨?_, ?_, ?_, ?_⟩ <;> linarith
    · have hnr : ((a + b + c : Nat) : ℝ) = n := by exact_mod_cast le_antisymm hfl hge
      push_cast at hnr
      rcases (show 1 ≤ a ∨ 1 ≤ b ∨ 1 ≤ c by omega) with hp | hp | hp
      · obtain ⟨a', rfl⟩ : ∃ k, a = k + 1 := ⟨a - 1, by omega⟩
        push_cast at hnr f0 g0
        refine ⟨[a', b, c], (mem_gnitsam _ _ _).2 ⟨rfl, by simp; omega⟩, [[0, 0, 0], [1, 0, 0], [0, 1, 0], [0, 0, 1]], by simp [table3], ?_, ?_⟩
        · intro o ho
          rw [mem_gnitsam]
          simp only [table3, List.mem_cons, List.not_mem_nil, or_false] at ho
          rcases ho with rfl | rfl | rfl | rfl <;> refine ⟨rfl, ?_⟩ <;> simp [addTuples] <;> omega
        · refine (inHull_3_0 _ _ _ _ _ _ ).2 ⟨?_, ?_, ?_, ?_⟩ <;> linarith
      · obtain ⟨b', rfl⟩ : ∃ k, b = k + 1 := ⟨b - 1, by omega⟩
        push_cast at hnr f1 g1
        refine ⟨[a, b', c], (mem_gnitsam _ _ _).2 ⟨rfl, by simp; omega⟩, [[0, 0, 0], [1, 0, 0], [0, 1, 0], [0, 0, 1]], by simp [table3], ?_, ?_⟩
        · intro o ho
          rw [mem_gnitsam]
          simp only [table3, List.mem_cons, List.not_mem_nil, or_false] at ho
          rcases ho with rfl | rfl | rfl | rfl <;> refine ⟨rfl, ?_⟩ <;> simp [addTuples] <;> omega
        · refine (inHull_3_0 _ _ _ _ _ _ ).2 ⟨?_, ?_, ?_, ?_⟩ <;> linarith
      · obtain ⟨c', rfl⟩ : ∃ k, c = k + 1 := ⟨c - 1, by omega⟩
        push_cast at hnr f2 g2
        refine ⟨[a, b, c'], (mem_gnitsam _ _ _).2 ⟨rfl, by simp; omega⟩, [[0, 0, 0], [1, 0, 0], [0, 1, 0], [0, 0, 1]], by simp [table3], ?_, ?_⟩
        · intro o ho
          rw [mem_gnitsam]
          simp only [table3, List.mem_cons, List.not_mem_nil, or_false] at ho
          rcases ho with rfl | rfl | rfl | rfl <;> refine ⟨rfl, ?_⟩ <;> simp [addTuples] <;> omega
        · refine (inHull_3_0 _ _ _ _ _ _ ).2 ⟨?_, ?_, ?_, ?_⟩ <;> linarith
  · rintro ⟨hl, cur, hcur, offs, ho, hall, hh⟩
    refine ⟨hl, ?_⟩
    have hcl := ((mem_gnitsam _ _ _).1 hcur).1
    obtain ⟨a, b, c, rfl⟩ := natList3 hcl
    obtain ⟨x, y, z, rfl⟩ := realList3 hl
    have hbox := inHull_box_3 ho _ _ _ _ _ _ hh
    simp only [List.mem_cons, List.not_mem_nil, or_false, forall_eq_or_imp, forall_eq, List.sum_cons, List.sum_nil, add_zero]
    have hpos : (0:ℝ) ≤ x ∧ (0:ℝ) ≤ y ∧ (0:ℝ) ≤ z := by
      have z0 : (0:ℝ) ≤ a := Nat.cast_nonneg _
      have z1 : (0:ℝ) ≤ b := Nat.cast_nonneg _
      have z2 : (0:ℝ) ≤ c := Nat.cast_nonneg _
      obtain ⟨p0, q0, p1, q1, p2, q2⟩ := hbox
      refine ⟨?_, ?_, ?_⟩ <;> linarith
    refine ⟨hpos, ?_⟩
    simp only [table3, List.mem_cons, List.not_mem_nil, or_false] at ho
    rcases ho with rfl | rfl | rfl | rfl | rfl | rfl
    · have hM := ((mem_gnitsam _ _ _).1 (hall [1, 0, 0] (by simp))).2
      simp [addTuples] at hM
      have hM' : (((a + 1 + b + c : Nat)) : ℝ) ≤ n := by exact_mod_cast (by omega)
      push_cast at hM'
      rw [inHull_3_0] at hh
      obtain ⟨k0, k1, k2, k3⟩ := hh
      linarith
    · have hM := ((mem_gnitsam _ _ _).1 (hall [1, 0, 1] (by simp))).2
      simp [addTuples] at hM
      have hM' : (((a + 1 + b + c + 1 : Nat)) : ℝ) ≤ n := by exact_mod_cast (by omega)
      push_cast at hM'
      rw [inHull_3_1] at hh
      obtain ⟨k0, k1, k2, k3⟩ := hh
      linarith
    · have hM := ((mem_gnitsam _ _ _).1 (hall [1, 0, 1] (by simp))).2
      simp [addTuples] at hM
      have hM' : (((a + 1 + b + c + 1 : Nat)) : ℝ) ≤ n := by exact_mod_cast (by omega)
      push_cast at hM'
      rw [inHull_3_2] at hh
      obtain ⟨k0, k1, k2, k3⟩ := hh
      linarith
    · have hM := ((mem_gnitsam _ _ _).1 (hall [1, 0, 1] (by simp))).2
      simp [addTuples] at hM
      have hM' : (((a + 1 + b + c + 1 : Nat)) : ℝ) ≤ n := by exact_mod_cast (by omega)
      push_cast at hM'
      rw [inHull_3_3] at hh
      obtain ⟨k0, k1, k2, k3⟩ := hh
      linarith
    · have hM := ((mem_gnitsam _ _ _).1 (hall [0, 1, 1] (by simp))).2
      simp [addTuples] at hM
      have hM' : (((a + b + 1 + c + 1 : Nat)) : ℝ) ≤ n := by exact_mod_cast (by omega)
      push_cast at hM'
      rw [inHull_3_4] at hh
      obtain ⟨k0, k1, k2, k3⟩ := hh
      linarith
    · have hM := ((mem_gnitsam _ _ _).1 (hall [1, 1, 1] (by simp))).2
      simp [addTuples] at hM
      have hM' : (((a + 1 + b + 1 + c + 1 : Nat)) : ℝ) ≤ n := by exact_mod_cast (by omega)
      push_cast at hM'
      rw [inHull_3_5] at hh
      obtain ⟨k0, k1, k2, k3⟩ := hh
      linarith

theorem count_3 (n : Nat) : (collectElements (gnitsam n 3) table3).length =
    (if 1 ≤ n then Nat.choose (n - 1 + 3) 3 else 0) + (if 2 ≤ n then Nat.choose (n - 2 + 3) 3 else 0) + (if 2 ≤ n then Nat.choose (n - 2 + 3) 3 else 0) + (if 2 ≤ n then Nat.choose (n - 2 + 3) 3 else 0) + (if 2 ≤ n then Nat.choose (n - 2 + 3) 3 else 0) + (if 3 ≤ n then Nat.choose (n - 3 + 3) 3 else 0) := by
  rw [length_collectElements]
  simp only [table3, List.map_cons, List.map_nil, List.sum_cons, List.sum_nil, add_zero]
  rw [countP_simplex (d := 3) (offs := [[0, 0, 0], [1, 0, 0], [0, 1, 0], [0, 0, 1]]) (M := 1) (by simp) (by simp) (by simp)]
  rw [countP_simplex (d := 3) (offs := [[1, 0, 1], [1, 0, 0], [0, 0, 1], [0, 1, 0]]) (M := 2) (by simp) (by simp) (by simp)]
  rw [countP_simplex (d := 3) (offs := [[1, 0, 1], [0, 1, 1], [0, 1, 0], [0, 0, 1]]) (M := 2) (by simp) (by simp) (by simp)]
  rw [countP_simplex (d := 3) (offs := [[1, 0, 0], [0, 1, 0], [1, 0, 1], [1, 1, 0]]) (M := 2) (by simp) (by simp) (by simp)]
  rw [countP_simplex (d := 3) (offs := [[0, 1, 1], [0, 1, 0], [1, 1, 0], [1, 0, 1]]) (M := 2) (by simp) (by simp) (by simp)]
  rw [countP_simplex (d := 3) (offs := [[0, 1, 1], [1, 1, 1], [1, 0, 1], [1, 1, 0]]) (M := 3) (by simp) (by simp) (by simp)]
  ring

end Modepy

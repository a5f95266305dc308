import Verif.Proofs.Submesh
import Mathlib.Tactic.Linarith
import Mathlib.Tactic.IntervalCases
import Mathlib.Tactic.Ring

/-!
Convex hulls of the elements tried by `submesh_for_simplex`, as inequalities.
-/

namespace Modepy
open Pytools Spec
set_option linter.unreachableTactic false
set_option linter.unusedTactic false
set_option linter.unnecessarySeqFocus false

theorem realList1 {p : List ℝ} (h : p.length = 1) : ∃ a, p = [a] := by
  match p, h with
  | [a], _ => exact ⟨a, rfl⟩
theorem natList1 {p : List Nat} (h : p.length = 1) : ∃ a, p = [a] := by
  match p, h with
  | [a], _ => exact ⟨a, rfl⟩
theorem realList2 {p : List ℝ} (h : p.length = 2) : ∃ a b, p = [a, b] := by
  match p, h with
  | [a, b], _ => exact ⟨a, b, rfl⟩
theorem natList2 {p : List Nat} (h : p.length = 2) : ∃ a b, p = [a, b] := by
  match p, h with
  | [a, b], _ => exact ⟨a, b, rfl⟩
theorem realList3 {p : List ℝ} (h : p.length = 3) : ∃ a b c, p = [a, b, c] := by
  match p, h with
  | [a, b, c], _ => exact ⟨a, b, c, rfl⟩
theorem natList3 {p : List Nat} (h : p.length = 3) : ∃ a b c, p = [a, b, c] := by
  match p, h with
  | [a, b, c], _ => exact ⟨a, b, c, rfl⟩
theorem realList4 {p : List ℝ} (h : p.length = 4) : ∃ a b c d, p = [a, b, c, d] := by
  match p, h with
  | [a, b, c, d], _ => exact ⟨a, b, c, d, rfl⟩
theorem natList4 {p : List Nat} (h : p.length = 4) : ∃ a b c d, p = [a, b, c, d] := by
  match p, h with
  | [a, b, c, d], _ => exact ⟨a, b, c, d, rfl⟩

theorem inHull_1_0 (a : Nat) (x : ℝ) :
    InHull (([[0], [1]] : List (List Nat)).map (addTuples [a])) [x] ↔
      0 ≤ 1 - (x - a) ∧ 0 ≤ (x - a) := by
  constructor
  · rintro ⟨w, hl, hw, hs, hx⟩
    obtain ⟨w0, w1, rfl⟩ := realList2 hl
    have h0 := hx 0 (by simp)
    simp [addTuples] at h0 hs hw
    obtain ⟨k0, k1⟩ := hw
    obtain rfl : w0 = 1 - w1 := by linarith
    refine ⟨?_, ?_⟩ <;> linarith
  · rintro ⟨k0, k1⟩
    refine ⟨[1 - (x - a), (x - a)], rfl, ?_, ?_, ?_⟩
    · intro c hc
      simp only [List.mem_cons, List.not_mem_nil, or_false] at hc
      rcases hc with rfl | rfl <;> assumption
    · simp; try ring
    · intro i hi
      simp only [List.length_cons, List.length_nil, Nat.zero_add, Nat.reduceAdd] at hi
      interval_cases i <;> simp [addTuples] <;> ring

theorem inHullInterior_1_0 (a : Nat) (x : ℝ) :
    InHullInterior (([[0], [1]] : List (List Nat)).map (addTuples [a])) [x] ↔
      0 < 1 - (x - a) ∧ 0 < (x - a) := by
  constructor
  · rintro ⟨w, hl, hw, hs, hx⟩
    obtain ⟨w0, w1, rfl⟩ := realList2 hl
    have h0 := hx 0 (by simp)
    simp [addTuples] at h0 hs hw
    obtain ⟨k0, k1⟩ := hw
    obtain rfl : w0 = 1 - w1 := by linarith
    refine ⟨?_, ?_⟩ <;> linarith
  · rintro ⟨k0, k1⟩
    refine ⟨[1 - (x - a), (x - a)], rfl, ?_, ?_, ?_⟩
    · intro c hc
      simp only [List.mem_cons, List.not_mem_nil, or_false] at hc
      rcases hc with rfl | rfl <;> assumption
    · simp; try ring
    · intro i hi
      simp only [List.length_cons, List.length_nil, Nat.zero_add, Nat.reduceAdd] at hi
      interval_cases i <;> simp [addTuples] <;> ring

theorem inHull_2_0 (a b : Nat) (x y : ℝ) :
    InHull (([[0, 0], [1, 0], [0, 1]] : List (List Nat)).map (addTuples [a, b])) [x, y] ↔
      0 ≤ 1 - (x - a) - (y - b) ∧ 0 ≤ (x - a) ∧ 0 ≤ (y - b) := by
  constructor
  · rintro ⟨w, hl, hw, hs, hx⟩
    obtain ⟨w0, w1, w2, rfl⟩ := realList3 hl
    have h0 := hx 0 (by simp)
    have h1 := hx 1 (by simp)
    simp [addTuples] at h0 h1 hs hw
    obtain ⟨k0, k1, k2⟩ := hw
    obtain rfl : w0 = 1 - w1 - w2 := by linarith
    refine ⟨?_, ?_, ?_⟩ <;> linarith
  · rintro ⟨k0, k1, k2⟩
    refine ⟨[1 - (x - a) - (y - b), (x - a), (y - b)], rfl, ?_, ?_, ?_⟩
    · intro c hc
      simp only [List.mem_cons, List.not_mem_nil, or_false] at hc
      rcases hc with rfl | rfl | rfl <;> assumption
    · simp; try ring
    · intro i hi
      simp only [List.length_cons, List.length_nil, Nat.zero_add, Nat.reduceAdd] at hi
      interval_cases i <;> simp [addTuples] <;> ring

theorem inHullInterior_2_0 (a b : Nat) (x y : ℝ) :
    InHullInterior (([[0, 0], [1, 0], [0, 1]] : List (List Nat)).map (addTuples [a, b])) [x, y] ↔
      0 < 1 - (x - a) - (y - b) ∧ 0 < (x - a) ∧ 0 < (y - b) := by
  constructor
  · rintro ⟨w, hl, hw, hs, hx⟩
    obtain ⟨w0, w1, w2, rfl⟩ := realList3 hl
    have h0 := hx 0 (by simp)
    have h1 := hx 1 (by simp)
    simp [addTuples] at h0 h1 hs hw
    obtain ⟨k0, k1, k2⟩ := hw
    obtain rfl : w0 = 1 - w1 - w2 := by linarith
    refine ⟨?_, ?_, ?_⟩ <;> linarith
  · rintro ⟨k0, k1, k2⟩
    refine ⟨[1 - (x - a) - (y - b), (x - a), (y - b)], rfl, ?_, ?_, ?_⟩
    · intro c hc
      simp only [List.mem_cons, List.not_mem_nil, or_false] at hc
      rcases hc with rfl | rfl | rfl <;> assumption
    · simp; try ring
    · intro i hi
      simp only [List.length_cons, List.length_nil, Nat.zero_add, Nat.reduceAdd] at hi
      interval_cases i <;> simp [addTuples] <;> ring

theorem inHull_2_1 (a b : Nat) (x y : ℝ) :
    InHull (([[1, 0], [1, 1], [0, 1]] : List (List Nat)).map (addTuples [a, b])) [x, y] ↔
      0 ≤ 1 - (y - b) ∧ 0 ≤ (x - a) + (y - b) - 1 ∧ 0 ≤ 1 - (x - a) := by
  constructor
  · rintro ⟨w, hl, hw, hs, hx⟩
    obtain ⟨w0, w1, w2, rfl⟩ := realList3 hl
    have h0 := hx 0 (by simp)
    have h1 := hx 1 (by simp)
    simp [addTuples] at h0 h1 hs hw
    obtain ⟨k0, k1, k2⟩ := hw
    obtain rfl : w0 = 1 - w1 - w2 := by linarith
    refine ⟨?_, ?_, ?_⟩ <;> linarith
  · rintro ⟨k0, k1, k2⟩
    refine ⟨[1 - (y - b), (x - a) + (y - b) - 1, 1 - (x - a)], rfl, ?_, ?_, ?_⟩
    · intro c hc
      simp only [List.mem_cons, List.not_mem_nil, or_false] at hc
      rcases hc with rfl | rfl | rfl <;> assumption
    · simp; try ring
    · intro i hi
      simp only [List.length_cons, List.length_nil, Nat.zero_add, Nat.reduceAdd] at hi
      interval_cases i <;> simp [addTuples] <;> ring

theorem inHullInterior_2_1 (a b : Nat) (x y : ℝ) :
    InHullInterior (([[1, 0], [1, 1], [0, 1]] : List (List Nat)).map (addTuples [a, b])) [x, y] ↔
      0 < 1 - (y - b) ∧ 0 < (x - a) + (y - b) - 1 ∧ 0 < 1 - (x - a) := by
  constructor
  · rintro ⟨w, hl, hw, hs, hx⟩
    obtain ⟨w0, w1, w2, rfl⟩ := realList3 hl
    have h0 := hx 0 (by simp)
    have h1 := hx 1 (by simp)
    simp [addTuples] at h0 h1 hs hw
    obtain ⟨k0, k1, k2⟩ := hw
    obtain rfl : w0 = 1 - w1 - w2 := by linarith
    refine ⟨?_, ?_, ?_⟩ <;> linarith
  · rintro ⟨k0, k1, k2⟩
    refine ⟨[1 - (y - b), (x - a) + (y - b) - 1, 1 - (x - a)], rfl, ?_, ?_, ?_⟩
    · intro c hc
      simp only [List.mem_cons, List.not_mem_nil, or_false] at hc
      rcases hc with rfl | rfl | rfl <;> assumption
    · simp; try ring
    · intro i hi
      simp only [List.length_cons, List.length_nil, Nat.zero_add, Nat.reduceAdd] at hi
      interval_cases i <;> simp [addTuples] <;> ring

theorem inHull_3_0 (a b c : Nat) (x y z : ℝ) :
    InHull (([[0, 0, 0], [1, 0, 0], [0, 1, 0], [0, 0, 1]] : List (List Nat)).map (addTuples [a, b, c])) [x, y, z] ↔
      0 ≤ 1 - (x - a) - (y - b) - (z - c) ∧ 0 ≤ (x - a) ∧ 0 ≤ (y - b) ∧ 0 ≤ (z - c) := by
  constructor
  · rintro ⟨w, hl, hw, hs, hx⟩
    obtain ⟨w0, w1, w2, w3, rfl⟩ := realList4 hl
    have h0 := hx 0 (by simp)
    have h1 := hx 1 (by simp)
    have h2 := hx 2 (by simp)
    simp [addTuples] at h0 h1 h2 hs hw
    obtain ⟨k0, k1, k2, k3⟩ := hw
    obtain rfl : w0 = 1 - w1 - w2 - w3 := by linarith
    refine ⟨?_, ?_, ?_, ?_⟩ <;> linarith
  · rintro ⟨k0, k1, k2, k3⟩
    refine ⟨[1 - (x - a) - (y - b) - (z - c), (x - a), (y - b), (z - c)], rfl, ?_, ?_, ?_⟩
    · intro c hc
      simp only [List.mem_cons, List.not_mem_nil, or_false] at hc
      rcases hc with rfl | rfl | rfl | rfl <;> assumption
    · simp; try ring
    · intro i hi
      simp only [List.length_cons, List.length_nil, Nat.zero_add, Nat.reduceAdd] at hi
      interval_cases i <;> simp [addTuples] <;> ring

theorem inHullInterior_3_0 (a b c : Nat) (x y z : ℝ) :
    InHullInterior (([[0, 0, 0], [1, 0, 0], [0, 1, 0], [0, 0, 1]] : List (List Nat)).map (addTuples [a, b, c])) [x, y, z] ↔
      0 < 1 - (x - a) - (y - b) - (z - c) ∧ 0 < (x - a) ∧ 0 < (y - b) ∧ 0 < (z - c) := by
  constructor
  · rintro ⟨w, hl, hw, hs, hx⟩
    obtain ⟨w0, w1, w2, w3, rfl⟩ := realList4 hl
    have h0 := hx 0 (by simp)
    have h1 := hx 1 (by simp)
    have h2 := hx 2 (by simp)
    simp [addTuples] at h0 h1 h2 hs hw
    obtain ⟨k0, k1, k2, k3⟩ := hw
    obtain rfl : w0 = 1 - w1 - w2 - w3 := by linarith
    refine ⟨?_, ?_, ?_, ?_⟩ <;> linarith
  · rintro ⟨k0, k1, k2, k3⟩
    refine ⟨[1 - (x - a) - (y - b) - (z - c), (x - a), (y - b), (z - c)], rfl, ?_, ?_, ?_⟩
    · intro c hc
      simp only [List.mem_cons, List.not_mem_nil, or_false] at hc
      rcases hc with rfl | rfl | rfl | rfl <;> assumption
    · simp; try ring
    · intro i hi
      simp only [List.length_cons, List.length_nil, Nat.zero_add, Nat.reduceAdd] at hi
      interval_cases i <;> simp [addTuples] <;> ring

theorem inHull_3_1 (a b c : Nat) (x y z : ℝ) :
    InHull (([[1, 0, 1], [1, 0, 0], [0, 0, 1], [0, 1, 0]] : List (List Nat)).map (addTuples [a, b, c])) [x, y, z] ↔
      0 ≤ (x - a) + (y - b) + (z - c) - 1 ∧ 0 ≤ 1 - (y - b) - (z - c) ∧ 0 ≤ 1 - (x - a) - (y - b) ∧ 0 ≤ (y - b) := by
  constructor
  · rintro ⟨w, hl, hw, hs, hx⟩
    obtain ⟨w0, w1, w2, w3, rfl⟩ := realList4 hl
    have h0 := hx 0 (by simp)
    have h1 := hx 1 (by simp)
    have h2 := hx 2 (by simp)
    simp [addTuples] at h0 h1 h2 hs hw
    obtain ⟨k0, k1, k2, k3⟩ := hw
    obtain rfl : w0 = 1 - w1 - w2 - w3 := by linarith
    refine ⟨?_, ?_, ?_, ?_⟩ <;> linarith
  · rintro ⟨k0, k1, k2, k3⟩
    refine ⟨[(x - a) + (y - b) + (z - c) - 1, 1 - (y - b) - (z - c), 1 - (x - a) - (y - b), (y - b)], rfl, ?_, ?_, ?_⟩
    · intro c hc
      simp only [List.mem_cons, List.not_mem_nil, or_false] at hc
      rcases hc with rfl | rfl | rfl | rfl <;> assumption
    · simp; try ring
    · intro i hi
      simp only [List.length_cons, List.length_nil, Nat.zero_add, Nat.reduceAdd] at hi
      interval_cases i <;> simp [addTuples] <;> ring

theorem inHullInterior_3_1 (a b c : Nat) (x y z : ℝ) :
    InHullInterior (([[1, 0, 1], [1, 0, 0], [0, 0, 1], [0, 1, 0]] : List (List Nat)).map (addTuples [a, b, c])) [x, y, z] ↔
      0 < (x - a) + (y - b) + (z - c) - 1 ∧ 0 < 1 - (y - b) - (z - c) ∧ 0 < 1 - (x - a) - (y - b) ∧ 0 < (y - b) := by
  constructor
  · rintro ⟨w, hl, hw, hs, hx⟩
    obtain ⟨w0, w1, w2, w3, rfl⟩ := realList4 hl
    have h0 := hx 0 (by simp)
    have h1 := hx 1 (by simp)
    have h2 := hx 2 (by simp)
    simp [addTuples] at h0 h1 h2 hs hw
    obtain ⟨k0, k1, k2, k3⟩ := hw
    obtain rfl : w0 = 1 - w1 - w2 - w3 := by linarith
    refine ⟨?_, ?_, ?_, ?_⟩ <;> linarith
  · rintro ⟨k0, k1, k2, k3⟩
    refine ⟨[(x - a) + (y - b) + (z - c) - 1, 1 - (y - b) - (z - c), 1 - (x - a) - (y - b), (y - b)], rfl, ?_, ?_, ?_⟩
    · intro c hc
      simp only [List.mem_cons, List.not_mem_nil, or_false] at hc
      rcases hc with rfl | rfl | rfl | rfl <;> assumption
    · simp; try ring
    · intro i hi
      simp only [List.length_cons, List.length_nil, Nat.zero_add, Nat.reduceAdd] at hi
      interval_cases i <;> simp [addTuples] <;> ring

theorem inHull_3_2 (a b c : Nat) (x y z : ℝ) :
    InHull (([[1, 0, 1], [0, 1, 1], [0, 1, 0], [0, 0, 1]] : List (List Nat)).map (addTuples [a, b, c])) [x, y, z] ↔
      0 ≤ (x - a) ∧ 0 ≤ (y - b) + (z - c) - 1 ∧ 0 ≤ 1 - (z - c) ∧ 0 ≤ 1 - (x - a) - (y - b) := by
  constructor
  · rintro ⟨w, hl, hw, hs, hx⟩
    obtain ⟨w0, w1, w2, w3, rfl⟩ := realList4 hl
    have h0 := hx 0 (by simp)
    have h1 := hx 1 (by simp)
    have h2 := hx 2 (by simp)
    simp [addTuples] at h0 h1 h2 hs hw
    obtain ⟨k0, k1, k2, k3⟩ := hw
    obtain rfl : w0 = 1 - w1 - w2 - w3 := by linarith
    refine ⟨?_, ?_, ?_, ?_⟩ <;> linarith
  · rintro ⟨k0, k1, k2, k3⟩
    refine ⟨[(x - a), (y - b) + (z - c) - 1, 1 - (z - c), 1 - (x - a) - (y - b)], rfl, ?_, ?_, ?_⟩
    · intro c hc
      simp only [List.mem_cons, List.not_mem_nil, or_false] at hc
      rcases hc with rfl | rfl | rfl | rfl <;> assumption
    · simp; try ring
    · intro i hi
      simp only [List.length_cons, List.length_nil, Nat.zero_add, Nat.reduceAdd] at hi
      interval_cases i <;> simp [addTuples] <;> ring

theorem inHullInterior_3_2 (a b c : Nat) (x y z : ℝ) :
    InHullInterior (([[1, 0, 1], [0, 1, 1], [0, 1, 0], [0, 0, 1]] : List (List Nat)).map (addTuples [a, b, c])) [x, y, z] ↔
      0 < (x - a) ∧ 0 < (y - b) + (z - c) - 1 ∧ 0 < 1 - (z - c) ∧ 0 < 1 - (x - a) - (y - b) := by
  constructor
  · rintro ⟨w, hl, hw, hs, hx⟩
    obtain ⟨w0, w1, w2, w3, rfl⟩ := realList4 hl
    have h0 := hx 0 (by simp)
    have h1 := hx 1 (by simp)
    have h2 := hx 2 (by simp)
    simp [addTuples] at h0 h1 h2 hs hw
    obtain ⟨k0, k1, k2, k3⟩ := hw
    obtain rfl : w0 = 1 - w1 - w2 - w3 := by linarith
    refine ⟨?_, ?_, ?_, ?_⟩ <;> linarith
  · rintro ⟨k0, k1, k2, k3⟩
    refine ⟨[(x - a), (y - b) + (z - c) - 1, 1 - (z - c), 1 - (x - a) - (y - b)], rfl, ?_, ?_, ?_⟩
    · intro c hc
      simp only [List.mem_cons, List.not_mem_nil, or_false] at hc
      rcases hc with rfl | rfl | rfl | rfl <;> assumption
    · simp; try ring
    · intro i hi
      simp only [List.length_cons, List.length_nil, Nat.zero_add, Nat.reduceAdd] at hi
      interval_cases i <;> simp [addTuples] <;> ring

theorem inHull_3_3 (a b c : Nat) (x y z : ℝ) :
    InHull (([[1, 0, 0], [0, 1, 0], [1, 0, 1], [1, 1, 0]] : List (List Nat)).map (addTuples [a, b, c])) [x, y, z] ↔
      0 ≤ 1 - (y - b) - (z - c) ∧ 0 ≤ 1 - (x - a) ∧ 0 ≤ (z - c) ∧ 0 ≤ (x - a) + (y - b) - 1 := by
  constructor
  · rintro ⟨w, hl, hw, hs, hx⟩
    obtain ⟨w0, w1, w2, w3, rfl⟩ := realList4 hl
    have h0 := hx 0 (by simp)
    have h1 := hx 1 (by simp)
    have h2 := hx 2 (by simp)
    simp [addTuples] at h0 h1 h2 hs hw
    obtain ⟨k0, k1, k2, k3⟩ := hw
    obtain rfl : w0 = 1 - w1 - w2 - w3 := by linarith
    refine ⟨?_, ?_, ?_, ?_⟩ <;> linarith
  · rintro ⟨k0, k1, k2, k3⟩
    refine ⟨[1 - (y - b) - (z - c), 1 - (x - a), (z - c), (x - a) + (y - b) - 1], rfl, ?_, ?_, ?_⟩
    · intro c hc
      simp only [List.mem_cons, List.not_mem_nil, or_false] at hc
      rcases hc with rfl | rfl | rfl | rfl <;> assumption
    · simp; try ring
    · intro i hi
      simp only [List.length_cons, List.length_nil, Nat.zero_add, Nat.reduceAdd] at hi
      interval_cases i <;> simp [addTuples] <;> ring

theorem inHullInterior_3_3 (a b c : Nat) (x y z : ℝ) :
    InHullInterior (([[1, 0, 0], [0, 1, 0], [1, 0, 1], [1, 1, 0]] : List (List Nat)).map (addTuples [a, b, c])) [x, y, z] ↔
      0 < 1 - (y - b) - (z - c) ∧ 0 < 1 - (x - a) ∧ 0 < (z - c) ∧ 0 < (x - a) + (y - b) - 1 := by
  constructor
  · rintro ⟨w, hl, hw, hs, hx⟩
    obtain ⟨w0, w1, w2, w3, rfl⟩ := realList4 hl
    have h0 := hx 0 (by simp)
    have h1 := hx 1 (by simp)
    have h2 := hx 2 (by simp)
    simp [addTuples] at h0 h1 h2 hs hw
    obtain ⟨k0, k1, k2, k3⟩ := hw
    obtain rfl : w0 = 1 - w1 - w2 - w3 := by linarith
    refine ⟨?_, ?_, ?_, ?_⟩ <;> linarith
  · rintro ⟨k0, k1, k2, k3⟩
    refine ⟨[1 - (y - b) - (z - c), 1 - (x - a), (z - c), (x - a) + (y - b) - 1], rfl, ?_, ?_, ?_⟩
    · intro c hc
      simp only [List.mem_cons, List.not_mem_nil, or_false] at hc
      rcases hc with rfl | rfl | rfl | rfl <;> assumption
    · simp; try ring
    · intro i hi
      simp only [List.length_cons, List.length_nil, Nat.zero_add, Nat.reduceAdd] at hi
      interval_cases i <;> simp [addTuples] <;> ring

theorem inHull_3_4 (a b c : Nat) (x y z : ℝ) :
    InHull (([[0, 1, 1], [0, 1, 0], [1, 1, 0], [1, 0, 1]] : List (List Nat)).map (addTuples [a, b, c])) [x, y, z] ↔
      0 ≤ (y - b) + (z - c) - 1 ∧ 0 ≤ 2 - (x - a) - (y - b) - (z - c) ∧ 0 ≤ (x - a) + (y - b) - 1 ∧ 0 ≤ 1 - (y - b) := by
  constructor
  · rintro ⟨w, hl, hw, hs, hx⟩
    obtain ⟨w0, w1, w2, w3, rfl⟩ := realList4 hl
    have h0 := hx 0 (by simp)
    have h1 := hx 1 (by simp)
    have h2 := hx 2 (by simp)
    simp [addTuples] at h0 h1 h2 hs hw
    obtain ⟨k0, k1, k2, k3⟩ := hw
    obtain rfl : w0 = 1 - w1 - w2 - w3 := by linarith
    refine ⟨?_, ?_, ?_, ?_⟩ <;> linarith
  · rintro ⟨k0, k1, k2, k3⟩
    refine ⟨[(y - b) + (z - c) - 1, 2 - (x - a) - (y - b) - (z - c), (x - a) + (y - b) - 1, 1 - (y - b)], rfl, ?_, ?_, ?_⟩
    · intro c hc
      simp only [List.mem_cons, List.not_mem_nil, or_false] at hc
      rcases hc with rfl | rfl | rfl | rfl <;> assumption
    · simp; try ring
    · intro i hi
      simp only [List.length_cons, List.length_nil, Nat.zero_add, Nat.reduceAdd] at hi
      interval_cases i <;> simp [addTuples] <;> ring

theorem inHullInterior_3_4 (a b c : Nat) (x y z : ℝ) :
    InHullInterior (([[0, 1, 1], [0, 1, 0], [1, 1, 0], [1, 0, 1]] : List (List Nat)).map (addTuples [a, b, c])) [x, y, z] ↔
      0 < (y - b) + (z - c) - 1 ∧ 0 < 2 - (x - a) - (y - b) - (z - c) ∧ 0 < (x - a) + (y - b) - 1 ∧ 0 < 1 - (y - b) := by
  constructor
  · rintro ⟨w, hl, hw, hs, hx⟩
    obtain ⟨w0, w1, w2, w3, rfl⟩ := realList4 hl
    have h0 := hx 0 (by simp)
    have h1 := hx 1 (by simp)
    have h2 := hx 2 (by simp)
    simp [addTuples] at h0 h1 h2 hs hw
    obtain ⟨k0, k1, k2, k3⟩ := hw
    obtain rfl : w0 = 1 - w1 - w2 - w3 := by linarith
    refine ⟨?_, ?_, ?_, ?_⟩ <;> linarith
  · rintro ⟨k0, k1, k2, k3⟩
    refine ⟨[(y - b) + (z - c) - 1, 2 - (x - a) - (y - b) - (z - c), (x - a) + (y - b) - 1, 1 - (y - b)], rfl, ?_, ?_, ?_⟩
    · intro c hc
      simp only [List.mem_cons, List.not_mem_nil, or_false] at hc
      rcases hc with rfl | rfl | rfl | rfl <;> assumption
    · simp; try ring
    · intro i hi
      simp only [List.length_cons, List.length_nil, Nat.zero_add, Nat.reduceAdd] at hi
      interval_cases i <;> simp [addTuples] <;> ring

theorem inHull_3_5 (a b c : Nat) (x y z : ℝ) :
    InHull (([[0, 1, 1], [1, 1, 1], [1, 0, 1], [1, 1, 0]] : List (List Nat)).map (addTuples [a, b, c])) [x, y, z] ↔
      0 ≤ 1 - (x - a) ∧ 0 ≤ (x - a) + (y - b) + (z - c) - 2 ∧ 0 ≤ 1 - (y - b) ∧ 0 ≤ 1 - (z - c) := by
  constructor
  · rintro ⟨w, hl, hw, hs, hx⟩
    obtain ⟨w0, w1, w2, w3, rfl⟩ := realList4 hl
    have h0 := hx 0 (by simp)
    have h1 := hx 1 (by simp)
    have h2 := hx 2 (by simp)
    simp [addTuples] at h0 h1 h2 hs hw
    obtain ⟨k0, k1, k2, k3⟩ := hw
    obtain rfl : w0 = 1 - w1 - w2 - w3 := by linarith
    refine ⟨?_, ?_, ?_, ?_⟩ <;> linarith
  · rintro ⟨k0, k1, k2, k3⟩
    refine ⟨[1 - (x - a), (x - a) + (y - b) + (z - c) - 2, 1 - (y - b), 1 - (z - c)], rfl, ?_, ?_, ?_⟩
    · intro c hc
      simp only [List.mem_cons, List.not_mem_nil, or_false] at hc
      rcases hc with rfl | rfl | rfl | rfl <;> assumption
    · simp; try ring
    · intro i hi
      simp only [List.length_cons, List.length_nil, Nat.zero_add, Nat.reduceAdd] at hi
      interval_cases i <;> simp [addTuples] <;> ring

theorem inHullInterior_3_5 (a b c : Nat) (x y z : ℝ) :
    InHullInterior (([[0, 1, 1], [1, 1, 1], [1, 0, 1], [1, 1, 0]] : List (List Nat)).map (addTuples [a, b, c])) [x, y, z] ↔
      0 < 1 - (x - a) ∧ 0 < (x - a) + (y - b) + (z - c) - 2 ∧ 0 < 1 - (y - b) ∧ 0 < 1 - (z - c) := by
  constructor
  · rintro ⟨w, hl, hw, hs, hx⟩
    obtain ⟨w0, w1, w2, w3, rfl⟩ := realList4 hl
    have h0 := hx 0 (by simp)
    have h1 := hx 1 (by simp)
    have h2 := hx 2 (by simp)
    simp [addTuples] at h0 h1 h2 hs hw
    obtain ⟨k0, k1, k2, k3⟩ := hw
    obtain rfl : w0 = 1 - w1 - w2 - w3 := by linarith
    refine ⟨?_, ?_, ?_, ?_⟩ <;> linarith
  · rintro ⟨k0, k1, k2, k3⟩
    refine ⟨[1 - (x - a), (x - a) + (y - b) + (z - c) - 2, 1 - (y - b), 1 - (z - c)], rfl, ?_, ?_, ?_⟩
    · intro c hc
      simp only [List.mem_cons, List.not_mem_nil, or_false] at hc
      rcases hc with rfl | rfl | rfl | rfl <;> assumption
    · simp; try ring
    · intro i hi
      simp only [List.length_cons, List.length_nil, Nat.zero_add, Nat.reduceAdd] at hi
      interval_cases i <;> simp [addTuples] <;> ring

end Modepy

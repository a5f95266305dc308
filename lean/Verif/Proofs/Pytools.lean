import Verif.Proofs.NdArray
import Mathlib.Data.List.Basic
import Mathlib.Data.List.Nodup
import Mathlib.Data.Nat.Choose.Sum

namespace Modepy.Pytools

theorem mem_gnitsam (d : Nat) : ∀ (n : Nat) (t : List Nat),
    t ∈ gnitsam n d ↔ t.length = d ∧ t.sum ≤ n := by
  induction d with
  | zero => intro n t; simp [gnitsam, List.length_eq_zero_iff]; rintro rfl; simp
  | succ d ih =>
    intro n t
    simp only [gnitsam, List.mem_flatMap, List.mem_range, List.mem_map, ih]
    constructor
    · rintro ⟨i, hi, t', ⟨hl, hs⟩, rfl⟩
      constructor
      · simp [hl]
      · simp; omega
    · rintro ⟨hl, hs⟩
      have hne : t ≠ [] := by rintro rfl; simp at hl
      refine ⟨t.getLast hne, ?_, t.dropLast, ⟨by simp [hl], ?_⟩, List.dropLast_append_getLast hne⟩
      · have : t.sum = t.dropLast.sum + t.getLast hne := by
          conv_lhs => rw [← List.dropLast_append_getLast hne]
          simp
        omega
      · have : t.sum = t.dropLast.sum + t.getLast hne := by
          conv_lhs => rw [← List.dropLast_append_getLast hne]
          simp
        omega

theorem nodup_gnitsam (d : Nat) : ∀ n, (gnitsam n d).Nodup := by
  induction d with
  | zero => intro n; simp [gnitsam]
  | succ d ih =>
    intro n
    simp only [gnitsam]
    rw [List.nodup_flatMap]
    refine ⟨fun i _ => (ih _).map (fun a b h => by simpa using h), ?_⟩
    apply List.Pairwise.imp_of_mem _ List.nodup_range
    intro i j _ _ hij
    simp only [Function.onFun, List.disjoint_left, List.mem_map]
    rintro t ⟨a, _, rfl⟩ ⟨b, _, h⟩
    have := congrArg List.getLast? h
    simp at this
    exact hij this.symm

theorem length_gnitsam (d : Nat) : ∀ n, (gnitsam n d).length = Nat.choose (n + d) d := by
  induction d with
  | zero => intro n; simp [gnitsam]
  | succ d ih =>
    intro n
    simp only [gnitsam, List.length_flatMap, List.length_map, ih]
    induction n with
    | zero => simp
    | succ n ihn =>
      rw [List.range_succ_eq_map]
      simp only [List.map_cons, List.map_map, List.sum_cons]
      have : (List.map ((fun i => (n + 1 - i + d).choose d) ∘ Nat.succ) (List.range (n+1))) =
          List.map (fun i => (n - i + d).choose d) (List.range (n+1)) := by
        apply List.map_congr_left
        intro i _
        simp only [Function.comp]
        congr 2
        omega
      rw [this, ihn]
      have h := Nat.choose_succ_succ (n + 1 + d) d
      simp only [Nat.sub_zero]
      rw [show n + 1 + (d + 1) = (n + 1 + d) + 1 by ring, show (n + 1 + d + 1).choose (d + 1) = _ from h,
        show n + (d + 1) = n + 1 + d by ring]

theorem mem_gnitb (ns : List Nat) (t : List Nat) :
    t ∈ gnitb ns ↔ NdArray.Valid ns t := by
  induction ns generalizing t with
  | nil => cases t <;> simp [gnitb]
  | cons n ns ih =>
    simp only [gnitb, List.mem_flatMap, List.mem_range, List.mem_map, ih]
    cases t with
    | nil => simp
    | cons a t => simp

end Modepy.Pytools

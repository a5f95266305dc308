import Verif.Model.NdArray
import Verif.Model.Pytools
import Verif.Spec.Index
import Mathlib.Tactic.Ring
import Mathlib.Tactic.Linarith
import Mathlib.Algebra.BigOperators.Group.List.Basic

namespace Modepy.NdArray

open Modepy

@[simp] theorem size_nil : size [] = 1 := rfl
@[simp] theorem size_cons (s ss) : size (s :: ss) = s * size ss := rfl

theorem size_eq_prod (s : List Nat) : size s = s.prod := by
  induction s with
  | nil => rfl
  | cons a s ih => simp [ih]

theorem size_append (a b : List Nat) : size (a ++ b) = size a * size b := by
  simp [size_eq_prod]

@[simp] theorem size_reverse (a : List Nat) : size a.reverse = size a := by
  simp [size_eq_prod, List.prod_reverse]

@[simp] theorem valid_nil_nil : Valid [] [] := trivial
@[simp] theorem valid_cons_cons (s ss i is) : Valid (s :: ss) (i :: is) ↔ i < s ∧ Valid ss is :=
  Iff.rfl
@[simp] theorem not_valid_nil_cons (i is) : ¬ Valid [] (i :: is) := fun h => h
@[simp] theorem not_valid_cons_nil (s ss) : ¬ Valid (s :: ss) [] := fun h => h

theorem Valid.length {s i : List Nat} (h : Valid s i) : i.length = s.length := by
  induction s generalizing i with
  | nil => cases i with
    | nil => rfl
    | cons => exact absurd h (by simp)
  | cons a s ih => cases i with
    | nil => exact absurd h (by simp)
    | cons b i => simp [ih h.2]

theorem valid_append {a b i j : List Nat} (hi : i.length = a.length) :
    Valid (a ++ b) (i ++ j) ↔ Valid a i ∧ Valid b j := by
  induction a generalizing i with
  | nil => cases i with
    | nil => simp
    | cons => simp at hi
  | cons x a ih => cases i with
    | nil => simp at hi
    | cons y i => simp at hi; simp [ih hi, and_assoc]

theorem valid_reverse {s i : List Nat} : Valid s.reverse i.reverse ↔ Valid s i := by
  induction s generalizing i with
  | nil => cases i with
    | nil => simp
    | cons x i =>
      constructor
      · intro h; have := h.length; simp at this
      · intro h; have := h.length; simp at this
  | cons x s ih => cases i with
    | nil =>
      constructor
      · intro h; have := h.length; simp at this
      · intro h; have := h.length; simp at this
    | cons y i =>
      by_cases hl : i.length = s.length
      · rw [List.reverse_cons, List.reverse_cons, valid_append (by simp [hl]), ih]
        simp [and_comm]
      · constructor
        · intro h; have := h.length; simp at this; exact absurd this hl
        · intro h; have := h.length; simp at this; exact absurd this hl

theorem Valid.getElem {s i : List Nat} (h : Valid s i) (j : Nat) (hj : j < i.length) :
    i[j] < s[j]'(by rw [← h.length]; exact hj) := by
  induction s generalizing i j with
  | nil => cases i with
    | nil => simp at hj
    | cons => exact absurd h (by simp)
  | cons a s ih => cases i with
    | nil => exact absurd h (by simp)
    | cons b i => cases j with
      | zero => exact h.1
      | succ j => simpa using ih h.2 j (by simpa using hj)

theorem valid_iff {s i : List Nat} :
    Valid s i ↔ i.length = s.length ∧ ∀ j (h : j < i.length) (h' : j < s.length), i[j] < s[j] := by
  constructor
  · intro h; exact ⟨h.length, fun j hj _ => h.getElem j hj⟩
  · rintro ⟨hl, h⟩
    induction s generalizing i with
    | nil => cases i with
      | nil => trivial
      | cons => simp at hl
    | cons a s ih => cases i with
      | nil => simp at hl
      | cons b i =>
        simp at hl
        refine ⟨h 0 (by simp) (by simp), ih hl ?_⟩
        intro j h1 h2
        exact h (j+1) (by simpa using h1) (by simpa using h2)

@[simp] theorem ravelF_nil (i) : ravelF [] i = 0 := by cases i <;> rfl
@[simp] theorem ravelF_nil_right (s) : ravelF s [] = 0 := by cases s <;> rfl
@[simp] theorem ravelF_cons (s ss i is) : ravelF (s :: ss) (i :: is) = i + s * ravelF ss is := rfl
@[simp] theorem unravelF_nil (k) : unravelF [] k = [] := rfl
@[simp] theorem unravelF_cons (s ss k) :
    unravelF (s :: ss) k = (k % s) :: unravelF ss (k / s) := rfl

@[simp] theorem length_unravelF (s k) : (unravelF s k).length = s.length := by
  induction s generalizing k with
  | nil => rfl
  | cons a s ih => simp [ih]

theorem ravelF_lt {s i : List Nat} (h : Valid s i) : ravelF s i < size s := by
  induction s generalizing i with
  | nil => simp
  | cons a s ih => cases i with
    | nil => exact absurd h (by simp)
    | cons b i =>
      have h1 := h.1
      have h2 := ih h.2
      simp only [ravelF_cons, size_cons]
      calc b + a * ravelF s i < a + a * ravelF s i := by omega
        _ = a * (ravelF s i + 1) := by ring
        _ ≤ a * size s := Nat.mul_le_mul_left _ h2

theorem unravelF_ravelF {s i : List Nat} (h : Valid s i) : unravelF s (ravelF s i) = i := by
  induction s generalizing i with
  | nil => cases i with
    | nil => rfl
    | cons => exact absurd h (by simp)
  | cons a s ih => cases i with
    | nil => exact absurd h (by simp)
    | cons b i =>
      have h1 := h.1
      have hpos : 0 < a := by omega
      simp [Nat.add_mul_mod_self_left, Nat.mod_eq_of_lt h1, Nat.add_mul_div_left _ _ hpos,
        Nat.div_eq_of_lt h1, ih h.2]

theorem valid_unravelF {s : List Nat} {k : Nat} (h : k < size s) : Valid s (unravelF s k) := by
  induction s generalizing k with
  | nil => simp
  | cons a s ih =>
    simp only [size_cons] at h
    have hpos : 0 < a := by
      rcases Nat.eq_zero_or_pos a with rfl | h'
      · simp at h
      · exact h'
    exact ⟨Nat.mod_lt _ hpos, ih (Nat.div_lt_of_lt_mul h)⟩

theorem ravelF_unravelF {s : List Nat} {k : Nat} (h : k < size s) :
    ravelF s (unravelF s k) = k := by
  induction s generalizing k with
  | nil => simp at h; simp [h]
  | cons a s ih =>
    simp only [size_cons] at h
    simp [ih (Nat.div_lt_of_lt_mul h), Nat.mod_add_div]

theorem ravelF_append {a b i j : List Nat} (hi : i.length = a.length) :
    ravelF (a ++ b) (i ++ j) = ravelF a i + size a * ravelF b j := by
  induction a generalizing i with
  | nil => cases i with
    | nil => simp
    | cons => simp at hi
  | cons x a ih => cases i with
    | nil => simp at hi
    | cons y i => simp at hi; simp [ih hi]; ring

theorem unravelF_append (a b : List Nat) (k : Nat) :
    unravelF (a ++ b) k = unravelF a k ++ unravelF b (k / size a) := by
  induction a generalizing k with
  | nil => simp
  | cons x a ih => simp [ih, Nat.div_div_eq_div_mul]

theorem unravelF_add_mul (a : List Nat) (k m : Nat) :
    unravelF a (k + size a * m) = unravelF a k := by
  induction a generalizing k m with
  | nil => simp
  | cons x a ih =>
    rcases Nat.eq_zero_or_pos x with rfl | hx
    · simp
    · simp only [size_cons, unravelF_cons]
      have : k + x * size a * m = k + x * (size a * m) := by ring
      rw [this, Nat.add_mul_mod_self_left, Nat.add_mul_div_left _ _ hx, ih]

theorem getD_unravelF (s : List Nat) (k i : Nat) (hi : i < s.length) :
    (unravelF s k).getD i 0 = Spec.digit s k i := by
  induction s generalizing k i with
  | nil => simp at hi
  | cons a s ih =>
    cases i with
    | zero => simp [Spec.digit]
    | succ i =>
      have := ih (k / a) i (by simpa using hi)
      simp only [unravelF_cons, List.getD_cons_succ]
      rw [this]
      simp [Spec.digit, Nat.div_div_eq_div_mul]

theorem unravelF_eq_map_digit (s : List Nat) (k : Nat) :
    unravelF s k = (List.range s.length).map (Spec.digit s k) := by
  apply List.ext_getElem
  · simp
  · intro i h1 h2
    have := getD_unravelF s k i (by simpa using h1)
    simp only [List.getD_eq_getElem?_getD, List.getElem?_eq_getElem h1, Option.getD_some] at this
    simp [this]

/-! C order -/

@[simp] theorem length_unravelC (s k) : (unravelC s k).length = s.length := by
  simp [unravelC]

theorem ravelC_lt {s i : List Nat} (h : Valid s i) : ravelC s i < size s := by
  have := ravelF_lt (valid_reverse.2 h)
  simpa [ravelC] using this

theorem unravelC_ravelC {s i : List Nat} (h : Valid s i) : unravelC s (ravelC s i) = i := by
  unfold unravelC ravelC
  rw [unravelF_ravelF (valid_reverse.2 h), List.reverse_reverse]

theorem valid_unravelC {s : List Nat} {k : Nat} (h : k < size s) : Valid s (unravelC s k) := by
  unfold unravelC
  rw [← valid_reverse, List.reverse_reverse]
  exact valid_unravelF (by simpa using h)

theorem ravelC_unravelC {s : List Nat} {k : Nat} (h : k < size s) :
    ravelC s (unravelC s k) = k := by
  unfold unravelC ravelC
  rw [List.reverse_reverse]
  exact ravelF_unravelF (by simpa using h)

end Modepy.NdArray

namespace Modepy.Pytools
open NdArray

theorem flatMap_range_eq {α : Type*} (n m : Nat) (f : Nat → Nat → α) :
    (List.range n).flatMap (fun i => (List.range m).map (f i)) =
      (List.range (n * m)).map (fun k => f (k / m) (k % m)) := by
  induction n with
  | zero => simp
  | succ n ih =>
    rw [List.range_succ, List.flatMap_append, ih, Nat.succ_mul, List.range_add, List.map_append]
    congr 1
    simp only [List.flatMap_cons, List.flatMap_nil, List.append_nil, List.map_map]
    apply List.map_congr_left
    intro k hk
    rw [List.mem_range] at hk
    have hm : 0 < m := by omega
    have h1 : (n * m + k) / m = n := by
      rw [Nat.mul_comm, Nat.mul_add_div hm, Nat.div_eq_of_lt hk]; rfl
    have h2 : (n * m + k) % m = k := by
      rw [Nat.mul_comm, Nat.mul_add_mod, Nat.mod_eq_of_lt hk]
    simp [h1, h2]

/-- `gnitb` lists the C-order multi-indices. -/
theorem gnitb_eq (ns : List Nat) :
    gnitb ns = (List.range (size ns)).map (unravelC ns) := by
  induction ns with
  | nil => simp [gnitb, unravelC]
  | cons n ns ih =>
    simp only [gnitb, ih, List.map_map, size_cons]
    have := flatMap_range_eq n (size ns) (fun i k => i :: unravelC ns k)
    refine this.trans ?_
    apply List.map_congr_left
    intro k hk
    rw [List.mem_range] at hk
    unfold unravelC
    rw [List.reverse_cons, unravelF_append]
    simp only [size_reverse, unravelF_cons, unravelF_nil, List.reverse_append, List.reverse_cons,
      List.reverse_nil, List.nil_append, List.cons_append]
    congr 1
    · rw [Nat.mod_eq_of_lt]
      exact Nat.div_lt_of_lt_mul (by rwa [Nat.mul_comm])
    · congr 1
      conv_rhs => rw [← Nat.mod_add_div k (size ns)]
      have := unravelF_add_mul ns.reverse (k % size ns) (k / size ns)
      rw [size_reverse] at this
      exact this.symm

theorem gnitb_reverse_map_reverse (ns : List Nat) :
    (gnitb ns.reverse).map List.reverse = (List.range (size ns)).map (unravelF ns) := by
  rw [gnitb_eq, List.map_map, size_reverse]
  apply List.map_congr_left
  intro k _
  simp [unravelC]

end Modepy.Pytools

import Verif.Model.Py

/-!
# `pytools` generators used by modepy

`pytools` is a dependency of modepy and is not part of `/repo`; these are transcriptions of the
documented behaviour of the generators modepy calls (recorded in the trusted base, DESIGN.md).
Generators become lists in generation order.
-/

namespace Modepy.Pytools

/-- `pytools.generate_nonnegative_integer_tuples_summing_to_at_most(n, length)`:
`length == 0` yields `()`, otherwise for `i in range(n+1)`, for each remainder of
`(n-i, length-1)`, yield `remainder + (i,)` (first entry varies fastest). -/
def gnitsam (n : Nat) : Nat → List (List Nat)
  | 0 => [[]]
  | len + 1 => (List.range (n + 1)).flatMap fun i => (gnitsam (n - i) len).map (· ++ [i])

/-- `pytools.generate_nonnegative_integer_tuples_below(n_seq)`: lexicographic order,
first entry varies slowest. -/
def gnitb : List Nat → List (List Nat)
  | [] => [[]]
  | n :: ns => (List.range n).flatMap fun i => (gnitb ns).map (i :: ·)

/-- `pytools.add_tuples(t1, t2) = tuple(a+b for a, b in zip(t1, t2))`. -/
def addTuples (a b : List Nat) : List Nat := List.zipWith (· + ·) a b

/-- `pytools.wandering_element(length, wanderer=1, landscape=0)`. -/
def wanderingElement {α : Type} (length : Nat) (wanderer landscape : α) : List (List α) :=
  (List.range length).map fun i =>
    List.replicate i landscape ++ [wanderer] ++ List.replicate (length - 1 - i) landscape

/-- `pytools.is_single_valued(iterable)`: raises (`StopIteration` → `ValueError`) on an empty
iterable, otherwise whether all elements equal the first. -/
def isSingleValued {α : Type} [DecidableEq α] : List α → Py Bool
  | [] => .error .ValueError
  | a :: as => .ok (as.all (· = a))

/-- `pytools.single_valued(iterable)`: the common value; raises on an empty iterable and asserts
that all are equal. -/
def singleValued {α : Type} [DecidableEq α] : List α → Py α
  | [] => .error .ValueError
  | a :: as => if as.all (· = a) then .ok a else .error .AssertionError

/-- `pytools.generate_decreasing_nonnegative_tuples_summing_to(n, length, min_value=0, max_value)`
for `length ≥ 1` with an explicit `max_value` (Grundmann–Möller calls it with `max_value=None`,
i.e. `n`). -/
def decreasingTuples (n : Nat) : Nat → Nat → List (List Nat)
  | 0, _ => [[]]
  | 1, mx => if n ≤ mx then [[n]] else []
  | len + 2, mx =>
      (List.range (min n mx + 1)).flatMap fun i =>
        (decreasingTuples (n - i) (len + 1) i).map (i :: ·)

/-- `pytools.generate_permutations(original)`. -/
def permutations {α : Type} : List α → List (List α)
  | [] => [[]]
  | a :: as =>
      (permutations as).flatMap fun p =>
        (List.range (p.length + 1)).map fun i => p.take i ++ [a] ++ p.drop i

/-- `pytools.generate_unique_permutations(original)`: permutations with later duplicates dropped
(`had_those` set). -/
def uniquePermutations {α : Type} [DecidableEq α] (l : List α) : List (List α) :=
  (permutations l).foldl (fun acc p => if p ∈ acc then acc else acc ++ [p]) []

end Modepy.Pytools

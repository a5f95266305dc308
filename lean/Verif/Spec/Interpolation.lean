import Mathlib.Algebra.BigOperators.Group.Finset.Basic
import Mathlib.Data.Fintype.Basic
import Mathlib.Algebra.Field.Defs
import Verif.Model.NdArray

/-!
# Linear combinations and unisolvence (specification vocabulary)
-/

namespace Modepy.Spec

variable {K : Type*} [Field K] {X : Type*}

/-- The function `∑ⱼ cⱼ φⱼ`. -/
def combine {n : Nat} (φ : Fin n → X → K) (c : Fin n → K) (x : X) : K := ∑ j, c j * φ j x

/-- Only the zero combination of the functions vanishes at all nodes. -/
def Unisolvent {n m : Nat} (φ : Fin n → X → K) (nodes : Fin m → X) : Prop :=
  ∀ c : Fin n → K, (∀ i, combine φ c (nodes i) = 0) → c = 0

/-- `ℓ` are the Lagrange functions of the nodes in the span of `φ`: combinations of the `φⱼ` with
value one at their own node and zero at the others. -/
def IsLagrangeBasis {n : Nat} (φ : Fin n → X → K) (nodes : Fin n → X) (ℓ : Fin n → X → K) : Prop :=
  ∃ C : Fin n → Fin n → K, (∀ i, ℓ i = combine φ (C i)) ∧
    ∀ i j, ℓ i (nodes j) = if i = j then 1 else 0

/-- Node `k` of an array of `d`-dimensional nodes: its column `k`. -/
def column {α : Type*} (A : NdArray α) (d k : Nat) : List α :=
  (List.range d).map fun r => A.get [r, k]

/-- Coordinates `0` and `k` exchanged. -/
def swapAt {α : Type*} (k : Nat) (l : List α) : List α :=
  match l[0]?, l[k]? with
  | some a, some b => (l.set 0 b).set k a
  | _, _ => l

end Modepy.Spec

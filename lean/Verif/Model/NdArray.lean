import Verif.Model.Py

/-!
# NumPy arrays as (shape, index function)

A NumPy array of shape `s` is a total function on multi-indices of which only the values at valid
multi-indices (`Valid s idx`) are observable.  `reshapeF`/`reshapeC` are NumPy's `reshape` with
`order="F"` / `order="C"`: both sides are read through the linear index of that order.
-/

namespace Modepy

/-- An array: a shape and a value for every multi-index. -/
structure NdArray (α : Type _) where
  shape : List Nat
  get : List Nat → α

namespace NdArray

/-- Valid multi-indices of a shape. -/
def Valid : List Nat → List Nat → Prop
  | [], [] => True
  | s :: ss, i :: is => i < s ∧ Valid ss is
  | _, _ => False

/-- Number of elements. -/
def size : List Nat → Nat
  | [] => 1
  | s :: ss => s * size ss

/-- Linear index in Fortran order (first axis fastest). -/
def ravelF : List Nat → List Nat → Nat
  | s :: ss, i :: is => i + s * ravelF ss is
  | _, _ => 0

/-- Multi-index of a linear index in Fortran order. -/
def unravelF : List Nat → Nat → List Nat
  | [], _ => []
  | s :: ss, k => (k % s) :: unravelF ss (k / s)

/-- Linear index in C order (last axis fastest). -/
def ravelC (s i : List Nat) : Nat := ravelF s.reverse i.reverse

/-- Multi-index of a linear index in C order. -/
def unravelC (s : List Nat) (k : Nat) : List Nat := (unravelF s.reverse k).reverse

/-- `a.reshape(newshape, order="F")`; raises `ValueError` when the sizes differ. -/
def reshapeF {α : Type _} (a : NdArray α) (newshape : List Nat) : Py (NdArray α) :=
  if size newshape = size a.shape then
    .ok ⟨newshape, fun idx => a.get (unravelF a.shape (ravelF newshape idx))⟩
  else .error .ValueError

/-- `a.reshape(newshape)` (C order). -/
def reshapeC {α : Type _} (a : NdArray α) (newshape : List Nat) : Py (NdArray α) :=
  if size newshape = size a.shape then
    .ok ⟨newshape, fun idx => a.get (unravelC a.shape (ravelC newshape idx))⟩
  else .error .ValueError

/-- Observable equality of arrays (same shape, same value at every valid index). -/
def Same {α : Type _} (a b : NdArray α) : Prop :=
  a.shape = b.shape ∧ ∀ idx, Valid a.shape idx → a.get idx = b.get idx

end NdArray
end Modepy

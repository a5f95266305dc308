import Verif.Model.Nodes

/-!
# `modepy.shapes`: submeshes (shapes.py 572-704)
-/

namespace Modepy

/-- `node_dict = {ituple: idx for idx, ituple in enumerate(node_tuples)}; node_dict[t]`
(shapes.py 599-601, 692): `none` is the suppressed `KeyError`; the last occurrence wins. -/
def nodeIndex (nts : List (List Nat)) (t : List Nat) : Option Nat :=
  ((nts.zipIdx.reverse).find? (fun p => p.1 = t)).map (·.2)

/-- `try_add_*` (shapes.py 606-611, 622-630, 652-661; 695-699): the element with the given offsets
from `current`, if all its nodes exist. -/
def tryAdd (nts : List (List Nat)) (current : List Nat) (offsets : List (List Nat)) :
    Option (List Nat) :=
  offsets.mapM fun o => nodeIndex nts (Pytools.addTuples current o)

/-- The loops `for current in node_tuples: try_add(...); try_add(...)`. -/
def collectElements (nts : List (List Nat)) (table : List (List (List Nat))) : List (List Nat) :=
  nts.flatMap fun current => table.filterMap (tryAdd nts current)

/-- The elements tried around each node, by dimension (shapes.py 613-614, 638-639, 669-675). -/
def simplexOffsets : Nat → Option (List (List (List Nat)))
  | 1 => some [[[0], [1]]]
  | 2 => some [[[0, 0], [1, 0], [0, 1]],
               [[1, 0], [1, 1], [0, 1]]]
  | 3 => some [[[0, 0, 0], [1, 0, 0], [0, 1, 0], [0, 0, 1]],
               [[1, 0, 1], [1, 0, 0], [0, 0, 1], [0, 1, 0]],
               [[1, 0, 1], [0, 1, 1], [0, 1, 0], [0, 0, 1]],
               [[1, 0, 0], [0, 1, 0], [1, 0, 1], [1, 1, 0]],
               [[0, 1, 1], [0, 1, 0], [1, 1, 0], [1, 0, 1]],
               [[0, 1, 1], [1, 1, 1], [1, 0, 1], [1, 1, 0]]]
  | _ => none

/-- `submesh_for_simplex` (shapes.py 591-678).  The dimension is that of the node tuples, not of
the shape. -/
def submeshForSimplex (nts : List (List Nat)) : Py (List (List Nat)) :=
  match Pytools.singleValued (nts.map List.length) with
  | .error e => .error e
  | .ok dims =>
      match simplexOffsets dims with
      | none => .error .NotImplementedError
      | some table => .ok (collectElements nts table)

/-- `submesh_for_hypercube` (shapes.py 681-704), registered for all tensor product shapes. -/
def submeshForTP (shape : Shape) (nts : List (List Nat)) : Py (List (List Nat)) :=
  match Space.forShape shape (.int 1) with
  | .error e => .error e
  | .ok space => .ok (collectElements nts [nodeTuples space])

/-- `submesh_for_shape` (singledispatch). -/
def submeshForShape : Shape → List (List Nat) → Py (List (List Nat))
  | .simplex _, nts => submeshForSimplex nts
  | s, nts => submeshForTP s nts

end Modepy

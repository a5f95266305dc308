import Verif.Model.Spaces
import Mathlib.Algebra.Field.Defs

/-!
# `modepy.nodes`: node tuples and equispaced nodes (nodes.py 84-113, 488-509, 551-582)
-/

namespace Modepy

/-- `_node_tuples_for_pn` (nodes.py 488-493). -/
def nodeTuplesPN (s : PNSpace) : List (List Nat) := Pytools.gnitsam s.order s.spatialDim

/-- `_node_tuples_for_tp` (nodes.py 551-566): index tuples from `gnitb` on the reversed lengths,
each reversed again, then concatenation of the selected base tuples. -/
def nodeTuplesTP (bases : List PNSpace) : List (List Nat) :=
  let tuples := bases.map nodeTuplesPN
  let idx := (Pytools.gnitb (tuples.reverse.map List.length)).map List.reverse
  idx.map fun tp => (List.zipWith (fun (ts : List (List Nat)) j => ts.getD j []) tuples tp).flatten

/-- `node_tuples_for_space` (singledispatch, nodes.py 456-458, 488, 551). -/
def nodeTuples : Space → List (List Nat)
  | .pn s => nodeTuplesPN s
  | s => nodeTuplesTP s.flatBases

section Equispaced
variable {K : Type*} [Field K]

/-- `np.mean(unit_vertices_for_shape(Simplex(d)), axis=1).reshape(-1, 1)` (nodes.py 106-108,
503-506). -/
def simplexCentroid (d : Nat) : NdArray K :=
  ⟨[d, 1], fun idx =>
    ((List.range (d + 1)).map fun k =>
      (((Shape.unitVerticesSimplex d).get [idx.headD 0, k] : Int) : K)).sum / ((d + 1 : Nat) : K)⟩

/-- `(np.array(node_tuples)/order*2 - 1).T` (nodes.py 111, 508). -/
def scaledTuples (d order : Nat) (tuples : List (List Nat)) : NdArray K :=
  ⟨[d, tuples.length], fun idx =>
    match idx with
    | [i, k] => ((((tuples.getD k []).getD i 0 : Nat) : K) / (order : K)) * 2 - 1
    | _ => 0⟩

/-- `equidistant_nodes(dims, n, node_tuples)` (nodes.py 84-113). -/
def equidistantNodes (dims n : Nat) (tuples : Option (List (List Nat))) : Py (NdArray K) :=
  let space : PNSpace := ⟨dims, n⟩
  match tuples with
  | some ts =>
      if ts.length ≠ space.spaceDim then .error .ValueError
      else if n = 0 then .ok (simplexCentroid dims) else .ok (scaledTuples dims n ts)
  | none =>
      if n = 0 then .ok (simplexCentroid dims)
      else .ok (scaledTuples dims n (nodeTuplesPN space))

/-- `_equispaced_nodes_for_pn` with a simplex of dimension `d` (nodes.py 496-509). -/
def equispacedPN (s : PNSpace) (d : Nat) : Py (NdArray K) :=
  if s.spatialDim ≠ d then .error .ValueError
  else if s.order = 0 then .ok (simplexCentroid d)
  else .ok (scaledTuples d s.order (nodeTuplesPN s))

/-- `equispaced_nodes_for_space(space, shape)` (nodes.py 496-509, 569-582).
`zip(..., strict=True)` raises `ValueError` on a length mismatch; a class mismatch raises
`NotImplementedError`. -/
def equispacedNodes (space : Space) (shape : Shape) : Py (NdArray K) :=
  match space, shape with
  | .pn s, .simplex d => equispacedPN s d
  | .pn _, _ => .error .NotImplementedError
  | _, .simplex _ => .error .NotImplementedError
  | space, shape =>
      if space.spatialDim ≠ shape.dim then .error .ValueError
      else
        match collect (List.zipWith equispacedPN space.flatBases shape.flatBases) with
        | .error e => .error e
        | .ok nodesets =>
            if space.flatBases.length ≠ shape.flatBases.length then .error .ValueError
            else tensorProductNodes 0 nodesets

end Equispaced
end Modepy

import Verif.Model.TensorNodes
import Verif.Model.Pytools

/-!
# `modepy.shapes` (shapes.py): shapes, reference vertices

Shape objects.  The library's only non-product shape class is `Simplex`; after flattening, the
bases of a product are simplices, so a product is represented by the list of the base dimensions.
User-defined `Shape` subclasses and negative dimensions are not modelled.
-/

namespace Modepy

/-- Shape instances, by class (shapes.py 335 `TensorProductShape`, 402 `Simplex`,
473 `Hypercube`).  `tp bases` holds the dims of the (flattened) `Simplex` bases. -/
inductive Shape where
  | simplex (dim : Nat)
  | tp (bases : List Nat)
  | hypercube (dim : Nat)
  deriving DecidableEq, Repr

namespace Shape

/-- `shape.bases` of product shapes; a non-product contributes itself
(shapes.py 361-364: `s.bases if isinstance(s, TensorProductShape) else (s,)`). -/
def flatBases : Shape → List Nat
  | simplex d => [d]
  | tp bs => bs
  | hypercube d => List.replicate d 1

/-- `isinstance(s, TensorProductShape)`. -/
def isTP : Shape → Bool
  | simplex _ => false
  | _ => true

/-- `shape.dim` (shapes.py 244, 373, 490). -/
def dim : Shape → Nat
  | simplex d => d
  | tp bs => bs.sum
  | hypercube d => (List.replicate d 1).sum

/-- `TensorProductShape.__init__` (shapes.py 359-375): flatten, check, store. -/
def tpInit (bases : List Shape) : Py (List Nat) :=
  let flat := bases.flatMap flatBases
  let nsegments := (flat.filter (· = 1)).length
  if nsegments + 1 < flat.length then .error .NotImplementedError
  else .ok flat

/-- The call `TensorProductShape(bases)`: `__new__` (shapes.py 353-357) followed by Python's rule
that `type(obj).__init__(obj, *args)` runs when the object returned by `__new__` is an instance of
the called class.  For a one-tuple, `__new__` returns the single base: a simplex is returned as is;
a `TensorProductShape` is re-initialised from itself; a `Hypercube` gets `Hypercube.__init__` with
a tuple as `dim`, and `(Simplex(1),) * dim` (shapes.py 490) raises `TypeError`. -/
def mkTP (bases : List Shape) : Py Shape :=
  match bases with
  | [simplex d] => .ok (simplex d)
  | [hypercube _] => .error .TypeError
  | bases => (tpInit bases).map tp

/-- The call `Hypercube(dim)` (shapes.py 483-490). -/
def mkHypercube (dim : Nat) : Py Shape :=
  if dim = 1 then .ok (simplex 1)
  else (tpInit (List.replicate dim (simplex 1))).map fun _ => hypercube dim

/-- `Simplex.nvertices` (shapes.py 413-414) and `Simplex.nfaces` (408-409). -/
def simplexCount (d : Nat) : Nat := d + 1

/-- `shape.nvertices` (shapes.py 379-380, 413-414). -/
def nvertices : Shape → Nat
  | simplex d => simplexCount d
  | s => (s.flatBases.map simplexCount).prod

/-- Python's `sorted` (stable, ascending) on dims. -/
def insertSorted (x : Nat) : List Nat → List Nat
  | [] => [x]
  | y :: ys => if y ≤ x then y :: insertSorted x ys else x :: y :: ys

/-- Insertion sort standing for `sorted(self.bases, key=lambda s: s.dim)`. -/
def sorted (l : List Nat) : List Nat := l.foldr insertSorted []

/-- `TensorProductShape.nfaces` (shapes.py 384-387): `*segments, shape = sorted(...)` raises
`ValueError` on an empty list, `segments[0]` raises `IndexError` on an empty `segments`. -/
def nfacesTP (bases : List Nat) : Py Nat :=
  match (sorted bases).getLast? with
  | none => .error .ValueError
  | some shape =>
      match (sorted bases).dropLast with
      | [] => .error .IndexError
      | s0 :: segs => .ok (simplexCount shape + (s0 :: segs).length * simplexCount s0)

/-- `shape.nfaces`. -/
def nfaces : Shape → Py Nat
  | simplex d => .ok (simplexCount d)
  | s => nfacesTP s.flatBases

/-- `unit_vertices_for_simplex` (shapes.py 422-430), shape `(dim, dim+1)`. -/
def unitVerticesSimplex (d : Nat) : NdArray Int :=
  ⟨[d, d + 1], fun idx =>
    match idx with
    | [i, k] => if k = i + 1 then 1 else -1
    | _ => 0⟩

/-- `unit_vertices_for_shape` (shapes.py 390-395, 422-430). -/
def unitVertices : Shape → Py (NdArray Int)
  | simplex d => .ok (unitVerticesSimplex d)
  | s => tensorProductNodes 0 (s.flatBases.map unitVerticesSimplex)

end Shape
end Modepy

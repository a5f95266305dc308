import Verif.Model.Shapes
import Mathlib.Data.Nat.Choose.Basic

/-!
# `modepy.spaces` (spaces.py)

As for shapes, the flattened bases of a product space are `PN` spaces, represented by
`(spatial_dim, order)`.
-/

namespace Modepy

/-- A `PN` space (spaces.py 200-236). -/
structure PNSpace where
  spatialDim : Nat
  order : Nat
  deriving DecidableEq, Repr

/-- `PN.space_dim` (spaces.py 228-230): `comb(order + spatial_dim, spatial_dim)`. -/
def PNSpace.spaceDim (s : PNSpace) : Nat := Nat.choose (s.order + s.spatialDim) s.spatialDim

/-- Function space instances by class (spaces.py 113, 200, 249). `qn d n` is a `QN` instance with
`spatial_dim = d ≠ 1`. -/
inductive Space where
  | pn (s : PNSpace)
  | tp (bases : List PNSpace)
  | qn (dim order : Nat)
  deriving DecidableEq, Repr

namespace Space

/-- `space.bases if isinstance(space, TensorProductSpace) else (space,)` (spaces.py 138-141). -/
def flatBases : Space → List PNSpace
  | pn s => [s]
  | tp bs => bs
  | qn d n => List.replicate d ⟨1, n⟩

/-- `isinstance(space, TensorProductSpace)`. -/
def isTP : Space → Bool
  | pn _ => false
  | _ => true

/-- The call `TensorProductSpace(bases)` (spaces.py 131-141).  As for shapes, Python re-runs
`__init__` of the object's own class when `__new__` returns a `TensorProductSpace` instance: for a
`QN` that is `QN.__init__(self, bases)` with the argument `order` missing, a `TypeError`. -/
def mkTP (bases : List Space) : Py Space :=
  match bases with
  | [pn s] => .ok (pn s)
  | [qn _ _] => .error .TypeError
  | bases => .ok (tp (bases.flatMap flatBases))

/-- The call `QN(spatial_dim, order)` (spaces.py 266-273). -/
def mkQN (dim order : Nat) : Space :=
  if dim = 1 then pn ⟨1, order⟩ else qn dim order

/-- `space.spatial_dim` (spaces.py 160-161, 223-224). -/
def spatialDim : Space → Nat
  | pn s => s.spatialDim
  | s => (s.flatBases.map PNSpace.spatialDim).sum

/-- `space.space_dim` (spaces.py 165-166, 228-230). -/
def spaceDim : Space → Nat
  | pn s => s.spaceDim
  | s => (s.flatBases.map PNSpace.spaceDim).prod

/-- `space.order` (spaces.py 149-156, 217-219, 277-279).  For `TensorProductSpace`,
`is_single_valued` raises on an empty list; unequal orders raise `AttributeError`; `QN` reads
`bases[0].order`, an `IndexError` in dimension zero. -/
def order : Space → Py Nat
  | pn s => .ok s.order
  | tp bs =>
      match Pytools.isSingleValued (bs.map PNSpace.order) with
      | .error e => .error e
      | .ok false => .error .AttributeError
      | .ok true => .ok ((bs.map PNSpace.order).headD 0)
  | qn d n => if d = 0 then .error .IndexError else .ok n

/-- The `order` argument of `space_for_shape`: an integer or a tuple. -/
inductive OrderArg where
  | int (n : Nat)
  | tuple (ns : List Nat)
  deriving DecidableEq, Repr

/-- `space_for_shape` (spaces.py 176-193 and 239-242).  For a simplex a tuple order fails the
assertion in line 241. -/
def forShape : Shape → OrderArg → Py Space
  | .simplex d, .int n => .ok (pn ⟨d, n⟩)
  | .simplex _, .tuple _ => .error .AssertionError
  | s, .int n => mkTP (s.flatBases.map fun d => pn ⟨d, n⟩)
  | s, .tuple ns =>
      if ns.length = s.flatBases.length then
        mkTP (List.zipWith (fun d n => pn ⟨d, n⟩) s.flatBases ns)
      else .error .ValueError

end Space
end Modepy

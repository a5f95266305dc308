import Verif.Model.Spaces

/-!
# Pickling of shapes and spaces (shapes.py 335-375, 402-414, 473-494; spaces.py 113-145, 200-214, 249-273)

The interpreter's default protocol for class instances: `object.__reduce_ex__(4)` records the class, the positional arguments
returned by `__getnewargs__` (none if the class does not define it) and the instance dictionary; loading calls
`cls.__new__(cls, *args)`, without `__init__`, and updates the dictionary of the object returned.  `copy.copy` and
`copy.deepcopy` follow the same protocol.  Objects are trees here: the memo table, which preserves sharing, is not modelled.
-/

namespace Modepy

/-- The classes of shapes and spaces. -/
inductive PyCls where
  | Simplex | TensorProductShape | Hypercube | PN | TensorProductSpace | QN
  deriving DecidableEq, Repr

/-- Python objects: integers, tuples, and instances with their dictionary. -/
inductive PyObj where
  | int (n : Nat)
  | tuple (l : List PyObj)
  | inst (cls : PyCls) (attrs : List (String × PyObj))

/-- The content of a pickle; `reduce cls args state` is the triple of `__reduce_ex__`. -/
inductive Pickled where
  | int (n : Nat)
  | tuple (l : List Pickled)
  | reduce (cls : PyCls) (args : List Pickled) (state : List (String × Pickled))

/-- The attributes returned by `cls.__getnewargs__` (shapes.py 492-494: `(self.dim,)`; spaces.py 143-145: `(self.bases,)`,
inherited by `QN`).  The other classes do not define it. -/
def PyCls.newArgs : PyCls → List String
  | .Hypercube => ["dim"]
  | .TensorProductSpace => ["bases"]
  | .QN => ["bases"]
  | .Simplex => []
  | .TensorProductShape => []
  | .PN => []

/-- Attribute lookup in an instance dictionary. -/
def getattr {α : Type} (attrs : List (String × α)) (name : String) : Py α :=
  match attrs.find? (·.1 = name) with
  | some p => .ok p.2
  | none => .error .AttributeError

mutual
/-- `pickle.dumps(obj)`. -/
def dumps : PyObj → Py Pickled
  | .int n => .ok (.int n)
  | .tuple l =>
      match dumpsList l with
      | .ok l => .ok (.tuple l)
      | .error e => .error e
  | .inst cls attrs =>
      match dumpsAttrs attrs with
      | .error e => .error e
      | .ok state =>
          match collect (cls.newArgs.map (getattr state)) with
          | .error e => .error e
          | .ok args => .ok (.reduce cls args state)
/-- The items of a tuple. -/
def dumpsList : List PyObj → Py (List Pickled)
  | [] => .ok []
  | o :: l =>
      match dumps o with
      | .error e => .error e
      | .ok p =>
          match dumpsList l with
          | .error e => .error e
          | .ok ps => .ok (p :: ps)
/-- The instance dictionary. -/
def dumpsAttrs : List (String × PyObj) → Py (List (String × Pickled))
  | [] => .ok []
  | (k, o) :: l =>
      match dumps o with
      | .error e => .error e
      | .ok p =>
          match dumpsAttrs l with
          | .error e => .error e
          | .ok ps => .ok ((k, p) :: ps)
end

/-- `cls.__new__(cls, *args)` (shapes.py 353-357, 483-487; spaces.py 131-135, 266-270; `object.__new__` otherwise).  A wrong
number of arguments, or `len` of something that is not a tuple, is a `TypeError`. -/
def pyNew : PyCls → List PyObj → Py PyObj
  | .Simplex, [] => .ok (.inst .Simplex [])
  | .PN, [] => .ok (.inst .PN [])
  | .TensorProductShape, [.tuple [b]] => .ok b
  | .TensorProductShape, [.tuple _] => .ok (.inst .TensorProductShape [])
  | .Hypercube, [.int 1] => .ok (.inst .Simplex [("dim", .int 1)])
  | .Hypercube, [_] => .ok (.inst .Hypercube [])
  | .TensorProductSpace, [.tuple [b]] => .ok b
  | .TensorProductSpace, [.tuple _] => .ok (.inst .TensorProductSpace [])
  | .QN, [.int 1, n] => .ok (.inst .PN [("_order", n), ("_spatial_dim", .int 1)])
  | .QN, [_, _] => .ok (.inst .QN [])
  | _, _ => .error .TypeError

/-- `d.update(state)` for one item: existing keys keep their place. -/
def setItem (d : List (String × PyObj)) (k : String) (v : PyObj) : List (String × PyObj) :=
  match d with
  | [] => [(k, v)]
  | (k', v') :: d => if k' = k then (k, v) :: d else (k', v') :: setItem d k v

/-- `obj.__dict__.update(state)`; integers and tuples have no instance dictionary. -/
def pyBuild (o : PyObj) (state : List (String × PyObj)) : Py PyObj :=
  match o with
  | .inst cls d => .ok (.inst cls (state.foldl (fun d p => setItem d p.1 p.2) d))
  | _ => .error .AttributeError

mutual
/-- `pickle.loads(data)`. -/
def loads : Pickled → Py PyObj
  | .int n => .ok (.int n)
  | .tuple l =>
      match loadsList l with
      | .ok l => .ok (.tuple l)
      | .error e => .error e
  | .reduce cls args state =>
      match loadsList args with
      | .error e => .error e
      | .ok args =>
          match pyNew cls args with
          | .error e => .error e
          | .ok o =>
              match loadsState state with
              | .error e => .error e
              | .ok state => pyBuild o state
/-- The items of a tuple. -/
def loadsList : List Pickled → Py (List PyObj)
  | [] => .ok []
  | o :: l =>
      match loads o with
      | .error e => .error e
      | .ok p =>
          match loadsList l with
          | .error e => .error e
          | .ok ps => .ok (p :: ps)
/-- The instance dictionary. -/
def loadsState : List (String × Pickled) → Py (List (String × PyObj))
  | [] => .ok []
  | (k, o) :: l =>
      match loads o with
      | .error e => .error e
      | .ok p =>
          match loadsState l with
          | .error e => .error e
          | .ok ps => .ok ((k, p) :: ps)
end

/-- `pickle.loads(pickle.dumps(obj))`. -/
def reload (o : PyObj) : Py PyObj :=
  match dumps o with
  | .error e => .error e
  | .ok p => loads p

/-- `Simplex(dim)`: the dataclass field of `Shape` (shapes.py 242-244, 402-403). -/
def simplexObj (d : Nat) : PyObj := .inst .Simplex [("dim", .int d)]

/-- The object of a shape: attributes in the order in which `__init__` sets them (shapes.py 373-375). -/
def Shape.toObj : Shape → PyObj
  | .simplex d => simplexObj d
  | .tp bs => .inst .TensorProductShape [("dim", .int bs.sum), ("bases", .tuple (bs.map simplexObj))]
  | .hypercube d => .inst .Hypercube
      [("dim", .int (List.replicate d 1).sum), ("bases", .tuple ((List.replicate d 1).map simplexObj))]

/-- `PN(spatial_dim, order)` (spaces.py 209-213). -/
def pnObj (s : PNSpace) : PyObj := .inst .PN [("_order", .int s.order), ("_spatial_dim", .int s.spatialDim)]

/-- The object of a space (spaces.py 137-141, 272-273). -/
def Space.toObj : Space → PyObj
  | .pn s => pnObj s
  | .tp bs => .inst .TensorProductSpace [("bases", .tuple (bs.map pnObj))]
  | .qn d n => .inst .QN [("bases", .tuple ((List.replicate d ⟨1, n⟩).map pnObj))]

end Modepy

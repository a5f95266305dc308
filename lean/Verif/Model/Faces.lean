import Verif.Model.Shapes
import Mathlib.Analysis.SpecialFunctions.Sqrt
import Mathlib.Data.Real.Sign

/-!
# `modepy.shapes`: faces, face maps, normals (shapes.py 266-320, 433-466, 497-565)

Points are single columns, given as lists of coordinates (NumPy's broadcasting over the node axis
applies the code column by column).
-/

namespace Modepy

/-- A `Face` (shapes.py 266-284, mixed with its own shape class 417, 497). -/
structure Face where
  /-- the face as a `Shape` -/
  shape : Shape
  volumeShape : Shape
  faceIndex : Nat
  volumeVertexIndices : List Nat
  mapToVolume : List ℝ → Py (List ℝ)

/-- `vertices[:, fvi]` as a real array. -/
noncomputable def selectColumns (v : NdArray Int) (fvi : List Nat) : NdArray ℝ :=
  ⟨[rows v, fvi.length], fun idx =>
    match idx with
    | [i, k] => ((v.get [i, fvi.getD k 0] : Int) : ℝ)
    | _ => 0⟩

/-- `origin + einsum("ij,jk->ik", face_basis, (1+p)/2)` with `nb` basis columns, for one point. -/
noncomputable def affineFaceMap (fv : NdArray ℝ) (dim nb : Nat) (p : List ℝ) : List ℝ :=
  (List.range dim).map fun i =>
    fv.get [i, 0] +
      ((List.range nb).map fun j =>
        (fv.get [i, j + 1] - fv.get [i, 0]) * ((1 + p.getD j 0) / 2)).sum

/-- `origin + einsum("ij,jk->ik", face_basis, (1+p)/2)` with `nb` basis columns for one point whose number of rows is not
`nb`: `einsum` repeats an axis of length one, other lengths are a `ValueError`. -/
noncomputable def broadcastFaceMap (fv : NdArray ℝ) (dim nb : Nat) (p : List ℝ) : Py (List ℝ) :=
  if p.length = 1 then
    .ok ((List.range dim).map fun i =>
      fv.get [i, 0] + ((List.range nb).map fun j => (fv.get [i, j + 1] - fv.get [i, 0]) * ((1 + p.getD 0 0) / 2)).sum)
  else if nb = 1 then
    .ok ((List.range dim).map fun i =>
      fv.get [i, 0] + (p.map fun t => (fv.get [i, 1] - fv.get [i, 0]) * ((1 + t) / 2)).sum)
  else .error .ValueError

/-- `_simplex_face_to_vol_map` (shapes.py 433-444). -/
noncomputable def simplexFaceToVolMap (fv : NdArray ℝ) (p : List ℝ) : Py (List ℝ) :=
  let dim := rows fv
  let npoints := ncols fv
  if npoints ≠ dim then .error .ValueError
  else if p.length ≠ npoints - 1 then broadcastFaceMap fv dim (npoints - 1) p
  else .ok (affineFaceMap fv dim (npoints - 1) p)

/-- `_SIMPLEX_FACES` (shapes.py 447-451); other keys raise `KeyError`. -/
def simplexFaces : Nat → Py (List (List Nat))
  | 1 => .ok [[0], [1]]
  | 2 => .ok [[0, 1], [2, 0], [1, 2]]
  | 3 => .ok [[0, 2, 1], [0, 1, 3], [0, 3, 2], [1, 2, 3]]
  | _ => .error .KeyError

/-- `faces_for_simplex` (shapes.py 454-466). -/
noncomputable def facesForSimplex (d : Nat) : Py (List Face) :=
  (simplexFaces d).map fun tbl =>
    tbl.zipIdx.map fun (fvi, iface) =>
      { shape := .simplex (d - 1), volumeShape := .simplex d, faceIndex := iface,
        volumeVertexIndices := fvi,
        mapToVolume := simplexFaceToVolMap (selectColumns (Shape.unitVerticesSimplex d) fvi) }

/-- `_hypercube_face_to_vol_map` (shapes.py 516-534): `face_vertices[:, 1:3]` has
`min(2, npoints-1)` columns. -/
noncomputable def hypercubeFaceToVolMap (fv : NdArray ℝ) (p : List ℝ) : Py (List ℝ) :=
  let dim := rows fv
  let npoints := ncols fv
  if 2 * npoints ≠ 2 ^ dim then .error .ValueError
  else if dim ≤ 3 then
    if p.length ≠ min 2 (npoints - 1) then broadcastFaceMap fv dim (min 2 (npoints - 1)) p
    else .ok (affineFaceMap fv dim (min 2 (npoints - 1)) p)
  else .error .NotImplementedError

/-- `_HYPERCUBE_FACES` (shapes.py 537-550). -/
def hypercubeFaces : Nat → Py (List (List Nat))
  | 1 => .ok [[0b0], [0b1]]
  | 2 => .ok [[0b00, 0b01], [0b11, 0b10], [0b10, 0b00], [0b01, 0b11]]
  | 3 => .ok [[0b000, 0b010, 0b001, 0b011], [0b100, 0b101, 0b110, 0b111],
              [0b000, 0b100, 0b010, 0b110], [0b001, 0b011, 0b101, 0b111],
              [0b000, 0b001, 0b100, 0b101], [0b010, 0b110, 0b011, 0b111]]
  | _ => .error .KeyError

/-- `faces_for_hypercube` (shapes.py 553-565); `_HypercubeFace(dim=1)` is a simplex face
(shapes.py 505-509). -/
noncomputable def facesForHypercube (d : Nat) : Py (List Face) :=
  match hypercubeFaces d, Shape.unitVertices (.hypercube d), Shape.mkHypercube (d - 1) with
  | .ok tbl, .ok verts, .ok fshape =>
      .ok (tbl.zipIdx.map fun (fvi, iface) =>
        { shape := fshape, volumeShape := .hypercube d, faceIndex := iface,
          volumeVertexIndices := fvi,
          mapToVolume := hypercubeFaceToVolMap (selectColumns verts fvi) })
  | .error e, _, _ => .error e
  | _, .error e, _ => .error e
  | _, _, .error e => .error e

/-- `faces_for_shape` (singledispatch, shapes.py 323-328, 454, 553): no implementation is registered
for general products. -/
noncomputable def facesForShape : Shape → Py (List Face)
  | .simplex d => facesForSimplex d
  | .hypercube d => facesForHypercube d
  | .tp _ => .error .NotImplementedError

/-- `face_normal` (shapes.py 287-320).  The geometric-algebra computation (wedge of the edge vectors,
optional division by its norm, dual) is written out: for a face of dimension 1 in the plane the dual
of `(a, b)` is `(b, -a)`, for a face of dimension 2 in space it is the cross product.  Faces exist
only in these dimensions. -/
noncomputable def faceNormal (f : Face) (normalize : Bool := true) : Py (List ℝ) :=
  match Shape.unitVertices f.volumeShape with
  | .error e => .error e
  | .ok verts =>
      let fv := selectColumns verts f.volumeVertexIndices
      match f.shape.dim with
      | 0 => .ok [Real.sign (fv.get [0, 0])]
      | 1 =>
          let a := fv.get [0, 1] - fv.get [0, 0]
          let b := fv.get [1, 1] - fv.get [1, 0]
          let nrm := if normalize then Real.sqrt (a ^ 2 + b ^ 2) else 1
          .ok [b / nrm, -(a / nrm)]
      | 2 =>
          let v i := fv.get [i, 1] - fv.get [i, 0]
          let w i := fv.get [i, 2] - fv.get [i, 0]
          let n0 := v 1 * w 2 - v 2 * w 1
          let n1 := v 2 * w 0 - v 0 * w 2
          let n2 := v 0 * w 1 - v 1 * w 0
          let nrm := if normalize then Real.sqrt (n0 ^ 2 + n1 ^ 2 + n2 ^ 2) else 1
          .ok [n0 / nrm, n1 / nrm, n2 / nrm]
      | _ => .error .NotImplementedError

end Modepy

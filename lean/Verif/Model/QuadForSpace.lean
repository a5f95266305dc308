import Verif.Model.Gauss
import Verif.Model.GrundmannMoeller
import Verif.Model.Spaces
import Verif.Model.Tools

/-!
# `quadrature_for_space` (quadrature/__init__.py 302-356) and `XiaoGimbutasSimplexQuadrature`
(quadrature/xiao_gimbutas.py 45-80)

The tables in `xg_quad_data.py` are numerical data and are a parameter of the model.
-/

namespace Modepy
open NdArray

/-- One entry of a table in `xg_quad_data.py`: `points` of shape `(n, d)` and `weights`. -/
structure XgRule (d : Nat) where
  n : Nat
  points : Matrix (Fin n) (Fin d) ℝ
  weights : Fin n → ℝ

/-- `triangle_table` and `tetrahedron_table`; `none` stands for a `KeyError`. -/
structure XgTables where
  triangle : Nat → Option (XgRule 2)
  tetrahedron : Nat → Option (XgRule 3)

/-- A two-dimensional array with the entries of a matrix. -/
def NdArray.ofMatrix {d p : Nat} (m : Matrix (Fin d) (Fin p) ℝ) : NdArray ℝ :=
  ⟨[d, p], fun idx =>
    match idx with
    | [i, j] => if h : i < d ∧ j < p then m ⟨i, h.1⟩ ⟨j, h.2⟩ else 0
    | _ => 0⟩

/-- Mapping of a table entry to unit coordinates (xiao_gimbutas.py 74-80). -/
noncomputable def xgBuild {d : Nat} (e2u : AffineMap d) (r : XgRule d) (order : Nat) : Quadrature :=
  ⟨ofMatrix (e2u.call r.points.transpose), NdArray.ofFn fun k => r.weights k * e2u.jacobian,
    some (.num order), none⟩

/-- `XiaoGimbutasSimplexQuadrature(order, dims)` (xiao_gimbutas.py 49-80). -/
noncomputable def xiaoGimbutas (tables : XgTables) (order dims : Nat) : Py Quadrature :=
  if dims = 2 then
    match tables.triangle order with
    | none => .error .QuadratureRuleUnavailable
    | some r => .ok (xgBuild equilateralToUnitMap2 r order)
  else if dims = 3 then
    match tables.tetrahedron order with
    | none => .error .QuadratureRuleUnavailable
    | some r => .ok (xgBuild equilateralToUnitMap3 r order)
  else .error .QuadratureRuleUnavailable

/-- `assert quad.exact_to >= order`, returning `quad`. -/
def assertExact (quad : Quadrature) (order : Nat) : Py Quadrature :=
  match quad.getExactTo with
  | .error e => .error e
  | .ok e =>
      match pyCmp .ge e (.num order) with
      | .error e => .error e
      | .ok true => .ok quad
      | .ok false => .error .AssertionError

/-- `_quadrature_for_pn(space, shape)` (313-333). -/
noncomputable def quadratureForPn (ext : Ext) (tables : XgTables) (space : PNSpace) (shape : Shape) :
    Py Quadrature :=
  match shape with
  | .simplex dim =>
      if space.spatialDim ≠ dim then .error .ValueError
      else
        let quad : Py Quadrature :=
          if space.spatialDim = 0 then .ok Quadrature.zeroDimensional
          else if space.spatialDim = 1 then legendreGaussQuadrature ext space.order .builtin true
          else
            match xiaoGimbutas tables space.order space.spatialDim with
            | .error .QuadratureRuleUnavailable => grundmannMoeller (space.order / 2) space.spatialDim
            | r => r
        match quad with
        | .error e => .error e
        | .ok quad => assertExact quad space.order
  | _ => .error .NotImplementedError

/-- `assert all(quad.exact_to >= getattr(s, "order", 0) for s in space.bases)`, returning `quad`. -/
def assertExactAll (quad : Quadrature) : List PNSpace → Py Quadrature
  | [] => .ok quad
  | s :: rest =>
      match assertExact quad s.order with
      | .error e => .error e
      | .ok _ => assertExactAll quad rest

/-- The comprehension over `zip(space.bases, shape.bases, strict=True)` (348-351): pairs are processed until one
raises; only then is a length mismatch noticed. -/
noncomputable def quadraturesForBases (ext : Ext) (tables : XgTables) (bases : List PNSpace) (dims : List Nat) :
    Py (List Quadrature) :=
  match collect (List.zipWith (fun sp d => quadratureForPn ext tables sp (.simplex d)) bases dims) with
  | .error e => .error e
  | .ok quads => if bases.length = dims.length then .ok quads else .error .ValueError

/-- `_quadrature_for_tp(space, shape)` (336-356).  For a shape that is not a product, line 342 reads the
attribute `__name` of a class: an `AttributeError`. -/
noncomputable def quadratureForTp (ext : Ext) (tables : XgTables) (space : Space) (shape : Shape) :
    Py Quadrature :=
  match shape with
  | .simplex _ => .error .AttributeError
  | shape =>
      if space.spatialDim ≠ shape.dim then .error .ValueError
      else
        let quad : Py Quadrature :=
          if space.spatialDim = 0 then .ok Quadrature.zeroDimensional
          else
            match quadraturesForBases ext tables space.flatBases shape.flatBases with
            | .error e => .error e
            | .ok quads => Quadrature.tensorProduct quads
        match quad with
        | .error e => .error e
        | .ok quad => assertExactAll quad space.flatBases

/-- `quadrature_for_space(space, shape)` (302-309): dispatch on the class of the space. -/
noncomputable def quadratureForSpace (ext : Ext) (tables : XgTables) (space : Space) (shape : Shape) :
    Py Quadrature :=
  match space with
  | .pn s => quadratureForPn ext tables s shape
  | space => quadratureForTp ext tables space shape

end Modepy

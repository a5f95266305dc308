import Verif.Model.QuadForSpace

/-!
# Rules read from tables: `WitherdenVincentQuadrature`, `JaskowiecSukumarQuadrature`,
`VioreanuRokhlinSimplexQuadrature` and `XiaoGimbutasSimplexQuadrature`

The tables themselves are in `Model/TableWv`, `Model/TableJs`, `Model/TableVr` and `Model/TableXg`.  A decimal
literal `x` of a data file is stored as the integer `x * 10^digits`, so that no entry is rounded.
-/

namespace Modepy
open NdArray

/-- An entry of the tables with the fields `quad_degree`, `points` (one row per coordinate) and `weights`. -/
structure TableRule where
  quadDegree : Nat
  points : List (List Int)
  weights : List Int

/-- An entry of `triangle_table_orig` or `tetrahedron_table_orig` in xg_quad_data.py, with the fields `points`
(one row per point) and `weights`. -/
structure XgTableRule where
  points : List (List Int)
  weights : List Int

namespace Table

/-- A minus sign in a table; the tables are elaborated much faster with a function than with the notation. -/
abbrev m (n : Int) : Int := Int.neg n

/-- The decimal that a stored integer stands for. -/
noncomputable def decimal (digits : Nat) (n : Int) : ℝ := n / 10 ^ digits

/-- `np.array(rows)` for rows of equal length. -/
noncomputable def array2 (digits : Nat) (rows : List (List Int)) : NdArray ℝ :=
  ⟨[rows.length, (rows.headD []).length], fun idx =>
    match idx with
    | [i, j] => decimal digits ((rows.getD i []).getD j 0)
    | _ => 0⟩

/-- `np.array(row)`. -/
noncomputable def array1 (digits : Nat) (row : List Int) : NdArray ℝ :=
  ⟨[row.length], fun idx =>
    match idx with
    | [j] => decimal digits (row.getD j 0)
    | _ => 0⟩

/-- An array of shape `(d, n)` as a matrix, for `AffineMap.__call__`. -/
noncomputable def toMatrix (d n : Nat) (a : NdArray ℝ) : Matrix (Fin d) (Fin n) ℝ :=
  Matrix.of fun i j => a.get [i, j]

/-- `process_rule` in vr_quad_data_tri.py 13-24 and vr_quad_data_tet.py 13-24: empty lists among the rows of
`points` are dropped (`weights` has no lists). -/
def processPoints (rows : List (List Int)) : List (List Int) := rows.filter fun r => decide (r.length ≠ 0)

end Table

open Table

/-- `WitherdenVincentQuadrature(order, dims)` (witherden_vincent.py 50-68), given `quad_data` and `hex_data`. -/
noncomputable def witherdenVincent (quadData hexData : List (Int × TableRule)) (order dims : Int) : Py Quadrature :=
  let build (table : List (Int × TableRule)) : Py Quadrature :=
    match table.lookup order with
    | none => .error .QuadratureRuleUnavailable
    | some rule => .ok ⟨array2 19 rule.points, array1 19 rule.weights, some (.num rule.quadDegree), none⟩
  if dims = 2 then build quadData
  else if dims = 3 then build hexData
  else .error .QuadratureRuleUnavailable

/-- `JaskowiecSukumarQuadrature(order, dims)` (jaskowiec_sukumar.py 49-67), given `tet_data`. -/
noncomputable def jaskowiecSukumar (tetData : List (Int × TableRule)) (order dims : Int) : Py Quadrature :=
  if dims = 3 then
    match tetData.lookup order with
    | none => .error .QuadratureRuleUnavailable
    | some rule =>
        let points := array2 25 rule.points
        let weights := array1 25 rule.weights
        .ok ⟨⟨points.shape, fun i => 2 * points.get i - 1⟩, ⟨weights.shape, fun i => 4 / 3 * weights.get i⟩,
          some (.num rule.quadDegree), none⟩
  else .error .QuadratureRuleUnavailable

/-- The part of `VioreanuRokhlinSimplexQuadrature.__init__` after the table has been chosen
(vioreanu_rokhlin.py 91-102). -/
noncomputable def vrBuild {d : Nat} (e2u : AffineMap d) (refVolume : ℝ) (table : List (Int × TableRule))
    (order : Int) : Py Quadrature :=
  match table.lookup order with
  | none => .error .QuadratureRuleUnavailable
  | some rule =>
      let points := array2 35 (processPoints rule.points)
      let n := points.shape.getD 1 0
      let nodes := ofMatrix (e2u.call (toMatrix d n points))
      let wts := array1 35 rule.weights
      let total := ((List.range rule.weights.length).map fun k => wts.get [k]).sum
      .ok ⟨nodes, ⟨wts.shape, fun i => wts.get i * (refVolume / total)⟩, some (.num rule.quadDegree), none⟩

/-- `VioreanuRokhlinSimplexQuadrature(order, dims)` (vioreanu_rokhlin.py 70-102), given `triangle_data` and
`tetrahedron_data`. -/
noncomputable def vioreanuRokhlin (triData tetData : List (Int × TableRule)) (order dims : Int) : Py Quadrature :=
  if dims = 2 then vrBuild equilateralToUnitMap2 2 triData order
  else if dims = 3 then vrBuild equilateralToUnitMap3 (4 / 3) tetData order
  else .error .QuadratureRuleUnavailable

/-- An entry of the Xiao-Gimbutas tables as arrays (xg_quad_data.py, `triangle_table` and `tetrahedron_table`). -/
noncomputable def XgTableRule.toRule (d : Nat) (r : XgTableRule) : XgRule d where
  n := r.weights.length
  points := Matrix.of fun k i => decimal 35 ((r.points.getD k []).getD i 0)
  weights := fun k => decimal 35 (r.weights.getD k 0)

/-- `triangle_table` and `tetrahedron_table` (xg_quad_data.py) from the dictionaries with the suffix `_orig`. -/
noncomputable def XgTables.ofData (triData tetData : List (Int × XgTableRule)) : XgTables where
  triangle := fun order => (triData.lookup (order : Int)).map (XgTableRule.toRule 2)
  tetrahedron := fun order => (tetData.lookup (order : Int)).map (XgTableRule.toRule 3)

end Modepy

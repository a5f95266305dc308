import Verif.Model.Matrices
import Verif.Model.Shapes
import Mathlib.LinearAlgebra.Matrix.Notation
import Mathlib.Data.Real.Sqrt

/-!
# `modepy.tools`: monomials, affine maps and simplex coordinates (tools.py 80-247)

Exact real arithmetic; a point is a list of coordinates, evaluation on batches is columnwise.
Memoisation of `AffineMap.jacobian` and `AffineMap.inverse` is not modelled (the objects are not mutated).
-/

namespace Modepy
open Matrix

/-! ## `Monomial` -/

/-- `Monomial(exponents, factor)` (tools.py 80-96). -/
structure Mono where
  exponents : List Nat
  factor : ℝ := 1

/-- `Monomial.__call__(xi)` at one point (98-105); `x[i]` raises for missing coordinates. -/
noncomputable def Mono.call (m : Mono) (xi : List ℝ) : Py ℝ :=
  let x := xi.map fun c => (c + 1) / 2
  match collect (m.exponents.zipIdx.map fun (e, i) =>
      match x[i]? with
      | some c => (.ok (c ^ e) : Py ℝ)
      | none => .error .IndexError) with
  | .ok l => .ok (m.factor * l.prod)
  | .error e => .error e

/-- `Monomial.simplex_integral()` (107-115). -/
noncomputable def Mono.simplexIntegral (m : Mono) : ℝ :=
  let n := m.exponents.length
  let total := m.exponents.sum
  m.factor * 2 ^ n * ((m.exponents.map Nat.factorial).prod : Nat) / ((n + total).factorial : Nat)

/-- `Monomial.hypercube_integral()` (117-123). -/
noncomputable def Mono.hypercubeIntegral (m : Mono) : ℝ :=
  m.exponents.foldl (fun integral (n : Nat) => integral * 1 / ((n : ℝ) + 1)) 1.0

/-- Python's index resolution for sequences: negative indices count from the end. -/
def pyIndex (len : Nat) (i : Int) : Option Nat :=
  if 0 ≤ i ∧ i < len then some i.toNat
  else if i < 0 ∧ 0 ≤ i + len then some (i + len).toNat
  else none

/-- `Monomial.diff(coordinate)` (125-132). -/
noncomputable def Mono.diff (m : Mono) (coordinate : Int) : Py Mono :=
  match pyIndex m.exponents.length coordinate with
  | none => .error .IndexError
  | some k =>
      let origExp := m.exponents.getD k 0
      if origExp = 0 then .ok ⟨m.exponents, 0⟩
      else .ok ⟨m.exponents.set k (origExp - 1), m.factor * origExp⟩

/-! ## `AffineMap` -/

/-- `AffineMap(a, b)` (153-159). -/
structure AffineMap (d : Nat) where
  a : Matrix (Fin d) (Fin d) ℝ
  b : Fin d → ℝ

variable {d : Nat}

/-- `AffineMap.__call__(x)` (161-169) for an array of shape `(d, npts)`; adding `b` broadcasts along the rows
of the transpose. -/
noncomputable def AffineMap.call {p : Nat} (f : AffineMap d) (x : Matrix (Fin d) (Fin p) ℝ) :
    Matrix (Fin d) (Fin p) ℝ :=
  ((f.a * x)ᵀ + Matrix.of fun _ j => f.b j)ᵀ

/-- `AffineMap.__call__(x)` for one vector of shape `(d,)`. -/
noncomputable def AffineMap.callPoint (f : AffineMap d) (x : Fin d → ℝ) : Fin d → ℝ :=
  f.a *ᵥ x + f.b

/-- `AffineMap.jacobian` (171-174). -/
noncomputable def AffineMap.jacobian (f : AffineMap d) : ℝ := f.a.det

/-- `AffineMap.inverse` (176-180). -/
noncomputable def AffineMap.inverse (f : AffineMap d) : Py (AffineMap d) :=
  match npInv f.a with
  | .error e => .error e
  | .ok ainv =>
      match npSolve f.a (Matrix.of fun i (_ : Fin 1) => f.b i) with
      | .error e => .error e
      | .ok s => .ok ⟨ainv, fun i => -(s i 0)⟩

/-! ## Simplex coordinates -/

/-- `EQUILATERAL_TO_UNIT_MAP[1]` (188). -/
noncomputable def equilateralToUnitMap1 : AffineMap 1 := ⟨!![1], ![0]⟩

/-- `EQUILATERAL_TO_UNIT_MAP[2]` (189-192). -/
noncomputable def equilateralToUnitMap2 : AffineMap 2 :=
  ⟨!![1, -1 / √3; 0, 2 / √3], ![-1 / 3, -1 / 3]⟩

/-- `EQUILATERAL_TO_UNIT_MAP[3]` (193-197). -/
noncomputable def equilateralToUnitMap3 : AffineMap 3 :=
  ⟨!![1, -1 / √3, -1 / √6; 0, 2 / √3, -1 / √6; 0, 0, √6 / 2], ![-1 / 2, -1 / 2, -1 / 2]⟩

/-- `equilateral_to_unit(equi)` (201-202) at one point. -/
noncomputable def equilateralToUnit (equi : List ℝ) : Py (List ℝ) :=
  match equi with
  | [x] => .ok (List.ofFn (equilateralToUnitMap1.callPoint ![x]))
  | [x, y] => .ok (List.ofFn (equilateralToUnitMap2.callPoint ![x, y]))
  | [x, y, z] => .ok (List.ofFn (equilateralToUnitMap3.callPoint ![x, y, z]))
  | _ => .error .KeyError

/-- `barycentric_to_unit(bary)` (205-212) at one point; without coordinates the dimension would be `-1`. -/
noncomputable def barycentricToUnit (bary : List ℝ) : Py (List ℝ) :=
  match bary with
  | [] => .error .ValueError
  | _ :: rest =>
      let dims := rest.length
      let vertices := Shape.unitVerticesSimplex dims
      .ok ((List.range dims).map fun i =>
        ((List.range (dims + 1)).map fun k => (vertices.get [i, k] : ℝ) * bary.getD k 0).sum)

/-- `unit_to_barycentric(unit)` (215-222) at one point. -/
noncomputable def unitToBarycentric (unit : List ℝ) : List ℝ :=
  let lastBary := unit.map fun c => 0.5 * (c + 1)
  (1 - lastBary.sum) :: lastBary

/-- `EQUILATERAL_VERTICES[dims]` (226-241). -/
noncomputable def equilateralVertices : Nat → Option (List (List ℝ))
  | 1 => some [[-1], [1]]
  | 2 => some [[-1, -1 / √3], [1, -1 / √3], [0, 2 / √3]]
  | 3 => some [[-1, -1 / √3, -1 / √6], [1, -1 / √3, -1 / √6], [0, 2 / √3, -1 / √6], [0, 0, 3 / √6]]
  | _ => none

/-- `barycentric_to_equilateral(bary)` (244-246) at one point. -/
noncomputable def barycentricToEquilateral (bary : List ℝ) : Py (List ℝ) :=
  let dims := bary.length - 1
  match equilateralVertices dims with
  | none => .error .KeyError
  | some vertices =>
      .ok ((List.range dims).map fun i =>
        ((List.range (dims + 1)).map fun k => (vertices.getD k []).getD i 0 * bary.getD k 0).sum)

end Modepy

import Verif.Model.Pkdo
import Verif.Model.Monomial
import Verif.Model.Nodes

/-!
# `modepy.modes`: bases (modes.py 581-731, 775-1149)
-/

namespace Modepy
open Duck

/-- Mode identifiers: integers and (nested) tuples. -/
inductive ModeId where
  | int (n : Nat)
  | tup (l : List ModeId)

/-- `isinstance(mid, tuple) and len(mid) == 1 and isinstance(mid[0], int)` (modes.py 1030-1033). -/
def ModeId.isIntSingleton : ModeId → Bool
  | .tup [.int _] => true
  | _ => false

/-- A mode id of a simplex basis: a tuple of integers. -/
def ModeId.ofTuple (t : List Nat) : ModeId := .tup (t.map .int)

/-- A `Basis` object (modes.py 775-836): values of its properties; property access may raise. -/
structure Basis (R : Type) where
  modeIds : Py (List ModeId)
  functions : Py (List (List R → Py R))
  gradients : Py (List (List R → Py (List R)))
  derivatives : Nat → Py (List (List R → Py R))
  orthonormalityWeight : Py ℝ

variable {R : Type} [Duck R]

/-- `Basis.derivatives(axis)` (modes.py 833-836), `axis ≥ 0`; indexing the gradient tuple raises
`IndexError`. -/
def defaultDerivatives (gradients : Py (List (List R → Py (List R)))) (axis : Nat) :
    Py (List (List R → Py R)) :=
  gradients.map fun gs => gs.map fun g x =>
    match g x with
    | .error e => .error e
    | .ok l => match l[axis]? with
        | some v => .ok v
        | none => .error .IndexError

/-- `_SimplexONB(dim, order)` (modes.py 880-922). -/
noncomputable def simplexONB (d n : Nat) : Basis R :=
  let mids := Pytools.gnitsam n d
  let gradients : Py (List (List R → Py (List R))) :=
    if d = 1 ∨ d = 2 ∨ d = 3 then .ok (mids.map gradPkdo) else .error .NotImplementedError
  { modeIds := .ok (mids.map .ofTuple)
    functions :=
      if d = 0 then .ok [zerodBasis]
      else if d = 1 ∨ d = 2 ∨ d = 3 then .ok (mids.map pkdo)
      else .error .NotImplementedError
    gradients := gradients
    derivatives := defaultDerivatives gradients
    orthonormalityWeight := .ok 1 }

/-- `_SimplexMonomialBasis(dim, order)` (modes.py 925-941). -/
noncomputable def simplexMonomial (d n : Nat) : Basis R :=
  let mids := Pytools.gnitsam n d
  { modeIds := .ok (mids.map .ofTuple)
    functions := .ok (mids.map monomial)
    gradients := .ok (mids.map gradMonomial)
    derivatives := fun axis => .ok (mids.map fun mid => diffMonomial mid axis)
    orthonormalityWeight := .error .BasisNotOrthonormal }

/-! ## Tensor products -/

/-- The loop of `_TensorProductBasisFunction.__call__` (modes.py 634-636): accumulated `result`,
offset `n`; `zip(..., strict=True)`. -/
def tpFunctionLoop (x : List R) : List Nat → List (List R → Py R) → R → Nat → Py R
  | [], [], result, _ => .ok result
  | d :: ds, f :: fs, result, n =>
      match f ((x.drop n).take d) with
      | .error e => .error e
      | .ok v => tpFunctionLoop x ds fs (result * v) (n + d)
  | _, _, _, _ => .error .ValueError

/-- `_TensorProductBasisFunction(mid, functions, dims)(x)` (modes.py 584-638). -/
def tpFunction (dims : List Nat) (fs : List (List R → Py R)) (x : List R) : Py R :=
  if x.length ≠ dims.sum then .error .AssertionError
  else tpFunctionLoop x dims fs (lit 1) 0

/-- A callable in `derivatives[i][j]`: a function or a gradient (modes.py 664-692). -/
inductive FnOrGrad (R : Type) where
  | fn (f : List R → Py R)
  | grad (g : List R → Py (List R))

/-- Inner loop of `_TensorProductGradientBasisFunction.__call__` (modes.py 708-724) for one `ider`:
`block` are the entries `result[n : n + dims[ider]]`, `f` the offset into `x`. -/
def tpGradientInner (x : List R) (nblock : Nat) :
    List Nat → List (FnOrGrad R) → List R → Nat → Py (List R)
  | [], [], block, _ => .ok block
  | d :: ds, .fn f :: fs, block, off =>
      match f ((x.drop off).take d) with
      | .error e => .error e
      | .ok v => tpGradientInner x nblock ds fs (block.map (· * v)) (off + d)
  | d :: ds, .grad g :: fs, block, off =>
      match g ((x.drop off).take d) with
      | .error e => .error e
      | .ok comps =>
          if comps.length ≠ nblock then .error .AssertionError
          else tpGradientInner x nblock ds fs (List.zipWith (· * ·) block comps) (off + d)
  | _, _, _, _ => .error .ValueError

/-- `_TensorProductGradientBasisFunction(mid, derivatives, dims)(x)` (modes.py 641-731).  The
entries of `result` touched for different `ider` are disjoint consecutive blocks; the model builds
the blocks and concatenates them. -/
def tpGradient (dims : List Nat) (derivs : List (List (FnOrGrad R))) (x : List R) : Py (List R) :=
  if x.length ≠ dims.sum then .error .AssertionError
  else
    match collect (List.zipWith
      (fun nb df => tpGradientInner x nb dims df (List.replicate nb (lit 1)) 0) dims derivs) with
    | .error e => .error e
    | .ok blocks => .ok blocks.flatten

/-- `_mode_index_tuples` (modes.py 1003-1010). -/
def modeIndexTuples (counts : List Nat) : List (List Nat) :=
  (Pytools.gnitb counts.reverse).map List.reverse

/-- `part_flat_tuple` (modes.py 1037-1047). -/
def partFlatTuple (items : List (Bool × ModeId)) : ModeId :=
  .tup (items.flatMap fun (flatten, item) =>
    match flatten, item with
    | true, .tup l => l
    | _, item => [item])

/-- `TensorProductBasis.mode_ids` (modes.py 1026-1056) for base mode ids `ids`. -/
def tpModeIds (counts : List Nat) (ids : List (List ModeId)) : List ModeId :=
  let flags := ids.map fun l => l.all ModeId.isIntSingleton
  (modeIndexTuples counts).map fun mi =>
    partFlatTuple (List.zipWith (fun (p : Bool × List ModeId) j =>
      (p.1, p.2.getD j (.tup []))) (List.zip flags ids) mi)

/-- `_dim_ranges` (modes.py 1012-1019): start offsets. -/
def dimStarts (dims : List Nat) : List Nat :=
  (List.range dims.length).map fun i => (dims.take i).sum

/-- `TensorProductBasis(bases, dims_per_basis)` (modes.py 976-1102). -/
noncomputable def tensorProductBasis (bases : List (Basis R)) (dims : List Nat) : Basis R :=
  let fnerr : List R → Py R := fun _ => .error .IndexError
  let gerr : List R → Py (List R) := fun _ => .error .IndexError
  { modeIds := do
      let ids ← collect (bases.map (·.modeIds))
      let fs ← collect (bases.map (·.functions))
      pure (tpModeIds (fs.map List.length) ids)
    functions := do
      let fs ← collect (bases.map (·.functions))
      if dims.length ≠ fs.length then throw .AssertionError
      pure ((modeIndexTuples (fs.map List.length)).map fun mi =>
        tpFunction dims (List.zipWith (fun l j => l.getD j fnerr) fs mi))
    gradients := do
      let fs ← collect (bases.map (·.functions))
      let gs ← collect (bases.map (·.gradients))
      if dims.length ≠ fs.length then throw .AssertionError
      pure ((modeIndexTuples (fs.map List.length)).map fun mi =>
        tpGradient dims ((Pytools.wanderingElement bases.length true false).map fun ind =>
          List.zipWith (fun (isDeriv : Bool) (p : (List (List R → Py R) ×
              List (List R → Py (List R))) × Nat) =>
            if isDeriv then .grad (p.1.2.getD p.2 gerr) else .fn (p.1.1.getD p.2 fnerr))
            ind (List.zip (List.zip fs gs) mi)))
    derivatives := fun axis => do
      let fs ← collect (bases.map (·.functions))
      -- `zip(mid, self._dim_ranges, strict=True)`
      if dims.length ≠ fs.length then throw .ValueError
      -- `self._bases[ibasis].derivatives(axis - start)` is only evaluated for the base containing
      -- `axis`
      let dfs ← collect (List.zipWith (fun (b : Basis R) (sd : Nat × Nat) =>
        if sd.1 ≤ axis ∧ axis < sd.1 + sd.2 then b.derivatives (axis - sd.1) else b.functions)
        bases (List.zip (dimStarts dims) dims))
      pure ((modeIndexTuples (fs.map List.length)).map fun mi =>
        tpFunction dims (List.zipWith (fun l j => l.getD j fnerr) dfs mi))
    orthonormalityWeight := do
      let ws ← collect (bases.map (·.orthonormalityWeight))
      pure ws.prod }

/-! ## Basis selection -/

/-- `_orthonormal_basis_for_pn` (modes.py 957-962). -/
noncomputable def orthonormalBasisPN (s : PNSpace) : Basis R := simplexONB s.spatialDim s.order

/-- `_basis_for_pn` (modes.py 945-954). -/
noncomputable def basisPN (s : PNSpace) : Basis R :=
  if s.spatialDim ≤ 3 then simplexONB s.spatialDim s.order
  else simplexMonomial s.spatialDim s.order

/-- `_monomial_basis_for_pn` (modes.py 965-970). -/
noncomputable def monomialBasisPN (s : PNSpace) : Basis R := simplexMonomial s.spatialDim s.order

/-- The tensor product registrations (modes.py 1105-1149): class check, dimension check (absent in
the monomial variant), strict zip of bases. -/
noncomputable def basisForSpaceWith (forPN : PNSpace → Basis R) (checkDim : Bool) (space : Space)
    (shape : Shape) : Py (Basis R) :=
  match space, shape with
  | .pn s, .simplex _ => .ok (forPN s)
  | .pn _, _ => .error .NotImplementedError
  | _, .simplex _ => .error .NotImplementedError
  | space, shape =>
      if checkDim ∧ space.spatialDim ≠ shape.dim then .error .ValueError
      else if space.flatBases.length ≠ shape.flatBases.length then .error .ValueError
      else .ok (tensorProductBasis (space.flatBases.map forPN)
        (space.flatBases.map PNSpace.spatialDim))

/-- `basis_for_space` (modes.py 842-844, 945, 1124). -/
noncomputable def basisForSpace : Space → Shape → Py (Basis R) := basisForSpaceWith basisPN true

/-- `orthonormal_basis_for_space` (modes.py 847-849, 957, 1105). -/
noncomputable def orthonormalBasisForSpace : Space → Shape → Py (Basis R) :=
  basisForSpaceWith orthonormalBasisPN true

/-- `monomial_basis_for_space` (modes.py 852-854, 965, 1139). -/
noncomputable def monomialBasisForSpace : Space → Shape → Py (Basis R) :=
  basisForSpaceWith monomialBasisPN false

end Modepy

import Verif.Model.Matrices
import Mathlib.Analysis.SpecialFunctions.Log.Basic
import Mathlib.Analysis.SpecialFunctions.Pow.Real
import Mathlib.Analysis.SpecialFunctions.Sqrt

/-!
# `modepy.modal_decay` (modal_decay.py)

Arrays of modal coefficients are lists of rows of a common length `nmodes`.  Arithmetic is exact; a per-element result
containing an infinity or NaN is `none`.
-/

namespace Modepy
open Matrix

/-! ## Degree vectors and the tail estimator -/

/-- `degree_vector_simplex` (modal_decay.py 74-79). -/
def degreeVectorSimplex (modeIds : List (List Nat)) : List Nat := modeIds.map List.sum

/-- `max(...)` over a generator: `ValueError` if it is empty. -/
def pyMax : List Nat → Py Nat
  | [] => .error .ValueError
  | a :: l => .ok (l.foldl max a)

/-- `ov[mode_id]`. -/
def entryAt (ov : List Nat) (j : Nat) : Py Nat :=
  match ov[j]? with
  | some v => .ok v
  | none => .error .IndexError

/-- One entry of `degree_vector_tp` (modal_decay.py 86-90), `zip(..., strict=True)`. -/
def degreeTPEntry (degreeVectors : List (List Nat)) (mi : List Nat) : Py Nat :=
  if mi.length ≠ degreeVectors.length then .error .ValueError
  else match collect (List.zipWith (fun j (ov : List Nat) => entryAt ov j) mi degreeVectors) with
    | .error e => .error e
    | .ok l => pyMax l

/-- `degree_vector_tp` (modal_decay.py 82-92), given the degree vectors of the bases; `counts` are the lengths
`len(b.functions)` behind `_mode_index_tuples`. -/
def degreeVectorTP (counts : List Nat) (degreeVectors : List (List Nat)) : Py (List Nat) :=
  collect ((modeIndexTuples counts).map (degreeTPEntry degreeVectors))

/-- `degree_vector(basis)` (modal_decay.py 62-92) for the basis that `basis_for_space` and its variants build from the
simplex bases `forPN`: the mode ids of a simplex basis (modes.py 887-889) are the tuples below. -/
noncomputable def degreeVector {R : Type} (forPN : PNSpace → Basis R) : Space → Py (List Nat)
  | .pn s => .ok (degreeVectorSimplex (Pytools.gnitsam s.order s.spatialDim))
  | space =>
      match collect (space.flatBases.map fun s => (forPN s).functions) with
      | .error e => .error e
      | .ok fs => degreeVectorTP (fs.map List.length)
          (space.flatBases.map fun s => degreeVectorSimplex (Pytools.gnitsam s.order s.spatialDim))

/-- `interp_error_coefficient_estimator_matrix(unit_nodes, n_tail_orders, basis)` (modal_decay.py 95-116): `m` nodes, `n`
basis functions with the degree vector `degrees`; the result are the selected rows. -/
noncomputable def estimatorMatrix {X : Type} {m n : Nat} (functions : Fin n → X → ℝ) (nodes : Fin m → X)
    (nTailOrders : Int) (degrees : List Nat) : Py (List (Fin m → ℝ)) :=
  if h : m = n then
    match npInv (castCols h (vandermonde functions nodes)) with
    | .error e => .error e
    | .ok vdmInv =>
        match pyMax degrees with
        | .error e => .error e
        | .ok maxOrder =>
            -- a boolean mask of the wrong length is an `IndexError`
            if degrees.length ≠ n then .error .IndexError
            else .ok (((List.finRange m).filter fun (i : Fin m) =>
              decide ((degrees.getD i 0 : Int) > (maxOrder : Int) - nTailOrders)).map fun i => vdmInv i)
  else .error .LinAlgError

/-! ## Skyline -/

/-- The loop 196-200 over the modes from the last to the first. -/
noncomputable def skylineScan : ℝ → List ℝ → List ℝ
  | _, [] => []
  | cur, v :: vs => max cur v :: skylineScan (max cur v) vs

/-- One element of `skyline_pessimize` (modal_decay.py 193-200); `my_modes[-2]` is an `IndexError` for fewer than two
modes. -/
noncomputable def skylineRow (row : List ℝ) : Py (List ℝ) :=
  match row.reverse with
  | l1 :: l2 :: rest => .ok (skylineScan (max l1 l2) (l1 :: l2 :: rest)).reverse
  | _ => .error .IndexError

/-- `skyline_pessimize(modal_values)` (modal_decay.py 188-202). -/
noncomputable def skylinePessimize (rows : List (List ℝ)) : Py (List (List ℝ)) := collect (rows.map skylineRow)

/-! ## Decay fit -/

/-- `make_mode_number_vector(mode_order_tuples, ignored_modes)` (modal_decay.py 145-156). -/
def makeModeNumberVector (tuples : List (List Nat)) (ignored : Nat) : Py (List Nat) :=
  if ignored > tuples.length then .error .ValueError else .ok ((tuples.drop ignored).map List.sum)

/-- `create_decay_baseline(mode_number_vector, n)` (modal_decay.py 159-170). -/
noncomputable def createDecayBaseline (v : List Nat) (n : Nat) : List ℝ :=
  let mc : List ℝ := v.map fun (k : Nat) => if k = 0 then 1 else ((k : ℝ) ^ n)⁻¹
  mc.map fun c => c / √ ((mc.map fun c => c ^ 2).sum)

/-- The matrix `a` of `get_decay_fit_matrix` (modal_decay.py 177-183); `Real.log 0 = 0` plays the role of the assignment
`a[0, 1] = 0`. -/
noncomputable def decayMatrix (v : List Nat) (w : List ℝ) : Matrix (Fin v.length) (Fin 2) ℝ :=
  Matrix.of fun i j => if j = 0 then w.getD i 0 else w.getD i 0 * Real.log (v.getD i 0 : Nat)

/-- `numpy.linalg.pinv` on matrices with two columns. -/
abbrev Pinv2 := ∀ m, Matrix (Fin m) (Fin 2) ℝ → Matrix (Fin 2) (Fin m) ℝ

/-- `get_decay_fit_matrix(mode_number_vector, ignored_modes, weight_vector)` (modal_decay.py 173-185).  An infinite
entry makes `pinv` raise `LinAlgError`. -/
noncomputable def getDecayFitMatrix (pinv : Pinv2) (v : List Nat) (ignored : Nat) (w : List ℝ) :
    Py (Matrix (Fin 2) (Fin v.length) ℝ) :=
  if ignored = 0 then
    match v with
    | [] => .error .IndexError
    | k :: ks =>
        if k ≠ 0 then .error .AssertionError
        else if 0 ∈ ks then .error .LinAlgError
        else .ok (pinv _ (decayMatrix (k :: ks) w))
  else if 0 ∈ v then .error .LinAlgError
  else .ok (pinv _ (decayMatrix v w))

/-- The row of `coeffs_squared[:, ignored_modes:] + scaled_baseline` (modal_decay.py 233-238) for one element, with `sq`
its row of `coeffs_squared`; a single remaining mode is broadcast. -/
noncomputable def decayData (v : List Nat) (n ignored : Nat) (sq : List ℝ) : Fin v.length → ℝ := fun k =>
  (if sq.length - ignored = v.length then sq.getD (ignored + k) 0 else sq.getD ignored 0) +
    ((createDecayBaseline v n).getD k 0 * sq.sum) ^ 2

open Classical in
/-- Exponent and constant of one element (modal_decay.py 238-245). -/
noncomputable def fitRow (v : List Nat) (n ignored : Nat) (fitMat : Matrix (Fin 2) (Fin v.length) ℝ) (sq : List ℝ) :
    Option (ℝ × ℝ) :=
  let data := decayData v n ignored sq
  if ∀ k, 0 < data k then
    let fit := fitMat *ᵥ fun k => Real.log (data k) / 2
    some (fit 1, Real.exp (fit 0))
  else none

/-- `fit_modal_decay(coeffs, dims, n, ignored_modes)` (modal_decay.py 205-264). -/
noncomputable def fitModalDecay (pinv : Pinv2) (coeffs : List (List ℝ)) (nmodes dims n ignored : Nat) :
    Py (List (Option (ℝ × ℝ))) :=
  match makeModeNumberVector (Pytools.gnitsam n dims) ignored with
  | .error e => .error e
  | .ok v =>
      match getDecayFitMatrix pinv v ignored (v.map fun _ => 1) with
      | .error e => .error e
      | .ok fitMat =>
          match skylinePessimize (coeffs.map fun row => row.map fun c => c ^ 2) with
          | .error e => .error e
          | .ok coeffsSquared =>
              if nmodes - ignored = v.length ∨ nmodes - ignored = 1 then
                .ok (coeffsSquared.map (fitRow v n ignored fitMat))
              else .error .ValueError

/-- `sqrt(-(n+1)**(2*exponent+1)/(2*exponent+1))` (modal_decay.py 292); NaN for a negative radicand or a zero
denominator. -/
noncomputable def tailFactor (n : Nat) (exponent : ℝ) : Option ℝ :=
  if 2 * exponent + 1 = 0 then none
  else
    let r := -((n + 1 : ℝ) ^ (2 * exponent + 1)) / (2 * exponent + 1)
    if r < 0 then none else some (√ r)

/-- One element of `estimate_relative_expansion_residual` (modal_decay.py 288-296): `result[result > 1] = 0`. -/
noncomputable def residualRow (n : Nat) (row : List ℝ) (fit : Option (ℝ × ℝ)) : Option ℝ :=
  match fit with
  | none => none
  | some (exponent, const) =>
      match tailFactor n exponent with
      | none => none
      | some t =>
          let l2 := √ ((row.map fun c => c ^ 2).sum)
          -- the fit is finite only for nonzero coefficients, so `l2 ≠ 0`
          if l2 = 0 then none
          else
            let r := const * t / l2
            some (if r > 1 then 0 else r)

/-- `estimate_relative_expansion_residual(coeffs, dims, n, ignored_modes)` (modal_decay.py 267-296). -/
noncomputable def estimateResidual (pinv : Pinv2) (coeffs : List (List ℝ)) (nmodes dims n ignored : Nat) :
    Py (List (Option ℝ)) :=
  match fitModalDecay pinv coeffs nmodes dims n ignored with
  | .error e => .error e
  | .ok fits => .ok (List.zipWith (residualRow n) coeffs fits)

end Modepy

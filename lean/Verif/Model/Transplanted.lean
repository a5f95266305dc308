import Verif.Model.Gauss
import Mathlib.Analysis.SpecialFunctions.Trigonometric.Inverse

/-!
# `modepy.quadrature.transplanted`: conformal maps and transplanted rules (transplanted.py)

NumPy's elementwise operations are modelled at one element; a map applied to an array is the list of the values at
the elements.
-/

namespace Modepy
open NdArray

/-- The loop of `_arcsin_taylor_coefficients` (61-65): the next coefficient from the last one. -/
noncomputable def arcsinLoop (ks : List Nat) (coeffs : List ℝ) : List ℝ :=
  ks.foldl (fun (coeffs : List ℝ) (k : Nat) =>
    let km1 : Nat := k - 1
    coeffs ++ [coeffs.getD km1 0 * (2.0 * (km1 : ℝ) + 1.0) ^ 2 / (2.0 * (k : ℝ) * (2.0 * (km1 : ℝ) + 3.0))]) coeffs

/-- `_arcsin_taylor_coefficients(max_odd_degree)` (52-67). -/
noncomputable def arcsinTaylorCoefficients (maxOddDegree : Int) : Py (List ℝ) :=
  if maxOddDegree < 1 ∨ Int.fmod maxOddDegree 2 = 0 then .error .ValueError
  else
    let nterms := (Int.fdiv (maxOddDegree + 1) 2).toNat
    .ok (arcsinLoop (List.range' 1 (nterms - 1)) [1.0])

/-- `map_sausage(s, degree)` (70-91) at one element. -/
noncomputable def mapSausage (s : ℝ) (degree : Int) : Py (ℝ × ℝ) :=
  match arcsinTaylorCoefficients degree with
  | .error e => .error e
  | .ok coeffs =>
      let denom := coeffs.sum
      let r := coeffs.zipIdx.foldl (fun (acc : ℝ × ℝ) (ck : ℝ × Nat) =>
        let power : Nat := 2 * ck.2 + 1
        (acc.1 + ck.1 * s ^ power, acc.2 + ck.1 * (power : ℝ) * s ^ (power - 1))) (0, 0)
      .ok (r.1 / denom, r.2 / denom)

open Classical in
/-- `map_kosloff_tal_ezer(s, rho=rho, alpha=alpha)` (94-140) at one element. -/
noncomputable def mapKosloffTalEzer (s rho : ℝ) (alpha : Option ℝ) : Py (ℝ × ℝ) :=
  let alpha : Py ℝ :=
    match alpha with
    | some a => .ok a
    | none => if rho ≤ 1.0 then .error .ValueError else .ok (2.0 / (rho + 1.0 / rho))
  match alpha with
  | .error e => .error e
  | .ok alpha =>
      if ¬ (0.0 < alpha ∧ alpha < 1.0) then .error .ValueError
      else
        let denom := Real.arcsin alpha
        .ok (Real.arcsin (alpha * s) / denom, alpha / (denom * √(1.0 - alpha ^ 2 * s ^ 2)))

/-- A transplant map: `map_identity` itself (43-49), which `transplanted_1d_quadrature` recognises by identity, or
any other callable on one-dimensional arrays. -/
inductive MapFn where
  | identity
  | other (f : List ℝ → Py (List ℝ × List ℝ))

/-- Calling a map. -/
def MapFn.call : MapFn → List ℝ → Py (List ℝ × List ℝ)
  | .identity, s => .ok (s, s.map fun _ => 1)
  | .other f, s => f s

/-- Product of two one-dimensional arrays with NumPy broadcasting. -/
def mul1D (a b : List ℝ) : Py (List ℝ) :=
  if a.length = b.length then .ok (List.zipWith (· * ·) a b)
  else
    match a, b with
    | [x], b => .ok (b.map (x * ·))
    | a, [y] => .ok (a.map (· * y))
    | _, _ => .error .ValueError

/-- The `exact_to` passed on by `transplanted_1d_quadrature`: only `map_identity` keeps it. -/
def Quadrature.keptExactTo (q : Quadrature) : MapFn → Option PyVal
  | .identity => q.exactTo
  | .other _ => none

/-- `transplanted_1d_quadrature(quadrature, map_fn)` (231-282). -/
noncomputable def transplanted1D (q : Quadrature) (map : MapFn) : Py Quadrature :=
  let nodes1d : Py (List ℝ × Bool) :=
    match q.nodes.shape with
    | [n] => .ok ((List.range n).map fun k => q.nodes.get [k], false)
    | [1, n] => .ok ((List.range n).map fun k => q.nodes.get [0, k], true)
    | _ => .error .ValueError
  match nodes1d with
  | .error e => .error e
  | .ok (s, forceDimAxis) =>
      match map.call s with
      | .error e => .error e
      | .ok (mapped, jacobian) =>
          match mul1D ((List.range q.nnodes).map fun k => q.weights.get [k]) jacobian with
          | .error e => .error e
          | .ok w =>
              let nodes : NdArray ℝ :=
                if forceDimAxis then ⟨[1, mapped.length], fun idx => mapped.getD (idx.getD 1 0) 0⟩
                else ⟨[mapped.length], fun idx => mapped.getD (idx.getD 0 0) 0⟩
              .ok ⟨nodes, ⟨[w.length], fun idx => w.getD (idx.getD 0 0) 0⟩, q.keptExactTo map, none⟩

/-- `transplanted_legendre_gauss_quadrature(n, map_fn, backend=..., force_dim_axis=...)` (285-303). -/
noncomputable def transplantedLegendreGauss (ext : Ext) (n : Nat) (map : MapFn) (backend : Backend)
    (forceDimAxis : Bool) : Py Quadrature :=
  match legendreGaussQuadrature ext n backend forceDimAxis with
  | .error e => .error e
  | .ok q => transplanted1D q map

/-- A pointwise map as a callable on arrays: an error at any element is an error of the call (the errors modelled do
not depend on the elements). -/
noncomputable def pointwise (f : ℝ → Py (ℝ × ℝ)) (s : List ℝ) : Py (List ℝ × List ℝ) :=
  match collect (s.map f) with
  | .error e => .error e
  | .ok l => .ok (l.map Prod.fst, l.map Prod.snd)

end Modepy

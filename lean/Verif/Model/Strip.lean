import Verif.Model.Transplanted
import Mathlib.Analysis.SpecialFunctions.Artanh
import Mathlib.MeasureTheory.Integral.IntervalIntegral.Basic

/-!
# `modepy.quadrature.transplanted`: the strip map (transplanted.py 143-228)

`scipy.special.ellipk` and `ellipj` are modelled by the mathematical functions they compute, with parameter `m = k²`: the
complete elliptic integral of the first kind, and the Jacobi functions obtained by inverting the incomplete integral.
`scipy` is assumed to be installed.
-/

namespace Modepy
open Real

/-- The incomplete elliptic integral of the first kind. -/
noncomputable def ellipF (m φ : ℝ) : ℝ := ∫ θ in (0 : ℝ)..φ, 1 / √(1 - m * sin θ ^ 2)

/-- `scipy.special.ellipk(m)`. -/
noncomputable def ellipk (m : ℝ) : ℝ := ellipF m (π / 2)

/-- The amplitude `ph` of `scipy.special.ellipj(u, m)`. -/
noncomputable def ellipAm (m u : ℝ) : ℝ := Function.invFun (ellipF m) u

/-- `scipy.special.ellipj(u, m)`: `sn`, `cn`, `dn`, `ph`. -/
noncomputable def ellipj (u m : ℝ) : ℝ × ℝ × ℝ × ℝ :=
  (sin (ellipAm m u), cos (ellipAm m u), √(1 - m * sin (ellipAm m u) ^ 2), ellipAm m u)

/-- `root_scalar(f, bracket=(a, b), method="brentq")` followed by the test of `converged` (172-174). -/
abbrev Brentq := (ℝ → ℝ) → ℝ → ℝ → Py ℝ

/-- The function whose root is sought (160-163). -/
noncomputable def stripEquation (rho m : ℝ) : ℝ := ellipk (1.0 - m) / ellipk m - 4.0 * log rho / π

open Classical in
/-- The loop of `_strip_map_parameter_m` (166-167), with a bound on the number of rounds that is never reached. -/
noncomputable def stripUpperLoop (f : ℝ → ℝ) : Nat → ℝ → ℝ
  | 0, upper => upper
  | k + 1, upper =>
      if f upper > 0.0 ∧ 1.0 - upper > 1.0e-16 then stripUpperLoop f k (1.0 - (1.0 - upper) / 10.0) else upper

open Classical in
/-- `_strip_map_parameter_m(rho)` (143-176). -/
noncomputable def stripParameter (brentq : Brentq) (rho : ℝ) : Py ℝ :=
  if rho ≤ 1.0 then .error .ValueError
  else
    let f := stripEquation rho
    let upper := stripUpperLoop f 100 (1.0 - 1.0e-8)
    if f upper > 0.0 then .error .RuntimeError
    else brentq f 1.0e-14 upper

/-- `g` and `gp` of `map_strip` at one element (208-226). -/
noncomputable def stripPoint (m s : ℝ) : ℝ × ℝ :=
  let m4 := √(√m)
  let k := ellipk m
  let omega := 2.0 * k * arcsin s / π
  let (sn, cn, dn, _) := ellipj omega m
  (artanh (m4 * sn) / artanh m4,
    2.0 * k * m4 * cn * dn / (π * √(1.0 - s ^ 2) * (1.0 - √m * sn ^ 2) * artanh m4))

open Classical in
/-- `map_strip(s, rho=rho)` (179-228). -/
noncomputable def mapStrip (brentq : Brentq) (s : List ℝ) (rho : ℝ) : Py (List ℝ × List ℝ) :=
  if ∃ x ∈ s, |x| ≥ 1.0 then .error .ValueError
  else
    match stripParameter brentq rho with
    | .error e => .error e
    | .ok m => .ok (s.map fun x => (stripPoint m x).1, s.map fun x => (stripPoint m x).2)

end Modepy

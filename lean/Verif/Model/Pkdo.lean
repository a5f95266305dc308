import Verif.Model.Jacobi

/-!
# `modepy.modes`: orthonormal modes on simplices (modes.py 292-496, 860-877)
-/

namespace Modepy
open Duck

variable {R : Type} [Duck R]

/-- `_rstoab(r, s)` (modes.py 292-302). -/
noncomputable def rstoab (r s : R) : R × R :=
  (whereGe (abs (s - lit 1)) 1e-12 (lit 2 * (lit 1 + r) / (lit 1 - s) - lit 1) (lit (-1)), s)

/-- `pkdo_2d((i, j), (r, s))` (modes.py 305-325). -/
noncomputable def pkdo2d (i j : Nat) (r s : R) : R :=
  let (a, b) := rstoab r s
  let h1 := jacobi 0 0 i a
  let h2 := jacobi (2 * i + 1) 0 j b
  lit (Real.sqrt 2) * h1 * h2 * npow (lit 1 - b) i

/-- `grad_pkdo_2d((i, j), (r, s))` (modes.py 328-380). -/
noncomputable def gradPkdo2d (i j : Nat) (r s : R) : R × R :=
  let (a, b) := rstoab r s
  let fa := cse (jacobi 0 0 i a)
  let dfa := cse (gradJacobi 0 0 i a)
  let gb := cse (jacobi (2 * i + 1) 0 j b)
  let dgb := cse (gradJacobi (2 * i + 1) 0 j b)
  let dmodedr := dfa * gb
  let dmodedr := if i = 0 then dmodedr else dmodedr * npow (lit 0.5 * (lit 1 - b)) (i - 1)
  let dmodeds := dfa * (gb * (lit 0.5 * (lit 1 + a)))
  let dmodeds := if i = 0 then dmodeds else dmodeds * npow (lit 0.5 * (lit 1 - b)) (i - 1)
  let tmp := dgb * npow (lit 0.5 * (lit 1 - b)) i
  let tmp := if i = 0 then tmp
    else tmp - lit (0.5 * i) * gb * npow (lit 0.5 * (lit 1 - b)) (i - 1)
  let dmodeds := dmodeds + fa * tmp
  (lit ((2 : ℝ) ^ ((i : ℝ) + 0.5)) * dmodedr, lit ((2 : ℝ) ^ ((i : ℝ) + 0.5)) * dmodeds)

/-- `_rsttoabc(r, s, t)` (modes.py 387-397). -/
noncomputable def rsttoabc (r s t : R) : R × R × R :=
  (whereGt (abs (s + t)) 1e-10 (lit 2 * (lit 1 + r) / (-s - t) - lit 1) (lit (-1)),
   whereGt (abs (t - lit 1)) 1e-10 (lit 2 * (lit 1 + s) / (lit 1 - t) - lit 1) (lit (-1)), t)

/-- `pkdo_3d((i, j, k), (r, s, t))` (modes.py 400-426). -/
noncomputable def pkdo3d (i j k : Nat) (r s t : R) : R :=
  let (a, b, c) := rsttoabc r s t
  let h1 := jacobi 0 0 i a
  let h2 := jacobi (2 * i + 1) 0 j b
  let h3 := jacobi (2 * (i + j) + 2) 0 k c
  lit (2 * Real.sqrt 2) * h1 * h2 * npow (lit 1 - b) i * h3 * npow (lit 1 - c) (i + j)

/-- `grad_pkdo_3d((i, j, k), (r, s, t))` (modes.py 429-496). -/
noncomputable def gradPkdo3d (i j k : Nat) (r s t : R) : R × R × R :=
  let (a, b, c) := rsttoabc r s t
  let fa := cse (jacobi 0 0 i a)
  let dfa := cse (gradJacobi 0 0 i a)
  let gb := cse (jacobi (2 * i + 1) 0 j b)
  let dgb := cse (gradJacobi (2 * i + 1) 0 j b)
  let hc := cse (jacobi (2 * (i + j) + 2) 0 k c)
  let dhc := cse (gradJacobi (2 * (i + j) + 2) 0 k c)
  -- r-derivative
  let dmodedr := dfa * gb * hc
  let dmodedr := if i = 0 then dmodedr else dmodedr * npow (lit 0.5 * (lit 1 - b)) (i - 1)
  let dmodedr := if i + j = 0 then dmodedr else dmodedr * npow (lit 0.5 * (lit 1 - c)) (i + j - 1)
  -- s-derivative
  let dmodeds := lit 0.5 * (lit 1 + a) * dmodedr
  let tmp := dgb * npow (lit 0.5 * (lit 1 - b)) i
  let tmp := if i = 0 then tmp
    else tmp + lit (-0.5 * i) * (gb * npow (lit 0.5 * (lit 1 - b)) (i - 1))
  let tmp := if i + j = 0 then tmp else tmp * npow (lit 0.5 * (lit 1 - c)) (i + j - 1)
  let tmp := fa * tmp * hc
  let dmodeds := dmodeds + tmp
  -- t-derivative
  let dmodedt := lit 0.5 * (lit 1 + a) * dmodedr + lit 0.5 * (lit 1 + b) * tmp
  let tmp := dhc * npow (lit 0.5 * (lit 1 - c)) (i + j)
  let tmp := if i + j = 0 then tmp
    else tmp - lit (0.5 * (i + j : Nat)) * (hc * npow (lit 0.5 * (lit 1 - c)) (i + j - 1))
  let tmp := fa * (gb * tmp)
  let tmp := tmp * npow (lit 0.5 * (lit 1 - b)) i
  let dmodedt := dmodedt + tmp
  let nrm : ℝ := (2 : ℝ) ^ (2 * (i : ℝ) + j + 1.5)
  (lit nrm * dmodedr, lit nrm * dmodeds, lit nrm * dmodedt)

/-- `zerod_basis(x)` (modes.py 860-863): `assert len(x) == 0`, then `1 + ones`. -/
noncomputable def zerodBasis (x : List R) : Py R :=
  if x.length = 0 then .ok (lit 1 + lit 1) else .error .AssertionError

/-- A simplex mode as a function of the coordinate vector (modes.py 868-877, 900-911).  Wrong numbers
of coordinates or mode indices make the tuple unpacking raise. -/
noncomputable def pkdo (mid : List Nat) (x : List R) : Py R :=
  match mid, x with
  | [i], [r] => .ok (jacobi 0 0 i r)
  | [i, j], [r, s] => .ok (pkdo2d i j r s)
  | [i, j, k], [r, s, t] => .ok (pkdo3d i j k r s t)
  | _, _ => .error .ValueError

/-- Gradient of a simplex mode (modes.py 874-877, 914-922). -/
noncomputable def gradPkdo (mid : List Nat) (x : List R) : Py (List R) :=
  match mid, x with
  | [i], [r] => .ok [gradJacobi 0 0 i r]
  | [i, j], [r, s] => .ok [(gradPkdo2d i j r s).1, (gradPkdo2d i j r s).2]
  | [i, j, k], [r, s, t] =>
      .ok [(gradPkdo3d i j k r s t).1, (gradPkdo3d i j k r s t).2.1, (gradPkdo3d i j k r s t).2.2]
  | _, _ => .error .ValueError

end Modepy

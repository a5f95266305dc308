import Verif.Model.Gauss
import Mathlib.Analysis.SpecialFunctions.Complex.Circle

/-!
# `modepy.quadrature.clenshaw_curtis` (quadrature/clenshaw_curtis.py)

Exact real and complex arithmetic.  `numpy.fft.ifft` is written out from its definition.  The deprecation
warnings for `force_dim_axis=False` are not modelled.
-/

namespace Modepy

/-- `numpy.arange(start, stop, step)` for naturals and `step > 0`. -/
def npArange (start stop step : Nat) : List Nat :=
  (List.range ((stop - start + (step - 1)) / step)).map fun k => start + step * k

/-- `numpy.fft.ifft(v)`: entry `k` is `1/n Σ_j v_j exp(2πi j k / n)`. -/
noncomputable def ifft (v : List ℂ) : List ℂ :=
  (List.range v.length).map fun (k : Nat) =>
    1 / (v.length : ℂ) * ((List.range v.length).map fun (j : Nat) =>
      v.getD j 0 * Complex.exp (2 * Real.pi * Complex.I * j * k / v.length)).sum

/-- `w[-1:0:-1]`: all but the first entry, backwards. -/
def sliceBack {α : Type} (w : List α) : List α := w.tail.reverse

/-- `np.concatenate([2 / N / (N - 2), 1 / N[-1:], np.zeros(m)])` (clenshaw_curtis.py 56, 138). -/
noncomputable def ccConcat (N : List Nat) (m : Nat) : List ℝ :=
  N.map (fun (k : Nat) => 2 / (k : ℝ) / ((k : ℝ) - 2)) ++ (N.drop (N.length - 1)).map (fun (k : Nat) => 1 / (k : ℝ)) ++
    List.replicate m 0

/-- `0 - w[:-1] - w[-1:0:-1]` (57, 139). -/
noncomputable def ccFold (w : List ℝ) : List ℝ :=
  List.zipWith (fun a b => 0 - a - b) w.dropLast (sliceBack w)

/-- `a[i] = a[i] + x`. -/
noncomputable def addAt (a : List ℝ) (i : Nat) (x : ℝ) : List ℝ := a.set i (a.getD i 0 + x)

/-- The array `g0` (58-61). -/
noncomputable def ccG (n r m : Nat) : List ℝ :=
  (addAt (addAt (List.replicate n (-1)) r n) m n).map fun g => g / ((n : ℝ) ^ 2 - 1 + (n % 2 : Nat))

open Classical in
/-- `assert np.allclose(w.imag, 0)`, then `w.real` (63-65, 125-126, 142-143). -/
noncomputable def assertReal (w : List ℂ) : Py (List ℝ) :=
  if ∀ z ∈ w, |z.im| ≤ 1e-8 then .ok (w.map Complex.re) else .error .AssertionError

/-- `_make_clenshaw_curtis_nodes_and_weights(n)` (39-66). -/
noncomputable def makeClenshawCurtis (n : Nat) : Py (List ℝ × List ℝ) :=
  if n < 1 then .error .ValueError
  else if n = 1 then .ok ([-1, 1], [1, 1])
  else
    let N := npArange 1 n 2
    let r := N.length
    let m := n - r
    let x := (List.range (n + 1)).map fun (k : Nat) => Real.cos (k * Real.pi / n)
    let w := ccFold (ccConcat N m)
    match assertReal (ifft ((List.zipWith (· + ·) w (ccG n r m)).map fun z : ℝ => (z : ℂ))) with
    | .error e => .error e
    | .ok wr => .ok (x, wr ++ wr.take 1)

/-- `_make_fejer1_nodes_and_weights(n)` (105-126). -/
noncomputable def makeFejer1 (n : Nat) : Py (List ℝ × List ℝ) :=
  if n < 1 then .error .ValueError
  else
    let N := npArange 1 n 2
    let r := N.length
    let m := n - r
    let K := List.range m
    let x := (List.range n).map fun (k : Nat) => Real.cos ((k + 0.5) * Real.pi / n)
    let w : List ℂ := K.map (fun (k : Nat) => 2 * Complex.exp (Complex.I * Real.pi * k / n) / (1 - 4 * (k : ℂ) ^ 2)) ++
      List.replicate (r + 1) 0
    let w := List.zipWith (fun a b => a + (starRingEnd ℂ) b) w.dropLast (sliceBack w)
    match assertReal (ifft w) with
    | .error e => .error e
    | .ok wr => .ok (x, wr)

/-- `_make_fejer2_nodes_and_weights(n)` (129-143). -/
noncomputable def makeFejer2 (n : Nat) : Py (List ℝ × List ℝ) :=
  if n < 2 then .error .ValueError
  else
    let N := npArange 1 n 2
    let r := N.length
    let m := n - r
    let x := (npArange 1 n 1).map fun (k : Nat) => Real.cos (k * Real.pi / n)
    let w := ccFold (ccConcat N m)
    match assertReal ((ifft (w.map fun z : ℝ => (z : ℂ))).drop 1) with
    | .error e => .error e
    | .ok wr => .ok (x, wr)

/-- The one-dimensional array with the given entries. -/
def NdArray.ofList (l : List ℝ) : NdArray ℝ := ⟨[l.length], fun idx => l.getD (idx.headD 0) 0⟩

/-- `ClenshawCurtisQuadrature(N, force_dim_axis)` (86-98). -/
noncomputable def clenshawCurtisQuadrature (N : Nat) (forceDimAxis : Bool) : Py Quadrature :=
  match makeClenshawCurtis N with
  | .error e => .error e
  | .ok (x, w) =>
      let x := NdArray.ofList x
      let x := if forceDimAxis then x.addDimAxis else x
      .ok ⟨x, NdArray.ofList w, some (.num N), none⟩

/-- `FejerQuadrature(N, kind, force_dim_axis)` (162-188); no `exact_to` is passed on. -/
noncomputable def fejerQuadrature (N : Nat) (kind : Int) (forceDimAxis : Bool) : Py Quadrature :=
  let xw : Py (List ℝ × List ℝ) :=
    if kind = 1 then makeFejer1 N
    else if kind = 2 then makeFejer2 N
    else .error .ValueError
  match xw with
  | .error e => .error e
  | .ok (x, w) =>
      let x := NdArray.ofList x
      let x := if forceDimAxis then x.addDimAxis else x
      .ok ⟨x, NdArray.ofList w, none, none⟩

end Modepy

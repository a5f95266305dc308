import Verif.Proofs.TableRules

/-!
# The checks for the four families of tables

Irrational factors are replaced by decimals with 24 digits, and the numerators are rounded to multiples of
`10^-20`.
-/

namespace Modepy.Table
open Spec Quadrature NdArray
noncomputable section

/-- Moduli of all entries are at most `B`. -/
def bounded (B : Nat) (l : List Int) : Bool := l.all fun x => Nat.ble x.natAbs B

theorem bounded_spec {B : Nat} {l : List Int} (h : bounded B l = true) (k : Nat) :
    -(B : ℤ) ≤ l.getD k 0 ∧ l.getD k 0 ≤ B := by
  rw [bounded, List.all_eq_true] at h
  rw [List.getD_eq_getElem?_getD]
  cases hk : l[k]? with
  | none => simp
  | some x =>
    have := Nat.le_of_ble_eq_true (h x (List.mem_of_getElem? hk))
    simp only [Option.getD_some]
    omega

/-- All rows have length `n`. -/
def rowsOk (n : Nat) (rows : List (List Int)) : Bool := rows.all fun r => Nat.beq r.length n

/-! ## Witherden-Vincent -/

def wvScaling : Scaling where
  D := 2 * 10 ^ 19
  E := 10 ^ 19
  cw := 1
  kw := 1
  p := ⟨10 ^ 19, 1, 0, 0, 1⟩
  q := ⟨10 ^ 19, 0, 1, 0, 1⟩
  r := ⟨10 ^ 19, 0, 0, 1, 1⟩

def wvOk (d : Nat) (r : TableRule) : Bool :=
  let xs := r.points.getD 0 []
  let ys := r.points.getD 1 []
  let zs := r.points.getD 2 []
  let l := conv wvScaling r.weights xs ys zs
  and (and (and (Nat.beq r.points.length d) (Nat.beq (r.points.headD []).length r.weights.length))
    (and (bounded (10 ^ 19) xs) (and (bounded (10 ^ 19) ys) (bounded (10 ^ 19) zs))))
    (and (allP (insideCube wvScaling.D) l)
      (check (cubeNum d) cubeDen wvScaling.D wvScaling.E 1 (10 ^ 14) r.quadDegree
        (Nat.mul (Nat.sub d 2) r.quadDegree) l))

/-! ## Jaskowiec-Sukumar -/

def jsScaling : Scaling where
  D := 10 ^ 25
  E := 3 * 10 ^ 25
  cw := 4
  kw := 1
  p := ⟨0, 1, 0, 0, 1⟩
  q := ⟨0, 0, 1, 0, 1⟩
  r := ⟨0, 0, 0, 1, 1⟩

/-- Entries are not negative. -/
def nonneg (l : List Int) : Bool := l.all fun x => Int.rec (motive := fun _ => Bool) (fun _ => true) (fun _ => false) x

theorem nonneg_spec {l : List Int} (h : nonneg l = true) (k : Nat) : 0 ≤ l.getD k 0 := by
  rw [nonneg, List.all_eq_true] at h
  rw [List.getD_eq_getElem?_getD]
  cases hk : l[k]? with
  | none => simp
  | some x =>
    have := h x (List.mem_of_getElem? hk)
    cases x with
    | ofNat n => simp
    | negSucc n => exact absurd this (by simp)

def jsOk (r : TableRule) : Bool :=
  let xs := r.points.getD 0 []
  let ys := r.points.getD 1 []
  let zs := r.points.getD 2 []
  let l := conv jsScaling r.weights xs ys zs
  and (and (and (Nat.beq r.points.length 3) (Nat.beq (r.points.headD []).length r.weights.length))
    (and (nonneg xs) (and (nonneg ys) (nonneg zs))))
    (and (allP (insideSimplex jsScaling.D 0) l)
      (check (simplexNum 3) (simplexDen 3) jsScaling.D jsScaling.E 1 (10 ^ 14) r.quadDegree r.quadDegree l))

/-! ## Equilateral coordinates -/

/-- `10^24 / √3`, rounded down. -/
def sqrt3inv : Nat := 577350269189625764509148

/-- `10^24 / √6`, rounded down. -/
def sqrt6inv : Nat := 408248290463863016366214

/-- `10^24 √2`, rounded down. -/
def sqrt2 : Nat := 1414213562373095048801688

/-- Barycentric coordinates of points of the equilateral triangle, in units of `10^-20`; the third one is unused. -/
def triP : Aff := ⟨2 * 10 ^ 59, 3 * 10 ^ 24, -(3 * sqrt3inv : Int), 0, 6 * 10 ^ 39⟩
def triQ : Aff := ⟨2 * 10 ^ 59, 0, 6 * sqrt3inv, 0, 6 * 10 ^ 39⟩
def triR : Aff := ⟨2, 0, 0, 0, 1⟩

/-- Barycentric coordinates of points of the equilateral tetrahedron, in units of `10^-20`. -/
def tetP : Aff := ⟨10 ^ 59, 2 * 10 ^ 24, -(2 * sqrt3inv : Int), -(2 * sqrt6inv : Int), 4 * 10 ^ 39⟩
def tetQ : Aff := ⟨10 ^ 59, 0, 4 * sqrt3inv, -(2 * sqrt6inv : Int), 4 * 10 ^ 39⟩
def tetR : Aff := ⟨10 ^ 59, 0, 0, 6 * sqrt6inv, 4 * 10 ^ 39⟩

/-- Weights are multiplied by `cw / kw`. -/
def triScaling (cw : Int) (kw : Nat) : Scaling := ⟨10 ^ 20, 10 ^ 20, cw, kw, triP, triQ, triR⟩
def tetScaling (cw : Int) (kw : Nat) : Scaling := ⟨10 ^ 20, 10 ^ 20, cw, kw, tetP, tetQ, tetR⟩

/-- The checks that the two kinds of rules on triangles have in common. -/
def triOk (cw : Int) (kw N : Nat) (ws xs ys : List Int) : Bool :=
  let l := conv (triScaling cw kw) ws xs ys []
  and (and (and (bounded (2 * 10 ^ 35) xs) (bounded (2 * 10 ^ 35) ys)) (bounded (5 * 10 ^ 35) ws))
    (and (and (Nat.ble ws.length 1000) (Nat.ble N 100)) (and (allP (insideSimplex (10 ^ 20) 2) l)
      (check (simplexNum 2) (simplexDen 2) (10 ^ 20) (10 ^ 20) 9 (10 ^ 15) N 0 l)))

def tetOk (cw : Int) (kw N : Nat) (ws xs ys zs : List Int) : Bool :=
  let l := conv (tetScaling cw kw) ws xs ys zs
  and (and (and (bounded (2 * 10 ^ 35) xs) (and (bounded (2 * 10 ^ 35) ys) (bounded (2 * 10 ^ 35) zs)))
      (bounded (5 * 10 ^ 35) ws))
    (and (and (Nat.ble ws.length 1000) (Nat.ble N 100)) (and (allP (insideSimplex (10 ^ 20) 2) l)
      (check (simplexNum 3) (simplexDen 3) (10 ^ 20) (10 ^ 20) 9 (10 ^ 15) N N l)))

/-! ## Vioreanu-Rokhlin -/

def total (ws : List Int) : Nat := List.rec (motive := fun _ => Nat) 0 (fun w _ ih => Nat.add w.toNat ih) ws

def vrTriOk (r : TableRule) : Bool :=
  let rows := processPoints r.points
  and (and (Nat.beq rows.length 2) (Nat.beq (rows.headD []).length r.weights.length))
    (and (nonneg r.weights)
      (triOk (2 * 10 ^ 20) (total r.weights) r.quadDegree r.weights (rows.getD 0 []) (rows.getD 1 [])))

def vrTetOk (r : TableRule) : Bool :=
  let rows := processPoints r.points
  and (and (Nat.beq rows.length 3) (Nat.beq (rows.headD []).length r.weights.length))
    (and (nonneg r.weights)
      (tetOk (4 * 10 ^ 20) (Nat.mul 3 (total r.weights)) r.quadDegree r.weights (rows.getD 0 []) (rows.getD 1 [])
        (rows.getD 2 [])))

/-! ## Xiao-Gimbutas -/

/-- One coordinate of all points. -/
def column (i : Nat) (rows : List (List Int)) : List Int := rows.map fun r => r.getD i 0

def xgTriOk (N : Int) (r : XgTableRule) : Bool :=
  and (Nat.beq r.points.length r.weights.length)
    (triOk (2 * sqrt3inv) (10 ^ 39) N.toNat r.weights (column 0 r.points) (column 1 r.points))

def xgTetOk (N : Int) (r : XgTableRule) : Bool :=
  and (Nat.beq r.points.length r.weights.length)
    (tetOk sqrt2 (10 ^ 39) N.toNat r.weights (column 0 r.points) (column 1 r.points) (column 2 r.points))

end
end Modepy.Table

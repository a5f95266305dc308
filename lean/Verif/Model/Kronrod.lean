import Verif.Model.Gauss
import Verif.Model.ClenshawCurtis
import Mathlib.Analysis.RCLike.Basic
import Mathlib.Data.EReal.Basic

/-!
# `modepy.quadrature.kronrod` (quadrature/kronrod.py)

Gauss-Kronrod rules by Laurie's algorithm and adaptive integration.

Exact real arithmetic.  The arrays `b`, `s`, `t` are functions of the index, updated in place; the indices used by the code
stay inside the arrays (`laurie_indices`, Proofs/Laurie.lean).  `numpy.linalg.eigvalsh` and `heapq` are parameters.  A
function value that is NaN or infinite is `none`.
-/

namespace Modepy

/-! ## Eigen-utilities -/

/-- The variables `d1, d1d, d2, d2d` of `_eigpoly`. -/
structure EigpolyState where
  d1 : ℝ
  d1d : ℝ
  d2 : ℝ
  d2d : ℝ

/-- The loop body of `_eigpoly` (kronrod.py 112-116). -/
def eigpolyStep (b : Nat → ℝ) (z : ℝ) (st : EigpolyState) (i : Nat) : EigpolyState :=
  let b2 := b (i - 2) ^ 2
  let d := z * st.d1 - b2 * st.d2
  let dd := st.d1 + z * st.d1d - b2 * st.d2d
  ⟨d, dd, st.d1, st.d1d⟩

/-- `_eigpoly(b, z, m)` (97-117); `len` is the length of `b`. -/
def eigpoly (b : Nat → ℝ) (len : Nat) (z : ℝ) (m : Option Nat) : ℝ × ℝ :=
  let m := m.getD (len + 1)
  let st := (List.range' 2 (m + 1 - 2)).foldl (eigpolyStep b z) ⟨z, 1, 1, 0⟩
  (st.d1, st.d1d)

/-- The matrix `h_mat` of `_eignewt` (126-129). -/
def eignewtMatrix (b : Nat → ℝ) (m : Nat) : Matrix (Fin m) (Fin m) ℝ :=
  Matrix.of fun i j => if (i : Nat) + 1 = j then b i else if (j : Nat) + 1 = i then b j else 0

/-- `np.finfo(float).eps`. -/
noncomputable def floatEps : ℝ := 2 ^ (-52 : ℤ)

/-- The Newton loop of `_eignewt` for one eigenvalue (134-141), with the remaining number of iterations. -/
noncomputable def newtonLoop (p : ℝ → ℝ × ℝ) : Nat → ℝ → ℝ
  | 0, lam => lam
  | k + 1, lam =>
      open Classical in
      if (p lam).2 = 0 then lam
      else
        let new := lam - (p lam).1 / (p lam).2
        if |new - lam| < 10 * floatEps * |new| then new else newtonLoop p k new

/-- One entry of `lam` (133-145): the loop, then a final step. -/
noncomputable def newtonRefine (p : ℝ → ℝ × ℝ) (lam : ℝ) : ℝ :=
  let lam := newtonLoop p 1000 lam
  open Classical in
  if (p lam).2 ≠ 0 then lam - (p lam).1 / (p lam).2 else lam

/-- `numpy.linalg.eigvalsh`. -/
abbrev Eigvalsh := (m : Nat) → Matrix (Fin m) (Fin m) ℝ → (Fin m → ℝ)

/-- `_eignewt(b, m, n)` (120-146). -/
noncomputable def eignewt (eigvalsh : Eigvalsh) (b : Nat → ℝ) (m n : Nat) : List ℝ :=
  let lam0 := (List.ofFn (eigvalsh m (eignewtMatrix b m))).mergeSort
  (lam0.take n).map (newtonRefine fun z => eigpoly b (m - 1) z (some m))

/-- The unnormalised vector of `_eigvec1` (157-165). -/
noncomputable def eigvecRaw (b : Nat → ℝ) (z : ℝ) : Nat → ℝ
  | 0 => 1
  | 1 => z * 1 / b 0
  | k + 2 => -(b k * eigvecRaw b z k - z * eigvecRaw b z (k + 1)) / b (k + 1)

/-- `_eigvec1(b, z, m)` (149-168); `s` is the accumulated sum of squares. -/
noncomputable def eigvec1 (b : Nat → ℝ) (len : Nat) (z : ℝ) (m : Option Nat) : List ℝ :=
  let m := m.getD (len + 1)
  let v := (List.range m).map (eigvecRaw b z)
  if m > 1 then
    let s := (v.map fun x => x ^ 2).sum
    v.map fun x => x / Real.sqrt s
  else v

/-! ## Rules -/

/-- `j / np.sqrt(4.0 * j * j - 1.0) for j in range(1, n)` (183, 252), the entry for `j = i + 1`. -/
noncomputable def legendreOffdiag (i : Nat) : ℝ :=
  (i + 1 : ℕ) / Real.sqrt (4 * (i + 1 : ℕ) * (i + 1 : ℕ) - 1)

/-- `gauss(n)` (175-186). -/
noncomputable def kronrodGauss (eigvalsh : Eigvalsh) (n : Nat) : Py (List ℝ × List ℝ) :=
  if n < 1 then .error .ValueError
  else
    let b := legendreOffdiag
    let x := eignewt eigvalsh b n n
    .ok (x, x.map fun xi => 2 * (eigvec1 b (n - 1) xi none).headD 0 ^ 2)

/-- The initial `b` (209-212). -/
noncomputable def laurieInit (n : Nat) : Nat → ℝ := fun j =>
  if j = 0 then 2 else if j ≤ (3 * n + 1) / 2 then (j * j : ℝ) / (4 * j * j - 1) else 0

/-- Inner loop body of the first phase (221-225), on `(u, s)`. -/
def lauriePhase1Inner (b : Nat → ℝ) (n m : Nat) (us : ℝ × (Nat → ℝ)) (k : Nat) : ℝ × (Nat → ℝ) :=
  let ell := m - k + 1
  let k1 := k + n + 1
  let u := us.1 + (b k1 * us.2 k - b (ell - 1) * us.2 (k + 1))
  (u, Function.update us.2 (k + 1) u)

/-- Outer loop body of the first phase (219-226), on `(s, t)`. -/
def lauriePhase1Step (b : Nat → ℝ) (n : Nat) (st : (Nat → ℝ) × (Nat → ℝ)) (m : Nat) : (Nat → ℝ) × (Nat → ℝ) :=
  let us := (List.range ((m + 1) / 2 + 1)).reverse.foldl (lauriePhase1Inner b n m) (0, st.1)
  (st.2, us.2)

/-- The shift (228-229). -/
def laurieShift (n : Nat) (s : Nat → ℝ) : Nat → ℝ :=
  (List.range (n / 2 + 1)).reverse.foldl (fun s j => Function.update s (j + 1) (s j)) s

/-- Inner loop body of the second phase (233-238), on `(u, s)`. -/
def lauriePhase2Inner (b : Nat → ℝ) (n m : Nat) (us : ℝ × (Nat → ℝ)) (k : Nat) : ℝ × (Nat → ℝ) :=
  let ell := m - k + 1
  let j := n - ell
  let k1 := k + n + 1
  let u := us.1 - (b k1 * us.2 (j + 1) - b (ell - 1) * us.2 (j + 2))
  (u, Function.update us.2 (j + 1) u)

/-- The variables of the second phase. -/
structure LaurieState where
  b : Nat → ℝ
  s : Nat → ℝ
  t : Nat → ℝ

/-- Outer loop body of the second phase (231-243). -/
noncomputable def lauriePhase2Step (n : Nat) (st : LaurieState) (m : Nat) : LaurieState :=
  let us := (List.range' (m + 1 - n) ((m - 1) / 2 + 1 - (m + 1 - n))).foldl (lauriePhase2Inner st.b n m) (0, st.s)
  let s := us.2
  let k := (m + 1) / 2
  let b := if 2 * k ≠ m then
      let j := n - (m - k + 2)
      Function.update st.b (k + n + 1) (s (j + 1) / s (j + 2))
    else st.b
  ⟨b, st.t, s⟩

/-- The array `b` after both phases (209-243). -/
noncomputable def laurieCoefficients (n : Nat) : Nat → ℝ :=
  let b := laurieInit n
  let s : Nat → ℝ := fun _ => 0
  let t : Nat → ℝ := Function.update (fun _ => 0) 1 (b (n + 1))
  let st := (List.range (n - 1)).foldl (lauriePhase1Step b n) (s, t)
  let s := laurieShift n st.1
  ((List.range' (n - 1) (2 * n - 2 - (n - 1))).foldl (lauriePhase2Step n) ⟨b, s, st.2⟩).b

/-- The loop `b[j] = np.sqrt(b[j + 1])` (245-246). -/
noncomputable def sqrtShift (n : Nat) (b : Nat → ℝ) : Nat → ℝ :=
  (List.range (2 * n)).foldl (fun b j => Function.update b j (Real.sqrt (b (j + 1)))) b

/-- `l[start::2]`. -/
def everyOther (start : Nat) (l : List ℝ) : List ℝ :=
  (List.range ((l.length + 1 - start) / 2)).map fun i => l.getD (start + 2 * i) 0

/-- `kronrod(n)` (189-265). -/
noncomputable def kronrod (eigvalsh : Eigvalsh) (n : Nat) : Py (List ℝ × List ℝ × List ℝ) :=
  if n < 1 then .error .ValueError
  else
    let b := sqrtShift n (laurieCoefficients n)
    let x := eignewt eigvalsh b (2 * n + 1) (n + 1)
    let w := x.map fun xi => 2 * (eigvec1 b (2 * n + 1) xi (some (2 * n + 1))).headD 0 ^ 2
    let gw := (everyOther 1 x).map fun xi => 2 * (eigvec1 legendreOffdiag (n - 1) xi (some n)).headD 0 ^ 2
    .ok (x, w, gw)

/-- `KronrodQuadrature` (272-329). -/
structure KronrodQuadrature where
  nodes : List ℝ
  weights : List ℝ
  weightsAtGaussNodes : List ℝ
  exactTo : Nat
  gaussQuadrature : Quadrature

/-- `np.dot` of two one-dimensional arrays. -/
def listDot (a b : List ℝ) : ℝ := (List.zipWith (· * ·) a b).sum

/-- The entries of a one-dimensional array. -/
def NdArray.toList1 (a : NdArray ℝ) : List ℝ := (List.range (a.shape.headD 0)).map fun i => a.get [i]

/-- `KronrodQuadrature.__call__(f)` (297-319) for a function applied elementwise. -/
def KronrodQuadrature.call (q : KronrodQuadrature) (f : ℝ → ℝ) : ℝ :=
  listDot (q.gaussQuadrature.nodes.toList1.map f) q.weightsAtGaussNodes + listDot (q.nodes.map f) q.weights

/-- `l[-2::-1]`. -/
def revFromSecondLast (l : List ℝ) : List ℝ := l.dropLast.reverse

/-- The rule assembled in `make_kronrod_quadrature` from the half rules (326-360). -/
def assembleKronrod (n : Nat) (x w gw : List ℝ) : KronrodQuadrature :=
  let gaussNeg := everyOther 1 x
  let wGauss := everyOther 1 w
  let kronNeg := everyOther 0 x
  let wKron := everyOther 0 w
  if n % 2 = 1 then
    { nodes := kronNeg ++ kronNeg.reverse.map Neg.neg
      weights := wKron ++ wKron.reverse
      weightsAtGaussNodes := wGauss.dropLast ++ [w.getLastD 0] ++ revFromSecondLast wGauss
      exactTo := 3 * n + 1
      gaussQuadrature := ⟨NdArray.ofList (gaussNeg.dropLast ++ [0] ++ (revFromSecondLast gaussNeg).map Neg.neg),
        NdArray.ofList (gw.dropLast ++ [gw.getLastD 0] ++ revFromSecondLast gw), some (.num ((2 * n - 1 : Nat) : ℚ)), none⟩ }
  else
    { nodes := kronNeg.dropLast ++ [0] ++ (revFromSecondLast kronNeg).map Neg.neg
      weights := wKron.dropLast ++ [wKron.getLastD 0] ++ revFromSecondLast wKron
      weightsAtGaussNodes := wGauss ++ wGauss.reverse
      exactTo := 3 * n + 1
      gaussQuadrature := ⟨NdArray.ofList (gaussNeg ++ gaussNeg.reverse.map Neg.neg),
        NdArray.ofList (gw ++ gw.reverse), some (.num ((2 * n - 1 : Nat) : ℚ)), none⟩ }

/-- `make_kronrod_quadrature(n)` (326-360). -/
noncomputable def makeKronrodQuadrature (eigvalsh : Eigvalsh) (n : Nat) : Py KronrodQuadrature :=
  match kronrod eigvalsh n with
  | .error e => .error e
  | .ok (x, w, gw) => .ok (assembleKronrod n x w gw)

/-! ## Adaptive integration -/

section
variable {𝕜 V : Type} [RCLike 𝕜] [NormedAddCommGroup V] [NormedSpace 𝕜 V]

/-- `Segment` (77-90); `a`, `b` real or complex. -/
structure Segment (𝕜 V : Type) where
  a : 𝕜
  b : 𝕜
  approxIntegral : V
  errorEst : ℝ

/-- The arguments at which `_evalrule` evaluates the integrand. -/
def evalrulePoints (a b : 𝕜) (x : List ℝ) : List 𝕜 :=
  let s := (1 / 2 : 𝕜) * (b - a)
  (a + s) :: x.dropLast.flatMap fun (xi : ℝ) => [a + (1 + (xi : 𝕜)) * s, a + (1 - (xi : 𝕜)) * s]

/-- The loop body of `_evalrule` (390-394), on `(i_k, i_g)`. -/
def evalruleStep (F : 𝕜 → V) (a s : 𝕜) (x w gw : List ℝ) (acc : V × V) (i : Nat) : V × V :=
  let fg := F (a + (1 + (x.getD (2 * i - 1) 0 : 𝕜)) * s) + F (a + (1 - (x.getD (2 * i - 1) 0 : 𝕜)) * s)
  let fk := F (a + (1 + (x.getD (2 * i - 2) 0 : 𝕜)) * s) + F (a + (1 - (x.getD (2 * i - 2) 0 : 𝕜)) * s)
  (acc.1 + ((w.getD (2 * i - 1) 0 : 𝕜) • fg + (w.getD (2 * i - 2) 0 : 𝕜) • fk), acc.2 + (gw.getD (i - 1) 0 : 𝕜) • fg)

/-- `i_k`, `i_g` before scaling (373-403). -/
def evalruleSums (F : 𝕜 → V) (a s : 𝕜) (x w gw : List ℝ) : V × V :=
  let nx := x.length
  let ngw := gw.length
  let n1 := 1 - nx % 2
  let acc := (List.range' 1 (ngw - n1)).foldl (evalruleStep F a s x w gw) (0, 0)
  if n1 = 0 then (acc.1 + (w.getLastD 0 : 𝕜) • F (a + s), acc.2)
  else
    let f0 := F (a + s)
    let x2 := x.getD (nx - 2) 0
    (acc.1 + ((w.getLastD 0 : 𝕜) • f0 +
        (w.getD (w.length - 2) 0 : 𝕜) • (F (a + (1 + (x2 : 𝕜)) * s) + F (a + (1 - (x2 : 𝕜)) * s))),
      acc.2 + (gw.getLastD 0 : 𝕜) • f0)

/-- `_evalrule(f, a, b, x, w, gw)` (363-412). -/
def evalrule (f : 𝕜 → Option V) (a b : 𝕜) (x w gw : List ℝ) : Py (Segment 𝕜 V) :=
  if (evalrulePoints a b x).any (fun p => (f p).isNone) then .error .ValueError
  else
    let s := (1 / 2 : 𝕜) * (b - a)
    let sums := evalruleSums (fun p => (f p).getD 0) a s x w gw
    let ik := s • sums.1
    let ig := s • sums.2
    .ok ⟨a, b, ik, ‖ik - ig‖⟩

/-- `heapq` on segments. -/
structure Heapq (α : Type) where
  push : List α → α → List α
  pop : List α → Option (α × List α)

/-- The contract of `heapq` with the ordering `Segment.__lt__` (84-86): on heaps built by its operations, pushing adds an
element and popping removes an element of largest error estimate. -/
def HeapqOk (q : Heapq (Segment 𝕜 V)) : Prop :=
  ∃ Inv : List (Segment 𝕜 V) → Prop, Inv [] ∧
    (∀ h x, Inv h → Inv (q.push h x) ∧ (q.push h x).Perm (x :: h)) ∧
    (∀ h, Inv h → h ≠ [] → ∃ x h', q.pop h = some (x, h') ∧ Inv h' ∧ h.Perm (x :: h') ∧ ∀ y ∈ h, y.errorEst ≤ x.errorEst)

/-- Building the initial heap (497-501). -/
def initialHeap (q : Heapq (Segment 𝕜 V)) (ev : 𝕜 → 𝕜 → Py (Segment 𝕜 V)) :
    List 𝕜 → List (Segment 𝕜 V) → Py (List (Segment 𝕜 V))
  | a :: b :: rest, heap =>
      match ev a b with
      | .error e => .error e
      | .ok seg => initialHeap q ev (b :: rest) (q.push heap seg)
  | _, heap => .ok heap

/-- The refinement loop (507-520): returns the final heap. -/
noncomputable def refineLoop (q : Heapq (Segment 𝕜 V)) (ev : 𝕜 → 𝕜 → Py (Segment 𝕜 V)) (n : Nat) (abstol reltol : ℝ)
    (maxevals : Nat) (heap : List (Segment 𝕜 V)) (approx : V) (err : ℝ) (numevals : Nat) :
    Py (List (Segment 𝕜 V) × Nat) :=
  open Classical in
  if abstol < err ∧ reltol * ‖approx‖ < err ∧ numevals < maxevals then
    match q.pop heap with
    | none => .error .IndexError
    | some (worst, heap) =>
        let mid := (worst.a + worst.b) * (1 / 2)
        match ev worst.a mid with
        | .error e => .error e
        | .ok s1 =>
            match ev mid worst.b with
            | .error e => .error e
            | .ok s2 =>
                refineLoop q ev n abstol reltol maxevals (q.push (q.push heap s1) s2)
                  ((approx - worst.approxIntegral) + s1.approxIntegral + s2.approxIntegral)
                  ((err - worst.errorEst) + s1.errorEst + s2.errorEst) (numevals + (4 * n + 2))
  else .ok (heap, numevals)
  termination_by maxevals - numevals
  decreasing_by omega

/-- `_do_quadgk` (469-525) for finite end points; also returns the number of evaluations, for reference. -/
noncomputable def doQuadgkFinite (eigvalsh : Eigvalsh) (q : Heapq (Segment 𝕜 V)) (f : 𝕜 → Option V) (s : List 𝕜) (n : Nat)
    (abstol reltol : ℝ) (maxevals : Nat) : Py (V × ℝ × Nat) :=
  match kronrod eigvalsh n with
  | .error e => .error e
  | .ok (x, w, gw) =>
      let ev := fun a b => evalrule f a b x w gw
      match initialHeap q ev s [] with
      | .error e => .error e
      | .ok heap =>
          let numevals := (2 * n + 1) * heap.length
          let approx := (heap.map Segment.approxIntegral).sum
          let err := (heap.map Segment.errorEst).sum
          match refineLoop q ev n abstol reltol maxevals heap approx err numevals with
          | .error e => .error e
          | .ok (heap, numevals) =>
              .ok ((heap.map Segment.approxIntegral).sum, (heap.map Segment.errorEst).sum, numevals)

end

/-! ## Infinite intervals -/

section
variable {V : Type} [NormedAddCommGroup V] [NormedSpace ℝ V]

/-- `g` of `_transform_both_inf` (416-421). -/
noncomputable def bothInfIntegrand (f : ℝ → Option V) (t : ℝ) : Option V :=
  open Classical in
  if 1 - t * t = 0 then none
  else
    let den := 1 / (1 - t * t)
    (f (t * den)).map fun v => ((1 + t * t) * den * den) • v

/-- `_map` of `_transform_both_inf` (423-426). -/
noncomputable def bothInfMap : EReal → ℝ
  | ⊤ => 1
  | ⊥ => -1
  | (x : ℝ) => 2 * x / (1 + Real.sqrt (1 ^ 2 + (2 * x) ^ 2))

/-- `g` of `_transform_semi_inf_neg` (432-434). -/
noncomputable def semiInfNegIntegrand (f : ℝ → Option V) (s0 : ℝ) (t : ℝ) : Option V :=
  open Classical in
  if 1 - t = 0 then none
  else
    let den := 1 / (1 - t)
    (f (s0 - t * den)).map fun v => (den * den) • v

/-- `g` of `_transform_semi_inf_pos` (450-452). -/
noncomputable def semiInfPosIntegrand (f : ℝ → Option V) (s0 : ℝ) (t : ℝ) : Option V :=
  open Classical in
  if 1 - t = 0 then none
  else
    let den := 1 / (1 - t)
    (f (s0 + t * den)).map fun v => (den * den) • v

/-- `_map` of the semi-infinite transforms (436-442, 454-460), given `diff`. -/
noncomputable def semiInfMapDiff (diff : ℝ) : ℝ :=
  open Classical in
  if diff = 0 then 0 else 1 / (1 + 1 / diff)

/-- `_map` of `_transform_semi_inf_neg` (436-442). -/
noncomputable def semiInfNegMap (s0 : ℝ) : EReal → ℝ
  | ⊤ => 1
  | ⊥ => 1
  | (x : ℝ) => semiInfMapDiff (s0 - x)

/-- `_map` of `_transform_semi_inf_pos` (454-460). -/
noncomputable def semiInfPosMap (s0 : ℝ) : EReal → ℝ
  | ⊤ => 1
  | ⊥ => 1
  | (x : ℝ) => semiInfMapDiff (x - s0)

/-- The integrand and break points after the transformations at the head of `_do_quadgk` (478-490), for real break points
`first, mid..., last`; infinite break points strictly inside the list are not modelled. -/
noncomputable def transformInf (f : ℝ → Option V) (first : EReal) (mid : List ℝ) (last : EReal) :
    (ℝ → Option V) × List ℝ :=
  let s : List EReal := first :: (mid.map fun (x : ℝ) => (x : EReal)) ++ [last]
  open Classical in
  let inf1 := first = ⊤ ∨ first = ⊥
  let inf2 := last = ⊤ ∨ last = ⊥
  if inf1 ∨ inf2 then
    if inf1 ∧ inf2 then (bothInfIntegrand f, s.map bothInfMap)
    else if inf1 then (semiInfNegIntegrand f last.toReal, (s.map (semiInfNegMap last.toReal)).reverse)
    else (semiInfPosIntegrand f first.toReal, s.map (semiInfPosMap first.toReal))
  else (f, first.toReal :: mid ++ [last.toReal])

/-- `quadgk(f, *pts, ...)` (532-580) for real break points. -/
noncomputable def quadgk (eigvalsh : Eigvalsh) (q : Heapq (Segment ℝ V)) (f : ℝ → Option V) (first : EReal) (mid : List ℝ)
    (last : EReal) (abstol reltol : ℝ) (maxevals order : Nat) : Py (V × ℝ × Nat) :=
  let gs := transformInf f first mid last
  doQuadgkFinite eigvalsh q gs.1 gs.2 order abstol reltol maxevals

/-- `quadgk` on the tuple `pts` (573-577) when all are finite (real or complex). -/
noncomputable def quadgkFinite {𝕜 W : Type} [RCLike 𝕜] [NormedAddCommGroup W] [NormedSpace 𝕜 W] (eigvalsh : Eigvalsh)
    (q : Heapq (Segment 𝕜 W)) (f : 𝕜 → Option W) (pts : List 𝕜) (abstol reltol : ℝ) (maxevals order : Nat) :
    Py (W × ℝ × Nat) :=
  if pts.length < 2 then .error .ValueError
  else doQuadgkFinite eigvalsh q f pts order abstol reltol maxevals

end

end Modepy

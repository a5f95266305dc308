import Verif.Model.Pytools
import Verif.Model.Quadrature
import Mathlib.Data.Nat.Factorial.Basic

/-!
# `modepy.quadrature.grundmann_moeller`
-/

namespace Modepy
open Pytools

theorem natAbs_fmod_lt (q : Int) {r : Int} (h : r ≠ 0) : (Int.fmod q r).natAbs < r.natAbs := by
  rcases lt_or_gt_of_ne h with hr | hr
  · have h1 := Int.fmod_nonneg_of_pos (-q) (show 0 < -r by omega)
    have h2 := Int.fmod_lt_of_pos (-q) (show 0 < -r by omega)
    rw [Int.neg_fmod_neg] at h1 h2
    omega
  · have h1 := Int.fmod_nonneg_of_pos q hr
    have h2 := Int.fmod_lt_of_pos q hr
    omega

/-- The `while r:` loop of `_extended_euclidean` (49-59); `divmod` on Python integers rounds towards
minus infinity. -/
def euclidLoop (q r : Int) (bigQ bigR : Int × Int) : Int × Int × Int :=
  if h : r = 0 then (q, bigQ.1, bigQ.2)
  else
    euclidLoop r (Int.fmod q r) bigR
      (bigQ.1 - Int.fdiv q r * bigR.1, bigQ.2 - Int.fdiv q r * bigR.2)
termination_by r.natAbs
decreasing_by exact natAbs_fmod_lt q h

/-- `_extended_euclidean(q, r)` (38-59). -/
def extendedEuclidean (q r : Int) : Int × Int × Int :=
  if h : q.natAbs < r.natAbs then
    let (p, a, b) := extendedEuclidean r q
    (p, b, a)
  else euclidLoop q r (1, 0) (0, 1)
termination_by (if q.natAbs < r.natAbs then 1 else 0 : Nat)
decreasing_by
  rw [if_pos h, if_neg (by omega)]
  omega

/-- `_gcd(q, r)` (62-63). -/
def pyGcd (q r : Int) : Int := (extendedEuclidean q r).1

/-- `_simplify_fraction((a, b))` (66-69). -/
def simplifyFraction (x : Int × Int) : Py (Int × Int) :=
  let gcd := pyGcd x.1 x.2
  if gcd = 0 then .error .ZeroDivisionError
  else .ok (Int.fdiv x.1 gcd, Int.fdiv x.2 gcd)

/-- `d[k] = d.get(k, 0) + w` on an insertion-ordered dictionary. -/
def dictAdd {κ : Type} [DecidableEq κ] : List (κ × ℝ) → κ → ℝ → List (κ × ℝ)
  | [], k, w => [(k, 0 + w)]
  | (k', w') :: rest, k, w => if k' = k then (k', w' + w) :: rest else (k', w') :: dictAdd rest k w

/-- `weight` (116-119). -/
noncomputable def gmWeight (s n i : Nat) : ℝ :=
  let d := 2 * s + 1
  (-1) ^ i * (2 : ℝ) ^ (-2 * (s : Int)) * (((d + n : Int) - 2 * i : Int) : ℝ) ^ d
    / (Nat.factorial i) / (Nat.factorial (d + n - i))

/-- The tuples `beta` visited for one `i` (121-122). -/
def gmBetas (m len : Nat) : List (List Nat) :=
  (decreasingTuples m len m).flatMap fun t => uniquePermutations t

/-- `point` (123-126). -/
def gmPoint (s n i : Nat) (beta : List Nat) : Py (List (Int × Int)) :=
  let denominator : Int := (2 * s + 1 + n : Int) - 2 * i
  collect (beta.map fun (b : Nat) => simplifyFraction (2 * (b : Int) + 1, denominator))

/-- One `(point, weight)` pair (123-129). -/
noncomputable def gmEntry (s n i : Nat) (beta : List Nat) : Py (List (Int × Int) × ℝ) :=
  match gmPoint s n i beta with
  | .ok point => .ok (point, gmWeight s n i)
  | .error e => .error e

/-- The `(point, weight)` pairs in the order in which they are added (115-129). -/
noncomputable def gmEntries (s n : Nat) : Py (List (List (Int × Int) × ℝ)) :=
  collect ((List.range (s + 1)).flatMap fun i =>
    (gmBetas (s - i) (n + 1)).map fun beta => gmEntry s n i beta)

/-- `vertices` (133-135). -/
noncomputable def gmVertices (n : Nat) : List (List ℝ) :=
  List.replicate n (-1) :: wanderingElement n 1 (-1)

/-- `reduce(add, (a/b * v for (a, b), v in zip(p, vertices, strict=True)))` (142-143). -/
noncomputable def gmRealPoint (p : List (Int × Int)) (vertices : List (List ℝ)) : Py (List ℝ) :=
  if p.length ≠ vertices.length then .error .ValueError
  else
    match List.zipWith (fun (ab : Int × Int) v => v.map fun c => (ab.1 : ℝ) / ab.2 * c) p vertices with
    | [] => .error .TypeError
    | v :: vs => .ok (vs.foldl (List.zipWith (· + ·)) v)

/-- `GrundmannMoellerSimplexQuadrature(order, dimension)` (90-147). -/
noncomputable def grundmannMoeller (order dimension : Nat) : Py Quadrature :=
  let s := order
  let n := dimension
  let d := 2 * s + 1
  if dimension = 0 then .ok ⟨⟨[0, 1], fun _ => 0⟩, ⟨[1], fun _ => 1⟩, some .inf, none⟩
  else
    match gmEntries s n with
    | .error e => .error e
    | .ok entries =>
        let pointsToWeights := entries.foldl (fun dict e => dictAdd dict e.1 e.2) []
        match collect (pointsToWeights.map fun e => gmRealPoint e.1 (gmVertices n)) with
        | .error e => .error e
        | .ok nodes =>
            let weights := pointsToWeights.map fun e => (2 : ℝ) ^ n * e.2
            .ok ⟨⟨[n, nodes.length], fun idx => (nodes.getD (idx.getD 1 0) []).getD (idx.getD 0 0) 0⟩,
              ⟨[weights.length], fun idx => weights.getD (idx.getD 0 0) 0⟩, some (.num d), none⟩

end Modepy

import Verif.Model.Gauss
import Verif.Model.Matrices
import Verif.Model.Tools
import Verif.Model.Nodes

/-!
# `modepy.nodes`: warp and blend nodes (nodes.py 120-364)

Arrays of shape `(rows, m)` are functions `Fin rows → Fin m → ℝ`.  `node_tuples` have natural entries.
-/

namespace Modepy
open Matrix

/-- `np.linspace(-1, 1, n+1)`. -/
noncomputable def linspaceUnit (n : Nat) : Fin (n + 1) → ℝ := fun j => -1 + 2 * (j : ℝ) / n

open Classical in
/-- `warp_factor(n, output_nodes, scaled)` (120-146). -/
noncomputable def warpFactor (ext : Ext) (n : Nat) {m : Nat} (outputNodes : Fin m → ℝ) (scaled : Bool) :
    Py (Fin m → ℝ) :=
  match lobattoNodes ext 0 0 n .builtin with
  | .error e => .error e
  | .ok warpedNodes =>
      let equiNodes := linspaceUnit n
      let basis : Fin (n + 1) → ℝ → ℝ := fun k => jacobi 0 0 k
      match npSolve (vandermonde basis equiNodes)ᵀ (vandermonde basis outputNodes)ᵀ with
      | .error e => .error e
      | .ok s =>
          let warp := sᵀ *ᵥ (warpedNodes - equiNodes)
          if scaled then
            .ok fun i =>
              let zerof : ℝ := if |outputNodes i| < 1.0 - 1.0e-10 then 1 else 0
              let sf := 1.0 - (zerof * outputNodes i) ^ 2
              warp i / sf + warp i * (zerof - 1)
          else .ok warp

/-- `i2, i3 = set(range(3)) - {i1}` (158) leaves the order of the two elements to the set implementation: any choice
returning the two other elements. -/
structure SetOrder where
  pick : Fin 3 → Fin 3 × Fin 3
  ok : ∀ i, (pick i).1 ≠ i ∧ (pick i).2 ≠ i ∧ (pick i).1 ≠ (pick i).2

/-- `EQUILATERAL_VERTICES[2]` as rows. -/
noncomputable def equiVertex2 (k : Fin 3) : Fin 2 → ℝ := fun r =>
  (((equilateralVertices 2).getD []).getD k []).getD r 0

/-- `EQUILATERAL_VERTICES[3]` as rows. -/
noncomputable def equiVertex3 (k : Fin 4) : Fin 3 → ℝ := fun r =>
  (((equilateralVertices 3).getD []).getD k []).getD r 0

/-- `la.norm(v)`. -/
noncomputable def norm2 {d : Nat} (v : Fin d → ℝ) : ℝ := √ (∑ r, v r ^ 2)

/-- One iteration of the loop of `_2d_equilateral_shift` (157-174). -/
noncomputable def shiftStep2D (ext : Ext) (so : SetOrder) (n : Nat) {m : Nat} (bary : Fin 3 → Fin m → ℝ) (alpha : ℝ)
    (result : Py (Fin 2 → Fin m → ℝ)) (i1 : Fin 3) : Py (Fin 2 → Fin m → ℝ) :=
  match result with
  | .error e => .error e
  | .ok result =>
      let i2 := (so.pick i1).1
      let i3 := (so.pick i1).2
      match warpFactor ext n (fun k => bary i2 k - bary i3 k) true with
      | .error e => .error e
      | .ok warpf =>
          let tangent := fun r => equiVertex2 i2 r - equiVertex2 i3 r
          let nrm := norm2 tangent
          .ok fun r k =>
            let blend := 4 * bary i2 k * bary i3 k
            let warp := blend * warpf k * (1 + (alpha * bary i1 k) ^ 2)
            result r k + tangent r / nrm * warp

/-- `_2d_equilateral_shift(n, bary, alpha)` (151-175). -/
noncomputable def equilateralShift2D (ext : Ext) (so : SetOrder) (n : Nat) {m : Nat} (bary : Fin 3 → Fin m → ℝ)
    (alpha : ℝ) : Py (Fin 2 → Fin m → ℝ) :=
  ([0, 1, 2] : List (Fin 3)).foldl (shiftStep2D ext so n bary alpha) (.ok fun _ _ => 0)

/-- `_alpha_opt_2d` (178-180). -/
noncomputable def alphaOpt2D : List ℝ :=
  [0.0000, 0.0000, 1.4152, 0.1001, 0.2751, 0.9800, 1.0999, 1.2832, 1.3648, 1.4773, 1.4959, 1.5743, 1.5770, 1.6223,
    1.6258]

/-- `_alpha_opt_3d` (216-218). -/
noncomputable def alphaOpt3D : List ℝ :=
  [0, 0, 0, 0.1002, 1.1332, 1.5608, 1.3413, 1.2577, 1.1603, 1.10153, 0.6080, 0.4523, 0.8856, 0.8717, 0.9655]

/-- `try: alpha = table[n-1] except IndexError: alpha = default`. -/
noncomputable def alphaFor (table : List ℝ) (default : ℝ) (n : Nat) : ℝ :=
  match pyIndex table.length ((n : Int) - 1) with
  | some k => table.getD k 0
  | none => default

/-- The check on `node_tuples` (192-197, 230-235). -/
def checkedTuples (dims n : Nat) (tuples : Option (List (List Nat))) : Py (List (List Nat)) :=
  let space : PNSpace := ⟨dims, n⟩
  match tuples with
  | none => .ok (nodeTuplesPN space)
  | some ts => if ts.length ≠ space.spaceDim then .error .ValueError else .ok ts

/-- `unit_to_barycentric((np.array(node_tuples)/n*2 - 1).T)` (200, 207; 238, 246), column `k`. -/
noncomputable def tupleBary (dims n : Nat) (tuples : List (List Nat)) (k : Nat) : List ℝ :=
  unitToBarycentric (((List.range dims).map fun i => (scaledTuples dims n tuples : NdArray ℝ).get [i, k]))

/-- `equilateral_to_unit(barycentric_to_equilateral(bary) + shift)` (209-211, 246-247, 296), one column. -/
noncomputable def shiftedNode (bary shift : List ℝ) : Py (List ℝ) :=
  match barycentricToEquilateral bary with
  | .error e => .error e
  | .ok equi => equilateralToUnit (List.zipWith (· + ·) equi shift)

/-- `equilateral_to_unit(barycentric_to_equilateral(bary) + shift)` (209-211, 246-247, 296) for all columns. -/
noncomputable def shiftedNodes (dims m : Nat) (bary : Nat → List ℝ) (shift : Nat → List ℝ) : Py (NdArray ℝ) :=
  match collect ((List.range m).map fun k => shiftedNode (bary k) (shift k)) with
  | .error e => .error e
  | .ok cols => .ok ⟨[dims, m], fun idx => (cols.getD (idx.getD 1 0) []).getD (idx.getD 0 0) 0⟩

/-- `warp_and_blend_nodes_2d(n, node_tuples)` (183-211), `n ≥ 1`. -/
noncomputable def warpAndBlend2D (ext : Ext) (so : SetOrder) (n : Nat) (tuples : Option (List (List Nat))) :
    Py (NdArray ℝ) :=
  let alpha := alphaFor alphaOpt2D (5 / 3) n
  match checkedTuples 2 n tuples with
  | .error e => .error e
  | .ok ts =>
      let bary := tupleBary 2 n ts
      match equilateralShift2D ext so n (fun (p : Fin 3) (k : Fin ts.length) => (bary k).getD p 0) alpha with
      | .error e => .error e
      | .ok shift =>
          shiftedNodes 2 ts.length bary fun k =>
            if h : k < ts.length then [shift 0 ⟨k, h⟩, shift 1 ⟨k, h⟩] else []

/-- The rows of the loop header of `warp_and_blend_nodes_3d` (255-260): `i1, i2, i3, i4`; `vertex_step` is `-1`. -/
def facePick : List (Fin 4 × Fin 4 × Fin 4 × Fin 4) :=
  [(0, 1, 2, 3), (1, 2, 3, 0), (2, 3, 0, 1), (3, 0, 1, 2)]

/-- `(i1 + vertex_step*i) % 4` (262). -/
def faceVertex (i1 : Fin 4) (i : Nat) : Fin 4 := Fin.ofNat 4 (((i1 : Int) + (-1) * (i : Int)) % 4).toNat

open Classical in
/-- One iteration of the loop of `warp_and_blend_nodes_3d` (262-294). -/
noncomputable def shiftStep3D (ext : Ext) (so : SetOrder) (n : Nat) {m : Nat} (bary : Fin 4 → Fin m → ℝ) (alpha : ℝ)
    (shift : Py (Fin 3 → Fin m → ℝ)) (idx : Fin 4 × Fin 4 × Fin 4 × Fin 4) : Py (Fin 3 → Fin m → ℝ) :=
  match shift with
  | .error e => .error e
  | .ok shift =>
      let i1 := idx.1
      let i2 := idx.2.1
      let i3 := idx.2.2.1
      let i4 := idx.2.2.2
      let vi2 := faceVertex i1 1
      let vi3 := faceVertex i1 2
      let vi4 := faceVertex i1 3
      let tol : ℝ := 1e-8
      let t1 : Fin 3 → ℝ := fun r => equiVertex3 vi3 r - equiVertex3 vi4 r
      let tangent1 : Fin 3 → ℝ := fun r => t1 r / norm2 t1
      let t2 : Fin 3 → ℝ := fun r => equiVertex3 vi2 r - equiVertex3 vi3 r
      let t2' : Fin 3 → ℝ := fun r => t2 r - (∑ s, tangent1 s * t2 s) * tangent1 r
      let tangent2 : Fin 3 → ℝ := fun r => t2' r / norm2 t2'
      let subBary : Fin 3 → Fin m → ℝ := ![bary i2, bary i3, bary i4]
      match equilateralShift2D ext so n subBary alpha with
      | .error e => .error e
      | .ok warp =>
          .ok fun r k =>
            let l1 := bary i1 k
            let l2 := bary i2 k
            let l3 := bary i3 k
            let l4 := bary i4 k
            let denom := (l2 + 0.5 * l1) * (l3 + 0.5 * l1) * (l4 + 0.5 * l1)
            let blend := if denom > tol then (1 + (alpha * l1) ^ 2) * (l2 * l3 * l4) / denom else l2 * l3 * l4
            let isFace := l1 < tol ∧ (l2 > tol ∨ l3 > tol ∨ l4 > tol)
            if isFace then warp 0 k * tangent1 r + warp 1 k * tangent2 r
            else shift r k + blend * warp 0 k * tangent1 r + blend * warp 1 k * tangent2 r

/-- `warp_and_blend_nodes_3d(n, node_tuples)` (221-296), `n ≥ 1`. -/
noncomputable def warpAndBlend3D (ext : Ext) (so : SetOrder) (n : Nat) (tuples : Option (List (List Nat))) :
    Py (NdArray ℝ) :=
  let alpha := alphaFor alphaOpt3D 1 n
  match checkedTuples 3 n tuples with
  | .error e => .error e
  | .ok ts =>
      let bary := tupleBary 3 n ts
      match facePick.foldl (shiftStep3D ext so n (fun (p : Fin 4) (k : Fin ts.length) => (bary k).getD p 0) alpha)
          (.ok fun _ _ => 0) with
      | .error e => .error e
      | .ok shift =>
          shiftedNodes 3 ts.length bary fun k =>
            if h : k < ts.length then [shift 0 ⟨k, h⟩, shift 1 ⟨k, h⟩, shift 2 ⟨k, h⟩] else []

/-- `new_result[:, i] = result[:, nti]` for `(nti,)` in `node_tuples` (344-346). -/
noncomputable def pickNode (result : NdArray ℝ) (n : Nat) (t : List Nat) : Py ℝ :=
  match t with
  | [nti] => if nti < n + 1 then .ok (result.get [0, nti]) else .error .IndexError
  | _ => .error .ValueError

/-- `warp_and_blend_nodes(dims, n, node_tuples)` (303-364). -/
noncomputable def warpAndBlendNodes (ext : Ext) (so : SetOrder) (dims n : Nat) (tuples : Option (List (List Nat))) :
    Py (NdArray ℝ) :=
  if n = 0 then .ok (simplexCentroid dims)
  else
    match dims with
    | 0 => .ok ⟨[0, 1], fun _ => 0⟩
    | 1 =>
        match legendreGaussLobattoNodes ext n .builtin true with
        | .error e => .error e
        | .ok result =>
            match tuples with
            | none => .ok result
            | some ts =>
                if ts.length ≠ n + 1 then .error .ValueError
                else
                  match collect (ts.map (pickNode result n)) with
                  | .error e => .error e
                  | .ok l => .ok ⟨[1, n + 1], fun idx => l.getD (idx.getD 1 0) 0⟩
    | 2 => warpAndBlend2D ext so n tuples
    | 3 => warpAndBlend3D ext so n tuples
    | _ => .error .NotImplementedError

end Modepy

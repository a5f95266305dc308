import Verif.Model.Shapes
import Mathlib.Data.Real.Basic

/-!
# `random_nodes_for_shape` (nodes.py 524-544 and 600-616)

The generator is an arbitrary state machine.  The `while True` loop is modelled by the number `fuel` of iterations
one is willing to run; `none` means that it is still running.
-/

namespace Modepy
open NdArray

/-- `numpy.random.Generator.uniform(-1, 1, size=(d, k))` as a state transformer. -/
structure Rng (σ : Type) where
  uniform : σ → (d k : Nat) → (Nat → Nat → ℝ) × σ

open Classical in
/-- The columns kept by `new_nodes[:, new_nodes.sum(axis=0) < 2-shape.dim]` (nodes.py 537). -/
noncomputable def acceptedColumns (dim k : Nat) (newNodes : Nat → Nat → ℝ) : List Nat :=
  (List.range k).filter fun j =>
    decide (((List.range dim).map fun i => newNodes i j).sum < 2 - (dim : ℝ))

/-- `result[:, nnodes_obtained:nnodes_obtained+nnew_nodes] = new_nodes` (nodes.py 539). -/
noncomputable def assignColumns (result : NdArray ℝ) (start : Nat) (cols : List Nat) (newNodes : Nat → Nat → ℝ) :
    NdArray ℝ :=
  ⟨result.shape, fun idx =>
    match idx with
    | [i, k] => if start ≤ k ∧ k < start + cols.length then newNodes i (cols.getD (k - start) 0) else result.get [i, k]
    | idx => result.get idx⟩

/-- The loop of `_random_nodes_for_simplex` (nodes.py 535-543). -/
noncomputable def randomLoop {σ : Type} (rng : Rng σ) (dim nnodes : Nat) :
    (fuel : Nat) → σ → NdArray ℝ → (obtained : Nat) → Option (NdArray ℝ × σ)
  | 0, _, _, _ => none
  | fuel + 1, st, result, obtained =>
      let drawn := rng.uniform st dim (nnodes - obtained)
      let newNodes := drawn.1
      let st := drawn.2
      let cols := acceptedColumns dim (nnodes - obtained) newNodes
      let result := assignColumns result obtained cols newNodes
      let obtained := obtained + cols.length
      if obtained = nnodes then some (result, st) else randomLoop rng dim nnodes fuel st result obtained

/-- `_random_nodes_for_simplex(shape, nnodes, rng)` (nodes.py 524-543). -/
noncomputable def randomNodesSimplex {σ : Type} (rng : Rng σ) (fuel dim nnodes : Nat) (st : σ) :
    Option (NdArray ℝ × σ) :=
  randomLoop rng dim nnodes fuel st ⟨[dim, nnodes], fun _ => 0⟩ 0

/-- The loop of `_random_nodes_for_tp` (nodes.py 609-614). -/
noncomputable def randomTpLoop {σ : Type} (rng : Rng σ) (fuel nnodes : Nat) :
    List Nat → (d : Nat) → NdArray ℝ → σ → Option (NdArray ℝ × σ)
  | [], _, nodes, st => some (nodes, st)
  | s :: rest, d, nodes, st =>
      match randomNodesSimplex rng fuel s nnodes st with
      | none => none
      | some (b, st) =>
          randomTpLoop rng fuel nnodes rest (d + s)
            ⟨nodes.shape, fun idx =>
              match idx with
              | [i, k] => if d ≤ i ∧ i < d + s then b.get [i - d, k] else nodes.get [i, k]
              | idx => nodes.get idx⟩ st

/-- `random_nodes_for_shape(shape, nnodes, rng)`; `fill` is the content of `np.empty` (nodes.py 608). -/
noncomputable def randomNodesForShape {σ : Type} (rng : Rng σ) (fuel : Nat) (fill : ℝ) (shape : Shape) (nnodes : Nat)
    (st : σ) : Option (NdArray ℝ × σ) :=
  match shape with
  | .simplex dim => randomNodesSimplex rng fuel dim nnodes st
  | shape => randomTpLoop rng fuel nnodes shape.flatBases 0 ⟨[shape.dim, nnodes], fun _ => fill⟩ st

end Modepy

import Verif.Model.NdArray

/-!
# `modepy.nodes.tensor_product_nodes` (nodes.py 373-425)
-/

namespace Modepy

open NdArray

/-- The normalisation of one entry of `dims_or_nodes`
(nodes.py 405: `n.reshape(1, -1) if n.ndim == 1 else n`), followed by the check implied by
`d_i, n_i = nodes.shape` (nodes.py 414), which raises `ValueError` unless `ndim == 2`. -/
def asNodeset {α : Type _} (a : NdArray α) : Py (NdArray α) :=
  match a.shape with
  | [n] => reshapeC a [1, n]
  | [_, _] => .ok a
  | _ => .error .ValueError

/-- NumPy broadcasting of an index: axes of length one are read at `0`. -/
def bcastIdx (shape idx : List Nat) : List Nat :=
  List.zipWith (fun s i => if s = 1 then 0 else i) shape idx

/-- First axis length (`nodes.shape[0]`). -/
def rows {α : Type _} (a : NdArray α) : Nat := a.shape.headD 0

/-- Second axis length (`nodes.shape[-1]`, for 2D arrays). -/
def ncols {α : Type _} (a : NdArray α) : Nat := (a.shape.drop 1).headD 0

/-- The loop of nodes.py 412-418.  `m = len(nodesets)`, `i`, `d` are the loop variables, `acc` the
array `result`; each iteration assigns the broadcast of `nodes.reshape(bcast_shape)` to
`result[d:d+d_i]`. -/
def tpFill {α : Type _} (m : Nat) :
    List (NdArray α) → (i d : Nat) → NdArray α → Py (NdArray α)
  | [], _, _, acc => .ok acc
  | nodes :: rest, i, d, acc =>
      let dI := rows nodes
      let nI := ncols nodes
      let bcastShape := dI :: (List.replicate i 1 ++ nI :: List.replicate (m - i - 1) 1)
      match reshapeC nodes bcastShape with
      | .error e => .error e
      | .ok b =>
          tpFill m rest (i + 1) (d + dI)
            ⟨acc.shape, fun idx =>
              match idx with
              | r :: rest =>
                  if d ≤ r ∧ r < d + dI then b.get (bcastIdx bcastShape ((r - d) :: rest))
                  else acc.get (r :: rest)
              | [] => acc.get []⟩

/-- `tensor_product_nodes(nodesets)` for a sequence of node arrays (nodes.py 400-425).
`fillValue` is the content of `np.empty`. -/
def tensorProductNodes {α : Type _} (fillValue : α) (dimsOrNodes : List (NdArray α)) :
    Py (NdArray α) :=
  match collect (dimsOrNodes.map asNodeset) with
  | .error e => .error e
  | .ok nodesets =>
      let dims := (nodesets.map rows).sum
      let resultShape := nodesets.map ncols
      match tpFill nodesets.length nodesets 0 0 ⟨dims :: resultShape, fun _ => fillValue⟩ with
      | .error e => .error e
      | .ok result =>
          if dims = 0 then reshapeC result [dims, 1]
          else reshapeF result [dims, NdArray.size result.shape / dims]

/-- `tensor_product_nodes(dims, nodes_1d)` for an integer first argument (nodes.py 393-400). -/
def tensorProductNodesInt {α : Type _} (fillValue : α) (dims : Nat)
    (nodes1d : Option (NdArray α)) : Py (NdArray α) :=
  match nodes1d with
  | none => .error .ValueError
  | some nodes =>
      match reshapeC nodes [1, NdArray.size nodes.shape] with
      | .error e => .error e
      | .ok n => tensorProductNodes fillValue (List.replicate dims n)

end Modepy

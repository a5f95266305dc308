import Verif.Model.WarpBlend

/-!
# `modepy.nodes`: edge-clustered nodes and Gauss(-Lobatto) product nodes (nodes.py 428-449, 466-468, 511-522, 585-598)
-/

namespace Modepy

/-- `legendre_gauss_tensor_product_nodes(dims, n)` (428-439). -/
noncomputable def legendreGaussTensorProductNodes (ext : Ext) (dims n : Nat) : Py (NdArray ℝ) :=
  match legendreGaussQuadrature ext n .builtin true with
  | .error e => .error e
  | .ok quad =>
      match quad.nodes.reshapeC [1, NdArray.size quad.nodes.shape] with
      | .error e => .error e
      | .ok nodes => tensorProductNodesInt 0 dims (some nodes)

/-- `legendre_gauss_lobatto_tensor_product_nodes(dims, n)` (442-449). -/
noncomputable def legendreGaussLobattoTensorProductNodes (ext : Ext) (dims n : Nat) : Py (NdArray ℝ) :=
  match legendreGaussLobattoNodes ext n .builtin true with
  | .error e => .error e
  | .ok nodes => tensorProductNodesInt 0 dims (some nodes)

/-- `_edge_clustered_nodes_for_pn` with a simplex of dimension `d` (511-522). -/
noncomputable def edgeClusteredPN (ext : Ext) (so : SetOrder) (s : PNSpace) (d : Nat) : Py (NdArray ℝ) :=
  if s.spatialDim ≠ d then .error .ValueError
  else if s.spatialDim ≤ 3 then warpAndBlendNodes ext so s.spatialDim s.order none
  else equidistantNodes s.spatialDim s.order none

/-- `edge_clustered_nodes_for_space(space, shape)` (466-468, 511-522, 585-598); class mismatches raise
`NotImplementedError`, `zip(..., strict=True)` raises `ValueError` on a length mismatch. -/
noncomputable def edgeClusteredNodes (ext : Ext) (so : SetOrder) (space : Space) (shape : Shape) : Py (NdArray ℝ) :=
  match space, shape with
  | .pn s, .simplex d => edgeClusteredPN ext so s d
  | .pn _, _ => .error .NotImplementedError
  | _, .simplex _ => .error .NotImplementedError
  | space, shape =>
      if space.spatialDim ≠ shape.dim then .error .ValueError
      else
        match collect (List.zipWith (edgeClusteredPN ext so) space.flatBases shape.flatBases) with
        | .error e => .error e
        | .ok nodesets =>
            if space.flatBases.length ≠ shape.flatBases.length then .error .ValueError
            else tensorProductNodes 0 nodesets

end Modepy

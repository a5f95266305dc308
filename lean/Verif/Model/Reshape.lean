import Verif.Model.Spaces

/-!
# `modepy.tools`: reshaping DOF arrays (tools.py 427-489)
-/

namespace Modepy

open NdArray

/-- `reshape_array_for_tensor_product_space(space, ary, axis)` (tools.py 427-462). -/
def reshapeForTP {α : Type _} (space : Space) (ary : NdArray α) (axis : Int) : Py (NdArray α) :=
  if space.isTP = false then .ok ary
  else
    let ndim : Int := ary.shape.length
    let axis := if axis < 0 then axis + ndim else axis
    if ¬ (0 ≤ axis ∧ axis < ndim) then .error .ValueError
    else
      let ax := axis.toNat
      if ary.shape.getD ax 0 ≠ space.spaceDim then .error .ValueError
      else
        reshapeF ary (ary.shape.take ax ++ space.flatBases.map PNSpace.spaceDim
          ++ ary.shape.drop (ax + 1))

/-- `unreshape_array_for_tensor_product_space(space, ary, axis)` (tools.py 465-489). -/
def unreshapeForTP {α : Type _} (space : Space) (ary : NdArray α) (axis : Int) : Py (NdArray α) :=
  if space.isTP = false then .ok ary
  else
    let nTp := space.flatBases.length
    let naxes : Int := (ary.shape.length : Int) - nTp + 1
    let axis := if axis < 0 then axis + naxes else axis
    if ¬ (0 ≤ axis ∧ axis < naxes) then .error .ValueError
    else
      let ax := axis.toNat
      let expected := space.flatBases.map PNSpace.spaceDim
      if (ary.shape.drop ax).take nTp ≠ expected then .error .ValueError
      else
        reshapeF ary (ary.shape.take ax ++ space.spaceDim :: ary.shape.drop (ax + nTp))

end Modepy

import Verif.Model.Reshape
import Verif.Proofs.NdArray

namespace Modepy
open NdArray

/-- Splitting an axis: the F-order linear index does not change. -/
theorem ravelF_split (pre mid post i1 im i2 : List Nat) (h1 : i1.length = pre.length)
    (hm : im.length = mid.length) :
    ravelF (pre ++ mid ++ post) (i1 ++ im ++ i2) =
      ravelF (pre ++ size mid :: post) (i1 ++ ravelF mid im :: i2) := by
  rw [List.append_assoc, List.append_assoc, ravelF_append h1, ravelF_append hm, ravelF_append h1,
    ravelF_cons]

theorem spaceDim_of_isTP {space : Space} (h : space.isTP = true) :
    space.spaceDim = size (space.flatBases.map PNSpace.spaceDim) := by
  cases space <;> simp [Space.isTP] at h <;> simp [Space.spaceDim, Space.flatBases, size_eq_prod]

theorem reshapeForTP_ok {α : Type*} (space : Space) (hTP : space.isTP = true) (ary : NdArray α)
    (axis : Int) (ax : Nat) (hax : ax < ary.shape.length)
    (haxis : axis = ax ∨ axis = (ax : Int) - ary.shape.length)
    (hlen : ary.shape[ax] = space.spaceDim) :
    ∃ res, reshapeForTP space ary axis = .ok res ∧
      res.shape = ary.shape.take ax ++ space.flatBases.map PNSpace.spaceDim
          ++ ary.shape.drop (ax + 1) ∧
      ∀ i1 im i2, Valid (ary.shape.take ax) i1 → Valid (space.flatBases.map PNSpace.spaceDim) im →
        Valid (ary.shape.drop (ax+1)) i2 →
        res.get (i1 ++ im ++ i2) =
          ary.get (i1 ++ ravelF (space.flatBases.map PNSpace.spaceDim) im :: i2) := by
  unfold reshapeForTP
  have e : (if axis < 0 then axis + (ary.shape.length : Int) else axis) = (ax : Int) := by
    rcases haxis with rfl | rfl
    · rw [if_neg (by omega)]
    · rw [if_pos (by omega)]; omega
  have hsplit : ary.shape = ary.shape.take ax ++ ary.shape[ax] :: ary.shape.drop (ax + 1) := by
    rw [List.getElem_cons_drop]; exact (List.take_append_drop ax _).symm
  have hsz : size (ary.shape.take ax ++ space.flatBases.map PNSpace.spaceDim
          ++ ary.shape.drop (ax + 1)) = size ary.shape := by
    conv_rhs => rw [hsplit]
    rw [size_append, size_append, size_append, size_cons, hlen, spaceDim_of_isTP hTP]
    ring
  simp only [e]
  rw [if_neg (by simp [hTP]), if_neg (by simp; omega), if_neg]
  · simp only [Int.toNat_natCast, reshapeF, hsz, if_true]
    refine ⟨_, rfl, rfl, ?_⟩
    intro i1 im i2 h1 hm h2
    simp only
    rw [ravelF_split _ _ _ _ _ _ h1.length hm.length, ← spaceDim_of_isTP hTP, ← hlen, ← hsplit,
      unravelF_ravelF]
    rw [hsplit, valid_append (by rw [h1.length])]
    refine ⟨h1, ?_, h2⟩
    rw [hlen, spaceDim_of_isTP hTP]
    exact ravelF_lt hm
  · simp only [Int.toNat_natCast, List.getD_eq_getElem?_getD, List.getElem?_eq_getElem hax,
      Option.getD_some, hlen, ne_eq, not_true_eq_false, not_false_eq_true]

theorem unreshapeForTP_ok {α : Type*} (space : Space) (hTP : space.isTP = true) (ary : NdArray α)
    (axis : Int) (pre post : List Nat)
    (hshape : ary.shape = pre ++ space.flatBases.map PNSpace.spaceDim ++ post)
    (haxis : axis = pre.length ∨ axis = -(post.length : Int) - 1) :
    ∃ res, unreshapeForTP space ary axis = .ok res ∧
      res.shape = pre ++ space.spaceDim :: post ∧
      ∀ i1 k i2, Valid pre i1 → k < space.spaceDim → Valid post i2 →
        res.get (i1 ++ k :: i2) =
          ary.get (i1 ++ unravelF (space.flatBases.map PNSpace.spaceDim) k ++ i2) := by
  unfold unreshapeForTP
  have hl : (ary.shape.length : Int) = pre.length + space.flatBases.length + post.length := by
    rw [hshape]; simp; ring
  have e : (if axis < 0 then axis + ((ary.shape.length : Int) - space.flatBases.length + 1)
      else axis) = (pre.length : Int) := by
    rcases haxis with rfl | rfl
    · rw [if_neg (by omega)]
    · rw [if_pos (by omega)]; omega
  have hdrop : ary.shape.drop pre.length = space.flatBases.map PNSpace.spaceDim ++ post := by
    rw [hshape, List.append_assoc, List.drop_left]
  have htake : ary.shape.take pre.length = pre := by
    rw [hshape, List.append_assoc, List.take_left]
  have hdrop2 : ary.shape.drop (pre.length + space.flatBases.length) = post := by
    rw [← List.drop_drop, hdrop]
    simp
  have hsz : size (pre ++ space.spaceDim :: post) = size ary.shape := by
    rw [hshape, size_append, size_append, size_append, size_cons, spaceDim_of_isTP hTP]
    ring
  simp only [e]
  rw [if_neg (by simp [hTP]), if_neg (by simp; omega), if_neg]
  · simp only [Int.toNat_natCast, htake, hdrop2, reshapeF, hsz, if_true]
    refine ⟨_, rfl, rfl, ?_⟩
    intro i1 k i2 h1 hk h2
    have hk' : k < size (space.flatBases.map PNSpace.spaceDim) := by
      rwa [← spaceDim_of_isTP hTP]
    have hv := valid_unravelF hk'
    have := ravelF_split pre _ post i1 _ i2 h1.length hv.length
    rw [ravelF_unravelF hk', ← spaceDim_of_isTP hTP] at this
    simp only
    rw [← this, ← hshape, unravelF_ravelF]
    rw [hshape, List.append_assoc, List.append_assoc, valid_append h1.length,
      valid_append hv.length]
    exact ⟨h1, hv, h2⟩
  · simp only [Int.toNat_natCast, hdrop, ne_eq, not_not]
    simp

end Modepy

import Verif.Model.Nodes
import Verif.Proofs.TensorNodes
import Verif.Proofs.Pytools

namespace Modepy
open NdArray

theorem length_nodeTuplesPN (s : PNSpace) : (nodeTuplesPN s).length = s.spaceDim :=
  Pytools.length_gnitsam _ _

theorem nodeTuplesTP_eq (bases : List PNSpace) :
    nodeTuplesTP bases = (List.range (size (bases.map PNSpace.spaceDim))).map fun k =>
      (List.zipWith (fun (ts : List (List Nat)) j => ts.getD j []) (bases.map nodeTuplesPN)
        (unravelF (bases.map PNSpace.spaceDim) k)).flatten := by
  unfold nodeTuplesTP
  simp only
  have h : (bases.map nodeTuplesPN).reverse.map List.length = (bases.map PNSpace.spaceDim).reverse := by
    rw [List.map_reverse, List.map_map]
    congr 1
    apply List.map_congr_left
    intro s _
    exact length_nodeTuplesPN s
  rw [h, Pytools.gnitb_reverse_map_reverse, List.map_map]
  rfl

theorem zipWith_unravel_eq (bases : List PNSpace) (k : Nat) :
    List.zipWith (fun (ts : List (List Nat)) j => ts.getD j []) (bases.map nodeTuplesPN)
        (unravelF (bases.map PNSpace.spaceDim) k) =
    (List.range bases.length).map fun i =>
      (nodeTuplesPN (bases.getD i ⟨0, 0⟩)).getD (Spec.digit (bases.map PNSpace.spaceDim) k i) [] := by
  rw [unravelF_eq_map_digit]
  apply List.ext_getElem
  · simp
  · intro i h1 h2
    have hi : i < bases.length := by simpa using h2
    simp [hi]

/-- Valid index vectors give distinct tuples. -/
theorem zipWith_flatten_injective (bases : List PNSpace) :
    ∀ i j, Valid (bases.map PNSpace.spaceDim) i → Valid (bases.map PNSpace.spaceDim) j →
    (List.zipWith (fun (ts : List (List Nat)) j => ts.getD j []) (bases.map nodeTuplesPN) i).flatten =
    (List.zipWith (fun (ts : List (List Nat)) j => ts.getD j []) (bases.map nodeTuplesPN) j).flatten →
    i = j := by
  induction bases with
  | nil => intro i j hi hj _; cases i <;> cases j <;> simp_all
  | cons b bases ih =>
    intro i j hi hj h
    cases i with
    | nil => exact absurd hi (by simp)
    | cons x i =>
      cases j with
      | nil => exact absurd hj (by simp)
      | cons y j =>
        simp only [List.map_cons, List.zipWith_cons_cons, List.flatten_cons] at h
        have hx : x < (nodeTuplesPN b).length := by rw [length_nodeTuplesPN]; exact hi.1
        have hy : y < (nodeTuplesPN b).length := by rw [length_nodeTuplesPN]; exact hj.1
        have lx : ((nodeTuplesPN b).getD x []).length = b.spatialDim := by
          rw [List.getD_eq_getElem?_getD, List.getElem?_eq_getElem hx]
          exact ((Pytools.mem_gnitsam _ _ _).1 (List.getElem_mem hx)).1
        have ly : ((nodeTuplesPN b).getD y []).length = b.spatialDim := by
          rw [List.getD_eq_getElem?_getD, List.getElem?_eq_getElem hy]
          exact ((Pytools.mem_gnitsam _ _ _).1 (List.getElem_mem hy)).1
        obtain ⟨e1, e2⟩ := List.append_inj h (lx.trans ly.symm)
        rw [List.getD_eq_getElem?_getD, List.getElem?_eq_getElem hx,
          List.getD_eq_getElem?_getD, List.getElem?_eq_getElem hy] at e1
        have := (List.Nodup.getElem_inj_iff (Pytools.nodup_gnitsam b.spatialDim b.order)).1 e1
        rw [this, ih i j hi.2 hj.2 e2]

theorem nodup_nodeTuplesTP (bases : List PNSpace) : (nodeTuplesTP bases).Nodup := by
  rw [nodeTuplesTP_eq]
  apply List.Nodup.map_on _ List.nodup_range
  intro x hx y hy h
  rw [List.mem_range] at hx hy
  have := zipWith_flatten_injective bases _ _ (valid_unravelF hx) (valid_unravelF hy) h
  rw [← ravelF_unravelF hx, ← ravelF_unravelF hy, this]

theorem mem_nodeTuplesTP (bases : List PNSpace) (t : List Nat) :
    t ∈ nodeTuplesTP bases ↔ ∃ parts : List (List Nat),
      List.Forall₂ (fun b p => p.length = b.spatialDim ∧ p.sum ≤ b.order) bases parts ∧
      t = parts.flatten := by
  rw [nodeTuplesTP_eq]
  simp only [List.mem_map, List.mem_range]
  constructor
  · rintro ⟨k, hk, rfl⟩
    refine ⟨_, ?_, rfl⟩
    have hv := valid_unravelF hk
    generalize unravelF (bases.map PNSpace.spaceDim) k = idx at hv
    clear hk
    induction bases generalizing idx with
    | nil => simp
    | cons b bases ih =>
      cases idx with
      | nil => exact absurd hv (by simp)
      | cons x idx =>
        simp only [List.map_cons, List.zipWith_cons_cons]
        refine List.Forall₂.cons ?_ (ih idx hv.2)
        have hx : x < (nodeTuplesPN b).length := by rw [length_nodeTuplesPN]; exact hv.1
        rw [List.getD_eq_getElem?_getD, List.getElem?_eq_getElem hx]
        exact (Pytools.mem_gnitsam _ _ _).1 (List.getElem_mem hx)
  · rintro ⟨parts, hp, rfl⟩
    suffices h : ∃ idx, Valid (bases.map PNSpace.spaceDim) idx ∧
        List.zipWith (fun (ts : List (List Nat)) j => ts.getD j []) (bases.map nodeTuplesPN) idx =
          parts by
      obtain ⟨idx, hv, hidx⟩ := h
      refine ⟨ravelF _ idx, ravelF_lt hv, ?_⟩
      rw [unravelF_ravelF hv, hidx]
    induction hp with
    | nil => exact ⟨[], trivial, rfl⟩
    | @cons b p bs ps h _ ih =>
      obtain ⟨idx, hv, hidx⟩ := ih
      have hmem : p ∈ nodeTuplesPN b := (Pytools.mem_gnitsam _ _ _).2 h
      obtain ⟨x, hx, hxe⟩ := List.getElem_of_mem hmem
      refine ⟨x :: idx, ⟨by rw [← length_nodeTuplesPN]; exact hx, hv⟩, ?_⟩
      simp only [List.map_cons, List.zipWith_cons_cons, hidx]
      rw [List.getD_eq_getElem?_getD, List.getElem?_eq_getElem hx, hxe]
      rfl

theorem length_nodeTuplesTP (bases : List PNSpace) :
    (nodeTuplesTP bases).length = (bases.map PNSpace.spaceDim).prod := by
  rw [nodeTuplesTP_eq]; simp [size_eq_prod]

theorem getD_nodeTuplesTP (bases : List PNSpace) (k : Nat)
    (hk : k < (bases.map PNSpace.spaceDim).prod) :
    (nodeTuplesTP bases).getD k [] = ((List.range bases.length).map fun i =>
      (nodeTuplesPN (bases.getD i ⟨0, 0⟩)).getD
        (Spec.digit (bases.map PNSpace.spaceDim) k i) []).flatten := by
  rw [nodeTuplesTP_eq]
  rw [List.getD_eq_getElem?_getD, List.getElem?_map,
    List.getElem?_range (by rw [size_eq_prod]; exact hk)]
  simp only [Option.map_some, Option.getD_some]
  rw [zipWith_unravel_eq]

/-- Entry of a flatten of pieces of known lengths. -/
theorem getD_flatten (L : List (List Nat)) (j r : Nat) (hj : j < L.length) (hr : r < L[j].length) :
    L.flatten.getD (((L.take j).map List.length).sum + r) 0 = L[j].getD r 0 := by
  induction L generalizing j with
  | nil => simp at hj
  | cons a L ih =>
    cases j with
    | zero =>
      simp at hr
      simp [List.getD_eq_getElem?_getD, List.getElem?_append_left hr]
    | succ j =>
      simp only [List.getElem_cons_succ, List.take_succ_cons, List.map_cons, List.sum_cons,
        List.flatten_cons] at hr ⊢
      rw [Nat.add_assoc, List.getD_eq_getElem?_getD, List.getElem?_append_right (by omega),
        Nat.add_sub_cancel_left, ← List.getD_eq_getElem?_getD]
      exact ih j (by simpa using hj) hr

end Modepy

import Verif.Props.MassAlgebra

/-!
The modes of the orthonormal bases, listed by the node tuples of the space: mode `k` has the degrees of node tuple `k`,
whatever the order of the space is.
-/

namespace Modepy
open Spec NdArray Matrix

/-- The function of the orthonormal bases whose factors have the degrees in `t`. -/
noncomputable def modeFn (space : Space) (t : List Nat) : List ℝ → Py ℝ :=
  if space.isTP then tpFunction (space.flatBases.map PNSpace.spatialDim) ((slices (space.flatBases.map PNSpace.spatialDim) t).map pkdo)
  else pkdo t

/-- Its mode id. -/
def modeIdOf (space : Space) (t : List Nat) : ModeId :=
  if space.isTP then .tup (List.zipWith (fun d (p : List Nat) => if d = 1 then .int (p.headD 0) else .ofTuple p)
    (space.flatBases.map PNSpace.spatialDim) (slices (space.flatBases.map PNSpace.spatialDim) t))
  else .ofTuple t

theorem slices_flatten_nat {dims : List Nat} {parts : List (List Nat)}
    (h : List.Forall₂ (fun d (p : List Nat) => p.length = d) dims parts) : slices dims parts.flatten = parts := by
  induction h with
  | nil => rfl
  | @cons d p dims parts hp _ ih =>
    simp only [List.flatten_cons, slices]
    rw [List.take_left' hp, List.drop_left' hp, ih]

theorem forall₂_parts {bases : List PNSpace} {mi : List Nat} (hv : Valid (bases.map PNSpace.spaceDim) mi) :
    List.Forall₂ (fun d (p : List Nat) => p.length = d) (bases.map PNSpace.spatialDim)
      (List.zipWith (fun (ts : List (List Nat)) j => ts.getD j []) (bases.map nodeTuplesPN) mi) := by
  induction bases generalizing mi with
  | nil => cases mi <;> simp_all
  | cons s bases ih =>
    cases mi with
    | nil => simp at hv
    | cons j mi =>
      simp only [List.map_cons, valid_cons_cons] at hv
      simp only [List.map_cons, List.zipWith_cons_cons, List.forall₂_cons]
      refine ⟨?_, ih hv.2⟩
      have hj : j < (nodeTuplesPN s).length := by rw [length_nodeTuplesPN]; exact hv.1
      rw [List.getD_eq_getElem?_getD, List.getElem?_eq_getElem hj, Option.getD_some]
      exact ((Pytools.mem_gnitsam _ _ _).1 (List.getElem_mem hj)).1

theorem pick_functions {bases : List PNSpace} {mi : List Nat} (hv : Valid (bases.map PNSpace.spaceDim) mi)
    (e : List ℝ → Py ℝ) :
    List.zipWith (fun (l : List (List ℝ → Py ℝ)) j => l.getD j e) (bases.map fun s => (nodeTuplesPN s).map pkdo) mi =
      (List.zipWith (fun (ts : List (List Nat)) j => ts.getD j []) (bases.map nodeTuplesPN) mi).map pkdo := by
  induction bases generalizing mi with
  | nil => cases mi <;> simp_all
  | cons s bases ih =>
    cases mi with
    | nil => simp at hv
    | cons j mi =>
      simp only [List.map_cons, valid_cons_cons] at hv
      have hj : j < (nodeTuplesPN s).length := by rw [length_nodeTuplesPN]; exact hv.1
      simp only [List.map_cons, List.zipWith_cons_cons]
      rw [ih hv.2]
      congr 1
      simp [List.getD_eq_getElem?_getD, hj]

theorem all_singleton (s : PNSpace) : ((nodeTuplesPN s).map ModeId.ofTuple).all ModeId.isIntSingleton = true ↔ s.spatialDim = 1 := by
  constructor
  · intro h
    rw [List.all_eq_true] at h
    have h0 : List.replicate s.spatialDim 0 ∈ nodeTuplesPN s := (Pytools.mem_gnitsam _ _ _).2 ⟨by simp, by simp⟩
    have := h _ (List.mem_map_of_mem h0)
    obtain ⟨n, hn⟩ := (isIntSingleton_iff _).1 this
    have := congrArg (fun m => match m with | ModeId.tup l => l.length | _ => 0) hn
    simpa [ModeId.ofTuple] using this
  · intro h
    rw [List.all_eq_true]
    intro m hm
    obtain ⟨t, ht, rfl⟩ := List.mem_map.1 hm
    have hl := ((Pytools.mem_gnitsam _ _ _).1 ht).1
    rw [h] at hl
    obtain ⟨a, rfl⟩ := List.length_eq_one_iff.1 hl
    rfl

theorem pick_ids {bases : List PNSpace} {mi : List Nat} (hv : Valid (bases.map PNSpace.spaceDim) mi) :
    List.zipWith modeIdPart (bases.map fun s => (nodeTuplesPN s).map ModeId.ofTuple)
        (List.zipWith (fun (l : List ModeId) j => l.getD j (.tup [])) (bases.map fun s => (nodeTuplesPN s).map ModeId.ofTuple) mi) =
      List.zipWith (fun d (p : List Nat) => if d = 1 then ModeId.int (p.headD 0) else .ofTuple p) (bases.map PNSpace.spatialDim)
        (List.zipWith (fun (ts : List (List Nat)) j => ts.getD j []) (bases.map nodeTuplesPN) mi) := by
  induction bases generalizing mi with
  | nil => cases mi <;> simp_all
  | cons s bases ih =>
    cases mi with
    | nil => simp at hv
    | cons j mi =>
      simp only [List.map_cons, valid_cons_cons] at hv
      have hj : j < (nodeTuplesPN s).length := by rw [length_nodeTuplesPN]; exact hv.1
      simp only [List.map_cons, List.zipWith_cons_cons]
      rw [ih hv.2]
      congr 1
      have e1 : ((nodeTuplesPN s).map ModeId.ofTuple).getD j (.tup []) = .ofTuple (nodeTuplesPN s)[j] := by
        simp [List.getD_eq_getElem?_getD, hj]
      have e2 : (nodeTuplesPN s).getD j [] = (nodeTuplesPN s)[j] := by simp [List.getD_eq_getElem?_getD, hj]
      rw [e1, e2]
      unfold modeIdPart
      have hl := ((Pytools.mem_gnitsam _ _ _).1 (List.getElem_mem hj)).1
      by_cases h1 : s.spatialDim = 1
      · rw [if_pos ((all_singleton s).2 h1), if_pos h1]
        rw [h1] at hl
        obtain ⟨a, ha⟩ := List.length_eq_one_iff.1 hl
        rw [ha]
        rfl
      · rw [if_neg (fun h => h1 ((all_singleton s).1 h)), if_neg h1]

theorem onb_modes (s : PNSpace) (hd : 1 ≤ s.spatialDim ∧ s.spatialDim ≤ 3) :
    (orthonormalBasisPN s : Basis ℝ).functions = .ok ((nodeTuplesPN s).map pkdo) ∧
    (orthonormalBasisPN s : Basis ℝ).modeIds = .ok ((nodeTuplesPN s).map ModeId.ofTuple) := by
  refine ⟨?_, rfl⟩
  have h0 : s.spatialDim ≠ 0 := by omega
  have h1 : s.spatialDim = 1 ∨ s.spatialDim = 2 ∨ s.spatialDim = 3 := by omega
  simp only [orthonormalBasisPN, simplexONB, if_neg h0, if_pos h1]
  rfl

theorem basisPN_eq (s : PNSpace) (hd : s.spatialDim ≤ 3) : (basisPN s : Basis ℝ) = orthonormalBasisPN s := by
  simp [basisPN, orthonormalBasisPN, hd]

theorem modes_with (forPN : PNSpace → Basis ℝ) (check : Bool) (space : Space) (shape : Shape) (b : Basis ℝ)
    (hb : basisForSpaceWith forPN check space shape = .ok b)
    (hF : ∀ s ∈ space.flatBases, (forPN s).functions = .ok ((nodeTuplesPN s).map pkdo) ∧
      (forPN s).modeIds = .ok ((nodeTuplesPN s).map ModeId.ofTuple)) :
    b.functions = .ok ((nodeTuples space).map (modeFn space)) ∧ b.modeIds = .ok ((nodeTuples space).map (modeIdOf space)) := by
  rcases basisForSpaceWith_cases forPN check space shape b hb with ⟨s, rfl, rfl⟩ | ⟨hTP, rfl⟩
  · have e1 : modeFn (.pn s) = pkdo := by funext t; simp [modeFn, Space.isTP]
    have e2 : modeIdOf (.pn s) = ModeId.ofTuple := by funext t; simp [modeIdOf, Space.isTP]
    rw [e1, e2]
    exact hF s (by simp [Space.flatBases])
  · have h3 : nodeTuples space = nodeTuplesTP space.flatBases := by
      cases space <;> simp_all [Space.isTP, nodeTuples]
    have hf : (space.flatBases.map forPN).map (·.functions) =
        (space.flatBases.map fun s => (nodeTuplesPN s).map (pkdo : List Nat → List ℝ → Py ℝ)).map .ok := by
      rw [List.map_map, List.map_map]
      exact List.map_congr_left fun s hs => (hF s hs).1
    have hi : (space.flatBases.map forPN).map (·.modeIds) =
        (space.flatBases.map fun s => (nodeTuplesPN s).map ModeId.ofTuple).map .ok := by
      rw [List.map_map, List.map_map]
      exact List.map_congr_left fun s hs => (hF s hs).2
    have hl1 : (space.flatBases.map fun s => (nodeTuplesPN s).map (pkdo : List Nat → List ℝ → Py ℝ)).map List.length =
        space.flatBases.map PNSpace.spaceDim := by
      rw [List.map_map]
      exact List.map_congr_left fun s _ => by simp [length_nodeTuplesPN]
    have hl2 : (space.flatBases.map fun s => (nodeTuplesPN s).map ModeId.ofTuple).map List.length =
        space.flatBases.map PNSpace.spaceDim := by
      rw [List.map_map]
      exact List.map_congr_left fun s _ => by simp [length_nodeTuplesPN]
    constructor
    · rw [tp_functions_eq _ _ _ hf (by simp), hl1, h3, nodeTuplesTP_eq, List.map_map, size_eq_prod]
      congr 1
      refine List.map_congr_left fun k hk => ?_
      have hv : Valid (space.flatBases.map PNSpace.spaceDim) (unravelF (space.flatBases.map PNSpace.spaceDim) k) :=
        valid_unravelF (by rw [size_eq_prod]; exact List.mem_range.1 hk)
      simp only [Function.comp, modeFn, hTP, if_true]
      rw [slices_flatten_nat (forall₂_parts hv), ← pick_functions hv, ← zipWith_unravel_pick, hl1]
    · have hc : collect ((space.flatBases.map forPN).map (·.modeIds)) =
          .ok (space.flatBases.map fun s => (nodeTuplesPN s).map ModeId.ofTuple) := by rw [hi, collect_ok]
      have hc' : collect ((space.flatBases.map forPN).map (·.functions)) =
          .ok (space.flatBases.map fun s => (nodeTuplesPN s).map (pkdo : List Nat → List ℝ → Py ℝ)) := by rw [hf, collect_ok]
      have : (tensorProductBasis (space.flatBases.map forPN) (space.flatBases.map PNSpace.spatialDim)).modeIds =
          .ok (tpModeIds ((space.flatBases.map fun s => (nodeTuplesPN s).map (pkdo : List Nat → List ℝ → Py ℝ)).map List.length)
            (space.flatBases.map fun s => (nodeTuplesPN s).map ModeId.ofTuple)) := by
        simp only [tensorProductBasis, hc, hc', bind, Except.bind]
        rfl
      rw [this, hl1, ← hl2, tpModeIds_eq, hl2, h3, nodeTuplesTP_eq, List.map_map, size_eq_prod]
      congr 1
      refine List.map_congr_left fun k hk => ?_
      have hv : Valid (space.flatBases.map PNSpace.spaceDim) (unravelF (space.flatBases.map PNSpace.spaceDim) k) :=
        valid_unravelF (by rw [size_eq_prod]; exact List.mem_range.1 hk)
      simp only [Function.comp, modeIdOf, hTP, if_true]
      rw [slices_flatten_nat (forall₂_parts hv), ← pick_ids hv, ← zipWith_unravel_pick, hl2]

/-- The functions and mode ids of an orthonormal basis. -/
theorem modes_orthonormal {b : Basis ℝ} {space : Space} (hb : IsOrthonormalBasisOf b space)
    (hd : ∀ s ∈ space.flatBases, 1 ≤ s.spatialDim ∧ s.spatialDim ≤ 3) :
    b.functions = .ok ((nodeTuples space).map (modeFn space)) ∧ b.modeIds = .ok ((nodeTuples space).map (modeIdOf space)) := by
  obtain ⟨shape, h | h⟩ := hb
  · exact modes_with _ _ space shape b h fun s hs => onb_modes s (hd s hs)
  · refine modes_with _ _ space shape b h fun s hs => ?_
    rw [basisPN_eq s (hd s hs).2]
    exact onb_modes s (hd s hs)

/-- The smaller space has the factors of the larger one, with orders at most as large. -/
def Spec.SubSpace (small large : Space) : Prop :=
  small.isTP = large.isTP ∧
    List.Forall₂ (fun s' s => s'.spatialDim = s.spatialDim ∧ s'.order ≤ s.order) small.flatBases large.flatBases

theorem Spec.SubSpace.dims {small large : Space} (h : SubSpace small large) :
    small.flatBases.map PNSpace.spatialDim = large.flatBases.map PNSpace.spatialDim := by
  have h2 := h.2
  generalize small.flatBases = A at *
  generalize large.flatBases = B at *
  clear h
  induction h2 with
  | nil => rfl
  | cons h _ ih => simp [h.1, ih]

theorem Spec.SubSpace.spatialDim {small large : Space} (h : SubSpace small large) : small.spatialDim = large.spatialDim := by
  have : ∀ space : Space, space.spatialDim = (space.flatBases.map PNSpace.spatialDim).sum := fun space => by
    cases space <;> simp [Space.spatialDim, Space.flatBases]
  rw [this, this, h.dims]

theorem Spec.SubSpace.mem {small large : Space} (h : SubSpace small large) {t : List Nat} (ht : t ∈ nodeTuples small) :
    t ∈ nodeTuples large := by
  obtain ⟨parts, hp, rfl⟩ := (mem_nodeTuples small t).1 ht
  refine (mem_nodeTuples large _).2 ⟨parts, ?_, rfl⟩
  have h2 := h.2
  clear ht h
  generalize small.flatBases = A at *
  generalize large.flatBases = B at *
  induction h2 generalizing parts with
  | nil => cases hp; exact .nil
  | cons h _ ih =>
    cases hp with
    | cons hp1 hp2 => exact .cons ⟨by omega, by omega⟩ (ih _ hp2)

theorem Spec.SubSpace.regular {small large : Space} (h : SubSpace small large) (x : List ℝ) :
    RegularFor small x ↔ RegularFor large x := by
  rw [RegularFor, RegularFor, h.dims, h.spatialDim]

theorem Spec.SubSpace.modeFn_eq {small large : Space} (h : SubSpace small large) : modeFn small = modeFn large := by
  funext t
  rw [modeFn, modeFn, h.dims, h.1]

theorem Spec.SubSpace.modeIdOf_eq {small large : Space} (h : SubSpace small large) : modeIdOf small = modeIdOf large := by
  funext t
  rw [modeIdOf, modeIdOf, h.dims, h.1]

theorem Spec.SubSpace.integral {small large : Space} (h : SubSpace small large) : spaceIntegral small = spaceIntegral large := by
  funext F
  rw [spaceIntegral, spaceIntegral, h.dims]

theorem zipWith_part_inj {dims : List Nat} {P Q : List (List Nat)} (hP : List.Forall₂ (fun d (p : List Nat) => p.length = d) dims P)
    (hQ : List.Forall₂ (fun d (p : List Nat) => p.length = d) dims Q)
    (h : List.zipWith (fun d (p : List Nat) => if d = 1 then ModeId.int (p.headD 0) else .ofTuple p) dims P =
      List.zipWith (fun d (p : List Nat) => if d = 1 then ModeId.int (p.headD 0) else .ofTuple p) dims Q) : P = Q := by
  induction hP generalizing Q with
  | nil => cases hQ; rfl
  | @cons d p dims P hp _ ih =>
    cases hQ with
    | @cons _ q _ Q hq hQ =>
      simp only [List.zipWith_cons_cons, List.cons.injEq] at h
      rw [ih hQ h.2]
      congr 1
      have h1 := h.1
      by_cases hd : d = 1
      · rw [if_pos hd, if_pos hd] at h1
        rw [hd] at hp hq
        obtain ⟨a, rfl⟩ := List.length_eq_one_iff.1 hp
        obtain ⟨c, rfl⟩ := List.length_eq_one_iff.1 hq
        simpa using h1
      · rw [if_neg hd, if_neg hd] at h1
        exact ModeId.ofTuple_injective h1

theorem modeIdOf_inj {space : Space} {t t' : List Nat} (ht : t ∈ nodeTuples space) (ht' : t' ∈ nodeTuples space)
    (h : modeIdOf space t = modeIdOf space t') : t = t' := by
  unfold modeIdOf at h
  by_cases hTP : space.isTP = true
  · simp only [hTP, if_true, ModeId.tup.injEq] at h
    obtain ⟨p, hp, rfl⟩ := (mem_nodeTuples _ _).1 ht
    obtain ⟨q, hq, rfl⟩ := (mem_nodeTuples _ _).1 ht'
    have hp' : List.Forall₂ (fun d (p : List Nat) => p.length = d) (space.flatBases.map PNSpace.spatialDim) p :=
      List.forall₂_map_left_iff.2 (hp.imp fun _ _ h => h.1)
    have hq' : List.Forall₂ (fun d (p : List Nat) => p.length = d) (space.flatBases.map PNSpace.spatialDim) q :=
      List.forall₂_map_left_iff.2 (hq.imp fun _ _ h => h.1)
    rw [slices_flatten_nat hp', slices_flatten_nat hq'] at h
    rw [zipWith_part_inj hp' hq' h]
  · simp only [hTP] at h
    exact ModeId.ofTuple_injective h

/-- Which modes of the larger space are modes of the smaller one. -/
theorem Spec.SubSpace.mem_ids {small large : Space} (h : SubSpace small large) {t : List Nat} (ht : t ∈ nodeTuples large) :
    modeIdOf large t ∈ (nodeTuples small).map (modeIdOf small) ↔ t ∈ nodeTuples small := by
  rw [h.modeIdOf_eq]
  constructor
  · intro hm
    obtain ⟨t', ht', e⟩ := List.mem_map.1 hm
    rwa [← modeIdOf_inj (h.mem ht') ht e]
  · exact fun hm => List.mem_map_of_mem hm

end Modepy

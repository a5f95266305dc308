import Verif.Proofs.Functional
import Verif.Proofs.TensorBasis
import Verif.Proofs.TensorDeriv
import Verif.Proofs.Nodes
import Verif.Props.Monomials

/-!
# Properties C14-C16: completeness and indexing of bases, tensor product bases
-/

namespace Modepy
open NdArray Spec

/-! ## C14: simplices -/

theorem ModeId.ofTuple_injective : Function.Injective ModeId.ofTuple := by
  intro a b h
  simp only [ModeId.ofTuple, ModeId.tup.injEq] at h
  exact List.map_injective_iff.2 (fun x y h => by injection h) h

/-- **C14 (simplices, default basis).**  In every dimension `≥ 1`, mode ids are the node tuples in
node tuple order (so distinct, `space_dim` many), and entry `k` of `functions` and of `gradients` is
the mode function with mode id `k`: the orthonormal mode up to dimension 3, the monomial above. -/
theorem C14_simplex (s : PNSpace) (hs : 1 ≤ s.spatialDim) :
    ∃ (ids : List (List Nat)) (fs : List (List ℝ → Py ℝ)) (gs : List (List ℝ → Py (List ℝ))),
      (basisPN s : Basis ℝ).modeIds = .ok (ids.map .ofTuple) ∧
      (basisPN s : Basis ℝ).functions = .ok fs ∧
      (basisPN s : Basis ℝ).gradients = .ok gs ∧
      ids = nodeTuples (.pn s) ∧ (ids.map ModeId.ofTuple).Nodup ∧
      ids.length = s.spaceDim ∧ fs.length = s.spaceDim ∧ gs.length = s.spaceDim ∧
      (∀ (k : Nat) (mid : List Nat), ids[k]? = some mid →
        fs[k]? = some (if s.spatialDim ≤ 3 then pkdo mid else monomial mid) ∧
        gs[k]? = some (if s.spatialDim ≤ 3 then gradPkdo mid else gradMonomial mid)) := by
  have hl := length_nodeTuplesPN s
  have hn : (Pytools.gnitsam s.order s.spatialDim).Nodup := Pytools.nodup_gnitsam _ _
  by_cases h3 : s.spatialDim ≤ 3
  · refine ⟨nodeTuplesPN s, (nodeTuplesPN s).map pkdo, (nodeTuplesPN s).map gradPkdo, ?_, ?_, ?_,
      rfl, hn.map ModeId.ofTuple_injective, hl, by simpa using hl, by simpa using hl, ?_⟩
    · simp only [basisPN, h3, if_true]; rfl
    · have h0 : s.spatialDim ≠ 0 := by omega
      have h123 : s.spatialDim = 1 ∨ s.spatialDim = 2 ∨ s.spatialDim = 3 := by omega
      simp only [basisPN, h3, if_true, simplexONB, h0, if_false, h123]; rfl
    · have h123 : s.spatialDim = 1 ∨ s.spatialDim = 2 ∨ s.spatialDim = 3 := by omega
      simp only [basisPN, h3, if_true, simplexONB, h123]; rfl
    · intro k mid hk
      simp [List.getElem?_map, hk, h3]
  · refine ⟨nodeTuplesPN s, (nodeTuplesPN s).map monomial, (nodeTuplesPN s).map gradMonomial, ?_, ?_,
      ?_, rfl, hn.map ModeId.ofTuple_injective, hl, by simpa using hl, by simpa using hl, ?_⟩
    · simp only [basisPN, h3, if_false]; rfl
    · simp only [basisPN, h3, if_false]; rfl
    · simp only [basisPN, h3, if_false]; rfl
    · intro k mid hk
      simp [List.getElem?_map, hk, h3]

/-- **C14 (simplices, monomial basis).**  As before in every dimension including zero; every entry
evaluates to the monomial with the exponents of its mode id. -/
theorem C14_simplex_monomial (s : PNSpace) :
    ∃ (ids : List (List Nat)) (fs : List (List ℝ → Py ℝ)) (gs : List (List ℝ → Py (List ℝ))),
      (monomialBasisPN s : Basis ℝ).modeIds = .ok (ids.map .ofTuple) ∧
      (monomialBasisPN s : Basis ℝ).functions = .ok fs ∧
      (monomialBasisPN s : Basis ℝ).gradients = .ok gs ∧
      ids = nodeTuples (.pn s) ∧ (ids.map ModeId.ofTuple).Nodup ∧
      ids.length = s.spaceDim ∧ fs.length = s.spaceDim ∧ gs.length = s.spaceDim ∧
      (∀ (k : Nat) (mid : List Nat) (f : List ℝ → Py ℝ), ids[k]? = some mid → fs[k]? = some f →
        ∀ x : List ℝ, x.length = s.spatialDim →
        f x = .ok (monomialValue mid x)) := by
  have hl := length_nodeTuplesPN s
  have hn : (Pytools.gnitsam s.order s.spatialDim).Nodup := Pytools.nodup_gnitsam _ _
  refine ⟨nodeTuplesPN s, (nodeTuplesPN s).map monomial, (nodeTuplesPN s).map gradMonomial, rfl, rfl,
      rfl, rfl, hn.map ModeId.ofTuple_injective, hl, by simpa using hl, by simpa using hl, ?_⟩
  intro k mid f hk hf x hx
  rw [List.getElem?_map, hk] at hf
  obtain rfl := Option.some.inj hf
  refine C17_value mid x ?_
  rw [hx]
  exact ((Pytools.mem_gnitsam _ _ _).1 (List.mem_of_getElem? hk)).1

/-- The zero-dimensional default basis has its one function, but no gradients. -/
theorem C14_zero_dim (n : Nat) :
    (basisPN ⟨0, n⟩ : Basis ℝ).modeIds = .ok [.tup []] ∧
    (basisPN ⟨0, n⟩ : Basis ℝ).functions = .ok [zerodBasis] ∧
    (basisPN ⟨0, n⟩ : Basis ℝ).gradients = .error .NotImplementedError := by
  refine ⟨rfl, rfl, ?_⟩
  simp [basisPN, simplexONB]

/-! ## C14: tensor products -/

/-- How a base mode id enters a tensor product mode id: if all mode ids of the base are one-element
tuples of an integer, that integer, otherwise the id itself. -/
def Spec.modeIdPart (baseIds : List ModeId) (mid : ModeId) : ModeId :=
  if baseIds.all ModeId.isIntSingleton then
    match mid with
    | .tup [m] => m
    | m => m
  else mid

theorem isIntSingleton_iff (m : ModeId) : m.isIntSingleton = true ↔ ∃ n, m = .tup [.int n] := by
  constructor
  · intro h
    unfold ModeId.isIntSingleton at h
    split at h
    · exact ⟨_, rfl⟩
    · simp at h
  · rintro ⟨n, rfl⟩; rfl

theorem modeIdPart_injOn (l : List ModeId) : ∀ a ∈ l, ∀ b ∈ l,
    modeIdPart l a = modeIdPart l b → a = b := by
  intro a ha b hb h
  unfold modeIdPart at h
  by_cases hall : l.all ModeId.isIntSingleton = true
  · simp only [hall, if_true] at h
    rw [List.all_eq_true] at hall
    obtain ⟨n, rfl⟩ := (isIntSingleton_iff a).1 (hall a ha)
    obtain ⟨m, rfl⟩ := (isIntSingleton_iff b).1 (hall b hb)
    simp only at h
    rw [h]
  · simpa [hall] using h

theorem partFlat_eq (l : List ModeId) (a : ModeId) (ha : a ∈ l) :
    (match (generalizing := false) l.all ModeId.isIntSingleton, a with
    | true, .tup l => l
    | _, item => [item]) = [modeIdPart l a] := by
  unfold modeIdPart
  by_cases hall : l.all ModeId.isIntSingleton = true
  · have := (List.all_eq_true.1 hall) a ha
    obtain ⟨n, rfl⟩ := (isIntSingleton_iff a).1 this
    simp [hall]
  · simp only [hall]
    simp

theorem partFlatTuple_eq : ∀ (ids : List (List ModeId)) (mi : List Nat),
    Valid (ids.map List.length) mi →
    partFlatTuple (List.zipWith (fun (p : Bool × List ModeId) j => (p.1, p.2.getD j (.tup [])))
      (List.zip (ids.map fun l => l.all ModeId.isIntSingleton) ids) mi) =
    .tup (List.zipWith (fun l j => modeIdPart l (l.getD j (.tup []))) ids mi) := by
  intro ids
  induction ids with
  | nil => intro mi _; simp [partFlatTuple]
  | cons l ids ih =>
    intro mi hv
    cases mi with
    | nil => simp at hv
    | cons j mi =>
      simp only [List.map_cons, valid_cons_cons] at hv
      have := ih mi hv.2
      simp only [partFlatTuple, ModeId.tup.injEq] at this
      simp only [partFlatTuple, List.map_cons, List.zip_cons_cons, List.zipWith_cons_cons,
        List.flatMap_cons, ModeId.tup.injEq]
      rw [this]
      refine congrArg₂ (· ++ ·) (partFlat_eq l (l.getD j (.tup [])) ?_) rfl
      rw [List.getD_eq_getElem?_getD, List.getElem?_eq_getElem hv.1]
      exact List.getElem_mem _

/-- Selection of one entry per base by the mixed-radix digits of `k`. -/
def Spec.pick {α : Type*} (ls : List (List α)) (default : α) (k : Nat) : List α :=
  (List.range ls.length).map fun i => (ls.getD i []).getD (digit (ls.map List.length) k i) default

@[simp] theorem length_pick {α : Type*} (ls : List (List α)) (dflt : α) (k : Nat) :
    (pick ls dflt k).length = ls.length := by simp [pick]

theorem getElem_pick {α : Type*} (ls : List (List α)) (dflt : α) (k i : Nat)
    (h : i < (pick ls dflt k).length) :
    (pick ls dflt k)[i] = (ls.getD i []).getD (digit (ls.map List.length) k i) dflt := by
  simp [pick]

theorem zipWith_unravel_pick {α : Type*} (ls : List (List α)) (dflt : α) (k : Nat) :
    List.zipWith (fun l j => l.getD j dflt) ls (unravelF (ls.map List.length) k) =
      pick ls dflt k := by
  rw [unravelF_eq_map_digit]
  apply List.ext_getElem
  · simp [pick]
  · intro i h1 h2
    have hi : i < ls.length := by simpa [pick] using h2
    simp [pick, hi]

theorem tpModeIds_eq (ids : List (List ModeId)) :
    tpModeIds (ids.map List.length) ids = (List.range (ids.map List.length).prod).map fun k =>
      .tup (List.zipWith modeIdPart ids (pick ids (.tup []) k)) := by
  unfold tpModeIds
  simp only [modeIndexTuples_eq, List.map_map, size_eq_prod]
  apply List.map_congr_left
  intro k hk
  simp only [Function.comp]
  rw [partFlatTuple_eq _ _ (valid_unravelF (by rw [size_eq_prod]; exact List.mem_range.1 hk)),
    ← zipWith_unravel_pick]
  congr 1
  apply List.ext_getElem
  · simp
  · intro i h1 h2
    simp

theorem rowAt_eq (fs : List (List ℝ → Py ℝ)) (gs : List (List ℝ → Py (List ℝ))) :
    ∀ (m p : Nat), fs.length = m → gs.length = m → p < m →
    List.zipWith (fun (isDeriv : Bool) (q : (List ℝ → Py ℝ) × (List ℝ → Py (List ℝ))) =>
      if isDeriv then FnOrGrad.grad q.2 else .fn q.1)
      (List.replicate p false ++ [true] ++ List.replicate (m - 1 - p) false) (List.zip fs gs) =
      rowAt p (List.zip fs gs) := by
  induction fs generalizing gs with
  | nil => intro m p h1 h2 h3; simp at h1; omega
  | cons f fs ih =>
    intro m p h1 h2 h3
    cases gs with
    | nil => simp at h1 h2; omega
    | cons g gs =>
      simp only [List.length_cons] at h1 h2
      cases p with
      | zero =>
        simp only [List.replicate_zero, List.nil_append, List.singleton_append, List.zip_cons_cons,
          List.zipWith_cons_cons, if_true, rowAt]
        congr 1
        apply List.ext_getElem
        · simp; omega
        · intro i h4 h5
          simp
      | succ p =>
        have := ih gs (m - 1) p (by omega) (by omega) (by omega)
        rw [show m - 1 - (p + 1) = m - 1 - 1 - p by omega]
        simp only [List.replicate_succ, List.cons_append, List.zip_cons_cons,
          List.zipWith_cons_cons, rowAt]
        rw [this]
        rfl

theorem gradient_entry_eq (dims : List Nat) (fss : List (List (List ℝ → Py ℝ)))
    (gss : List (List (List ℝ → Py (List ℝ)))) (m k : Nat) (hfl : fss.length = m)
    (hgl : gss.map List.length = fss.map List.length) :
    tpGradient dims ((Pytools.wanderingElement m true false).map fun ind =>
          List.zipWith (fun (isDeriv : Bool) (p : (List (List ℝ → Py ℝ) ×
              List (List ℝ → Py (List ℝ))) × Nat) =>
            if isDeriv then .grad (p.1.2.getD p.2 fun _ => .error .IndexError)
            else .fn (p.1.1.getD p.2 fun _ => .error .IndexError))
            ind (List.zip (List.zip fss gss) (unravelF (fss.map List.length) k))) =
    tpGradient dims ((List.range m).map fun p => rowAt p
      (List.zip (pick fss (fun _ => .error .IndexError) k)
        (pick gss (fun _ => .error .IndexError) k))) := by
  congr 1
  unfold Pytools.wanderingElement
  rw [List.map_map]
  apply List.map_congr_left
  intro p hp
  have hgl' : gss.length = fss.length := by simpa using congrArg List.length hgl
  rw [← rowAt_eq _ _ m p (by simp [pick, hfl]) (by simp [pick, hgl', hfl]) (List.mem_range.1 hp)]
  simp only [Function.comp]
  unfold pick
  rw [hgl]
  apply List.ext_getElem
  · simp [hgl']
  · intro i h1 h2
    have hi : i < fss.length := by
      have := h1; simp [hgl'] at this; omega
    simp only [List.getElem_zipWith, List.getElem_zip, List.getElem_map, List.getElem_range]
    have hd : (unravelF (fss.map List.length) k)[i]'(by simpa using hi) =
        digit (fss.map List.length) k i := by
      simp [unravelF_eq_map_digit]
    rw [hd]
    simp [List.getD_eq_getElem?_getD, hi, hgl']

theorem tp_functions_eq (bases : List (Basis ℝ)) (dims : List Nat)
    (fss : List (List (List ℝ → Py ℝ))) (hfs : bases.map (·.functions) = fss.map .ok)
    (hdims : dims.length = bases.length) :
    (tensorProductBasis bases dims).functions =
      .ok ((List.range (fss.map List.length).prod).map fun k =>
        tpFunction dims (pick fss (fun _ => .error .IndexError) k)) := by
  have hfl : fss.length = bases.length := by simpa using (congrArg List.length hfs).symm
  have hdl : dims.length = fss.length := by omega
  have hf : collect (bases.map (·.functions)) = .ok fss := by rw [hfs, collect_ok]
  have e : (List.range (fss.map List.length).prod).map (fun k =>
      tpFunction dims (pick fss (fun _ => .error .IndexError) k)) =
      (modeIndexTuples (fss.map List.length)).map fun mi =>
        tpFunction dims (List.zipWith (fun l j => l.getD j fun _ => .error .IndexError) fss mi) := by
    rw [modeIndexTuples_eq, List.map_map, size_eq_prod]
    apply List.map_congr_left
    intro k _
    simp only [Function.comp]
    rw [zipWith_unravel_pick]
  rw [e]
  simp only [tensorProductBasis, hf, bind, Except.bind, hdl, ne_eq, not_true, if_false]
  rfl

theorem tp_gradients_eq (bases : List (Basis ℝ)) (dims : List Nat)
    (fss : List (List (List ℝ → Py ℝ))) (gss : List (List (List ℝ → Py (List ℝ))))
    (hfs : bases.map (·.functions) = fss.map .ok) (hgs : bases.map (·.gradients) = gss.map .ok)
    (hdims : dims.length = bases.length) (hgl : gss.map List.length = fss.map List.length) :
    (tensorProductBasis bases dims).gradients =
      .ok ((List.range (fss.map List.length).prod).map fun k =>
        tpGradient dims ((List.range dims.length).map fun p => rowAt p
          (List.zip (pick fss (fun _ => .error .IndexError) k)
            (pick gss (fun _ => .error .IndexError) k)))) := by
  have hfl : fss.length = bases.length := by simpa using (congrArg List.length hfs).symm
  have hdl : dims.length = fss.length := by omega
  have hf : collect (bases.map (·.functions)) = .ok fss := by rw [hfs, collect_ok]
  have hg : collect (bases.map (·.gradients)) = .ok gss := by rw [hgs, collect_ok]
  have e : (List.range (fss.map List.length).prod).map (fun k =>
      tpGradient dims ((List.range dims.length).map fun p => rowAt p
          (List.zip (pick fss (fun _ => .error .IndexError) k)
            (pick gss (fun _ => .error .IndexError) k)))) =
      (modeIndexTuples (fss.map List.length)).map fun mi =>
        tpGradient dims ((Pytools.wanderingElement bases.length true false).map fun ind =>
          List.zipWith (fun (isDeriv : Bool) (p : (List (List ℝ → Py ℝ) ×
              List (List ℝ → Py (List ℝ))) × Nat) =>
            if isDeriv then .grad (p.1.2.getD p.2 fun _ => .error .IndexError)
            else .fn (p.1.1.getD p.2 fun _ => .error .IndexError))
            ind (List.zip (List.zip fss gss) mi)) := by
    rw [modeIndexTuples_eq, List.map_map, size_eq_prod]
    apply List.map_congr_left
    intro k _
    simp only [Function.comp]
    rw [gradient_entry_eq dims fss gss bases.length k hfl hgl, hdims]
  rw [e]
  simp only [tensorProductBasis, hf, hg, bind, Except.bind, hdl, ne_eq, not_true, if_false]
  rfl

/-- **C14 (tensor products).**  Take base bases whose mode ids, functions and gradients have matching
lengths and whose mode ids are distinct.  Then the tensor product basis has as many mode ids as
functions as gradients, namely the product of the base counts; mode ids are distinct; mode id `k`
lists the base mode ids selected by the digits of `k` (first base fastest), exactly as the functions
(C15) and the node tuples (C02) do. -/
theorem C14_tensor_product (bases : List (Basis ℝ)) (dims : List Nat)
    (ids : List (List ModeId)) (fss : List (List (List ℝ → Py ℝ)))
    (gss : List (List (List ℝ → Py (List ℝ))))
    (hids : bases.map (·.modeIds) = ids.map .ok) (hfs : bases.map (·.functions) = fss.map .ok)
    (hgs : bases.map (·.gradients) = gss.map .ok) (hdims : dims.length = bases.length)
    (hlen : ids.map List.length = fss.map List.length)
    (hgl : gss.map List.length = fss.map List.length) (hnodup : ∀ l ∈ ids, l.Nodup) :
    ∃ (mids : List ModeId) (fs : List (List ℝ → Py ℝ)) (gs : List (List ℝ → Py (List ℝ))),
      (tensorProductBasis bases dims).modeIds = .ok mids ∧
      (tensorProductBasis bases dims).functions = .ok fs ∧
      (tensorProductBasis bases dims).gradients = .ok gs ∧
      mids.length = (ids.map List.length).prod ∧ fs.length = (ids.map List.length).prod ∧
      gs.length = (ids.map List.length).prod ∧ mids.Nodup ∧
      ∀ k < (ids.map List.length).prod,
        mids[k]? = some (.tup (List.zipWith modeIdPart ids (pick ids (.tup []) k))) := by
  have hfl : fss.length = bases.length := by simpa using (congrArg List.length hfs).symm
  have hdl : dims.length = fss.length := by omega
  refine ⟨tpModeIds (fss.map List.length) ids, _, _, ?_, tp_functions_eq bases dims fss hfs hdims,
    tp_gradients_eq bases dims fss gss hfs hgs hdims hgl, ?_, by simp [hlen], by simp [hlen], ?_, ?_⟩
  · have hi : collect (bases.map (·.modeIds)) = .ok ids := by rw [hids, collect_ok]
    have hf : collect (bases.map (·.functions)) = .ok fss := by rw [hfs, collect_ok]
    simp only [tensorProductBasis, hi, hf, bind, Except.bind]
    rfl
  · simp [← hlen, tpModeIds_eq]
  · rw [← hlen, tpModeIds_eq]
    refine List.Nodup.map_on ?_ List.nodup_range
    intro k hk l hl h
    simp only [List.mem_range] at hk hl
    simp only [ModeId.tup.injEq] at h
    have hvk : Valid (ids.map List.length) (unravelF (ids.map List.length) k) :=
      valid_unravelF (by rw [size_eq_prod]; exact hk)
    have hvl : Valid (ids.map List.length) (unravelF (ids.map List.length) l) :=
      valid_unravelF (by rw [size_eq_prod]; exact hl)
    rw [← ravelF_unravelF (s := ids.map List.length) (k := k) (by rw [size_eq_prod]; exact hk),
      ← ravelF_unravelF (s := ids.map List.length) (k := l) (by rw [size_eq_prod]; exact hl)]
    congr 1
    rw [← zipWith_unravel_pick, ← zipWith_unravel_pick] at h
    clear hids hlen hk hl
    generalize unravelF (ids.map List.length) k = a at *
    generalize unravelF (ids.map List.length) l = b at *
    induction ids generalizing a b with
    | nil =>
      cases a with
      | nil => cases b with
        | nil => rfl
        | cons => simp at hvl
      | cons => simp at hvk
    | cons x ids ih =>
      cases a with
      | nil => simp at hvk
      | cons a as =>
        cases b with
        | nil => simp at hvl
        | cons b bs =>
          simp only [List.map_cons, valid_cons_cons] at hvk hvl
          simp only [List.zipWith_cons_cons, List.cons.injEq] at h
          have hx : x.getD a (.tup []) = x.getD b (.tup []) := by
            apply modeIdPart_injOn x _ _ _ _ h.1
            · rw [List.getD_eq_getElem?_getD, List.getElem?_eq_getElem hvk.1]
              exact List.getElem_mem _
            · rw [List.getD_eq_getElem?_getD, List.getElem?_eq_getElem hvl.1]
              exact List.getElem_mem _
          rw [List.getD_eq_getElem?_getD, List.getD_eq_getElem?_getD,
            List.getElem?_eq_getElem hvk.1, List.getElem?_eq_getElem hvl.1] at hx
          have hab : a = b :=
            (List.Nodup.getElem_inj_iff (hnodup x (by simp))).1 (by simpa using hx)
          rw [hab, ih (fun l hl => hnodup l (by simp [hl])) as hvk.2 bs hvl.2 h.2]
  · intro k hk
    rw [← hlen, tpModeIds_eq, List.getElem?_map, List.getElem?_range hk]
    rfl

/-! ## C15 -/

/-- **C15 (values).**  Function `k` of a tensor product basis, at a point with `Σ dims` coordinates, is
the product of the base functions selected by the digits of `k`, each at its own slice of the
coordinates. -/
theorem C15_value (bases : List (Basis ℝ)) (dims : List Nat) (fss : List (List (List ℝ → Py ℝ)))
    (hfs : bases.map (·.functions) = fss.map .ok) (hdims : dims.length = bases.length) :
    ∃ fs, (tensorProductBasis bases dims).functions = .ok fs ∧
      fs.length = (fss.map List.length).prod ∧
      ∀ k f, fs[k]? = some f → ∀ x vs : List ℝ, x.length = dims.sum → vs.length = dims.length →
        (∀ i < dims.length,
          ((fss.getD i []).getD (digit (fss.map List.length) k i) fun _ => .error .IndexError)
            ((slices dims x).getD i []) = .ok (vs.getD i 0)) →
        f x = .ok vs.prod := by
  have hfl : fss.length = bases.length := by simpa using (congrArg List.length hfs).symm
  have hdl : dims.length = fss.length := by omega
  refine ⟨_, tp_functions_eq bases dims fss hfs hdims, by simp, ?_⟩
  · intro k f hk x vs hx hvs hv
    rw [List.getElem?_map] at hk
    have hk' : k < (fss.map List.length).prod := by
      by_contra hc
      rw [List.getElem?_eq_none (by simpa using hc)] at hk
      simp at hk
    rw [List.getElem?_range hk'] at hk
    simp only [Option.map_some, Option.some.injEq] at hk
    subst hk
    apply tpFunction_eq dims _ x vs hx (by simp [pick, hdl])
    rw [List.forall₂_iff_get]
    refine ⟨by simp [pick, hdl, hvs], ?_⟩
    intro i h1 h2
    have hi : i < dims.length := by omega
    have := hv i hi
    simp only [List.get_eq_getElem, List.getElem_zip, pick, List.getElem_map, List.getElem_range]
    rw [List.getD_eq_getElem?_getD (l := slices dims x), List.getElem?_eq_getElem (by simpa using hi),
      List.getD_eq_getElem?_getD (l := vs), List.getElem?_eq_getElem h2] at this
    exact this

/-- Points with a wrong number of coordinates are rejected. -/
theorem C15_wrong_length (dims : List Nat) (fs : List (List ℝ → Py ℝ))
    (derivs : List (List (FnOrGrad ℝ))) (x : List ℝ) (hx : x.length ≠ dims.sum) :
    tpFunction dims fs x = .error .AssertionError ∧
      tpGradient dims derivs x = .error .AssertionError := by
  simp [tpFunction, tpGradient, hx]

theorem tpGradientInner_components (x : List ℝ) (nb : Nat) : ∀ (dims : List Nat) (fs : List (FnOrGrad ℝ))
    (block : List ℝ) (off : Nat) (r : List ℝ), tpGradientInner x nb dims fs block off = .ok r →
    fs.length = dims.length ∧ (block.length = nb → r.length = nb) ∧ ∀ (j : Nat) (g : List ℝ → Py (List ℝ)),
      fs[j]? = some (.grad g) →
      ∃ comps, g ((x.drop (off + (dims.take j).sum)).take (dims.getD j 0)) = .ok comps ∧ comps.length = nb
  | [], [], block, off, r, h => by
    simp only [tpGradientInner, Except.ok.injEq] at h
    subst h
    simp
  | d :: ds, .fn f :: fs, block, off, r, h => by
    simp only [tpGradientInner] at h
    cases hf : f ((x.drop off).take d) with
    | error e => simp [hf] at h
    | ok v =>
      rw [hf] at h
      obtain ⟨h1, h2, h3⟩ := tpGradientInner_components x nb ds fs _ _ r h
      refine ⟨by simp [h1], fun hb => h2 (by simpa using hb), fun j g hj => ?_⟩
      cases j with
      | zero => simp at hj
      | succ j => simpa [add_assoc] using h3 j g (by simpa using hj)
  | d :: ds, .grad g' :: fs, block, off, r, h => by
    simp only [tpGradientInner] at h
    cases hf : g' ((x.drop off).take d) with
    | error e => simp [hf] at h
    | ok v =>
      rw [hf] at h
      by_cases hv : v.length = nb
      · simp only [hv, ne_eq, not_true_eq_false, if_false] at h
        obtain ⟨h1, h2, h3⟩ := tpGradientInner_components x nb ds fs _ _ r h
        refine ⟨by simp [h1], fun hb => h2 (by simp [hb, hv]), fun j g hj => ?_⟩
        cases j with
        | zero =>
          simp only [List.getElem?_cons_zero, Option.some.injEq, FnOrGrad.grad.injEq] at hj
          subst hj
          exact ⟨v, by simpa using hf, hv⟩
        | succ j => simpa [add_assoc] using h3 j g (by simpa using hj)
      · simp [hv] at h
  | [], _ :: _, _, _, _, h => by simp [tpGradientInner] at h
  | _ :: _, [], _, _, _, h => by simp [tpGradientInner] at h

/-- **C15 (numbers of components).**  A gradient that is returned has one entry per coordinate, and every base gradient that
entered block `i` returned, on its slice of the point, exactly as many components as factor `i` has coordinates: no
component is dropped and none is made up. -/
theorem C15_gradient_components (dims : List Nat) (derivs : List (List (FnOrGrad ℝ))) (x r : List ℝ)
    (hl : derivs.length = dims.length) (h : tpGradient dims derivs x = .ok r) :
    r.length = dims.sum ∧ ∀ (i j : Nat) (g : List ℝ → Py (List ℝ)), i < dims.length →
      (derivs.getD i [])[j]? = some (.grad g) →
      ∃ comps, g ((x.drop (dims.take j).sum).take (dims.getD j 0)) = .ok comps ∧ comps.length = dims.getD i 0 := by
  unfold tpGradient at h
  split at h
  · simp at h
  cases hc : collect (List.zipWith
      (fun nb df => tpGradientInner x nb dims df (List.replicate nb (Duck.lit 1)) 0) dims derivs) with
  | error e => simp [hc] at h
  | ok blocks =>
    simp only [hc, Except.ok.injEq] at h
    subst h
    have key : ∀ (dd : List Nat) (ff : List (List (FnOrGrad ℝ))) (bs : List (List ℝ)), ff.length = dd.length →
        collect (List.zipWith
          (fun nb df => tpGradientInner x nb dims df (List.replicate nb (Duck.lit 1)) 0) dd ff) = .ok bs →
        bs.flatten.length = dd.sum ∧ ∀ (i j : Nat) (g : List ℝ → Py (List ℝ)), i < dd.length →
          (ff.getD i [])[j]? = some (.grad g) →
          ∃ comps, g ((x.drop (dims.take j).sum).take (dims.getD j 0)) = .ok comps ∧ comps.length = dd.getD i 0 := by
      intro dd
      induction dd with
      | nil =>
        intro ff bs _ hb
        simp only [List.zipWith_nil_left, collect, Except.ok.injEq] at hb
        subst hb
        simp
      | cons d dd ih =>
        intro ff bs hlen hb
        obtain - | ⟨f, ff⟩ := ff
        · simp at hlen
        rw [List.zipWith_cons_cons] at hb
        cases hi : tpGradientInner x d dims f (List.replicate d (Duck.lit 1)) 0 with
        | error e => simp [hi, collect] at hb
        | ok b =>
          rw [hi] at hb
          unfold collect at hb
          cases ht : collect (List.zipWith
              (fun nb df => tpGradientInner x nb dims df (List.replicate nb (Duck.lit 1)) 0) dd ff) with
          | error e => simp [ht] at hb
          | ok bs' =>
            simp only [ht, Except.ok.injEq] at hb
            subst hb
            obtain ⟨-, h2, h3⟩ := tpGradientInner_components x d dims f _ _ b hi
            obtain ⟨k1, k2⟩ := ih ff bs' (by simpa using hlen) ht
            refine ⟨by simpa [h2 (by simp)] using k1, fun i j g hi' hg => ?_⟩
            cases i with
            | zero => simpa using h3 j g (by simpa using hg)
            | succ i => simpa using k2 i j g (by simpa using hi') (by simpa using hg)
    exact key dims derivs blocks hl hc

/-- On the square, a base gradient with two components instead of one is rejected. -/
example : ¬ ∃ r, tpGradient [1, 1] [[.grad fun _ => .ok [1, 2], .fn fun _ => .ok 3],
    [.fn fun _ => .ok 3, .grad fun _ => .ok [(1 : ℝ)]]] [0, 0] = .ok r := by
  rintro ⟨r, h⟩
  obtain ⟨c, hc, hl⟩ := (C15_gradient_components _ _ _ _ rfl h).2 0 0 _ (by simp) rfl
  simp only [Except.ok.injEq] at hc
  subst hc
  simp at hl

/-- **C15 (gradients).**  At a point `x`, let base `i`'s selected function have the value of some
function `F i` and let its gradient be the list of partial derivatives of `F i`, both at slice `i` of
`x`.  Then gradient `k` of the tensor product basis succeeds at `x` and is the list of all partial
derivatives of the product function `y ↦ ∏ F i (slice i of y)`. -/
theorem C15_gradient (bases : List (Basis ℝ)) (dims : List Nat)
    (fss : List (List (List ℝ → Py ℝ))) (gss : List (List (List ℝ → Py (List ℝ))))
    (hfs : bases.map (·.functions) = fss.map .ok) (hgs : bases.map (·.gradients) = gss.map .ok)
    (hdims : dims.length = bases.length) (hgl : gss.map List.length = fss.map List.length) :
    ∃ gs, (tensorProductBasis bases dims).gradients = .ok gs ∧
      gs.length = (fss.map List.length).prod ∧
      ∀ k g, gs[k]? = some g → ∀ (x : List ℝ) (F : List (List ℝ → ℝ)) (grad : List (List ℝ)),
        x.length = dims.sum → F.length = dims.length → grad.length = dims.length →
        (∀ i < dims.length,
          ((fss.getD i []).getD (digit (fss.map List.length) k i) fun _ => .error .IndexError)
            ((slices dims x).getD i []) = .ok ((F.getD i fun _ => 0) ((slices dims x).getD i [])) ∧
          ((gss.getD i []).getD (digit (fss.map List.length) k i) fun _ => .error .IndexError)
            ((slices dims x).getD i []) = .ok (grad.getD i []) ∧
          IsGradientAt (dims.getD i 0) (F.getD i fun _ => 0) ((slices dims x).getD i [])
            (grad.getD i [])) →
        ∃ G, g x = .ok G ∧ IsGradientAt dims.sum
          (fun y => (List.zipWith (fun F z => F z) F (slices dims y)).prod) x G := by
  have hfl : fss.length = bases.length := by simpa using (congrArg List.length hfs).symm
  have hgl' : gss.length = fss.length := by simpa using congrArg List.length hgl
  have hdl : dims.length = fss.length := by omega
  refine ⟨_, tp_gradients_eq bases dims fss gss hfs hgs hdims hgl, by simp, ?_⟩
  · intro k g hk x F grad hx hF hgrad h
    rw [List.getElem?_map] at hk
    have hk' : k < (fss.map List.length).prod := by
      by_contra hc
      rw [List.getElem?_eq_none (by simpa using hc)] at hk
      simp at hk
    rw [List.getElem?_range hk'] at hk
    simp only [Option.map_some, Option.some.injEq] at hk
    subst hk
    refine ⟨_, tpGradient_eq dims _ (List.zipWith (fun (F : (List ℝ → ℝ) × List ℝ) g => (F.1 F.2, g))
      (List.zip F (slices dims x)) grad) x hx (by simp [pick, hdl, hgl']) ?_ ?_,
      isGradientAt_product dims F grad x hx hF hgrad fun i hi => (h i hi).2.2⟩
    · apply List.ext_getElem
      · simp [hF, hgrad]
      · intro i h1 h2
        have := (h i h2).2.2.1
        rw [List.getD_eq_getElem?_getD, List.getElem?_eq_getElem (by omega),
          List.getD_eq_getElem?_getD, List.getElem?_eq_getElem h2] at this
        simpa using this
    · rw [List.forall₂_iff_get]
      refine ⟨by simp [pick, hF, hgrad, hdl, hgl'], ?_⟩
      intro i h1 h2
      have hi : i < dims.length := by
        have := h2; simp [hF, hgrad] at this; omega
      obtain ⟨ha, hb, -⟩ := h i hi
      simp only [List.get_eq_getElem, List.getElem_zip, pick, List.getElem_map, List.getElem_range,
        List.getElem_zipWith]
      have e1 : (slices dims x).getD i [] = (slices dims x)[i]'(by simpa using hi) := by
        rw [List.getD_eq_getElem?_getD, List.getElem?_eq_getElem (by simpa using hi)]; rfl
      have e2 : (F.getD i fun _ => 0) = F[i] := by
        rw [List.getD_eq_getElem?_getD, List.getElem?_eq_getElem (by omega)]; rfl
      have e3 : grad.getD i [] = grad[i] := by
        rw [List.getD_eq_getElem?_getD, List.getElem?_eq_getElem (by omega)]; rfl
      rw [e1, e2] at ha
      rw [e1, e3] at hb
      rw [← hgl] at hb
      exact ⟨ha, hb⟩

theorem pick_set {α : Type*} (ls : List (List α)) (dflt : α) (k i : Nat) (l : List α)
    (hi : i < ls.length) (hl : l.length = (ls.getD i []).length) :
    List.zipWith (fun l j => l.getD j dflt) (ls.set i l) (unravelF (ls.map List.length) k) =
      (pick ls dflt k).set i (l.getD (digit (ls.map List.length) k i) dflt) := by
  have hs : ls.map List.length = (ls.set i l).map List.length := by
    rw [List.map_set, hl]
    apply List.ext_getElem
    · simp
    · intro j h1 h2
      rw [List.getElem_set]
      split
      · subst_vars; simp [hi]
      · rfl
  rw [hs, zipWith_unravel_pick, ← hs]
  apply List.ext_getElem
  · simp [pick]
  · intro j h1 h2
    have hj : j < ls.length := by simpa [pick] using h2
    rw [List.getElem_set]
    rw [getElem_pick, getElem_pick, ← hs]
    split
    · subst_vars
      simp [hi]
    · rename_i hne
      simp [hne]

/-- **C15 (single axes).**  Let the base derivatives along each of their own axes be the entries of
the base gradients (at the slices of `x`).  Then `derivatives(axis)`, for every valid axis, has as
many entries as `gradients` and entry `k` evaluates at `x` to component `axis` of gradient `k`. -/
theorem C15_derivatives (bases : List (Basis ℝ)) (dims : List Nat)
    (fss : List (List (List ℝ → Py ℝ))) (gss : List (List (List ℝ → Py (List ℝ))))
    (dss : Nat → List (List (List ℝ → Py ℝ)))
    (hfs : bases.map (·.functions) = fss.map .ok) (hgs : bases.map (·.gradients) = gss.map .ok)
    (hdims : dims.length = bases.length) (hgl : gss.map List.length = fss.map List.length)
    (hds : ∀ i < dims.length, ∀ a < dims.getD i 0,
      (bases.map fun b => b.derivatives a).getD i (.error .IndexError) = .ok ((dss a).getD i []) ∧
      ((dss a).getD i []).length = (fss.getD i []).length)
    (i a : Nat) (hi : i < dims.length) (ha : a < dims.getD i 0) :
    ∃ gs ds, (tensorProductBasis bases dims).gradients = .ok gs ∧
      (tensorProductBasis bases dims).derivatives ((dims.take i).sum + a) = .ok ds ∧
      ds.length = gs.length ∧
      ∀ (k : Nat) (g : List ℝ → Py (List ℝ)) (d : List ℝ → Py ℝ),
        gs[k]? = some g → ds[k]? = some d →
        ∀ (x vs : List ℝ) (grad : List (List ℝ)),
        x.length = dims.sum → vs.length = dims.length → grad.map List.length = dims →
        (∀ i < dims.length,
          ((fss.getD i []).getD (digit (fss.map List.length) k i) fun _ => .error .IndexError)
            ((slices dims x).getD i []) = .ok (vs.getD i 0) ∧
          ((gss.getD i []).getD (digit (fss.map List.length) k i) fun _ => .error .IndexError)
            ((slices dims x).getD i []) = .ok (grad.getD i []) ∧
          ∀ a < dims.getD i 0,
            (((dss a).getD i []).getD (digit (fss.map List.length) k i) fun _ => .error .IndexError)
              ((slices dims x).getD i []) = .ok ((grad.getD i []).getD a 0)) →
        ∃ G, g x = .ok G ∧ d x = .ok (G.getD ((dims.take i).sum + a) 0) := by
  have hfl : fss.length = bases.length := by simpa using (congrArg List.length hfs).symm
  have hgl' : gss.length = fss.length := by simpa using congrArg List.length hgl
  have hdl : dims.length = fss.length := by omega
  obtain ⟨hd1, hd2⟩ := hds i hi a ha
  refine ⟨_, _, tp_gradients_eq bases dims fss gss hfs hgs hdims hgl,
    tp_derivatives_eq bases dims fss _ i a hfs hdims hi ha hd1,
    by simp [modeIndexTuples_eq, size_eq_prod], ?_⟩
  intro k g d hk hkd x vs grad hx hvs hgrad h
  have hgradl : grad.length = dims.length := by rw [← hgrad]; simp
  rw [List.getElem?_map] at hk
  have hk' : k < (fss.map List.length).prod := by
    by_contra hc
    rw [List.getElem?_eq_none (by simpa using hc)] at hk
    simp at hk
  rw [List.getElem?_range hk'] at hk
  simp only [Option.map_some, Option.some.injEq] at hk
  subst hk
  rw [modeIndexTuples_eq, size_eq_prod, List.map_map, List.getElem?_map,
    List.getElem?_range hk'] at hkd
  simp only [Option.map_some, Option.some.injEq, Function.comp] at hkd
  subst hkd
  rw [pick_set fss _ k i _ (by omega) hd2]
  have hlen : (List.zip vs grad).map (fun q => q.2.length) = dims := by
    apply List.ext_getElem
    · simp [hvs, hgradl]
    · intro j h1 h2
      have : (grad.map List.length)[j]'(by simpa [hgradl] using h2) = dims[j] := by
        simp only [hgrad]
      simpa using this
  have eS : ∀ j (hj : j < dims.length), (slices dims x).getD j [] =
      (slices dims x)[j]'(by simpa using hj) := by
    intro j hj
    rw [List.getD_eq_getElem?_getD, List.getElem?_eq_getElem (by simpa using hj)]; rfl
  have eV : ∀ j (hj : j < dims.length), vs.getD j 0 = vs[j]'(by omega) := by
    intro j hj
    rw [List.getD_eq_getElem?_getD, List.getElem?_eq_getElem (by omega)]; rfl
  have eG : ∀ j (hj : j < dims.length), grad.getD j [] = grad[j]'(by omega) := by
    intro j hj
    rw [List.getD_eq_getElem?_getD, List.getElem?_eq_getElem (by omega)]; rfl
  refine ⟨_, tpGradient_eq dims _ (List.zip vs grad) x hx (by simp [pick, hdl, hgl']) hlen ?_, ?_⟩
  · rw [List.forall₂_iff_get]
    refine ⟨by simp [pick, hvs, hgradl, hdl, hgl'], ?_⟩
    intro j h1 h2
    have hj : j < dims.length := by
      have := h2; simp [hvs, hgradl] at this; omega
    obtain ⟨ha, hb, -⟩ := h j hj
    rw [eS j hj, eV j hj] at ha
    rw [eS j hj, eG j hj, ← hgl] at hb
    simp only [List.get_eq_getElem, List.getElem_zip, pick, List.getElem_map, List.getElem_range]
    exact ⟨ha, hb⟩
  · have hzl : (List.zip vs grad).length = dims.length := by simp [hvs, hgradl]
    have hzi : ((List.zip vs grad).getD i (0, [])) = (vs.getD i 0, grad.getD i []) := by
      rw [eV i hi, eG i hi, List.getD_eq_getElem?_getD, List.getElem?_eq_getElem (by omega)]
      simp
    have hgi : (grad.getD i []).length = dims.getD i 0 := by
      have : (grad.map List.length)[i]'(by simpa [hgradl] using hi) = dims[i] := by simp only [hgrad]
      rw [eG i hi, List.getD_eq_getElem?_getD, List.getElem?_eq_getElem hi]
      simpa using this
    have hpg := productGradient_getD (List.zip vs grad) i a (by omega) (by rw [hzi]; exact hgi ▸ ha)
    rw [hlen, hzi] at hpg
    rw [hpg]
    have hfst : (List.zip vs grad).map Prod.fst = vs := by
      rw [List.map_fst_zip (by omega)]
    rw [hfst]
    apply tpFunction_eq dims _ x _ hx (by simp [pick, hdl])
    rw [List.forall₂_iff_get]
    refine ⟨by simp [pick, hvs, hdl], ?_⟩
    intro j h1 h2
    have hj : j < dims.length := by
      have := h2; simp [hvs] at this; omega
    obtain ⟨ha', -, hc⟩ := h j hj
    simp only [List.get_eq_getElem, List.getElem_zip, List.getElem_set]
    by_cases hij : i = j
    · subst hij
      have := hc a ha
      rw [eS i hi] at this
      simpa using this
    · rw [eS j hj, eV j hj] at ha'
      simp only [hij, if_false]
      rw [getElem_pick]
      exact ha'

/-- An axis outside the space raises nothing: `derivatives` then returns the undifferentiated
functions. -/
theorem C15_derivatives_out_of_range (bases : List (Basis ℝ)) (dims : List Nat)
    (fss : List (List (List ℝ → Py ℝ))) (hfs : bases.map (·.functions) = fss.map .ok)
    (hdims : dims.length = bases.length) (axis : Nat) (hax : dims.sum ≤ axis) :
    (tensorProductBasis bases dims).derivatives axis =
      (tensorProductBasis bases dims).functions := by
  have hfl : fss.length = bases.length := by simpa using (congrArg List.length hfs).symm
  have hdl : dims.length = fss.length := by omega
  have hf : collect (bases.map (·.functions)) = .ok fss := by rw [hfs, collect_ok]
  have key : ∀ (bases : List (Basis ℝ)) (dims : List Nat) (s : Nat), dims.length = bases.length →
      s + dims.sum ≤ axis →
      axisFactors axis bases (List.zip (startsFrom s dims) dims) = bases.map (·.functions) := by
    intro bases
    induction bases with
    | nil => intros; simp [axisFactors]
    | cons b bases ih =>
      intro dims s hl hs
      cases dims with
      | nil => simp at hl
      | cons d ds =>
        simp only [List.sum_cons] at hs
        rw [startsFrom, List.zip_cons_cons, axisFactors_cons,
          ih ds (s + d) (by simpa using hl) (by omega), if_neg (by omega), List.map_cons]
  have hk := key bases dims 0 hdims (by omega)
  rw [← dimStarts_eq, hfs] at hk
  simp only [axisFactors] at hk
  simp only [tensorProductBasis, hf, bind, Except.bind, hdl, ne_eq, not_true, if_false, hk,
    collect_ok]

/-! ## C16 -/

/-- **C16.**  If in every base the functions (evaluating without error to `φ i j` on points with
`dims i` coordinates) are orthonormal for the functional `Is i`, then the functions of the tensor
product basis are orthonormal for the product functional, for all pairs of modes. -/
theorem C16_orthonormal (bases : List (Basis ℝ)) (dims : List Nat)
    (fss : List (List (List ℝ → Py ℝ))) (Is : List ((List ℝ → ℝ) → ℝ))
    (φ : Nat → Nat → List ℝ → ℝ)
    (hfs : bases.map (·.functions) = fss.map .ok) (hdims : dims.length = bases.length)
    (hI : List.Forall₂ IsFunctional dims Is)
    (hφ : ∀ i < dims.length, ∀ (j : Nat) (f : List ℝ → Py ℝ),
      (fss.getD i [])[j]? = some f → ∀ x : List ℝ,
      x.length = dims.getD i 0 → f x = .ok (φ i j x))
    (horth : ∀ i < dims.length, ∀ j < (fss.getD i []).length, ∀ l < (fss.getD i []).length,
      (Is.getD i fun _ => 0) (fun x => φ i j x * φ i l x) = if j = l then 1 else 0) :
    ∃ (fs : List (List ℝ → Py ℝ)) (ψ : Nat → List ℝ → ℝ),
      (tensorProductBasis bases dims).functions = .ok fs ∧
      fs.length = (fss.map List.length).prod ∧
      (∀ (k : Nat) (f : List ℝ → Py ℝ), fs[k]? = some f → ∀ x : List ℝ, x.length = dims.sum →
        f x = .ok (ψ k x)) ∧
      ∀ k < fs.length, ∀ l < fs.length,
        iterated Is (fun x => ψ k x * ψ l x) = if k = l then 1 else 0 := by
  have hfl : fss.length = bases.length := by simpa using (congrArg List.length hfs).symm
  have hdl : dims.length = fss.length := by omega
  have hIl : Is.length = dims.length := hI.length_eq.symm
  have hslice : ∀ (dims : List Nat) (x : List ℝ), x.length = dims.sum → ∀ i < dims.length,
      ((slices dims x).getD i []).length = dims.getD i 0 := by
    intro dims
    induction dims with
    | nil => intro x _ i hi; simp at hi
    | cons d ds ih =>
      intro x hx i hi
      simp only [List.sum_cons] at hx
      cases i with
      | zero => simp [slices]; omega
      | succ i =>
        simp only [slices, List.getD_cons_succ]
        exact ih (x.drop d) (by simp [hx]) i (by simpa using hi)
  let sel : Nat → List (List ℝ → ℝ) := fun k =>
    (List.range dims.length).map fun i => φ i (digit (fss.map List.length) k i)
  obtain ⟨fs, hfs', hlen, hval⟩ := C15_value bases dims fss hfs hdims
  have hdig : ∀ k < (fss.map List.length).prod, ∀ i < dims.length,
      digit (fss.map List.length) k i < (fss.getD i []).length := by
    intro k hk i hi
    have hv : Valid (fss.map List.length) (unravelF (fss.map List.length) k) :=
      valid_unravelF (by rw [size_eq_prod]; exact hk)
    have := hv.getElem i (by simp; omega)
    simpa [unravelF_eq_map_digit, List.getD_eq_getElem?_getD,
      List.getElem?_eq_getElem (show i < fss.length by omega)] using this
  refine ⟨fs, fun k x => (List.zipWith (fun F z => F z) (sel k) (slices dims x)).prod, hfs', hlen,
    ?_, ?_⟩
  · intro k f hk x hx
    have hk' : k < (fss.map List.length).prod := by
      by_contra hc
      rw [List.getElem?_eq_none (by omega)] at hk
      simp at hk
    refine hval k f hk x _ hx (by simp [sel]) ?_
    intro i hi
    have hd := hdig k hk' i hi
    have h1 := hφ i hi (digit (fss.map List.length) k i) ((fss.getD i [])[digit (fss.map List.length) k i])
      (List.getElem?_eq_getElem hd) ((slices dims x).getD i []) (hslice dims x hx i hi)
    rw [List.getD_eq_getElem?_getD (l := fss.getD i []), List.getElem?_eq_getElem hd]
    refine h1.trans ?_
    congr 1
    rw [List.getD_eq_getElem?_getD (l := List.zipWith _ _ _),
      List.getElem?_eq_getElem (by simpa [sel] using hi)]
    simp [sel, hi]
  · intro k hk l hl
    rw [hlen] at hk hl
    have e : (fun x => (List.zipWith (fun F z => F z) (sel k) (slices dims x)).prod *
        (List.zipWith (fun F z => F z) (sel l) (slices dims x)).prod) =
        fun x => (List.zipWith (fun F z => F z) ((List.range dims.length).map fun i y =>
          φ i (digit (fss.map List.length) k i) y * φ i (digit (fss.map List.length) l i) y)
          (slices dims x)).prod := by
      funext x
      have : ∀ (n : Nat) (A B : Nat → List ℝ → ℝ) (zs : List (List ℝ)),
          (List.zipWith (fun F z => F z) ((List.range n).map A) zs).prod *
          (List.zipWith (fun F z => F z) ((List.range n).map B) zs).prod =
          (List.zipWith (fun F z => F z) ((List.range n).map fun i y => A i y * B i y) zs).prod := by
        intro n
        induction n with
        | zero => intros; simp
        | succ n ih =>
          intro A B zs
          cases zs with
          | nil => simp
          | cons z zs =>
            rw [List.range_succ_eq_map, List.map_cons, List.map_cons, List.map_cons, List.map_map,
              List.map_map, List.map_map]
            simp only [List.zipWith_cons_cons, List.prod_cons]
            have := ih (A ∘ Nat.succ) (B ∘ Nat.succ) zs
            have e2 : (fun i y => A i y * B i y) ∘ Nat.succ =
                fun i y => (A ∘ Nat.succ) i y * (B ∘ Nat.succ) i y := rfl
            rw [e2, ← this]
            ring
      exact this _ _ _ _
    rw [e, iterated_product dims Is hI _ (by simp)]
    have hterm : List.zipWith (fun (I : (List ℝ → ℝ) → ℝ) F => I F) Is
        ((List.range dims.length).map fun i y =>
          φ i (digit (fss.map List.length) k i) y * φ i (digit (fss.map List.length) l i) y) =
        (List.range dims.length).map fun i =>
          if digit (fss.map List.length) k i = digit (fss.map List.length) l i then (1 : ℝ) else 0 := by
      apply List.ext_getElem
      · simp [hIl]
      · intro i h1 h2
        have hi : i < dims.length := by simpa using h2
        have := horth i hi _ (hdig k hk i hi) _ (hdig l hl i hi)
        rw [List.getD_eq_getElem?_getD, List.getElem?_eq_getElem (by omega)] at this
        simpa using this
    rw [hterm]
    by_cases hkl : k = l
    · subst hkl; simp
    · rw [if_neg hkl]
      have hne : ∃ i < dims.length,
          digit (fss.map List.length) k i ≠ digit (fss.map List.length) l i := by
        by_contra hc
        push Not at hc
        apply hkl
        rw [← ravelF_unravelF (s := fss.map List.length) (k := k) (by rw [size_eq_prod]; exact hk),
          ← ravelF_unravelF (s := fss.map List.length) (k := l) (by rw [size_eq_prod]; exact hl),
          unravelF_eq_map_digit, unravelF_eq_map_digit]
        congr 1
        apply List.map_congr_left
        intro i hi
        exact hc i (by simpa [hdl] using hi)
      obtain ⟨i, hi, hne⟩ := hne
      apply List.prod_eq_zero
      rw [List.mem_map]
      exact ⟨i, List.mem_range.2 hi, if_neg hne⟩

/-- Non-vacuity of C16: two one-dimensional bases with the constant function, point evaluation. -/
example : ∃ (fs : List (List ℝ → Py ℝ)) (ψ : Nat → List ℝ → ℝ),
      (tensorProductBasis
        (List.replicate 2 (⟨.ok [.int 0], .ok [fun _ => .ok 1], .ok [], fun _ => .ok [], .ok 1⟩ : Basis ℝ))
        [1, 1]).functions = .ok fs ∧ fs.length = 1 ∧
      (∀ (k : Nat) (f : List ℝ → Py ℝ), fs[k]? = some f → ∀ x : List ℝ, x.length = 2 →
        f x = .ok (ψ k x)) ∧
      ∀ k < fs.length, ∀ l < fs.length,
        iterated [fun F => F [0], fun F => F [0]] (fun x => ψ k x * ψ l x) =
          if k = l then 1 else 0 := by
  refine C16_orthonormal _ [1, 1] [[fun _ => .ok 1], [fun _ => .ok 1]]
    [fun F => F [0], fun F => F [0]] (fun _ _ _ => 1) rfl rfl ?_ ?_ ?_
  · have h : IsFunctional 1 fun F => F [0] := ⟨fun F G h => h [0] rfl, fun c F => rfl⟩
    exact .cons h (.cons h .nil)
  · intro i hi j f hf x hx
    match i with
    | 0 => match j with
      | 0 => obtain rfl := Option.some.inj hf; rfl
      | j + 1 => simp at hf
    | 1 => match j with
      | 0 => obtain rfl := Option.some.inj hf; rfl
      | j + 1 => simp at hf
    | i + 2 => simp at hi
  · intro i hi j hj l hl
    match i with
    | 0 => simp at hj hl; simp [hj, hl]
    | 1 => simp at hj hl; simp [hj, hl]
    | i + 2 => simp at hi

/-! ## Bases returned for spaces -/

theorem map_ok_of_forall {α β : Type*} (l : List α) (f : α → Py β) (g : α → β)
    (h : ∀ a ∈ l, f a = .ok (g a)) : l.map f = (l.map g).map .ok := by
  rw [List.map_map]
  exact List.map_congr_left h

/-- **C14 (all spaces).**  Whenever `basis_for_space` returns a basis for a space without
zero-dimensional bases, its mode ids, functions and gradients are all there, `space_dim` many each,
and the mode ids are distinct. -/
theorem C14_space (space : Space) (shape : Shape) (b : Basis ℝ)
    (hb : basisForSpace space shape = .ok b) (hdim : ∀ s ∈ space.flatBases, 1 ≤ s.spatialDim) :
    ∃ mids fs gs, b.modeIds = .ok mids ∧ b.functions = .ok fs ∧ b.gradients = .ok gs ∧
      mids.length = space.spaceDim ∧ fs.length = space.spaceDim ∧ gs.length = space.spaceDim ∧
      mids.Nodup := by
  have htp : ∀ (bases : List PNSpace), (∀ s ∈ bases, 1 ≤ s.spatialDim) →
      b = tensorProductBasis (bases.map basisPN) (bases.map PNSpace.spatialDim) →
      ∃ mids fs gs, b.modeIds = .ok mids ∧ b.functions = .ok fs ∧ b.gradients = .ok gs ∧
      mids.length = (bases.map PNSpace.spaceDim).prod ∧
      fs.length = (bases.map PNSpace.spaceDim).prod ∧
      gs.length = (bases.map PNSpace.spaceDim).prod ∧ mids.Nodup := by
    intro bases hd hb
    subst hb
    choose! ids fs gs h1 h2 h3 h4 h5 h6 h7 h8 h9 using C14_simplex
    have hlen : (bases.map fun s => (ids s).map ModeId.ofTuple).map List.length =
        bases.map PNSpace.spaceDim := by
      rw [List.map_map]
      exact List.map_congr_left fun s hs => by simpa using h6 s (hd s hs)
    have hfl : (bases.map fs).map List.length = bases.map PNSpace.spaceDim := by
      rw [List.map_map]
      exact List.map_congr_left fun s hs => h7 s (hd s hs)
    have hgl : (bases.map gs).map List.length = bases.map PNSpace.spaceDim := by
      rw [List.map_map]
      exact List.map_congr_left fun s hs => h8 s (hd s hs)
    obtain ⟨mids, F, G, e1, e2, e3, l1, l2, l3, hnd, -⟩ :=
      C14_tensor_product (bases.map basisPN) (bases.map PNSpace.spatialDim)
      (bases.map fun s => (ids s).map ModeId.ofTuple) (bases.map fs) (bases.map gs)
      (by rw [List.map_map]; exact map_ok_of_forall _ _ _ fun s hs => h1 s (hd s hs))
      (by rw [List.map_map]; exact map_ok_of_forall _ _ _ fun s hs => h2 s (hd s hs))
      (by rw [List.map_map]; exact map_ok_of_forall _ _ _ fun s hs => h3 s (hd s hs))
      (by simp) (by rw [hlen, hfl]) (by rw [hgl, hfl]) (by
        intro l hl
        obtain ⟨s, hs, rfl⟩ := List.mem_map.1 hl
        exact h5 s (hd s hs))
    rw [hlen] at l1 l2 l3
    exact ⟨mids, F, G, e1, e2, e3, l1, l2, l3, hnd⟩
  have hgen : ∀ (space : Space) (shape : Shape),
      (if true = true ∧ space.spatialDim ≠ shape.dim then (.error .ValueError : Py (Basis ℝ))
      else if space.flatBases.length ≠ shape.flatBases.length then .error .ValueError
      else .ok (tensorProductBasis (space.flatBases.map basisPN)
        (space.flatBases.map PNSpace.spatialDim))) = .ok b →
      b = tensorProductBasis (space.flatBases.map basisPN)
        (space.flatBases.map PNSpace.spatialDim) := by
    intro space shape h
    split at h
    · simp at h
    · split at h
      · simp at h
      · injection h with h
        exact h.symm
  cases space with
  | pn s =>
    cases shape with
    | simplex d =>
      simp only [basisForSpace, basisForSpaceWith] at hb
      injection hb with hb
      subst hb
      obtain ⟨ids, fs, gs, h1, h2, h3, h4, h5, h6, h7, h8, h9⟩ :=
        C14_simplex s (hdim s (by simp [Space.flatBases]))
      exact ⟨_, fs, gs, h1, h2, h3, (List.length_map _).trans h6, h7, h8, h5⟩
    | _ => simp [basisForSpace, basisForSpaceWith] at hb
  | tp bases =>
    cases shape with
    | simplex d => simp [basisForSpace, basisForSpaceWith] at hb
    | _ => exact htp bases hdim (hgen _ _ hb)
  | qn d n =>
    cases shape with
    | simplex d => simp [basisForSpace, basisForSpaceWith] at hb
    | _ => exact htp _ hdim (hgen _ _ hb)

example : ∃ b : Basis ℝ, basisForSpace (.tp [⟨2, 3⟩, ⟨1, 4⟩]) (.tp [2, 1]) = .ok b ∧
    ∀ s ∈ (Space.tp [⟨2, 3⟩, ⟨1, 4⟩]).flatBases, 1 ≤ s.spatialDim :=
  ⟨_, rfl, by simp [Space.flatBases]⟩

/-- **C15 (monomials, no hypotheses left).**  For products of simplices of any dimensions and orders,
function `k` of the monomial tensor product basis is a total function on points with the right number
of coordinates, and gradient `k` is its gradient at every such point. -/
theorem C15_monomial_gradient (bases : List PNSpace) :
    let dims := bases.map PNSpace.spatialDim
    let b : Basis ℝ := tensorProductBasis (bases.map monomialBasisPN) dims
    ∃ fs gs, b.functions = .ok fs ∧ b.gradients = .ok gs ∧
      fs.length = (bases.map PNSpace.spaceDim).prod ∧ gs.length = fs.length ∧
      ∀ (k : Nat) (f : List ℝ → Py ℝ) (g : List ℝ → Py (List ℝ)),
        fs[k]? = some f → gs[k]? = some g →
        ∃ F : List ℝ → ℝ, (∀ x : List ℝ, x.length = dims.sum → f x = .ok (F x)) ∧
          ∀ x : List ℝ, x.length = dims.sum → ∃ G, g x = .ok G ∧ IsGradientAt dims.sum F x G := by
  intro dims b
  have hl : ∀ s : PNSpace, (nodeTuplesPN s).length = s.spaceDim := length_nodeTuplesPN
  let fss : List (List (List ℝ → Py ℝ)) := bases.map fun s => (nodeTuplesPN s).map monomial
  let gss : List (List (List ℝ → Py (List ℝ))) :=
    bases.map fun s => (nodeTuplesPN s).map gradMonomial
  have hfs : (bases.map (monomialBasisPN (R := ℝ))).map (·.functions) = fss.map .ok := by
    simp only [fss, List.map_map]; rfl
  have hgs : (bases.map (monomialBasisPN (R := ℝ))).map (·.gradients) = gss.map .ok := by
    simp only [gss, List.map_map]; rfl
  have hgl : gss.map List.length = fss.map List.length := by simp [fss, gss]
  have hfl : fss.map List.length = bases.map PNSpace.spaceDim := by
    simp only [fss, List.map_map]
    exact List.map_congr_left fun s _ => by simp [hl]
  have hdims : dims.length = (bases.map (monomialBasisPN (R := ℝ))).length := by simp [dims]
  have hdl : dims.length = bases.length := by simp [dims]
  obtain ⟨fs, ef, lf, hv⟩ := C15_value _ dims fss hfs hdims
  obtain ⟨gs, eg, lg, hg⟩ := C15_gradient _ dims fss gss hfs hgs hdims hgl
  refine ⟨fs, gs, ef, eg, by rw [lf, hfl], by rw [lf, lg], ?_⟩
  intro k f g hf hgk
  have hk : k < (fss.map List.length).prod := by
    by_contra hc
    rw [List.getElem?_eq_none (by omega)] at hf
    simp at hf
  have hdig : ∀ i (hi : i < bases.length),
      digit (fss.map List.length) k i < (nodeTuplesPN bases[i]).length := by
    intro i hi
    have hvl : Valid (fss.map List.length) (unravelF (fss.map List.length) k) :=
      valid_unravelF (by rw [size_eq_prod]; exact hk)
    have := hvl.getElem i (by simpa [fss] using hi)
    simpa [unravelF_eq_map_digit, fss] using this
  -- exponents of base `i`
  let mid : Nat → List Nat := fun i =>
    (nodeTuplesPN (bases.getD i ⟨0, 0⟩)).getD (digit (fss.map List.length) k i) []
  have hmid : ∀ i (hi : i < bases.length), mid i ∈ nodeTuplesPN bases[i] := by
    intro i hi
    simp only [mid, List.getD_eq_getElem?_getD, List.getElem?_eq_getElem hi, Option.getD_some,
      List.getElem?_eq_getElem (hdig i hi)]
    exact List.getElem_mem _
  have hmidl : ∀ i (hi : i < bases.length), (mid i).length = bases[i].spatialDim := fun i hi =>
    ((Pytools.mem_gnitsam _ _ _).1 (hmid i hi)).1
  have hf1 : ∀ i < bases.length, ((fss.getD i []).getD (digit (fss.map List.length) k i)
      fun _ => .error .IndexError) = monomial (mid i) := by
    intro i hi
    have := hdig i hi
    simp [fss, mid, List.getD_eq_getElem?_getD, hi] at this ⊢
    simp [this]
  have hg1 : ∀ i < bases.length, ((gss.getD i []).getD (digit (fss.map List.length) k i)
      fun _ => .error .IndexError) = gradMonomial (mid i) := by
    intro i hi
    have := hdig i hi
    simp [fss, gss, mid, List.getD_eq_getElem?_getD, hi] at this ⊢
    simp [this]
  let Fs : List (List ℝ → ℝ) := (List.range bases.length).map fun i => monomialValue (mid i)
  have hslice : ∀ (dims : List Nat) (x : List ℝ), x.length = dims.sum → ∀ i < dims.length,
      ((slices dims x).getD i []).length = dims.getD i 0 := by
    intro dims
    induction dims with
    | nil => intro x _ i hi; simp at hi
    | cons d ds ih =>
      intro x hx i hi
      simp only [List.sum_cons] at hx
      cases i with
      | zero => simp [slices]; omega
      | succ i =>
        simp only [slices, List.getD_cons_succ]
        exact ih (x.drop d) (by simp [hx]) i (by simpa using hi)
  have hsl : ∀ x : List ℝ, x.length = dims.sum → ∀ i (hi : i < bases.length),
      (mid i).length = ((slices dims x).getD i []).length := by
    intro x hx i hi
    rw [hslice dims x hx i (by omega), hmidl i hi]
    simp [dims, hi]
  have hFi : ∀ i < bases.length, (Fs.getD i fun _ => 0) = monomialValue (mid i) := by
    intro i hi
    simp [Fs, hi]
  refine ⟨fun y => (List.zipWith (fun F z => F z) Fs (slices dims y)).prod, ?_, ?_⟩
  · intro x hx
    refine hv k f hf x _ hx (by simp [Fs, hdl]) ?_
    intro i hi
    rw [hdl] at hi
    rw [hf1 i hi, C17_value _ _ (hsl x hx i hi)]
    congr 1
    simp [Fs, hi, hdl]
  · intro x hx
    choose! grad hgrad using C17_gradient
    refine hg k g hgk x Fs ((List.range bases.length).map fun i =>
      grad (mid i) ((slices dims x).getD i [])) hx (by simp [Fs, hdl]) (by simp [hdl]) ?_
    intro i hi
    rw [hdl] at hi
    obtain ⟨h1, h2⟩ := hgrad _ _ (hsl x hx i hi)
    have hgi : (((List.range bases.length).map fun i =>
        grad (mid i) ((slices dims x).getD i [])).getD i []) =
        grad (mid i) ((slices dims x).getD i []) := by
      simp [hi]
    rw [hf1 i hi, hg1 i hi, hFi i hi, hgi]
    refine ⟨C17_value _ _ (hsl x hx i hi), h1, ?_⟩
    have : dims.getD i 0 = (mid i).length := by
      rw [hmidl i hi]; simp [dims, hi]
    rw [this]
    exact h2

/-! ## C26 -/

/-- **C26, refuted.**  The only mode in dimension zero is the constant 2, so it is not normalised for
point evaluation (weight one, the integral over a point), although the basis claims an orthonormality
weight. -/
theorem C26_zero_dim_not_orthonormal (n : Nat) :
    ∃ f, (orthonormalBasisPN ⟨0, n⟩ : Basis ℝ).functions = .ok [f] ∧ f [] = .ok 2 ∧
      (orthonormalBasisPN ⟨0, n⟩ : Basis ℝ).orthonormalityWeight = .ok 1 ∧
      ∀ v, f [] = .ok v → v * v ≠ 1 := by
  have h : (zerodBasis ([] : List ℝ)) = .ok 2 := by
    show Except.ok ((1 : ℝ) + 1) = _
    norm_num
  refine ⟨zerodBasis, rfl, h, rfl, ?_⟩
  intro v hv
  rw [h] at hv
  injection hv with hv
  rw [← hv]; norm_num

end Modepy

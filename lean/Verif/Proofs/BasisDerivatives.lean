import Verif.Props.EndToEnd

/-!
# `Basis.derivatives(axis)` of the library's bases
-/

namespace Modepy
open Spec NdArray

/-- `derivatives(a)` has one function per mode, evaluating to component `a` of the gradient. -/
def DerPN (b : Basis ℝ) (s : PNSpace) (gs : List (List ℝ → Py (List ℝ))) : Prop :=
  ∀ a < s.spatialDim, ∃ ds, b.derivatives a = .ok ds ∧ ds.length = gs.length ∧
    ∀ k < gs.length, ∀ x v, x.length = s.spatialDim → (gs.getD k fun _ => .error .IndexError) x = .ok v → v.length = s.spatialDim →
      (ds.getD k fun _ => .error .IndexError) x = .ok (v.getD a 0)

theorem der_onb (s : PNSpace) (gs : List (List ℝ → Py (List ℝ))) (h : (orthonormalBasisPN s : Basis ℝ).gradients = .ok gs) :
    DerPN (orthonormalBasisPN s) s gs := by
  intro a ha
  have hd : (orthonormalBasisPN s : Basis ℝ).derivatives a = defaultDerivatives (orthonormalBasisPN s : Basis ℝ).gradients a := rfl
  rw [hd, h]
  refine ⟨_, rfl, by simp, ?_⟩
  intro k hk x v _ hv hl
  rw [List.getD_eq_getElem?_getD, List.getElem?_eq_getElem hk, Option.getD_some] at hv
  rw [List.getD_eq_getElem?_getD, List.getElem?_map, List.getElem?_eq_getElem hk]
  simp only [Option.map_some, Option.getD_some, hv, List.getElem?_eq_getElem (show a < v.length by omega)]
  rw [List.getD_eq_getElem?_getD, List.getElem?_eq_getElem (show a < v.length by omega)]
  rfl

theorem der_monomial (s : PNSpace) (gs : List (List ℝ → Py (List ℝ))) (h : (monomialBasisPN s : Basis ℝ).gradients = .ok gs) :
    DerPN (monomialBasisPN s) s gs := by
  intro a ha
  have hgs : (Pytools.gnitsam s.order s.spatialDim).map gradMonomial = gs := by
    have : (monomialBasisPN s : Basis ℝ).gradients = .ok ((Pytools.gnitsam s.order s.spatialDim).map gradMonomial) := rfl
    rw [this] at h
    exact Except.ok.inj h
  subst hgs
  refine ⟨_, rfl, by simp, ?_⟩
  intro k hk x v hx hv hl
  rw [List.length_map] at hk
  rw [List.getD_eq_getElem?_getD, List.getElem?_map, List.getElem?_eq_getElem hk] at hv ⊢
  simp only [Option.map_some, Option.getD_some] at hv ⊢
  have hlen : (Pytools.gnitsam s.order s.spatialDim)[k].length = s.spatialDim := ((Pytools.mem_gnitsam _ _ _).1 (List.getElem_mem hk)).1
  obtain ⟨g, h1, h2, -⟩ := C17_diff_eq_grad (Pytools.gnitsam s.order s.spatialDim)[k] x (by omega) a (by omega)
  rw [h1] at hv
  rw [h2, Except.ok.inj hv]

theorem der_basis (s : PNSpace) (gs : List (List ℝ → Py (List ℝ))) (h : (basisPN s : Basis ℝ).gradients = .ok gs) :
    DerPN (basisPN s) s gs := by
  unfold basisPN at h ⊢
  split_ifs with hd
  · rw [if_pos hd] at h
    exact der_onb s gs h
  · rw [if_neg hd] at h
    exact der_monomial s gs h

/-- Every axis belongs to one factor. -/
theorem axis_factor (dims : List Nat) (axis : Nat) (h : axis < dims.sum) :
    ∃ i a, i < dims.length ∧ a < dims.getD i 0 ∧ axis = (dims.take i).sum + a := by
  induction dims generalizing axis with
  | nil => simp at h
  | cons d ds ih =>
    by_cases hd : axis < d
    · exact ⟨0, axis, by simp, by simpa using hd, by simp⟩
    · rw [List.sum_cons] at h
      obtain ⟨i, a, h1, h2, h3⟩ := ih (axis - d) (by omega)
      exact ⟨i + 1, a, by simpa using h1, by simpa using h2, by simp; omega⟩

/-- The functions of `derivatives(axis)` are, away from the tolerance strips, the partial derivatives of the polynomials with
the coefficients `C`. -/
structure Spec.DerRepresents (b : Basis ℝ) (space : Space) (axis : Nat) (ds : List (List ℝ → Py ℝ))
    (C : Matrix (Fin (nodeTuples space).length) (Fin (nodeTuples space).length) ℝ) : Prop where
  derivatives : b.derivatives axis = .ok ds
  length : ds.length = (nodeTuples space).length
  value : ∀ (k : Fin (nodeTuples space).length) (x : List ℝ), RegularFor space x →
    ∃ v, (ds.getD k fun _ => .error .IndexError) x = .ok v ∧
      HasDerivAt (fun t => spacePoly space (C k) (x.set axis t)) v (x.getD axis 0)

set_option maxHeartbeats 1000000 in
theorem der_with (forPN : PNSpace → Basis ℝ) (check : Bool) (space : Space) (shape : Shape) (b : Basis ℝ)
    (hb : basisForSpaceWith forPN check space shape = .ok b)
    (hder : ∀ s ∈ space.flatBases, ∀ gs, (forPN s).gradients = .ok gs → DerPN (forPN s) s gs)
    (hfac : ∀ s ∈ space.flatBases, ∃ fs C gs, (forPN s).functions = .ok fs ∧ SpansPN fs s C ∧ GradPN (forPN s) s gs C)
    (C : Matrix (Fin (nodeTuples space).length) (Fin (nodeTuples space).length) ℝ)
    (gs : List (List ℝ → Py (List ℝ))) (hg : GradRepresents b space gs C) (axis : Nat) (hax : axis < space.spatialDim) :
    ∃ ds, DerRepresents b space axis ds C := by
  rcases basisForSpaceWith_cases forPN check space shape b hb with ⟨s, rfl, rfl⟩ | ⟨hTP, rfl⟩
  · obtain ⟨ds, h1, h2, h3⟩ := hder s (by simp [Space.flatBases]) gs hg.gradients axis hax
    refine ⟨ds, h1, h2.trans hg.length, fun k x hx => ?_⟩
    obtain ⟨v, hv, hl, hd⟩ := hg.value k x hx
    exact ⟨_, h3 k (by rw [hg.length]; exact k.2) x v hx.1 hv hl, hd axis hax⟩
  · have h2 : (space.flatBases.map PNSpace.spatialDim).sum = space.spatialDim := by
      cases space <;> simp_all [Space.isTP, Space.spatialDim]
    have hsd : (space.flatBases.map PNSpace.spaceDim).prod = space.spaceDim := by
      clear hg hder hfac hax
      cases space <;> simp_all [Space.isTP, Space.spaceDim]
    set bases := space.flatBases with hbases
    choose! F C' G hF hS hG using hfac
    have hD : ∀ a s, s ∈ bases → a < s.spatialDim → ∃ ds, (forPN s).derivatives a = .ok ds ∧ ds.length = (G s).length ∧
        ∀ k < (G s).length, ∀ x v, x.length = s.spatialDim → ((G s).getD k fun _ => .error .IndexError) x = .ok v →
          v.length = s.spatialDim → (ds.getD k fun _ => .error .IndexError) x = .ok (v.getD a 0) :=
      fun a s hs ha => hder s hs (G s) (hG s hs).1 a ha
    choose! D hD1 hD2 hD3 using hD
    obtain ⟨i, a, hi, ha, hia⟩ := axis_factor (bases.map PNSpace.spatialDim) axis (by rw [h2]; exact hax)
    have hlen : (bases.map F).map List.length = bases.map PNSpace.spaceDim := by
      rw [List.map_map]
      exact List.map_congr_left fun s hs => (hS s hs).1
    have hglen : (bases.map G).map List.length = bases.map PNSpace.spaceDim := by
      rw [List.map_map]
      exact List.map_congr_left fun s hs => (hG s hs).2.1
    obtain ⟨gs', ds, e1, e2, e3, e4⟩ := C15_derivatives (bases.map forPN) (bases.map PNSpace.spatialDim) (bases.map F) (bases.map G)
      (fun a => bases.map (D a))
      (by
        rw [List.map_map, List.map_map]
        exact List.map_congr_left fun s hs => hF s hs)
      (by
        rw [List.map_map, List.map_map]
        exact List.map_congr_left fun s hs => (hG s hs).1) (by simp) (by rw [hlen, hglen])
      (by
        intro i hi a ha
        simp only [List.length_map] at hi
        have hm := List.getElem_mem hi
        have e4 : (bases.map PNSpace.spatialDim).getD i 0 = bases[i].spatialDim := by simp [List.getD_eq_getElem?_getD, hi]
        rw [e4] at ha
        have e5 : (bases.map (D a)).getD i [] = D a bases[i] := by simp [List.getD_eq_getElem?_getD, hi]
        have e6 : (bases.map F).getD i [] = F bases[i] := by simp [List.getD_eq_getElem?_getD, hi]
        rw [e5, e6]
        refine ⟨?_, by rw [hD2 a _ hm ha, (hG _ hm).2.1, (hS _ hm).1]⟩
        rw [List.getD_eq_getElem?_getD, List.getElem?_eq_getElem (by simpa using hi)]
        simp only [List.getElem_map, Option.getD_some]
        exact hD1 a _ hm ha) i a hi ha
    have : gs' = gs := Except.ok.inj (e1.symm.trans hg.gradients)
    subst this
    rw [← hia] at e2 e4
    refine ⟨ds, e2, e3.trans hg.length, fun k x hx => ?_⟩
    obtain ⟨v, hv, hl, hd⟩ := hg.value k x hx
    refine ⟨v.getD axis 0, ?_, hd axis hax⟩
    have hkg : (k : Nat) < gs'.length := by rw [hg.length]; exact k.2
    have hkd : (k : Nat) < ds.length := by rw [e3]; exact hkg
    have hprod : (k : Nat) < (bases.map PNSpace.spaceDim).prod := by
      rw [hsd, ← length_nodeTuples]
      exact k.2
    have hf : ∀ i (hi : i < bases.length), digit (bases.map PNSpace.spaceDim) k i < bases[i].spaceDim ∧
        Regular bases[i].spatialDim ((slices (bases.map PNSpace.spatialDim) x).getD i []) := by
      intro i hi
      have hpos : 0 < bases[i].spaceDim := by
        refine Nat.pos_of_ne_zero fun h0 => ?_
        have : (bases.map PNSpace.spaceDim).prod = 0 :=
          List.prod_eq_zero (List.mem_map.2 ⟨_, List.getElem_mem hi, h0⟩)
        omega
      constructor
      · have e : (bases.map PNSpace.spaceDim).getD i 1 = bases[i].spaceDim := by
          simp [List.getD_eq_getElem?_getD, hi]
        rw [digit, e]
        exact Nat.mod_lt _ hpos
      · have := (List.forall₂_iff_get.1 hx.2).2 i (by simpa using hi) (by simpa using hi)
        simp only [List.get_eq_getElem, List.getElem_map] at this
        rw [List.getD_eq_getElem?_getD, List.getElem?_eq_getElem (by simpa using hi)]
        exact this
    have hgrad : ∀ i (hi : i < bases.length), ∃ v, ((G bases[i]).getD (digit (bases.map PNSpace.spaceDim) k i)
        fun _ => .error .IndexError) ((slices (bases.map PNSpace.spatialDim) x).getD i []) = .ok v ∧ v.length = bases[i].spatialDim := by
      intro i hi
      obtain ⟨g, g1, g2, -⟩ := (hG _ (List.getElem_mem hi)).2.2 _ (hf i hi).1 _ (hf i hi).2
      exact ⟨g, g1, g2⟩
    choose gr hgr1 hgr2 using hgrad
    obtain ⟨Gv, g1, g2⟩ := e4 k gs'[(k : Nat)] ds[(k : Nat)] (List.getElem?_eq_getElem hkg) (List.getElem?_eq_getElem hkd) x
      (List.ofFn fun i : Fin bases.length => ∑ l ∈ Finset.range bases[i].spaceDim,
        C' bases[i] (digit (bases.map PNSpace.spaceDim) k i) l *
          monomialValue ((nodeTuplesPN bases[i]).getD l []) ((slices (bases.map PNSpace.spatialDim) x).getD i []))
      (List.ofFn fun i : Fin bases.length => gr i i.2) (hx.1.trans h2.symm) (by simp)
      (by
        apply List.ext_getElem
        · simp
        · intro i h1 h2
          simp [hgr2])
      (by
        intro i hi
        simp only [List.length_map] at hi
        have hm := List.getElem_mem hi
        have q1 : (bases.map F).getD i [] = F bases[i] := by simp [List.getD_eq_getElem?_getD, hi]
        have q2 : (bases.map G).getD i [] = G bases[i] := by simp [List.getD_eq_getElem?_getD, hi]
        have q3 : (List.ofFn fun i : Fin bases.length => gr i i.2).getD i [] = gr i hi := by
          simp [List.getD_eq_getElem?_getD, hi]
        have q4 : (bases.map PNSpace.spatialDim).getD i 0 = bases[i].spatialDim := by
          simp [List.getD_eq_getElem?_getD, hi]
        rw [hlen, q1, q2, q3, q4]
        refine ⟨?_, hgr1 i hi, fun a ha => ?_⟩
        · have q6 : ∀ f : Fin bases.length → ℝ, (List.ofFn f).getD i 0 = f ⟨i, hi⟩ := by
            intro f
            simp [List.getD_eq_getElem?_getD, hi]
          rw [(hS _ hm).2.2 _ (hf i hi).1 _ (hf i hi).2, q6]
          rfl
        · have q5 : (bases.map (D a)).getD i [] = D a bases[i] := by simp [List.getD_eq_getElem?_getD, hi]
          rw [q5]
          exact hD3 a _ hm ha _ (by rw [(hG _ hm).2.1]; exact (hf i hi).1) _ _ (regular_length (hf i hi).2) (hgr1 i hi) (hgr2 i hi))
    rw [List.getD_eq_getElem?_getD, List.getElem?_eq_getElem hkg, Option.getD_some] at hv
    rw [g1] at hv
    rw [List.getD_eq_getElem?_getD, List.getElem?_eq_getElem hkd, Option.getD_some, g2, Except.ok.inj hv]

/-- Values, gradients and derivatives of a basis of the library, for spaces without points among their factors. -/
theorem represents_all {space : Space} {shape : Shape} {b : Basis ℝ}
    (hb : orthonormalBasisForSpace space shape = .ok b ∧ (∀ s ∈ space.flatBases, s.spatialDim ≤ 3) ∨
      basisForSpace space shape = .ok b ∨ monomialBasisForSpace space shape = .ok b)
    (hpos : ∀ s ∈ space.flatBases, s.spatialDim ≠ 0) :
    ∃ fs C gs, Represents b space fs C ∧ GradRepresents b space gs C ∧
      ∀ axis < space.spatialDim, ∃ ds, DerRepresents b space axis ds C := by
  rcases hb with ⟨hb, h3⟩ | hb | hb
  · obtain ⟨fs, C, h1, -, h2⟩ := represents_orthonormal space shape b hb h3
    obtain ⟨gs, hgs⟩ := h2 hpos
    refine ⟨fs, C, gs, h1, hgs, der_with orthonormalBasisPN true space shape b hb (fun s _ gs h => der_onb s gs h) ?_ C gs hgs⟩
    intro s hs
    obtain ⟨fs, C, e1, e2, -, e3⟩ := onb_facts s (h3 s hs)
    obtain ⟨gs, e4⟩ := e3 (hpos s hs)
    exact ⟨fs, C, gs, e1, e2, e4⟩
  · obtain ⟨fs, C, h1, -, h2⟩ := represents_basis space shape b hb
    obtain ⟨gs, hgs⟩ := h2 hpos
    refine ⟨fs, C, gs, h1, hgs, der_with basisPN true space shape b hb (fun s _ gs h => der_basis s gs h) ?_ C gs hgs⟩
    intro s hs
    unfold basisPN
    split_ifs with h
    · obtain ⟨fs, C, e1, e2, -, e3⟩ := onb_facts s h
      obtain ⟨gs, e4⟩ := e3 (hpos s hs)
      exact ⟨fs, C, gs, e1, e2, e4⟩
    · obtain ⟨fs, C, e1, e2, gs, e3⟩ := mono_facts s
      exact ⟨fs, C, gs, e1, e2, e3⟩
  · obtain ⟨fs, C, gs, h1, hgs⟩ := represents_monomial space shape b hb
    refine ⟨fs, C, gs, h1, hgs, der_with monomialBasisPN false space shape b hb (fun s _ gs h => der_monomial s gs h) ?_ C gs hgs⟩
    intro s _
    obtain ⟨fs, C, e1, e2, gs, e3⟩ := mono_facts s
    exact ⟨fs, C, gs, e1, e2, e3⟩

end Modepy

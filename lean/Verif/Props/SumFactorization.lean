import Verif.Proofs.TensorLagrange

/-!
# Property C93: operators on tensor product spaces are Kronecker products

Resampling, mass and differentiation matrices of a tensor product space at the nodes of `tensor_product_nodes` have the entries
of the Kronecker product of the matrices of the factors, with the first factor varying fastest.
-/

namespace Modepy
open Spec Matrix NdArray

/-- Entries by natural numbers. -/
noncomputable def Spec.entry {m n : Nat} (A : Matrix (Fin m) (Fin n) ℝ) (i j : Nat) : ℝ :=
  if h : i < m ∧ j < n then A ⟨i, h.1⟩ ⟨j, h.2⟩ else 0

/-- The matrix a call returns. -/
noncomputable def Spec.result {m n : Nat} (A : Py (Matrix (Fin m) (Fin n) ℝ)) : Nat → Nat → ℝ :=
  match A with
  | .ok A => entry A
  | .error _ => fun _ _ => 0

/-- The matrices a call returns, by axis. -/
noncomputable def Spec.results {d m n : Nat} (A : Py (Fin d → Matrix (Fin m) (Fin n) ℝ)) : Nat → Nat → Nat → ℝ :=
  match A with
  | .ok A => fun axis => if h : axis < d then entry (A ⟨axis, h⟩) else fun _ _ => 0
  | .error _ => fun _ _ _ => 0

/-- The columns of an array of nodes for `PN`. -/
noncomputable def Spec.factorNodes (s : PNSpace) (X : NdArray ℝ) (i : Fin (nodeTuples (.pn s)).length) : List ℝ := column X s.spatialDim i

/-- The columns of an array of nodes for the product. -/
noncomputable def Spec.productNodes (bases : List PNSpace) (A : NdArray ℝ) (i : Fin (nodeTuples (.tp bases)).length) : List ℝ :=
  column A (Space.tp bases).spatialDim i

/-- As many regular nodes as the space has dimensions, which determine its polynomials. -/
structure Spec.GoodNodes (s : PNSpace) (X : NdArray ℝ) : Prop where
  shape : X.shape = [s.spatialDim, s.spaceDim]
  regular : ∀ i < s.spaceDim, RegularFor (.pn s) (column X s.spatialDim i)
  unisolvent : UnisolventFor (.pn s) (factorNodes s X)

theorem length_pn (s : PNSpace) : (nodeTuples (.pn s)).length = s.spaceDim := length_nodeTuplesPN s

theorem entry_fin {m n : Nat} (A : Matrix (Fin m) (Fin n) ℝ) (i : Fin m) (j : Fin n) : entry A i j = A i j := by
  simp [entry]

/-- The data of the factors. -/
theorem exists_fac (s : PNSpace) (X : NdArray ℝ) (h : GoodNodes s X) : ∃ F : Fac, F.s = s ∧ F.X = X ∧ F.Ok := by
  obtain ⟨ℓ, C, hℓ, hd⟩ := lagrange_exists _ _ h.unisolvent
  refine ⟨⟨s, X, fun j m => entry (Matrix.of C) j m⟩, rfl, rfl, h.shape, ?_⟩
  intro i hi j hj
  simp only at hi hj
  have hi' : i < (nodeTuples (.pn s)).length := by rwa [length_pn]
  have hj' : j < (nodeTuples (.pn s)).length := by rwa [length_pn]
  have := hd ⟨j, hj'⟩ ⟨i, hi'⟩
  rw [hℓ] at this
  simp only [Fin.mk.injEq] at this
  simp only [Fac.lag]
  rw [show (if i = j then (1 : ℝ) else 0) = if j = i then 1 else 0 by simp only [eq_comm], ← this, ← length_pn, Finset.sum_range, combine]
  refine Finset.sum_congr rfl fun m _ => ?_
  congr 1
  · simp [entry, hj']
  · rw [List.getD_eq_getElem?_getD, List.getElem?_eq_getElem (l := nodeTuplesPN s) m.2]
    rfl

theorem exists_facs (bases : List PNSpace) (As : List (NdArray ℝ)) (h : List.Forall₂ GoodNodes bases As) :
    ∃ L : List Fac, L.map Fac.s = bases ∧ L.map Fac.X = As ∧ (∀ F ∈ L, F.Ok) ∧ ∀ F ∈ L, GoodNodes F.s F.X := by
  induction h with
  | nil => exact ⟨[], by simp⟩
  | @cons s X bases As h _ ih =>
    obtain ⟨L, h1, h2, h3, h4⟩ := ih
    obtain ⟨F, rfl, rfl, hF⟩ := exists_fac s X h
    exact ⟨F :: L, by simp [h1], by simp [h2], by simpa using ⟨hF, h3⟩, by simpa using ⟨h, h4⟩⟩

/-- Columns of a product of arrays. -/
theorem columns_tpX (dims : List Nat) (Bs : List (NdArray ℝ)) (h : List.Forall₂ (fun d B => ∃ p, B.shape = [d, p]) dims Bs)
    (hpos : 0 < dims.sum) :
    ∃ A, tensorProductNodes 0 Bs = .ok A ∧ A.shape = [dims.sum, (Bs.map ncols).prod] ∧ ∀ k < (Bs.map ncols).prod,
      column A dims.sum k = tpX (List.zipWith (fun d B => (ncols B, fun i => column B d i)) dims Bs) k := by
  have h2 : ∀ a ∈ Bs, Is2D a := by
    clear hpos
    induction h with
    | nil => simp
    | cons hb _ ih =>
      intro a ha
      obtain ⟨p, hp⟩ := hb
      rcases List.mem_cons.1 ha with rfl | ha
      · simp [Is2D, rows, ncols, hp]
      · exact ih a ha
  have hrows : Bs.map rows = dims := by
    clear h2 hpos
    induction h with
    | nil => rfl
    | cons hb _ ih =>
      obtain ⟨p, hp⟩ := hb
      simp [ih, rows, hp]
  obtain ⟨A, hA, hsh, hget⟩ := tensorProductNodes_ok 0 Bs h2 (by rw [hrows]; exact hpos)
  refine ⟨A, hA, by rw [hsh, hrows], fun k hk => ?_⟩
  have hc := column_tensorProduct Bs A hget k hk
  rw [hrows] at hc
  rw [hc]
  clear hc hget hsh hA h2 hrows hpos hk
  induction h generalizing k with
  | nil => rfl
  | @cons d B dims Bs hb _ ih =>
    obtain ⟨p, hp⟩ := hb
    simp only [List.map_cons, unravelF_cons, List.zipWith_cons_cons, List.flatten_cons, tpX, ih]
    simp [rows, hp]

/-- Regularity of product nodes. -/
theorem regular_tpX (bases : List PNSpace) (Y : List (Nat × (Nat → List ℝ)))
    (h : List.Forall₂ (fun s y => 0 < y.1 ∧ ∀ i < y.1, RegularFor (.pn s) (y.2 i)) bases Y) (k : Nat) :
    RegularFor (.tp bases) (tpX Y k) := by
  have key : (tpX Y k).length = (bases.map PNSpace.spatialDim).sum ∧
      List.Forall₂ Regular (bases.map PNSpace.spatialDim) (slices (bases.map PNSpace.spatialDim) (tpX Y k)) := by
    induction h generalizing k with
    | nil => exact ⟨rfl, .nil⟩
    | @cons s y bases Y hy _ ih =>
      obtain ⟨p, y⟩ := y
      obtain ⟨h1, h2⟩ := hy.2 _ (Nat.mod_lt k hy.1)
      obtain ⟨i1, i2⟩ := ih (k / p)
      have hl : (y (k % p)).length = s.spatialDim := by simpa [Space.spatialDim, Space.flatBases] using h1
      simp only [Space.flatBases, List.map_cons, List.map_nil, slices] at h2
      obtain - | ⟨h2, -⟩ := h2
      rw [← hl, List.take_length, hl] at h2
      refine ⟨by simp [tpX, hl, i1], ?_⟩
      simp only [tpX, List.map_cons, slices]
      rw [List.take_left' hl, List.drop_left' hl]
      exact .cons h2 i2
  exact ⟨key.1, key.2⟩

/-- What the proofs use of a product of node sets. -/
theorem product_setup (bases : List PNSpace) (As : List (NdArray ℝ)) (h : List.Forall₂ GoodNodes bases As)
    (hpos : 0 < (bases.map PNSpace.spatialDim).sum) :
    ∃ (L : List Fac) (A : NdArray ℝ), L.map Fac.s = bases ∧ L.map Fac.X = As ∧ (∀ F ∈ L, F.Ok) ∧ (∀ F ∈ L, GoodNodes F.s F.X) ∧
      tensorProductNodes 0 As = .ok A ∧ A.shape = [(bases.map PNSpace.spatialDim).sum, (bases.map PNSpace.spaceDim).prod] ∧
      (∀ i, productNodes bases A i = tpX (L.map Fac.nodes) i) ∧
      (∀ i, RegularFor (.tp bases) (productNodes bases A i)) ∧ UnisolventFor (.tp bases) (productNodes bases A) := by
  obtain ⟨L, hs, hX, hok, hgood⟩ := exists_facs bases As h
  obtain ⟨A, hA, hsh, hu⟩ := tensor_unisolvent bases As 0 (h.imp fun s X hg => ⟨hg.shape, hg.unisolvent⟩) hpos
  obtain ⟨A', hA', hsh', hcol⟩ := columns_tpX (bases.map PNSpace.spatialDim) As (by
    rw [List.forall₂_map_left_iff]
    exact h.imp fun s X hg => ⟨_, hg.shape⟩) hpos
  obtain rfl : A = A' := Except.ok.inj (hA.symm.trans hA')
  have hcols : As.map ncols = bases.map PNSpace.spaceDim := by
    rw [← hs, ← hX, List.map_map, List.map_map]
    exact List.map_congr_left fun F hF => by simp [ncols, (hgood F hF).shape]
  have hY : List.zipWith (fun d B => (ncols B, fun i => column B d i)) (bases.map PNSpace.spatialDim) As = L.map Fac.nodes := by
    rw [← hs, ← hX, List.map_map, List.zipWith_map_left, List.zipWith_map_right, List.zipWith_self]
    exact List.map_congr_left fun F hF => by simp [ncols, (hgood F hF).shape, Fac.nodes]
  have hval : ∀ i, productNodes bases A i = tpX (L.map Fac.nodes) i := by
    intro i
    rw [← hY]
    refine hcol i ?_
    rw [hcols]
    exact lt_of_lt_of_eq i.2 (length_nodeTuplesTP bases)
  refine ⟨L, A, hs, hX, hok, hgood, hA, ?_, hval, ?_, hu⟩
  · rw [hsh', hcols]
  · intro i
    rw [hval]
    apply regular_tpX
    rw [← hs, List.forall₂_map_left_iff, List.forall₂_map_right_iff]
    exact List.forall₂_same.2 fun F hF => ⟨spaceDim_pos _, fun i hi => (hgood F hF).regular i hi⟩

theorem lt_prod {bases : List PNSpace} {L : List Fac} (hs : L.map Fac.s = bases) (i : Fin (nodeTuples (.tp bases)).length) :
    (i : Nat) < (L.map fun F => F.s.spaceDim).prod := by
  have : (nodeTuples (.tp bases)).length = (bases.map PNSpace.spaceDim).prod := length_nodeTuplesTP bases
  refine lt_of_lt_of_eq i.2 (this.trans ?_)
  rw [← hs, List.map_map]
  rfl

theorem sum_fin_delta {n : Nat} (f : Fin n → ℝ) (j : Nat) (hj : j < n) :
    ∑ k : Fin n, f k * (if (k : Nat) = j then 1 else 0) = f ⟨j, hj⟩ := by
  rw [Finset.sum_eq_single ⟨j, hj⟩]
  · simp
  · intro k _ hk
    rw [if_neg (fun h => hk (Fin.ext h)), mul_zero]
  · simp

theorem lag_delta {F : Fac} (h : F.Ok) (j : Nat) (hj : j < F.s.spaceDim) (k : Fin (nodeTuples (.pn F.s)).length) :
    F.lag j (factorNodes F.s F.X k) = if (k : Nat) = j then 1 else 0 :=
  h.delta k (lt_of_lt_of_eq k.2 (length_pn _)) j hj

theorem good_regular {s : PNSpace} {X : NdArray ℝ} (h : GoodNodes s X) (i : Fin (nodeTuples (.pn s)).length) :
    RegularFor (.pn s) (factorNodes s X i) := h.regular i (lt_of_lt_of_eq i.2 (length_pn _))

theorem fac_resampling (F : Fac) (h : F.Ok) (hg : GoodNodes F.s F.X) (b : Basis ℝ) (hb : IsBasisOf b (.pn F.s)) {p : Nat}
    (nodes : Fin p → List ℝ) (hn : ∀ i, RegularFor (.pn F.s) (nodes i)) (ls : Bool)
    (pinv : (n : Nat) → Matrix (Fin (nodeTuples (.pn F.s)).length) (Fin n) ℝ → Matrix (Fin n) (Fin (nodeTuples (.pn F.s)).length) ℝ)
    (i : Nat) (hi : i < p) (j : Nat) (hj : j < F.s.spaceDim) :
    result (resamplingMatrixOf b nodes (factorNodes F.s F.X) ls pinv) i j = F.lag j (nodes ⟨i, hi⟩) := by
  obtain ⟨R, hR, hr⟩ := C77_resampling (.pn F.s) b hb nodes (factorNodes F.s F.X) hn (good_regular hg) hg.unisolvent ls pinv
  obtain ⟨c, hc⟩ := lag_spacePoly F j
  have hj' : j < (nodeTuples (.pn F.s)).length := by rwa [length_pn]
  have h1 := hr c ⟨i, hi⟩
  simp only [hc, lag_delta h j hj] at h1
  rw [sum_fin_delta _ j hj'] at h1
  rw [hR, ← h1]
  exact entry_fin R ⟨i, hi⟩ ⟨j, hj'⟩

theorem fac_mass (F : Fac) (h : F.Ok) (hg : GoodNodes F.s F.X) (b : Basis ℝ) (hb : IsOrthonormalBasisOf b (.pn F.s))
    (hd : 1 ≤ F.s.spatialDim ∧ F.s.spatialDim ≤ 3) (i : Nat) (hi : i < F.s.spaceDim) (j : Nat) (hj : j < F.s.spaceDim) :
    result (massMatrixOfBasis b (factorNodes F.s F.X)) i j = Spec.simplexIntegral F.s.spatialDim fun z => F.lag i z * F.lag j z := by
  obtain ⟨M, hM, -, hm⟩ := mass_isOrthonormal hb (by simpa [Space.flatBases] using hd) (factorNodes F.s F.X) (good_regular hg) hg.unisolvent
  obtain ⟨c, hc⟩ := lag_spacePoly F i
  obtain ⟨e, he⟩ := lag_spacePoly F j
  have hi' : i < (nodeTuples (.pn F.s)).length := by rwa [length_pn]
  have hj' : j < (nodeTuples (.pn F.s)).length := by rwa [length_pn]
  have h1 := hm c e
  simp only [hc, he, lag_delta h j hj, lag_delta h i hi] at h1
  simp only [sum_fin_delta _ j hj'] at h1
  simp only [mul_comm (ite _ _ _)] at h1
  rw [sum_fin_delta _ i hi', spaceIntegral_pn] at h1
  rw [hM, ← h1]
  exact entry_fin M ⟨i, hi'⟩ ⟨j, hj'⟩

theorem fac_diff (F : Fac) (h : F.Ok) (hg : GoodNodes F.s F.X) (b : Basis ℝ) (hb : IsBasisOf b (.pn F.s))
    (axis : Nat) (ha : axis < F.s.spatialDim) (i : Nat) (hi : i < F.s.spaceDim) (j : Nat) (hj : j < F.s.spaceDim) :
    results (diffMatricesOf (Space.pn F.s).spatialDim b (factorNodes F.s F.X) (factorNodes F.s F.X)) axis i j =
      F.dlag axis j (column F.X F.s.spatialDim i) := by
  obtain ⟨D, hD, hdd⟩ := diff_isBasisOf hb (by simp only [Space.flatBases, List.mem_singleton, forall_eq]; omega)
    (by simp only [Space.spatialDim]; omega) (factorNodes F.s F.X) (factorNodes F.s F.X) (good_regular hg) (good_regular hg) hg.unisolvent
  obtain ⟨c, hc⟩ := lag_spacePoly F j
  have hi' : i < (nodeTuples (.pn F.s)).length := by rwa [length_pn]
  have hj' : j < (nodeTuples (.pn F.s)).length := by rwa [length_pn]
  have h1 := (hdd c ⟨i, hi'⟩).2 axis ha
  have h2 := F.partialAt axis j ha (factorNodes F.s F.X ⟨i, hi'⟩) (good_regular hg ⟨i, hi'⟩).1
  simp only [hc, lag_delta h j hj] at h1
  have h3 := h1.unique h2
  rw [List.getD_eq_getElem?_getD, List.getElem?_ofFn, dif_pos (show axis < (Space.pn F.s).spatialDim from ha), Option.getD_some,
    sum_fin_delta _ j hj'] at h3
  simp only [hD, results]
  rw [dif_pos (show axis < (Space.pn F.s).spatialDim from ha)]
  exact (entry_fin (D ⟨axis, ha⟩) ⟨i, hi'⟩ ⟨j, hj'⟩).trans h3

/-- **C93 (resampling).**  From the product of node sets `As` to the product of node sets `Bs` with any numbers of nodes,
`resampling_matrix` with any basis of the product space is the Kronecker product of the resampling matrices of the factors. -/
theorem C93_resampling (bases : List PNSpace) (As Bs : List (NdArray ℝ)) (hA : List.Forall₂ GoodNodes bases As)
    (hB : List.Forall₂ (fun s B => ∃ p, 0 < p ∧ B.shape = [s.spatialDim, p] ∧
      ∀ i < p, RegularFor (.pn s) (column B s.spatialDim i)) bases Bs)
    (hpos : 0 < (bases.map PNSpace.spatialDim).sum) (b : Basis ℝ) (hb : IsBasisOf b (.tp bases)) (fb : PNSpace → Basis ℝ)
    (hfb : ∀ s ∈ bases, IsBasisOf (fb s) (.pn s)) (ls : Bool)
    (pinv : (m n : Nat) → Matrix (Fin m) (Fin n) ℝ → Matrix (Fin n) (Fin m) ℝ) :
    ∃ A B R, tensorProductNodes 0 As = .ok A ∧ tensorProductNodes 0 Bs = .ok B ∧
      resamplingMatrixOf b (fun i : Fin (Bs.map ncols).prod => column B (Space.tp bases).spatialDim i) (productNodes bases A) ls (pinv _) = .ok R ∧
      ∀ i j, R i j = kronEntry (List.zipWith (fun (sX : PNSpace × NdArray ℝ) Y => (ncols Y, sX.1.spaceDim,
        result (resamplingMatrixOf (fb sX.1) (fun a : Fin (ncols Y) => column Y sX.1.spatialDim a) (factorNodes sX.1 sX.2) ls (pinv _))))
        (bases.zip As) Bs) i j := by
  obtain ⟨L, A, hs, hX, hok, hgood, hAok, -, hval, hreg, hu⟩ := product_setup bases As hA hpos
  obtain ⟨B, hBok, -, hcol⟩ := columns_tpX (bases.map PNSpace.spatialDim) Bs (by
    rw [List.forall₂_map_left_iff]
    exact hB.imp fun s X ⟨p, h⟩ => ⟨_, h.2.1⟩) hpos
  have hBcol : ∀ i : Fin (Bs.map ncols).prod, column B (Space.tp bases).spatialDim i =
      tpX (List.zipWith (fun s B => (ncols B, fun i => column B s.spatialDim i)) bases Bs) i := by
    intro i
    rw [show (Space.tp bases).spatialDim = (bases.map PNSpace.spatialDim).sum from rfl, hcol i i.2, List.zipWith_map_left]
  have hBreg : ∀ i : Fin (Bs.map ncols).prod, RegularFor (.tp bases) (column B (Space.tp bases).spatialDim i) := by
    intro i
    rw [hBcol]
    apply regular_tpX
    clear hcol hBcol hBok hA hpos hb hfb hs hX hok hgood hAok hval hreg hu i
    induction hB with
    | nil => exact .nil
    | cons h _ ih =>
      obtain ⟨p, hp, hsh, hr⟩ := h
      exact .cons (by simpa [ncols, hsh] using ⟨hp, hr⟩) ih
  obtain ⟨R, hR, hr⟩ := C77_resampling (.tp bases) b hb _ (productNodes bases A) hBreg hreg hu ls (pinv _)
  refine ⟨A, B, R, hAok, hBok, hR, fun i j => ?_⟩
  subst hs hX
  obtain ⟨c, hc⟩ := tpLag_spacePoly L j
  have h1 := hr c i
  rw [hc _ (hBreg i).1, hBcol] at h1
  have h2 : ∀ k, spacePoly (.tp (L.map Fac.s)) c (productNodes (L.map Fac.s) A k) = if (k : Nat) = j then 1 else 0 := by
    intro k
    rw [hc _ (hreg k).1, hval, tpLag_delta L hok k j (lt_prod rfl k) (lt_prod rfl j)]
  simp only [h2] at h1
  rw [sum_fin_delta _ j j.2] at h1
  rw [h1, List.zipWith_map_left, List.zip_map', List.zipWith_map_left, tpLag_tpX L]
  · apply kronEntry_congr
    rw [List.forall₂_map_left_iff] at hB
    replace hfb : ∀ F ∈ L, IsBasisOf (fb F.s) (.pn F.s) := fun F hF => hfb F.s (List.mem_map_of_mem hF)
    clear hcol hBcol hBok hA hpos hb hAok hval hreg hu hBreg hR hr h1 h2 hc c i j R b
    induction hB with
    | nil => exact .nil
    | @cons F Y L Bs h _ ih =>
      obtain ⟨p, hp, hsh, hr⟩ := h
      have hnc : ncols Y = p := by simp [ncols, hsh]
      refine .cons ⟨rfl, rfl, by simpa only [hnc] using hp, spaceDim_pos _, fun i hi j hj => ?_⟩
        (ih (fun G hG => hok G (List.mem_cons_of_mem _ hG)) (fun G hG => hgood G (List.mem_cons_of_mem _ hG))
          fun G hG => hfb G (List.mem_cons_of_mem _ hG))
      exact (fac_resampling F (hok F (by simp)) (hgood F (by simp)) (fb F.s) (hfb F (by simp)) (fun a : Fin (ncols Y) => column Y F.s.spatialDim a)
        (fun a => hr a (by rw [← hnc]; exact a.2)) ls (pinv _) i hi j hj).symm
  · rw [List.forall₂_map_left_iff] at hB
    clear hcol hBcol hBok hA hpos hb hAok hval hreg hu hBreg hR hr h1 h2 hc c i j R b hfb hok hgood
    induction hB with
    | nil => exact .nil
    | @cons F Y L Bs h _ ih =>
      obtain ⟨p, hp, hsh, hr⟩ := h
      have hnc : ncols Y = p := by simp [ncols, hsh]
      exact .cons ⟨by simpa only [hnc] using hp, fun i hi => (hr i (by rw [← hnc]; exact hi)).1⟩ ih

/-- **C93 (mass).**  The mass matrix with any orthonormal basis of the product space is the Kronecker product of those of the factors. -/
theorem C93_mass (bases : List PNSpace) (As : List (NdArray ℝ)) (hA : List.Forall₂ GoodNodes bases As)
    (hpos : 0 < (bases.map PNSpace.spatialDim).sum) (hd : ∀ s ∈ bases, 1 ≤ s.spatialDim ∧ s.spatialDim ≤ 3)
    (b : Basis ℝ) (hb : IsOrthonormalBasisOf b (.tp bases)) (fb : PNSpace → Basis ℝ)
    (hfb : ∀ s ∈ bases, IsOrthonormalBasisOf (fb s) (.pn s)) :
    ∃ A M, tensorProductNodes 0 As = .ok A ∧ massMatrixOfBasis b (productNodes bases A) = .ok M ∧
      ∀ i j, M i j = kronEntry (List.zipWith (fun (s : PNSpace) X => (s.spaceDim, s.spaceDim,
        result (massMatrixOfBasis (fb s) (factorNodes s X)))) bases As) i j := by
  obtain ⟨L, A, hs, hX, hok, hgood, hAok, -, hval, hreg, hu⟩ := product_setup bases As hA hpos
  obtain ⟨M, hM, -, hm⟩ := mass_isOrthonormal hb hd (productNodes bases A) hreg hu
  refine ⟨A, M, hAok, hM, fun i j => ?_⟩
  subst hs hX
  obtain ⟨c, hc⟩ := tpLag_spacePoly L i
  obtain ⟨e, he⟩ := tpLag_spacePoly L j
  have h2 : ∀ k, spacePoly (.tp (L.map Fac.s)) c (productNodes (L.map Fac.s) A k) = if (k : Nat) = i then 1 else 0 := by
    intro k
    rw [hc _ (hreg k).1, hval, tpLag_delta L hok k i (lt_prod rfl k) (lt_prod rfl i)]
  have h3 : ∀ k, spacePoly (.tp (L.map Fac.s)) e (productNodes (L.map Fac.s) A k) = if (k : Nat) = j then 1 else 0 := by
    intro k
    rw [he _ (hreg k).1, hval, tpLag_delta L hok k j (lt_prod rfl k) (lt_prod rfl j)]
  have h1 := hm c e
  simp only [h2, h3] at h1
  simp only [sum_fin_delta _ j j.2] at h1
  simp only [mul_comm (ite _ _ _)] at h1
  rw [sum_fin_delta _ i i.2] at h1
  rw [spaceIntegral_congr _ _ _ (fun x hx => by rw [hc x hx, he x hx]), tpLag_integral] at h1
  rw [List.zipWith_map_left, List.zipWith_map_right, List.zipWith_self]
  refine Eq.trans h1 ?_
  apply kronEntry_congr
  rw [List.forall₂_map_left_iff, List.forall₂_map_right_iff]
  refine List.forall₂_same.2 fun F hF => ⟨rfl, rfl, spaceDim_pos _, spaceDim_pos _, fun i hi j hj => ?_⟩
  exact (fac_mass F (hok F hF) (hgood F hF) (fb F.s) (hfb F.s (List.mem_map_of_mem hF)) (hd F.s (List.mem_map_of_mem hF)) i hi j hj).symm

/-- **C93 (differentiation).**  The differentiation matrix along an axis is that of the factor the axis belongs to, and the
identity on all other factors. -/
theorem C93_differentiation (bases : List PNSpace) (As : List (NdArray ℝ)) (hA : List.Forall₂ GoodNodes bases As)
    (hpos : 0 < (bases.map PNSpace.spatialDim).sum) (hd : ∀ s ∈ bases, 1 ≤ s.spatialDim)
    (b : Basis ℝ) (hb : IsBasisOf b (.tp bases)) (fb : PNSpace → Basis ℝ) (hfb : ∀ s ∈ bases, IsBasisOf (fb s) (.pn s)) :
    ∃ A D, tensorProductNodes 0 As = .ok A ∧
      diffMatricesOf (Space.tp bases).spatialDim b (productNodes bases A) (productNodes bases A) = .ok D ∧
      ∀ axis i j, D axis i j = axisEntry (List.zipWith (fun (s : PNSpace) X => (s.spatialDim, s.spaceDim,
        results (diffMatricesOf (Space.pn s).spatialDim (fb s) (factorNodes s X) (factorNodes s X)))) bases As) axis i j := by
  obtain ⟨L, A, hs, hX, hok, hgood, hAok, -, hval, hreg, hu⟩ := product_setup bases As hA hpos
  obtain ⟨D, hD, hdd⟩ := diff_isBasisOf hb hd hpos.ne' (productNodes bases A) (productNodes bases A) hreg hreg hu
  refine ⟨A, D, hAok, hD, fun axis i j => ?_⟩
  subst hs hX
  obtain ⟨c, hc⟩ := tpLag_spacePoly L j
  have h2 : ∀ k, spacePoly (.tp (L.map Fac.s)) c (productNodes (L.map Fac.s) A k) = if (k : Nat) = j then 1 else 0 := by
    intro k
    rw [hc _ (hreg k).1, hval, tpLag_delta L hok k j (lt_prod rfl k) (lt_prod rfl j)]
  have hsum : (Space.tp (L.map Fac.s)).spatialDim = (L.map fun F => F.s.spatialDim).sum := by
    simp [Space.spatialDim, Space.flatBases, Function.comp_def]
  have h1 := (hdd c i).2 axis axis.2
  have h3 := tpLag_partialAt L axis j (productNodes (L.map Fac.s) A i) ((hreg i).1.trans hsum) (lt_of_lt_of_eq axis.2 hsum)
  have e : (fun t => spacePoly (.tp (L.map Fac.s)) c ((productNodes (L.map Fac.s) A i).set axis t)) =
      fun t => tpLag L j ((productNodes (L.map Fac.s) A i).set axis t) := by
    funext t
    exact hc _ (by rw [List.length_set]; exact (hreg i).1)
  rw [e] at h1
  have h4 := h1.unique h3
  simp only [h2] at h4
  rw [List.getD_eq_getElem?_getD, List.getElem?_ofFn, dif_pos axis.2, Option.getD_some, sum_fin_delta _ j j.2, hval,
    tpD_tpX L hok axis j i (lt_prod rfl i) (lt_prod rfl j)] at h4
  rw [List.zipWith_map_left, List.zipWith_map_right, List.zipWith_self]
  refine Eq.trans h4 ?_
  apply axisEntry_congr
  rw [List.forall₂_map_left_iff, List.forall₂_map_right_iff]
  refine List.forall₂_same.2 fun F hF => ⟨rfl, rfl, spaceDim_pos _, fun a ha i hi j hj => ?_⟩
  exact (fac_diff F (hok F hF) (hgood F hF) (fb F.s) (hfb F.s (List.mem_map_of_mem hF)) a ha i hi j hj).symm

/-- Equispaced nodes of a simplex. -/
theorem good_equispaced (s : PNSpace) (hord : 0 < s.order ∧ s.order ≤ 10 ^ 10) (hd : 1 ≤ s.spatialDim) :
    ∃ X : NdArray ℝ, equispacedNodes (.pn s) (.simplex s.spatialDim) = .ok X ∧ GoodNodes s X := by
  obtain ⟨X, hX, hu⟩ := C62_pn s.spatialDim s.order
  obtain ⟨X', hX', hsh, -⟩ := C04_pn (K := ℝ) s.spatialDim s.order hord.1
  obtain rfl : X = X' := Except.ok.inj (hX.symm.trans hX')
  replace hsh : X.shape = [s.spatialDim, s.spaceDim] := hsh
  refine ⟨X, hX, hsh, ?_, hu⟩
  obtain ⟨A, hA, hreg, -⟩ := equispaced_regular [s] (by simpa using hord) (by simp; omega)
  obtain ⟨A', hA', -, hcol⟩ := columns_tpX [s.spatialDim] [X] (.cons ⟨_, hsh⟩ .nil) (by simp; omega)
  have e : equispacedNodes (K := ℝ) (.tp [s]) (.tp ([s].map PNSpace.spatialDim)) = tensorProductNodes 0 [X] := by
    have : equispacedPN s s.spatialDim = .ok X := hX
    simp [equispacedNodes, Space.spatialDim, Space.flatBases, Shape.dim, Shape.flatBases, this, collect]
  obtain rfl : A = A' := Except.ok.inj (hA.symm.trans (e.trans hA'))
  intro i hi
  have hnc : ncols X = s.spaceDim := by simp [ncols, hsh]
  have hl : (nodeTuples (.tp [s])).length = s.spaceDim := by
    have : (nodeTuples (.tp [s])).length = ([s].map PNSpace.spaceDim).prod := length_nodeTuplesTP [s]
    simpa using this
  have h1 := hreg ⟨i, by rw [hl]; exact hi⟩
  have h2 := hcol i (by simpa [hnc] using hi)
  simp only [List.zipWith_cons_cons, List.zipWith_nil_left, tpX, List.append_nil, hnc, Nat.mod_eq_of_lt hi] at h2
  rw [← h2]
  exact h1

theorem equispaced_factors (bases : List PNSpace) (hord : ∀ s ∈ bases, 0 < s.order ∧ s.order ≤ 10 ^ 10) (hd : ∀ s ∈ bases, 1 ≤ s.spatialDim) :
    ∃ As : List (NdArray ℝ), List.Forall₂ (fun s X => equispacedNodes (.pn s) (.simplex s.spatialDim) = .ok X) bases As ∧
      List.Forall₂ GoodNodes bases As ∧
      equispacedNodes (.tp bases) (.tp (bases.map PNSpace.spatialDim)) = tensorProductNodes 0 As := by
  have key : ∃ As : List (NdArray ℝ), List.Forall₂ (fun s X => equispacedNodes (.pn s) (.simplex s.spatialDim) = .ok X) bases As ∧
      List.Forall₂ GoodNodes bases As ∧ collect (List.zipWith equispacedPN bases (bases.map PNSpace.spatialDim)) = .ok As := by
    induction bases with
    | nil => exact ⟨[], .nil, .nil, rfl⟩
    | cons s bases ih =>
      obtain ⟨As, h1, h2, h3⟩ := ih (fun s hs => hord s (List.mem_cons_of_mem _ hs)) fun s hs => hd s (List.mem_cons_of_mem _ hs)
      obtain ⟨X, hX, hg⟩ := good_equispaced s (hord s (by simp)) (hd s (by simp))
      have : equispacedPN s s.spatialDim = .ok X := hX
      refine ⟨X :: As, .cons hX h1, .cons hg h2, ?_⟩
      simp [collect, this, h3]
  obtain ⟨As, h1, h2, h3⟩ := key
  refine ⟨As, h1, h2, ?_⟩
  have h4 : collect (List.zipWith (equispacedPN (K := ℝ)) (Space.tp bases).flatBases (Shape.tp (bases.map PNSpace.spatialDim)).flatBases) = .ok As := h3
  simp only [equispacedNodes, h4]
  rw [if_neg (by simp [Space.spatialDim, Space.flatBases, Shape.dim]), if_neg (by simp [Space.flatBases, Shape.flatBases])]

/-- **C93 (equispaced nodes).**  For every product of simplices of dimensions one to three and positive orders: the equispaced
nodes of the product are the products of the equispaced nodes of the factors, and the mass and differentiation matrices of
the product with its orthonormal basis are those of the factors with theirs, combined. -/
theorem C93_equispaced (bases : List PNSpace) (hord : ∀ s ∈ bases, 0 < s.order ∧ s.order ≤ 10 ^ 10)
    (hd : ∀ s ∈ bases, 1 ≤ s.spatialDim ∧ s.spatialDim ≤ 3) (hne : bases ≠ []) :
    ∃ (As : List (NdArray ℝ)) (A : NdArray ℝ) (b : Basis ℝ) (fb : PNSpace → Basis ℝ)
      (M : Matrix (Fin (nodeTuples (.tp bases)).length) (Fin (nodeTuples (.tp bases)).length) ℝ)
      (D : Fin (Space.tp bases).spatialDim →
        Matrix (Fin (nodeTuples (.tp bases)).length) (Fin (nodeTuples (.tp bases)).length) ℝ),
      List.Forall₂ (fun s X => equispacedNodes (.pn s) (.simplex s.spatialDim) = .ok X) bases As ∧
      equispacedNodes (.tp bases) (.tp (bases.map PNSpace.spatialDim)) = .ok A ∧
      (∀ s ∈ bases, orthonormalBasisForSpace (.pn s) (.simplex s.spatialDim) = .ok (fb s)) ∧
      orthonormalBasisForSpace (.tp bases) (.tp (bases.map PNSpace.spatialDim)) = .ok b ∧
      massMatrixOfBasis b (productNodes bases A) = .ok M ∧
      diffMatricesOf (Space.tp bases).spatialDim b (productNodes bases A) (productNodes bases A) = .ok D ∧
      ∀ i j,
        M i j = kronEntry (List.zipWith (fun (s : PNSpace) X => (s.spaceDim, s.spaceDim,
          result (massMatrixOfBasis (fb s) (factorNodes s X)))) bases As) i j ∧
        ∀ axis, D axis i j = axisEntry (List.zipWith (fun (s : PNSpace) X => (s.spatialDim, s.spaceDim,
          results (diffMatricesOf (Space.pn s).spatialDim (fb s) (factorNodes s X) (factorNodes s X)))) bases As) axis i j := by
  have hpos : 0 < (bases.map PNSpace.spatialDim).sum := by
    obtain ⟨s, l, rfl⟩ := List.exists_cons_of_ne_nil hne
    have := (hd s (by simp)).1
    simp only [List.map_cons, List.sum_cons]
    omega
  obtain ⟨As, h1, h2, h3⟩ := equispaced_factors bases hord fun s hs => (hd s hs).1
  have hb : ∃ b : Basis ℝ, orthonormalBasisForSpace (.tp bases) (.tp (bases.map PNSpace.spatialDim)) = .ok b := by
    simp only [orthonormalBasisForSpace, basisForSpaceWith]
    rw [if_neg (by simp [Space.spatialDim, Space.flatBases, Shape.dim]), if_neg (by simp [Space.flatBases, Shape.flatBases])]
    exact ⟨_, rfl⟩
  obtain ⟨b, hb⟩ := hb
  have hf : ∀ s : PNSpace, ∃ f : Basis ℝ, orthonormalBasisForSpace (.pn s) (.simplex s.spatialDim) = .ok f := by
    intro s
    simp only [orthonormalBasisForSpace, basisForSpaceWith]
    simp
  choose fb hfb using hf
  obtain ⟨A, M, hA, hM, hm⟩ := C93_mass bases As h2 hpos hd b ⟨_, .inl hb⟩ fb fun s _ => ⟨_, .inl (hfb s)⟩
  obtain ⟨A', D, hA', hD, hdd⟩ := C93_differentiation bases As h2 hpos (fun s hs => (hd s hs).1) b
    ⟨_, .inl ⟨hb, fun s hs => (hd s hs).2⟩⟩ fb fun s hs => ⟨_, .inl ⟨hfb s, by
      simp only [Space.flatBases, List.mem_singleton, forall_eq]
      exact (hd s hs).2⟩⟩
  obtain rfl : A = A' := Except.ok.inj (hA.symm.trans hA')
  exact ⟨As, A, b, fb, M, D, h1, h3.trans hA, fun s _ => hfb s, hb, hM, hD, fun i j => ⟨hm i j, fun axis => hdd axis i j⟩⟩

/-- Non-vacuity: a cubic triangle times a quadratic interval. -/
example := C93_equispaced [⟨2, 3⟩, ⟨1, 2⟩] (by simp) (by simp) (by simp)

/-- The Kronecker product of a `2 × 2` and a `3 × 3` matrix, first factor fastest. -/
example (P Q : Nat → Nat → ℝ) : kronEntry [(2, 2, P), (3, 3, Q)] 3 4 = P 1 0 * Q 1 2 := by
  simp [kronEntry]

/-- Along the axis of the second factor of a triangle times an interval. -/
example (P Q : Nat → Nat → Nat → ℝ) : axisEntry [(2, 10, P), (1, 3, Q)] 2 14 24 = Q 0 1 2 ∧ axisEntry [(2, 10, P), (1, 3, Q)] 2 14 25 = 0 := by
  simp [axisEntry]

/-- Resampling from equispaced nodes of orders `3` and `2` to those of orders `4` and `5`, with `15 · 6` new nodes. -/
example : ∃ As Bs : List (NdArray ℝ), List.Forall₂ GoodNodes [⟨2, 3⟩, ⟨1, 2⟩] As ∧
    List.Forall₂ (fun s B => ∃ p, 0 < p ∧ B.shape = [s.spatialDim, p] ∧
      ∀ i < p, RegularFor (.pn s) (column B s.spatialDim i)) ([⟨2, 3⟩, ⟨1, 2⟩] : List PNSpace) Bs ∧ (Bs.map ncols).prod = 90 := by
  obtain ⟨As, -, h, -⟩ := equispaced_factors [⟨2, 3⟩, ⟨1, 2⟩] (by simp) (by simp)
  obtain ⟨X, -, hX⟩ := good_equispaced ⟨2, 4⟩ (by simp) (by simp)
  obtain ⟨Y, -, hY⟩ := good_equispaced ⟨1, 5⟩ (by simp) (by simp)
  refine ⟨As, [X, Y], h, .cons ⟨_, spaceDim_pos _, hX.shape, fun i hi => hX.regular i hi⟩
    (.cons ⟨_, spaceDim_pos _, hY.shape, fun i hi => hY.regular i hi⟩ .nil), ?_⟩
  simp [ncols, hX.shape, hY.shape]
  decide

end Modepy

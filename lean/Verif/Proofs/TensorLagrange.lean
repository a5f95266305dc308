import Verif.Proofs.ProductUnisolvence
import Verif.Props.MassAlgebra
import Verif.Props.DiffAlgebra
import Verif.Props.WeakForms

/-!
# Lagrange functions of tensor product node sets
-/

namespace Modepy
open Spec Matrix NdArray

/-- A factor of a product space with a node set and coefficients of its Lagrange functions. -/
structure Fac where
  s : PNSpace
  X : NdArray ℝ
  c : Nat → Nat → ℝ

namespace Fac

/-- Lagrange function `j`. -/
noncomputable def lag (F : Fac) (j : Nat) (z : List ℝ) : ℝ :=
  ∑ m ∈ Finset.range F.s.spaceDim, F.c j m * monomialValue ((nodeTuplesPN F.s).getD m []) z

structure Ok (F : Fac) : Prop where
  shape : F.X.shape = [F.s.spatialDim, F.s.spaceDim]
  delta : ∀ i < F.s.spaceDim, ∀ j < F.s.spaceDim, F.lag j (column F.X F.s.spatialDim i) = if i = j then 1 else 0

end Fac

/-- The Lagrange functions of the product. -/
noncomputable def tpLag : List Fac → Nat → List ℝ → ℝ
  | [], _, _ => 1
  | F :: L, k, z => F.lag (k % F.s.spaceDim) (z.take F.s.spatialDim) * tpLag L (k / F.s.spaceDim) (z.drop F.s.spatialDim)

noncomputable def tpC : List Fac → Nat → Nat → ℝ
  | [], _, _ => 1
  | F :: L, k, l => F.c (k % F.s.spaceDim) (l % F.s.spaceDim) * tpC L (k / F.s.spaceDim) (l / F.s.spaceDim)

/-- The nodes of the product, one node map per factor and the number of nodes of each. -/
noncomputable def tpX : List (Nat × (Nat → List ℝ)) → Nat → List ℝ
  | [], _ => []
  | (p, X) :: L, k => X (k % p) ++ tpX L (k / p)

/-- Exponents number `l` of a product space. -/
def tpTuple (bs : List PNSpace) (l : Nat) : List Nat :=
  (List.zipWith (fun (ts : List (List Nat)) j => ts.getD j []) (bs.map nodeTuplesPN) (unravelF (bs.map PNSpace.spaceDim) l)).flatten

theorem tpTuple_cons (s : PNSpace) (bs : List PNSpace) (l : Nat) :
    tpTuple (s :: bs) l = (nodeTuplesPN s).getD (l % s.spaceDim) [] ++ tpTuple bs (l / s.spaceDim) := by
  simp [tpTuple, unravelF_cons]

theorem tp_getElem (bs : List PNSpace) (l : Fin (nodeTuples (.tp bs)).length) : (nodeTuples (.tp bs))[l] = tpTuple bs l := by
  have hlen : (nodeTuples (.tp bs)).length = (bs.map PNSpace.spaceDim).prod := length_nodeTuplesTP bs
  have hj : (l : Nat) < (bs.map PNSpace.spaceDim).prod := by rw [← hlen]; exact l.2
  have hkey : (nodeTuplesTP bs)[(l : Nat)]? = some (tpTuple bs l) := by
    rw [nodeTuplesTP_eq, List.getElem?_map, List.getElem?_range (by rw [size_eq_prod]; exact hj)]
    rfl
  rw [← Option.some_inj, ← hkey]
  exact (List.getElem?_eq_getElem (l := nodeTuplesTP bs) l.2).symm

theorem length_getD_tuples (s : PNSpace) (m : Nat) (hm : m < s.spaceDim) : ((nodeTuplesPN s).getD m []).length = s.spatialDim := by
  have hlt : m < (nodeTuplesPN s).length := by rwa [length_nodeTuplesPN]
  rw [List.getD_eq_getElem?_getD, List.getElem?_eq_getElem hlt, Option.getD_some, ((Pytools.mem_gnitsam _ _ _).1 (List.getElem_mem hlt)).1]

theorem sum_tpC (L : List Fac) (k : Nat) (z : List ℝ) (hz : z.length = (L.map fun F => F.s.spatialDim).sum) :
    ∑ l ∈ Finset.range (L.map fun F => F.s.spaceDim).prod, tpC L k l * monomialValue (tpTuple (L.map Fac.s) l) z = tpLag L k z := by
  induction L generalizing k z with
  | nil => simp [tpC, tpLag, tpTuple, monomialValue]
  | cons F L ih =>
    simp only [List.map_cons, List.sum_cons, List.prod_cons] at hz ⊢
    rw [tpLag, ← ih _ (z.drop F.s.spatialDim) (by simp; omega), Fac.lag, ← sum_range_mul' F.s.spaceDim _
      (fun m => F.c (k % F.s.spaceDim) m * monomialValue ((nodeTuplesPN F.s).getD m []) (z.take F.s.spatialDim))
      (fun l => tpC L (k / F.s.spaceDim) l * monomialValue (tpTuple (L.map Fac.s) l) (z.drop F.s.spatialDim))]
    refine Finset.sum_congr rfl fun l hl => ?_
    have hpos : 0 < F.s.spaceDim := Nat.pos_of_ne_zero fun h0 => by simp [h0] at hl
    rw [tpC, tpTuple_cons]
    conv_lhs => rw [← List.take_append_drop F.s.spatialDim z]
    rw [monomialValue_append _ _ _ _ (by
      rw [length_getD_tuples _ _ (Nat.mod_lt _ hpos), List.length_take]
      omega)]
    ring

/-- The Lagrange functions of the product lie in the product space. -/
theorem tpLag_spacePoly (L : List Fac) (k : Nat) :
    ∃ c, ∀ z : List ℝ, z.length = (Space.tp (L.map Fac.s)).spatialDim → spacePoly (.tp (L.map Fac.s)) c z = tpLag L k z := by
  refine ⟨fun l => tpC L k l, fun z hz => ?_⟩
  rw [← sum_tpC L k z (by rw [hz]; simp [Space.spatialDim, Space.flatBases, Function.comp_def]), spacePoly, combine]
  simp only [tp_getElem]
  have hlen : (nodeTuples (.tp (L.map Fac.s))).length = (L.map fun F => F.s.spaceDim).prod := by
    have : (nodeTuples (.tp (L.map Fac.s))).length = ((L.map Fac.s).map PNSpace.spaceDim).prod := length_nodeTuplesTP _
    rw [this, List.map_map]
    rfl
  rw [← hlen, Finset.sum_range]

/-- The Lagrange functions of one factor lie in its space. -/
theorem lag_spacePoly (F : Fac) (j : Nat) :
    ∃ c, ∀ z : List ℝ, spacePoly (.pn F.s) c z = F.lag j z := by
  refine ⟨fun l => F.c j l, fun z => ?_⟩
  have hlen : (nodeTuples (.pn F.s)).length = F.s.spaceDim := length_nodeTuplesPN _
  rw [Fac.lag, ← hlen, Finset.sum_range, spacePoly, combine]
  refine Finset.sum_congr rfl fun l _ => ?_
  congr 2
  rw [List.getD_eq_getElem?_getD, List.getElem?_eq_getElem (l := nodeTuplesPN F.s) l.2]
  rfl

/-- Kronecker products along mixed-radix indices, the first factor varying fastest: one entry of the product of the matrices
`A` with `p` rows and `n` columns. -/
noncomputable def Spec.kronEntry : List (Nat × Nat × (Nat → Nat → ℝ)) → Nat → Nat → ℝ
  | [], _, _ => 1
  | (p, n, A) :: L, k, l => A (k % p) (l % n) * kronEntry L (k / p) (l / n)

/-- Values of the Lagrange functions of the product at the nodes of another product. -/
theorem tpLag_tpX (L : List Fac) (Y : List (Nat × (Nat → List ℝ)))
    (h : List.Forall₂ (fun F y => 0 < y.1 ∧ ∀ i < y.1, (y.2 i).length = F.s.spatialDim) L Y) (k i : Nat) :
    tpLag L k (tpX Y i) = kronEntry (List.zipWith (fun F y => (y.1, F.s.spaceDim, fun a b => F.lag b (y.2 a))) L Y) i k := by
  induction h generalizing k i with
  | nil => rfl
  | @cons F y L Y hF _ ih =>
    have hl : (y.2 (i % y.1)).length = F.s.spatialDim := hF.2 _ (Nat.mod_lt _ hF.1)
    obtain ⟨p, y⟩ := y
    simp only at hl
    simp only [List.zipWith_cons_cons, kronEntry, tpX, tpLag]
    rw [← hl, List.take_left', List.drop_left', ih]
    · rfl
    · rfl

theorem kronEntry_congr (L : List (Nat × Nat × (Nat → Nat → ℝ))) (L' : List (Nat × Nat × (Nat → Nat → ℝ)))
    (h : List.Forall₂ (fun a b => a.1 = b.1 ∧ a.2.1 = b.2.1 ∧ 0 < a.1 ∧ 0 < a.2.1 ∧ ∀ i < a.1, ∀ j < a.2.1, a.2.2 i j = b.2.2 i j) L L')
    (i j : Nat) : kronEntry L i j = kronEntry L' i j := by
  induction h generalizing i j with
  | nil => rfl
  | @cons a b L L' h _ ih =>
    obtain ⟨p, n, A⟩ := a
    obtain ⟨p', n', B⟩ := b
    obtain ⟨rfl, rfl, h1, h2, h3⟩ := h
    simp only at h1 h2 h3
    simp only [kronEntry]
    rw [ih, h3 _ (Nat.mod_lt _ h1) _ (Nat.mod_lt _ h2)]

/-- A Kronecker product of identities is the identity. -/
theorem kronEntry_one (ns : List Nat) (i j : Nat) (hi : i < ns.prod) (hj : j < ns.prod) :
    kronEntry (ns.map fun n => (n, n, fun a b => if a = b then 1 else 0)) i j = if i = j then 1 else 0 := by
  induction ns generalizing i j with
  | nil =>
    simp only [List.prod_nil, Nat.lt_one_iff] at hi hj
    simp [kronEntry, hi, hj]
  | cons n ns ih =>
    simp only [List.prod_cons] at hi hj
    simp only [List.map_cons, kronEntry]
    rw [ih _ _ (Nat.div_lt_of_lt_mul hi) (Nat.div_lt_of_lt_mul hj)]
    by_cases hac : i = j
    · simp [hac]
    · rw [if_neg hac]
      by_cases h1 : i % n = j % n
      · by_cases h2 : i / n = j / n
        · exact absurd (by rw [← Nat.div_add_mod i n, ← Nat.div_add_mod j n, h1, h2]) hac
        · simp [h2]
      · simp [h1]

/-- Nodes of a factor. -/
noncomputable def Fac.nodes (F : Fac) : Nat × (Nat → List ℝ) := (F.s.spaceDim, fun i => column F.X F.s.spatialDim i)

theorem spaceDim_pos (s : PNSpace) : 0 < s.spaceDim := by
  have := length_nodeTuplesPN s
  rw [← this]
  exact List.length_pos_of_ne_nil (by
    have := nodeTuples_ne (.pn s)
    intro h
    apply this
    simp [nodeTuples, h])

theorem tpLag_delta (L : List Fac) (h : ∀ F ∈ L, F.Ok) (i k : Nat) (hi : i < (L.map fun F => F.s.spaceDim).prod)
    (hk : k < (L.map fun F => F.s.spaceDim).prod) : tpLag L k (tpX (L.map Fac.nodes) i) = if i = k then 1 else 0 := by
  rw [tpLag_tpX L (L.map Fac.nodes), ← kronEntry_one (L.map fun F => F.s.spaceDim) i k hi hk]
  · apply kronEntry_congr
    clear hi hk
    induction L with
    | nil => exact .nil
    | cons F L ih =>
      refine .cons ⟨rfl, rfl, spaceDim_pos _, spaceDim_pos _, ?_⟩ (ih fun F hF => h F (List.mem_cons_of_mem _ hF))
      exact (h F (by simp)).delta
  · rw [List.forall₂_map_right_iff]
    exact List.forall₂_same.2 fun F _ => ⟨spaceDim_pos _, fun i _ => by simp [Fac.nodes, column]⟩

/-! ## Integrals -/

/-- The products of the factors of two Lagrange functions. -/
noncomputable def lagFactors : List Fac → Nat → Nat → List (List ℝ → ℝ)
  | [], _, _ => []
  | F :: L, k, l => (fun z => F.lag (k % F.s.spaceDim) z * F.lag (l % F.s.spaceDim) z) ::
      lagFactors L (k / F.s.spaceDim) (l / F.s.spaceDim)

theorem tpLag_mul (L : List Fac) (k l : Nat) (z : List ℝ) :
    tpLag L k z * tpLag L l z = (List.zipWith (fun (F : List ℝ → ℝ) z => F z) (lagFactors L k l)
      (slices (L.map fun F => F.s.spatialDim) z)).prod := by
  induction L generalizing k l z with
  | nil => simp [tpLag, lagFactors]
  | cons F L ih =>
    simp only [tpLag, lagFactors, List.map_cons, slices, List.zipWith_cons_cons, List.prod_cons, ← ih]
    ring

theorem tpLag_integral (L : List Fac) (k l : Nat) :
    spaceIntegral (.tp (L.map Fac.s)) (fun z => tpLag L k z * tpLag L l z) =
      kronEntry (L.map fun F => (F.s.spaceDim, F.s.spaceDim, fun a b =>
        Spec.simplexIntegral F.s.spatialDim fun z => F.lag a z * F.lag b z)) k l := by
  simp only [tpLag_mul, spaceIntegral, Space.flatBases, List.map_map]
  have hlen : ∀ k l, (lagFactors L k l).length = (L.map fun F => F.s.spatialDim).length := by
    induction L with
    | nil => simp [lagFactors]
    | cons F L ih => intro k l; simp [lagFactors, ih]
  refine (productIntegral_product _ _ (hlen k l)).trans ?_
  clear hlen
  induction L generalizing k l with
  | nil => rfl
  | cons F L ih =>
    simp only [lagFactors, List.map_cons, List.zipWith_cons_cons, List.prod_cons, kronEntry, ← ih]

theorem spaceIntegral_pn (s : PNSpace) (f : List ℝ → ℝ) : spaceIntegral (.pn s) f = Spec.simplexIntegral s.spatialDim f := by
  have h := productIntegral_product [s.spatialDim] [f] rfl
  simp only [List.zipWith_cons_cons, List.zipWith_nil_left, List.prod_cons, List.prod_nil, mul_one] at h
  rw [← h, spaceIntegral]
  simp only [Space.flatBases, List.map_cons, List.map_nil]
  apply productIntegral_congr
  intro x hx
  simp only [List.sum_cons, List.sum_nil, Nat.add_zero] at hx
  simp [slices, ← hx]

/-! ## Derivatives -/

/-- The partial derivative of a Lagrange function. -/
noncomputable def Fac.dlag (F : Fac) (axis j : Nat) (z : List ℝ) : ℝ := deriv (fun t => F.lag j (z.set axis t)) (z.getD axis 0)

theorem Fac.partialAt (F : Fac) (axis j : Nat) (ha : axis < F.s.spatialDim) (z : List ℝ) (hz : z.length = F.s.spatialDim) :
    PartialAt (F.lag j) axis z (F.dlag axis j z) := by
  obtain ⟨c, hc⟩ := lag_spacePoly F j
  obtain ⟨P, -, hv⟩ := spacePoly_polyAt (.pn F.s) (d := F.s.spatialDim) rfl c
  have h := isPartial_polyAt P ⟨axis, ha⟩ z hz
  have e : (fun t => F.lag j (z.set axis t)) = fun t => polyAt P (z.set axis t) := by
    funext t
    rw [← hc, hv _ (by rw [List.length_set]; exact hz)]
  rw [PartialAt, Fac.dlag, e]
  exact h.differentiableAt.hasDerivAt

noncomputable def tpD : List Fac → Nat → Nat → List ℝ → ℝ
  | [], _, _, _ => 0
  | F :: L, axis, k, z =>
      if axis < F.s.spatialDim then
        F.dlag axis (k % F.s.spaceDim) (z.take F.s.spatialDim) * tpLag L (k / F.s.spaceDim) (z.drop F.s.spatialDim)
      else F.lag (k % F.s.spaceDim) (z.take F.s.spatialDim) *
        tpD L (axis - F.s.spatialDim) (k / F.s.spaceDim) (z.drop F.s.spatialDim)

theorem tpLag_partialAt (L : List Fac) (axis k : Nat) (z : List ℝ) (hz : z.length = (L.map fun F => F.s.spatialDim).sum)
    (ha : axis < (L.map fun F => F.s.spatialDim).sum) : PartialAt (tpLag L k) axis z (tpD L axis k z) := by
  induction L generalizing axis k z with
  | nil => simp at ha
  | cons F L ih =>
    simp only [List.map_cons, List.sum_cons] at hz ha
    rw [tpD]
    split_ifs with h
    · have h1 := F.partialAt axis (k % F.s.spaceDim) h (z.take F.s.spatialDim) (by simp; omega)
      have h2 := h1.mul_const (tpLag L (k / F.s.spaceDim) (z.drop F.s.spatialDim))
      rw [PartialAt]
      have e1 : (z.take F.s.spatialDim).getD axis 0 = z.getD axis 0 := by
        simp [List.getD_eq_getElem?_getD, h]
      rw [e1] at h2
      have e : (fun t => tpLag (F :: L) k (z.set axis t)) = fun t => F.lag (k % F.s.spaceDim) ((z.take F.s.spatialDim).set axis t) *
          tpLag L (k / F.s.spaceDim) (z.drop F.s.spatialDim) := by
        funext t
        rw [tpLag, List.take_set, List.drop_set, if_pos h]
      rw [e]
      exact h2
    · have h1 := ih (axis - F.s.spatialDim) (k / F.s.spaceDim) (z.drop F.s.spatialDim) (by simp; omega) (by omega)
      have h2 := h1.const_mul (F.lag (k % F.s.spaceDim) (z.take F.s.spatialDim))
      rw [PartialAt]
      have e1 : (z.drop F.s.spatialDim).getD (axis - F.s.spatialDim) 0 = z.getD axis 0 := by
        simp only [List.getD_eq_getElem?_getD, List.getElem?_drop]
        congr 2
        omega
      rw [e1] at h2
      have e : (fun t => tpLag (F :: L) k (z.set axis t)) = fun t => F.lag (k % F.s.spaceDim) (z.take F.s.spatialDim) *
          tpLag L (k / F.s.spaceDim) ((z.drop F.s.spatialDim).set (axis - F.s.spatialDim) t) := by
        funext t
        rw [tpLag, List.take_set, List.drop_set, if_neg h, List.set_eq_of_length_le (by simp; omega)]
      rw [e]
      exact h2

/-- One entry of the matrix acting with `D` of the factor an axis belongs to, and as the identity in the other factors. -/
noncomputable def Spec.axisEntry : List (Nat × Nat × (Nat → Nat → Nat → ℝ)) → Nat → Nat → Nat → ℝ
  | [], _, _, _ => 0
  | (d, n, D) :: L, axis, i, j =>
      if axis < d then D axis (i % n) (j % n) * (if i / n = j / n then 1 else 0)
      else (if i % n = j % n then 1 else 0) * axisEntry L (axis - d) (i / n) (j / n)

theorem tpD_tpX (L : List Fac) (h : ∀ F ∈ L, F.Ok) (axis k i : Nat) (hi : i < (L.map fun F => F.s.spaceDim).prod)
    (hk : k < (L.map fun F => F.s.spaceDim).prod) :
    tpD L axis k (tpX (L.map Fac.nodes) i) = axisEntry (L.map fun F => (F.s.spatialDim, F.s.spaceDim,
      fun axis a b => F.dlag axis b (column F.X F.s.spatialDim a))) axis i k := by
  induction L generalizing axis k i with
  | nil => rfl
  | cons F L ih =>
    have hF := h F (by simp)
    have hL : ∀ F ∈ L, F.Ok := fun F hF => h F (List.mem_cons_of_mem _ hF)
    simp only [List.map_cons, List.prod_cons] at hi hk
    have hl : (column F.X F.s.spatialDim (i % F.s.spaceDim)).length = F.s.spatialDim := by simp [column]
    simp only [List.map_cons, tpD, axisEntry, Fac.nodes, tpX]
    rw [List.take_left' hl, List.drop_left' hl, ih hL _ _ _ (Nat.div_lt_of_lt_mul hi) (Nat.div_lt_of_lt_mul hk),
      tpLag_delta L hL _ _ (Nat.div_lt_of_lt_mul hi) (Nat.div_lt_of_lt_mul hk),
      hF.delta _ (Nat.mod_lt _ (spaceDim_pos _)) _ (Nat.mod_lt _ (spaceDim_pos _))]

theorem axisEntry_congr (L L' : List (Nat × Nat × (Nat → Nat → Nat → ℝ)))
    (h : List.Forall₂ (fun a b => a.1 = b.1 ∧ a.2.1 = b.2.1 ∧ 0 < a.2.1 ∧
      ∀ axis < a.1, ∀ i < a.2.1, ∀ j < a.2.1, a.2.2 axis i j = b.2.2 axis i j) L L')
    (axis i j : Nat) : axisEntry L axis i j = axisEntry L' axis i j := by
  induction h generalizing axis i j with
  | nil => rfl
  | @cons a b L L' h _ ih =>
    obtain ⟨d, n, A⟩ := a
    obtain ⟨d', n', B⟩ := b
    obtain ⟨rfl, rfl, h1, h3⟩ := h
    simp only at h1 h3
    simp only [axisEntry]
    by_cases h : axis < d
    · rw [if_pos h, if_pos h, h3 _ h _ (Nat.mod_lt _ h1) _ (Nat.mod_lt _ h1)]
    · rw [if_neg h, if_neg h, ih]

end Modepy

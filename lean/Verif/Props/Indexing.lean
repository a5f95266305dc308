import Verif.Proofs.Nodes
import Verif.Proofs.Reshape
import Mathlib.Algebra.Order.Field.Basic
import Mathlib.Tactic.FieldSimp
import Mathlib.Tactic.Positivity
import Mathlib.Data.Rat.Defs
import Mathlib.Algebra.Order.Ring.Rat

/-!
# Properties C01-C05: node tuples, tensor product nodes, DOF reshaping
-/

namespace Modepy

open NdArray

/-! ## C01 -/

/-- The node tuples of `PN(d, n)` are exactly the `d`-tuples of naturals with sum at most `n`. -/
theorem C01_mem (d n : Nat) (t : List Nat) :
    t ∈ nodeTuples (.pn ⟨d, n⟩) ↔ t.length = d ∧ t.sum ≤ n :=
  Pytools.mem_gnitsam d n t

/-- No node tuple is listed twice. -/
theorem C01_nodup (d n : Nat) : (nodeTuples (.pn ⟨d, n⟩)).Nodup := Pytools.nodup_gnitsam d n

/-- Their number is `space_dim = comb(n+d, d)`. -/
theorem C01_length (d n : Nat) :
    (nodeTuples (.pn ⟨d, n⟩)).length = Space.spaceDim (.pn ⟨d, n⟩) ∧
      Space.spaceDim (.pn ⟨d, n⟩) = Nat.choose (n + d) d :=
  ⟨Pytools.length_gnitsam d n, rfl⟩

/-- The enumeration varies the first entry fastest: in dimension `d+1` tuples are sorted by their
last entry, and for a fixed last entry `i` they run through the `d`-dimensional tuples of order
`n - i`, in order. -/
theorem C01_order (d n : Nat) : nodeTuples (.pn ⟨d + 1, n⟩) =
    (List.range (n + 1)).flatMap fun i => (nodeTuples (.pn ⟨d, n - i⟩)).map (· ++ [i]) := rfl

example : nodeTuples (.pn ⟨2, 2⟩) = [[0,0],[1,0],[2,0],[0,1],[1,1],[0,2]] := by decide

/-! ## C02 -/

/-- Membership: exactly the concatenations of one base tuple per base space. -/
theorem C02_mem (bases : List PNSpace) (t : List Nat) :
    t ∈ nodeTuples (.tp bases) ↔ ∃ parts : List (List Nat),
      List.Forall₂ (fun b p => p.length = b.spatialDim ∧ p.sum ≤ b.order) bases parts ∧
      t = parts.flatten := mem_nodeTuplesTP bases t

theorem C02_nodup (bases : List PNSpace) : (nodeTuples (.tp bases)).Nodup :=
  nodup_nodeTuplesTP bases

theorem C02_length (bases : List PNSpace) :
    (nodeTuples (.tp bases)).length = Space.spaceDim (.tp bases) ∧
      Space.spaceDim (.tp bases) =
        (bases.map fun b => Nat.choose (b.order + b.spatialDim) b.spatialDim).prod :=
  ⟨length_nodeTuplesTP bases, rfl⟩

/-- Entry `k` concatenates the base tuples whose indices are the mixed-radix digits of `k`, digit
`0` (the first base) being the least significant. -/
theorem C02_entry (bases : List PNSpace) (k : Nat) (hk : k < Space.spaceDim (.tp bases)) :
    (nodeTuples (.tp bases)).getD k [] = ((List.range bases.length).map fun i =>
      (nodeTuples (.pn (bases.getD i ⟨0, 0⟩))).getD
        (Spec.digit (bases.map PNSpace.spaceDim) k i) []).flatten :=
  getD_nodeTuplesTP bases k hk

/-- `QN(d, n)` is the product of `d` one-dimensional spaces. -/
theorem C02_qn (d n : Nat) : nodeTuples (.qn d n) = nodeTuples (.tp (List.replicate d ⟨1, n⟩)) :=
  rfl

example : nodeTuples (.tp [⟨1, 1⟩, ⟨2, 1⟩]) =
    [[0,0,0],[1,0,0],[0,1,0],[1,1,0],[0,0,1],[1,0,1]] := by decide

/-! ## C03 -/

/-- `tensor_product_nodes` of two-dimensional node arrays: shape and content.  (`0 < Σ dᵢ` is the
branch `dims != 0` of the code.) -/
theorem C03_content {α : Type*} (fv : α) (ns : List (NdArray α))
    (h2 : ∀ a ∈ ns, ∃ d n, a.shape = [d, n])
    (hpos : 0 < (ns.map fun a => a.shape.getD 0 0).sum) :
    ∃ res, tensorProductNodes fv ns = .ok res ∧
      res.shape = [(ns.map fun a => a.shape.getD 0 0).sum,
        (ns.map fun a => a.shape.getD 1 0).prod] ∧
      ∀ (j : Nat) (hj : j < ns.length) (r k : Nat), r < ns[j].shape.getD 0 0 →
        k < (ns.map fun a => a.shape.getD 1 0).prod →
        res.get [((ns.take j).map fun a => a.shape.getD 0 0).sum + r, k] =
          ns[j].get [r, Spec.digit (ns.map fun a => a.shape.getD 1 0) k j] := by
  have h2' : ∀ a ∈ ns, Is2D a := by
    intro a ha
    obtain ⟨d, n, h⟩ := h2 a ha
    simp [Is2D, rows, ncols, h]
  have hrows : (fun a : NdArray α => a.shape.getD 0 0) = rows := by
    funext a; unfold rows; cases a.shape <;> rfl
  have hcols : (fun a : NdArray α => a.shape.getD 1 0) = ncols := by
    funext a; unfold ncols; cases h : a.shape with
    | nil => rfl
    | cons x xs => cases xs <;> rfl
  have hr1 : ∀ a : NdArray α, a.shape.getD 0 0 = rows a := fun a => congrFun hrows a
  rw [hrows, hcols] at *
  simp only [hr1] at *
  exact tensorProductNodes_ok fv ns h2' hpos

/-- Every combination of base nodes appears as a column. -/
theorem C03_all_combinations (ns idx : List Nat) (h : Valid ns idx) :
    ∃ k, k < ns.prod ∧ ∀ i (hi : i < ns.length), Spec.digit ns k i =
      idx[i]'(by rw [h.length]; exact hi) := by
  refine ⟨ravelF ns idx, by rw [← size_eq_prod]; exact ravelF_lt h, ?_⟩
  intro i hi
  rw [← getD_unravelF ns _ i hi, unravelF_ravelF h, List.getD_eq_getElem?_getD,
    List.getElem?_eq_getElem (by rw [h.length]; exact hi)]
  rfl

/-- One-dimensional arrays are accepted and treated as one row. -/
theorem C03_1d {α : Type*} (a : NdArray α) (n : Nat) (h : a.shape = [n]) :
    ∃ b, asNodeset a = .ok b ∧ b.shape = [1, n] ∧ ∀ k, k < n → b.get [0, k] = a.get [k] := by
  unfold asNodeset
  rw [h]
  simp only [reshapeC, h, size_cons, size_nil, Nat.mul_one, Nat.one_mul, if_true]
  refine ⟨_, rfl, rfl, ?_⟩
  intro k hk
  simp [ravelC, unravelC, Nat.mod_eq_of_lt hk]

/-- The degenerate branch: with total dimension zero the result is always one (zero-dimensional)
node, whatever the node counts were; so the column count is the product of the counts only if that
product is one. -/
theorem C03_zero_dim {α : Type*} (fv : α) (ns : List (NdArray α))
    (h2 : ∀ a ∈ ns, ∃ n, a.shape = [0, n]) :
    ∃ res, tensorProductNodes fv ns = .ok res ∧ res.shape = [0, 1] := by
  have h2' : ∀ a ∈ ns, Is2D a := by
    intro a ha
    obtain ⟨n, h⟩ := h2 a ha
    simp [Is2D, rows, ncols, h]
  have hsum : (ns.map rows).sum = 0 := by
    apply List.sum_eq_zero
    intro x hx
    obtain ⟨a, ha, rfl⟩ := List.mem_map.1 hx
    obtain ⟨n, h⟩ := h2 a ha
    simp [rows, h]
  unfold tensorProductNodes
  have hc : collect (ns.map asNodeset) = .ok ns := by
    have := collect_map_of_ok ns asNodeset id (fun a ha => asNodeset_of_is2D (h2' a ha))
    simpa using this
  rw [hc]
  simp only
  obtain ⟨res, hok, hshape, -, -⟩ := tpFill_spec ns.length ns 0 0
    ⟨(ns.map rows).sum :: ns.map ncols, fun _ => fv⟩ h2' (by simp)
  rw [hok]
  simp only
  rw [if_pos hsum]
  unfold reshapeC
  simp only at hshape
  rw [if_pos (by rw [hshape, hsum]; simp)]
  exact ⟨_, rfl, by rw [hsum]⟩

example : ∃ ns : List (NdArray Nat), ns.length = 2 ∧ (∀ a ∈ ns, ∃ d n, a.shape = [d, n]) ∧
    0 < (ns.map fun a => a.shape.getD 0 0).sum :=
  ⟨[⟨[1, 3], fun _ => 0⟩, ⟨[2, 4], fun _ => 1⟩], rfl, by simp, by simp⟩

/-! ## C04 -/

/-- Simplex: node `k` of `equispaced_nodes_for_space(PN(d, n), Simplex(d))` is at
`2 * tuple_k / n - 1`. -/
theorem C04_pn {K : Type*} [Field K] (d n : Nat) (hn : 0 < n) :
    ∃ res : NdArray K, equispacedNodes (.pn ⟨d, n⟩) (.simplex d) = .ok res ∧
      res.shape = [d, Nat.choose (n + d) d] ∧
      ∀ i k, res.get [i, k] =
        2 * ((((nodeTuples (.pn ⟨d, n⟩)).getD k []).getD i 0 : Nat) : K) / (n : K) - 1 := by
  refine ⟨scaledTuples d n (nodeTuplesPN ⟨d, n⟩), ?_, ?_, ?_⟩
  · simp [equispacedNodes, equispacedPN, Nat.pos_iff_ne_zero.1 hn]
  · have := length_nodeTuplesPN ⟨d, n⟩
    simp only [scaledTuples, this]
    rfl
  · intro i k
    simp only [scaledTuples, nodeTuples]
    ring

/-- The nodes lie in the reference simplex: `x_i ≥ -1` and `Σ (x_i + 1) ≤ 2`. -/
theorem C04_pn_in_simplex {K : Type*} [Field K] [LinearOrder K] [IsStrictOrderedRing K]
    (d n : Nat) (hn : 0 < n) (t : List Nat) (ht : t ∈ nodeTuples (.pn ⟨d, n⟩)) :
    (∀ x ∈ t.map fun a => 2 * ((a : Nat) : K) / (n : K) - 1, -1 ≤ x) ∧
    ((t.map fun a => (2 * ((a : Nat) : K) / (n : K) - 1) + 1).sum ≤ 2) := by
  have hn' : (0 : K) < n := by exact_mod_cast hn
  have ht' := ((Pytools.mem_gnitsam _ _ _).1 ht).2
  constructor
  · intro x hx
    obtain ⟨a, _, rfl⟩ := List.mem_map.1 hx
    have : (0 : K) ≤ 2 * (a : K) / n := by positivity
    linarith
  · have hs : (t.map fun a => (2 * ((a : Nat) : K) / (n : K) - 1) + 1).sum =
        2 / n * ((t.sum : Nat) : K) := by
      clear ht ht'
      induction t with
      | nil => simp
      | cons a t ih => simp only [List.map_cons, List.sum_cons, ih]; push_cast; ring
    rw [hs]
    have : ((t.sum : Nat) : K) ≤ n := by exact_mod_cast ht'
    calc 2 / (n : K) * ((t.sum : Nat) : K) ≤ 2 / n * n := by gcongr
      _ = 2 := by field_simp

/-- Tensor products (any base dimensions, any mixture of positive orders): node `k` has, on the
coordinates belonging to base `j`, the value `2 * t / order_j - 1` where `t` is the corresponding
entry of node tuple `k`. -/
theorem C04_tp {K : Type*} [Field K] (bases : List PNSpace)
    (hord : ∀ b ∈ bases, 0 < b.order) (hdim : 0 < (bases.map PNSpace.spatialDim).sum) :
    ∃ res : NdArray K,
      equispacedNodes (.tp bases) (.tp (bases.map PNSpace.spatialDim)) = .ok res ∧
      res.shape = [(bases.map PNSpace.spatialDim).sum, Space.spaceDim (.tp bases)] ∧
      ∀ (j : Nat) (hj : j < bases.length) (r k : Nat), r < bases[j].spatialDim →
        k < Space.spaceDim (.tp bases) →
        res.get [((bases.take j).map PNSpace.spatialDim).sum + r, k] =
          2 * ((((nodeTuples (.tp bases)).getD k []).getD
            (((bases.take j).map PNSpace.spatialDim).sum + r) 0 : Nat) : K)
              / (bases[j].order : K) - 1 := by
  have hz : List.zipWith (equispacedPN (K := K)) bases (bases.map PNSpace.spatialDim) =
      bases.map (fun b => .ok (scaledTuples b.spatialDim b.order (nodeTuplesPN b))) := by
    rw [List.zipWith_map_right, List.zipWith_self]
    apply List.map_congr_left
    intro b hb
    have := hord b hb
    simp [equispacedPN, Nat.pos_iff_ne_zero.1 this]
  have hc := collect_map_of_ok bases
    (fun b => (.ok (scaledTuples (K := K) b.spatialDim b.order (nodeTuplesPN b)) : Py _)) _
    (fun b _ => rfl)
  have he : equispacedNodes (K := K) (.tp bases) (.tp (bases.map PNSpace.spatialDim)) =
      tensorProductNodes 0
        (bases.map fun b => scaledTuples b.spatialDim b.order (nodeTuplesPN b)) := by
    unfold equispacedNodes
    simp only [Space.flatBases, Shape.flatBases, hz, hc, List.length_map]
    simp [Space.spatialDim, Shape.dim, Space.flatBases]
  rw [he]
  have hrows : (rows ∘ fun b : PNSpace => scaledTuples (K := K) b.spatialDim b.order
      (nodeTuplesPN b)) = PNSpace.spatialDim := by
    funext b; simp [rows, scaledTuples]
  have hcols : (ncols ∘ fun b : PNSpace => scaledTuples (K := K) b.spatialDim b.order
      (nodeTuplesPN b)) = PNSpace.spaceDim := by
    funext b; simp [ncols, scaledTuples, length_nodeTuplesPN]
  obtain ⟨res, hok, hshape, hget⟩ := tensorProductNodes_ok (0 : K)
    (bases.map fun b => scaledTuples b.spatialDim b.order (nodeTuplesPN b))
    (by
      intro a ha
      obtain ⟨b, _, rfl⟩ := List.mem_map.1 ha
      simp [Is2D, rows, ncols, scaledTuples])
    (by rw [List.map_map, hrows]; exact hdim)
  rw [List.map_map, List.map_map, hrows, hcols] at hshape
  refine ⟨res, hok, hshape, ?_⟩
  intro j hj r k hr hk
  have := hget j (by simpa using hj) r k (by simpa [rows, scaledTuples] using hr) (by
    rw [List.map_map, hcols]; exact hk)
  rw [← List.map_take, List.map_map, hrows, List.map_map, hcols] at this
  rw [this, List.getElem_map]
  have hkk := C02_entry bases k hk
  have hflat : ((nodeTuples (.tp bases)).getD k []).getD
      (((bases.take j).map PNSpace.spatialDim).sum + r) 0 =
      ((nodeTuplesPN bases[j]).getD (Spec.digit (bases.map PNSpace.spaceDim) k j) []).getD r 0 := by
    rw [hkk]
    set L := (List.range bases.length).map fun i =>
      (nodeTuples (.pn (bases.getD i ⟨0, 0⟩))).getD
        (Spec.digit (bases.map PNSpace.spaceDim) k i) [] with hL
    have hdig : ∀ i (hi : i < bases.length),
        Spec.digit (bases.map PNSpace.spaceDim) k i < (nodeTuplesPN bases[i]).length := by
      intro i hi
      have hv := valid_unravelF (s := bases.map PNSpace.spaceDim) (k := k)
        (by rw [size_eq_prod]; exact hk)
      have h1 := hv.getElem i (by simpa using hi)
      have h2 := getD_unravelF (bases.map PNSpace.spaceDim) k i (by simpa using hi)
      rw [List.getD_eq_getElem?_getD, List.getElem?_eq_getElem (by simpa using hi)] at h2
      simp only [Option.getD_some] at h2
      rw [h2] at h1
      rw [length_nodeTuplesPN]
      simpa using h1
    have hLi : ∀ i (hi : i < bases.length) (hi' : i < L.length), L[i] =
        (nodeTuplesPN bases[i]).getD (Spec.digit (bases.map PNSpace.spaceDim) k i) [] := by
      intro i hi hi'
      simp [hL, nodeTuples, List.getElem?_eq_getElem hi]
    have hLlen : ∀ i (hi : i < bases.length) (hi' : i < L.length),
        L[i].length = bases[i].spatialDim := by
      intro i hi hi'
      rw [hLi i hi hi', List.getD_eq_getElem?_getD, List.getElem?_eq_getElem (hdig i hi)]
      exact ((Pytools.mem_gnitsam _ _ _).1 (List.getElem_mem (hdig i hi))).1
    have hLl : L.length = bases.length := by simp [hL]
    have hmap : (L.take j).map List.length = (bases.take j).map PNSpace.spatialDim := by
      apply List.ext_getElem
      · simp [hLl]
      · intro i h1 h2
        simp only [List.length_map, List.length_take] at h1 h2
        simp only [List.getElem_map, List.getElem_take]
        exact hLlen i (by omega) (by omega)
    have := getD_flatten L j r (by omega) (by rw [hLlen j hj (by omega)]; exact hr)
    rw [hmap] at this
    rw [this, hLi j hj (by omega)]
  rw [hflat]
  simp only [scaledTuples]
  ring

example : ∃ bases : List PNSpace, (∀ b ∈ bases, 0 < b.order) ∧
    0 < (bases.map PNSpace.spatialDim).sum ∧ bases = [⟨2, 3⟩, ⟨1, 5⟩] := by simp

/-- Mismatched classes and dimensions are rejected. -/
theorem C04_errors {K : Type*} [Field K] (s : PNSpace) (bs : List Nat) (sp : List PNSpace) (d : Nat) :
    equispacedNodes (K := K) (.pn s) (.tp bs) = .error .NotImplementedError ∧
    equispacedNodes (K := K) (.tp sp) (.simplex d) = .error .NotImplementedError ∧
    (s.spatialDim ≠ d → equispacedNodes (K := K) (.pn s) (.simplex d) = .error .ValueError) := by
  refine ⟨rfl, rfl, fun h => ?_⟩
  simp [equispacedNodes, equispacedPN, h]

/-! ## C05 -/

/-- When `reshape` succeeds: what was requested was legal (an axis in range, possibly negative, of
the right length). -/
theorem C05_ok_iff {α : Type*} (space : Space) (hTP : space.isTP = true) (ary : NdArray α)
    (axis : Int) :
    (∃ r, reshapeForTP space ary axis = .ok r) ↔
      ∃ ax : Nat, ∃ h : ax < ary.shape.length,
        (axis = ax ∨ axis = (ax : Int) - ary.shape.length) ∧ ary.shape[ax] = space.spaceDim := by
  constructor
  · rintro ⟨r, hr⟩
    unfold reshapeForTP at hr
    rw [if_neg (by simp [hTP])] at hr
    simp only at hr
    split_ifs at hr with h1 h2 h3 h4 h5
    · refine ⟨(axis + ary.shape.length).toNat, by omega, ?_, ?_⟩
      · right; omega
      · have : (axis + ary.shape.length).toNat < ary.shape.length := by omega
        simpa [List.getD_eq_getElem?_getD, List.getElem?_eq_getElem this] using h3
    · refine ⟨axis.toNat, by omega, ?_, ?_⟩
      · left; omega
      · have : axis.toNat < ary.shape.length := by omega
        simpa [List.getD_eq_getElem?_getD, List.getElem?_eq_getElem this] using h5
  · rintro ⟨ax, h, haxis, hlen⟩
    obtain ⟨res, hok, -⟩ := reshapeForTP_ok space hTP ary axis ax h haxis hlen
    exact ⟨res, hok⟩

/-- Content: in the reshaped array, the entry at the mixed-radix digits of `k` (over the base space
dimensions, first base least significant) is the entry `k` of the original axis. -/
theorem C05_content {α : Type*} (space : Space) (hTP : space.isTP = true) (ary : NdArray α)
    (axis : Int) (ax : Nat) (hax : ax < ary.shape.length)
    (haxis : axis = ax ∨ axis = (ax : Int) - ary.shape.length)
    (hlen : ary.shape[ax] = space.spaceDim) :
    ∃ res, reshapeForTP space ary axis = .ok res ∧
      res.shape = ary.shape.take ax ++ space.flatBases.map PNSpace.spaceDim
          ++ ary.shape.drop (ax + 1) ∧
      ∀ i1 k i2, Valid (ary.shape.take ax) i1 → k < space.spaceDim →
        Valid (ary.shape.drop (ax+1)) i2 →
        res.get (i1 ++ (List.range space.flatBases.length).map
            (Spec.digit (space.flatBases.map PNSpace.spaceDim) k) ++ i2) =
          ary.get (i1 ++ k :: i2) := by
  obtain ⟨res, hok, hsh, hget⟩ := reshapeForTP_ok space hTP ary axis ax hax haxis hlen
  refine ⟨res, hok, hsh, ?_⟩
  intro i1 k i2 h1 hk h2
  have hk' : k < size (space.flatBases.map PNSpace.spaceDim) := by
    rwa [← spaceDim_of_isTP hTP]
  have := hget i1 _ i2 h1 (valid_unravelF hk') h2
  rw [ravelF_unravelF hk', unravelF_eq_map_digit, List.length_map] at this
  exact this

/-- Round trip: un-reshaping what `reshape` returned, with the same axis, gives back the array. -/
theorem C05_roundtrip {α : Type*} (space : Space) (ary : NdArray α) (axis : Int) (r : NdArray α)
    (hr : reshapeForTP space ary axis = .ok r) :
    ∃ u, unreshapeForTP space r axis = .ok u ∧ u.Same ary := by
  by_cases hTP : space.isTP = true
  · obtain ⟨ax, hax, haxis, hlen⟩ := (C05_ok_iff space hTP ary axis).1 ⟨r, hr⟩
    obtain ⟨res, hok, hsh, hget⟩ := reshapeForTP_ok space hTP ary axis ax hax haxis hlen
    rw [hok] at hr
    obtain rfl : res = r := by injection hr
    have hsplit : ary.shape = ary.shape.take ax ++ ary.shape[ax] :: ary.shape.drop (ax + 1) := by
      rw [List.getElem_cons_drop]; exact (List.take_append_drop ax _).symm
    obtain ⟨u, huok, hush, huget⟩ := unreshapeForTP_ok space hTP res axis _ _ hsh (by
      simp only [List.length_take, List.length_drop]
      rcases haxis with h | h
      · left; omega
      · right; omega)
    refine ⟨u, huok, ?_, ?_⟩
    · rw [hush, ← hlen, ← hsplit]
    · intro idx hidx
      rw [hush] at hidx
      have hl := hidx.length
      have hi : idx = idx.take ax ++ idx.drop ax := (List.take_append_drop ax idx).symm
      have hlt : (idx.take ax).length = (ary.shape.take ax).length := by
        simp at hl ⊢; omega
      rw [hi, valid_append hlt] at hidx
      cases hd : idx.drop ax with
      | nil => rw [hd] at hidx; exact absurd hidx.2 (by simp)
      | cons k i2 =>
        rw [hd] at hidx
        obtain ⟨h1, hk, h2⟩ := hidx
        rw [hi, hd, huget _ _ _ h1 hk h2]
        have hk' : k < size (space.flatBases.map PNSpace.spaceDim) := by
          rwa [← spaceDim_of_isTP hTP]
        rw [hget _ _ _ h1 (valid_unravelF hk') h2, ravelF_unravelF hk']
  · have hTP' : space.isTP = false := by simpa using hTP
    refine ⟨ary, ?_, rfl, fun _ _ => rfl⟩
    have : r = ary := by
      unfold reshapeForTP at hr
      rw [if_pos hTP'] at hr
      injection hr with h
      exact h.symm
    subst this
    unfold unreshapeForTP
    rw [if_pos hTP']

/-- Reshaped axis `j` is the axis of base space `j`: entry `(i_1, .., i_m)` of a reshaped vector of
values at the tensor product nodes belongs to the node whose coordinates on base `j` are those of
base node `i_j` (combines C03 and C05). -/
theorem C05_axes_are_node_axes {α : Type*} (fv : α) (bases : List PNSpace)
    (nodesets : List (NdArray α))
    (hsh : List.Forall₂ (fun (b : PNSpace) (a : NdArray α) => ∃ d, a.shape = [d, b.spaceDim])
      bases nodesets)
    (hpos : 0 < (nodesets.map fun a => a.shape.getD 0 0).sum)
    (k : Nat) (hk : k < Space.spaceDim (.tp bases)) :
    ∃ nodes, tensorProductNodes fv nodesets = .ok nodes ∧
      ∀ {β : Type} (u : NdArray β), u.shape = [Space.spaceDim (.tp bases)] →
      ∃ v, reshapeForTP (.tp bases) u 0 = .ok v ∧
        ∃ idx : List Nat, idx.length = bases.length ∧ v.get idx = u.get [k] ∧
        ∀ (j : Nat) (hj : j < nodesets.length) (r : Nat), r < nodesets[j].shape.getD 0 0 →
          nodes.get [((nodesets.take j).map fun a => a.shape.getD 0 0).sum + r, k] =
            nodesets[j].get [r, idx.getD j 0] := by
  have h2 : ∀ a ∈ nodesets, ∃ d n, a.shape = [d, n] := by
    intro a ha
    obtain ⟨i, hi, rfl⟩ := List.getElem_of_mem ha
    obtain ⟨d, h⟩ := (List.forall₂_iff_get.1 hsh).2 i (by rw [hsh.length_eq]; exact hi) hi
    exact ⟨d, _, h⟩
  have hn : (nodesets.map fun a => a.shape.getD 1 0) = bases.map PNSpace.spaceDim := by
    clear hpos h2 hk
    induction hsh with
    | nil => rfl
    | @cons b a bs as h _ ih =>
      obtain ⟨d, h⟩ := h
      simp only [List.map_cons, h, ih]
      rfl
  obtain ⟨nodes, hok, -, hget⟩ := C03_content fv nodesets h2 hpos
  refine ⟨nodes, hok, ?_⟩
  intro β u hu
  obtain ⟨v, hv, -, hvget⟩ := C05_content (.tp bases) rfl u 0 0 (by simp [hu]) (Or.inl rfl)
    (by simp [hu])
  refine ⟨v, hv, (List.range bases.length).map (Spec.digit (bases.map PNSpace.spaceDim) k),
    by simp, ?_, ?_⟩
  · have := hvget [] k [] (by simp) hk (by simp [hu])
    simpa [Space.flatBases] using this
  · intro j hj r hr
    rw [hget j hj r k hr (by rw [hn]; exact hk), hn]
    have hj' : j < bases.length := by rw [hsh.length_eq]; exact hj
    congr 2
    simp [hj']

example : ∃ (space : Space) (u : NdArray Nat) (r : NdArray Nat), space.isTP = true ∧
    u.shape = [7, 6, 5] ∧ reshapeForTP space u (-2) = .ok r ∧ r.shape = [7, 2, 3, 5] :=
  ⟨.tp [⟨1, 1⟩, ⟨2, 1⟩], ⟨[7, 6, 5], fun _ => 0⟩, _, rfl, rfl, rfl, by decide⟩

end Modepy

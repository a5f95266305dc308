import Verif.Model.EdgeClustered
import Verif.Proofs.ProductUnisolvence
import Verif.Props.DiffPermutation
import Verif.Proofs.WarpUnisolvence
import Verif.Props.WarpBlend
import Mathlib.LinearAlgebra.Vandermonde

/-!
# Properties C70 and C71: product node sets and edge-clustered nodes
-/

namespace Modepy
open Spec NdArray

/-! ## C70: tensor products of unisolvent node sets -/

/-- **C70.**  `tensor_product_nodes` of node sets each of which determines the functions of its `PN` space (of any
dimensions, any node positions) determines the functions of the tensor product space. -/
theorem C70_product (bases : List PNSpace) (As : List (NdArray ℝ)) (fv : ℝ)
    (h : List.Forall₂ (fun b A => A.shape = [b.spatialDim, b.spaceDim] ∧
      Unisolvent (fun j : Fin (nodeTuples (.pn b)).length => monomialValue (nodeTuples (.pn b))[j])
        (fun i : Fin (nodeTuples (.pn b)).length => column A b.spatialDim i)) bases As)
    (hdim : 0 < (bases.map PNSpace.spatialDim).sum) :
    ∃ A, tensorProductNodes fv As = .ok A ∧
      A.shape = [(bases.map PNSpace.spatialDim).sum, Space.spaceDim (.tp bases)] ∧
      Unisolvent (fun j : Fin (nodeTuples (.tp bases)).length => monomialValue (nodeTuples (.tp bases))[j])
        (fun i : Fin (nodeTuples (.tp bases)).length => column A (bases.map PNSpace.spatialDim).sum i) :=
  tensor_unisolvent bases As fv h hdim

/-- Distinct points on the line are unisolvent for the polynomials of degree one less than their number. -/
theorem unisolvent_line (n : Nat) (A : NdArray ℝ)
    (hinj : ∀ j k, j ≤ n → k ≤ n → A.get [0, j] = A.get [0, k] → j = k) : UnisolventPN ⟨1, n⟩ A := by
  have hT : nodeTuples (.pn ⟨1, n⟩) = (List.range (n + 1)).map fun i => [i] := gnitsam_one n
  have hlen : (nodeTuples (.pn ⟨1, n⟩)).length = n + 1 := by rw [hT]; simp
  have hv : HasLeftInv (n + 1) fun i j => (A.get [0, i]) ^ j := by
    refine leftInv_of_unisolvent (X := ℝ) (fun (j : Fin (n + 1)) x => x ^ (j : Nat))
      (fun i : Fin (n + 1) => A.get [0, (i : Nat)]) _ (fun i j => rfl) ?_
    rw [unisolvent_iff_det]
    have : vandermonde (fun (j : Fin (n + 1)) (x : ℝ) => x ^ (j : Nat)) (fun i : Fin (n + 1) => A.get [0, (i : Nat)]) =
        Matrix.vandermonde fun i : Fin (n + 1) => A.get [0, (i : Nat)] := by
      ext i j
      rfl
    rw [this, Matrix.det_vandermonde_ne_zero_iff]
    intro i j hij
    exact Fin.ext (hinj i j (by omega) (by omega) hij)
  rw [UnisolventPN]
  refine unisolvent_of_leftInv _ _ (fun i j => (A.get [0, i]) ^ j) ?_ (by rw [hlen]; exact hv)
  intro i j
  have hj : (nodeTuples (.pn ⟨1, n⟩))[j] = [(j : Nat)] := by
    rw [← Option.some_inj]
    have h1 : (nodeTuples (.pn ⟨1, n⟩))[(j : Nat)]? = some (nodeTuples (.pn ⟨1, n⟩))[j] := List.getElem?_eq_getElem j.2
    rw [← h1]
    obtain ⟨j, hj⟩ := j
    simp only
    rw [hT, List.getElem?_map, List.getElem?_range (by rw [← hlen]; exact hj)]
    rfl
  rw [hj]
  simp [monomialValue, column]

/-- The product of `d` copies of a set of `n + 1` distinct points on the line. -/
theorem product_line (dims n : Nat) (hd : 0 < dims) (B : NdArray ℝ) (hB : size B.shape = n + 1) (x : Fin (n + 1) → ℝ)
    (hx : ∀ k : Fin (n + 1), B.get (unravelC B.shape k) = x k) (hinj : Function.Injective x) :
    ∃ A, tensorProductNodesInt 0 dims (some B) = .ok A ∧ A.shape = [dims, (n + 1) ^ dims] ∧
      (∀ i k, i < dims → k < (n + 1) ^ dims →
        A.get [i, k] = x ⟨k / (n + 1) ^ i % (n + 1), Nat.mod_lt _ (Nat.succ_pos n)⟩) ∧
      Unisolvent (fun j : Fin (nodeTuples (.qn dims n)).length => monomialValue (nodeTuples (.qn dims n))[j])
        (fun i : Fin (nodeTuples (.qn dims n)).length => column A dims i) := by
  obtain ⟨C, hC, hCs, hCg⟩ : ∃ C, reshapeC B [1, size B.shape] = .ok C ∧ C.shape = [1, n + 1] ∧
      ∀ k : Fin (n + 1), C.get [0, (k : Nat)] = x k := by
    refine ⟨_, by rw [reshapeC, if_pos (by simp)], by simp [hB], ?_⟩
    intro k
    rw [← hx k]
    simp [ravelC]
  have hset : ∀ k (hk : k < n + 1), C.get [0, k] = x ⟨k, hk⟩ := fun k hk => hCg ⟨k, hk⟩
  have hu : UnisolventPN ⟨1, n⟩ C := by
    refine unisolvent_line n C fun j k hj hk h => ?_
    rw [hset j (by omega), hset k (by omega)] at h
    simpa using hinj h
  have hsd : PNSpace.spaceDim ⟨1, n⟩ = n + 1 := by simp [PNSpace.spaceDim]
  have hsum : ((List.replicate dims (⟨1, n⟩ : PNSpace)).map PNSpace.spatialDim).sum = dims := by simp
  have hall : List.Forall₂ (fun b A => A.shape = [b.spatialDim, b.spaceDim] ∧ UnisolventPN b A)
      (List.replicate dims ⟨1, n⟩) (List.replicate dims C) := by
    clear hd hsum
    induction dims with
    | zero => simp
    | succ d ih => exact .cons ⟨by rw [hCs, hsd], hu⟩ ih
  obtain ⟨A, hA, hAs, hAu⟩ := tensor_unisolvent _ _ (0 : ℝ) hall (by rw [hsum]; exact hd)
  rw [hsum] at hAs hAu
  have hshape : A.shape = [dims, (n + 1) ^ dims] := by
    rw [hAs]; simp [Space.spaceDim, Space.flatBases, hsd]
  refine ⟨A, by simp only [tensorProductNodesInt, hC, hA], hshape, ?_, hAu⟩
  obtain ⟨A', hA', -, hget⟩ := C03_content (0 : ℝ) (List.replicate dims C)
    (fun a ha => ⟨1, n + 1, by rw [List.eq_of_mem_replicate ha, hCs]⟩) (by simp [hCs]; exact hd)
  rw [hA] at hA'
  injection hA' with hA'
  subst hA'
  intro i k hi hk
  have hcnt : (List.replicate dims C).map (fun a => a.shape.getD 1 0) = List.replicate dims (n + 1) := by
    simp [hCs]
  have := hget i (by simpa using hi) 0 k (by simp [hCs]) (by rw [hcnt]; simpa using hk)
  rw [hcnt] at this
  have e1 : (((List.replicate dims C).take i).map fun a => a.shape.getD 0 0).sum + 0 = i := by
    simp [hCs, List.take_replicate, Nat.min_eq_left hi.le]
  rw [e1] at this
  have e2 : Spec.digit (List.replicate dims (n + 1)) k i = k / (n + 1) ^ i % (n + 1) := by
    simp [Spec.digit, List.take_replicate, Nat.min_eq_left hi.le, hi]
  rw [this, e2, List.getElem_replicate]
  exact hset _ (Nat.mod_lt _ (Nat.succ_pos n))

theorem gaussParams_zero : GaussParams 0 0 := by
  refine ⟨by norm_num, by norm_num, by norm_num, fun h => ?_⟩
  have := h.1
  rw [abs_of_pos (by norm_num)] at this
  norm_num at this

theorem addDimAxis_get {n : Nat} (x : Fin n → ℝ) (k : Fin n) :
    (ofFn x).addDimAxis.get (unravelC (ofFn x).addDimAxis.shape k) = x k := by
  obtain ⟨k, hk⟩ := k
  simp [NdArray.addDimAxis, ofFn, unravelC, Nat.mod_eq_of_lt hk, hk]

/-- **C70 (Gauss-Legendre products).**  `legendre_gauss_tensor_product_nodes(d, n)` is the grid of the Gauss-Legendre
nodes - strictly inside the cube - and determines the functions of `QN(d, n)`. -/
theorem C70_legendre_gauss (ext : Ext) (hext : ext.EighOk) (dims n : Nat) (hd : 0 < dims) :
    ∃ A x, legendreGaussTensorProductNodes ext dims n = .ok A ∧ A.shape = [dims, (n + 1) ^ dims] ∧
      StrictMono x ∧ (∀ i, -1 < x i ∧ x i < 1) ∧
      (∃ q, legendreGaussQuadrature ext n .builtin false = .ok q ∧ q.nodes = ofFn x) ∧
      (∀ i k, i < dims → k < (n + 1) ^ dims →
        A.get [i, k] = x ⟨k / (n + 1) ^ i % (n + 1), Nat.mod_lt _ (Nat.succ_pos n)⟩) ∧
      Unisolvent (fun j : Fin (nodeTuples (.qn dims n)).length => monomialValue (nodeTuples (.qn dims n))[j])
        (fun i : Fin (nodeTuples (.qn dims n)).length => column A dims i) := by
  obtain ⟨x, w, hok, -, -, hx, hin, -⟩ := compute_facts ext hext gaussParams_zero n
  have hq := fun fd => gauss_ok ext 0 0 n fd x w hok
  have hsz : size (ofFn x).addDimAxis.shape = n + 1 := by simp [NdArray.addDimAxis, ofFn]
  obtain ⟨C, hC, hCs, hCg⟩ : ∃ C, reshapeC (ofFn x).addDimAxis [1, size (ofFn x).addDimAxis.shape] = .ok C ∧
      C.shape = [1, n + 1] ∧ ∀ k, C.get [0, k] = (ofFn x).addDimAxis.get (unravelC (ofFn x).addDimAxis.shape k) :=
    ⟨_, by rw [reshapeC, if_pos (by simp)], by simp [hsz], fun k => by simp [ravelC]⟩
  obtain ⟨A, hA, hs, hg, hu⟩ := product_line dims n hd C (by simp [hCs]) x (by
    intro k
    have := addDimAxis_get x k
    rw [← this, ← hCg, hCs]
    obtain ⟨k, hk⟩ := k
    simp [unravelC, Nat.mod_eq_of_lt hk, Nat.mod_one]) hx.injective
  refine ⟨A, x, ?_, hs, hx, hin, ⟨_, hq false, rfl⟩, hg, hu⟩
  rw [legendreGaussTensorProductNodes, legendreGaussQuadrature, hq true]
  simp only [nodes1D, if_true, hC]
  exact hA

/-- **C70 (Gauss-Lobatto products).**  `legendre_gauss_lobatto_tensor_product_nodes(d, n)` is the grid of the
Legendre-Gauss-Lobatto nodes (for `n = 0` the origin) and determines the functions of `QN(d, n)`. -/
theorem C70_legendre_gauss_lobatto (ext : Ext) (hext : ext.EighOk) (dims n : Nat) (hd : 0 < dims) :
    ∃ A x, legendreGaussLobattoTensorProductNodes ext dims n = .ok A ∧ A.shape = [dims, (n + 1) ^ dims] ∧
      legendreGaussLobattoNodes ext n .builtin false = .ok (ofFn x) ∧ StrictMono x ∧
      (1 ≤ n → x 0 = -1 ∧ x (Fin.last n) = 1) ∧ (n = 0 → x 0 = 0) ∧
      (∀ i k, i < dims → k < (n + 1) ^ dims →
        A.get [i, k] = x ⟨k / (n + 1) ^ i % (n + 1), Nat.mod_lt _ (Nat.succ_pos n)⟩) ∧
      Unisolvent (fun j : Fin (nodeTuples (.qn dims n)).length => monomialValue (nodeTuples (.qn dims n))[j])
        (fun i : Fin (nodeTuples (.qn dims n)).length => column A dims i) := by
  rcases Nat.eq_zero_or_pos n with rfl | hn
  · obtain ⟨A, hA, hs, hg, hu⟩ := product_line dims 0 hd (ofFn fun _ : Fin 1 => 0) (by simp [ofFn]) (fun _ => 0)
      (by intro k; simp [ofFn]) (fun a b _ => Fin.ext (by omega))
    refine ⟨A, fun _ => 0, ?_, hs, ?_, fun a b h => absurd h (by simp [Fin.lt_def]), by simp, by simp, hg, hu⟩
    · rw [legendreGaussLobattoTensorProductNodes, legendreGaussLobattoNodes, jacobiGaussLobattoNodes]
      simpa [lobattoNodes] using hA
    · simp [legendreGaussLobattoNodes, jacobiGaussLobattoNodes, lobattoNodes]
  · obtain ⟨m, rfl⟩ : ∃ m, n = m + 1 := ⟨n - 1, by omega⟩
    obtain ⟨x, v, hok, h0, h1, hmono, -⟩ := lobattoNodes_facts ext hext (α := 0) (β := 0) (by norm_num) (by norm_num) m
    obtain ⟨A, hA, hs, hg, hu⟩ := product_line dims (m + 1) hd (ofFn x).addDimAxis (by simp [NdArray.addDimAxis, ofFn]) x
      (addDimAxis_get x) hmono.injective
    refine ⟨A, x, ?_, hs, ?_, hmono, fun _ => ⟨h0, h1⟩, by simp, hg, hu⟩
    · rw [legendreGaussLobattoTensorProductNodes, legendreGaussLobattoNodes, jacobiGaussLobattoNodes, hok]
      simpa using hA
    · rw [legendreGaussLobattoNodes, jacobiGaussLobattoNodes, hok]
      simp

/-- The hypotheses of `C70_product` are met by a triangle with equispaced nodes times a segment with nodes `-1, 0, 1/3`. -/
example : ∃ (A B : NdArray ℝ), equispacedNodes (.pn ⟨2, 3⟩) (.simplex 2) = .ok A ∧ B.get [0, 2] = 1 / 3 ∧
    List.Forall₂ (fun b A => A.shape = [b.spatialDim, b.spaceDim] ∧
      Unisolvent (fun j : Fin (nodeTuples (.pn b)).length => monomialValue (nodeTuples (.pn b))[j])
        (fun i : Fin (nodeTuples (.pn b)).length => column A b.spatialDim i)) [⟨2, 3⟩, ⟨1, 2⟩] [A, B] := by
  obtain ⟨A, hA, hu⟩ := C62_pn 2 3
  obtain ⟨A', hA', hs, -⟩ := C04_pn (K := ℝ) 2 3 (by norm_num)
  rw [hA] at hA'
  injection hA' with hA'
  subst hA'
  refine ⟨A, ⟨[1, 3], fun idx => [(-1 : ℝ), 0, 1 / 3].getD (idx.getD 1 0) 0⟩, hA, by simp,
    .cons ⟨hs, hu⟩ (.cons ⟨rfl, unisolvent_line 2 _ ?_⟩ .nil)⟩
  intro j k hj hk h
  interval_cases j <;> interval_cases k <;> first | rfl | (norm_num at h)

/-! ## C71: edge-clustered nodes -/

/-- **C71 (rejections).**  A class mismatch between space and shape raises `NotImplementedError`, a dimension mismatch
`ValueError`. -/
theorem C71_rejects (ext : Ext) (so : SetOrder) (s : PNSpace) (d : Nat) (bases : List PNSpace) (dims : List Nat) :
    edgeClusteredNodes ext so (.pn s) (.tp dims) = .error .NotImplementedError ∧
    edgeClusteredNodes ext so (.pn s) (.hypercube d) = .error .NotImplementedError ∧
    edgeClusteredNodes ext so (.tp bases) (.simplex d) = .error .NotImplementedError ∧
    edgeClusteredNodes ext so (.qn s.spatialDim s.order) (.simplex d) = .error .NotImplementedError ∧
    (s.spatialDim ≠ d → edgeClusteredNodes ext so (.pn s) (.simplex d) = .error .ValueError) ∧
    ((bases.map PNSpace.spatialDim).sum ≠ dims.sum →
      edgeClusteredNodes ext so (.tp bases) (.tp dims) = .error .ValueError) := by
  refine ⟨rfl, rfl, rfl, rfl, fun h => ?_, fun h => ?_⟩
  · simp [edgeClusteredNodes, edgeClusteredPN, h]
  · simp only [edgeClusteredNodes]
    rw [if_pos]
    simpa [Space.spatialDim, Shape.dim, Space.flatBases] using h

/-- The Legendre-Gauss-Lobatto nodes of order one and two are equispaced. -/
theorem lobatto_low (ext : Ext) (hext : ext.EighOk) (n : Nat) (hn : 1 ≤ n) (hn2 : n ≤ 2) (x : Fin (n + 1) → ℝ)
    (hx : legendreGaussLobattoNodes ext n .builtin false = .ok (ofFn x)) (j : Fin (n + 1)) :
    x j = (j : ℝ) / n * 2 - 1 := by
  obtain ⟨m, rfl⟩ : ∃ m, n = m + 1 := ⟨n - 1, by omega⟩
  obtain ⟨P, x', hok, h0, h1, -, hsym, -⟩ := warpFactor_eq ext hext m
  rw [legendreGaussLobattoNodes, jacobiGaussLobattoNodes, hok] at hx
  simp only [Bool.false_eq_true, and_false, if_false, Except.ok.injEq] at hx
  have he : x = x' := by
    funext k
    have := congrArg (fun A => NdArray.get A [(k : Nat)]) hx
    simp only [ofFn_get] at this
    exact this.symm
  subst he
  obtain rfl | rfl : m = 0 ∨ m = 1 := by omega
  · fin_cases j
    · simp; exact h0
    · have e : x (Fin.last 1) = 1 := h1
      simp only [Fin.last] at e
      simp; rw [show (1 : Fin 2) = ⟨1, by omega⟩ from rfl, e]; norm_num
  · have hmid : x 1 = 0 := by
      have := hsym 1
      have e : (1 : Fin 3).rev = 1 := by decide
      rw [e] at this
      linarith
    fin_cases j
    · simp; exact h0
    · simp; exact hmid
    · have e : x (Fin.last 2) = 1 := h1
      simp only [Fin.last] at e
      simp; rw [show (2 : Fin 3) = ⟨2, by omega⟩ from rfl, e]; norm_num

/-- At most two entries of a tuple of sum at most two are non-zero. -/
theorem two_of_sum_le_two {d : Nat} (hd : 1 ≤ d) (f : Fin (d + 1) → Nat) (h : ∑ p, f p ≤ 2) :
    ∃ p q, p ≠ q ∧ ∀ r, r ≠ p → r ≠ q → f r = 0 := by
  classical
  set S := Finset.univ.filter fun p => f p ≠ 0 with hS
  have hcard : S.card ≤ 2 := by
    calc S.card = ∑ p ∈ S, 1 := by simp
      _ ≤ ∑ p ∈ S, f p := Finset.sum_le_sum fun p hp => Nat.one_le_iff_ne_zero.2 (by simpa [hS] using hp)
      _ ≤ ∑ p, f p := Finset.sum_le_sum_of_subset (Finset.subset_univ _)
      _ ≤ 2 := h
  obtain ⟨T, hST, hT⟩ := Finset.exists_superset_card_eq hcard (by simp; omega : 2 ≤ Fintype.card (Fin (d + 1)))
  obtain ⟨p, q, hpq, rfl⟩ := Finset.card_eq_two.1 hT
  refine ⟨p, q, hpq, fun r h1 h2 => ?_⟩
  by_contra hr
  have := hST (show r ∈ S by simpa [hS] using hr)
  simp [h1, h2] at this

/-- **C71 (simplices).**  For every `PN(d, n)` (`n < 10^8`) the edge-clustered nodes are a `(d, space_dim)` array.  On the
line they are the Legendre-Gauss-Lobatto nodes; up to dimension three every edge carries the Legendre-Gauss-Lobatto nodes;
they are the equispaced nodes in dimension four and above, and for order at most two in every dimension. -/
theorem C71_simplex (ext : Ext) (hext : ext.EighOk) (so : SetOrder) (d n : Nat) (hn : n < 10 ^ 8) :
    ∃ A, edgeClusteredNodes ext so (.pn ⟨d, n⟩) (.simplex d) = .ok A ∧ A.shape = [d, (n + d).choose d] ∧
      (1 ≤ d → d ≤ 3 → 1 ≤ n → ∃ x, legendreGaussLobattoNodes ext n .builtin false = .ok (ofFn x) ∧
        ∀ k t, (nodeTuples (.pn ⟨d, n⟩))[k]? = some t → ∀ p q : Fin (d + 1), p ≠ q →
        (∀ r : Fin (d + 1), r ≠ p → r ≠ q → (fullTuple n t).getD r 0 = 0) →
        ∀ i < d, ∃ h : t.getD i 0 < n + 1, A.get [i, k] = x ⟨t.getD i 0, h⟩) ∧
      (d = 1 → 1 ≤ n → ∃ x, legendreGaussLobattoNodes ext n .builtin false = .ok (ofFn x) ∧ StrictMono x ∧
        ∀ k : Fin (n + 1), A.get [0, (k : Nat)] = x k) ∧
      (d = 0 ∨ 4 ≤ d ∨ n ≤ 2 → ∃ B : NdArray ℝ, equispacedNodes (.pn ⟨d, n⟩) (.simplex d) = .ok B ∧
        ∀ i k, i < d → k < (n + d).choose d → A.get [i, k] = B.get [i, k]) := by
  have hlen : (nodeTuples (.pn ⟨d, n⟩)).length = (n + d).choose d := length_nodeTuplesPN ⟨d, n⟩
  rcases Nat.eq_zero_or_pos n with rfl | hn1
  · refine ⟨simplexCentroid d, ?_, by simp [simplexCentroid], by omega, by omega, fun _ => ⟨simplexCentroid d, ?_, ?_⟩⟩
    · simp only [edgeClusteredNodes, edgeClusteredPN, ne_eq, not_true, if_false]
      split
      · simp [warpAndBlendNodes]
      · simp [equidistantNodes]
    · simp [equispacedNodes, equispacedPN]
    · intros; rfl
  obtain ⟨B, hB, hBs, hBg⟩ := C04_pn (K := ℝ) d n hn1
  by_cases hd4 : 4 ≤ d
  · refine ⟨B, ?_, hBs, by omega, by omega, fun _ => ⟨B, hB, by intros; rfl⟩⟩
    simp only [edgeClusteredNodes, edgeClusteredPN, ne_eq, not_true, if_false]
    rw [if_neg (by omega), equidistantNodes]
    simp only [equispacedNodes, equispacedPN, ne_eq, not_true, if_false] at hB
    rw [← hB]
  rcases Nat.eq_zero_or_pos d with rfl | hd
  · refine ⟨⟨[0, 1], fun _ => 0⟩, ?_, by simp, by omega, by omega, fun _ => ⟨B, hB, by omega⟩⟩
    simp only [edgeClusteredNodes, edgeClusteredPN, ne_eq, not_true, if_false]
    rw [if_pos (by omega), warpAndBlendNodes, if_neg (by omega)]
  obtain ⟨hts, hv⟩ := validTuples_default d n
  obtain ⟨A, x, hA, hsh, hx, hmono, hedge⟩ := C47_edges ext hext so d ⟨hd, by omega⟩ n hn1 hn none _ hts hv
  refine ⟨A, ?_, ?_, fun _ _ _ => ⟨x, hx, hedge⟩, ?_, ?_⟩
  · simp only [edgeClusteredNodes, edgeClusteredPN, ne_eq, not_true, if_false]
    rw [if_pos (by omega), hA]
  · rw [hsh]; exact congrArg (fun m => [d, m]) hlen
  · rintro rfl -
    refine ⟨x, hx, hmono, fun k => ?_⟩
    have hk : (nodeTuplesPN ⟨1, n⟩)[(k : Nat)]? = some [(k : Nat)] := by
      rw [show nodeTuplesPN ⟨1, n⟩ = (List.range (n + 1)).map fun i => [i] from gnitsam_one n, List.getElem?_map,
        List.getElem?_range k.2]
      rfl
    obtain ⟨h, e⟩ := hedge k [(k : Nat)] hk 0 1 (by decide) (by intro r h0 h1; fin_cases r <;> simp at h0 h1) 0 (by omega)
    rw [e]
    rfl
  · intro hcase
    have hn2 : n ≤ 2 := by omega
    refine ⟨B, hB, fun i k hi hk => ?_⟩
    have hk' : k < (nodeTuplesPN ⟨d, n⟩).length := by rw [length_nodeTuplesPN]; exact hk
    have hkt : (nodeTuplesPN ⟨d, n⟩)[k]? = some (nodeTuplesPN ⟨d, n⟩)[k] := List.getElem?_eq_getElem hk'
    have hvt := hv _ (List.getElem_mem hk')
    obtain ⟨p, q, hpq, hr⟩ := two_of_sum_le_two hd
      (fun r => (fullTuple n (nodeTuplesPN ⟨d, n⟩)[k]).getD r 0) (by rw [fullTuple_entries hvt.1 hvt.2]; exact hn2)
    obtain ⟨h, e⟩ := hedge k _ hkt p q hpq hr i hi
    rw [e, hBg i k, lobatto_low ext hext n hn1 hn2 x hx]
    simp only [nodeTuples]
    rw [List.getD_eq_getElem?_getD (l := nodeTuplesPN ⟨d, n⟩), hkt, Option.getD_some]
    ring

/-- **C71 (unisolvence).**  On the line, in dimension four and above, and for order at most five, the edge-clustered nodes
determine the polynomials of the space. -/
theorem C71_unisolvent (ext : Ext) (hext : ext.EighOk) (so : SetOrder) (d n : Nat) (hn : n < 10 ^ 8)
    (hcase : d ≤ 1 ∨ 4 ≤ d ∨ n ≤ 5) :
    ∃ A, edgeClusteredNodes ext so (.pn ⟨d, n⟩) (.simplex d) = .ok A ∧ A.shape = [d, (n + d).choose d] ∧
      Unisolvent (fun (j : Fin (nodeTuples (.pn ⟨d, n⟩)).length) => monomialValue (nodeTuples (.pn ⟨d, n⟩))[j])
        (fun (i : Fin (nodeTuples (.pn ⟨d, n⟩)).length) => column A d i) := by
  obtain ⟨A, hA, hs, -, hline, hequi⟩ := C71_simplex ext hext so d n hn
  refine ⟨A, hA, hs, ?_⟩
  by_cases h1 : d = 1 ∧ 1 ≤ n
  · obtain ⟨rfl, h1⟩ := h1
    obtain ⟨x, -, hmono, hx⟩ := hline rfl h1
    refine unisolvent_line n A fun j k hj hk h => ?_
    have hj' := hx ⟨j, by omega⟩
    have hk' := hx ⟨k, by omega⟩
    simp only at hj' hk'
    rw [hj', hk'] at h
    simpa using hmono.injective h
  by_cases h2 : (d = 2 ∨ d = 3) ∧ 3 ≤ n
  · refine warp_unisolvent ext hext so d n h2.1 (by omega) A ?_
    simp only [edgeClusteredNodes, edgeClusteredPN, ne_eq, not_true, if_false] at hA
    rw [if_pos (by omega)] at hA
    exact hA
  · obtain ⟨B, hB, hBg⟩ := hequi (by omega)
    obtain ⟨B', hB', hu⟩ := C62_pn d n
    rw [hB] at hB'
    injection hB' with hB'
    subst hB'
    have e : (fun (i : Fin (nodeTuples (.pn ⟨d, n⟩)).length) => column A d i) =
        fun (i : Fin (nodeTuples (.pn ⟨d, n⟩)).length) => column B d i := by
      funext i
      refine List.map_congr_left fun r hr => hBg r i (List.mem_range.1 hr) ?_
      exact i.2.trans_eq (length_nodeTuplesPN ⟨d, n⟩)
    rw [e]
    exact hu

/-- **C71 (tensor products).**  The edge-clustered nodes of a product space are `tensor_product_nodes` of those of the
factors; they determine the product space if each factor is at most one-dimensional, at least four-dimensional or of
order at most five. -/
theorem C71_product (ext : Ext) (hext : ext.EighOk) (so : SetOrder) (bases : List PNSpace)
    (hord : ∀ b ∈ bases, b.order < 10 ^ 8) (hdim : 0 < (bases.map PNSpace.spatialDim).sum) :
    ∃ As A, List.Forall₂ (fun (b : PNSpace) B => edgeClusteredNodes ext so (.pn b) (.simplex b.spatialDim) = .ok B)
        bases As ∧
      tensorProductNodes 0 As = .ok A ∧
      edgeClusteredNodes ext so (.tp bases) (.tp (bases.map PNSpace.spatialDim)) = .ok A ∧
      A.shape = [(bases.map PNSpace.spatialDim).sum, Space.spaceDim (.tp bases)] ∧
      ((∀ b ∈ bases, b.spatialDim ≤ 1 ∨ 4 ≤ b.spatialDim ∨ b.order ≤ 5) →
        Unisolvent (fun j : Fin (nodeTuples (.tp bases)).length => monomialValue (nodeTuples (.tp bases))[j])
          (fun i : Fin (nodeTuples (.tp bases)).length => column A (bases.map PNSpace.spatialDim).sum i)) := by
  have hex : ∀ b ∈ bases, ∃ B, edgeClusteredPN ext so b b.spatialDim = .ok B ∧
      B.shape = [b.spatialDim, b.spaceDim] ∧
      ((b.spatialDim ≤ 1 ∨ 4 ≤ b.spatialDim ∨ b.order ≤ 5) → UnisolventPN b B) := by
    intro b hb
    by_cases hc : b.spatialDim ≤ 1 ∨ 4 ≤ b.spatialDim ∨ b.order ≤ 5
    · obtain ⟨B, h1, h2, h3⟩ := C71_unisolvent ext hext so b.spatialDim b.order (hord b hb) hc
      exact ⟨B, h1, h2, fun _ => h3⟩
    · obtain ⟨B, h1, h2, -⟩ := C71_simplex ext hext so b.spatialDim b.order (hord b hb)
      exact ⟨B, h1, h2, fun h => absurd h hc⟩
  haveI : Nonempty (NdArray ℝ) := ⟨⟨[], fun _ => 0⟩⟩
  choose! F hF1 hF2 hF3 using hex
  have hf2 : ∀ (R : PNSpace → NdArray ℝ → Prop) (l : List PNSpace), (∀ b ∈ l, R b (F b)) →
      List.Forall₂ R l (l.map F) := by
    intro R l
    induction l with
    | nil => simp
    | cons b l ih =>
      intro h
      exact .cons (h b (by simp)) (ih fun c hc => h c (List.mem_cons_of_mem _ hc))
  have hz : collect (List.zipWith (edgeClusteredPN ext so) bases (bases.map PNSpace.spatialDim)) = .ok (bases.map F) := by
    rw [List.zipWith_map_right, List.zipWith_self]
    exact collect_map_of_ok bases _ F hF1
  have hrows : (bases.map F).map rows = bases.map PNSpace.spatialDim := by
    rw [List.map_map]
    exact List.map_congr_left fun b hb => by simp [rows, hF2 b hb]
  have hcols : (bases.map F).map ncols = bases.map PNSpace.spaceDim := by
    rw [List.map_map]
    exact List.map_congr_left fun b hb => by simp [ncols, hF2 b hb]
  obtain ⟨A, hA, hs, -⟩ := tensorProductNodes_ok (0 : ℝ) (bases.map F) (by
    intro a ha
    obtain ⟨b, hb, rfl⟩ := List.mem_map.1 ha
    simp [Is2D, rows, ncols, hF2 b hb]) (by rw [hrows]; exact hdim)
  refine ⟨bases.map F, A, hf2 _ _ hF1, hA, ?_, by rw [hs, hrows, hcols]; rfl, ?_⟩
  · simp only [edgeClusteredNodes, Space.flatBases, Shape.flatBases, hz, List.length_map]
    simpa [Space.spatialDim, Shape.dim, Space.flatBases] using hA
  · intro hc
    obtain ⟨A', hA', -, hu⟩ := tensor_unisolvent bases (bases.map F) (0 : ℝ)
      (hf2 _ _ fun b hb => ⟨hF2 b hb, hF3 b hb (hc b hb)⟩) hdim
    rw [hA] at hA'
    injection hA' with hA'
    subst hA'
    exact hu

/-- **C71 (hypercubes).**  For `QN(d, n)` on the hypercube they are the nodes of
`legendre_gauss_lobatto_tensor_product_nodes(d, n)`. -/
theorem C71_hypercube (ext : Ext) (hext : ext.EighOk) (so : SetOrder) (d n : Nat) (hd : 0 < d) (hn : n < 10 ^ 8) :
    ∃ A B, edgeClusteredNodes ext so (.qn d n) (.hypercube d) = .ok A ∧
      legendreGaussLobattoTensorProductNodes ext d n = .ok B ∧ A.shape = B.shape ∧
      ∀ i k, i < d → k < (n + 1) ^ d → A.get [i, k] = B.get [i, k] := by
  obtain ⟨As, A, hAs, htp, hA, hs, -⟩ := C71_product ext hext so (List.replicate d ⟨1, n⟩)
    (fun b hb => by rw [List.eq_of_mem_replicate hb]; exact hn) (by simpa using hd)
  obtain ⟨B, x, hB, hBs, hx, -, -, hx0, hBg, -⟩ := C70_legendre_gauss_lobatto ext hext d n hd
  obtain ⟨C, hC, hCs, -, hline, hequi⟩ := C71_simplex ext hext so 1 n hn
  have hCx : ∀ k : Fin (n + 1), C.get [0, (k : Nat)] = x k := by
    intro k
    rcases Nat.eq_zero_or_pos n with rfl | hn1
    · obtain ⟨B', hB', hg⟩ := hequi (by omega)
      obtain rfl : k = 0 := Fin.ext (by omega)
      have e : B'.get [0, 0] = 0 := by
        simp only [equispacedNodes, equispacedPN, ne_eq, not_true, if_false, if_true, Except.ok.injEq] at hB'
        rw [← hB', centroid_get 1 0 (by omega)]
        norm_num
      rw [hx0 rfl, ← e]
      exact hg 0 0 (by omega) (by simp)
    · obtain ⟨x', hx', -, hg⟩ := hline rfl hn1
      rw [hx] at hx'
      injection hx' with hx'
      have : x k = x' k := by
        have := congrArg (fun A => NdArray.get A [(k : Nat)]) hx'
        simpa only [ofFn_get] using this
      rw [hg k, this]
  have hAsC : As = List.replicate d C := by
    clear htp hA hs hd hBs hBg hB
    induction d generalizing As with
    | zero => simpa using hAs
    | succ d ih =>
      rw [List.replicate_succ] at hAs
      cases hAs with
      | cons h1 h2 =>
        rw [ih _ h2, List.replicate_succ]
        simp only at h1
        rw [hC] at h1
        injection h1 with h1
        rw [h1]
  subst hAsC
  have hA' : edgeClusteredNodes ext so (.qn d n) (.hypercube d) = .ok A := by
    rw [← hA]
    simp [edgeClusteredNodes, Space.flatBases, Shape.flatBases, Space.spatialDim, Shape.dim]
  have hshape : A.shape = [d, (n + 1) ^ d] := by
    rw [hs]; simp [Space.spaceDim, Space.flatBases, PNSpace.spaceDim]
  refine ⟨A, B, hA', hB, hshape.trans hBs.symm, fun i k hi hk => ?_⟩
  have hCs' : C.shape = [1, n + 1] := by rw [hCs]; simp
  obtain ⟨A'', hA'', -, hget⟩ := C03_content (0 : ℝ) (List.replicate d C)
    (fun a ha => ⟨1, n + 1, by rw [List.eq_of_mem_replicate ha, hCs']⟩) (by simp [hCs']; exact hd)
  rw [htp] at hA''
  injection hA'' with hA''
  subst hA''
  have hcnt : (List.replicate d C).map (fun a => a.shape.getD 1 0) = List.replicate d (n + 1) := by simp [hCs']
  have := hget i (by simpa using hi) 0 k (by simp [hCs']) (by rw [hcnt]; simpa using hk)
  rw [hcnt] at this
  have e1 : (((List.replicate d C).take i).map fun a => a.shape.getD 0 0).sum + 0 = i := by
    simp [hCs', List.take_replicate, Nat.min_eq_left hi.le]
  have e2 : Spec.digit (List.replicate d (n + 1)) k i = k / (n + 1) ^ i % (n + 1) := by
    simp [Spec.digit, List.take_replicate, Nat.min_eq_left hi.le, hi]
  rw [e1, e2] at this
  rw [this, List.getElem_replicate, hBg i k hi hk]
  exact hCx ⟨_, Nat.mod_lt _ (Nat.succ_pos n)⟩

/-- A prism: a triangle of order four times a segment of order nine meets the hypotheses of `C71_product`, including the
condition for unisolvence. -/
example : let bases : List PNSpace := [⟨2, 4⟩, ⟨1, 9⟩]
    (∀ b ∈ bases, b.order < 10 ^ 8) ∧ 0 < (bases.map PNSpace.spatialDim).sum ∧
      ∀ b ∈ bases, b.spatialDim ≤ 1 ∨ 4 ≤ b.spatialDim ∨ b.order ≤ 5 := by
  simp

end Modepy

import Verif.Model.Quadrature
import Verif.Spec.Quadrature
import Verif.Spec.Interpolation
import Verif.Proofs.TensorQuadrature
import Verif.Proofs.Functional
import Verif.Props.ExactTo
import Verif.Props.Indexing
import Mathlib.Algebra.Polynomial.Degree.Lemmas
import Mathlib.MeasureTheory.Integral.IntervalIntegral.Basic
import Mathlib.Analysis.SpecialFunctions.Integrals.Basic

/-!
# Properties C34 (tensor product quadrature), C35 (transformed quadrature)
-/

namespace Modepy
open Spec NdArray Quadrature

/-! ## C35 -/

theorem transformed1D_ok (q : Quadrature) (left right : ℝ) (h : left < right) :
    transformed1D q left right = .ok
      ⟨⟨q.nodes.shape, fun i => left + (q.nodes.get i + 1) / 2 * (right - left)⟩,
        ⟨q.weights.shape, fun i => (right - left) / 2 * q.weights.get i⟩, q.exactTo, none⟩ := by
  rw [transformed1D, if_neg (by linarith)]

/-- **C35.**  If the base rule integrates polynomials of degree up to `N` over `[-1, 1]`, the transformed
rule integrates them over `[left, right]`, for all `left < right`, and claims the same exactness. -/
theorem C35_exact (q : Quadrature) (n : Nat) (hn : q.nodes.shape = [n] ∨ q.nodes.shape = [1, n])
    (N : Nat) (hq : ExactOn N (-1) 1 q.call) (left right : ℝ) (h : left < right) :
    ∃ t, transformed1D q left right = .ok t ∧ ExactOn N left right t.call ∧ t.exactTo = q.exactTo ∧
      t.nodes.shape = q.nodes.shape := by
  have hlen : 0 < right - left := by linarith
  refine ⟨_, transformed1D_ok q left right h, ?_, rfl, rfl⟩
  intro p hp
  set q' : Quadrature := ⟨⟨q.nodes.shape, fun i => left + (q.nodes.get i + 1) / 2 * (right - left)⟩,
    ⟨q.weights.shape, fun i => (right - left) / 2 * q.weights.get i⟩, q.exactTo, none⟩ with hq'
  let m : Polynomial ℝ := Polynomial.C left + (Polynomial.X + Polynomial.C 1) *
    Polynomial.C ((right - left) / 2)
  have hm : ∀ t, m.eval t = left + (t + 1) / 2 * (right - left) := by
    intro t; simp only [m, Polynomial.eval_add, Polynomial.eval_mul, Polynomial.eval_C,
      Polynomial.eval_X]; ring
  have hdeg : (p.comp m).natDegree ≤ N := by
    refine Polynomial.natDegree_comp_le.trans ?_
    have : m.natDegree ≤ 1 := by
      simp only [m]
      refine (Polynomial.natDegree_add_le _ _).trans ?_
      simp only [Polynomial.natDegree_C, zero_le, sup_of_le_right]
      refine (Polynomial.natDegree_mul_C_le _ _).trans ?_
      exact Polynomial.natDegree_X_add_C (1 : ℝ) |>.le
    calc _ ≤ p.natDegree * 1 := Nat.mul_le_mul_left _ this
      _ ≤ N := by simpa using hp
  have h1 := hq (p.comp m) hdeg
  have hnode : ∀ k, (q'.node k).headD 0 = m.eval ((q.node k).headD 0) := by
    intro k
    rw [hm]
    rcases hn with hn | hn <;> simp [node, hq', hn]
  have hcall : q'.call (fun x => p.eval (x.headD 0)) =
      (right - left) / 2 * q.call (fun x => (p.comp m).eval (x.headD 0)) := by
    simp only [call, hnode, Polynomial.eval_comp]
    rw [← List.sum_map_mul_left]
    congr 1
    apply List.map_congr_left
    intro k _
    simp only [hq']
    ring
  rw [hcall, h1]
  simp only [Polynomial.eval_comp, hm]
  have hsub := intervalIntegral.integral_comp_mul_add (a := (-1 : ℝ)) (b := 1)
    (fun t => p.eval t) (c := (right - left) / 2) (by linarith) ((right + left) / 2)
  have he : ∀ t : ℝ, left + (t + 1) / 2 * (right - left) =
      (right - left) / 2 * t + (right + left) / 2 := by intro t; ring
  simp only [he]
  rw [hsub, smul_eq_mul, ← mul_assoc, mul_inv_cancel₀ (by linarith), one_mul]
  congr 1 <;> ring

/-- Empty and reversed intervals are rejected. -/
theorem C35_rejects (q : Quadrature) (left right : ℝ) (h : right ≤ left) :
    transformed1D q left right = .error .ValueError := by
  rw [transformed1D, if_pos (by linarith)]

/-- The midpoint rule on `[-1, 1]`: the hypotheses of `C35_exact` can be met. -/
example : ExactOn 1 (-1) 1
    (call ⟨⟨[1], fun _ => 0⟩, ⟨[1], fun _ => 2⟩, some (.num 1), none⟩) := by
  intro p hp
  obtain ⟨a, b, rfl⟩ := Polynomial.exists_eq_X_add_C_of_natDegree_le_one hp
  simp [call, node, nnodes]
  rw [intervalIntegral.integral_add]
  · rw [intervalIntegral.integral_const_mul, integral_id, intervalIntegral.integral_const]
    simp only [smul_eq_mul]
    ring
  · exact (Continuous.intervalIntegrable (by fun_prop) _ _)
  · simp

/-! ## C34 -/

/-- What is assumed of the base rules: nodes of shape `(n,)` or `(d, n)`, weights of shape `(n,)`. -/
def Spec.WellShaped (q : Quadrature) : Prop :=
  ∃ n, q.weights.shape = [n] ∧ (q.nodes.shape = [n] ∨ ∃ d, q.nodes.shape = [d, n])

theorem column_as2 (q : Quadrature) (h : WellShaped q) :
    asNodeset q.nodes = .ok (as2 q.nodes) ∧ Is2D (as2 q.nodes) ∧ rows (as2 q.nodes) = q.dim ∧
      ncols (as2 q.nodes) = q.nnodes ∧
      ∀ k < q.nnodes, column (as2 q.nodes) (rows (as2 q.nodes)) k = q.node k := by
  obtain ⟨n, hw, hn | ⟨d, hn⟩⟩ := h
  · obtain ⟨h1, h2, h3, h4, h5⟩ := as2_1d q.nodes n hn
    have hnn : q.nnodes = n := by simp [nnodes, hw]
    refine ⟨h1, h2, by simp [h3, dim, hn], by rw [h4, hnn], ?_⟩
    intro k hk
    simp [column, h3, node, hn, h5 k (by omega)]
  · obtain ⟨h1, h2, h3, h4, h5⟩ := as2_2d q.nodes d n hn
    have hnn : q.nnodes = n := by simp [nnodes, hw]
    refine ⟨h1, h2, by rw [h3]; simp [h4, dim, hn], by rw [h3, h5, hnn],
      fun k _ => by rw [h3]; simp [column, h4, node, hn]⟩

theorem weights_as2 (q : Quadrature) (h : WellShaped q) :
    asNodeset q.weights = .ok (as2 q.weights) ∧ Is2D (as2 q.weights) ∧ rows (as2 q.weights) = 1 ∧
      ncols (as2 q.weights) = q.nnodes ∧
      ∀ k < q.nnodes, column (as2 q.weights) (rows (as2 q.weights)) k = [q.weights.get [k]] := by
  obtain ⟨n, hw, _⟩ := h
  obtain ⟨h1, h2, h3, h4, h5⟩ := as2_1d q.weights n hw
  have hnn : q.nnodes = n := by simp [nnodes, hw]
  refine ⟨h1, h2, h3, by rw [h4, hnn], ?_⟩
  intro k hk
  simp [column, h3, h5 k (by omega)]

theorem flatten_singletons {α β : Type*} (f : α → Nat → List β) (g : α → Nat → β) (l : List α)
    (idx : List Nat) (h : ∀ a ∈ l, ∀ i, f a i = [g a i]) :
    (List.zipWith f l idx).flatten = List.zipWith g l idx := by
  induction l generalizing idx with
  | nil => simp
  | cons a l ih =>
    cases idx with
    | nil => simp
    | cons i idx =>
      simp [h a (by simp), ih idx fun b hb => h b (by simp [hb])]

/-- Rewriting the pieces at valid indices. -/
theorem zipWith_congr_valid {α β : Type*} (f g : α → Nat → β) (c : α → Nat) (l : List α)
    (idx : List Nat) (hv : Valid (l.map c) idx) (h : ∀ a ∈ l, ∀ i < c a, f a i = g a i) :
    List.zipWith f l idx = List.zipWith g l idx := by
  induction l generalizing idx with
  | nil => simp
  | cons a l ih =>
    cases idx with
    | nil => simp
    | cons i idx =>
      simp only [List.map_cons, valid_cons_cons] at hv
      simp [h a (by simp) i hv.1, ih idx hv.2 fun b hb => h b (by simp [hb])]

theorem tpn_columns (fv : ℝ) (ns : List (NdArray ℝ))
    (h : ∀ a ∈ ns, asNodeset a = .ok (as2 a) ∧ Is2D (as2 a))
    (hz : ((ns.map as2).map rows).sum = 0 → ((ns.map as2).map ncols).prod = 1) :
    ∃ res, tensorProductNodes fv ns = .ok res ∧
      res.shape = [((ns.map as2).map rows).sum, ((ns.map as2).map ncols).prod] ∧
      ∀ k < ((ns.map as2).map ncols).prod, column res ((ns.map as2).map rows).sum k =
        (List.zipWith (fun a i => column a (rows a) i) (ns.map as2)
          (unravelF ((ns.map as2).map ncols) k)).flatten := by
  rw [tensorProductNodes_as2 fv ns h]
  have h2 : ∀ a ∈ ns.map as2, Is2D a := by
    intro a ha
    obtain ⟨b, hb, rfl⟩ := List.mem_map.1 ha
    exact (h b hb).2
  by_cases hpos : 0 < ((ns.map as2).map rows).sum
  · obtain ⟨res, h1, hs, hg⟩ := tensorProductNodes_ok fv (ns.map as2) h2 hpos
    exact ⟨res, h1, hs, column_tensorProduct _ res hg⟩
  · have h0 : ((ns.map as2).map rows).sum = 0 := by omega
    have hr0 : ∀ a ∈ ns.map as2, rows a = 0 := by
      intro a ha
      have := List.single_le_sum (fun _ _ => Nat.zero_le _) (rows a)
        (List.mem_map_of_mem (f := rows) ha)
      omega
    obtain ⟨res, h1, hs⟩ := C03_zero_dim fv (ns.map as2) (fun a ha => ⟨ncols a, by
      rw [← hr0 a ha]; exact h2 a ha⟩)
    refine ⟨res, h1, by rw [hs, h0, hz h0], ?_⟩
    intro k _
    rw [h0]
    symm
    simp only [column, List.range_zero, List.map_nil]
    apply List.flatten_eq_nil_iff.2
    intro l hl
    obtain ⟨i, hi, rfl⟩ := List.mem_iff_getElem.1 hl
    rw [List.getElem_zipWith, hr0 _ (List.getElem_mem _)]
    rfl

theorem zipWith_unravel {β : Type*} (f : Quadrature → Nat → β) (quads : List Quadrature) (k : Nat) :
    List.zipWith f quads (unravelF (quads.map nnodes) k) =
      (List.range quads.length).map fun i =>
        f (quads.getD i zeroDimensional) (digit (quads.map nnodes) k i) := by
  apply List.ext_getElem
  · simp
  · intro i h1 h2
    have hi : i < quads.length := by simpa using h2
    simp [unravelF_eq_map_digit, List.getElem?_eq_getElem hi]

/-- **C34 (iterated rule).**  The tensor product rule applied to any function of the stacked coordinates
is the iterated application of the base rules; its weights are the products of the base weights.  The
base rules may have any dimensions and node counts; if all are zero-dimensional each must have one node
(otherwise the constructor's assertion fails, `C34_zero_dim_assertion`). -/
theorem C34_iterated (quads : List Quadrature) (hq : ∀ q ∈ quads, WellShaped q)
    (hz : (quads.map dim).sum = 0 → (quads.map nnodes).prod = 1)
    (e : Option PyVal) (he : minExact (quads.map (·.exactTo)) = .ok e) :
    ∃ Q, tensorProduct quads = .ok Q ∧ Q.exactTo = e ∧
      Q.nodes.shape = [(quads.map dim).sum, (quads.map nnodes).prod] ∧
      Q.weights.shape = [(quads.map nnodes).prod] ∧ Q.factorDims = some (quads.map dim) ∧
      (∀ k < Q.nnodes, Q.weights.get [k] =
        ((List.range quads.length).map fun i =>
          (quads.getD i zeroDimensional).weights.get [digit (quads.map nnodes) k i]).prod) ∧
      (∀ k < Q.nnodes, Q.node k =
        ((List.range quads.length).map fun i =>
          (quads.getD i zeroDimensional).node (digit (quads.map nnodes) k i)).flatten) ∧
      ∀ f, Q.call f = iterated (quads.map call) f := by
  have hN : ((quads.map (·.nodes)).map as2).map ncols = quads.map nnodes := by
    simp only [List.map_map]
    exact List.map_congr_left fun q h => (column_as2 q (hq q h)).2.2.2.1
  have hNr : ((quads.map (·.nodes)).map as2).map rows = quads.map dim := by
    simp only [List.map_map]
    exact List.map_congr_left fun q h => (column_as2 q (hq q h)).2.2.1
  have hW : ((quads.map (·.weights)).map as2).map ncols = quads.map nnodes := by
    simp only [List.map_map]
    exact List.map_congr_left fun q h => (weights_as2 q (hq q h)).2.2.2.1
  have hWr : ((quads.map (·.weights)).map as2).map rows = quads.map fun _ => 1 := by
    simp only [List.map_map]
    exact List.map_congr_left fun q h => (weights_as2 q (hq q h)).2.2.1
  have hWs : (((quads.map (·.weights)).map as2).map rows).sum = quads.length := by
    rw [hWr]; simp
  obtain ⟨x, hx, hxs, hxc⟩ := tpn_columns 0 (quads.map (·.nodes)) (by
    intro a ha
    obtain ⟨q, h, rfl⟩ := List.mem_map.1 ha
    exact ⟨(column_as2 q (hq q h)).1, (column_as2 q (hq q h)).2.1⟩) (by rw [hN, hNr]; exact hz)
  obtain ⟨w, hw, hws, hwc⟩ := tpn_columns 0 (quads.map (·.weights)) (by
    intro a ha
    obtain ⟨q, h, rfl⟩ := List.mem_map.1 ha
    exact ⟨(weights_as2 q (hq q h)).1, (weights_as2 q (hq q h)).2.1⟩) (by
      rw [hW, hWs]
      intro h0
      rw [List.length_eq_zero_iff.1 h0]
      rfl)
  rw [hN, hNr] at hxs hxc
  rw [hW, hWs] at hws hwc
  have hxc' : ∀ k < (quads.map nnodes).prod, column x (quads.map dim).sum k =
      (List.zipWith (fun (q : Quadrature) i => q.node i) quads
        (unravelF (quads.map nnodes) k)).flatten := by
    intro k hk
    rw [hxc k hk]
    congr 1
    simp only [List.zipWith_map_left]
    apply zipWith_congr_valid _ _ nnodes
    · exact valid_unravelF (by rw [size_eq_prod]; exact hk)
    · intro q h i hi
      exact (column_as2 q (hq q h)).2.2.2.2 i hi
  have hwc' : ∀ k < (quads.map nnodes).prod, column w quads.length k =
      List.zipWith (fun (q : Quadrature) i => q.weights.get [i]) quads
        (unravelF (quads.map nnodes) k) := by
    intro k hk
    rw [hwc k hk]
    simp only [List.zipWith_map_left]
    rw [zipWith_congr_valid _ (fun (q : Quadrature) i => [q.weights.get [i]]) nnodes]
    · exact flatten_singletons _ _ _ _ fun _ _ _ => rfl
    · exact valid_unravelF (by rw [size_eq_prod]; exact hk)
    · intro q h i hi
      exact (weights_as2 q (hq q h)).2.2.2.2 i hi
  set Q : Quadrature := ⟨x, prodAxis0 w, e, some (quads.map dim)⟩ with hQ
  have hok : tensorProduct quads = .ok Q := by
    rw [tensorProduct, hx]
    simp only
    rw [hw]
    simp only
    rw [if_neg, he]
    simp [prodAxis0, ncols, hws, hxs]
  have hnn : Q.nnodes = (quads.map nnodes).prod := by
    simp [nnodes, hQ, prodAxis0, ncols, hws]
  have hnode : ∀ k, Q.node k = column x (quads.map dim).sum k := by
    intro k
    simp only [node, hQ, hxs, column]
  have hwt : ∀ k, Q.weights.get [k] = (column w quads.length k).prod := by
    intro k
    simp only [hQ, prodAxis0, rows, hws, List.headD_cons, column]
  refine ⟨Q, hok, rfl, hxs, by simp [hQ, prodAxis0, ncols, hws], rfl, ?_, ?_, ?_⟩
  · intro k hk
    rw [hwt, hwc' k (by omega), zipWith_unravel]
  · intro k hk
    rw [hnode, hxc' k (by omega), zipWith_unravel]
  · intro f
    rw [← sum_unravel_eq_iterated, call, hnn]
    congr 1
    apply List.map_congr_left
    intro k hk
    have hk := List.mem_range.1 hk
    rw [hwt, hnode, hwc' k hk, hxc' k hk]

theorem minExact_of_ok (quads : List Quadrature) (Q : Quadrature)
    (hQ : tensorProduct quads = .ok Q) : ∃ e, minExact (quads.map (·.exactTo)) = .ok e := by
  cases he : minExact (quads.map (·.exactTo)) with
  | ok e => exact ⟨e, rfl⟩
  | error e =>
    exfalso
    simp only [tensorProduct, he] at hQ
    split at hQ
    · exact absurd hQ (by simp)
    · split at hQ
      · exact absurd hQ (by simp)
      · split at hQ <;> exact absurd hQ (by simp)

/-- A quadrature rule is a functional in its dimension. -/
theorem call_isFunctional (q : Quadrature) (h : WellShaped q) : IsFunctional q.dim q.call where
  congr F G hFG := by
    simp only [call]
    congr 1
    apply List.map_congr_left
    intro k _
    rw [hFG]
    obtain ⟨n, -, hn | ⟨d, hn⟩⟩ := h <;> simp [node, dim, hn]
  smul c F := by
    simp only [call, ← List.sum_map_mul_right, mul_assoc]

theorem forall₂_call (quads : List Quadrature) (h : ∀ q ∈ quads, WellShaped q) :
    List.Forall₂ IsFunctional (quads.map dim) (quads.map call) := by
  induction quads with
  | nil => exact .nil
  | cons q quads ih =>
    exact .cons (call_isFunctional q (h q (by simp))) (ih fun q' h' => h q' (by simp [h']))

/-- **C34 (products).**  On a product of functions of the separate coordinates the rule is the product of
the base rules; so it is exact for products of functions each base rule is exact for. -/
theorem C34_products (quads : List Quadrature) (hq : ∀ q ∈ quads, WellShaped q)
    (Is : List ((List ℝ → ℝ) → ℝ)) (hI : List.Forall₂ IsFunctional (quads.map dim) Is)
    (Fs : List (List ℝ → ℝ)) (hF : Fs.length = quads.length)
    (hex : ∀ i (hi : i < quads.length), quads[i].call (Fs[i]'(by omega)) =
      (Is[i]'(by have := hI.length_eq; simp at this; omega)) (Fs[i]'(by omega)))
    (Q : Quadrature) (hQ : tensorProduct quads = .ok Q)
    (hz : (quads.map dim).sum = 0 → (quads.map nnodes).prod = 1) :
    Q.call (fun x => (List.zipWith (fun F z => F z) Fs (slices (quads.map dim) x)).prod) =
      iterated Is (fun x => (List.zipWith (fun F z => F z) Fs (slices (quads.map dim) x)).prod) := by
  have hlen := hI.length_eq
  rw [List.length_map] at hlen
  obtain ⟨e, he⟩ : ∃ e, minExact (quads.map (·.exactTo)) = .ok e := minExact_of_ok quads Q hQ
  obtain ⟨Q', hQ', -, -, -, -, -, -, hcall⟩ := C34_iterated quads hq hz e he
  rw [hQ] at hQ'
  obtain rfl := Except.ok.inj hQ'
  rw [hcall, iterated_product _ _ (forall₂_call quads hq) _ (by simpa using hF),
    iterated_product _ _ hI _ (by simpa using hF)]
  congr 1
  apply List.ext_getElem
  · simp; omega
  · intro i h1 h2
    simp only [List.getElem_zipWith, List.getElem_map]
    exact hex i (by simp at h1; omega)

theorem length_slices_q (dims : List Nat) {α : Type*} (x : List α) :
    (slices dims x).length = dims.length := by
  induction dims generalizing x with
  | nil => rfl
  | cons d dims ih => simp [slices, ih]

theorem power_append (a b : List Nat) (x y : List ℝ) (h : a.length = x.length) :
    power (a ++ b) (x ++ y) = power a x * power b y := by
  simp [power, List.zipWith_append h]

theorem power_slices (dims : List Nat) (a : List Nat) (x : List ℝ) (ha : a.length = dims.sum)
    (hx : x.length = dims.sum) :
    power a x = (List.zipWith (fun F z => F z) ((slices dims a).map power) (slices dims x)).prod := by
  induction dims generalizing a x with
  | nil =>
    have := List.length_eq_zero_iff.1 ha
    subst this
    simp [power, slices]
  | cons d dims ih =>
    rw [List.sum_cons] at ha hx
    rw [slices, slices, List.map_cons, List.zipWith_cons_cons, List.prod_cons,
      ← ih (a.drop d) (x.drop d) (by simp; omega) (by simp; omega),
      ← power_append _ _ _ _ (by simp; omega), List.take_append_drop, List.take_append_drop]

theorem length_getElem_slices_q (dims : List Nat) {α : Type*} (a : List α) (ha : a.length = dims.sum)
    (i : Nat) (hi : i < dims.length) :
    ((slices dims a)[i]'(by rw [length_slices_q]; exact hi)).length = dims[i] := by
  induction dims generalizing a i with
  | nil => simp at hi
  | cons d dims ih =>
    rw [List.sum_cons] at ha
    cases i with
    | zero => simp [slices]; omega
    | succ i =>
      simp only [slices, List.getElem_cons_succ]
      exact ih _ (by simp; omega) i (by simpa using hi)

theorem sum_getElem_slices_le (dims : List Nat) (a : List Nat) (i : Nat)
    (hi : i < (slices dims a).length) : (slices dims a)[i].sum ≤ a.sum := by
  induction dims generalizing a i with
  | nil => simp [slices] at hi
  | cons d dims ih =>
    have hsum : (a.take d).sum + (a.drop d).sum = a.sum := by
      rw [← List.sum_append, List.take_append_drop]
    cases i with
    | zero => simp only [slices, List.getElem_cons_zero]; omega
    | succ i =>
      simp only [slices, List.getElem_cons_succ]
      have := ih (a.drop d) i (by simpa [slices] using hi)
      omega

/-- **C34 (exactness).**  If each base rule is exact to degree `Nᵢ`, the product rule is exact for every
monomial whose degree in the coordinates of factor `i` is at most `Nᵢ`; in particular up to total degree
`N` when `N ≤ Nᵢ` for all `i`. -/
theorem C34_exact (quads : List Quadrature) (hq : ∀ q ∈ quads, WellShaped q)
    (Is : List ((List ℝ → ℝ) → ℝ)) (hI : List.Forall₂ IsFunctional (quads.map dim) Is)
    (Ns : List Nat) (hN : Ns.length = quads.length)
    (hex : ∀ i (hi : i < quads.length), ExactTo quads[i].dim (Ns[i]'(by omega)) quads[i].call
      (Is[i]'(by have := hI.length_eq; simp at this; omega)))
    (Q : Quadrature) (hQ : tensorProduct quads = .ok Q)
    (hz : (quads.map dim).sum = 0 → (quads.map nnodes).prod = 1) :
    (∀ a : List Nat, a.length = (quads.map dim).sum →
      (∀ i (hi : i < quads.length),
        ((slices (quads.map dim) a)[i]'(by rw [length_slices_q]; simpa using hi)).sum ≤ Ns[i]'(by omega)) →
      Q.call (power a) = iterated Is (power a)) ∧
    ∀ N, (∀ i (hi : i < Ns.length), N ≤ Ns[i]) →
      ExactTo (quads.map dim).sum N Q.call (iterated Is) := by
  have first : ∀ a : List Nat, a.length = (quads.map dim).sum →
      (∀ i (hi : i < quads.length),
        ((slices (quads.map dim) a)[i]'(by rw [length_slices_q]; simpa using hi)).sum ≤ Ns[i]'(by omega)) →
      Q.call (power a) = iterated Is (power a) := by
    intro a ha hdeg
    have hp := C34_products quads hq Is hI ((slices (quads.map dim) a).map power)
      (by simp [length_slices_q]) (by
        intro i hi
        rw [List.getElem_map]
        apply hex i hi _ _ (hdeg i hi)
        rw [length_getElem_slices_q _ _ ha i (by simpa using hi), List.getElem_map]) Q hQ hz
    rw [iterated_congr _ _ hI (power a) _ fun x hx => power_slices _ a x ha hx, ← hp]
    obtain ⟨e, he⟩ : ∃ e, minExact (quads.map (·.exactTo)) = .ok e := minExact_of_ok quads Q hQ
    obtain ⟨Q', hQ', -, -, -, -, -, -, hcall⟩ := C34_iterated quads hq hz e he
    rw [hQ] at hQ'
    obtain rfl := Except.ok.inj hQ'
    rw [hcall, hcall]
    exact iterated_congr _ _ (forall₂_call quads hq) _ _ fun x hx => power_slices _ a x ha hx
  refine ⟨first, ?_⟩
  intro N hle a ha hs
  apply first a ha
  intro i hi
  exact (sum_getElem_slices_le _ _ _ _).trans (hs.trans (hle i (by omega)))

theorem minExactFrom_eq (c : PyVal) (l : List PyVal) :
    minExactFrom c (l.map some) = (pyMinFrom c l).map some := by
  induction l generalizing c with
  | nil => rfl
  | cons x l ih =>
    simp only [List.map_cons, minExactFrom, pyMinFrom]
    cases pyCmp .lt x c with
    | error e => rfl
    | ok b => cases b <;> simp [ih]

/-- **C34 (`exact_to`).**  When every base rule declares an exactness (an integer or infinity), that of
the product is the least of them; when there are no base rules it is infinity; when some base rule
declares none and no comparison before it fails, the product declares none. -/
theorem C34_exact_to :
    (∀ l : List PyVal, l ≠ [] → (∀ a ∈ l, IsExact a) →
      ∃ m ∈ l, minExact (l.map some) = .ok (some m) ∧ ∀ a ∈ l, exactValue m ≤ exactValue a) ∧
    minExact [] = .ok (some .inf) ∧
    (∀ l : List (Option PyVal), (∀ a, some a ∈ l → IsExact a) → none ∈ l → minExact l = .ok none) := by
  refine ⟨?_, rfl, ?_⟩
  · intro l hne h
    obtain ⟨m, h1, h2, h3⟩ := C37_min l hne h
    refine ⟨m, h2, ?_, h3⟩
    cases l with
    | nil => exact absurd rfl hne
    | cons x l =>
      simp only [List.map_cons, minExact, pyMin] at h1 ⊢
      rw [minExactFrom_eq, h1]
      rfl
  · have key : ∀ (l : List (Option PyVal)) (c : PyVal), IsExact c → (∀ a, some a ∈ l → IsExact a) →
        none ∈ l → minExactFrom c l = .ok none := by
      intro l
      induction l with
      | nil => intro c _ _ h; simp at h
      | cons x l ih =>
        intro c hc h hn
        cases x with
        | none => rfl
        | some x =>
          have hn' : none ∈ l := by simpa using hn
          have hx := h x (by simp)
          have hl : ∀ a, some a ∈ l → IsExact a := fun a ha => h a (by simp [ha])
          rw [minExactFrom, (C37_order x c hx hc).1]
          cases decide (exactValue x < exactValue c) <;> simp only
          · exact ih c hc hl hn'
          · exact ih x hx hl hn'
    intro l h hn
    cases l with
    | nil => simp at hn
    | cons x l =>
      cases x with
      | none => rfl
      | some x =>
        exact key l x (h x (by simp)) (fun a ha => h a (by simp [ha])) (by simpa using hn)

/-- With only zero-dimensional factors the node array always has one column, so the constructor's
assertion fails unless the product of the node counts is one. -/
theorem C34_zero_dim_assertion (quads : List Quadrature) (hq : ∀ q ∈ quads, WellShaped q)
    (h0 : (quads.map dim).sum = 0) (h1 : (quads.map nnodes).prod ≠ 1) :
    tensorProduct quads = .error .AssertionError := by
  have hNr : ((quads.map (·.nodes)).map as2).map rows = quads.map dim := by
    simp only [List.map_map]
    exact List.map_congr_left fun q h => (column_as2 q (hq q h)).2.2.1
  have hW : ((quads.map (·.weights)).map as2).map ncols = quads.map nnodes := by
    simp only [List.map_map]
    exact List.map_congr_left fun q h => (weights_as2 q (hq q h)).2.2.2.1
  have hWr : ((quads.map (·.weights)).map as2).map rows = quads.map fun _ => 1 := by
    simp only [List.map_map]
    exact List.map_congr_left fun q h => (weights_as2 q (hq q h)).2.2.1
  obtain ⟨w, hw, hws, -⟩ := tpn_columns 0 (quads.map (·.weights)) (by
    intro a ha
    obtain ⟨q, h, rfl⟩ := List.mem_map.1 ha
    exact ⟨(weights_as2 q (hq q h)).1, (weights_as2 q (hq q h)).2.1⟩) (by
      rw [hW, hWr]
      intro h0
      have : quads.length = 0 := by simpa using h0
      rw [List.length_eq_zero_iff.1 this]
      rfl)
  rw [hW] at hws
  obtain ⟨x, hx, hxs⟩ : ∃ x, tensorProductNodes 0 (quads.map (·.nodes)) = .ok x ∧
      x.shape = [0, 1] := by
    have has : ∀ a ∈ quads.map (·.nodes), asNodeset a = .ok (as2 a) ∧ Is2D (as2 a) := by
      intro a ha
      obtain ⟨q, h, rfl⟩ := List.mem_map.1 ha
      exact ⟨(column_as2 q (hq q h)).1, (column_as2 q (hq q h)).2.1⟩
    rw [tensorProductNodes_as2 0 _ has]
    apply C03_zero_dim
    intro a ha
    refine ⟨ncols a, ?_⟩
    have h2 : rows a = 0 := by
      have := List.single_le_sum (fun _ _ => Nat.zero_le _) (rows a)
        (List.mem_map_of_mem (f := rows) ha)
      rw [hNr] at this
      omega
    rw [← h2]
    obtain ⟨b, hb, rfl⟩ := List.mem_map.1 ha
    exact (has b hb).2
  rw [tensorProduct, hx]
  simp only
  rw [hw]
  simp only
  rw [if_pos]
  simp only [prodAxis0, ncols, hws, hxs, size_cons, size_nil, Nat.mul_one]
  simpa using h1

/-- Two factors of different dimension and node count. -/
example : ∃ q1 q2 : Quadrature, WellShaped q1 ∧ WellShaped q2 ∧ q1.dim = 1 ∧ q2.dim = 2 ∧
    ∃ Q, tensorProduct [q1, q2] = .ok Q ∧ Q.nnodes = 6 ∧ Q.exactTo = some (.num 1) := by
  refine ⟨⟨⟨[3], fun _ => 0⟩, ⟨[3], fun _ => 1⟩, some (.num 3), none⟩,
    ⟨⟨[2, 2], fun _ => 0⟩, ⟨[2], fun _ => 1⟩, some (.num 1), none⟩,
    ⟨3, rfl, .inl rfl⟩, ⟨2, rfl, .inr ⟨2, rfl⟩⟩, rfl, rfl, ?_⟩
  obtain ⟨Q, h1, h2, -, h4, -⟩ := C34_iterated
    [⟨⟨[3], fun _ => 0⟩, ⟨[3], fun _ => 1⟩, some (.num 3), none⟩,
    ⟨⟨[2, 2], fun _ => 0⟩, ⟨[2], fun _ => 1⟩, some (.num 1), none⟩]
    (by
      intro q hq
      simp only [List.mem_cons, List.not_mem_nil, or_false] at hq
      rcases hq with rfl | rfl
      · exact ⟨3, rfl, .inl rfl⟩
      · exact ⟨2, rfl, .inr ⟨2, rfl⟩⟩)
    (by intro h; simp [dim] at h) (some (.num 1)) (by rfl)
  exact ⟨Q, h1, by simp [nnodes, h4], h2⟩

/-! ## C42: `spectral_diag_nodal_mass_matrix` -/

/-- **C42 (spectral mass matrix).**  For a tensor product of one-dimensional rules the returned vector is
the diagonal of the quadrature mass matrix of any functions `ℓ` that are one at their own node of the
rule and zero at the others, and that matrix has no other entries. -/
theorem C42_spectral (quads : List Quadrature) (hq : ∀ q ∈ quads, WellShaped q)
    (h1 : ∀ q ∈ quads, q.dim = 1) (Q : Quadrature) (hQ : tensorProduct quads = .ok Q)
    (ℓ : Nat → List ℝ → ℝ)
    (hℓ : ∀ i < Q.nnodes, ∀ k < Q.nnodes, ℓ i (Q.node k) = if i = k then 1 else 0) :
    ∃ w, spectralDiag Q = .ok w ∧ w.shape = [(quads.map nnodes).prod] ∧
      ∀ i < Q.nnodes, ∀ j < Q.nnodes,
        Q.call (fun x => ℓ i x * ℓ j x) = if i = j then w.get [i] else 0 := by
  have hz : (quads.map dim).sum = 0 → (quads.map nnodes).prod = 1 := by
    intro h
    cases quads with
    | nil => rfl
    | cons q quads =>
      exfalso
      have := h1 q (by simp)
      simp only [List.map_cons, List.sum_cons] at h
      omega
  obtain ⟨e, he⟩ := minExact_of_ok quads Q hQ
  obtain ⟨Q', hQ', -, -, hws, hfd, -, -, -⟩ := C34_iterated quads hq hz e he
  rw [hQ] at hQ'
  obtain rfl := Except.ok.inj hQ'
  refine ⟨Q.weights, ?_, hws, ?_⟩
  · simp only [spectralDiag, hfd]
    rw [if_pos]
    simpa using h1
  · intro i hi j hj
    rw [call, sum_map_range]
    rw [Finset.sum_eq_single i]
    · rw [hℓ i hi i hi, hℓ j hj i hi]
      by_cases h : i = j
      · subst h; simp
      · simp [h, Ne.symm h]
    · intro k hk hne
      rw [hℓ i hi k (by simpa using hk), if_neg (Ne.symm hne)]
      ring
    · intro h; simp at h; omega

/-- Rules that are not tensor products, and products with a factor that is not one-dimensional, are
rejected. -/
theorem C42_spectral_errors (q : Quadrature) :
    (q.factorDims = none → spectralDiag q = .error .ValueError) ∧
    (∀ dims, q.factorDims = some dims → (∃ d ∈ dims, d ≠ 1) → spectralDiag q = .error .ValueError) := by
  constructor
  · intro h; simp [spectralDiag, h]
  · rintro dims h ⟨d, hd, hne⟩
    simp only [spectralDiag, h]
    rw [if_neg]
    simp only [List.all_eq_true, decide_eq_true_eq, not_forall]
    exact ⟨d, hd, hne⟩

/-- Two one-dimensional rules with two nodes each: functions as in `C42_spectral` exist because the
nodes are distinct. -/
example : ∃ Q, tensorProduct
      [⟨⟨[2], fun i => (i.headD 0 : ℝ)⟩, ⟨[2], fun _ => 1⟩, some (.num 1), none⟩,
       ⟨⟨[2], fun i => (i.headD 0 : ℝ)⟩, ⟨[2], fun _ => 1⟩, some (.num 1), none⟩] = .ok Q ∧
    ∃ ℓ : Nat → List ℝ → ℝ, ∀ i < Q.nnodes, ∀ k < Q.nnodes,
      ℓ i (Q.node k) = if i = k then 1 else 0 := by
  obtain ⟨Q, h, -, hns, hws, -, -, hnode, -⟩ := C34_iterated
      [⟨⟨[2], fun i => (i.headD 0 : ℝ)⟩, ⟨[2], fun _ => 1⟩, some (.num 1), none⟩,
       ⟨⟨[2], fun i => (i.headD 0 : ℝ)⟩, ⟨[2], fun _ => 1⟩, some (.num 1), none⟩]
    (by
      intro q hq
      simp only [List.mem_cons, List.not_mem_nil, or_false] at hq
      rcases hq with rfl | rfl <;> exact ⟨2, rfl, .inl rfl⟩)
    (by intro h; simp [dim] at h) (some (.num 1)) (by rfl)
  refine ⟨Q, h, fun i x => open Classical in if x = Q.node i then 1 else 0, ?_⟩
  have hn : Q.nnodes = 4 := by simp [nnodes, hws]
  intro i hi k hk
  have hi' := hnode i hi
  have hk' := hnode k hk
  rw [hn] at hi hk
  simp only [hi', hk']
  simp only [nnodes, digit, List.range_succ, List.range_zero, List.nil_append, List.map_append,
    List.map_cons, List.map_nil, List.length_cons, List.length_nil, node]
  interval_cases i <;> interval_cases k <;> simp [digit]

end Modepy

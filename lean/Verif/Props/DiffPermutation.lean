import Verif.Proofs.Unisolvence
import Verif.Proofs.Nodes
import Verif.Proofs.TensorQuadrature
import Verif.Props.Indexing
import Mathlib.Analysis.Calculus.Deriv.Comp

/-!
# Property C40 (differentiation matrices of different axes), C62 (equispaced nodes are unisolvent)
-/

namespace Modepy
open Spec Matrix

/-! ## Swapping coordinates -/

theorem length_swapAt {α : Type*} (k : Nat) (l : List α) : (swapAt k l).length = l.length := by
  unfold swapAt; split <;> simp

theorem swapAt_eq {α : Type*} {k : Nat} {l : List α} (hk : k < l.length) :
    swapAt k l = (l.set 0 l[k]).set k (l[0]'(by omega)) := by
  unfold swapAt
  rw [List.getElem?_eq_getElem hk, List.getElem?_eq_getElem (by omega)]

theorem getElem_swapAt {α : Type*} {k : Nat} {l : List α} (hk : k < l.length) (i : Nat)
    (hi : i < (swapAt k l).length) :
    (swapAt k l)[i] = l[if i = 0 then k else if i = k then 0 else i]'(by
      rw [length_swapAt] at hi; split_ifs <;> omega) := by
  simp only [swapAt_eq hk, List.getElem_set]
  by_cases h0 : i = 0
  · subst h0
    by_cases hk0 : k = 0
    · subst hk0; simp
    · simp [hk0]
  · by_cases hik : i = k
    · subst hik; simp [h0]
    · simp [h0, hik, Ne.symm h0, Ne.symm hik]

theorem swapAt_swapAt {α : Type*} {k : Nat} {l : List α} (hk : k < l.length) :
    swapAt k (swapAt k l) = l := by
  have hk' : k < (swapAt k l).length := by rwa [length_swapAt]
  apply List.ext_getElem
  · rw [length_swapAt, length_swapAt]
  · intro i h1 h2
    rw [getElem_swapAt hk', getElem_swapAt hk]
    congr 1
    split_ifs <;> omega

theorem swapAt_zero {α : Type*} (l : List α) : swapAt 0 l = l := by
  cases l <;> simp [swapAt]

theorem swapAt_set_zero {α : Type*} {k : Nat} {l : List α} (hk : k < l.length) (t : α) :
    swapAt k (l.set 0 t) = (swapAt k l).set k t := by
  have hk' : k < (l.set 0 t).length := by simpa using hk
  apply List.ext_getElem
  · simp [length_swapAt]
  · intro i h1 h2
    rw [getElem_swapAt hk', List.getElem_set, List.getElem_set, getElem_swapAt hk]
    refine if_congr ?_ rfl rfl
    split_ifs <;> omega

theorem zipWith_swapAt {α β γ : Type*} (f : α → β → γ) {k : Nat} {a : List α} {b : List β}
    (hk : k < a.length) (h : a.length = b.length) :
    List.zipWith f (swapAt k a) (swapAt k b) = swapAt k (List.zipWith f a b) := by
  apply List.ext_getElem
  · simp [length_swapAt]
  · intro i h1 h2
    rw [List.getElem_zipWith, getElem_swapAt hk, getElem_swapAt (by omega),
      getElem_swapAt (by simp; omega), List.getElem_zipWith]

theorem perm_swapAt {α : Type*} (k : Nat) (l : List α) : (swapAt k l).Perm l := by
  by_cases hk : k < l.length
  · cases l with
    | nil => simp at hk
    | cons a l =>
      cases k with
      | zero => rw [swapAt_zero]
      | succ k =>
        simp only [List.length_cons, Nat.add_lt_add_iff_right] at hk
        rw [swapAt_eq (by simpa using hk)]
        simp only [List.getElem_cons_succ, List.getElem_cons_zero, List.set_cons_zero,
          List.set_cons_succ]
        have h1 := List.set_perm_cons_eraseIdx hk a
        have h2 := List.getElem_cons_eraseIdx_perm hk
        exact (List.Perm.cons _ h1).trans ((List.Perm.swap _ _ _).trans (List.Perm.cons _ h2))
  · unfold swapAt
    rw [List.getElem?_eq_none (by omega : l.length ≤ k)]
    split <;> simp_all

/-! ## The permutation -/

/-- **C40 (permutation).**  For distinct tuples closed under exchanging entries `0` and `k`,
`diff_matrix_permutation` returns the index of the exchanged tuple; it is an involution. -/
theorem C40_permutation (T : List (List Nat)) (k : Nat) (hlen : ∀ t ∈ T, k < t.length) (hn : T.Nodup)
    (hsw : ∀ t ∈ T, swapAt k t ∈ T) :
    ∃ π : Fin T.length → Fin T.length,
      diffMatrixPermutation T k = .ok (List.ofFn fun i => (π i : Nat)) ∧
      (∀ i, T[π i] = swapAt k T[i]) ∧ Function.Involutive π := by
  have hex : ∀ i : Fin T.length, ∃ j : Fin T.length, T[j] = swapAt k T[i] := by
    intro i
    obtain ⟨j, hj, h⟩ := List.getElem_of_mem (hsw T[i] (by simp))
    exact ⟨⟨j, hj⟩, h⟩
  choose π hπ using hex
  refine ⟨π, ?_, hπ, ?_⟩
  · unfold diffMatrixPermutation
    split
    · rename_i h0
      subst h0
      congr 1
      apply List.ext_getElem
      · simp
      · intro i h1 h2
        simp only [List.length_range] at h1
        simp only [List.getElem_range, List.getElem_ofFn]
        have := hπ ⟨i, h1⟩
        rw [swapAt_zero] at this
        exact (hn.getElem_inj_iff.1 this).symm
    · have hfl : ∀ i : Fin T.length, flippedIdx T k T[i] = .ok (π i : Nat) := by
        intro i
        have hk := hlen T[i] (by simp)
        unfold flippedIdx
        rw [List.getElem?_eq_getElem (by omega : 0 < T[i].length), List.getElem?_eq_getElem hk]
        simp only
        rw [show (T[i].set 0 T[i][k]).set k (T[i][0]'(by omega)) = T[π i] by
          rw [hπ i]; exact (swapAt_eq hk).symm]
        have hf : ((List.range T.length).filter fun j => decide (T[j]? = some T[π i])) =
            [(π i : Nat)] := by
          rw [← List.perm_singleton, List.perm_ext_iff_of_nodup (List.nodup_range.filter _) (by simp)]
          intro a
          simp only [List.mem_filter, List.mem_range, decide_eq_true_eq, List.mem_singleton]
          constructor
          · rintro ⟨ha, h⟩
            rw [List.getElem?_eq_getElem ha, Option.some_inj] at h
            exact hn.getElem_inj_iff.1 h
          · rintro rfl
            exact ⟨(π i).2, List.getElem?_eq_getElem (π i).2⟩
        rw [hf]
        rfl
      have : T.map (flippedIdx T k) = (List.ofFn fun i => (π i : Nat)).map Except.ok := by
        apply List.ext_getElem
        · simp
        · intro i h1 h2
          simp only [List.getElem_map, List.getElem_ofFn]
          exact hfl ⟨i, by simpa using h1⟩
      rw [this, collect_ok]
  · intro i
    have h1 := hπ (π i)
    rw [hπ i, swapAt_swapAt (hlen _ (by simp))] at h1
    exact Fin.ext (hn.getElem_inj_iff.1 h1)

/-! ## The matrices -/

theorem IsGradientAt.swap {d k : Nat} {F F' : List ℝ → ℝ} {x g g' : List ℝ} (hx : x.length = d) (hk : k < d)
    (hF : IsGradientAt d F (swapAt k x) g) (hF' : IsGradientAt d F' x g')
    (he : ∀ y : List ℝ, y.length = d → F (swapAt k y) = F' y) :
    g'.getD 0 0 = g.getD k 0 := by
  have h1 := hF'.2 0 (by omega)
  have h2 := hF.2 k hk
  have e : (fun t => F' (x.set 0 t)) = fun t => F ((swapAt k x).set k t) := by
    funext t; rw [← he _ (by simp [hx]), swapAt_set_zero (by omega)]
  have e2 : (swapAt k x).getD k 0 = x.getD 0 0 := by
    have hk1 : k < (swapAt k x).length := by rw [length_swapAt]; omega
    simp only [List.getD_eq_getElem?_getD]
    rw [List.getElem?_eq_getElem hk1, getElem_swapAt (by omega),
      List.getElem?_eq_getElem (by omega : 0 < x.length)]
    simp only [Option.getD_some]
    congr 1
    split_ifs <;> omega
  rw [e] at h1
  rw [e2] at h2
  exact h1.unique h2

/-- **C40 (matrices).**  Let the node set be closed under the exchange of coordinates `0` and `k`, node
`π i` being the image of node `i`, and let the span of the basis be closed under composition with the
exchange.  Then matrix `k` is matrix `0` with rows and columns permuted by `π`. -/
theorem C40_matrices {n d k : Nat} (hk : k < d) (φ : Fin n → List ℝ → ℝ)
    (g : Fin n → List ℝ → Fin d → ℝ) (x : Fin n → List ℝ) (hn : n ≠ 0) (hu : Unisolvent φ x)
    (hx : ∀ i, (x i).length = d)
    (hg : ∀ j i, IsGradientAt d (φ j) (x i) (List.ofFn (g j (x i))))
    (π : Fin n → Fin n) (hπ : ∀ i, x (π i) = swapAt k (x i))
    (hspan : ∀ j, ∃ c, ∀ y : List ℝ, y.length = d → φ j (swapAt k y) = combine φ c y) :
    ∃ D, differentiationMatrices φ g x x = .ok D ∧
      ∀ i j, D ⟨k, hk⟩ i j = D ⟨0, by omega⟩ (π i) (π j) := by
  obtain ⟨D, hD, hgrad⟩ := C39_differentiates φ g x x hn (by omega) hu hg
  refine ⟨D, hD, fun i j => ?_⟩
  obtain ⟨ℓ, C, hC, hδ⟩ := lagrange_exists φ x hu
  have hent : ∀ (a : Fin d) (i j : Fin n), D a i j = ∑ l, D a i l * ℓ j (x l) := by
    intro a i j
    simp [hδ]
  have hinv : ∀ i, x (π (π i)) = x i := fun i => by
    rw [hπ, hπ, swapAt_swapAt (by rw [hx]; omega)]
  -- nodes are distinct, so `π` is an involution
  have hdist : ∀ a b, x a = x b → a = b := by
    intro a b hab
    by_contra hne
    have h1 := hδ a a
    have h2 := hδ a b
    rw [if_neg hne] at h2
    rw [if_pos rfl, hab, h2] at h1
    exact zero_ne_one h1
  have hinv' : ∀ i, π (π i) = i := fun i => hdist _ _ (hinv i)
  -- `ℓ j ∘ S` is in the span and is the Lagrange function of `π j`
  have hcomb : ∃ e : Fin n → ℝ, ∀ y : List ℝ, y.length = d →
      ℓ j (swapAt k y) = combine φ e y := by
    choose c hc using hspan
    refine ⟨fun b => ∑ a, C j a * c a b, ?_⟩
    intro y hy
    rw [hC j]
    simp only [combine, Finset.sum_mul]
    rw [Finset.sum_comm]
    refine Finset.sum_congr rfl fun a _ => ?_
    have := hc a y hy
    simp only [combine] at this
    rw [this, Finset.mul_sum]
    exact Finset.sum_congr rfl fun b _ => by ring
  obtain ⟨e, he⟩ := hcomb
  have hval : ∀ l, combine φ e (x l) = ℓ (π j) (x l) := by
    intro l
    rw [← he _ (hx l), ← hπ, hδ, hδ]
    congr 1
    apply propext
    constructor
    · intro h; rw [h, hinv']
    · intro h; rw [← h, hinv']
  have h0 := hgrad e (π i)
  have h1 := hgrad (C j) i
  rw [← hC j] at h1
  have hxi : x i = swapAt k (x (π i)) := by rw [← hπ, hinv']
  rw [hxi] at h1
  have key := IsGradientAt.swap (hx (π i)) hk h1 h0 he
  have hd0 : 0 < d := by omega
  simp only [List.getD_eq_getElem?_getD, List.getElem?_ofFn, hk, hd0, dif_pos,
    Option.getD_some] at key
  rw [hent, hent ⟨0, hd0⟩, ← key]
  exact Finset.sum_congr rfl fun l _ => by rw [← hval l]

/-! ## C62: equispaced nodes are unisolvent -/

theorem forall₂_sum_le {s t : List Nat} (h : List.Forall₂ (· ≤ ·) s t) : s.sum ≤ t.sum := by
  induction h with
  | nil => simp
  | cons h _ ih => simp only [List.sum_cons]; omega

theorem lowerSet_gnitsam (d n : Nat) : LowerSet' (Pytools.gnitsam n d) := by
  intro t ht s hs
  rw [Pytools.mem_gnitsam] at ht ⊢
  exact ⟨hs.length_eq.trans ht.1, (forall₂_sum_le hs).trans ht.2⟩

theorem column_grid (A : NdArray ℝ) (axes : List (ℝ × ℝ)) (t : List Nat) (k : Nat)
    (ht : t.length = axes.length)
    (h : ∀ r (hr : r < axes.length), A.get [r, k] = axes[r].1 * ((t.getD r 0 : Nat) : ℝ) + axes[r].2) :
    column A axes.length k = gridPoint axes t := by
  apply List.ext_getElem
  · simp [column, gridPoint, ht]
  · intro r h1 h2
    have hr : r < axes.length := by simpa [column] using h1
    simp only [column, gridPoint, List.getElem_map, List.getElem_range, List.getElem_zipWith]
    rw [h r hr, List.getD_eq_getElem?_getD, List.getElem?_eq_getElem (by omega)]
    rfl

/-- The equispaced nodes of `PN(d, n)` are a grid indexed by the node tuples. -/
theorem equispaced_pn_grid (d n : Nat) :
    ∃ (A : NdArray ℝ) (axes : List (ℝ × ℝ)),
      equispacedNodes (.pn ⟨d, n⟩) (.simplex d) = .ok A ∧ axes.length = d ∧
      (∀ ab ∈ axes, ab.1 ≠ 0) ∧
      (∃ ab, 0 < n → axes = List.replicate d ab) ∧
      ∀ k (hk : k < (nodeTuples (.pn ⟨d, n⟩)).length),
        column A d k = gridPoint axes (nodeTuples (.pn ⟨d, n⟩))[k] := by
  have hlen : ∀ k (hk : k < (nodeTuples (.pn ⟨d, n⟩)).length),
      ((nodeTuples (.pn ⟨d, n⟩))[k]).length = d ∧ ((nodeTuples (.pn ⟨d, n⟩))[k]).sum ≤ n := by
    intro k hk
    exact (C01_mem d n _).1 (by simp)
  rcases Nat.eq_zero_or_pos n with rfl | hn
  · refine ⟨simplexCentroid d, (List.range d).map fun r => (1, (simplexCentroid d).get [r, 0]),
      by simp [equispacedNodes, equispacedPN], by simp, by simp, ⟨(0, 0), by simp⟩, ?_⟩
    intro k hk
    obtain ⟨h1, h2⟩ := hlen k hk
    have := column_grid (simplexCentroid d)
      ((List.range d).map fun r => (1, (simplexCentroid d).get [r, 0])) _ k (by simpa using h1) ?_
    · simpa using this
    · intro r hr
      have h0 : ((nodeTuples (.pn ⟨d, 0⟩))[k]).getD r 0 = 0 := by
        have hall : ∀ a ∈ (nodeTuples (.pn ⟨d, 0⟩))[k], a = 0 := by
          intro a ha
          have := List.single_le_sum (by simp) a ha
          omega
        rw [List.getD_eq_getElem?_getD, List.getElem?_eq_getElem (by simpa [h1] using hr)]
        exact hall _ (by simp)
      rw [h0]
      simp only [List.getElem_map, List.getElem_range, Nat.cast_zero, mul_zero, zero_add]
      rfl
  · obtain ⟨A, hA, _, hval⟩ := C04_pn (K := ℝ) d n hn
    refine ⟨A, List.replicate d (2 / (n : ℝ), -1), hA, by simp, ?_, ⟨(2 / (n : ℝ), -1), fun _ => rfl⟩, ?_⟩
    · intro ab hab
      rw [List.eq_of_mem_replicate hab]
      positivity
    · intro k hk
      have := column_grid A (List.replicate d (2 / (n : ℝ), -1)) _ k
        (by simpa using (hlen k hk).1) ?_
      · simpa using this
      · intro r hr
        rw [hval, List.getElem_replicate, List.getD_eq_getElem?_getD (l := nodeTuples _),
          List.getElem?_eq_getElem hk]
        simp only [Option.getD_some]
        ring

/-- **C62.**  In every dimension and for every order the equispaced nodes of `PN` determine the
polynomials of the space: only the zero combination of its monomials vanishes at all of them. -/
theorem C62_pn (d n : Nat) :
    ∃ A : NdArray ℝ, equispacedNodes (.pn ⟨d, n⟩) (.simplex d) = .ok A ∧
      Unisolvent (fun (j : Fin (nodeTuples (.pn ⟨d, n⟩)).length) =>
          monomialValue (nodeTuples (.pn ⟨d, n⟩))[j])
        (fun (i : Fin (nodeTuples (.pn ⟨d, n⟩)).length) => column A d i) := by
  obtain ⟨A, axes, hA, hl, hne, _, hcol⟩ := equispaced_pn_grid d n
  refine ⟨A, hA, ?_⟩
  have := unisolvent_grid axes hne (nodeTuples (.pn ⟨d, n⟩))
    (fun t ht => by rw [hl]; exact ((C01_mem d n t).1 ht).1) (C01_nodup d n) (lowerSet_gnitsam d n)
  have e : (fun (i : Fin (nodeTuples (.pn ⟨d, n⟩)).length) => column A d i) =
      fun i => gridPoint axes (nodeTuples (.pn ⟨d, n⟩))[i] := funext fun i => hcol i i.2
  rw [e]
  exact this

/-- Unisolvence does not depend on the choice of the basis of the space. -/
theorem C62_any_basis {n : Nat} {X : Type*} (φ ψ : Fin n → X → ℝ) (x : Fin n → X) (hu : Unisolvent φ x)
    (c e : Fin n → Fin n → ℝ) (h1 : ∀ j, ψ j = combine φ (c j)) (h2 : ∀ j, φ j = combine ψ (e j)) :
    Unisolvent ψ x := by
  have hV : vandermonde φ x = vandermonde ψ x * (Matrix.of e)ᵀ := by
    ext i j
    rw [Matrix.mul_apply]
    show φ j (x i) = _
    rw [h2 j]
    exact Finset.sum_congr rfl fun k _ => mul_comm _ _
  rw [unisolvent_iff_det] at hu ⊢
  intro h
  rw [hV, det_mul, h, zero_mul] at hu
  exact hu rfl

/-! ## C40 for equispaced nodes -/

theorem monomialValue_swapAt {k : Nat} (t : List Nat) (x : List ℝ) (hk : k < t.length)
    (h : t.length = x.length) : monomialValue t (swapAt k x) = monomialValue (swapAt k t) x := by
  unfold monomialValue
  have : List.zipWith (fun (o : Nat) (r : ℝ) => r ^ o) t (swapAt k x) =
      swapAt k (List.zipWith (fun (o : Nat) (r : ℝ) => r ^ o) (swapAt k t) x) := by
    rw [← zipWith_swapAt _ (by rwa [length_swapAt]) (by rw [length_swapAt, h]), swapAt_swapAt hk]
  rw [this]
  exact (perm_swapAt k _).prod_eq

theorem gridPoint_swapAt {d k : Nat} (ab : ℝ × ℝ) (t : List Nat) (ht : t.length = d) :
    gridPoint (List.replicate d ab) (swapAt k t) = swapAt k (gridPoint (List.replicate d ab) t) := by
  by_cases hk : k < d
  · unfold gridPoint
    rw [← zipWith_swapAt _ (by simpa using hk) (by simp [ht])]
    congr 1
    apply List.ext_getElem
    · simp [length_swapAt]
    · intro i h1 h2
      rw [getElem_swapAt (by simpa using hk)]
      simp
  · have hnone : ∀ {α : Type} (l : List α), l.length = d → swapAt k l = l := by
      intro α l hl
      unfold swapAt
      rw [List.getElem?_eq_none (by omega : l.length ≤ k)]
      split <;> simp_all
    rw [hnone t ht, hnone _ (by simp [gridPoint, ht])]

/-- Grid nodes with equal steps and origins on all axes, tuples closed under the exchange, and any basis
of the span of the monomials of these tuples. -/
theorem diff_matrices_grid {d k : Nat} (hk : k < d) (ab : ℝ × ℝ) (T : List (List Nat))
    (hT : T ≠ []) (hlen : ∀ t ∈ T, t.length = d) (hn : T.Nodup) (hsw : ∀ t ∈ T, swapAt k t ∈ T)
    (φ : Fin T.length → List ℝ → ℝ) (g : Fin T.length → List ℝ → Fin d → ℝ)
    (x : Fin T.length → List ℝ) (hx : ∀ i, x i = gridPoint (List.replicate d ab) T[i])
    (hφ : ∀ j, ∃ c : Fin T.length → ℝ, ∀ y : List ℝ, y.length = d →
      φ j y = combine (fun i => monomialValue T[i]) c y)
    (hu : Unisolvent φ x)
    (hg : ∀ j i, IsGradientAt d (φ j) (x i) (List.ofFn (g j (x i)))) :
    ∃ (π : Fin T.length → Fin T.length) (D : Fin d → Matrix (Fin T.length) (Fin T.length) ℝ),
      diffMatrixPermutation T k = .ok (List.ofFn fun i => (π i : Nat)) ∧
      differentiationMatrices φ g x x = .ok D ∧
      ∀ i j, D ⟨k, hk⟩ i j = D ⟨0, by omega⟩ (π i) (π j) := by
  obtain ⟨π, hπok, hπ, hinv⟩ := C40_permutation T k (fun t ht => by rw [hlen t ht]; exact hk) hn hsw
  have hxl : ∀ i, (x i).length = d := by
    intro i
    have := hlen T[i] (by simp)
    rw [hx i, gridPoint, List.length_zipWith, List.length_replicate, this, Nat.min_self]
  -- the monomials are combinations of the basis
  choose c hc using hφ
  have hV : vandermonde φ x = vandermonde (fun i => monomialValue T[i]) x * (Matrix.of c)ᵀ := by
    ext i j
    rw [Matrix.mul_apply]
    show φ j (x i) = _
    rw [hc j _ (hxl i)]
    exact Finset.sum_congr rfl fun k _ => mul_comm _ _
  have hcd : (Matrix.of c).det ≠ 0 := by
    intro h
    rw [unisolvent_iff_det, hV, det_mul, det_transpose, h, mul_zero] at hu
    exact hu rfl
  have hmono : ∀ (i : Fin T.length) (y : List ℝ), y.length = d →
      monomialValue T[i] y = combine φ (fun b => (Matrix.of c)⁻¹ i b) y := by
    intro i y hy
    have h1 : (fun j => φ j y) = (Matrix.of c) *ᵥ (fun i => monomialValue T[i] y) := by
      funext j
      rw [hc j y hy]
      rfl
    have h2 : (Matrix.of c)⁻¹ *ᵥ (fun j => φ j y) = fun i => monomialValue T[i] y := by
      rw [h1, mulVec_mulVec, nonsing_inv_mul _ hcd.isUnit, one_mulVec]
    exact (congrFun h2 i).symm
  obtain ⟨D, hD, hDk⟩ := C40_matrices hk φ g x (by simpa using hT) hu hxl hg π
    (fun i => by rw [hx, hx, hπ, gridPoint_swapAt ab _ (hlen _ (by simp))]) (by
      intro j
      refine ⟨fun b => ∑ i, c j i * (Matrix.of c)⁻¹ (π i) b, fun y hy => ?_⟩
      rw [hc j _ (by rw [length_swapAt, hy])]
      simp only [combine, Finset.sum_mul]
      rw [Finset.sum_comm]
      refine Finset.sum_congr rfl fun i _ => ?_
      rw [monomialValue_swapAt _ _ (by rw [hlen _ (by simp)]; exact hk)
        (by rw [hlen _ (by simp), hy])]
      have := hmono (π i) y hy
      rw [hπ i] at this
      rw [this, combine, Finset.mul_sum]
      exact Finset.sum_congr rfl fun b _ => by ring)
  exact ⟨π, D, hπok, hD, hDk⟩

/-- **C40 for `PN`** with equispaced nodes: for every basis of the space (each function a combination of
the space's monomials, the nodes unisolvent) whose gradients are its partial derivatives,
`diff_matrices[k] == diff_matrices[0][permutation][:, permutation]`. -/
theorem C40_pn {d n k : Nat} (hk : k < d) (hn : 0 < n) (A : NdArray ℝ)
    (hA : equispacedNodes (.pn ⟨d, n⟩) (.simplex d) = .ok A)
    (T : List (List Nat)) (hT : T = nodeTuples (.pn ⟨d, n⟩))
    (x : Fin T.length → List ℝ) (hx : ∀ i, x i = column A d i)
    (φ : Fin T.length → List ℝ → ℝ) (g : Fin T.length → List ℝ → Fin d → ℝ)
    (hφ : ∀ j, ∃ c : Fin T.length → ℝ, ∀ y : List ℝ, y.length = d →
      φ j y = combine (fun i => monomialValue T[i]) c y)
    (hu : Unisolvent φ x)
    (hg : ∀ j i, IsGradientAt d (φ j) (x i) (List.ofFn (g j (x i)))) :
    ∃ (π : Fin T.length → Fin T.length) (D : Fin d → Matrix (Fin T.length) (Fin T.length) ℝ),
      diffMatrixPermutation T k = .ok (List.ofFn fun i => (π i : Nat)) ∧
      differentiationMatrices φ g x x = .ok D ∧
      ∀ i j, D ⟨k, hk⟩ i j = D ⟨0, by omega⟩ (π i) (π j) := by
  obtain ⟨A', axes, hA', _, _, ⟨ab, hab⟩, hcol⟩ := equispaced_pn_grid d n
  rw [hA] at hA'
  obtain rfl := Except.ok.inj hA'
  rw [hab hn] at hcol
  subst hT
  refine diff_matrices_grid hk ab (nodeTuples (.pn ⟨d, n⟩)) ?_
    (fun t ht => ((C01_mem d n t).1 ht).1) (C01_nodup d n) ?_ φ g x
    (fun i => (hx i).trans (hcol i i.2)) hφ hu hg
  · intro h
    have := (C01_mem d n (List.replicate d 0)).2 (by simp)
    rw [h] at this
    simp at this
  · intro t ht
    rw [C01_mem] at ht ⊢
    exact ⟨by rw [length_swapAt]; exact ht.1, by rw [(perm_swapAt k t).sum_eq]; exact ht.2⟩

/-- The hypotheses of `C40_pn` are met by the monomial basis with `grad_monomial`, in every dimension and
for every positive order. -/
theorem C40_pn_monomials {d n k : Nat} (hk : k < d) (hn : 0 < n)
    (T : List (List Nat)) (hT : T = nodeTuples (.pn ⟨d, n⟩)) :
    ∃ (A : NdArray ℝ) (π : Fin T.length → Fin T.length)
      (D : Fin d → Matrix (Fin T.length) (Fin T.length) ℝ),
      equispacedNodes (.pn ⟨d, n⟩) (.simplex d) = .ok A ∧
      diffMatrixPermutation T k = .ok (List.ofFn fun i => (π i : Nat)) ∧
      differentiationMatrices (fun (j : Fin T.length) => monomialValue T[j])
        (fun j y r => ((gradMonomial T[j] y).toOption.getD []).getD r 0)
        (fun (i : Fin T.length) => column A d i) (fun (i : Fin T.length) => column A d i) = .ok D ∧
      ∀ i j, D ⟨k, hk⟩ i j = D ⟨0, by omega⟩ (π i) (π j) := by
  subst hT
  obtain ⟨A, hA, hu⟩ := C62_pn d n
  obtain ⟨π, D, h1, h2, h3⟩ := C40_pn hk hn A hA (nodeTuples (.pn ⟨d, n⟩)) rfl
    (fun i => column A d i) (fun _ => rfl)
    (fun j => monomialValue (nodeTuples (.pn ⟨d, n⟩))[j])
    (fun j y r => ((gradMonomial (nodeTuples (.pn ⟨d, n⟩))[j] y).toOption.getD []).getD r 0)
    (fun j => ⟨Pi.single j 1, fun y _ => by simp [combine, Pi.single_apply]⟩) hu (by
      intro j i
      have hl : (nodeTuples (.pn ⟨d, n⟩))[j].length = d := ((C01_mem d n _).1 (by simp)).1
      obtain ⟨g, hg, hgr⟩ := C17_gradient (nodeTuples (.pn ⟨d, n⟩))[j] (column A d i)
        (by rw [hl]; simp [column])
      have he : (List.ofFn fun r : Fin d => ((gradMonomial (nodeTuples (.pn ⟨d, n⟩))[j]
          (column A d i)).toOption.getD []).getD r 0) = g := by
        rw [hg]
        have hgl := hgr.1
        rw [hl] at hgl
        apply List.ext_getElem
        · simp [hgl]
        · intro r h1 h2
          simp [Except.toOption, List.getD_eq_getElem?_getD, List.getElem?_eq_getElem h2]
      rw [he]
      rw [hl] at hgr
      exact hgr)
  exact ⟨A, π, D, hA, h1, h2, h3⟩

/-! ## Tensor product spaces -/

/-- Steps and origins of the equispaced nodes of a product space. -/
noncomputable def tpAxes (bases : List PNSpace) : List (ℝ × ℝ) :=
  (bases.map fun b => List.replicate b.spatialDim (2 / (b.order : ℝ), -1)).flatten

theorem length_tpAxes (bases : List PNSpace) :
    (tpAxes bases).length = (bases.map PNSpace.spatialDim).sum := by
  simp [tpAxes, List.length_flatten, Function.comp_def]

theorem getElem_tpAxes (bases : List PNSpace) (j : Nat) (hj : j < bases.length) (r : Nat)
    (hr : r < bases[j].spatialDim) :
    (tpAxes bases)[((bases.take j).map PNSpace.spatialDim).sum + r]? =
      some (2 / (bases[j].order : ℝ), -1) := by
  induction bases generalizing j with
  | nil => simp at hj
  | cons b bases ih =>
    simp only [tpAxes, List.map_cons, List.flatten_cons]
    cases j with
    | zero =>
      simp only [List.getElem_cons_zero] at hr
      simp [List.getElem?_append_left, hr]
    | succ j =>
      simp only [List.getElem_cons_succ] at hr
      simp only [List.take_succ_cons, List.map_cons, List.sum_cons, Nat.add_assoc]
      rw [List.getElem?_append_right (by simp)]
      simp only [List.length_replicate, Nat.add_sub_cancel_left]
      exact ih j (by simpa using hj) hr

theorem lowerSet_tp (bases : List PNSpace) : LowerSet' (nodeTuples (.tp bases)) := by
  intro t ht s hs
  rw [C02_mem] at ht ⊢
  obtain ⟨parts, hp, rfl⟩ := ht
  induction hp generalizing s with
  | nil =>
    refine ⟨[], .nil, ?_⟩
    simp only [List.flatten_nil, List.forall₂_nil_right_iff] at hs
    simp [hs]
  | @cons b p bs ps h _ ih =>
    rw [List.flatten_cons] at hs
    have h1 := List.forall₂_take_append _ _ _ hs
    have h2 := List.forall₂_drop_append _ _ _ hs
    obtain ⟨parts, hparts, he⟩ := ih _ h2
    refine ⟨s.take p.length :: parts, .cons ⟨h1.length_eq.trans h.1, (forall₂_sum_le h1).trans h.2⟩
      hparts, ?_⟩
    rw [List.flatten_cons, ← he, List.take_append_drop]

theorem length_of_mem_tp {bases : List PNSpace} {t : List Nat} (ht : t ∈ nodeTuples (.tp bases)) :
    t.length = (bases.map PNSpace.spatialDim).sum := by
  rw [C02_mem] at ht
  obtain ⟨parts, hp, rfl⟩ := ht
  rw [List.length_flatten]
  congr 1
  induction hp with
  | nil => rfl
  | cons h _ ih => simp [h.1, ih]

theorem equispaced_tp_grid (bases : List PNSpace) (hord : ∀ b ∈ bases, 0 < b.order)
    (hdim : 0 < (bases.map PNSpace.spatialDim).sum) :
    ∃ A : NdArray ℝ, equispacedNodes (.tp bases) (.tp (bases.map PNSpace.spatialDim)) = .ok A ∧
      ∀ k (hk : k < (nodeTuples (.tp bases)).length),
        column A (bases.map PNSpace.spatialDim).sum k =
          gridPoint (tpAxes bases) (nodeTuples (.tp bases))[k] := by
  obtain ⟨A, hA, _, hval⟩ := C04_tp (K := ℝ) bases hord hdim
  refine ⟨A, hA, fun k hk => ?_⟩
  have := column_grid A (tpAxes bases) (nodeTuples (.tp bases))[k] k
    (by rw [length_tpAxes]; exact length_of_mem_tp (by simp)) ?_
  · rwa [length_tpAxes] at this
  · intro r hr
    obtain ⟨j, hj, r', hr', rfl⟩ := exists_split_index (bases.map PNSpace.spatialDim) r
      (by rwa [← length_tpAxes])
    rw [List.length_map] at hj
    rw [List.getElem_map] at hr'
    have hv := hval j hj r' k hr' (by rw [← (C02_length bases).1]; exact hk)
    have hax := getElem_tpAxes bases j hj r' hr'
    have hax' : (tpAxes bases)[((bases.map PNSpace.spatialDim).take j).sum + r'] =
        (2 / (bases[j].order : ℝ), -1) := by
      rw [← Option.some_inj, ← List.getElem?_eq_getElem, ← List.map_take]
      exact hax
    rw [hax', ← List.map_take, hv, List.getD_eq_getElem?_getD (l := nodeTuples _),
      List.getElem?_eq_getElem hk]
    simp only [Option.getD_some]
    ring

/-- **C62 for tensor products** of spaces of positive order, of any dimensions. -/
theorem C62_tp (bases : List PNSpace) (hord : ∀ b ∈ bases, 0 < b.order)
    (hdim : 0 < (bases.map PNSpace.spatialDim).sum) :
    ∃ A : NdArray ℝ, equispacedNodes (.tp bases) (.tp (bases.map PNSpace.spatialDim)) = .ok A ∧
      Unisolvent (fun (j : Fin (nodeTuples (.tp bases)).length) =>
          monomialValue (nodeTuples (.tp bases))[j])
        (fun (i : Fin (nodeTuples (.tp bases)).length) =>
          column A (bases.map PNSpace.spatialDim).sum i) := by
  obtain ⟨A, hA, hcol⟩ := equispaced_tp_grid bases hord hdim
  refine ⟨A, hA, ?_⟩
  have := unisolvent_grid (tpAxes bases) (by
      intro ab hab
      simp only [tpAxes, List.mem_flatten, List.mem_map] at hab
      obtain ⟨_, ⟨b, hb, rfl⟩, hm⟩ := hab
      rw [List.eq_of_mem_replicate hm]
      have := hord b hb
      positivity) (nodeTuples (.tp bases))
    (fun t ht => by rw [length_tpAxes]; exact length_of_mem_tp ht) (C02_nodup bases)
    (lowerSet_tp bases)
  have e : (fun (i : Fin (nodeTuples (.tp bases)).length) =>
      column A (bases.map PNSpace.spatialDim).sum i) =
      fun i => gridPoint (tpAxes bases) (nodeTuples (.tp bases))[i] := funext fun i => hcol i i.2
  rw [e]
  exact this

theorem tpAxes_qn (d n : Nat) :
    tpAxes (List.replicate d ⟨1, n⟩) = List.replicate d (2 / (n : ℝ), -1) := by
  induction d with
  | zero => rfl
  | succ d ih =>
    rw [List.replicate_succ, tpAxes, List.map_cons, List.flatten_cons]
    show List.replicate 1 _ ++ tpAxes (List.replicate d ⟨1, n⟩) = _
    rw [ih]
    rfl

theorem mem_qn (d n : Nat) (t : List Nat) :
    t ∈ nodeTuples (.tp (List.replicate d ⟨1, n⟩)) ↔ t.length = d ∧ ∀ a ∈ t, a ≤ n := by
  rw [C02_mem]
  induction d generalizing t with
  | zero => simp [List.length_eq_zero_iff]; rintro rfl; simp
  | succ d ih =>
    constructor
    · rintro ⟨parts, hp, rfl⟩
      rw [List.replicate_succ, List.forall₂_cons_left_iff] at hp
      obtain ⟨p, ps, ⟨h1, h2⟩, h3, rfl⟩ := hp
      obtain ⟨h4, h5⟩ := (ih ps.flatten).1 ⟨ps, h3, rfl⟩
      match p, h1 with
      | [a], _ =>
        simp only [List.sum_cons, List.sum_nil, Nat.add_zero] at h2
        simp only [List.flatten_cons, List.cons_append, List.nil_append, List.length_cons, h4,
          List.mem_cons, true_and]
        rintro b (rfl | hb)
        · exact h2
        · exact h5 b hb
    · rintro ⟨hl, ha⟩
      cases t with
      | nil => simp at hl
      | cons a t =>
        obtain ⟨parts, hp, he⟩ := (ih t).2 ⟨by simpa using hl, fun b hb => ha b (by simp [hb])⟩
        refine ⟨[a] :: parts, ?_, by simp [he]⟩
        rw [List.replicate_succ]
        exact .cons ⟨rfl, by simpa using ha a (by simp)⟩ hp

/-- **C40 for `QN`** (tensor product of intervals) with equispaced nodes. -/
theorem C40_qn {d n k : Nat} (hk : k < d) (hn : 0 < n) (A : NdArray ℝ)
    (hA : equispacedNodes (.qn d n) (.hypercube d) = .ok A)
    (T : List (List Nat)) (hT : T = nodeTuples (.qn d n))
    (x : Fin T.length → List ℝ) (hx : ∀ i, x i = column A d i)
    (φ : Fin T.length → List ℝ → ℝ) (g : Fin T.length → List ℝ → Fin d → ℝ)
    (hφ : ∀ j, ∃ c : Fin T.length → ℝ, ∀ y : List ℝ, y.length = d →
      φ j y = combine (fun i => monomialValue T[i]) c y)
    (hu : Unisolvent φ x)
    (hg : ∀ j i, IsGradientAt d (φ j) (x i) (List.ofFn (g j (x i)))) :
    ∃ (π : Fin T.length → Fin T.length) (D : Fin d → Matrix (Fin T.length) (Fin T.length) ℝ),
      diffMatrixPermutation T k = .ok (List.ofFn fun i => (π i : Nat)) ∧
      differentiationMatrices φ g x x = .ok D ∧
      ∀ i j, D ⟨k, hk⟩ i j = D ⟨0, by omega⟩ (π i) (π j) := by
  rw [C02_qn] at hT
  have hsum : ((List.replicate d (⟨1, n⟩ : PNSpace)).map PNSpace.spatialDim).sum = d := by simp
  obtain ⟨A', hA', hcol⟩ := equispaced_tp_grid (List.replicate d ⟨1, n⟩)
    (fun b hb => by rw [List.eq_of_mem_replicate hb]; exact hn) (by rw [hsum]; omega)
  have heq : equispacedNodes (K := ℝ) (.qn d n) (.hypercube d) =
      equispacedNodes (.tp (List.replicate d ⟨1, n⟩))
        (.tp ((List.replicate d (⟨1, n⟩ : PNSpace)).map PNSpace.spatialDim)) := by
    simp [equispacedNodes, Space.spatialDim, Shape.dim, Space.flatBases, Shape.flatBases]
  rw [heq, hA'] at hA
  obtain rfl := Except.ok.inj hA
  rw [hsum, tpAxes_qn] at hcol
  subst hT
  refine diff_matrices_grid hk _ (nodeTuples (.tp (List.replicate d ⟨1, n⟩))) ?_
    (fun t ht => ((mem_qn d n t).1 ht).1) (C02_nodup _) ?_ φ g x
    (fun i => (hx i).trans (hcol i i.2)) hφ hu hg
  · intro h
    have := (mem_qn d n (List.replicate d 0)).2 (by simp)
    rw [h] at this
    simp at this
  · intro t ht
    rw [mem_qn] at ht ⊢
    exact ⟨by rw [length_swapAt]; exact ht.1, fun a ha => ht.2 a ((perm_swapAt k t).mem_iff.1 ha)⟩

/-- A tuple list that is not closed under the exchange raises `KeyError` (here: at its first tuple). -/
theorem C40_missing (t : List Nat) (T : List (List Nat)) (k : Nat) (hk0 : k ≠ 0) (hk : k < t.length)
    (hm : swapAt k t ∉ t :: T) : diffMatrixPermutation (t :: T) k = .error .KeyError := by
  have hfl : flippedIdx (t :: T) k t = .error .KeyError := by
    unfold flippedIdx
    rw [List.getElem?_eq_getElem (by omega : 0 < t.length), List.getElem?_eq_getElem hk]
    simp only
    rw [← swapAt_eq hk]
    have : ((List.range (t :: T).length).filter fun j => decide ((t :: T)[j]? = some (swapAt k t))) =
        [] := by
      rw [List.filter_eq_nil_iff]
      intro j _
      simp only [decide_eq_true_eq]
      intro h
      exact hm (List.mem_of_getElem? h)
    rw [this]
    rfl
  rw [diffMatrixPermutation, if_neg hk0, List.map_cons, hfl]
  rfl

example : diffMatrixPermutation (nodeTuples (.pn ⟨2, 2⟩)) 1 = .ok [0, 3, 5, 1, 4, 2] := by decide

end Modepy

import Verif.Proofs.FejerBound
import Verif.Proofs.EquispacedGrowth
import Verif.Props.QuasiOptimal
import Verif.Props.ConformingNodes
import Verif.Props.SumFactorization

/-!
# Property C102: Gauss-Lobatto nodes are Fekete points with small Lebesgue constants, equispaced nodes have exponentially
growing ones
-/

namespace Modepy
open Spec NdArray Matrix MeasureTheory Quadrature

/-! ## Bounds from the values at the nodes -/

/-- The values at the Gauss-Lobatto nodes of a member of `QN(dims, n)` bound its values on the cube. -/
theorem qn_bound (dims n : Nat) (hn : 1 ≤ n) (x w : Fin (n + 1) → ℝ) (hx : StrictMono x) (h0 : x 0 = -1) (h1 : x (Fin.last n) = 1)
    (hw : ∀ a, 0 < w a) (hex : ∀ e ≤ 2 * n - 1, ∑ a, w a * x a ^ e = ∫ t in (-1 : ℝ)..1, t ^ e)
    (c : Fin (nodeTuples (.qn dims n)).length → ℝ) (y : List ℝ) (hy : InCube dims y) :
    spacePoly (.qn dims n) c y ^ 2 ≤ ∑ k, spacePoly (.qn dims n) c (qnNodes dims x k) ^ 2 := by
  obtain ⟨P, hP, hv⟩ := spacePoly_polyAt (.qn dims n) (spatialDim_qn dims n) c
  obtain ⟨a, ha⟩ := expand_legendre P fun i => degree_qn hP i
  have hyl := hy.1
  have hyo : y = List.ofFn fun i : Fin dims => y.getD i 0 := by
    apply List.ext_getElem (by simp [hyl])
    intro i h1 h2
    simp [List.getD_eq_getElem?_getD, h1]
  have hb := grid_bound x (fun k => jpoly 0 0 k) (fun k => (natDegree_jpoly _ _ _).trans (Nat.lt_succ_iff.1 k.2))
    (fun q hq y hy => lobatto_bound hn x w hx h0 h1 hw hex q hq y hy) dims a (fun i => y.getD i 0) (by
      intro i
      have hi : (i : Nat) < y.length := by omega
      rw [List.getD_eq_getElem?_getD, List.getElem?_eq_getElem hi, Option.getD_some]
      exact abs_le.2 (hy.2 _ (List.getElem_mem hi)))
  have e1 : spacePoly (.qn dims n) c y = ∑ α, a α * ∏ i, (jpoly 0 0 (α i)).eval (y.getD i 0) := by
    rw [hv y hyl, ← ha]
    conv_lhs => rw [hyo]
    rw [polyAt_ofFn]
  rw [e1]
  refine hb.trans (le_of_eq ?_)
  refine Eq.trans ?_ (sum_qn dims n fun k => spacePoly (.qn dims n) c (gridNode dims x k) ^ 2).symm
  rw [← (finFunctionFinEquiv (m := n + 1) (n := dims)).symm.sum_comp]
  refine Finset.sum_congr rfl fun k _ => ?_
  rw [hv _ (gridNode_length ..), gridNode, polyAt_ofFn, ha]
  rfl

/-- Functionals reproducing the members of a space from values that bound them have small coefficients. -/
theorem reproduce_sq (space : Space) (nodes : Fin (nodeTuples space).length → List ℝ) (hu : UnisolventFor space nodes) (y : List ℝ)
    (hb : ∀ c, spacePoly space c y ^ 2 ≤ ∑ k, spacePoly space c (nodes k) ^ 2) (r : Fin (nodeTuples space).length → ℝ)
    (hr : ∀ c, ∑ j, r j * spacePoly space c (nodes j) = spacePoly space c y) : ∑ j, r j ^ 2 ≤ 1 := by
  obtain ⟨c, hc⟩ := exists_values hu r
  have h1 := hb c
  rw [← hr c] at h1
  simp only [hc] at h1
  have e : ∑ j, r j * r j = ∑ j, r j ^ 2 := Finset.sum_congr rfl fun j _ => (sq _).symm
  rw [e] at h1
  by_contra h
  push Not at h
  nlinarith

/-- The sum of absolute values of numbers whose squares add up to at most one. -/
theorem sum_abs_sq {m : Nat} (r : Fin m → ℝ) (h : ∑ j, r j ^ 2 ≤ 1) : (∑ j, |r j|) ^ 2 ≤ m := by
  have hcs := Finset.sum_mul_sq_le_sq_mul_sq Finset.univ (fun j => |r j|) fun _ => (1 : ℝ)
  simp only [mul_one, sq_abs, one_pow, Finset.sum_const, Finset.card_univ, Fintype.card_fin, nsmul_eq_mul] at hcs
  have : (0 : ℝ) ≤ m := Nat.cast_nonneg m
  nlinarith

/-! ## Gauss-Lobatto nodes -/

/-- **C102 (bound by the values at the nodes).**  On the whole cube the square of a polynomial of degree at most `n` in each
coordinate is at most the sum of the squares of its values at the tensor product Gauss-Lobatto nodes.  So the squares of the
Lagrange polynomials of the nodes add up to at most one, and each of them has its maximum at its own node. -/
theorem C102_bound (ext : Ext) (hext : ext.EighOk) (dims n : Nat) (hd : 0 < dims) (hn : 1 ≤ n) :
    ∃ A, legendreGaussLobattoTensorProductNodes ext dims n = .ok A ∧
      (∀ c y, InCube dims y → spacePoly (.qn dims n) c y ^ 2 ≤
        ∑ k : Fin (nodeTuples (.qn dims n)).length, spacePoly (.qn dims n) c (column A dims k) ^ 2) ∧
      ∃ ℓ, IsLagrangeBasis (fun l : Fin (nodeTuples (.qn dims n)).length => monomialValue (nodeTuples (.qn dims n))[l])
          (fun k : Fin (nodeTuples (.qn dims n)).length => column A dims k) ℓ ∧
        ∀ y, InCube dims y → ∑ j, ℓ j y ^ 2 ≤ 1 ∧ ∀ j, |ℓ j y| ≤ 1 := by
  obtain ⟨A, Q, x, w, r, hA, hQ, hAs, hQs, hnodes, hdiag, hws, hq, hx, h0, h1, hpos, hex, hwt, hget, hcol, hu⟩ :=
    lobatto_setup ext hext dims n hd hn
  have hb : ∀ c y, InCube dims y → spacePoly (.qn dims n) c y ^ 2 ≤
      ∑ k : Fin (nodeTuples (.qn dims n)).length, spacePoly (.qn dims n) c (column A dims k) ^ 2 := by
    intro c y hy
    have := qn_bound dims n hn x w hx h0 h1 hpos hex c y hy
    rwa [← hcol] at this
  rw [← hcol] at hu
  obtain ⟨ℓ, hℓ⟩ := lagrange_exists _ _ hu
  refine ⟨A, hA, hb, ℓ, hℓ, fun y hy => ?_⟩
  have hs : ∑ j, ℓ j y ^ 2 ≤ 1 := reproduce_sq (.qn dims n) _ hu y (fun c => hb c y hy) (fun j => ℓ j y) fun c => by
    have := lagrange_reproduces _ _ hu ℓ hℓ c y
    rw [spacePoly, ← this]
    exact Finset.sum_congr rfl fun j _ => mul_comm _ _
  refine ⟨hs, fun j => ?_⟩
  have := (Finset.single_le_sum (fun i _ => sq_nonneg (ℓ i y)) (Finset.mem_univ j)).trans hs
  exact (sq_le_one_iff_abs_le_one _).1 this

/-- **C102 (resampling).**  Resampling from the tensor product Gauss-Lobatto nodes of the cube to any points of it: the squares
of the entries of a row add up to at most one, so resampling does not increase a sum of squares by more than the number of new
nodes, and amplifies errors by at most `(n + 1)^(dims / 2)`. -/
theorem C102_resampling (ext : Ext) (hext : ext.EighOk) (dims n : Nat) (hd : 0 < dims) (hn : 1 ≤ n) (b : Basis ℝ)
    (hb : IsBasisOf b (.qn dims n)) {p : Nat} (newNodes : Fin p → List ℝ) (hnew : ∀ i, InCube dims (newNodes i)) (ls : Bool)
    (pinv : (m : Nat) → Matrix (Fin (nodeTuples (.qn dims n)).length) (Fin m) ℝ → Matrix (Fin m) (Fin (nodeTuples (.qn dims n)).length) ℝ) :
    ∃ A R, legendreGaussLobattoTensorProductNodes ext dims n = .ok A ∧
      resamplingMatrixOf b newNodes (fun i : Fin (nodeTuples (.qn dims n)).length => column A dims i) ls pinv = .ok R ∧
      (∀ i, ∑ j, R i j ^ 2 ≤ 1) ∧ (∀ i j, |R i j| ≤ 1) ∧ (∀ i, (∑ j, |R i j|) ^ 2 ≤ (n + 1) ^ dims) ∧
      ∀ u : Fin (nodeTuples (.qn dims n)).length → ℝ, ∑ i, (∑ j, R i j * u j) ^ 2 ≤ p * ∑ j, u j ^ 2 := by
  obtain ⟨A, hA, hbd, ℓ, hℓ, -⟩ := C102_bound ext hext dims n hd hn
  have hu := (C73_lagrange_exists _ _).1 ⟨ℓ, hℓ⟩
  obtain ⟨R, hR, hrep⟩ := C77_resampling (.qn dims n) b hb newNodes _ (fun i => regular_qn dims n _ (hnew i).1)
    (fun i => regular_qn dims n _ (by simp [column])) hu ls pinv
  have hsq : ∀ i, ∑ j, R i j ^ 2 ≤ 1 := fun i =>
    reproduce_sq (.qn dims n) _ hu (newNodes i) (fun c => hbd c _ (hnew i)) (fun j => R i j) fun c => hrep c i
  refine ⟨A, R, hA, hR, hsq, fun i j => ?_, fun i => ?_, fun u => ?_⟩
  · have := (Finset.single_le_sum (fun k _ => sq_nonneg (R i k)) (Finset.mem_univ j)).trans (hsq i)
    exact (sq_le_one_iff_abs_le_one _).1 this
  · have := sum_abs_sq (fun j => R i j) (hsq i)
    refine this.trans (le_of_eq ?_)
    exact_mod_cast length_qn dims n
  · have hnn : 0 ≤ ∑ j, u j ^ 2 := Finset.sum_nonneg fun j _ => sq_nonneg _
    refine (Finset.sum_le_sum fun i _ => (?_ : _ ≤ ∑ j, u j ^ 2)).trans (by simp)
    refine (Finset.sum_mul_sq_le_sq_mul_sq Finset.univ (fun j => R i j) u).trans ?_
    have := hsq i
    nlinarith

/-- **C102 (Fekete points).**  Among all choices of nodes in the cube, the tensor product Gauss-Lobatto nodes have the
Vandermonde matrix with the largest determinant, for every basis of the space. -/
theorem C102_fekete (ext : Ext) (hext : ext.EighOk) (dims n : Nat) (hd : 0 < dims) (hn : 1 ≤ n) (b : Basis ℝ)
    (hb : IsBasisOf b (.qn dims n)) :
    ∃ A fs, legendreGaussLobattoTensorProductNodes ext dims n = .ok A ∧ b.functions = .ok fs ∧ fs.length = (n + 1) ^ dims ∧
      (vandermonde (totalFn fs) fun i : Fin fs.length => column A dims i).det ≠ 0 ∧
      ∀ y : Fin fs.length → List ℝ, (∀ i, InCube dims (y i)) →
        |(vandermonde (totalFn fs) y).det| ≤ |(vandermonde (totalFn fs) fun i : Fin fs.length => column A dims i).det| := by
  obtain ⟨A, hA, hbd, ℓ, hℓ, hsq⟩ := C102_bound ext hext dims n hd hn
  have hu := (C73_lagrange_exists _ _).1 ⟨ℓ, hℓ⟩
  obtain ⟨fs, C, hfs⟩ := represents_isBasisOf hb
  have hlen := hfs.length
  have hval : ∀ (k : Fin fs.length) (x : List ℝ), x.length = dims →
      totalFn fs k x = spacePoly (.qn dims n) (C (Fin.cast hlen k)) x := by
    intro k x hx
    have := hfs.value (Fin.cast hlen k) x (regular_qn dims n x hx)
    simp only [totalFn]
    rw [List.getD_eq_getElem?_getD, Fin.val_cast, List.getElem?_eq_getElem k.2, Option.getD_some] at this
    rw [show fs[k] = fs[(k : Nat)] from rfl, this]
  have hc : ∀ k : Nat, (column A dims k).length = dims := fun k => by simp [column]
  refine ⟨A, fs, hA, hfs.functions, hlen.trans (length_qn dims n), ?_, fun y hy => ?_⟩
  · have e : vandermonde (totalFn fs) (fun i : Fin fs.length => column A dims i) =
        (vandermonde (fun l : Fin (nodeTuples (.qn dims n)).length => monomialValue (nodeTuples (.qn dims n))[l])
          (fun i : Fin (nodeTuples (.qn dims n)).length => column A dims i) * C.transpose).submatrix (finCongr hlen) (finCongr hlen) := by
      ext i k
      simp only [vandermonde, Matrix.of_apply, submatrix_apply, mul_apply, transpose_apply]
      rw [hval k _ (hc i)]
      simp only [spacePoly, combine]
      exact Finset.sum_congr rfl fun l _ => mul_comm _ _
    rw [e, det_submatrix_equiv_self, det_mul, det_transpose]
    exact mul_ne_zero ((unisolvent_iff_det _ _).1 hu) hfs.det
  · have e : vandermonde (totalFn fs) y = (Matrix.of fun i j : Fin fs.length => ℓ (Fin.cast hlen j) (y i)) *
        vandermonde (totalFn fs) (fun i : Fin fs.length => column A dims i) := by
      ext i k
      simp only [vandermonde, Matrix.of_apply, mul_apply]
      rw [hval k _ (hy i).1]
      have := lagrange_reproduces _ _ hu ℓ hℓ (C (Fin.cast hlen k)) (y i)
      rw [spacePoly, ← this]
      rw [← (finCongr hlen).sum_comp]
      refine Finset.sum_congr rfl fun j _ => ?_
      rw [hval k _ (hc j), mul_comm]
      rfl
    rw [e, det_mul, abs_mul]
    have h1 : |(Matrix.of fun i j : Fin fs.length => ℓ (Fin.cast hlen j) (y i)).det| ≤ 1 := by
      rw [← sq_le_one_iff_abs_le_one]
      refine det_sq_le_one _ fun i => ?_
      have := (hsq (y i) (hy i)).1
      rw [← (finCongr hlen).sum_comp] at this
      exact this
    exact mul_le_of_le_one_left (abs_nonneg _) h1

/-! ## Lebesgue constants -/

/-- The node tuples of a product of one space. -/
theorem nodeTuples_single (s : PNSpace) : nodeTuples (.tp [s]) = nodeTuples (.pn s) := by
  show nodeTuplesTP [s] = nodeTuplesPN s
  rw [nodeTuplesTP_eq]
  apply List.ext_getElem
  · simp [size_eq_prod, length_nodeTuplesPN]
  · intro i h1 h2
    have hi : i < s.spaceDim := by simpa [size_eq_prod] using h1
    simp [unravelF, Nat.mod_eq_of_lt hi, List.getD_eq_getElem?_getD, h2]

/-- `TensorProductSpace` of simplices. -/
theorem mkTP_map (n : Nat) (l : List Nat) (hl : l.length ≠ 1) :
    Space.mkTP (l.map fun d => Space.pn ⟨d, n⟩) = .ok (.tp (l.map fun d => ⟨d, n⟩)) := by
  have e : ∀ l : List Nat, (l.map fun d => Space.pn ⟨d, n⟩).flatMap Space.flatBases = l.map fun d => ⟨d, n⟩ := by
    intro l
    induction l with
    | nil => rfl
    | cons a l ih => simp [ih, Space.flatBases]
  match l, hl with
  | [], _ => rfl
  | [a], h => simp at h
  | a :: b :: l, _ =>
    show Except.ok (Space.tp _) = _
    rw [← e (a :: b :: l)]
    rfl

/-- `space_for_shape(Hypercube(dims), n)`. -/
theorem forShape_cube (dims n : Nat) (h1 : dims ≠ 1) :
    Space.forShape (.hypercube dims) (.int n) = .ok (.tp (List.replicate dims ⟨1, n⟩)) := by
  have := mkTP_map n (List.replicate dims 1) (by simpa using h1)
  rw [List.map_replicate (f := fun d => (⟨d, n⟩ : PNSpace))] at this
  exact this

/-- The entries of a node tuple. -/
theorem entry_le (space : Space) (n : Nat) (hb : ∀ s ∈ space.flatBases, s.order = n) (t : List Nat) (ht : t ∈ nodeTuples space) :
    ∀ a ∈ t, a ≤ n := by
  obtain ⟨parts, hp, rfl⟩ := (mem_nodeTuples space t).1 ht
  generalize space.flatBases = bases at hp hb
  clear ht
  induction hp with
  | nil => simp
  | @cons s p bases parts h _ ih =>
    intro a ha
    rw [List.flatten_cons, List.mem_append] at ha
    rcases ha with ha | ha
    · have := List.single_le_sum (by simp) a ha
      have := hb s (by simp)
      omega
    · exact ih (fun s hs => hb s (List.mem_cons_of_mem _ hs)) a ha

/-- The factor the first coordinate belongs to. -/
theorem first_factor (bases : List PNSpace) (h : 0 < (bases.map PNSpace.spatialDim).sum) :
    ∃ (j : Nat) (hj : j < bases.length), 0 < bases[j].spatialDim ∧ ((bases.take j).map PNSpace.spatialDim).sum = 0 := by
  induction bases with
  | nil => simp at h
  | cons s bases ih =>
    rcases Nat.eq_zero_or_pos s.spatialDim with h0 | h0
    · obtain ⟨j, hj, h1, h2⟩ := ih (by simpa [h0] using h)
      exact ⟨j + 1, by simpa using hj, by simpa using h1, by simpa [h0] using h2⟩
    · exact ⟨0, by simp, by simpa using h0, by simp⟩

theorem getD_le {n : Nat} (T : List (List Nat)) (hT : ∀ t ∈ T, ∀ a ∈ t, a ≤ n) (k i : Nat) : (T.getD k []).getD i 0 ≤ n := by
  rw [List.getD_eq_getElem?_getD, List.getD_eq_getElem?_getD]
  rcases Nat.lt_or_ge k T.length with hk | hk
  · rw [List.getElem?_eq_getElem hk, Option.getD_some]
    rcases Nat.lt_or_ge i T[k].length with hi | hi
    · rw [List.getElem?_eq_getElem hi, Option.getD_some]
      exact hT _ (List.getElem_mem hk) _ (List.getElem_mem hi)
    · simp [List.getElem?_eq_none hi]
  · simp [List.getElem?_eq_none hk]

theorem lagrange_transfer (T T' : List (List Nat)) (hT : T = T') (A : NdArray ℝ) (dims : Nat)
    (h : ∃ ℓ, IsLagrangeBasis (fun l : Fin T.length => monomialValue T[l]) (fun k : Fin T.length => column A dims k) ℓ ∧
      ∀ y, InCube dims y → ∑ j, ℓ j y ^ 2 ≤ 1) :
    ∃ ℓ, IsLagrangeBasis (fun l : Fin T'.length => monomialValue T'[l]) (fun k : Fin T'.length => column A dims k) ℓ ∧
      ∀ y, InCube dims y → ∑ j, ℓ j y ^ 2 ≤ 1 := by
  subst hT
  exact h

/-- **C102 (Lebesgue constants of Gauss-Lobatto nodes).**  `estimate_lebesgue_constant` reports at most `(n + 1)^(dims / 2)`
for the tensor product Gauss-Lobatto nodes on `Hypercube(dims)`. -/
theorem C102_lebesgue (ext : Ext) (hext : ext.EighOk) (dims n : Nat) (hd : 0 < dims) (hn : 1 ≤ n) (hn' : n ≤ 10 ^ 8) :
    ∃ A shape Λ, legendreGaussLobattoTensorProductNodes ext dims n = .ok A ∧ Shape.mkHypercube dims = .ok shape ∧
      estimateLebesgueConstant n A shape false = .ok Λ ∧ 1 ≤ Λ ∧ Λ ^ 2 ≤ (n + 1) ^ dims := by
  obtain ⟨A, hA, -, ℓ, hℓ, hsq⟩ := C102_bound ext hext dims n hd hn
  obtain ⟨A', -, -, -, -, hA', -, hAs, -⟩ := lobatto_setup ext hext dims n hd hn
  obtain rfl : A = A' := Except.ok.inj (hA.symm.trans hA')
  have key : ∀ (shape : Shape) (space : Space), Constructible shape → Space.forShape shape (.int n) = .ok space →
      nodeTuples (.qn dims n) = nodeTuples space → shape.dim = dims → space.spaceDim = (n + 1) ^ dims →
      (∀ x, x.length = dims → RegularFor space x) → (∀ x, InShape shape x → InCube dims x) →
      ∃ Λ, estimateLebesgueConstant n A shape false = .ok Λ ∧ 1 ≤ Λ ∧ Λ ^ 2 ≤ (n + 1) ^ dims := by
    intro shape space hs hsp hT hdim hN hreg hin
    obtain ⟨ℓ', hℓ', hsq'⟩ := lagrange_transfer _ _ hT A dims ⟨ℓ, hℓ, fun y hy => (hsq y hy).1⟩
    obtain ⟨Λ, hΛ, -, h1, hM, -⟩ := C73_value shape hs n hn' space hsp A (by rw [hAs, hdim, hN])
      (fun k _ => hreg _ (by simp [column, hdim])) ℓ' (by rw [hdim]; exact hℓ')
    refine ⟨Λ, hΛ, h1, ?_⟩
    have hle : Λ ≤ Real.sqrt ((n + 1) ^ dims) := hM _ fun x hx => by
      apply Real.le_sqrt_of_sq_le
      refine (sum_abs_sq _ (hsq' x (hin x hx))).trans (le_of_eq ?_)
      rw [length_nodeTuples, hN]
      push_cast
      rfl
    calc Λ ^ 2 ≤ Real.sqrt ((n + 1) ^ dims) ^ 2 := pow_le_pow_left₀ (by linarith) hle 2
      _ = _ := Real.sq_sqrt (by positivity)
  by_cases h1 : dims = 1
  · subst h1
    obtain ⟨Λ, hΛ⟩ := key (.simplex 1) (.pn ⟨1, n⟩) (by simp [Constructible, Shape.isTP]) rfl
      (nodeTuples_single ⟨1, n⟩) rfl (by simp [Space.spaceDim, PNSpace.spaceDim])
      (fun x hx => ⟨hx, by simp [Space.flatBases, slices, Regular, hx]⟩) (fun x hx => by
        obtain ⟨a, rfl⟩ := list1 hx.1
        have h0 := hx.2 0 (by norm_num)
        have h1 := hx.2 1 (by norm_num)
        simp [bary] at h0 h1
        exact ⟨rfl, by simp; constructor <;> linarith⟩)
    exact ⟨A, .simplex 1, Λ, hA, by simp [Shape.mkHypercube], hΛ⟩
  · obtain ⟨Λ, hΛ⟩ := key (.hypercube dims) (.tp (List.replicate dims ⟨1, n⟩))
      (by simpa [Constructible, Shape.flatBases, Shape.isTP] using h1) (forShape_cube dims n h1) rfl (by simp [Shape.dim])
      (by simp [Space.spaceDim, Space.flatBases, PNSpace.spaceDim]) (fun x hx => regular_qn dims n x hx) (fun x hx => hx)
    obtain ⟨s, hs, -⟩ := C12_hypercube dims
    rw [Shape.mkHypercube, if_neg h1] at hs
    refine ⟨A, .hypercube dims, Λ, hA, ?_, hΛ⟩
    rw [Shape.mkHypercube, if_neg h1]
    cases h : Shape.tpInit (List.replicate dims (.simplex 1)) with
    | error e => rw [h] at hs; cases hs
    | ok l => rfl

/-- Nodes on an equispaced grid have a large Lebesgue constant. -/
theorem lebesgue_grid (shape : Shape) (hs : Constructible shape) (hd : 0 < shape.dim) (n : Nat) (hn : 1 ≤ n) (hn' : n ≤ 10 ^ 8)
    (space : Space) (hsp : Space.forShape shape (.int n) = .ok space) (A : NdArray ℝ) (hsh : A.shape = [shape.dim, space.spaceDim])
    (hreg : ∀ k : Fin (nodeTuples space).length, RegularFor space (column A shape.dim k))
    (hu : UnisolventFor space fun i : Fin (nodeTuples space).length => column A shape.dim i)
    (hgrid : ∀ k : Fin (nodeTuples space).length, ∃ m ≤ n, A.get [0, (k : Nat)] = 2 * ((m : Nat) : ℝ) / n - 1) :
    ∃ Λ, estimateLebesgueConstant n A shape false = .ok Λ ∧ 2 ^ n / (4 * (n : ℝ) ^ 2) ≤ Λ := by
  obtain ⟨ℓ, hℓ⟩ := lagrange_exists _ _ hu
  obtain ⟨space', -, hsp', -, hdim, hfl⟩ := space_basis shape hs n
  obtain rfl : space = space' := Except.ok.inj (hsp.symm.trans hsp')
  obtain ⟨Λ, hΛ, -, -, -, hmax, -⟩ := C73_value shape hs n hn' space hsp A hsh
    (fun k hk => hreg ⟨k, by rwa [length_nodeTuples]⟩) ℓ hℓ
  refine ⟨Λ, hΛ, ?_⟩
  obtain ⟨q, hq, hbd, hlarge⟩ := equispaced_growth n hn
  -- the polynomial in the first coordinate
  set P : MvPolynomial (Fin shape.dim) ℝ := Polynomial.aeval (MvPolynomial.X ⟨0, hd⟩) q with hP
  have hPv : ∀ y : List ℝ, polyAt P y = q.eval (y.getD 0 0) := by
    intro y
    rw [polyAt, hP, ← MvPolynomial.coe_aeval_eq_eval]
    show (MvPolynomial.aeval _) _ = _
    rw [← Polynomial.aeval_algHom_apply, MvPolynomial.aeval_X, Polynomial.coe_aeval_eq_eval]
  have hPd : P.totalDegree ≤ n := by
    rw [hP, Polynomial.aeval_eq_sum_range]
    refine MvPolynomial.totalDegree_finsetSum_le fun e he => ?_
    refine (MvPolynomial.totalDegree_smul_le _ _).trans ?_
    rw [MvPolynomial.totalDegree_X_pow]
    have := Finset.mem_range.1 he
    omega
  obtain ⟨c, hc⟩ := polyAt_spacePoly space hdim P (polyIn_of_totalDegree hdim (by
    intro s hs'
    rw [hfl] at hs'
    obtain ⟨d, -, rfl⟩ := List.mem_map.1 hs'
    exact le_rfl) P hPd)
  -- the sample point half way between the first two nodes
  set N := sampleOrder shape n with hN
  set f := if shape.dim = 2 then 30 else 10 with hf
  have hNf : N = f * n := by rw [hN, hf, sampleOrder]
  obtain ⟨g, hg⟩ : ∃ g, f = 2 * g ∧ 0 < g := by
    rw [hf]
    split
    · exact ⟨15, by norm_num⟩
    · exact ⟨5, by norm_num⟩
  set t : List Nat := g :: List.replicate (shape.dim - 1) 0 with ht
  have htl : t.length = shape.dim := by simp [ht]; omega
  have hts : t.sum ≤ N := by
    simp only [ht, List.sum_cons, List.sum_replicate, smul_eq_mul, mul_zero, add_zero]
    rw [hNf, hg.1]
    nlinarith [hg.2]
  have hfb : shape.flatBases.sum = shape.dim := by cases shape <;> simp [Shape.flatBases, Shape.dim]
  obtain ⟨parts, hparts, hpt⟩ := forall₂_slices N (shape.flatBases.map fun d => ⟨d, N⟩) t (by
    rw [List.map_map]
    show _ = (shape.flatBases.map id).sum
    rw [List.map_id, hfb, htl]) hts (by
      intro s hs'
      obtain ⟨d, -, rfl⟩ := List.mem_map.1 hs'
      exact le_rfl)
  rw [forall₂_map_space] at hparts
  set x : List ℝ := t.map fun a : Nat => (a : ℝ) / N * 2 - 1 with hx
  have hxl : x ∈ lattice shape N := ⟨parts, hparts, by rw [hx, hpt]⟩
  have hxlen : x.length = shape.dim := by simp [hx, htl]
  have hx0 : x.getD 0 0 = 1 / (n : ℝ) - 1 := by
    have hn0 : (n : ℝ) ≠ 0 := by positivity
    have hg0 : (g : ℝ) ≠ 0 := by exact_mod_cast hg.2.ne'
    simp only [hx, ht, List.map_cons, List.getD_cons_zero, hNf, hg.1]
    push_cast
    field_simp
  have hmem := hmax.2 (show |∑ j : Fin (nodeTuples space).length, polyAt P (column A shape.dim j) * ℓ j x| ∈ _ from
    ⟨x, hxl, fun j => polyAt P (column A shape.dim j), fun j => by
    obtain ⟨m, hm, e⟩ := hgrid j
    have : (column A shape.dim j).getD 0 0 = A.get [0, (j : Nat)] := by
      simp [column, List.getD_eq_getElem?_getD, hd]
    show |polyAt P (column A shape.dim j)| ≤ 1
    rw [hPv, this, e]
    exact hbd m hm, rfl⟩)
  refine le_trans ?_ hmem
  have hrep := lagrange_reproduces _ _ hu ℓ hℓ c x
  have e : ∑ j : Fin (nodeTuples space).length, polyAt P (column A shape.dim j) * ℓ j x = q.eval (1 / (n : ℝ) - 1) := by
    rw [← hx0, ← hPv, hc x hxlen, spacePoly, ← hrep]
    refine Finset.sum_congr rfl fun j _ => ?_
    rw [hc _ (by simp [column])]
    rfl
  rw [e]
  exact hlarge.trans (le_abs_self _)

/-- **C102 (Lebesgue constants of equispaced nodes).**  For every shape of positive dimension,
`estimate_lebesgue_constant` reports at least `2^n / (4 n^2)` for the equispaced nodes of order `n`. -/
theorem C102_equispaced (shape : Shape) (hs : Constructible shape) (hd : 0 < shape.dim) (n : Nat) (hn : 1 ≤ n) (hn' : n ≤ 10 ^ 8) :
    ∃ space A Λ, Space.forShape shape (.int n) = .ok space ∧ equispacedNodes space shape = .ok A ∧
      estimateLebesgueConstant n A shape false = .ok Λ ∧ 2 ^ n / (4 * (n : ℝ) ^ 2) ≤ Λ := by
  have htp : ∀ ds : List Nat, shape = .tp ds ∨ (∃ d, shape = .hypercube d ∧ ds = List.replicate d 1) →
      ∃ space A Λ, Space.forShape shape (.int n) = .ok space ∧ equispacedNodes space shape = .ok A ∧
        estimateLebesgueConstant n A shape false = .ok Λ ∧ 2 ^ n / (4 * (n : ℝ) ^ 2) ≤ Λ := by
    intro ds hds
    have hfb : shape.flatBases = ds := by
      rcases hds with rfl | ⟨d, rfl, rfl⟩ <;> rfl
    have htpb : shape.isTP = true := by
      rcases hds with rfl | ⟨d, rfl, rfl⟩ <;> rfl
    have hsum : ds.sum = shape.dim := by
      rcases hds with rfl | ⟨d, rfl, rfl⟩ <;> rfl
    set bases : List PNSpace := ds.map fun d => ⟨d, n⟩ with hbases
    have hmap : bases.map PNSpace.spatialDim = ds := by
      rw [hbases, List.map_map]
      exact List.map_id ds
    have hord : ∀ s ∈ bases, 0 < s.order ∧ s.order ≤ 10 ^ 10 := by
      intro s hs
      obtain ⟨d, -, rfl⟩ := List.mem_map.1 hs
      exact ⟨hn, hn'.trans (by norm_num)⟩
    have hdim : 0 < (bases.map PNSpace.spatialDim).sum := by rw [hmap, hsum]; exact hd
    have hsp : Space.forShape shape (.int n) = .ok (.tp bases) := by
      have := mkTP_map n ds (by rw [← hfb]; exact hs htpb)
      rcases hds with rfl | ⟨d, rfl, rfl⟩ <;> exact this
    obtain ⟨A, hA, hreg, hu⟩ := equispaced_regular bases hord hdim
    obtain ⟨A', hA', hsh, hget⟩ := C04_tp (K := ℝ) bases (fun s hs => (hord s hs).1) hdim
    obtain rfl : A = A' := Except.ok.inj (hA.symm.trans hA')
    have hsd : (Space.tp bases).spatialDim = shape.dim := by
      show (bases.map PNSpace.spatialDim).sum = _
      rw [hmap, hsum]
    rw [hsd] at hreg hu
    rw [hmap, hsum] at hsh
    have hA2 : equispacedNodes (.tp bases) shape = .ok A := by
      rw [← hA, hmap]
      rcases hds with rfl | ⟨d, rfl, rfl⟩
      · rfl
      · rfl
    obtain ⟨Λ, hΛ⟩ := lebesgue_grid shape hs hd n hn hn' _ hsp A hsh hreg hu (by
      intro k
      obtain ⟨j, hj, h1, h2⟩ := first_factor bases hdim
      have hk : (k : Nat) < Space.spaceDim (.tp bases) := lt_of_lt_of_eq k.2 (length_nodeTuples _)
      have := hget j hj 0 k h1 hk
      rw [h2, Nat.zero_add] at this
      have hjn : bases[j].order = n := by simp [hbases]
      rw [hjn] at this
      refine ⟨_, getD_le _ (fun t ht => entry_le (.tp bases) n (fun s hs => ?_) t ht) _ _, this⟩
      obtain ⟨d, -, rfl⟩ := List.mem_map.1 (show s ∈ bases from hs)
      rfl)
    exact ⟨_, A, Λ, hsp, hA2, hΛ⟩
  cases shape with
  | simplex d =>
    obtain ⟨A, hA, hg⟩ := good_equispaced ⟨d, n⟩ ⟨hn, hn'.trans (by norm_num)⟩ hd
    obtain ⟨A', hA', hsh, hget⟩ := C04_pn (K := ℝ) d n hn
    obtain rfl : A = A' := Except.ok.inj (hA.symm.trans hA')
    obtain ⟨Λ, hΛ⟩ := lebesgue_grid (.simplex d) hs hd n hn hn' _ rfl A hsh
      (fun k => hg.regular k (lt_of_lt_of_eq k.2 (length_pn _))) hg.unisolvent
      (fun k => ⟨_, getD_le _ (fun t ht => entry_le (.pn ⟨d, n⟩) n (by simp [Space.flatBases]) t ht) _ _, hget 0 k⟩)
    exact ⟨_, A, Λ, rfl, hA, hΛ⟩
  | tp ds => exact htp ds (Or.inl rfl)
  | hypercube d => exact htp _ (Or.inr ⟨d, rfl, rfl⟩)

/-- Non-vacuity: on the square at order 20 the reported Lebesgue constant is at most 21 for Gauss-Lobatto nodes, and more than
600 for equispaced nodes; resampling to the centre of the square is a contraction, and no four nodes of the square have a larger
Vandermonde determinant at order one than its corners. -/
example : ∃ ext : Ext, ext.EighOk ∧
    (∃ A Λ, legendreGaussLobattoTensorProductNodes ext 2 20 = .ok A ∧ estimateLebesgueConstant 20 A (.hypercube 2) false = .ok Λ ∧ Λ ≤ 21) ∧
    (∃ A Λ, equispacedNodes (.tp [⟨1, 20⟩, ⟨1, 20⟩]) (.hypercube 2) = .ok A ∧ estimateLebesgueConstant 20 A (.hypercube 2) false = .ok Λ ∧
      600 < Λ) ∧
    (∃ b : Basis ℝ, basisForSpace (.qn 2 1) (.hypercube 2) = .ok b ∧ ∃ A R,
      legendreGaussLobattoTensorProductNodes ext 2 1 = .ok A ∧
      resamplingMatrixOf b (fun _ : Fin 1 => [0, 0]) (fun i : Fin (nodeTuples (.qn 2 1)).length => column A 2 i) false (fun _ _ => 0) = .ok R ∧
      ∀ i, ∑ j, R i j ^ 2 ≤ 1) ∧
    ∃ b : Basis ℝ, basisForSpace (.qn 2 1) (.hypercube 2) = .ok b ∧ ∃ A fs, legendreGaussLobattoTensorProductNodes ext 2 1 = .ok A ∧
      b.functions = .ok fs ∧ ∀ y : Fin fs.length → List ℝ, (∀ i, InCube 2 (y i)) →
        |(vandermonde (totalFn fs) y).det| ≤ |(vandermonde (totalFn fs) fun i : Fin fs.length => column A 2 i).det| := by
  obtain ⟨ext, hext⟩ := exists_eighOk
  refine ⟨ext, hext, ?_, ?_, ?_, ?_⟩
  · obtain ⟨A, s, Λ, hA, hs, hΛ, h1, h2⟩ := C102_lebesgue ext hext 2 20 (by norm_num) (by norm_num) (by norm_num)
    obtain rfl : Shape.hypercube 2 = s := Except.ok.inj hs
    refine ⟨A, Λ, hA, hΛ, ?_⟩
    norm_num at h2
    nlinarith
  · obtain ⟨space, A, Λ, hsp, hA, hΛ, h⟩ := C102_equispaced (.hypercube 2) (by simp [Constructible, Shape.flatBases, Shape.isTP])
      (by simp [Shape.dim]) 20 (by norm_num) (by norm_num)
    obtain rfl : Space.tp [⟨1, 20⟩, ⟨1, 20⟩] = space := Except.ok.inj hsp
    refine ⟨A, Λ, hA, hΛ, ?_⟩
    norm_num at h
    linarith
  · obtain ⟨b, hb⟩ : ∃ b : Basis ℝ, basisForSpace (.qn 2 1) (.hypercube 2) = .ok b := ⟨_, rfl⟩
    obtain ⟨A, R, hA, hR, h, -⟩ := C102_resampling ext hext 2 1 (by norm_num) le_rfl b ⟨_, Or.inr (Or.inl hb)⟩ (fun _ : Fin 1 => [0, 0])
      (fun _ => ⟨rfl, by simp⟩) false (fun _ _ => 0)
    exact ⟨b, hb, A, R, hA, hR, h⟩
  · obtain ⟨b, hb⟩ : ∃ b : Basis ℝ, basisForSpace (.qn 2 1) (.hypercube 2) = .ok b := ⟨_, rfl⟩
    obtain ⟨A, fs, hA, hfs, -, -, h⟩ := C102_fekete ext hext 2 1 (by norm_num) le_rfl b ⟨_, Or.inr (Or.inl hb)⟩
    exact ⟨b, hb, A, fs, hA, hfs, h⟩

end Modepy

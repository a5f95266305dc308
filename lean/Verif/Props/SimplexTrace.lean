import Verif.Proofs.SimplexTrace
import Verif.Props.Divergence
import Verif.Proofs.Grid

/-!
# The trace inequality on simplices and the largest values at their vertices
-/

namespace Modepy
open Spec MeasureTheory

/-- An affine map which is its own inverse and maps the reference simplex to itself. -/
def SelfInverse {d : Nat} (M : AffineMap d) : Prop :=
  (∀ x, M.callPoint (M.callPoint x) = x) ∧ ∀ x ∈ simplexSet d, M.callPoint x ∈ simplexSet d

theorem SelfInverse.integral {d : Nat} {M : AffineMap d} (h : SelfInverse M) (g : (Fin d → ℝ) → ℝ) :
    ∫ x in simplexSet d, g x = ∫ x in simplexSet d, g (M.callPoint x) := by
  have hb : M.a.mulVec M.b + M.b = 0 := by
    have := h.1 0
    simpa [AffineMap.callPoint] using this
  have ha : M.a * M.a = 1 := by
    apply Matrix.ext_of_mulVec_single
    intro i
    have := h.1 (Pi.single i 1)
    rw [AffineMap.callPoint, AffineMap.callPoint, Matrix.mulVec_add, add_assoc, hb, add_zero, Matrix.mulVec_mulVec] at this
    rw [this, Matrix.one_mulVec]
  have hdet : M.a.det * M.a.det = 1 := by
    rw [← Matrix.det_mul, ha, Matrix.det_one]
  have habs : |M.a.det| = 1 := by
    rcases mul_self_eq_one_iff.1 hdet with h | h <;> simp [h]
  rw [integral_callPoint M (by intro h0; simp [h0] at hdet) (simplexSet d) ?_ g, habs, one_mul]
  ext x
  refine ⟨fun hx => h.2 x hx, fun hx => ?_⟩
  have := h.2 _ hx
  rwa [h.1] at this

theorem conforms_pn (d n : Nat) : Conforms (.pn ⟨d, n⟩) (.simplex d) n := rfl

theorem poly_of_pn {d n : Nat} {M : AffineMap d} (hM : SelfInverse M) (c : Fin (nodeTuples (.pn ⟨d, n⟩)).length → ℝ) :
    ∃ Q : MvPolynomial (Fin d) ℝ, Q.totalDegree ≤ n ∧
      (∀ x, spacePoly (.pn ⟨d, n⟩) c (List.ofFn (M.callPoint x)) = MvPolynomial.eval x Q) ∧
      spaceIntegral (.pn ⟨d, n⟩) (fun y => spacePoly (.pn ⟨d, n⟩) c y * spacePoly (.pn ⟨d, n⟩) c y) =
        ∫ x in simplexSet d, MvPolynomial.eval x Q * MvPolynomial.eval x Q := by
  obtain ⟨P, h1, h2⟩ := spacePoly_polyAt (.pn ⟨d, n⟩) (d := d) rfl c
  have hx : ∀ x, spacePoly (.pn ⟨d, n⟩) c (List.ofFn (M.callPoint x)) = MvPolynomial.eval x (pullback M P) := by
    intro x
    rw [h2 _ (by simp), polyAt_ofFn, eval_pullback]
  refine ⟨pullback M P, (totalDegree_pullback M P).trans ((polyIn_simplex (conforms_pn d n) P).1 h1), hx, ?_⟩
  rw [spaceIntegral_pn]
  simp only [simplexIntegral]
  rw [hM.integral]
  simp only [hx]

theorem pn_of_poly {d n : Nat} {M : AffineMap d} (hM : SelfInverse M) (Q : MvPolynomial (Fin d) ℝ) (hQ : Q.totalDegree ≤ n) :
    ∃ c : Fin (nodeTuples (.pn ⟨d, n⟩)).length → ℝ,
      (∀ x, spacePoly (.pn ⟨d, n⟩) c (List.ofFn (M.callPoint x)) = MvPolynomial.eval x Q) ∧
      spaceIntegral (.pn ⟨d, n⟩) (fun y => spacePoly (.pn ⟨d, n⟩) c y * spacePoly (.pn ⟨d, n⟩) c y) =
        ∫ x in simplexSet d, MvPolynomial.eval x Q * MvPolynomial.eval x Q := by
  obtain ⟨c, hc⟩ := polyAt_spacePoly (.pn ⟨d, n⟩) (d := d) rfl (pullback M Q)
    ((polyIn_simplex (conforms_pn d n) _).2 ((totalDegree_pullback M Q).trans hQ))
  have hx : ∀ x, spacePoly (.pn ⟨d, n⟩) c (List.ofFn (M.callPoint x)) = MvPolynomial.eval x Q := by
    intro x
    rw [← hc _ (by simp), polyAt_ofFn, eval_pullback, hM.1]
  refine ⟨c, hx, ?_⟩
  rw [spaceIntegral_pn]
  simp only [simplexIntegral]
  rw [hM.integral]
  simp only [hx]

theorem volume_simplex_pos (e : Nat) : 0 < ∫ _ in simplexSet e, (1 : ℝ) := by
  rw [volume_simplex]; positivity

theorem kernel_pos (e n : Nat) : 0 < kernelAt (jpoly e 0) n (-1) ∧ 0 < kernelAt (jpoly e 0) n 1 := by
  rw [kernel_left, kernel_right]
  have : 0 < (n + e + 1).choose (e + 1) := Nat.choose_pos (by omega)
  constructor <;> positivity

/-- A multiple of the extremal polynomial with unit norm. -/
theorem cone_unit (e n : Nat) {s : ℝ} (hs : 0 < kernelAt (jpoly e 0) n s) : ∃ P : MvPolynomial (Fin (e + 1)) ℝ, P.totalDegree ≤ n ∧
    (∀ y : Fin e → ℝ, MvPolynomial.eval (conePoint s y) P ^ 2 = 2 ^ e * kernelAt (jpoly e 0) n s / ∫ _ in simplexSet e, (1 : ℝ)) ∧
    ∫ x in simplexSet (e + 1), MvPolynomial.eval x P * MvPolynomial.eval x P = 1 := by
  obtain ⟨P, h1, h2, h3⟩ := cone_eq e n s
  have hV := volume_simplex_pos e
  set V := ∫ _ in simplexSet e, (1 : ℝ)
  set K := kernelAt (jpoly e 0) n s
  have hI : ∫ x in simplexSet (e + 1), MvPolynomial.eval x P * MvPolynomial.eval x P = K * V / 2 ^ e := by
    rw [← h3]; field_simp
  set t := Real.sqrt (2 ^ e / (K * V))
  have ht : t ^ 2 = 2 ^ e / (K * V) := Real.sq_sqrt (by positivity)
  refine ⟨MvPolynomial.C t * P, ?_, fun y => ?_, ?_⟩
  · refine (MvPolynomial.totalDegree_mul _ _).trans ?_
    simpa using h1
  · rw [map_mul, MvPolynomial.eval_C, h2, mul_pow, ht]
    field_simp
  · have : ∀ x, MvPolynomial.eval x (MvPolynomial.C t * P) * MvPolynomial.eval x (MvPolynomial.C t * P) =
        t ^ 2 * (MvPolynomial.eval x P * MvPolynomial.eval x P) := by
      intro x
      rw [map_mul, MvPolynomial.eval_C]
      ring
    simp only [this]
    rw [integral_const_mul, hI, ht]
    field_simp

theorem trace_symmetric {e : Nat} (n : Nat) {M : AffineMap (e + 1)} (hM : SelfInverse M) (f : Face)
    (hf : ∀ F : List ℝ → ℝ, Spec.shapeIntegral f.shape (fun p => F (okOr [] (f.mapToVolume p))) =
      Spec.simplexIntegral e fun y => F (List.ofFn (M.callPoint (Fin.cons (-1) fun i : Fin e => y.getD i 0)))) :
    IsGreatest (unitTraces (.pn ⟨e + 1, n⟩) f) ((n + 1) * (n + e + 1) / 2) := by
  have hK : 2 ^ e * kernelAt (jpoly e 0) n (-1) = (n + 1) * (n + e + 1) / 2 := by
    rw [kernel_left]
    field_simp
    ring
  have hlist : ∀ y : Fin e → ℝ, (fun i : Fin e => (List.ofFn y).getD i 0) = y := fun y => by
    funext i
    simp
  rw [← hK]
  constructor
  · obtain ⟨Q, h1, h2, h3⟩ := cone_unit e n (kernel_pos e n).1
    obtain ⟨c, h4, h5⟩ := pn_of_poly hM Q h1
    refine ⟨c, h5.trans h3, ?_⟩
    rw [hf fun x => spacePoly (.pn ⟨e + 1, n⟩) c x ^ 2]
    simp only [simplexIntegral, hlist, h4]
    simp only [← conePoint_bottom, h2]
    rw [← mul_one (_ / _ : ℝ), integral_const_mul, div_mul_cancel₀ _ (volume_simplex_pos e).ne']
  · rintro r ⟨c, hc, rfl⟩
    obtain ⟨Q, h1, h2, h3⟩ := poly_of_pn hM c
    rw [hf fun x => spacePoly (.pn ⟨e + 1, n⟩) c x ^ 2]
    have h := cone_le Q h1 (-1)
    rw [← h3, hc, mul_one] at h
    simp only [simplexIntegral, hlist, h2]
    simp only [← conePoint_bottom]
    exact h

theorem value_symmetric {e : Nat} (n : Nat) {M : AffineMap (e + 1)} (hM : SelfInverse M) :
    IsGreatest (unitValues (.pn ⟨e + 1, n⟩) (List.ofFn (M.callPoint (Fin.cons 1 fun _ : Fin e => -1))))
      (((n + e + 1).choose (e + 1) : ℝ) ^ 2 * (e + 1).factorial / 2 ^ (e + 1)) := by
  have hV := volume_simplex_pos e
  have hK : ((n + e + 1).choose (e + 1) : ℝ) ^ 2 * (e + 1).factorial / 2 ^ (e + 1) =
      2 ^ e * kernelAt (jpoly e 0) n 1 / ∫ _ in simplexSet e, (1 : ℝ) := by
    rw [kernel_right, volume_simplex, Nat.factorial_succ]
    push_cast
    field_simp
  rw [hK]
  constructor
  · obtain ⟨Q, h1, h2, h3⟩ := cone_unit e n (kernel_pos e n).2
    obtain ⟨c, h4, h5⟩ := pn_of_poly hM Q h1
    refine ⟨c, h5.trans h3, ?_⟩
    rw [h4, ← h2 0, conePoint_top]
  · rintro r ⟨c, hc, rfl⟩
    obtain ⟨Q, h1, h2, h3⟩ := poly_of_pn hM c
    have h := cone_le Q h1 1
    rw [← h3, hc, mul_one] at h
    simp only [conePoint_top] at h
    rw [h2, le_div_iff₀ hV, ← integral_const_mul]
    simpa using h

/-! ## The symmetries -/

/-- Exchange of two coordinates, as an affine map. -/
noncomputable def swapMap {d : Nat} (i j : Fin d) : AffineMap d := ⟨Matrix.of fun k l => if l = Equiv.swap i j k then 1 else 0, 0⟩

theorem swapMap_call {d : Nat} (i j : Fin d) (x : Fin d → ℝ) : (swapMap i j).callPoint x = fun k => x (Equiv.swap i j k) := by
  funext k
  simp [AffineMap.callPoint, swapMap, Matrix.mulVec, dotProduct]

theorem swapMap_self {d : Nat} (i j : Fin d) : SelfInverse (swapMap i j) := by
  refine ⟨fun x => ?_, fun x hx => ?_⟩
  · simp [swapMap_call]
  · rw [swapMap_call]
    refine ⟨fun k => hx.1 _, ?_⟩
    rw [Equiv.sum_comp (Equiv.swap i j) fun k => (1 + x k) / 2]
    exact hx.2

/-- The affine map exchanging the first vertex with vertex `k + 1`. -/
noncomputable def reflectMap {d : Nat} (k : Fin d) : AffineMap d :=
  ⟨Matrix.of fun i j => if i = k then -1 else if j = i then 1 else 0, fun i => if i = k then 1 - d else 0⟩

theorem reflectMap_call {d : Nat} (k : Fin d) (x : Fin d → ℝ) :
    (reflectMap k).callPoint x = fun i => if i = k then 1 - d - ∑ j, x j else x i := by
  funext i
  by_cases h : i = k
  · simp [AffineMap.callPoint, reflectMap, Matrix.mulVec, dotProduct, h]
    ring
  · simp [AffineMap.callPoint, reflectMap, Matrix.mulVec, dotProduct, h]

theorem sum_reflect {d : Nat} (k : Fin d) (x : Fin d → ℝ) (t : ℝ) :
    ∑ i, (if i = k then t else x i) = t + (∑ i, x i - x k) := by
  rw [← Finset.add_sum_erase _ _ (Finset.mem_univ k), ← Finset.add_sum_erase _ x (Finset.mem_univ k), if_pos rfl,
    Finset.sum_congr rfl fun i hi => if_neg (Finset.ne_of_mem_erase hi)]
  ring

theorem mem_simplexSet {d : Nat} (x : Fin d → ℝ) : x ∈ simplexSet d ↔ (∀ i, -1 ≤ x i) ∧ ∑ i, x i ≤ 2 - d := by
  have : ∑ i, (1 + x i) / 2 = (d + ∑ i, x i) / 2 := by
    rw [← Finset.sum_div, Finset.sum_add_distrib]
    simp
  constructor
  · rintro ⟨h1, h2⟩
    exact ⟨h1, by linarith⟩
  · rintro ⟨h1, h2⟩
    exact ⟨h1, by linarith⟩

theorem reflectMap_self {d : Nat} (k : Fin d) : SelfInverse (reflectMap k) := by
  refine ⟨fun x => ?_, fun x hx => ?_⟩
  · rw [reflectMap_call, reflectMap_call]
    funext i
    rw [sum_reflect]
    by_cases h : i = k
    · rw [if_pos h, h]; ring
    · simp only [if_neg h]
  · rw [reflectMap_call]
    rw [mem_simplexSet] at hx ⊢
    refine ⟨fun i => ?_, ?_⟩
    · show -1 ≤ if i = k then _ else _
      split_ifs
      · linarith [hx.2]
      · exact hx.1 i
    · rw [sum_reflect]
      linarith [hx.1 k]

theorem swap_self_id {d : Nat} (i : Fin d) (x : Fin d → ℝ) : (swapMap i i).callPoint x = x := by
  rw [swapMap_call]
  simp

/-! ## The statements -/

/-- Column `k` of `unit_vertices_for_shape(Simplex(d))`. -/
noncomputable def Spec.vertexOf (d k : Nat) : List ℝ := List.map (fun z : Int => (z : ℝ)) (column (Shape.unitVerticesSimplex d) d k)

/-- **C106.**  The trace inequality on simplices with its best constant: for every face the library returns for interval, triangle and
tetrahedron, the greatest integral over the face of the square of a polynomial of `PN(d, n)` whose square has integral one is
`(n + 1) (n + d) / 2`. -/
theorem C106_trace (d n : Nat) (faces : List Face) (hf : facesForShape (.simplex d) = .ok faces) (f : Face) (hm : f ∈ faces) :
    IsGreatest (unitTraces (.pn ⟨d, n⟩) f) ((n + 1) * (n + d) / 2) := by
  have key : ∀ {e : Nat} {f : Face} {m : List ℝ → List ℝ} {ν : List ℝ}, FaceIs f (.simplex e) m ν → ∀ {M : AffineMap (e + 1)}, SelfInverse M →
      (∀ p : List ℝ, p.length = e → m p = List.ofFn (M.callPoint (Fin.cons (-1) fun i : Fin e => p.getD i 0))) →
      IsGreatest (unitTraces (.pn ⟨e + 1, n⟩) f) ((n + 1) * (n + (e + 1 : Nat)) / 2) := by
    intro e f m ν h M hM hmap
    have := trace_symmetric n hM f fun F => by
      rw [h.integral]
      refine shapeIntegral_congr (.simplex e) _ (fun y => F (List.ofFn (M.callPoint (Fin.cons (-1) fun i : Fin e => y.getD i 0)))) ?_
      intro p hp
      rw [hmap p hp]
    push_cast
    rw [← add_assoc]
    exact this
  by_cases hd : d < 1 ∨ 3 < d
  · rw [C08_simplex_other d hd] at hf
    exact absurd hf (by simp)
  obtain rfl | rfl | rfl : d = 1 ∨ d = 2 ∨ d = 3 := by omega
  · obtain ⟨f0, f1, h, h0, h1⟩ := faces_simplex_one
    obtain rfl := Except.ok.inj (hf.symm.trans h)
    simp only [List.mem_cons, List.not_mem_nil, or_false] at hm
    rcases hm with rfl | rfl
    · exact key h0 (swapMap_self 0 0) fun p _ => by rw [swap_self_id]; simp
    · exact key h1 (reflectMap_self 0) fun p _ => by rw [reflectMap_call]; simp
  · obtain ⟨f0, f1, f2, h, h0, h1, h2⟩ := faces_simplex_two
    obtain rfl := Except.ok.inj (hf.symm.trans h)
    simp only [List.mem_cons, List.not_mem_nil, or_false] at hm
    rcases hm with rfl | rfl | rfl
    · exact key h0 (swapMap_self 0 1) fun p _ => by rw [swapMap_call]; simp
    · exact key h1 (reflectMap_self 1) fun p _ => by rw [reflectMap_call]; simp [Fin.sum_univ_succ]; ring
    · exact key h2 (reflectMap_self 0) fun p _ => by rw [reflectMap_call]; simp [Fin.sum_univ_succ]; ring
  · obtain ⟨f0, f1, f2, f3, h, h0, h1, h2, h3⟩ := faces_simplex_three
    obtain rfl := Except.ok.inj (hf.symm.trans h)
    simp only [List.mem_cons, List.not_mem_nil, or_false] at hm
    rcases hm with rfl | rfl | rfl | rfl
    · exact key h0 (swapMap_self 0 2) fun p _ => by rw [swapMap_call]; simp [Equiv.swap_apply_def]; rfl
    · exact key h1 (swapMap_self 0 1) fun p _ => by rw [swapMap_call]; simp [Equiv.swap_apply_def]; rfl
    · exact key h2 (swapMap_self 1 2) fun p _ => by rw [swapMap_call]; simp [Equiv.swap_apply_def]; rfl
    · exact key h3 (reflectMap_self 0) fun p _ => by rw [reflectMap_call]; simp [Fin.sum_univ_succ]; ring

/-- **C106.**  At every vertex of the reference simplex of any positive dimension, the greatest square of a value of a polynomial of
`PN(d, n)` whose square has integral one is `d! / 2^d` times the square of the dimension of the space. -/
theorem C106_vertex (d n : Nat) (hd : 1 ≤ d) (k : Nat) (hk : k ≤ d) :
    IsGreatest (unitValues (.pn ⟨d, n⟩) (vertexOf d k))
      (((n + d).choose d : ℝ) ^ 2 * d.factorial / 2 ^ d) := by
  obtain ⟨e, rfl⟩ : ∃ e, d = e + 1 := ⟨d - 1, by omega⟩
  have key : ∀ {M : AffineMap (e + 1)}, SelfInverse M →
      (∀ i : Fin (e + 1), (((Shape.unitVerticesSimplex (e + 1)).get [(i : Nat), k] : Int) : ℝ) = M.callPoint (Fin.cons 1 fun _ : Fin e => -1) i) →
      IsGreatest (unitValues (.pn ⟨e + 1, n⟩) (vertexOf (e + 1) k))
        (((n + (e + 1)).choose (e + 1) : ℝ) ^ 2 * (e + 1).factorial / 2 ^ (e + 1)) := by
    intro M hM h
    have h' := value_symmetric n hM
    rw [← add_assoc]
    convert h' using 2
    apply List.ext_getElem
    · simp [vertexOf, column]
    · intro i h1 h2
      simp only [vertexOf, column, List.length_map, List.length_range] at h1
      simp only [vertexOf, column, List.getElem_map, List.getElem_range, List.getElem_ofFn]
      exact h ⟨i, h1⟩
  have hcons : ∀ i : Fin (e + 1), (Fin.cons 1 fun _ : Fin e => -1 : Fin (e + 1) → ℝ) i = if i = 0 then 1 else -1 := by
    intro i
    refine Fin.cases ?_ (fun j => ?_) i <;> simp
  match k, hk with
  | 0, _ =>
    refine key (reflectMap_self 0) fun i => ?_
    rw [unitVertices_get, reflectMap_call]
    simp only [hcons]
    rw [Fin.sum_univ_succ]
    by_cases h : i = 0
    · simp [h]
    · simp [h]
  | k + 1, hk =>
    refine key (swapMap_self 0 ⟨k, by omega⟩) fun i => ?_
    rw [unitVertices_get, swapMap_call]
    simp only [hcons, Nat.add_right_cancel_iff]
    by_cases h : i = ⟨k, by omega⟩
    · rw [h, Equiv.swap_apply_right, if_pos rfl, if_pos rfl]
      simp
    · rw [if_neg fun hc => h (Fin.ext hc.symm), if_neg]
      · simp
      · intro hc
        apply h
        have := congrArg (Equiv.swap 0 (⟨k, by omega⟩ : Fin (e + 1))) hc
        simpa using this

/-- **C106.**  Hence the diagonal entry of `inverse_mass_matrix` at a node which is a vertex. -/
theorem C106_inverse_mass {b : Basis ℝ} {d n : Nat} (hb : IsOrthonormalBasisOf b (.pn ⟨d, n⟩)) (hd : 1 ≤ d) (hd3 : d ≤ 3) {m : Nat}
    (nodes : Fin m → List ℝ) (hreg : ∀ i, RegularFor (.pn ⟨d, n⟩) (nodes i)) (i : Fin m) (k : Nat) (hk : k ≤ d)
    (hi : nodes i = vertexOf d k) :
    ∃ N, inverseMassMatrixOf b nodes = .ok N ∧ N i i = ((n + d).choose d : ℝ) ^ 2 * d.factorial / 2 ^ d := by
  obtain ⟨N, hN, hg⟩ := C100_inverse_mass hb (by
    intro s hs
    rw [List.mem_singleton.1 hs]
    exact ⟨hd, hd3⟩) nodes hreg
  refine ⟨N, hN, ?_⟩
  have h1 := hg i
  rw [hi] at h1
  exact h1.unique (C106_vertex d n hd k hk)

/-- **C106.**  A rule with nonnegative weights that integrates the products of the space gives a vertex at most the share
`1 / dim(PN(d, n))^2` of the volume of the simplex. -/
theorem C106_weights {d n m : Nat} (hd : 1 ≤ d) (y : Fin m → List ℝ) (w : Fin m → ℝ) (hw : ∀ j, 0 ≤ w j)
    (hex : ExactOnProducts (.pn ⟨d, n⟩) y w) (j : Fin m) (k : Nat) (hk : k ≤ d)
    (hj : y j = vertexOf d k) :
    w j ≤ Spec.simplexIntegral d (fun _ => 1) / ((n + d).choose d : ℝ) ^ 2 := by
  have h := C100_weights y w hw hex j _ (by rw [hj]; exact C106_vertex d n hd k hk)
  have hpos : (0 : ℝ) < ((n + d).choose d : ℝ) := by exact_mod_cast Nat.choose_pos (by omega)
  have hv : Spec.simplexIntegral d (fun _ => 1) = 2 ^ d / d.factorial := volume_simplex d
  rw [hv]
  have hf : (0 : ℝ) < d.factorial := by positivity
  rw [div_div, le_div_iff₀ (by positivity)]
  rw [mul_div_assoc', div_le_one (by positivity)] at h
  linarith

/-- The hypotheses are met by the faces of the triangle and the tetrahedron, whose trace constants at order two are `6` and `15/2`, by
the vertex `(-1, 1)` of the triangle with constant `18` at order two, which `inverse_mass_matrix` gives at a node there. -/
example : (∃ faces f, facesForShape (.simplex 2) = .ok faces ∧ f ∈ faces ∧ IsGreatest (unitTraces (.pn ⟨2, 2⟩) f) 6) ∧
    (∃ faces f, facesForShape (.simplex 3) = .ok faces ∧ f ∈ faces ∧ IsGreatest (unitTraces (.pn ⟨3, 2⟩) f) (15 / 2)) ∧
    vertexOf 2 2 = [-1, 1] ∧ IsGreatest (unitValues (.pn ⟨2, 2⟩) [-1, 1]) 18 ∧
    (∃ b N, IsOrthonormalBasisOf b (.pn ⟨2, 2⟩) ∧
      inverseMassMatrixOf b (fun i : Fin 3 => [[-1, 1], [0, 0], [1, -1]].getD i []) = .ok N ∧ N 0 0 = 18) := by
  have hv : vertexOf 2 2 = [-1, 1] := by
    simp [vertexOf, column, Shape.unitVerticesSimplex, List.range_succ]
  refine ⟨?_, ?_, hv, ?_, ?_⟩
  · obtain ⟨f0, f1, f2, h, -⟩ := faces_simplex_two
    refine ⟨_, f2, h, by simp, ?_⟩
    have := C106_trace 2 2 _ h f2 (by simp)
    norm_num at this
    exact this
  · obtain ⟨f0, f1, f2, f3, h, -⟩ := faces_simplex_three
    refine ⟨_, f1, h, by simp, ?_⟩
    have := C106_trace 3 2 _ h f1 (by simp)
    norm_num at this
    exact this
  · have := C106_vertex 2 2 (by norm_num) 2 (by norm_num)
    rw [hv] at this
    norm_num [Nat.choose, Nat.factorial] at this
    exact this
  · have hb : IsOrthonormalBasisOf ((orthonormalBasisForSpace (R := ℝ) (.pn ⟨2, 2⟩) (.simplex 2)).toOption.get rfl)
        (.pn ⟨2, 2⟩) := ⟨.simplex 2, Or.inl rfl⟩
    obtain ⟨N, hN, hg⟩ := C106_inverse_mass hb (by norm_num) (by norm_num) (fun i : Fin 3 => [[-1, 1], [0, 0], [1, -1]].getD i []) (by
      intro i
      fin_cases i <;> simp [RegularFor, Space.spatialDim, Space.flatBases, slices, Regular] <;> norm_num) 0 2 (by norm_num) (by rw [hv]; rfl)
    refine ⟨_, N, hb, hN, ?_⟩
    rw [hg]
    norm_num [Nat.choose, Nat.factorial]

/-- The rule with weights `2/3` at the three vertices of the triangle integrates constants. -/
example : ExactOnProducts (.pn ⟨2, 0⟩) (fun j : Fin 3 => vertexOf 2 j) (fun _ => 2 / 3) ∧ (2 / 3 : ℝ) ≤ Spec.simplexIntegral 2 (fun _ => 1) / ((0 + 2).choose 2 : ℝ) ^ 2 := by
  have hex : ExactOnProducts (.pn ⟨2, 0⟩) (fun j : Fin 3 => vertexOf 2 j) (fun _ => 2 / 3) := by
    intro c c'
    obtain ⟨P, h1, h2⟩ := spacePoly_polyAt (.pn ⟨2, 0⟩) (d := 2) rfl c
    obtain ⟨P', h1', h2'⟩ := spacePoly_polyAt (.pn ⟨2, 0⟩) (d := 2) rfl c'
    have hP := MvPolynomial.totalDegree_eq_zero_iff_eq_C.1 (Nat.le_zero.1 ((polyIn_simplex (conforms_pn 2 0) P).1 h1))
    have hP' := MvPolynomial.totalDegree_eq_zero_iff_eq_C.1 (Nat.le_zero.1 ((polyIn_simplex (conforms_pn 2 0) P').1 h1'))
    have hc : ∀ x : List ℝ, x.length = 2 → spacePoly (.pn ⟨2, 0⟩) c x = MvPolynomial.coeff 0 P := fun x hx => by
      rw [h2 x hx, hP, polyAt, MvPolynomial.eval_C, ← hP]
    have hc' : ∀ x : List ℝ, x.length = 2 → spacePoly (.pn ⟨2, 0⟩) c' x = MvPolynomial.coeff 0 P' := fun x hx => by
      rw [h2' x hx, hP', polyAt, MvPolynomial.eval_C, ← hP']
    rw [spaceIntegral_pn]
    simp only [simplexIntegral]
    have hx : ∀ x : Fin 2 → ℝ, spacePoly (.pn ⟨2, 0⟩) c (List.ofFn x) * spacePoly (.pn ⟨2, 0⟩) c' (List.ofFn x) =
        MvPolynomial.coeff 0 P * MvPolynomial.coeff 0 P' * 1 := fun x => by
      rw [hc _ (by simp), hc' _ (by simp), mul_one]
    simp only [hx]
    rw [integral_const_mul, volume_simplex, Fin.sum_univ_three]
    simp only [hc (vertexOf 2 _) (by simp [vertexOf, column]), hc' (vertexOf 2 _) (by simp [vertexOf, column])]
    norm_num [Nat.factorial]
    ring
  exact ⟨hex, C106_weights (by norm_num) _ _ (fun _ => by norm_num) hex 0 0 (by norm_num) rfl⟩
end Modepy

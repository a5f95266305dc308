import Verif.Model.Tools
import Verif.Proofs.TensorNodes
import Verif.Proofs.QuadArrays
import Verif.Spec.Geometry
import Mathlib.MeasureTheory.Measure.Lebesgue.EqHaar

/-!
# Properties C43 and C44: affine maps and simplex coordinates
-/

namespace Modepy
open Spec Matrix MeasureTheory

variable {d : Nat}

theorem AffineMap.call_col {p : Nat} (f : AffineMap d) (x : Matrix (Fin d) (Fin p) ℝ) (i : Fin d) (j : Fin p) :
    f.call x i j = f.callPoint (fun k => x k j) i := by
  simp [AffineMap.call, AffineMap.callPoint, Matrix.mul_apply, Matrix.mulVec, dotProduct, mul_comm]

theorem inverse_ok (f : AffineMap d) (h : f.a.det ≠ 0) :
    f.inverse = .ok ⟨f.a⁻¹, fun i => -(f.a⁻¹ *ᵥ f.b) i⟩ := by
  rw [AffineMap.inverse, npInv, if_neg h]
  simp only
  rw [npSolve, if_neg h]
  simp only [Matrix.mul_apply, Matrix.of_apply, Matrix.mulVec, dotProduct]

/-- **C43.**  For every invertible matrix and every offset, `AffineMap.inverse` is a two-sided inverse on points
and on batches of points, its `jacobian` is the reciprocal, and its own inverse is the original map. -/
theorem C43_inverse (f : AffineMap d) (h : f.jacobian ≠ 0) :
    ∃ g, f.inverse = .ok g ∧ (∀ x, g.callPoint (f.callPoint x) = x) ∧ (∀ x, f.callPoint (g.callPoint x) = x) ∧
      (∀ (p : Nat) (x : Matrix (Fin d) (Fin p) ℝ), g.call (f.call x) = x ∧ f.call (g.call x) = x) ∧
      g.jacobian * f.jacobian = 1 ∧ g.inverse = .ok f := by
  have hu : IsUnit f.a.det := isUnit_iff_ne_zero.2 h
  have i1 := Matrix.nonsing_inv_mul f.a hu
  have i2 := Matrix.mul_nonsing_inv f.a hu
  have hb : (fun i => -(f.a⁻¹ *ᵥ f.b) i) = -(f.a⁻¹ *ᵥ f.b) := rfl
  have p1 : ∀ x, AffineMap.callPoint ⟨f.a⁻¹, fun i => -(f.a⁻¹ *ᵥ f.b) i⟩ (f.callPoint x) = x := by
    intro x
    simp only [AffineMap.callPoint, hb]
    rw [Matrix.mulVec_add, Matrix.mulVec_mulVec, i1, Matrix.one_mulVec]
    abel
  have p2 : ∀ x, f.callPoint (AffineMap.callPoint ⟨f.a⁻¹, fun i => -(f.a⁻¹ *ᵥ f.b) i⟩ x) = x := by
    intro x
    simp only [AffineMap.callPoint, hb]
    rw [Matrix.mulVec_add, Matrix.mulVec_mulVec, Matrix.mulVec_neg, Matrix.mulVec_mulVec, i2, Matrix.one_mulVec,
      Matrix.one_mulVec]
    abel
  have hd : (f.a⁻¹).det * f.a.det = 1 := by rw [← Matrix.det_mul, i1, Matrix.det_one]
  refine ⟨_, inverse_ok f h, p1, p2, ?_, hd, ?_⟩
  · intro p x
    constructor
    · ext i j
      rw [AffineMap.call_col]
      have : (fun k => f.call x k j) = f.callPoint fun k => x k j := by funext k; rw [AffineMap.call_col]
      rw [this, p1]
    · ext i j
      rw [AffineMap.call_col]
      have : (fun k => AffineMap.call ⟨f.a⁻¹, fun i => -(f.a⁻¹ *ᵥ f.b) i⟩ x k j) =
          AffineMap.callPoint ⟨f.a⁻¹, fun i => -(f.a⁻¹ *ᵥ f.b) i⟩ fun k => x k j := by
        funext k; rw [AffineMap.call_col]
      rw [this, p2]
  · have hne : (f.a⁻¹).det ≠ 0 := by
      intro h0
      rw [h0, zero_mul] at hd
      exact zero_ne_one hd
    rw [inverse_ok _ hne, hb, Matrix.nonsing_inv_nonsing_inv _ hu]
    congr 1
    have : (fun i => -(f.a *ᵥ -(f.a⁻¹ *ᵥ f.b)) i) = f.b := by
      rw [Matrix.mulVec_neg, Matrix.mulVec_mulVec, i2, Matrix.one_mulVec]
      funext i
      simp
    rw [this]

/-- A singular matrix has no inverse map: `LinAlgError`. -/
theorem C43_singular (f : AffineMap d) (h : f.jacobian = 0) : f.inverse = .error .LinAlgError := by
  have h' : f.a.det = 0 := h
  rw [AffineMap.inverse, npInv, if_pos h']

/-- `jacobian` is the (signed) factor by which the map changes volumes. -/
theorem C43_volume (f : AffineMap d) (s : Set (Fin d → ℝ)) :
    volume (f.callPoint '' s) = ENNReal.ofReal |f.jacobian| * volume s := by
  have : f.callPoint '' s = (fun x => x + f.b) '' (Matrix.toLin' f.a '' s) := by
    rw [Set.image_image]
    rfl
  rw [this, Set.image_add_right, measure_preimage_add_right, Measure.addHaar_image_linearMap, LinearMap.det_toLin']
  rfl

/-- An instance: a shear with offset. -/
example : ∃ g, AffineMap.inverse ⟨!![1, 2; 0, 1], ![3, 4]⟩ = .ok g ∧ g.callPoint ![8, 5] = ![3, 1] := by
  have hdet : AffineMap.jacobian ⟨!![1, 2; 0, 1], ![3, 4]⟩ = 1 := by simp [AffineMap.jacobian, Matrix.det_fin_two]
  obtain ⟨g, hg, h1, -⟩ := C43_inverse ⟨!![1, 2; 0, 1], ![3, 4]⟩ (by rw [hdet]; norm_num)
  refine ⟨g, hg, ?_⟩
  have := h1 ![3, 1]
  have e : AffineMap.callPoint ⟨!![1, 2; 0, 1], ![3, 4]⟩ ![3, 1] = ![8, 5] := by
    funext i
    fin_cases i <;> simp [AffineMap.callPoint] <;> norm_num
  rwa [e] at this

/-! ## Simplex coordinates -/

theorem unitToBarycentric_bary (x : List ℝ) (m : Nat) (hm : m ≤ x.length) :
    (unitToBarycentric x).getD m 0 = bary x m := by
  have e : (fun c : ℝ => 0.5 * (c + 1)) = fun c => (1 + c) / 2 := by funext c; ring
  cases m with
  | zero => simp [unitToBarycentric, bary, e]
  | succ m =>
    have hm' : m < x.length := hm
    simp [unitToBarycentric, bary, e, List.getD_eq_getElem?_getD, List.getElem?_eq_getElem hm']

theorem sum_wander (n : Nat) (b : List ℝ) (hb : b.length = n + 1) (i : Nat) (hi : i < n) :
    ((List.range (n + 1)).map fun k => ((Shape.unitVerticesSimplex n).get [i, k] : ℝ) * b.getD k 0).sum =
      2 * b.getD (i + 1) 0 - b.sum := by
  rw [sum_map_range_real]
  have e : ∀ k ∈ Finset.range (n + 1), ((Shape.unitVerticesSimplex n).get [i, k] : ℝ) * b.getD k 0 =
      2 * (if k = i + 1 then b.getD k 0 else 0) - b.getD k 0 := by
    intro k hk
    have : (Shape.unitVerticesSimplex n).get [i, k] = if k = i + 1 then 1 else -1 := by
      simp [Shape.unitVerticesSimplex]
    rw [this]
    split_ifs <;> push_cast <;> ring
  rw [Finset.sum_congr rfl e, Finset.sum_sub_distrib, ← Finset.mul_sum, Finset.sum_ite_eq',
    if_pos (Finset.mem_range.2 (by omega))]
  congr 1
  rw [← sum_map_range_real]
  congr 1
  apply List.ext_getElem
  · simp [hb]
  · intro k h1 h2
    simp [List.getD_eq_getElem?_getD, h2]

theorem barycentricToUnit_ok (b : List ℝ) (n : Nat) (hb : b.length = n + 1) :
    barycentricToUnit b = .ok ((List.range n).map fun i => 2 * b.getD (i + 1) 0 - b.sum) := by
  match b, hb with
  | c :: cs, hb =>
    have hl : cs.length = n := by simpa using hb
    rw [barycentricToUnit]
    simp only [hl]
    congr 1
    apply List.map_congr_left
    intro i hi
    exact sum_wander n (c :: cs) hb i (List.mem_range.1 hi)

/-- **C44.**  In every dimension, `barycentric_to_unit` undoes `unit_to_barycentric`. -/
theorem C44_unit_roundtrip (x : List ℝ) : barycentricToUnit (unitToBarycentric x) = .ok x := by
  rw [barycentricToUnit_ok _ x.length (by simp [unitToBarycentric])]
  congr 1
  apply List.ext_getElem
  · simp
  · intro i h1 h2
    have hs : (unitToBarycentric x).sum = 1 := by simp [unitToBarycentric]
    simp only [List.getElem_map, List.getElem_range, hs]
    rw [unitToBarycentric_bary x (i + 1) h2, bary, List.getD_eq_getElem?_getD, List.getElem?_eq_getElem h2]
    simp
    ring

/-- **C44.**  Barycentric coordinates of a point are the `λ_m` of the geometry and sum to one. -/
theorem C44_bary (x : List ℝ) : (unitToBarycentric x).length = x.length + 1 ∧
    (unitToBarycentric x).sum = 1 ∧ ∀ m ≤ x.length, (unitToBarycentric x).getD m 0 = bary x m :=
  ⟨by simp [unitToBarycentric], by simp [unitToBarycentric], fun m hm => unitToBarycentric_bary x m hm⟩

/-- **C44.**  `unit_to_barycentric` undoes `barycentric_to_unit` on coordinates that sum to one, and only on
those. -/
theorem C44_bary_roundtrip (b : List ℝ) (hb : b ≠ []) :
    ∃ x, barycentricToUnit b = .ok x ∧ x.length + 1 = b.length ∧ (unitToBarycentric x = b ↔ b.sum = 1) := by
  obtain ⟨n, hn⟩ : ∃ n, b.length = n + 1 := ⟨b.length - 1, by have := List.length_pos_iff.2 hb; omega⟩
  refine ⟨_, barycentricToUnit_ok b n hn, by simp [hn], ?_⟩
  constructor
  · intro h
    rw [← h]
    simp [unitToBarycentric]
  · intro hs
    match b, hn with
    | c :: cs, hn =>
      have hl : cs.length = n := by simpa using hn
      have hcs : ((List.range n).map fun i => 2 * (c :: cs).getD (i + 1) 0 - (c :: cs).sum).map
          (fun c : ℝ => 0.5 * (c + 1)) = cs := by
        rw [hs]
        apply List.ext_getElem
        · simp [hl]
        · intro i h1 h2
          have hg : (c :: cs).getD (i + 1) 0 = cs[i] := by
            simp [List.getD_eq_getElem?_getD, List.getElem?_eq_getElem h2]
          simp only [List.getElem_map, List.getElem_range, hg]
          ring
      rw [unitToBarycentric, hcs]
      simp only [List.sum_cons] at hs
      congr 1
      linarith

/-- **C44.**  The vertices of the unit simplex have the coordinate vectors as barycentric coordinates. -/
theorem C44_vertices (n k : Nat) (hk : k ≤ n) :
    unitToBarycentric ((List.range n).map fun i => ((Shape.unitVerticesSimplex n).get [i, k] : ℝ)) =
      (List.range (n + 1)).map fun j => if j = k then 1 else 0 := by
  have hbar : ∀ m ≤ n, bary ((List.range n).map fun i => ((Shape.unitVerticesSimplex n).get [i, k] : ℝ)) m =
      if m = k then 1 else 0 := by
    intro m hm
    have hv : ∀ i, ((Shape.unitVerticesSimplex n).get [i, k] : ℝ) = if k = i + 1 then 1 else -1 := by
      intro i
      simp [Shape.unitVerticesSimplex]
    simp only [hv]
    cases m with
    | zero =>
      simp only [bary, List.map_map, Function.comp_def]
      rw [sum_map_range_real]
      have e : ∀ i ∈ Finset.range n, (1 + (if k = i + 1 then (1 : ℝ) else -1)) / 2 = if i + 1 = k then 1 else 0 := by
        intro i _
        by_cases h : k = i + 1
        · rw [if_pos h, if_pos h.symm]; norm_num
        · rw [if_neg h, if_neg (Ne.symm h)]; norm_num
      rw [Finset.sum_congr rfl e]
      cases k with
      | zero => simp
      | succ k =>
        simp only [Nat.add_right_cancel_iff]
        rw [Finset.sum_ite_eq', if_pos (Finset.mem_range.2 (by omega))]
        simp
    | succ m =>
      simp only [bary, List.getD_eq_getElem?_getD, List.getElem?_map, List.getElem?_range (show m < n by omega),
        Option.map_some, Option.getD_some]
      by_cases h : k = m + 1
      · rw [if_pos h, if_pos h.symm]; norm_num
      · rw [if_neg h, if_neg (Ne.symm h)]; norm_num
  apply List.ext_getElem
  · simp [unitToBarycentric]
  · intro j h1 h2
    have hj : j ≤ n := by simp at h2; omega
    have h := unitToBarycentric_bary ((List.range n).map fun i => ((Shape.unitVerticesSimplex n).get [i, k] : ℝ)) j
      (by simpa using hj)
    rw [hbar j hj, List.getD_eq_getElem?_getD, List.getElem?_eq_getElem h1, Option.getD_some] at h
    rw [h]
    simp

/-- **C44.**  A point lies in the reference simplex iff its barycentric coordinates are nonnegative. -/
theorem C44_membership (x : List ℝ) : InSimplex x.length x ↔ ∀ c ∈ unitToBarycentric x, 0 ≤ c := by
  have hl : (unitToBarycentric x).length = x.length + 1 := by simp [unitToBarycentric]
  constructor
  · rintro ⟨-, h⟩ c hc
    obtain ⟨m, hm, rfl⟩ := List.getElem_of_mem hc
    have := unitToBarycentric_bary x m (by omega)
    rw [List.getD_eq_getElem?_getD, List.getElem?_eq_getElem hm, Option.getD_some] at this
    rw [this]
    exact h m (by omega)
  · intro h
    refine ⟨rfl, fun m hm => ?_⟩
    rw [← unitToBarycentric_bary x m hm, List.getD_eq_getElem?_getD, List.getElem?_eq_getElem (by omega)]
    exact h _ (List.getElem_mem _)

theorem equiMap1 (x : ℝ) : List.ofFn (equilateralToUnitMap1.callPoint ![x]) = [x] := by
  simp [equilateralToUnitMap1, AffineMap.callPoint, Matrix.vecHead]

theorem equiMap2 (x y : ℝ) : List.ofFn (equilateralToUnitMap2.callPoint ![x, y]) =
    [x - y / √3 - 1 / 3, 2 * y / √3 - 1 / 3] := by
  simp [equilateralToUnitMap2, AffineMap.callPoint, Matrix.vecHead, Matrix.vecTail]
  constructor <;> ring

theorem equiMap3 (x y z : ℝ) : List.ofFn (equilateralToUnitMap3.callPoint ![x, y, z]) =
    [x - y / √3 - z / √6 - 1 / 2, 2 * y / √3 - z / √6 - 1 / 2, √6 / 2 * z - 1 / 2] := by
  simp [equilateralToUnitMap3, AffineMap.callPoint, Matrix.vecHead, Matrix.vecTail]
  refine ⟨?_, ?_, ?_⟩ <;> ring

/-- **C44.**  In dimensions 1 to 3 the two ways from barycentric to unit coordinates agree (on coordinates
that sum to one). -/
theorem C44_equilateral (b : List ℝ) (h : 2 ≤ b.length ∧ b.length ≤ 4) (hs : b.sum = 1) :
    ∃ e x, barycentricToEquilateral b = .ok e ∧ equilateralToUnit e = .ok x ∧ barycentricToUnit b = .ok x := by
  have h3 : (√3 : ℝ) ≠ 0 := by positivity
  have h6 : (√6 : ℝ) ≠ 0 := by positivity
  have q3 : √3 ^ 2 = (3 : ℝ) := Real.sq_sqrt (by norm_num)
  have q6 : √6 ^ 2 = (6 : ℝ) := Real.sq_sqrt (by norm_num)
  match b, h with
  | [b0, b1], _ =>
    have e : b0 = 1 - b1 := by simp at hs; linarith
    subst e
    refine ⟨_, _, rfl, rfl, ?_⟩
    rw [barycentricToUnit_ok _ 1 rfl, equiMap1]
    simp [List.range_succ]
    ring
  | [b0, b1, b2], _ =>
    have e : b0 = 1 - b1 - b2 := by simp at hs; linarith
    subst e
    refine ⟨_, _, rfl, rfl, ?_⟩
    rw [barycentricToUnit_ok _ 2 rfl, equiMap2]
    simp [List.range_succ]
    constructor
    · field_simp
      rw [q3]
      ring
    · field_simp
      rw [q3]
      ring
  | [b0, b1, b2, b3], _ =>
    have e : b0 = 1 - b1 - b2 - b3 := by simp at hs; linarith
    subst e
    refine ⟨_, _, rfl, rfl, ?_⟩
    rw [barycentricToUnit_ok _ 3 rfl, equiMap3]
    simp [List.range_succ]
    refine ⟨?_, ?_, ?_⟩
    · field_simp
      rw [q3, q6]
      ring
    · field_simp
      rw [q3, q6]
      ring
    · field_simp
      ring

/-- An instance of the last statement: the barycentre of the triangle. -/
example : ∃ e, barycentricToEquilateral [1 / 3, 1 / 3, 1 / 3] = .ok e ∧
    equilateralToUnit e = .ok [-1 / 3, -1 / 3] := by
  obtain ⟨e, x, h1, h2, h3⟩ := C44_equilateral [1 / 3, 1 / 3, 1 / 3] (by simp) (by norm_num)
  refine ⟨e, h1, ?_⟩
  rw [h2, ← h3, barycentricToUnit_ok _ 2 rfl]
  simp [List.range_succ]
  norm_num

end Modepy

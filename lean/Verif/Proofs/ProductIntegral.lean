import Mathlib.MeasureTheory.Integral.Pi
import Verif.Props.QuadForSpace
import Verif.Props.Monomials
import Verif.Proofs.Functional
import Verif.Proofs.TableRules
import Verif.Spec.Simplex

/-!
# Integrals over products of simplices
-/

namespace Modepy
open Spec MeasureTheory

/-- The integral over the product of the simplices with dimensions `dims`. -/
noncomputable def Spec.productIntegral (dims : List Nat) (F : List ℝ → ℝ) : ℝ :=
  ∫ x : (i : Fin dims.length) → Fin dims[i] → ℝ in Set.univ.pi fun i => simplexSet dims[i],
    F (List.ofFn fun i => List.ofFn (x i)).flatten

theorem slices_flatten_ofFn (dims : List Nat) (x : (i : Fin dims.length) → Fin dims[i] → ℝ) :
    slices dims (List.ofFn fun i => List.ofFn (x i)).flatten = List.ofFn fun i => List.ofFn (x i) := by
  induction dims with
  | nil => simp [slices]
  | cons d ds ih =>
    rw [List.ofFn_succ, List.flatten_cons]
    rw [slices_append d ds _ _ (List.length_ofFn (f := x 0))]
    congr 1
    exact ih fun i => x i.succ

theorem length_flatten_ofFn (dims : List Nat) (x : (i : Fin dims.length) → Fin dims[i] → ℝ) :
    ((List.ofFn fun i => List.ofFn (x i)).flatten).length = dims.sum := by
  induction dims with
  | nil => simp
  | cons d ds ih =>
    rw [List.ofFn_succ, List.flatten_cons, List.length_append, List.sum_cons, ← ih fun i => x i.succ]
    exact congrArg₂ (· + ·) (List.length_ofFn (f := x 0)) rfl

theorem prod_zipWith_ofFn {n : Nat} (Fs : List (List ℝ → ℝ)) (hF : Fs.length = n) (y : Fin n → List ℝ) :
    (List.zipWith (fun F z => F z) Fs (List.ofFn y)).prod = ∏ i : Fin n, (Fs.getD i fun _ => 0) (y i) := by
  rw [← List.prod_ofFn]
  congr 1
  apply List.ext_getElem
  · simp [hF]
  · intro i h1 h2
    have : i < Fs.length := by simp at h1; omega
    simp [List.getD_eq_getElem?_getD, this]

theorem integral_pi_simplexSet {n : Nat} (d : Fin n → Nat) (f : (i : Fin n) → (Fin (d i) → ℝ) → ℝ) :
    ∫ x in Set.univ.pi fun i => simplexSet (d i), ∏ i, f i (x i) = ∏ i, ∫ x in simplexSet (d i), f i x := by
  rw [volume_pi, Measure.restrict_pi_pi, integral_fintype_prod_eq_prod]

/-- Products of functions of the factors. -/
theorem productIntegral_product (dims : List Nat) (Fs : List (List ℝ → ℝ)) (hF : Fs.length = dims.length) :
    productIntegral dims (fun x => (List.zipWith (fun F z => F z) Fs (slices dims x)).prod) =
      (List.zipWith (fun d F => Spec.simplexIntegral d F) dims Fs).prod := by
  simp only [productIntegral, slices_flatten_ofFn, prod_zipWith_ofFn Fs hF]
  refine (integral_pi_simplexSet (fun i : Fin dims.length => dims[i]) fun i x =>
    (Fs.getD i fun _ => 0) (List.ofFn x)).trans ?_
  rw [← List.prod_ofFn]
  congr 1
  apply List.ext_getElem
  · simp [hF]
  · intro i h1 h2
    have : i < Fs.length := by simp at h2; omega
    simp [List.getD_eq_getElem?_getD, this, Spec.simplexIntegral]

/-- The coordinates of a point of a product. -/
def coordinates (dims : List Nat) : List (((i : Fin dims.length) → Fin dims[i] → ℝ) → ℝ) :=
  (List.ofFn fun i => List.ofFn fun j => fun x => x i j).flatten

theorem flatten_eq_coordinates (dims : List Nat) (x : (i : Fin dims.length) → Fin dims[i] → ℝ) :
    (List.ofFn fun i => List.ofFn (x i)).flatten = (coordinates dims).map fun c => c x := by
  simp only [coordinates, List.map_flatten, List.map_ofFn]
  congr 2
  funext i
  simp only [Function.comp_apply, List.map_ofFn]
  rfl

theorem continuous_coordinates (dims : List Nat) : ∀ c ∈ coordinates dims, Continuous c := by
  intro c hc
  simp only [coordinates, List.mem_flatten, List.mem_ofFn] at hc
  obtain ⟨l, ⟨i, rfl⟩, hl⟩ := hc
  obtain ⟨j, rfl⟩ := List.mem_ofFn.1 hl
  exact (continuous_apply j).comp (continuous_apply i)

theorem continuous_monomialValue_map {E : Type*} [TopologicalSpace E] (t : List Nat) (L : List (E → ℝ))
    (hL : ∀ c ∈ L, Continuous c) : Continuous fun x => monomialValue t (L.map fun c => c x) := by
  induction L generalizing t with
  | nil => cases t <;> simp [monomialValue] <;> exact continuous_const
  | cons c L ih =>
    cases t with
    | nil => simp [monomialValue]; exact continuous_const
    | cons a t =>
      have := ih t fun c hc => hL c (List.mem_cons_of_mem _ hc)
      simp only [monomialValue, List.map_cons, List.zipWith_cons_cons, List.prod_cons] at this ⊢
      exact ((hL c (List.mem_cons_self ..)).pow a).mul this

theorem continuous_monomialValue (dims : List Nat) (t : List Nat) :
    Continuous fun x : (i : Fin dims.length) → Fin dims[i] → ℝ =>
      monomialValue t (List.ofFn fun i => List.ofFn (x i)).flatten := by
  simp only [flatten_eq_coordinates]
  exact continuous_monomialValue_map t _ (continuous_coordinates dims)

/-- Functions which are continuous in the coordinates. -/
def ContinuousIn (dims : List Nat) (F : List ℝ → ℝ) : Prop :=
  Continuous fun x : (i : Fin dims.length) → Fin dims[i] → ℝ => F (List.ofFn fun i => List.ofFn (x i)).flatten

theorem productIntegral_sum {ι : Type*} (dims : List Nat) (s : Finset ι) (a : ι → ℝ) (F : ι → List ℝ → ℝ)
    (hF : ∀ i ∈ s, ContinuousIn dims (F i)) :
    productIntegral dims (fun x => ∑ i ∈ s, a i * F i x) = ∑ i ∈ s, a i * productIntegral dims (F i) := by
  simp only [productIntegral]
  rw [integral_finsetSum]
  · refine Finset.sum_congr rfl fun i _ => integral_const_mul _ _
  · intro i hi
    refine Integrable.const_mul ?_ _
    exact ((hF i hi).continuousOn).integrableOn_compact (isCompact_univ_pi fun i => Table.isCompact_simplexSet _)

theorem productIntegral_congr (dims : List Nat) (F G : List ℝ → ℝ) (h : ∀ x : List ℝ, x.length = dims.sum → F x = G x) :
    productIntegral dims F = productIntegral dims G := by
  simp only [productIntegral]
  congr 1
  funext x
  exact h _ (length_flatten_ofFn dims x)

/-! ## The reference simplices in coordinates -/

theorem integral_simplexSet_two (g : ℝ × ℝ → ℝ) :
    ∫ x in simplexSet 2, g (x 0, x 1) = ∫ p in triangle, g p := by
  have h : simplexSet 2 = MeasurableEquiv.finTwoArrow ⁻¹' triangle := by
    ext x
    simp only [simplexSet, triangle, Set.mem_ofPred_eq, Set.mem_preimage, Fin.sum_univ_two, Fin.forall_fin_two]
    have e0 : (MeasurableEquiv.finTwoArrow x).1 = x 0 := rfl
    have e1 : (MeasurableEquiv.finTwoArrow x).2 = x 1 := rfl
    rw [e0, e1]
    constructor
    · rintro ⟨⟨h1, h2⟩, h3⟩; exact ⟨h1, h2, by linarith⟩
    · rintro ⟨h1, h2, h3⟩; exact ⟨⟨h1, h2⟩, by linarith⟩
  rw [h]
  exact (volume_preserving_finTwoArrow ℝ).setIntegral_preimage_emb (MeasurableEquiv.measurableEmbedding _) g triangle

theorem integral_simplexSet_three (g : ℝ × ℝ × ℝ → ℝ) :
    ∫ x in simplexSet 3, g (x 0, x 1, x 2) = ∫ p in tetrahedron, g p := by
  let e : (Fin 3 → ℝ) ≃ᵐ ℝ × ℝ × ℝ := (MeasurableEquiv.piFinSuccAbove (fun _ : Fin 3 => ℝ) 0).trans
    (MeasurableEquiv.prodCongr (MeasurableEquiv.refl ℝ) MeasurableEquiv.finTwoArrow)
  have hmp : MeasurePreserving e volume volume :=
    ((MeasurePreserving.id volume).prod (volume_preserving_finTwoArrow ℝ)).comp
      (volume_preserving_piFinSuccAbove (fun _ : Fin 3 => ℝ) 0)
  have he : ∀ x, e x = (x 0, x 1, x 2) := fun x => rfl
  have h : simplexSet 3 = e ⁻¹' tetrahedron := by
    ext x
    simp only [simplexSet, tetrahedron, Set.mem_ofPred_eq, Set.mem_preimage, Fin.sum_univ_three, he]
    constructor
    · rintro ⟨h1, h3⟩; exact ⟨h1 0, h1 1, h1 2, by linarith⟩
    · rintro ⟨h0, h1, h2, h3⟩
      refine ⟨fun i => ?_, by linarith⟩
      fin_cases i
      · exact h0
      · exact h1
      · exact h2
  rw [h]
  exact hmp.setIntegral_preimage_emb (MeasurableEquiv.measurableEmbedding _) g tetrahedron

end Modepy

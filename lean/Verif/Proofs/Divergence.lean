import Mathlib.MeasureTheory.Integral.IntervalIntegral.FundThmCalculus
import Verif.Proofs.ProductIntegral
import Verif.Proofs.SimplexIntegral

/-!
# Integrals of derivatives over the reference shapes

Iterated integrals over the triangle and the tetrahedron, their symmetries, and the fundamental theorem of calculus in each
coordinate direction.
-/

namespace Modepy
open Spec MeasureTheory intervalIntegral

/-- The iterated integral over the triangle. -/
noncomputable def triInt (f : ℝ → ℝ → ℝ) : ℝ := ∫ s in (-1 : ℝ)..1, ∫ r in (-1 : ℝ)..-s, f r s

/-- The iterated integral over the tetrahedron. -/
noncomputable def tetInt (f : ℝ → ℝ → ℝ → ℝ) : ℝ :=
  ∫ t in (-1 : ℝ)..1, ∫ s in (-1 : ℝ)..-t, ∫ r in (-1 : ℝ)..(-1 - s - t), f r s t

theorem triInt_eq (f : ℝ → ℝ → ℝ) (hf : Continuous fun p : ℝ × ℝ => f p.1 p.2) :
    triInt f = ∫ p in triangle, f p.1 p.2 := (integral_triangle (fun p => f p.1 p.2) hf).symm

theorem tetInt_eq (f : ℝ → ℝ → ℝ → ℝ) (hf : Continuous fun p : ℝ × ℝ × ℝ => f p.1 p.2.1 p.2.2) :
    tetInt f = ∫ p in tetrahedron, f p.1 p.2.1 p.2.2 :=
  (integral_tetrahedron (fun p => f p.1 p.2.1 p.2.2) hf).symm

theorem triInt_swap (f : ℝ → ℝ → ℝ) (hf : Continuous fun p : ℝ × ℝ => f p.1 p.2) :
    triInt (fun r s => f s r) = triInt f := by
  have h' : Continuous fun p : ℝ × ℝ => f p.2 p.1 := hf.comp continuous_swap
  rw [triInt_eq _ h', triInt_eq _ hf]
  have hs : triangle = MeasurableEquiv.prodComm ⁻¹' triangle := by
    ext p
    simp only [triangle, Set.mem_ofPred_eq, Set.mem_preimage, MeasurableEquiv.prodComm, MeasurableEquiv.coe_mk,
      Equiv.prodComm_apply, Prod.fst_swap, Prod.snd_swap]
    constructor
    · rintro ⟨h1, h2, h3⟩; exact ⟨h2, h1, by linarith⟩
    · rintro ⟨h1, h2, h3⟩; exact ⟨h2, h1, by linarith⟩
  conv_lhs => rw [hs]
  exact (Measure.measurePreserving_swap (μ := (volume : Measure ℝ)) (ν := (volume : Measure ℝ))).setIntegral_preimage_emb
    MeasurableEquiv.prodComm.measurableEmbedding (fun p => f p.1 p.2) triangle

theorem triInt_reflect (f : ℝ → ℝ → ℝ) : triInt (fun r s => f (-1 - r - s) s) = triInt f := by
  unfold triInt
  congr 1
  funext s
  have e : (fun r : ℝ => f (-1 - r - s) s) = fun r => f ((-1 - s) - r) s := by
    funext r; congr 1; ring
  rw [e, integral_comp_sub_left (fun r => f r s) (-1 - s)]
  congr 1 <;> ring

theorem tetInt_swap (σ : Equiv.Perm (Fin 3)) (f : (Fin 3 → ℝ) → ℝ) (hf : Continuous f) :
    ∫ x in simplexSet 3, f (x ∘ σ) = ∫ x in simplexSet 3, f x := by
  have mp := volume_measurePreserving_piCongrLeft (fun _ : Fin 3 => ℝ) σ.symm
  have he : ∀ x, MeasurableEquiv.piCongrLeft (fun _ : Fin 3 => ℝ) σ.symm x = x ∘ σ := by
    intro x
    funext i
    have := MeasurableEquiv.piCongrLeft_apply_apply (β := fun _ : Fin 3 => ℝ) σ.symm x (σ i)
    simpa using this
  have hs : simplexSet 3 = MeasurableEquiv.piCongrLeft (fun _ : Fin 3 => ℝ) σ.symm ⁻¹' simplexSet 3 := by
    ext x
    simp only [Set.mem_preimage, he, simplexSet, Set.mem_ofPred_eq, Function.comp_apply]
    rw [Equiv.sum_comp σ fun i => (1 + x i) / 2]
    constructor
    · rintro ⟨h1, h2⟩; exact ⟨fun i => h1 _, h2⟩
    · rintro ⟨h1, h2⟩; exact ⟨fun i => by simpa using h1 (σ.symm i), h2⟩
  have := mp.setIntegral_preimage_emb (MeasurableEquiv.measurableEmbedding _) f (simplexSet 3)
  rw [← hs] at this
  simpa only [he] using this

theorem simplexIntegral_two (F : List ℝ → ℝ) (hF : Continuous fun p : ℝ × ℝ => F [p.1, p.2]) :
    Spec.simplexIntegral 2 F = triInt fun r s => F [r, s] := by
  rw [triInt_eq _ hF, ← integral_simplexSet_two (fun p => F [p.1, p.2])]
  simp [Spec.simplexIntegral, List.ofFn_succ]

theorem simplexIntegral_three (F : List ℝ → ℝ) (hF : Continuous fun p : ℝ × ℝ × ℝ => F [p.1, p.2.1, p.2.2]) :
    Spec.simplexIntegral 3 F = tetInt fun r s t => F [r, s, t] := by
  rw [tetInt_eq _ hF, ← integral_simplexSet_three (fun p => F [p.1, p.2.1, p.2.2])]
  simp [Spec.simplexIntegral, List.ofFn_succ]

/-- Coordinates of the tetrahedron may be permuted. -/
theorem simplexIntegral_perm (σ : Equiv.Perm (Fin 3)) (F : List ℝ → ℝ)
    (hF : Continuous fun x : Fin 3 → ℝ => F (List.ofFn x)) :
    Spec.simplexIntegral 3 (fun x => F (List.ofFn fun i => x.getD (σ i) 0)) = Spec.simplexIntegral 3 F := by
  have := tetInt_swap σ (fun x => F (List.ofFn x)) hF
  simp only [Spec.simplexIntegral]
  rw [← this]
  congr 1
  funext x
  congr 2
  funext i
  rw [List.getD_eq_getElem _ _ (by simp [(σ i).2]), List.getElem_ofFn]
  rfl

/-! ## The fundamental theorem in each direction -/

/-- `G` is the partial derivative of `F` with respect to coordinate `k`, at all points with `d` coordinates. -/
def Spec.IsPartial (d k : Nat) (F G : List ℝ → ℝ) : Prop :=
  ∀ x : List ℝ, x.length = d → HasDerivAt (fun t => F (x.set k t)) (G x) (x.getD k 0)

/-- Continuous as a function of `d` coordinates. -/
def Spec.ContinuousOf (d : Nat) (F : List ℝ → ℝ) : Prop := Continuous fun x : Fin d → ℝ => F (List.ofFn x)

theorem Spec.ContinuousOf.two {F : List ℝ → ℝ} (h : ContinuousOf 2 F) {E : Type*} [TopologicalSpace E] {a b : E → ℝ}
    (ha : Continuous a) (hb : Continuous b) : Continuous fun e => F [a e, b e] := by
  have : Continuous fun e => (![a e, b e] : Fin 2 → ℝ) := by
    refine continuous_pi fun i => ?_
    fin_cases i
    exacts [ha, hb]
  have h2 := h.comp this
  simpa [Function.comp_def, List.ofFn_succ] using h2

theorem Spec.ContinuousOf.three {F : List ℝ → ℝ} (h : ContinuousOf 3 F) {E : Type*} [TopologicalSpace E] {a b c : E → ℝ}
    (ha : Continuous a) (hb : Continuous b) (hc : Continuous c) : Continuous fun e => F [a e, b e, c e] := by
  have : Continuous fun e => (![a e, b e, c e] : Fin 3 → ℝ) := by
    refine continuous_pi fun i => ?_
    fin_cases i
    exacts [ha, hb, hc]
  have h2 := h.comp this
  simpa [Function.comp_def, List.ofFn_succ] using h2

theorem Spec.ContinuousOf.one {F : List ℝ → ℝ} (h : ContinuousOf 1 F) {E : Type*} [TopologicalSpace E] {a : E → ℝ}
    (ha : Continuous a) : Continuous fun e => F [a e] := by
  have : Continuous fun e => (![a e] : Fin 1 → ℝ) := by
    refine continuous_pi fun i => ?_
    fin_cases i
    exact ha
  have h2 := h.comp this
  simpa [Function.comp_def, List.ofFn_succ] using h2

theorem simplexIntegral_one (F : List ℝ → ℝ) : Spec.simplexIntegral 1 F = ∫ t in (-1 : ℝ)..1, F [t] := by
  have h : simplexSet 1 = (MeasurableEquiv.funUnique (Fin 1) ℝ) ⁻¹' Set.Icc (-1) 1 := by
    ext x
    simp only [simplexSet, Set.mem_ofPred_eq, Set.mem_preimage, Set.mem_Icc, MeasurableEquiv.funUnique_apply, Fin.default_eq_zero,
      Finset.univ_unique, Finset.sum_singleton]
    constructor
    · rintro ⟨h1, h2⟩; exact ⟨h1 0, by linarith⟩
    · rintro ⟨h1, h2⟩; exact ⟨fun i => by rw [Subsingleton.elim i 0]; exact h1, by linarith⟩
  have := (volume_preserving_funUnique (Fin 1) ℝ).setIntegral_preimage_emb (MeasurableEquiv.measurableEmbedding _)
    (fun t => F [t]) (Set.Icc (-1) 1)
  rw [← h] at this
  rw [integral_of_le (by norm_num), ← integral_Icc_eq_integral_Ioc, ← this]
  simp [Spec.simplexIntegral, List.ofFn_succ]
  rfl

theorem ftc_one {F G : List ℝ → ℝ} (hG : ContinuousOf 1 G) (h : IsPartial 1 0 F G) :
    Spec.simplexIntegral 1 G = F [1] - F [-1] := by
  rw [simplexIntegral_one]
  refine integral_eq_sub_of_hasDerivAt (f := fun t => F [t]) (fun t _ => by simpa using h [t] rfl) ?_
  exact (hG.one continuous_id).intervalIntegrable _ _

theorem ftc_two_zero {F G : List ℝ → ℝ} (hG : ContinuousOf 2 G) (h : IsPartial 2 0 F G) :
    Spec.simplexIntegral 2 G = ∫ s in (-1 : ℝ)..1, (F [-s, s] - F [-1, s]) := by
  rw [simplexIntegral_two G (hG.two continuous_fst continuous_snd)]
  unfold triInt
  congr 1
  funext s
  refine integral_eq_sub_of_hasDerivAt (f := fun r => F [r, s]) (fun t _ => by simpa using h [t, s] rfl) ?_
  exact (hG.two continuous_id continuous_const).intervalIntegrable _ _

theorem ftc_two_one {F G : List ℝ → ℝ} (hG : ContinuousOf 2 G) (h : IsPartial 2 1 F G) :
    Spec.simplexIntegral 2 G = ∫ s in (-1 : ℝ)..1, (F [s, -s] - F [s, -1]) := by
  rw [simplexIntegral_two G (hG.two continuous_fst continuous_snd),
    ← triInt_swap _ (hG.two continuous_fst continuous_snd)]
  unfold triInt
  congr 1
  funext s
  refine integral_eq_sub_of_hasDerivAt (f := fun r => F [s, r]) (fun t _ => by simpa using h [s, t] rfl) ?_
  exact (hG.two continuous_const continuous_id).intervalIntegrable _ _

theorem ftc_three_zero {F G : List ℝ → ℝ} (hG : ContinuousOf 3 G) (h : IsPartial 3 0 F G) :
    Spec.simplexIntegral 3 G = triInt fun s t => F [-1 - s - t, s, t] - F [-1, s, t] := by
  rw [simplexIntegral_three G (hG.three (by fun_prop) (by fun_prop) (by fun_prop))]
  unfold triInt tetInt
  congr 1
  funext t
  congr 1
  funext s
  refine integral_eq_sub_of_hasDerivAt (f := fun r => F [r, s, t]) (fun r _ => by simpa using h [r, s, t] rfl) ?_
  exact (hG.three continuous_id continuous_const continuous_const).intervalIntegrable _ _

theorem ftc_three_one {F G : List ℝ → ℝ} (hG : ContinuousOf 3 G) (h : IsPartial 3 1 F G) :
    Spec.simplexIntegral 3 G = triInt fun s t => F [s, -1 - s - t, t] - F [s, -1, t] := by
  rw [← simplexIntegral_perm (Equiv.swap 0 1) G hG, simplexIntegral_three]
  · unfold triInt tetInt
    congr 1
    funext t
    congr 1
    funext s
    have e : ∀ r : ℝ, (List.ofFn fun i : Fin 3 => [r, s, t].getD (Equiv.swap (0 : Fin 3) 1 i) 0) = [s, r, t] := by
      intro r
      simp [List.ofFn_succ, Equiv.swap_apply_def]
    simp only [e]
    refine integral_eq_sub_of_hasDerivAt (f := fun r => F [s, r, t]) (fun r _ => by simpa using h [s, r, t] rfl) ?_
    exact (hG.three continuous_const continuous_id continuous_const).intervalIntegrable _ _
  · have e : ∀ p : ℝ × ℝ × ℝ, (List.ofFn fun i : Fin 3 => [p.1, p.2.1, p.2.2].getD (Equiv.swap (0 : Fin 3) 1 i) 0) = [p.2.1, p.1, p.2.2] := by
      intro r
      simp [List.ofFn_succ, Equiv.swap_apply_def]
    simp only [e]
    exact hG.three (by fun_prop) (by fun_prop) (by fun_prop)

theorem ftc_three_two {F G : List ℝ → ℝ} (hG : ContinuousOf 3 G) (h : IsPartial 3 2 F G) :
    Spec.simplexIntegral 3 G = triInt fun s t => F [t, s, -1 - s - t] - F [t, s, -1] := by
  rw [← simplexIntegral_perm (Equiv.swap 0 2) G hG, simplexIntegral_three]
  · unfold triInt tetInt
    congr 1
    funext t
    congr 1
    funext s
    have e : ∀ r : ℝ, (List.ofFn fun i : Fin 3 => [r, s, t].getD (Equiv.swap (0 : Fin 3) 2 i) 0) = [t, s, r] := by
      intro r
      simp [List.ofFn_succ, Equiv.swap_apply_def]
    simp only [e]
    refine integral_eq_sub_of_hasDerivAt (f := fun r => F [t, s, r]) (fun r _ => by simpa using h [t, s, r] rfl) ?_
    exact (hG.three continuous_const continuous_const continuous_id).intervalIntegrable _ _
  · have e : ∀ p : ℝ × ℝ × ℝ, (List.ofFn fun i : Fin 3 => [p.1, p.2.1, p.2.2].getD (Equiv.swap (0 : Fin 3) 2 i) 0) = [p.2.2, p.2.1, p.1] := by
      intro r
      simp [List.ofFn_succ, Equiv.swap_apply_def]
    simp only [e]
    exact hG.three (by fun_prop) (by fun_prop) (by fun_prop)

/-! ## Cubes -/

theorem isCompact_cubeSet (n : Nat) : IsCompact (cubeSet n) := by
  have : cubeSet n = Set.Icc (fun _ => -1) (fun _ => 1) := by
    ext x
    simp only [cubeSet, Set.mem_ofPred_eq, Set.mem_Icc, Pi.le_def]
    exact ⟨fun h => ⟨fun i => (h i).1, fun i => (h i).2⟩, fun h i => ⟨h.1 i, h.2 i⟩⟩
  rw [this]
  exact isCompact_Icc

theorem integral_cubeSet_succ (n : Nat) (k : Fin (n + 1)) (f : (Fin (n + 1) → ℝ) → ℝ) (hf : Continuous f) :
    ∫ x in cubeSet (n + 1), f x = ∫ y in cubeSet n, ∫ t in (-1 : ℝ)..1, f (k.insertNth t y) := by
  have mp := volume_preserving_piFinSuccAbove (fun _ : Fin (n + 1) => ℝ) k
  have hs : cubeSet (n + 1) = MeasurableEquiv.piFinSuccAbove (fun _ : Fin (n + 1) => ℝ) k ⁻¹' (Set.Icc (-1) 1 ×ˢ cubeSet n) := by
    ext x
    simp only [cubeSet, Set.mem_ofPred_eq, Set.mem_preimage, Set.mem_prod, Set.mem_Icc]
    have e1 : (MeasurableEquiv.piFinSuccAbove (fun _ : Fin (n + 1) => ℝ) k x).1 = x k := rfl
    have e2 : ∀ i, (MeasurableEquiv.piFinSuccAbove (fun _ : Fin (n + 1) => ℝ) k x).2 i = x (k.succAbove i) := fun i => rfl
    simp only [e1, e2]
    constructor
    · intro h; exact ⟨h k, fun i => h _⟩
    · rintro ⟨h1, h2⟩ i
      rcases Fin.eq_self_or_eq_succAbove k i with rfl | ⟨j, rfl⟩
      exacts [h1, h2 j]
  have h1 := mp.setIntegral_preimage_emb (MeasurableEquiv.measurableEmbedding _)
    (fun p : ℝ × (Fin n → ℝ) => f (k.insertNth p.1 p.2)) (Set.Icc (-1) 1 ×ˢ cubeSet n)
  rw [← hs] at h1
  have e : ∀ x : Fin (n + 1) → ℝ, k.insertNth (MeasurableEquiv.piFinSuccAbove (fun _ : Fin (n + 1) => ℝ) k x).1
      (MeasurableEquiv.piFinSuccAbove (fun _ : Fin (n + 1) => ℝ) k x).2 = x := fun x =>
    Fin.insertNth_self_removeNth k x
  simp only [e] at h1
  rw [h1, Measure.volume_eq_prod, ← Measure.prod_restrict, integral_prod_symm]
  · congr 1
    funext y
    rw [integral_of_le (by norm_num), ← integral_Icc_eq_integral_Ioc]
  · rw [Measure.prod_restrict]
    refine (Continuous.continuousOn ?_).integrableOn_compact (isCompact_Icc.prod (isCompact_cubeSet n))
    refine hf.comp ?_
    exact Continuous.finInsertNth k continuous_fst continuous_snd

theorem ftc_cube (n : Nat) (k : Fin (n + 1)) {F G : List ℝ → ℝ} (hG : ContinuousOf (n + 1) G) (h : IsPartial (n + 1) k F G) :
    Spec.cubeIntegral (n + 1) G = ∫ y in cubeSet n, (F (List.ofFn (k.insertNth 1 y : Fin (n + 1) → ℝ)) -
      F (List.ofFn (k.insertNth (-1) y : Fin (n + 1) → ℝ))) := by
  rw [Spec.cubeIntegral, integral_cubeSet_succ n k _ hG]
  congr 1
  funext y
  refine integral_eq_sub_of_hasDerivAt (f := fun t => F (List.ofFn (k.insertNth t y : Fin (n + 1) → ℝ))) (fun t _ => ?_) ?_
  · have := h (List.ofFn (k.insertNth t y : Fin (n + 1) → ℝ)) (by simp)
    rw [List.getD_eq_getElem _ _ (by simp; omega)] at this
    simp only [List.getElem_ofFn, Fin.eta, Fin.insertNth_apply_same] at this
    refine this.congr_of_eventuallyEq (Filter.Eventually.of_forall fun u => ?_)
    simp only
    congr 1
    apply List.ext_getElem
    · simp
    · intro i h1 h2
      simp only [List.getElem_ofFn, List.getElem_set]
      split_ifs with hi
      · subst hi; simp
      · have hne : (⟨i, by simpa using h1⟩ : Fin (n + 1)) ≠ k := fun e => hi (by rw [← e])
        obtain ⟨j, hj⟩ := Fin.exists_succAbove_eq hne
        rw [← hj]
        simp
  · refine (hG.comp ?_).intervalIntegrable _ _
    exact Continuous.finInsertNth k continuous_id continuous_const

end Modepy

import Verif.Proofs.Divergence
import Verif.Props.Faces

/-!
# Property C78: faces, face maps and normals satisfy the divergence theorem
-/

namespace Modepy
open Spec MeasureTheory intervalIntegral

/-- The integral over a reference shape. -/
noncomputable def Spec.shapeIntegral : Shape → (List ℝ → ℝ) → ℝ
  | .simplex d, F => Spec.simplexIntegral d F
  | .hypercube d, F => Spec.cubeIntegral d F
  | .tp dims, F => Spec.productIntegral dims F

/-- What `map_to_volume` and `face_normal(normalize=False)` of a face are. -/
structure FaceIs (f : Face) (shape : Shape) (m : List ℝ → List ℝ) (n : List ℝ) : Prop where
  shape_eq : f.shape = shape
  map : ∀ p : List ℝ, p.length = shape.dim → f.mapToVolume p = .ok (m p)
  normal : faceNormal f false = .ok n

theorem faces_simplex_one : ∃ f0 f1, facesForShape (.simplex 1) = .ok [f0, f1] ∧
    FaceIs f0 (.simplex 0) (fun _ => [-1]) [-1] ∧ FaceIs f1 (.simplex 0) (fun _ => [1]) [1] := by
  refine ⟨_, _, rfl, ⟨rfl, ?_, ?_⟩, ⟨rfl, ?_, ?_⟩⟩
  · intro p hp
    obtain rfl := List.length_eq_zero_iff.1 hp
    face_simp
  · simp [faceNormal, Shape.dim, Shape.unitVertices, selectColumns, Shape.unitVerticesSimplex, Real.sign_neg]
  · intro p hp
    obtain rfl := List.length_eq_zero_iff.1 hp
    face_simp
  · simp [faceNormal, Shape.dim, Shape.unitVertices, selectColumns, Shape.unitVerticesSimplex]

theorem faces_simplex_two : ∃ f0 f1 f2, facesForShape (.simplex 2) = .ok [f0, f1, f2] ∧
    FaceIs f0 (.simplex 1) (fun p => [p.getD 0 0, -1]) [0, -2] ∧
    FaceIs f1 (.simplex 1) (fun p => [-1, -p.getD 0 0]) [-2, 0] ∧
    FaceIs f2 (.simplex 1) (fun p => [-p.getD 0 0, p.getD 0 0]) [2, 2] := by
  refine ⟨_, _, _, rfl, ⟨rfl, ?_, ?_⟩, ⟨rfl, ?_, ?_⟩, ⟨rfl, ?_, ?_⟩⟩
  all_goals first
    | (intro p hp
       obtain ⟨a, rfl⟩ := list1 hp
       face_simp
       try (norm_num <;> first | (refine ⟨?_, ?_⟩ <;> ring1) | ring1))
    | (simp [faceNormal, Shape.dim, Shape.unitVertices, selectColumns, Shape.unitVerticesSimplex]
       try norm_num)

theorem faces_simplex_three : ∃ f0 f1 f2 f3, facesForShape (.simplex 3) = .ok [f0, f1, f2, f3] ∧
    FaceIs f0 (.simplex 2) (fun p => [p.getD 1 0, p.getD 0 0, -1]) [0, 0, -4] ∧
    FaceIs f1 (.simplex 2) (fun p => [p.getD 0 0, -1, p.getD 1 0]) [0, -4, 0] ∧
    FaceIs f2 (.simplex 2) (fun p => [-1, p.getD 1 0, p.getD 0 0]) [-4, 0, 0] ∧
    FaceIs f3 (.simplex 2) (fun p => [-1 - p.getD 0 0 - p.getD 1 0, p.getD 0 0, p.getD 1 0]) [4, 4, 4] := by
  refine ⟨_, _, _, _, rfl, ⟨rfl, ?_, ?_⟩, ⟨rfl, ?_, ?_⟩, ⟨rfl, ?_, ?_⟩, ⟨rfl, ?_, ?_⟩⟩
  all_goals first
    | (intro p hp
       obtain ⟨a, b, rfl⟩ := list2 hp
       face_simp
       try (norm_num <;> first | (refine ⟨?_, ?_, ?_⟩ <;> ring1) | (refine ⟨?_, ?_⟩ <;> ring1) | ring1))
    | (simp [faceNormal, Shape.dim, Shape.unitVertices, selectColumns, Shape.unitVerticesSimplex]
       try norm_num)

theorem faces_cube_two : ∃ f0 f1 f2 f3, facesForShape (.hypercube 2) = .ok [f0, f1, f2, f3] ∧
    FaceIs f0 (.simplex 1) (fun p => [p.getD 0 0, -1]) [0, -2] ∧
    FaceIs f1 (.simplex 1) (fun p => [-p.getD 0 0, 1]) [0, 2] ∧
    FaceIs f2 (.simplex 1) (fun p => [-1, -p.getD 0 0]) [-2, 0] ∧
    FaceIs f3 (.simplex 1) (fun p => [1, p.getD 0 0]) [2, 0] := by
  obtain ⟨v, hok, hv, hg⟩ := C11_hypercube_bits 2 (by omega)
  have hfaces := facesForHypercube_ok (d := 2) rfl hok rfl
  simp only [List.zipIdx, List.map_cons, List.map_nil] at hfaces
  refine ⟨_, _, _, _, hfaces, ⟨rfl, ?_, ?_⟩, ⟨rfl, ?_, ?_⟩, ⟨rfl, ?_, ?_⟩, ⟨rfl, ?_, ?_⟩⟩
  all_goals first
    | (intro p hp
       obtain ⟨a, rfl⟩ := list1 hp
       simp [hypercubeFaceToVolMap, affineFaceMap, selectColumns, rows, ncols, List.range_succ, hv, hg, Nat.testBit,
         Nat.shiftRight_eq_div_pow]
       try (norm_num <;> first | (refine ⟨?_, ?_⟩ <;> ring1) | ring1))
    | (simp [faceNormal, Shape.dim, hok, selectColumns, hg, Nat.testBit, Nat.shiftRight_eq_div_pow]
       try norm_num)

theorem faces_cube_three : ∃ f0 f1 f2 f3 f4 f5, facesForShape (.hypercube 3) = .ok [f0, f1, f2, f3, f4, f5] ∧
    FaceIs f0 (.hypercube 2) (fun p => [p.getD 1 0, p.getD 0 0, -1]) [0, 0, -4] ∧
    FaceIs f1 (.hypercube 2) (fun p => [p.getD 0 0, p.getD 1 0, 1]) [0, 0, 4] ∧
    FaceIs f2 (.hypercube 2) (fun p => [-1, p.getD 1 0, p.getD 0 0]) [-4, 0, 0] ∧
    FaceIs f3 (.hypercube 2) (fun p => [1, p.getD 0 0, p.getD 1 0]) [4, 0, 0] ∧
    FaceIs f4 (.hypercube 2) (fun p => [p.getD 0 0, -1, p.getD 1 0]) [0, -4, 0] ∧
    FaceIs f5 (.hypercube 2) (fun p => [p.getD 1 0, 1, p.getD 0 0]) [0, 4, 0] := by
  obtain ⟨v, hok, hv, hg⟩ := C11_hypercube_bits 3 (by omega)
  have hfaces := facesForHypercube_ok (d := 3) rfl hok rfl
  simp only [List.zipIdx, List.map_cons, List.map_nil] at hfaces
  refine ⟨_, _, _, _, _, _, hfaces, ⟨rfl, ?_, ?_⟩, ⟨rfl, ?_, ?_⟩, ⟨rfl, ?_, ?_⟩, ⟨rfl, ?_, ?_⟩,
    ⟨rfl, ?_, ?_⟩, ⟨rfl, ?_, ?_⟩⟩
  all_goals first
    | (intro p hp
       obtain ⟨a, b, rfl⟩ := list2 hp
       simp [hypercubeFaceToVolMap, affineFaceMap, selectColumns, rows, ncols, List.range_succ, hv, hg, Nat.testBit,
         Nat.shiftRight_eq_div_pow]
       try (norm_num <;> first | (refine ⟨?_, ?_, ?_⟩ <;> ring1) | (refine ⟨?_, ?_⟩ <;> ring1) | ring1))
    | (simp [faceNormal, Shape.dim, hok, selectColumns, hg, Nat.testBit, Nat.shiftRight_eq_div_pow]
       try norm_num)


/-! ## The integrals over the faces -/

/-- The value of a call that succeeds. -/
def Spec.okOr {α : Type} (d : α) : Py α → α
  | .ok a => a
  | .error _ => d

theorem FaceIs.normal_eq {f : Face} {shape : Shape} {m : List ℝ → List ℝ} {n : List ℝ} (h : FaceIs f shape m n) :
    okOr [] (faceNormal f false) = n := by
  rw [h.normal]; rfl

theorem shapeIntegral_congr (shape : Shape) (F G : List ℝ → ℝ) (h : ∀ x : List ℝ, x.length = shape.dim → F x = G x) :
    Spec.shapeIntegral shape F = Spec.shapeIntegral shape G := by
  cases shape with
  | simplex d =>
    simp only [Spec.shapeIntegral, Spec.simplexIntegral]
    congr 1
    funext x
    exact h _ (by simp [Shape.dim])
  | hypercube d =>
    simp only [Spec.shapeIntegral, Spec.cubeIntegral]
    congr 1
    funext x
    exact h _ (by simp [Shape.dim])
  | tp dims =>
    exact productIntegral_congr dims F G fun x hx => h x (by simpa [Shape.dim] using hx)

theorem FaceIs.integral {f : Face} {shape : Shape} {m : List ℝ → List ℝ} {n : List ℝ} (h : FaceIs f shape m n)
    (F : List ℝ → ℝ) :
    Spec.shapeIntegral f.shape (fun p => F (okOr [] (f.mapToVolume p))) = Spec.shapeIntegral shape fun p => F (m p) := by
  rw [h.shape_eq]
  apply shapeIntegral_congr
  intro p hp
  rw [h.map p hp]
  rfl

theorem FaceIs.term {f : Face} {shape : Shape} {m : List ℝ → List ℝ} {n : List ℝ} (h : FaceIs f shape m n)
    (F : List ℝ → ℝ) (k : Nat) :
    ((okOr [] (faceNormal f false)).getD k 0 / 2 ^ f.shape.dim *
      Spec.shapeIntegral f.shape fun p => F (okOr [] (f.mapToVolume p))) =
    n.getD k 0 / 2 ^ shape.dim * Spec.shapeIntegral shape fun p => F (m p) := by
  rw [h.integral, h.normal_eq, h.shape_eq]

/-- Continuity of the coordinate functions of the face maps. -/
macro "coord_cont" : tactic =>
  `(tactic| first | fun_prop | exact continuous_fst | exact continuous_snd | (simp; fun_prop))

theorem simplexIntegral_zero (F : List ℝ → ℝ) : Spec.simplexIntegral 0 F = F [] := by
  have hu : simplexSet 0 = Set.univ := by
    ext x; simp [simplexSet]
  rw [Spec.simplexIntegral, hu, setIntegral_univ, integral_unique]
  simp [Measure.real, volume_pi]

theorem cubeIntegral_one (F : List ℝ → ℝ) : Spec.cubeIntegral 1 F = ∫ t in (-1 : ℝ)..1, F [t] := by
  rw [← simplexIntegral_one]
  have : cubeSet 1 = simplexSet 1 := by
    ext x
    simp only [cubeSet, simplexSet, Set.mem_ofPred_eq, Finset.univ_unique, Finset.sum_singleton, Fin.default_eq_zero]
    constructor
    · intro h; exact ⟨fun i => (h i).1, by have := (h 0).2; linarith⟩
    · rintro ⟨h1, h2⟩ i
      rw [Subsingleton.elim i 0]
      exact ⟨h1 0, by linarith⟩
  rw [Spec.cubeIntegral, this, Spec.simplexIntegral]

theorem cubeIntegral_two_swap (F : List ℝ → ℝ) :
    Spec.cubeIntegral 2 (fun x => F [x.getD 1 0, x.getD 0 0]) = Spec.cubeIntegral 2 fun x => F [x.getD 0 0, x.getD 1 0] := by
  have mp := volume_measurePreserving_piCongrLeft (fun _ : Fin 2 => ℝ) (Equiv.swap 0 1)
  have he : ∀ x : Fin 2 → ℝ, MeasurableEquiv.piCongrLeft (fun _ : Fin 2 => ℝ) (Equiv.swap 0 1) x = ![x 1, x 0] := by
    intro x
    funext i
    have := MeasurableEquiv.piCongrLeft_apply_apply (β := fun _ : Fin 2 => ℝ) (Equiv.swap 0 1) x (Equiv.swap 0 1 i)
    rw [Equiv.swap_apply_self] at this
    rw [this]
    fin_cases i <;> simp
  have hs : cubeSet 2 = MeasurableEquiv.piCongrLeft (fun _ : Fin 2 => ℝ) (Equiv.swap 0 1) ⁻¹' cubeSet 2 := by
    ext x
    simp only [Set.mem_preimage, he, cubeSet, Set.mem_ofPred_eq, Fin.forall_fin_two]
    simp only [Matrix.cons_val_zero, Matrix.cons_val_one]
    exact and_comm
  have := mp.setIntegral_preimage_emb (MeasurableEquiv.measurableEmbedding _) (fun x => F [x 0, x 1]) (cubeSet 2)
  rw [← hs] at this
  simp only [he, Matrix.cons_val_zero, Matrix.cons_val_one] at this
  simpa [Spec.cubeIntegral, List.ofFn_succ] using this

theorem triInt_sub (f g : ℝ → ℝ → ℝ) (hf : Continuous fun p : ℝ × ℝ => f p.1 p.2) (hg : Continuous fun p : ℝ × ℝ => g p.1 p.2) :
    triInt (fun r s => f r s - g r s) = triInt f - triInt g := by
  rw [triInt_eq _ hf, triInt_eq _ hg, triInt_eq _ (hf.sub hg)]
  exact integral_sub (hf.continuousOn.integrableOn_compact triangle_compact)
    (hg.continuousOn.integrableOn_compact triangle_compact)

/-! ## C78 -/

theorem divergence_simplex_one (F G : List ℝ → ℝ) (hG : ContinuousOf 1 G) (h : IsPartial 1 0 F G) (faces : List Face)
    (hf : facesForShape (.simplex 1) = .ok faces) :
    Spec.simplexIntegral 1 G = (faces.map fun f => (okOr [] (faceNormal f false)).getD 0 0 / 2 ^ f.shape.dim *
      Spec.shapeIntegral f.shape fun p => F (okOr [] (f.mapToVolume p))).sum := by
  obtain ⟨f0, f1, h1, h0', h1'⟩ := faces_simplex_one
  rw [h1] at hf
  obtain rfl := Except.ok.inj hf
  simp only [List.map_cons, List.map_nil, List.sum_cons, List.sum_nil, h0'.term, h1'.term]
  simp only [Spec.shapeIntegral, simplexIntegral_zero, Shape.dim]
  rw [ftc_one hG h]
  simp
  ring

theorem divergence_simplex_two (F G : List ℝ → ℝ) (k : Nat) (hk : k < 2) (hF : ContinuousOf 2 F) (hG : ContinuousOf 2 G)
    (h : IsPartial 2 k F G) (faces : List Face) (hf : facesForShape (.simplex 2) = .ok faces) :
    Spec.simplexIntegral 2 G = (faces.map fun f => (okOr [] (faceNormal f false)).getD k 0 / 2 ^ f.shape.dim *
      Spec.shapeIntegral f.shape fun p => F (okOr [] (f.mapToVolume p))).sum := by
  obtain ⟨f0, f1, f2, h1, h0', h1', h2'⟩ := faces_simplex_two
  rw [h1] at hf
  obtain rfl := Except.ok.inj hf
  simp only [List.map_cons, List.map_nil, List.sum_cons, List.sum_nil, h0'.term, h1'.term, h2'.term]
  simp only [Spec.shapeIntegral,
    simplexIntegral_one, Shape.dim, List.getD_cons_zero]
  have i : ∀ a b : ℝ → ℝ, Continuous a → Continuous b → IntervalIntegrable (fun s => F [a s, b s]) volume (-1) 1 :=
    fun a b ha hb => (hF.two ha hb).intervalIntegrable _ _
  interval_cases k
  · rw [ftc_two_zero hG h, integral_sub (i _ _ (by coord_cont) (by coord_cont)) (i _ _ (by coord_cont) (by coord_cont))]
    have e := integral_comp_neg (a := -1) (b := 1) (fun s => F [-1, s])
    simp only [neg_neg] at e
    rw [e]
    simp
    ring
  · rw [ftc_two_one hG h, integral_sub (i _ _ (by coord_cont) (by coord_cont)) (i _ _ (by coord_cont) (by coord_cont))]
    have e := integral_comp_neg (a := -1) (b := 1) (fun s => F [s, -s])
    simp only [neg_neg] at e
    rw [e]
    simp
    ring

theorem divergence_simplex_three (F G : List ℝ → ℝ) (k : Nat) (hk : k < 3) (hF : ContinuousOf 3 F) (hG : ContinuousOf 3 G)
    (h : IsPartial 3 k F G) (faces : List Face) (hf : facesForShape (.simplex 3) = .ok faces) :
    Spec.simplexIntegral 3 G = (faces.map fun f => (okOr [] (faceNormal f false)).getD k 0 / 2 ^ f.shape.dim *
      Spec.shapeIntegral f.shape fun p => F (okOr [] (f.mapToVolume p))).sum := by
  obtain ⟨f0, f1, f2, f3, h1, h0', h1', h2', h3'⟩ := faces_simplex_three
  rw [h1] at hf
  obtain rfl := Except.ok.inj hf
  have c : ∀ a b c : ℝ × ℝ → ℝ, Continuous a → Continuous b → Continuous c → Continuous fun p => F [a p, b p, c p] :=
    fun a b c ha hb hc => hF.three ha hb hc
  have t0 : Spec.simplexIntegral 2 (fun p => F [p.getD 1 0, p.getD 0 0, -1]) = triInt fun r s => F [s, r, -1] :=
    simplexIntegral_two _ (c _ _ _ (by coord_cont) (by coord_cont) (by coord_cont))
  have t1 : Spec.simplexIntegral 2 (fun p => F [p.getD 0 0, -1, p.getD 1 0]) = triInt fun r s => F [r, -1, s] :=
    simplexIntegral_two _ (c _ _ _ (by coord_cont) (by coord_cont) (by coord_cont))
  have t2 : Spec.simplexIntegral 2 (fun p => F [-1, p.getD 1 0, p.getD 0 0]) = triInt fun r s => F [-1, s, r] :=
    simplexIntegral_two _ (c _ _ _ (by coord_cont) (by coord_cont) (by coord_cont))
  have t3 : Spec.simplexIntegral 2 (fun p => F [-1 - p.getD 0 0 - p.getD 1 0, p.getD 0 0, p.getD 1 0]) =
      triInt fun r s => F [-1 - r - s, r, s] :=
    simplexIntegral_two _ (c _ _ _ (by coord_cont) (by coord_cont) (by coord_cont))
  simp only [List.map_cons, List.map_nil, List.sum_cons, List.sum_nil, h0'.term, h1'.term, h2'.term, h3'.term]
  simp only [Spec.shapeIntegral, t0, t1, t2, t3, Shape.dim]
  interval_cases k
  · rw [ftc_three_zero hG h, triInt_sub _ _ (c _ _ _ (by coord_cont) (by coord_cont) (by coord_cont))
      (c _ _ _ (by coord_cont) (by coord_cont) (by coord_cont)),
      triInt_swap (fun r s => F [-1, r, s]) (c _ _ _ (by coord_cont) (by coord_cont) (by coord_cont))]
    simp
    ring
  · have e := triInt_reflect fun r s => F [-1 - r - s, r, s]
    rw [ftc_three_one hG h, triInt_sub _ _ (c _ _ _ (by coord_cont) (by coord_cont) (by coord_cont))
      (c _ _ _ (by coord_cont) (by coord_cont) (by coord_cont)), ← e]
    have e2 : ∀ r s : ℝ, -1 - (-1 - r - s) - s = r := fun r s => by ring
    simp only [e2]
    simp
    ring
  · have e := triInt_reflect fun r s => F [-1 - s - r, s, r]
    have e2 : ∀ r s : ℝ, -1 - s - (-1 - r - s) = r := fun r s => by ring
    simp only [e2] at e
    have s1 := triInt_swap (fun r s => F [-1 - r - s, r, s]) (c _ _ _ (by coord_cont) (by coord_cont) (by coord_cont))
    have s2 := triInt_swap (fun r s => F [r, s, -1 - r - s]) (c _ _ _ (by coord_cont) (by coord_cont) (by coord_cont))
    have e3 : (fun s r : ℝ => F [r, s, -1 - r - s]) = fun s t => F [t, s, -1 - s - t] := by
      funext s t
      rw [show -1 - t - s = -1 - s - t by ring]
    rw [ftc_three_two hG h, triInt_sub _ _ (c _ _ _ (by coord_cont) (by coord_cont) (by coord_cont))
      (c _ _ _ (by coord_cont) (by coord_cont) (by coord_cont)), ← s1, ← e]
    rw [e3] at s2
    rw [s2]
    simp
    ring

theorem divergence_cube_two (F G : List ℝ → ℝ) (k : Nat) (hk : k < 2) (hF : ContinuousOf 2 F) (hG : ContinuousOf 2 G)
    (h : IsPartial 2 k F G) (faces : List Face) (hf : facesForShape (.hypercube 2) = .ok faces) :
    Spec.cubeIntegral 2 G = (faces.map fun f => (okOr [] (faceNormal f false)).getD k 0 / 2 ^ f.shape.dim *
      Spec.shapeIntegral f.shape fun p => F (okOr [] (f.mapToVolume p))).sum := by
  obtain ⟨f0, f1, f2, f3, h1, h0', h1', h2', h3'⟩ := faces_cube_two
  rw [h1] at hf
  obtain rfl := Except.ok.inj hf
  simp only [List.map_cons, List.map_nil, List.sum_cons, List.sum_nil, h0'.term, h1'.term, h2'.term, h3'.term]
  simp only [Spec.shapeIntegral, simplexIntegral_one, Shape.dim, List.getD_cons_zero]
  have i : ∀ a b : ℝ → ℝ, Continuous a → Continuous b → IntervalIntegrable (fun s => F [a s, b s]) volume (-1) 1 :=
    fun a b ha hb => (hF.two ha hb).intervalIntegrable _ _
  interval_cases k
  · have e := ftc_cube 1 0 hG h
    have e1 : (∫ y in cubeSet 1, (F (List.ofFn (Fin.insertNth 0 1 y : Fin 2 → ℝ)) -
        F (List.ofFn (Fin.insertNth 0 (-1) y : Fin 2 → ℝ)))) = Spec.cubeIntegral 1 fun y => F (1 :: y) - F (-1 :: y) := by
      simp only [Spec.cubeIntegral]
      congr 1
    have e3 := integral_comp_neg (a := -1) (b := 1) (fun s => F [-1, s])
    simp only [neg_neg] at e3
    rw [e, e1, cubeIntegral_one, integral_sub (i _ _ (by coord_cont) (by coord_cont)) (i _ _ (by coord_cont) (by coord_cont)), e3]
    simp only [List.getD_cons_zero]
    ring
  · have e := ftc_cube 1 1 hG h
    have e1 : (∫ y in cubeSet 1, (F (List.ofFn (Fin.insertNth 1 1 y : Fin 2 → ℝ)) -
        F (List.ofFn (Fin.insertNth 1 (-1) y : Fin 2 → ℝ)))) =
        Spec.cubeIntegral 1 fun y => F [y.getD 0 0, 1] - F [y.getD 0 0, -1] := by
      simp only [Spec.cubeIntegral]
      congr 1
    have e3 := integral_comp_neg (a := -1) (b := 1) (fun s => F [s, 1])
    simp only [neg_neg] at e3
    rw [e, e1, cubeIntegral_one]
    simp only [List.getD_cons_zero]
    rw [integral_sub (i _ _ (by coord_cont) (by coord_cont)) (i _ _ (by coord_cont) (by coord_cont)), e3]
    simp only [List.getD_cons_zero, List.getD_cons_succ]
    ring

theorem cubeIntegral_two_sub (f g : List ℝ → ℝ) (hf : ContinuousOf 2 f) (hg : ContinuousOf 2 g) :
    Spec.cubeIntegral 2 (fun y => f y - g y) = Spec.cubeIntegral 2 f - Spec.cubeIntegral 2 g :=
  integral_sub (hf.continuousOn.integrableOn_compact (isCompact_cubeSet 2))
    (hg.continuousOn.integrableOn_compact (isCompact_cubeSet 2))

theorem divergence_cube_three (F G : List ℝ → ℝ) (k : Nat) (hk : k < 3) (hF : ContinuousOf 3 F) (hG : ContinuousOf 3 G)
    (h : IsPartial 3 k F G) (faces : List Face) (hf : facesForShape (.hypercube 3) = .ok faces) :
    Spec.cubeIntegral 3 G = (faces.map fun f => (okOr [] (faceNormal f false)).getD k 0 / 2 ^ f.shape.dim *
      Spec.shapeIntegral f.shape fun p => F (okOr [] (f.mapToVolume p))).sum := by
  obtain ⟨f0, f1, f2, f3, f4, f5, h1, h0', h1', h2', h3', h4', h5'⟩ := faces_cube_three
  rw [h1] at hf
  obtain rfl := Except.ok.inj hf
  simp only [List.map_cons, List.map_nil, List.sum_cons, List.sum_nil, h0'.term, h1'.term, h2'.term, h3'.term, h4'.term,
    h5'.term]
  simp only [Spec.shapeIntegral, Shape.dim, List.sum_replicate, smul_eq_mul, mul_one]
  have c : ∀ a b c : (Fin 2 → ℝ) → ℝ, Continuous a → Continuous b → Continuous c → Continuous fun p => F [a p, b p, c p] :=
    fun a b c ha hb hc => hF.three ha hb hc
  have d0 : Continuous fun x : Fin 2 → ℝ => (List.ofFn x).getD 0 0 := by simpa using continuous_apply (0 : Fin 2)
  have d1 : Continuous fun x : Fin 2 → ℝ => (List.ofFn x).getD 1 0 := by simpa using continuous_apply (1 : Fin 2)
  have b0 : ∀ (t : ℝ) (y : Fin 2 → ℝ), List.ofFn (Fin.insertNth 0 t y : Fin 3 → ℝ) = [t, y 0, y 1] := fun t y => rfl
  have b1 : ∀ (t : ℝ) (y : Fin 2 → ℝ), List.ofFn (Fin.insertNth 1 t y : Fin 3 → ℝ) = [y 0, t, y 1] := fun t y => rfl
  have b2 : ∀ (t : ℝ) (y : Fin 2 → ℝ), List.ofFn (Fin.insertNth 2 t y : Fin 3 → ℝ) = [y 0, y 1, t] := fun t y => rfl
  interval_cases k
  · have e := ftc_cube 2 0 hG h
    simp only [b0] at e
    have e1 := cubeIntegral_two_sub (fun p => F [1, p.getD 0 0, p.getD 1 0]) (fun p => F [-1, p.getD 0 0, p.getD 1 0])
      (c _ _ _ continuous_const d0 d1) (c _ _ _ continuous_const d0 d1)
    have e2 := cubeIntegral_two_swap fun p => F [-1, p.getD 0 0, p.getD 1 0]
    simp only [List.getD_cons_zero, List.getD_cons_succ] at e2
    have e3 : (∫ y in cubeSet 2, (F [1, y 0, y 1] - F [-1, y 0, y 1])) =
        Spec.cubeIntegral 2 fun p => F [1, p.getD 0 0, p.getD 1 0] - F [-1, p.getD 0 0, p.getD 1 0] := by
      simp [Spec.cubeIntegral]
    rw [e, e3, e1, e2]
    simp only [List.getD_cons_zero]
    ring
  · have e := ftc_cube 2 1 hG h
    simp only [b1] at e
    have e1 := cubeIntegral_two_sub (fun p => F [p.getD 0 0, 1, p.getD 1 0]) (fun p => F [p.getD 0 0, -1, p.getD 1 0])
      (c _ _ _ d0 continuous_const d1) (c _ _ _ d0 continuous_const d1)
    have e2 := cubeIntegral_two_swap fun p => F [p.getD 0 0, 1, p.getD 1 0]
    simp only [List.getD_cons_zero, List.getD_cons_succ] at e2
    have e3 : (∫ y in cubeSet 2, (F [y 0, 1, y 1] - F [y 0, -1, y 1])) =
        Spec.cubeIntegral 2 fun p => F [p.getD 0 0, 1, p.getD 1 0] - F [p.getD 0 0, -1, p.getD 1 0] := by
      simp [Spec.cubeIntegral]
    rw [e, e3, e1, e2]
    simp only [List.getD_cons_zero, List.getD_cons_succ]
    ring
  · have e := ftc_cube 2 2 hG h
    simp only [b2] at e
    have e1 := cubeIntegral_two_sub (fun p => F [p.getD 0 0, p.getD 1 0, 1]) (fun p => F [p.getD 0 0, p.getD 1 0, -1])
      (c _ _ _ d0 d1 continuous_const) (c _ _ _ d0 d1 continuous_const)
    have e2 := cubeIntegral_two_swap fun p => F [p.getD 0 0, p.getD 1 0, -1]
    simp only [List.getD_cons_zero, List.getD_cons_succ] at e2
    have e3 : (∫ y in cubeSet 2, (F [y 0, y 1, 1] - F [y 0, y 1, -1])) =
        Spec.cubeIntegral 2 fun p => F [p.getD 0 0, p.getD 1 0, 1] - F [p.getD 0 0, p.getD 1 0, -1] := by
      simp [Spec.cubeIntegral]
    rw [e, e3, e1, e2]
    simp only [List.getD_cons_zero, List.getD_cons_succ]
    ring

/-- Every face of every shape `faces_for_shape` accepts has a normal and a map. -/
theorem faces_ok (shape : Shape) (h1 : shape ≠ .hypercube 1) (faces : List Face)
    (hf : facesForShape shape = .ok faces) (f : Face) (hm : f ∈ faces) :
    (∃ n, faceNormal f false = .ok n) ∧ ∀ p : List ℝ, p.length = f.shape.dim → ∃ x, f.mapToVolume p = .ok x := by
  have key : ∀ {f : Face} {s m n}, FaceIs f s m n →
      (∃ n, faceNormal f false = .ok n) ∧ ∀ p : List ℝ, p.length = f.shape.dim → ∃ x, f.mapToVolume p = .ok x :=
    fun h => ⟨⟨_, h.normal⟩, fun p hp => ⟨_, h.map p (by rw [hp, h.shape_eq])⟩⟩
  cases shape with
  | simplex d =>
    by_cases hd : d < 1 ∨ 3 < d
    · rw [C08_simplex_other d hd] at hf
      exact absurd hf (by simp)
    obtain rfl | rfl | rfl : d = 1 ∨ d = 2 ∨ d = 3 := by omega
    · obtain ⟨f0, f1, h1, h0', h1'⟩ := faces_simplex_one
      rw [h1] at hf
      obtain rfl := Except.ok.inj hf
      simp only [List.mem_cons, List.not_mem_nil, or_false] at hm
      rcases hm with rfl | rfl
      exacts [key h0', key h1']
    · obtain ⟨f0, f1, f2, h1, h0', h1', h2'⟩ := faces_simplex_two
      rw [h1] at hf
      obtain rfl := Except.ok.inj hf
      simp only [List.mem_cons, List.not_mem_nil, or_false] at hm
      rcases hm with rfl | rfl | rfl
      exacts [key h0', key h1', key h2']
    · obtain ⟨f0, f1, f2, f3, h1, h0', h1', h2', h3'⟩ := faces_simplex_three
      rw [h1] at hf
      obtain rfl := Except.ok.inj hf
      simp only [List.mem_cons, List.not_mem_nil, or_false] at hm
      rcases hm with rfl | rfl | rfl | rfl
      exacts [key h0', key h1', key h2', key h3']
  | hypercube d =>
    match d, hf with
    | 0, hf => exact absurd hf (by simp [facesForShape, facesForHypercube, hypercubeFaces])
    | 1, _ => exact absurd rfl h1
    | 2, hf =>
      obtain ⟨f0, f1, f2, f3, h1, h0', h1', h2', h3'⟩ := faces_cube_two
      rw [h1] at hf
      obtain rfl := Except.ok.inj hf
      simp only [List.mem_cons, List.not_mem_nil, or_false] at hm
      rcases hm with rfl | rfl | rfl | rfl
      exacts [key h0', key h1', key h2', key h3']
    | 3, hf =>
      obtain ⟨f0, f1, f2, f3, f4, f5, h1, h0', h1', h2', h3', h4', h5'⟩ := faces_cube_three
      rw [h1] at hf
      obtain rfl := Except.ok.inj hf
      simp only [List.mem_cons, List.not_mem_nil, or_false] at hm
      rcases hm with rfl | rfl | rfl | rfl | rfl | rfl
      exacts [key h0', key h1', key h2', key h3', key h4', key h5']
    | d + 4, hf => exact absurd hf (by simp [facesForShape, facesForHypercube, hypercubeFaces])
  | tp dims => cases hf

/-- **C78.**  The divergence theorem on every shape that has faces: if `G` is the derivative of `F` in
direction `k`, both continuous, then the integral of `G` over the shape is the sum over the faces
`faces_for_shape` returns of `face_normal(face, normalize=False)[k] / 2**face.dim` times the integral
over the reference face of `F` at `face.map_to_volume`.  (`Hypercube(1)` evaluates to `Simplex(1)`, so
the excluded shape is not constructible.) -/
theorem C78_divergence (shape : Shape) (h1 : shape ≠ .hypercube 1) (faces : List Face)
    (hf : facesForShape shape = .ok faces) (F G : List ℝ → ℝ) (k : Nat) (hk : k < shape.dim)
    (hF : ContinuousOf shape.dim F) (hG : ContinuousOf shape.dim G) (h : IsPartial shape.dim k F G) :
    (∀ f ∈ faces, (∃ n, faceNormal f false = .ok n) ∧
      ∀ p : List ℝ, p.length = f.shape.dim → ∃ x, f.mapToVolume p = .ok x) ∧
    Spec.shapeIntegral shape G = (faces.map fun f => (okOr [] (faceNormal f false)).getD k 0 / 2 ^ f.shape.dim *
      Spec.shapeIntegral f.shape fun p => F (okOr [] (f.mapToVolume p))).sum := by
  refine ⟨faces_ok shape h1 faces hf, ?_⟩
  cases shape with
  | simplex d =>
    by_cases hd : d < 1 ∨ 3 < d
    · rw [C08_simplex_other d hd] at hf
      exact absurd hf (by simp)
    obtain rfl | rfl | rfl : d = 1 ∨ d = 2 ∨ d = 3 := by omega
    · obtain rfl : k = 0 := by simpa [Shape.dim] using hk
      exact divergence_simplex_one F G hG h faces hf
    · exact divergence_simplex_two F G k hk hF hG h faces hf
    · exact divergence_simplex_three F G k hk hF hG h faces hf
  | hypercube d =>
    match d, hf, hk, hF, hG, h with
    | 0, hf, _, _, _, _ => exact absurd hf (by simp [facesForShape, facesForHypercube, hypercubeFaces])
    | 1, _, _, _, _, _ => exact absurd rfl h1
    | 2, hf, hk, hF, hG, h => exact divergence_cube_two F G k hk hF hG h faces hf
    | 3, hf, hk, hF, hG, h => exact divergence_cube_three F G k hk hF hG h faces hf
    | d + 4, hf, _, _, _, _ => exact absurd hf (by simp [facesForShape, facesForHypercube, hypercubeFaces])
  | tp dims => cases hf

/-- **C78, unit normals.**  The unnormalised normal is the unit normal times its Euclidean length, so
the weight of a face in `C78_divergence` is the unit normal times `|n| / 2**face.dim`. -/
theorem C78_unit_normal (f : Face) (n u : List ℝ) (hn : faceNormal f false = .ok n) (hu : faceNormal f true = .ok u) :
    n = u.map fun c => c * Real.sqrt (dot n n) := by
  unfold faceNormal at hn hu
  cases hv : Shape.unitVertices f.volumeShape with
  | error e => rw [hv] at hn; exact absurd hn (by simp)
  | ok verts =>
    rw [hv] at hn hu
    dsimp only at hn hu
    split at hn
    · obtain rfl := Except.ok.inj hn
      rename_i h0
      rw [h0] at hu
      obtain rfl := Except.ok.inj hu
      rcases Real.sign_apply_eq ((selectColumns verts f.volumeVertexIndices).get [0, 0]) with h | h | h <;> rw [h] <;> simp [dot]
    · rename_i h0
      rw [h0] at hu
      obtain rfl := Except.ok.inj hn
      obtain rfl := Except.ok.inj hu
      simp only [Bool.false_eq_true, if_false, if_true, div_one]
      generalize (selectColumns verts f.volumeVertexIndices).get [0, 1] - (selectColumns verts f.volumeVertexIndices).get [0, 0] = a
      generalize (selectColumns verts f.volumeVertexIndices).get [1, 1] - (selectColumns verts f.volumeVertexIndices).get [1, 0] = b
      have e : dot [b, -a] [b, -a] = a ^ 2 + b ^ 2 := by simp [dot]; ring
      rw [e]
      by_cases hz : Real.sqrt (a ^ 2 + b ^ 2) = 0
      · have hz' : a ^ 2 + b ^ 2 = 0 := (Real.sqrt_eq_zero (by positivity)).1 hz
        have ha : a = 0 := by nlinarith [sq_nonneg a, sq_nonneg b]
        have hb : b = 0 := by nlinarith [sq_nonneg a, sq_nonneg b]
        simp [ha, hb]
      · simp only [List.map_cons, List.map_nil]
        rw [div_mul_cancel₀ _ hz, neg_mul, div_mul_cancel₀ _ hz]
    · rename_i h0
      rw [h0] at hu
      obtain rfl := Except.ok.inj hn
      obtain rfl := Except.ok.inj hu
      simp only [Bool.false_eq_true, if_false, if_true, div_one]
      set fv := selectColumns verts f.volumeVertexIndices
      generalize (fv.get [1, 1] - fv.get [1, 0]) * (fv.get [2, 2] - fv.get [2, 0]) -
        (fv.get [2, 1] - fv.get [2, 0]) * (fv.get [1, 2] - fv.get [1, 0]) = a
      generalize (fv.get [2, 1] - fv.get [2, 0]) * (fv.get [0, 2] - fv.get [0, 0]) -
        (fv.get [0, 1] - fv.get [0, 0]) * (fv.get [2, 2] - fv.get [2, 0]) = b
      generalize (fv.get [0, 1] - fv.get [0, 0]) * (fv.get [1, 2] - fv.get [1, 0]) -
        (fv.get [1, 1] - fv.get [1, 0]) * (fv.get [0, 2] - fv.get [0, 0]) = c
      have e : dot [a, b, c] [a, b, c] = a ^ 2 + b ^ 2 + c ^ 2 := by simp [dot]; ring
      rw [e]
      by_cases hz : Real.sqrt (a ^ 2 + b ^ 2 + c ^ 2) = 0
      · have hz' : a ^ 2 + b ^ 2 + c ^ 2 = 0 := (Real.sqrt_eq_zero (by positivity)).1 hz
        have ha : a = 0 := by nlinarith [sq_nonneg a, sq_nonneg b, sq_nonneg c]
        have hb : b = 0 := by nlinarith [sq_nonneg a, sq_nonneg b, sq_nonneg c]
        have hc : c = 0 := by nlinarith [sq_nonneg a, sq_nonneg b, sq_nonneg c]
        simp [ha, hb, hc]
      · simp only [List.map_cons, List.map_nil, div_mul_cancel₀ _ hz]
    · exact absurd hn (by simp)

/-- The hypotheses of `C78_divergence` are met on the tetrahedron by `F = r² s`, `G = 2 r s`. -/
example : ∃ faces, facesForShape (.simplex 3) = .ok faces ∧
    Spec.shapeIntegral (.simplex 3) (fun x => 2 * x.getD 0 0 * x.getD 1 0) =
      (faces.map fun f => (okOr [] (faceNormal f false)).getD 0 0 / 2 ^ f.shape.dim *
        Spec.shapeIntegral f.shape fun p =>
          (fun x : List ℝ => x.getD 0 0 ^ 2 * x.getD 1 0) (okOr [] (f.mapToVolume p))).sum := by
  refine ⟨_, rfl, (C78_divergence (.simplex 3) (by simp) _ rfl (fun x => x.getD 0 0 ^ 2 * x.getD 1 0)
    (fun x => 2 * x.getD 0 0 * x.getD 1 0) 0 (by simp [Shape.dim]) ?_ ?_ ?_).2⟩
  · show Continuous fun x : Fin 3 → ℝ => (List.ofFn x).getD 0 0 ^ 2 * (List.ofFn x).getD 1 0
    simp
    fun_prop
  · show Continuous fun x : Fin 3 → ℝ => 2 * (List.ofFn x).getD 0 0 * (List.ofFn x).getD 1 0
    simp
    fun_prop
  · intro x hx
    obtain ⟨a, b, c, rfl⟩ := list3 hx
    have := ((hasDerivAt_id a).pow 2).mul_const b
    simpa using this

end Modepy

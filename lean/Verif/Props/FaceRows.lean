import Verif.Props.Faces

/-!
# Property C105: face maps on arrays with the wrong number of rows

A face of dimension `m` maps arrays of shape `(m, npoints)`.  The map is an `einsum` whose summed axis may be repeated if it
has length one in one of the operands, so that some arrays with another number of rows are mapped, too.
-/

namespace Modepy
open Spec

private theorem affine_one_row (fv : NdArray ℝ) (dim nb : Nat) (t : ℝ) :
    (List.range dim).map (fun i => fv.get [i, 0] +
        ((List.range nb).map fun j => (fv.get [i, j + 1] - fv.get [i, 0]) * ((1 + [t].getD 0 0) / 2)).sum) =
      affineFaceMap fv dim nb (List.replicate nb t) := by
  unfold affineFaceMap
  refine List.map_congr_left fun i _ => ?_
  congr 2
  refine List.map_congr_left fun j hj => ?_
  rw [List.mem_range] at hj
  simp [hj]

private theorem affine_edge (fv : NdArray ℝ) (dim : Nat) (p : List ℝ) :
    (List.range dim).map (fun i => fv.get [i, 0] +
        (p.map fun t => (fv.get [i, 1] - fv.get [i, 0]) * ((1 + t) / 2)).sum) =
      affineFaceMap fv dim 1 [(p.map fun t => 1 + t).sum - 1] := by
  unfold affineFaceMap
  refine List.map_congr_left fun i _ => ?_
  have h : ∀ c : ℝ, (p.map fun t => c * ((1 + t) / 2)).sum = c * (((p.map fun t => 1 + t).sum) / 2) := by
    intro c
    induction p with
    | nil => simp
    | cons a p ih => rw [List.map_cons, List.sum_cons, ih, List.map_cons, List.sum_cons]; ring
  rw [h]
  simp

/-- What is true of every face map `g` of a face of dimension `m`. -/
def RowsOk (m : Nat) (g : List ℝ → Py (List ℝ)) : Prop :=
  (∀ p : List ℝ, p.length = m → ∃ x, g p = .ok x) ∧
  (∀ t, g [t] = g (List.replicate m t)) ∧
  (m = 1 → ∀ p, g p = g [(p.map fun t => 1 + t).sum - 1]) ∧
  (m ≠ 1 → ∀ p : List ℝ, p.length ≠ m → p.length ≠ 1 → g p = .error .ValueError)

private theorem rowsOk_of {fv : NdArray ℝ} {dim m : Nat} {g : List ℝ → Py (List ℝ)}
    (h : ∀ p : List ℝ, g p = if p.length ≠ m then broadcastFaceMap fv dim m p else .ok (affineFaceMap fv dim m p)) :
    RowsOk m g := by
  refine ⟨fun p hp => ⟨_, by rw [h, if_neg (by simpa using hp)]⟩, fun t => ?_, fun hm p => ?_, fun hm p h1 h2 => ?_⟩
  · by_cases hm : m = 1
    · subst hm; rfl
    · have e1 : ([t] : List ℝ).length ≠ m := fun h' => hm h'.symm
      have e2 : ¬ (List.replicate m t).length ≠ m := by simp
      rw [h [t], h (List.replicate m t), if_pos e1, if_neg e2, broadcastFaceMap, if_pos (by simp), affine_one_row]
  · subst hm
    rw [h [_], if_neg (by simp), h p]
    by_cases hp : p.length = 1
    · obtain ⟨a, rfl⟩ := list1 hp
      simp
    · rw [if_pos hp, broadcastFaceMap, if_neg hp, if_pos rfl, affine_edge]
  · rw [h, if_pos h1, broadcastFaceMap, if_neg h2, if_neg hm]

private theorem simplexFace_rows {d : Nat} {fv : NdArray ℝ} (hs : fv.shape = [d, d]) :
    RowsOk (d - 1) (simplexFaceToVolMap fv) := by
  refine rowsOk_of (fv := fv) (dim := d) fun p => ?_
  have h1 : rows fv = d := by simp [rows, hs]
  have h2 : ncols fv = d := by simp [ncols, hs]
  rw [simplexFaceToVolMap]
  simp only [h1, h2]
  rw [if_neg (by simp)]

private theorem hypercubeFace_rows {d : Nat} (h1 : 1 ≤ d) (h3 : d ≤ 3) {fv : NdArray ℝ} (hs : fv.shape = [d, 2 ^ (d - 1)]) :
    RowsOk (d - 1) (hypercubeFaceToVolMap fv) := by
  refine rowsOk_of (fv := fv) (dim := d) fun p => ?_
  have e1 : rows fv = d := by simp [rows, hs]
  have e2 : ncols fv = 2 ^ (d - 1) := by simp [ncols, hs]
  have e3 : min 2 (2 ^ (d - 1) - 1) = d - 1 := by interval_cases d <;> rfl
  rw [hypercubeFaceToVolMap]
  simp only [e1, e2, e3]
  rw [if_neg (by interval_cases d <;> simp), if_pos h3]

/-- The faces of an element: simplices and hypercubes of dimensions one to three. -/
theorem faces_rows {s : Shape} {faces : List Face} (h : facesForShape s = .ok faces) {f : Face} (hf : f ∈ faces) :
    RowsOk f.shape.dim f.mapToVolume := by
  match s with
  | .simplex d =>
      simp only [facesForShape, facesForSimplex] at h
      have key : ∀ tbl : List (List Nat), (∀ fvi ∈ tbl, fvi.length = d) → simplexFaces d = .ok tbl →
          RowsOk f.shape.dim f.mapToVolume := by
        intro tbl ht he
        rw [he] at h
        injection h with h
        rw [← h] at hf
        obtain ⟨⟨fvi, i⟩, hm, rfl⟩ := List.mem_map.1 hf
        have hl : fvi.length = d := by
          have := List.mem_zipIdx hm
          exact ht fvi (by rw [this.2.2]; exact List.getElem_mem _)
        exact simplexFace_rows (d := d) (by simp [selectColumns, rows, Shape.unitVerticesSimplex, hl])
      match d with
      | 0 => simp [simplexFaces, Except.map] at h
      | 1 => exact key _ (by simp) rfl
      | 2 => exact key _ (by simp) rfl
      | 3 => exact key _ (by simp) rfl
      | d + 4 => simp [simplexFaces, Except.map] at h
  | .hypercube d =>
      have key : ∀ tbl : List (List Nat), 1 ≤ d → d ≤ 3 → (∀ fvi ∈ tbl, fvi.length = 2 ^ (d - 1)) →
          hypercubeFaces d = .ok tbl → RowsOk f.shape.dim f.mapToVolume := by
        intro tbl h1 h3 ht he
        obtain ⟨v, hok, hv, -⟩ := C11_hypercube_bits d h1
        have hmk : ∃ fs, Shape.mkHypercube (d - 1) = .ok fs ∧ fs.dim = d - 1 := by
          interval_cases d
          · exact ⟨_, rfl, rfl⟩
          · exact ⟨_, rfl, rfl⟩
          · exact ⟨_, rfl, rfl⟩
        obtain ⟨fs, hfs, hdim⟩ := hmk
        rw [facesForHypercube_ok he hok hfs] at h
        injection h with h
        rw [← h] at hf
        obtain ⟨⟨fvi, i⟩, hm, rfl⟩ := List.mem_map.1 hf
        have hl : fvi.length = 2 ^ (d - 1) := by
          have := List.mem_zipIdx hm
          exact ht fvi (by rw [this.2.2]; exact List.getElem_mem _)
        show RowsOk fs.dim _
        rw [hdim]
        exact hypercubeFace_rows (d := d) h1 h3 (by simp [selectColumns, rows, hv, hl])
      match d with
      | 0 => simp [facesForShape, facesForHypercube, hypercubeFaces] at h
      | 1 => exact key _ (by simp) (by simp) (by simp) rfl
      | 2 => exact key _ (by simp) (by simp) (by simp) rfl
      | 3 => exact key _ (by simp) (by simp) (by simp) rfl
      | d + 4 => simp [facesForShape, facesForHypercube, hypercubeFaces] at h
  | .tp bs => simp [facesForShape] at h

/-- **C105.**  A face maps an array with as many rows as the face has dimensions.  It also maps an array with a single row,
and an edge maps an array with any number of rows; all other arrays raise `ValueError`. -/
theorem C105_accepts {s : Shape} {faces : List Face} (h : facesForShape s = .ok faces) {f : Face} (hf : f ∈ faces)
    (p : List ℝ) :
    (f.mapToVolume p = .error .ValueError ∨ ∃ x, f.mapToVolume p = .ok x) ∧
    ((∃ x, f.mapToVolume p = .ok x) ↔ p.length = f.shape.dim ∨ p.length = 1 ∨ f.shape.dim = 1) := by
  obtain ⟨h1, h2, h3, h4⟩ := faces_rows h hf
  have hok : p.length = f.shape.dim ∨ p.length = 1 ∨ f.shape.dim = 1 → ∃ x, f.mapToVolume p = .ok x := by
    rintro (hp | hp | hm)
    · exact h1 p hp
    · obtain ⟨t, rfl⟩ := list1 hp
      rw [h2]; exact h1 _ (by simp)
    · rw [h3 hm]; exact h1 _ (by simp [hm])
  by_cases hc : p.length = f.shape.dim ∨ p.length = 1 ∨ f.shape.dim = 1
  · exact ⟨.inr (hok hc), fun _ => hc, hok⟩
  · have he := h4 (fun h' => hc (.inr (.inr h'))) p (fun h' => hc (.inl h')) (fun h' => hc (.inr (.inl h')))
    refine ⟨.inl he, ?_, hok⟩
    rintro ⟨x, hx⟩
    rw [he] at hx
    cases hx

/-- **C105.**  A single row is used for all coordinates of the face: the point is mapped like the point of the diagonal. -/
theorem C105_one_row {s : Shape} {faces : List Face} (h : facesForShape s = .ok faces) {f : Face} (hf : f ∈ faces) (t : ℝ) :
    f.mapToVolume [t] = f.mapToVolume (List.replicate f.shape.dim t) := (faces_rows h hf).2.1 t

/-- **C105.**  On an edge, the rows of a point are added up (as fractions of the edge). -/
theorem C105_edge {s : Shape} {faces : List Face} (h : facesForShape s = .ok faces) {f : Face} (hf : f ∈ faces)
    (hm : f.shape.dim = 1) (p : List ℝ) :
    f.mapToVolume p = f.mapToVolume [(p.map fun t => 1 + t).sum - 1] := (faces_rows h hf).2.2.1 hm p

/-- **C105.**  The claim that a face maps only arrays with as many rows as it has dimensions fails, and the image need not lie
in the element: the edges of the triangle map the point `(1, 1)` of the square to a point outside of the triangle. -/
theorem C105_refuted :
    ∃ faces, facesForShape (.simplex 2) = .ok faces ∧ ∀ f ∈ faces, f.shape.dim = 1 ∧
      ∃ x, f.mapToVolume [1, 1] = .ok x ∧ x.length = 2 ∧ ¬ InSimplex 2 x := by
  refine ⟨_, rfl, ?_⟩
  intro f hf
  simp only [List.zipIdx, List.map_cons, List.map_nil, List.mem_cons, List.not_mem_nil, or_false] at hf
  have e : ∀ fvi : List Nat, fvi.length = 2 →
      simplexFaceToVolMap (selectColumns (Shape.unitVerticesSimplex 2) fvi) [1, 1] =
        .ok [-((selectColumns (Shape.unitVerticesSimplex 2) fvi).get [0, 0]) +
              2 * (selectColumns (Shape.unitVerticesSimplex 2) fvi).get [0, 1],
            -((selectColumns (Shape.unitVerticesSimplex 2) fvi).get [1, 0]) +
              2 * (selectColumns (Shape.unitVerticesSimplex 2) fvi).get [1, 1]] := by
    intro fvi hl
    simp [simplexFaceToVolMap, broadcastFaceMap, selectColumns, rows, ncols, Shape.unitVerticesSimplex, hl,
      List.range_succ]
    constructor <;> split_ifs <;> norm_num
  rcases hf with rfl | rfl | rfl
  · refine ⟨rfl, _, e [0, 1] rfl, rfl, ?_⟩
    rw [inSimplex2]; norm_num [selectColumns, Shape.unitVerticesSimplex]
  · refine ⟨rfl, _, e [2, 0] rfl, rfl, ?_⟩
    rw [inSimplex2]; norm_num [selectColumns, Shape.unitVerticesSimplex]
  · refine ⟨rfl, _, e [1, 2] rfl, rfl, ?_⟩
    rw [inSimplex2]; norm_num [selectColumns, Shape.unitVerticesSimplex]

/-- The hypotheses are met: a face of the cube maps a single number to a point of its diagonal. -/
example : ∃ faces, facesForShape (.hypercube 3) = .ok faces ∧ faces.length = 6 ∧
    ∀ f ∈ faces, f.mapToVolume [0] = f.mapToVolume [0, 0] := by
  obtain ⟨faces, h, hl, -, hg⟩ := C09_hypercube_faces 3 (by omega) (by omega)
  refine ⟨faces, h, ?_, fun f hf => ?_⟩
  · injection hl with hl
    exact hl.symm
  · have hs : Shape.hypercube 2 = f.shape := by
      have := (hg f hf).1
      injection this
    rw [C105_one_row h hf, ← hs]
    rfl

end Modepy

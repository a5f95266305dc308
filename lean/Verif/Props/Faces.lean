import Verif.Model.Faces
import Verif.Spec.Geometry
import Verif.Props.Shapes
import Mathlib.Tactic.NormNum
import Mathlib.Tactic.Linarith
import Mathlib.Tactic.IntervalCases

/-!
# Properties C08-C10: faces of simplices and hypercubes
-/

namespace Modepy

set_option linter.unreachableTactic false
set_option linter.unusedTactic false
set_option linter.unnecessarySeqFocus false

open Spec

/-- Vertex `k` of the bi-unit simplex. -/
noncomputable def Spec.simplexVertex (d k : Nat) : List ℝ :=
  (List.range d).map fun i => if k = i + 1 then 1 else -1

/-- Vertex `k` of the cube: coordinate `i` is `+1` iff bit `i` of `k` is set. -/
noncomputable def Spec.cubeVertex (d k : Nat) : List ℝ :=
  (List.range d).map fun i => if k.testBit i then 1 else -1

/-- What C08 says about one face `f` of `Simplex(d)`: it is a simplex of dimension `d-1`; the face
map sends face vertex `k` to volume vertex `volume_vertex_indices[k]`; there is a vertex `m` of the
volume not among the face's vertices such that the face map is a bijection from the reference face
onto the points of the volume simplex with barycentric coordinate `m` zero. -/
def GoodSimplexFace (d : Nat) (f : Face) : Prop :=
  f.shape = .simplex (d - 1) ∧ f.volumeShape = .simplex d ∧
  f.volumeVertexIndices.length = d ∧ f.volumeVertexIndices.Nodup ∧
  (∀ k < d, f.mapToVolume (simplexVertex (d - 1) k) =
    .ok (simplexVertex d (f.volumeVertexIndices.getD k 0))) ∧
  ∃ m ≤ d, m ∉ f.volumeVertexIndices ∧
    (∀ p q, p.length = d - 1 → q.length = d - 1 → f.mapToVolume p = f.mapToVolume q → p = q) ∧
    (∀ p, InSimplex (d - 1) p → ∃ x, f.mapToVolume p = .ok x ∧ InSimplex d x ∧ bary x m = 0) ∧
    (∀ x, InSimplex d x → bary x m = 0 → ∃ p, InSimplex (d - 1) p ∧ f.mapToVolume p = .ok x)

theorem list1 {p : List ℝ} (h : p.length = 1) : ∃ a, p = [a] := by
  match p, h with
  | [a], _ => exact ⟨a, rfl⟩
theorem list2 {p : List ℝ} (h : p.length = 2) : ∃ a b, p = [a, b] := by
  match p, h with
  | [a, b], _ => exact ⟨a, b, rfl⟩
theorem list3 {p : List ℝ} (h : p.length = 3) : ∃ a b c, p = [a, b, c] := by
  match p, h with
  | [a, b, c], _ => exact ⟨a, b, c, rfl⟩

theorem inSimplex0 (p : List ℝ) : InSimplex 0 p ↔ p = [] := by
  constructor
  · intro h; exact List.length_eq_zero_iff.1 h.1
  · rintro rfl; exact ⟨rfl, fun m hm => by interval_cases m; simp [bary]⟩

theorem inSimplex1 (a : ℝ) : InSimplex 1 [a] ↔ -1 ≤ a ∧ a ≤ 1 := by
  constructor
  · rintro ⟨_, h⟩
    have h0 := h 0 (by omega); have h1 := h 1 (by omega)
    simp [bary] at h0 h1
    constructor <;> linarith
  · rintro ⟨h1, h2⟩
    refine ⟨rfl, fun m hm => ?_⟩
    interval_cases m <;> simp [bary] <;> linarith

theorem inSimplex2 (a b : ℝ) : InSimplex 2 [a, b] ↔ -1 ≤ a ∧ -1 ≤ b ∧ a + b ≤ 0 := by
  constructor
  · rintro ⟨_, h⟩
    have h0 := h 0 (by omega); have h1 := h 1 (by omega); have h2 := h 2 (by omega)
    simp [bary] at h0 h1 h2
    refine ⟨?_, ?_, ?_⟩ <;> linarith
  · rintro ⟨h1, h2, h3⟩
    refine ⟨rfl, fun m hm => ?_⟩
    interval_cases m <;> simp [bary] <;> linarith

theorem inSimplex3 (a b c : ℝ) :
    InSimplex 3 [a, b, c] ↔ -1 ≤ a ∧ -1 ≤ b ∧ -1 ≤ c ∧ a + b + c ≤ -1 := by
  constructor
  · rintro ⟨_, h⟩
    have h0 := h 0 (by omega); have h1 := h 1 (by omega); have h2 := h 2 (by omega)
    have h3 := h 3 (by omega)
    simp [bary] at h0 h1 h2 h3
    refine ⟨?_, ?_, ?_, ?_⟩ <;> linarith
  · rintro ⟨h1, h2, h3, h4⟩
    refine ⟨rfl, fun m hm => ?_⟩
    interval_cases m <;> simp [bary] <;> linarith

macro "face_simp" : tactic => `(tactic|
  simp [simplexFaceToVolMap, hypercubeFaceToVolMap, affineFaceMap, selectColumns,
    Shape.unitVerticesSimplex,
    rows, ncols, List.range_succ, simplexVertex, bary])

theorem good1 : ∃ faces, facesForShape (.simplex 1) = .ok faces ∧ faces.length = 2 ∧
    faces.Pairwise (fun f g => ∃ v ∈ f.volumeVertexIndices, v ∉ g.volumeVertexIndices) ∧
    ∀ f ∈ faces, GoodSimplexFace 1 f := by
  refine ⟨_, rfl, rfl, by simp, ?_⟩
  intro f hf
  simp only [List.zipIdx, List.map_cons, List.map_nil, List.mem_cons, List.not_mem_nil, or_false] at hf
  rcases hf with rfl | rfl
  · refine ⟨rfl, rfl, rfl, by simp, ?_, 1, by simp, by simp, ?_, ?_, ?_⟩
    · intro k hk
      interval_cases k <;> face_simp
    · intro p q hp hq _
      rw [List.length_eq_zero_iff.1 hp, List.length_eq_zero_iff.1 hq]
    · intro p hp
      rw [inSimplex0] at hp; subst hp
      refine ⟨[-1], by face_simp, (inSimplex1 _).2 (by norm_num), by face_simp⟩
    · intro x hx h0
      obtain ⟨a, rfl⟩ := list1 hx.1
      refine ⟨[], (inSimplex0 _).2 rfl, ?_⟩
      simp [bary] at h0
      face_simp; linarith
  · refine ⟨rfl, rfl, rfl, by simp, ?_, 0, by simp, by simp, ?_, ?_, ?_⟩
    · intro k hk
      interval_cases k <;> face_simp
    · intro p q hp hq _
      rw [List.length_eq_zero_iff.1 hp, List.length_eq_zero_iff.1 hq]
    · intro p hp
      rw [inSimplex0] at hp; subst hp
      refine ⟨[1], by face_simp, (inSimplex1 _).2 (by norm_num), by face_simp⟩
    · intro x hx h0
      obtain ⟨a, rfl⟩ := list1 hx.1
      refine ⟨[], (inSimplex0 _).2 rfl, ?_⟩
      simp [bary] at h0
      face_simp; linarith


theorem good2 : ∃ faces, facesForShape (.simplex 2) = .ok faces ∧ faces.length = 3 ∧
    faces.Pairwise (fun f g => ∃ v ∈ f.volumeVertexIndices, v ∉ g.volumeVertexIndices) ∧
    ∀ f ∈ faces, GoodSimplexFace 2 f := by
  refine ⟨_, rfl, rfl, by simp, ?_⟩
  intro f hf
  simp only [List.zipIdx, List.map_cons, List.map_nil, List.mem_cons, List.not_mem_nil, or_false] at hf
  rcases hf with rfl | rfl | rfl
  · refine ⟨rfl, rfl, rfl, by simp, ?_, 2, by simp, by simp, ?_, ?_, ?_⟩
    · intro k hk
      interval_cases k <;> face_simp
    · intro p q hp hq h
      obtain ⟨a, rfl⟩ := list1 hp
      obtain ⟨a', rfl⟩ := list1 hq
      revert h; face_simp
      try (norm_num <;> intros <;> linarith)
    · intro p hp
      obtain ⟨a, rfl⟩ := list1 hp.1
      rw [inSimplex1] at hp
      refine ⟨[_, _], by face_simp; exact ⟨rfl, rfl⟩, (inSimplex2 _ _).2 ?_, ?_⟩
      · refine ⟨?_, ?_, ?_⟩ <;> linarith
      · simp [bary]; try ring
    · intro x hx h0
      obtain ⟨x, y, rfl⟩ := list2 hx.1
      rw [inSimplex2] at hx
      simp [bary] at h0
      refine ⟨[x], (inSimplex1 _).2 ⟨by linarith, by linarith⟩, ?_⟩
      face_simp; first | linarith | (constructor <;> linarith)
  · refine ⟨rfl, rfl, rfl, by simp, ?_, 1, by simp, by simp, ?_, ?_, ?_⟩
    · intro k hk
      interval_cases k <;> face_simp
    · intro p q hp hq h
      obtain ⟨a, rfl⟩ := list1 hp
      obtain ⟨a', rfl⟩ := list1 hq
      revert h; face_simp
      try (norm_num <;> intros <;> linarith)
    · intro p hp
      obtain ⟨a, rfl⟩ := list1 hp.1
      rw [inSimplex1] at hp
      refine ⟨[_, _], by face_simp; exact ⟨rfl, rfl⟩, (inSimplex2 _ _).2 ?_, ?_⟩
      · refine ⟨?_, ?_, ?_⟩ <;> linarith
      · simp [bary]; try ring
    · intro x hx h0
      obtain ⟨x, y, rfl⟩ := list2 hx.1
      rw [inSimplex2] at hx
      simp [bary] at h0
      refine ⟨[-y], (inSimplex1 _).2 ⟨by linarith, by linarith⟩, ?_⟩
      face_simp; first | linarith | (constructor <;> linarith)
  · refine ⟨rfl, rfl, rfl, by simp, ?_, 0, by simp, by simp, ?_, ?_, ?_⟩
    · intro k hk
      interval_cases k <;> face_simp
    · intro p q hp hq h
      obtain ⟨a, rfl⟩ := list1 hp
      obtain ⟨a', rfl⟩ := list1 hq
      revert h; face_simp
      try (norm_num <;> intros <;> linarith)
    · intro p hp
      obtain ⟨a, rfl⟩ := list1 hp.1
      rw [inSimplex1] at hp
      refine ⟨[_, _], by face_simp; exact ⟨rfl, rfl⟩, (inSimplex2 _ _).2 ?_, ?_⟩
      · refine ⟨?_, ?_, ?_⟩ <;> linarith
      · simp [bary]; try ring
    · intro x hx h0
      obtain ⟨x, y, rfl⟩ := list2 hx.1
      rw [inSimplex2] at hx
      simp [bary] at h0
      refine ⟨[y], (inSimplex1 _).2 ⟨by linarith, by linarith⟩, ?_⟩
      face_simp; first | linarith | (constructor <;> linarith)

theorem good3 : ∃ faces, facesForShape (.simplex 3) = .ok faces ∧ faces.length = 4 ∧
    faces.Pairwise (fun f g => ∃ v ∈ f.volumeVertexIndices, v ∉ g.volumeVertexIndices) ∧
    ∀ f ∈ faces, GoodSimplexFace 3 f := by
  refine ⟨_, rfl, rfl, by simp, ?_⟩
  intro f hf
  simp only [List.zipIdx, List.map_cons, List.map_nil, List.mem_cons, List.not_mem_nil, or_false] at hf
  rcases hf with rfl | rfl | rfl | rfl
  · refine ⟨rfl, rfl, rfl, by simp, ?_, 3, by simp, by simp, ?_, ?_, ?_⟩
    · intro k hk
      interval_cases k <;> face_simp
    · intro p q hp hq h
      obtain ⟨a, b, rfl⟩ := list2 hp
      obtain ⟨a', b', rfl⟩ := list2 hq
      revert h; face_simp
      try (intros; constructor <;> linarith)
    · intro p hp
      obtain ⟨a, b, rfl⟩ := list2 hp.1
      rw [inSimplex2] at hp
      refine ⟨_, by face_simp; exact ⟨rfl, rfl, rfl⟩, (inSimplex3 _ _ _).2 ?_, ?_⟩
      · refine ⟨?_, ?_, ?_, ?_⟩ <;> linarith
      · simp [bary]; try ring
    · intro x hx h0
      obtain ⟨x, y, z, rfl⟩ := list3 hx.1
      rw [inSimplex3] at hx
      simp [bary] at h0
      refine ⟨[y, x], (inSimplex2 _ _).2 ⟨by linarith, by linarith, by linarith⟩, ?_⟩
      face_simp; first | linarith | (constructor <;> linarith) | (refine ⟨?_, ?_, ?_⟩ <;> linarith)
  · refine ⟨rfl, rfl, rfl, by simp, ?_, 2, by simp, by simp, ?_, ?_, ?_⟩
    · intro k hk
      interval_cases k <;> face_simp
    · intro p q hp hq h
      obtain ⟨a, b, rfl⟩ := list2 hp
      obtain ⟨a', b', rfl⟩ := list2 hq
      revert h; face_simp
      try (intros; constructor <;> linarith)
    · intro p hp
      obtain ⟨a, b, rfl⟩ := list2 hp.1
      rw [inSimplex2] at hp
      refine ⟨_, by face_simp; exact ⟨rfl, rfl, rfl⟩, (inSimplex3 _ _ _).2 ?_, ?_⟩
      · refine ⟨?_, ?_, ?_, ?_⟩ <;> linarith
      · simp [bary]; try ring
    · intro x hx h0
      obtain ⟨x, y, z, rfl⟩ := list3 hx.1
      rw [inSimplex3] at hx
      simp [bary] at h0
      refine ⟨[x, z], (inSimplex2 _ _).2 ⟨by linarith, by linarith, by linarith⟩, ?_⟩
      face_simp; first | linarith | (constructor <;> linarith) | (refine ⟨?_, ?_, ?_⟩ <;> linarith)
  · refine ⟨rfl, rfl, rfl, by simp, ?_, 1, by simp, by simp, ?_, ?_, ?_⟩
    · intro k hk
      interval_cases k <;> face_simp
    · intro p q hp hq h
      obtain ⟨a, b, rfl⟩ := list2 hp
      obtain ⟨a', b', rfl⟩ := list2 hq
      revert h; face_simp
      try (intros; constructor <;> linarith)
    · intro p hp
      obtain ⟨a, b, rfl⟩ := list2 hp.1
      rw [inSimplex2] at hp
      refine ⟨_, by face_simp; exact ⟨rfl, rfl, rfl⟩, (inSimplex3 _ _ _).2 ?_, ?_⟩
      · refine ⟨?_, ?_, ?_, ?_⟩ <;> linarith
      · simp [bary]; try ring
    · intro x hx h0
      obtain ⟨x, y, z, rfl⟩ := list3 hx.1
      rw [inSimplex3] at hx
      simp [bary] at h0
      refine ⟨[z, y], (inSimplex2 _ _).2 ⟨by linarith, by linarith, by linarith⟩, ?_⟩
      face_simp; first | linarith | (constructor <;> linarith) | (refine ⟨?_, ?_, ?_⟩ <;> linarith)
  · refine ⟨rfl, rfl, rfl, by simp, ?_, 0, by simp, by simp, ?_, ?_, ?_⟩
    · intro k hk
      interval_cases k <;> face_simp
    · intro p q hp hq h
      obtain ⟨a, b, rfl⟩ := list2 hp
      obtain ⟨a', b', rfl⟩ := list2 hq
      revert h; face_simp
      try (intros; constructor <;> linarith)
    · intro p hp
      obtain ⟨a, b, rfl⟩ := list2 hp.1
      rw [inSimplex2] at hp
      refine ⟨_, by face_simp; exact ⟨rfl, rfl, rfl⟩, (inSimplex3 _ _ _).2 ?_, ?_⟩
      · refine ⟨?_, ?_, ?_, ?_⟩ <;> linarith
      · simp [bary]; try ring
    · intro x hx h0
      obtain ⟨x, y, z, rfl⟩ := list3 hx.1
      rw [inSimplex3] at hx
      simp [bary] at h0
      refine ⟨[y, z], (inSimplex2 _ _).2 ⟨by linarith, by linarith, by linarith⟩, ?_⟩
      face_simp; first | linarith | (constructor <;> linarith) | (refine ⟨?_, ?_, ?_⟩ <;> linarith)

/-! ## Hypercubes -/

/-- What C09 says about one face `f` of the `d`-cube: it is a cube of dimension `d-1` (for `d = 2`
a segment); the face map sends face vertex `k` to volume vertex `volume_vertex_indices[k]`; and there
are an axis `i` and a side `s = ±1` such that the face map is a bijection from the reference face
onto the points of the cube with coordinate `i` equal to `s`. -/
def GoodCubeFace (d : Nat) (f : Face) : Prop :=
  Shape.mkHypercube (d - 1) = .ok f.shape ∧ f.volumeShape = .hypercube d ∧
  f.volumeVertexIndices.length = 2 ^ (d - 1) ∧ f.volumeVertexIndices.Nodup ∧
  (∀ k < 2 ^ (d - 1), f.mapToVolume (cubeVertex (d - 1) k) =
    .ok (cubeVertex d (f.volumeVertexIndices.getD k 0))) ∧
  ∃ i < d, ∃ s : ℝ, (s = 1 ∨ s = -1) ∧
    (∀ p q, p.length = d - 1 → q.length = d - 1 → f.mapToVolume p = f.mapToVolume q → p = q) ∧
    (∀ p, InCube (d - 1) p → ∃ x, f.mapToVolume p = .ok x ∧ InCube d x ∧ x.getD i 0 = s) ∧
    (∀ x, InCube d x → x.getD i 0 = s → ∃ p, InCube (d - 1) p ∧ f.mapToVolume p = .ok x)

theorem inCube1 (a : ℝ) : InCube 1 [a] ↔ -1 ≤ a ∧ a ≤ 1 := by simp [InCube]
theorem inCube2 (a b : ℝ) : InCube 2 [a, b] ↔ (-1 ≤ a ∧ a ≤ 1) ∧ (-1 ≤ b ∧ b ≤ 1) := by
  simp [InCube]
theorem inCube3 (a b c : ℝ) :
    InCube 3 [a, b, c] ↔ (-1 ≤ a ∧ a ≤ 1) ∧ (-1 ≤ b ∧ b ≤ 1) ∧ (-1 ≤ c ∧ c ≤ 1) := by
  simp [InCube]


macro "cube_simp" hv:ident hg:ident : tactic => `(tactic|
  simp [hypercubeFaceToVolMap, affineFaceMap, selectColumns, rows, ncols, List.range_succ,
    cubeVertex, $hv:ident, $hg:ident, Nat.testBit, Nat.shiftRight_eq_div_pow])


theorem facesForHypercube_ok {d : Nat} {tbl : List (List Nat)} {verts : NdArray Int} {fs : Shape}
    (h1 : hypercubeFaces d = .ok tbl) (h2 : Shape.unitVertices (.hypercube d) = .ok verts)
    (h3 : Shape.mkHypercube (d - 1) = .ok fs) :
    facesForShape (.hypercube d) = .ok (tbl.zipIdx.map fun (fvi, iface) =>
        { shape := fs, volumeShape := .hypercube d, faceIndex := iface,
          volumeVertexIndices := fvi,
          mapToVolume := hypercubeFaceToVolMap (selectColumns verts fvi) }) := by
  simp only [facesForShape, facesForHypercube, h1, h2, h3]

theorem goodCube2 : ∃ faces, facesForShape (.hypercube 2) = .ok faces ∧ faces.length = 4 ∧
    faces.Pairwise (fun f g => ∃ v ∈ f.volumeVertexIndices, v ∉ g.volumeVertexIndices) ∧
    ∀ f ∈ faces, GoodCubeFace 2 f := by
  obtain ⟨v, hok, hv, hg⟩ := C11_hypercube_bits 2 (by omega)
  refine ⟨_, facesForHypercube_ok rfl hok rfl, rfl, by simp, ?_⟩
  intro f hf
  simp only [List.zipIdx, List.map_cons, List.map_nil, List.mem_cons, List.not_mem_nil, or_false] at hf
  rcases hf with rfl | rfl | rfl | rfl
  · refine ⟨rfl, rfl, rfl, by simp, ?_, 1, by simp, -1, by simp, ?_, ?_, ?_⟩
    · intro k hk
      simp only [Nat.reduceSub, Nat.reducePow] at hk
      interval_cases k <;> cube_simp hv hg <;> norm_num
    · intro p q hp hq h
      obtain ⟨a, rfl⟩ := list1 hp
      obtain ⟨a', rfl⟩ := list1 hq
      revert h; cube_simp hv hg
      try (norm_num <;> intros <;> linarith)
    · intro p hp
      obtain ⟨a, rfl⟩ := list1 hp.1
      rw [inCube1] at hp
      refine ⟨[_, _], by cube_simp hv hg; exact ⟨rfl, rfl⟩, (inCube2 _ _).2 ?_, ?_⟩
      · refine ⟨⟨?_, ?_⟩, ⟨?_, ?_⟩⟩ <;> linarith
      · simp; try ring
    · intro x hx h0
      obtain ⟨x, y, rfl⟩ := list2 hx.1
      rw [inCube2] at hx
      simp at h0
      refine ⟨[x], (inCube1 _).2 ⟨by linarith, by linarith⟩, ?_⟩
      cube_simp hv hg; (constructor <;> linarith)
  · refine ⟨rfl, rfl, rfl, by simp, ?_, 1, by simp, 1, by simp, ?_, ?_, ?_⟩
    · intro k hk
      simp only [Nat.reduceSub, Nat.reducePow] at hk
      interval_cases k <;> cube_simp hv hg <;> norm_num
    · intro p q hp hq h
      obtain ⟨a, rfl⟩ := list1 hp
      obtain ⟨a', rfl⟩ := list1 hq
      revert h; cube_simp hv hg
      try (norm_num <;> intros <;> linarith)
    · intro p hp
      obtain ⟨a, rfl⟩ := list1 hp.1
      rw [inCube1] at hp
      refine ⟨[_, _], by cube_simp hv hg; exact ⟨rfl, rfl⟩, (inCube2 _ _).2 ?_, ?_⟩
      · refine ⟨⟨?_, ?_⟩, ⟨?_, ?_⟩⟩ <;> linarith
      · simp; try ring
    · intro x hx h0
      obtain ⟨x, y, rfl⟩ := list2 hx.1
      rw [inCube2] at hx
      simp at h0
      refine ⟨[-x], (inCube1 _).2 ⟨by linarith, by linarith⟩, ?_⟩
      cube_simp hv hg; (constructor <;> linarith)
  · refine ⟨rfl, rfl, rfl, by simp, ?_, 0, by simp, -1, by simp, ?_, ?_, ?_⟩
    · intro k hk
      simp only [Nat.reduceSub, Nat.reducePow] at hk
      interval_cases k <;> cube_simp hv hg <;> norm_num
    · intro p q hp hq h
      obtain ⟨a, rfl⟩ := list1 hp
      obtain ⟨a', rfl⟩ := list1 hq
      revert h; cube_simp hv hg
      try (norm_num <;> intros <;> linarith)
    · intro p hp
      obtain ⟨a, rfl⟩ := list1 hp.1
      rw [inCube1] at hp
      refine ⟨[_, _], by cube_simp hv hg; exact ⟨rfl, rfl⟩, (inCube2 _ _).2 ?_, ?_⟩
      · refine ⟨⟨?_, ?_⟩, ⟨?_, ?_⟩⟩ <;> linarith
      · simp; try ring
    · intro x hx h0
      obtain ⟨x, y, rfl⟩ := list2 hx.1
      rw [inCube2] at hx
      simp at h0
      refine ⟨[-y], (inCube1 _).2 ⟨by linarith, by linarith⟩, ?_⟩
      cube_simp hv hg; (constructor <;> linarith)
  · refine ⟨rfl, rfl, rfl, by simp, ?_, 0, by simp, 1, by simp, ?_, ?_, ?_⟩
    · intro k hk
      simp only [Nat.reduceSub, Nat.reducePow] at hk
      interval_cases k <;> cube_simp hv hg <;> norm_num
    · intro p q hp hq h
      obtain ⟨a, rfl⟩ := list1 hp
      obtain ⟨a', rfl⟩ := list1 hq
      revert h; cube_simp hv hg
      try (norm_num <;> intros <;> linarith)
    · intro p hp
      obtain ⟨a, rfl⟩ := list1 hp.1
      rw [inCube1] at hp
      refine ⟨[_, _], by cube_simp hv hg; exact ⟨rfl, rfl⟩, (inCube2 _ _).2 ?_, ?_⟩
      · refine ⟨⟨?_, ?_⟩, ⟨?_, ?_⟩⟩ <;> linarith
      · simp; try ring
    · intro x hx h0
      obtain ⟨x, y, rfl⟩ := list2 hx.1
      rw [inCube2] at hx
      simp at h0
      refine ⟨[y], (inCube1 _).2 ⟨by linarith, by linarith⟩, ?_⟩
      cube_simp hv hg; (constructor <;> linarith)

theorem goodCube3 : ∃ faces, facesForShape (.hypercube 3) = .ok faces ∧ faces.length = 6 ∧
    faces.Pairwise (fun f g => ∃ v ∈ f.volumeVertexIndices, v ∉ g.volumeVertexIndices) ∧
    ∀ f ∈ faces, GoodCubeFace 3 f := by
  obtain ⟨v, hok, hv, hg⟩ := C11_hypercube_bits 3 (by omega)
  refine ⟨_, facesForHypercube_ok rfl hok rfl, rfl, by simp, ?_⟩
  intro f hf
  simp only [List.zipIdx, List.map_cons, List.map_nil, List.mem_cons, List.not_mem_nil, or_false] at hf
  rcases hf with rfl | rfl | rfl | rfl | rfl | rfl
  · refine ⟨rfl, rfl, rfl, by simp, ?_, 2, by simp, -1, by simp, ?_, ?_, ?_⟩
    · intro k hk
      simp only [Nat.reduceSub, Nat.reducePow] at hk
      interval_cases k <;> cube_simp hv hg <;> norm_num
    · intro p q hp hq h
      obtain ⟨a, b, rfl⟩ := list2 hp
      obtain ⟨a', b', rfl⟩ := list2 hq
      revert h; cube_simp hv hg
      try (norm_num <;> intros <;> first | linarith | (constructor <;> linarith))
    · intro p hp
      obtain ⟨a, b, rfl⟩ := list2 hp.1
      rw [inCube2] at hp
      refine ⟨[_, _, _], by cube_simp hv hg; exact ⟨rfl, rfl, rfl⟩, (inCube3 _ _ _).2 ?_, ?_⟩
      · refine ⟨⟨?_, ?_⟩, ⟨?_, ?_⟩, ⟨?_, ?_⟩⟩ <;> linarith
      · simp; try ring
    · intro x hx h0
      obtain ⟨x, y, z, rfl⟩ := list3 hx.1
      rw [inCube3] at hx
      simp at h0
      refine ⟨[y, x], (inCube2 _ _).2 ⟨⟨by linarith, by linarith⟩, ⟨by linarith, by linarith⟩⟩, ?_⟩
      cube_simp hv hg; refine ⟨?_, ?_, ?_⟩ <;> linarith
  · refine ⟨rfl, rfl, rfl, by simp, ?_, 2, by simp, 1, by simp, ?_, ?_, ?_⟩
    · intro k hk
      simp only [Nat.reduceSub, Nat.reducePow] at hk
      interval_cases k <;> cube_simp hv hg <;> norm_num
    · intro p q hp hq h
      obtain ⟨a, b, rfl⟩ := list2 hp
      obtain ⟨a', b', rfl⟩ := list2 hq
      revert h; cube_simp hv hg
      try (norm_num <;> intros <;> first | linarith | (constructor <;> linarith))
    · intro p hp
      obtain ⟨a, b, rfl⟩ := list2 hp.1
      rw [inCube2] at hp
      refine ⟨[_, _, _], by cube_simp hv hg; exact ⟨rfl, rfl, rfl⟩, (inCube3 _ _ _).2 ?_, ?_⟩
      · refine ⟨⟨?_, ?_⟩, ⟨?_, ?_⟩, ⟨?_, ?_⟩⟩ <;> linarith
      · simp; try ring
    · intro x hx h0
      obtain ⟨x, y, z, rfl⟩ := list3 hx.1
      rw [inCube3] at hx
      simp at h0
      refine ⟨[x, y], (inCube2 _ _).2 ⟨⟨by linarith, by linarith⟩, ⟨by linarith, by linarith⟩⟩, ?_⟩
      cube_simp hv hg; refine ⟨?_, ?_, ?_⟩ <;> linarith
  · refine ⟨rfl, rfl, rfl, by simp, ?_, 0, by simp, -1, by simp, ?_, ?_, ?_⟩
    · intro k hk
      simp only [Nat.reduceSub, Nat.reducePow] at hk
      interval_cases k <;> cube_simp hv hg <;> norm_num
    · intro p q hp hq h
      obtain ⟨a, b, rfl⟩ := list2 hp
      obtain ⟨a', b', rfl⟩ := list2 hq
      revert h; cube_simp hv hg
      try (norm_num <;> intros <;> first | linarith | (constructor <;> linarith))
    · intro p hp
      obtain ⟨a, b, rfl⟩ := list2 hp.1
      rw [inCube2] at hp
      refine ⟨[_, _, _], by cube_simp hv hg; exact ⟨rfl, rfl, rfl⟩, (inCube3 _ _ _).2 ?_, ?_⟩
      · refine ⟨⟨?_, ?_⟩, ⟨?_, ?_⟩, ⟨?_, ?_⟩⟩ <;> linarith
      · simp; try ring
    · intro x hx h0
      obtain ⟨x, y, z, rfl⟩ := list3 hx.1
      rw [inCube3] at hx
      simp at h0
      refine ⟨[z, y], (inCube2 _ _).2 ⟨⟨by linarith, by linarith⟩, ⟨by linarith, by linarith⟩⟩, ?_⟩
      cube_simp hv hg; refine ⟨?_, ?_, ?_⟩ <;> linarith
  · refine ⟨rfl, rfl, rfl, by simp, ?_, 0, by simp, 1, by simp, ?_, ?_, ?_⟩
    · intro k hk
      simp only [Nat.reduceSub, Nat.reducePow] at hk
      interval_cases k <;> cube_simp hv hg <;> norm_num
    · intro p q hp hq h
      obtain ⟨a, b, rfl⟩ := list2 hp
      obtain ⟨a', b', rfl⟩ := list2 hq
      revert h; cube_simp hv hg
      try (norm_num <;> intros <;> first | linarith | (constructor <;> linarith))
    · intro p hp
      obtain ⟨a, b, rfl⟩ := list2 hp.1
      rw [inCube2] at hp
      refine ⟨[_, _, _], by cube_simp hv hg; exact ⟨rfl, rfl, rfl⟩, (inCube3 _ _ _).2 ?_, ?_⟩
      · refine ⟨⟨?_, ?_⟩, ⟨?_, ?_⟩, ⟨?_, ?_⟩⟩ <;> linarith
      · simp; try ring
    · intro x hx h0
      obtain ⟨x, y, z, rfl⟩ := list3 hx.1
      rw [inCube3] at hx
      simp at h0
      refine ⟨[y, z], (inCube2 _ _).2 ⟨⟨by linarith, by linarith⟩, ⟨by linarith, by linarith⟩⟩, ?_⟩
      cube_simp hv hg; refine ⟨?_, ?_, ?_⟩ <;> linarith
  · refine ⟨rfl, rfl, rfl, by simp, ?_, 1, by simp, -1, by simp, ?_, ?_, ?_⟩
    · intro k hk
      simp only [Nat.reduceSub, Nat.reducePow] at hk
      interval_cases k <;> cube_simp hv hg <;> norm_num
    · intro p q hp hq h
      obtain ⟨a, b, rfl⟩ := list2 hp
      obtain ⟨a', b', rfl⟩ := list2 hq
      revert h; cube_simp hv hg
      try (norm_num <;> intros <;> first | linarith | (constructor <;> linarith))
    · intro p hp
      obtain ⟨a, b, rfl⟩ := list2 hp.1
      rw [inCube2] at hp
      refine ⟨[_, _, _], by cube_simp hv hg; exact ⟨rfl, rfl, rfl⟩, (inCube3 _ _ _).2 ?_, ?_⟩
      · refine ⟨⟨?_, ?_⟩, ⟨?_, ?_⟩, ⟨?_, ?_⟩⟩ <;> linarith
      · simp; try ring
    · intro x hx h0
      obtain ⟨x, y, z, rfl⟩ := list3 hx.1
      rw [inCube3] at hx
      simp at h0
      refine ⟨[x, z], (inCube2 _ _).2 ⟨⟨by linarith, by linarith⟩, ⟨by linarith, by linarith⟩⟩, ?_⟩
      cube_simp hv hg; refine ⟨?_, ?_, ?_⟩ <;> linarith
  · refine ⟨rfl, rfl, rfl, by simp, ?_, 1, by simp, 1, by simp, ?_, ?_, ?_⟩
    · intro k hk
      simp only [Nat.reduceSub, Nat.reducePow] at hk
      interval_cases k <;> cube_simp hv hg <;> norm_num
    · intro p q hp hq h
      obtain ⟨a, b, rfl⟩ := list2 hp
      obtain ⟨a', b', rfl⟩ := list2 hq
      revert h; cube_simp hv hg
      try (norm_num <;> intros <;> first | linarith | (constructor <;> linarith))
    · intro p hp
      obtain ⟨a, b, rfl⟩ := list2 hp.1
      rw [inCube2] at hp
      refine ⟨[_, _, _], by cube_simp hv hg; exact ⟨rfl, rfl, rfl⟩, (inCube3 _ _ _).2 ?_, ?_⟩
      · refine ⟨⟨?_, ?_⟩, ⟨?_, ?_⟩, ⟨?_, ?_⟩⟩ <;> linarith
      · simp; try ring
    · intro x hx h0
      obtain ⟨x, y, z, rfl⟩ := list3 hx.1
      rw [inCube3] at hx
      simp at h0
      refine ⟨[z, x], (inCube2 _ _).2 ⟨⟨by linarith, by linarith⟩, ⟨by linarith, by linarith⟩⟩, ?_⟩
      cube_simp hv hg; refine ⟨?_, ?_, ?_⟩ <;> linarith

macro "face_simp_at" h:ident : tactic => `(tactic|
  simp [simplexFaceToVolMap, affineFaceMap, selectColumns, Shape.unitVerticesSimplex,
    rows, ncols, List.range_succ] at $h:ident)
macro "cube_simp_at" hv:ident hg:ident h:ident : tactic => `(tactic|
  simp [hypercubeFaceToVolMap, affineFaceMap, selectColumns, rows, ncols, List.range_succ,
    $hv:ident, $hg:ident, Nat.testBit, Nat.shiftRight_eq_div_pow] at $h:ident)

/-! ## C08, C09 -/

/-- **C08.**  For `Simplex(d)`, `d = 1, 2, 3`, `faces_for_shape` returns `nfaces` faces with pairwise
different vertex sets, each of them as in `GoodSimplexFace`. -/
theorem C08_simplex_faces (d : Nat) (h1 : 1 ≤ d) (h3 : d ≤ 3) :
    ∃ faces, facesForShape (.simplex d) = .ok faces ∧
      Shape.nfaces (.simplex d) = .ok faces.length ∧
      faces.Pairwise (fun f g => ∃ v ∈ f.volumeVertexIndices, v ∉ g.volumeVertexIndices) ∧
      ∀ f ∈ faces, GoodSimplexFace d f := by
  interval_cases d
  · obtain ⟨faces, h, hl, hp, hg⟩ := good1
    exact ⟨faces, h, by rw [hl]; rfl, hp, hg⟩
  · obtain ⟨faces, h, hl, hp, hg⟩ := good2
    exact ⟨faces, h, by rw [hl]; rfl, hp, hg⟩
  · obtain ⟨faces, h, hl, hp, hg⟩ := good3
    exact ⟨faces, h, by rw [hl]; rfl, hp, hg⟩

/-- Outside dimensions 1-3 `faces_for_shape` of a simplex raises. -/
theorem C08_simplex_other (d : Nat) (h : d < 1 ∨ 3 < d) :
    facesForShape (.simplex d) = .error .KeyError := by
  match d, h with
  | 0, _ => rfl
  | d + 4, _ => rfl
  | 1, h => omega
  | 2, h => omega
  | 3, h => omega

/-- The opposite vertex of a face is unique and every vertex is opposite to exactly one face: the
vertex sets of the faces are all the `d`-element subsets of the vertices. -/
theorem C08_all_facets (d : Nat) (h1 : 1 ≤ d) (h3 : d ≤ 3) (m : Nat) (hm : m ≤ d) :
    ∃ faces, facesForShape (.simplex d) = .ok faces ∧
      ∃ f ∈ faces, ∀ v ≤ d, v ∈ f.volumeVertexIndices ↔ v ≠ m := by
  interval_cases d
  · refine ⟨_, rfl, ?_⟩
    simp only [List.zipIdx, List.map_cons, List.map_nil, List.mem_cons, List.not_mem_nil, or_false,
      exists_eq_or_imp, exists_eq_left]
    interval_cases m <;> decide
  · refine ⟨_, rfl, ?_⟩
    simp only [List.zipIdx, List.map_cons, List.map_nil, List.mem_cons, List.not_mem_nil, or_false,
      exists_eq_or_imp, exists_eq_left]
    interval_cases m <;> decide
  · refine ⟨_, rfl, ?_⟩
    simp only [List.zipIdx, List.map_cons, List.map_nil, List.mem_cons, List.not_mem_nil, or_false,
      exists_eq_or_imp, exists_eq_left]
    interval_cases m <;> decide

/-- **C09.**  For the square and the cube, `faces_for_shape` returns `nfaces` faces with pairwise
different vertex sets, each of them as in `GoodCubeFace`. -/
theorem C09_hypercube_faces (d : Nat) (h2 : 2 ≤ d) (h3 : d ≤ 3) :
    ∃ faces, facesForShape (.hypercube d) = .ok faces ∧
      Shape.nfaces (.hypercube d) = .ok faces.length ∧
      faces.Pairwise (fun f g => ∃ v ∈ f.volumeVertexIndices, v ∉ g.volumeVertexIndices) ∧
      ∀ f ∈ faces, GoodCubeFace d f := by
  interval_cases d
  · obtain ⟨faces, h, hl, hp, hg⟩ := goodCube2
    exact ⟨faces, h, by rw [hl]; rfl, hp, hg⟩
  · obtain ⟨faces, h, hl, hp, hg⟩ := goodCube3
    exact ⟨faces, h, by rw [hl]; rfl, hp, hg⟩

/-- Every facet `x_i = s` of the square/cube is the image of some returned face (so the `2d` faces
are exactly the `2d` facets). -/
theorem C09_all_facets (d : Nat) (h2 : 2 ≤ d) (h3 : d ≤ 3) (i : Nat) (hi : i < d) (s : Bool) :
    ∃ faces, facesForShape (.hypercube d) = .ok faces ∧
      ∃ f ∈ faces, ∀ v < 2 ^ d, v ∈ f.volumeVertexIndices ↔ v.testBit i = s := by
  obtain ⟨v, hok, hv, hg⟩ := C11_hypercube_bits d (by omega)
  interval_cases d
  · refine ⟨_, facesForHypercube_ok rfl hok rfl, ?_⟩
    simp only [List.zipIdx, List.map_cons, List.map_nil, List.mem_cons, List.not_mem_nil, or_false,
      exists_eq_or_imp, exists_eq_left]
    interval_cases i <;> cases s <;> decide
  · refine ⟨_, facesForHypercube_ok rfl hok rfl, ?_⟩
    simp only [List.zipIdx, List.map_cons, List.map_nil, List.mem_cons, List.not_mem_nil, or_false,
      exists_eq_or_imp, exists_eq_left]
    interval_cases i <;> cases s <;> decide

/-- Products that are neither simplices nor hypercubes have no faces implementation. -/
theorem C09_other_products (bases : List Nat) :
    facesForShape (.tp bases) = .error .NotImplementedError := rfl

/-! ## C10: normals -/

/-- `x` is a point of the face `f` (in volume coordinates). -/
def OnFace (f : Face) (x : List ℝ) : Prop := ∃ p, InShape f.shape p ∧ f.mapToVolume p = .ok x

/-- What C10 says about one face: `face_normal` returns a vector of the volume's dimension which has
positive product with every vector from an interior point to a face point, is orthogonal to the
face, and has length one if `normalize` is set. -/
def GoodNormal (interior : List ℝ → Prop) (f : Face) : Prop :=
  ∀ normalize : Bool, ∃ n, faceNormal f normalize = .ok n ∧ n.length = f.volumeShape.dim ∧
    (∀ x y, OnFace f x → interior y → 0 < dot n (diff x y)) ∧
    (∀ x x', OnFace f x → OnFace f x' → dot n (diff x x') = 0) ∧
    (normalize = true → dot n n = 1)

theorem nrm_pos {S : ℝ} (hS : 0 < S) (nz : Bool) :
    0 < (if nz = true then Real.sqrt S else 1) := by
  cases nz <;> simp [hS]

theorem goodNormal2 {interior : List ℝ → Prop} {f : Face} {verts : NdArray Int}
    (hv : Shape.unitVertices f.volumeShape = .ok verts) (hd : f.shape.dim = 1)
    (hvd : f.volumeShape.dim = 2) {fv : NdArray ℝ}
    (hfv : selectColumns verts f.volumeVertexIndices = fv) (a b c : ℝ)
    (ha : fv.get [0, 1] - fv.get [0, 0] = a) (hb : fv.get [1, 1] - fv.get [1, 0] = b)
    (hab : 0 < a ^ 2 + b ^ 2)
    (hon : ∀ x, OnFace f x → ∃ x0 x1, x = [x0, x1] ∧ b * x0 - a * x1 = c)
    (hin : ∀ y, interior y → ∃ y0 y1, y = [y0, y1] ∧ b * y0 - a * y1 < c) :
    GoodNormal interior f := by
  intro nz
  have hn := nrm_pos hab nz
  set nrm : ℝ := if nz = true then Real.sqrt (a ^ 2 + b ^ 2) else 1 with hnrm
  have hfn : faceNormal f nz = .ok [b / nrm, -(a / nrm)] := by
    simp only [faceNormal, hv, hd, hfv, ha, hb, hnrm]
  refine ⟨_, hfn, by simp [hvd], ?_, ?_, ?_⟩
  · intro x y hx hy
    obtain ⟨x0, x1, rfl, h0⟩ := hon x hx
    obtain ⟨y0, y1, rfl, h1⟩ := hin y hy
    have : dot [b / nrm, -(a / nrm)] (diff [x0, x1] [y0, y1])
        = (b * x0 - a * x1 - (b * y0 - a * y1)) / nrm := by
      simp [dot, diff]; ring
    rw [this]; apply div_pos _ hn; linarith
  · intro x y hx hy
    obtain ⟨x0, x1, rfl, h0⟩ := hon x hx
    obtain ⟨y0, y1, rfl, h1⟩ := hon y hy
    have : dot [b / nrm, -(a / nrm)] (diff [x0, x1] [y0, y1])
        = (b * x0 - a * x1 - (b * y0 - a * y1)) / nrm := by
      simp [dot, diff]; ring
    rw [this, h0, h1]; simp
  · intro hz
    have h2 : nrm ^ 2 = a ^ 2 + b ^ 2 := by
      rw [hnrm, if_pos hz, Real.sq_sqrt hab.le]
    have : dot [b / nrm, -(a / nrm)] [b / nrm, -(a / nrm)] = (a ^ 2 + b ^ 2) / nrm ^ 2 := by
      simp [dot]; ring
    rw [this, h2, div_self hab.ne']

theorem goodNormal3 {interior : List ℝ → Prop} {f : Face} {verts : NdArray Int}
    (hv : Shape.unitVertices f.volumeShape = .ok verts) (hd : f.shape.dim = 2)
    (hvd : f.volumeShape.dim = 3) {fv : NdArray ℝ}
    (hfv : selectColumns verts f.volumeVertexIndices = fv) (n0 n1 n2 c : ℝ)
    (h0 : (fv.get [1, 1] - fv.get [1, 0]) * (fv.get [2, 2] - fv.get [2, 0]) -
      (fv.get [2, 1] - fv.get [2, 0]) * (fv.get [1, 2] - fv.get [1, 0]) = n0)
    (h1 : (fv.get [2, 1] - fv.get [2, 0]) * (fv.get [0, 2] - fv.get [0, 0]) -
      (fv.get [0, 1] - fv.get [0, 0]) * (fv.get [2, 2] - fv.get [2, 0]) = n1)
    (h2 : (fv.get [0, 1] - fv.get [0, 0]) * (fv.get [1, 2] - fv.get [1, 0]) -
      (fv.get [1, 1] - fv.get [1, 0]) * (fv.get [0, 2] - fv.get [0, 0]) = n2)
    (hab : 0 < n0 ^ 2 + n1 ^ 2 + n2 ^ 2)
    (hon : ∀ x, OnFace f x → ∃ x0 x1 x2, x = [x0, x1, x2] ∧ n0 * x0 + n1 * x1 + n2 * x2 = c)
    (hin : ∀ y, interior y → ∃ y0 y1 y2, y = [y0, y1, y2] ∧ n0 * y0 + n1 * y1 + n2 * y2 < c) :
    GoodNormal interior f := by
  intro nz
  have hn := nrm_pos hab nz
  set nrm : ℝ := if nz = true then Real.sqrt (n0 ^ 2 + n1 ^ 2 + n2 ^ 2) else 1 with hnrm
  have hfn : faceNormal f nz = .ok [n0 / nrm, n1 / nrm, n2 / nrm] := by
    simp only [faceNormal, hv, hd, hfv, h0, h1, h2, hnrm]
  refine ⟨_, hfn, by simp [hvd], ?_, ?_, ?_⟩
  · intro x y hx hy
    obtain ⟨x0, x1, x2, rfl, hx0⟩ := hon x hx
    obtain ⟨y0, y1, y2, rfl, hy0⟩ := hin y hy
    have : dot [n0 / nrm, n1 / nrm, n2 / nrm] (diff [x0, x1, x2] [y0, y1, y2])
        = (n0 * x0 + n1 * x1 + n2 * x2 - (n0 * y0 + n1 * y1 + n2 * y2)) / nrm := by
      simp [dot, diff]; ring
    rw [this]; apply div_pos _ hn; linarith
  · intro x y hx hy
    obtain ⟨x0, x1, x2, rfl, hx0⟩ := hon x hx
    obtain ⟨y0, y1, y2, rfl, hy0⟩ := hon y hy
    have : dot [n0 / nrm, n1 / nrm, n2 / nrm] (diff [x0, x1, x2] [y0, y1, y2])
        = (n0 * x0 + n1 * x1 + n2 * x2 - (n0 * y0 + n1 * y1 + n2 * y2)) / nrm := by
      simp [dot, diff]; ring
    rw [this, hx0, hy0]; simp
  · intro hz
    have h2 : nrm ^ 2 = n0 ^ 2 + n1 ^ 2 + n2 ^ 2 := by
      rw [hnrm, if_pos hz, Real.sq_sqrt hab.le]
    have : dot [n0 / nrm, n1 / nrm, n2 / nrm] [n0 / nrm, n1 / nrm, n2 / nrm]
        = (n0 ^ 2 + n1 ^ 2 + n2 ^ 2) / nrm ^ 2 := by
      simp [dot]; ring
    rw [this, h2, div_self hab.ne']

theorem inInt1 {y : List ℝ} (h : InSimplexInterior 1 y) : ∃ a, y = [a] ∧ -1 < a ∧ a < 1 := by
  obtain ⟨a, rfl⟩ := list1 h.1
  have h0 := h.2 0 (by omega); have h1 := h.2 1 (by omega)
  simp [bary] at h0 h1
  exact ⟨a, rfl, by linarith, by linarith⟩

theorem inInt2 {y : List ℝ} (h : InSimplexInterior 2 y) :
    ∃ a b, y = [a, b] ∧ -1 < a ∧ -1 < b ∧ a + b < 0 := by
  obtain ⟨a, b, rfl⟩ := list2 h.1
  have h0 := h.2 0 (by omega); have h1 := h.2 1 (by omega); have h2 := h.2 2 (by omega)
  simp [bary] at h0 h1 h2
  exact ⟨a, b, rfl, by linarith, by linarith, by linarith⟩

theorem inInt3 {y : List ℝ} (h : InSimplexInterior 3 y) :
    ∃ a b c, y = [a, b, c] ∧ -1 < a ∧ -1 < b ∧ -1 < c ∧ a + b + c < -1 := by
  obtain ⟨a, b, c, rfl⟩ := list3 h.1
  have h0 := h.2 0 (by omega); have h1 := h.2 1 (by omega); have h2 := h.2 2 (by omega)
  have h3 := h.2 3 (by omega)
  simp [bary] at h0 h1 h2 h3
  exact ⟨a, b, c, rfl, by linarith, by linarith, by linarith, by linarith⟩

theorem inCubeInt2 {y : List ℝ} (h : InCubeInterior 2 y) :
    ∃ a b, y = [a, b] ∧ -1 < a ∧ a < 1 ∧ -1 < b ∧ b < 1 := by
  obtain ⟨a, b, rfl⟩ := list2 h.1
  have := h.2
  simp at this
  exact ⟨a, b, rfl, this.1.1, this.1.2, this.2.1, this.2.2⟩

theorem inCubeInt3 {y : List ℝ} (h : InCubeInterior 3 y) :
    ∃ a b c, y = [a, b, c] ∧ -1 < a ∧ a < 1 ∧ -1 < b ∧ b < 1 ∧ -1 < c ∧ c < 1 := by
  obtain ⟨a, b, c, rfl⟩ := list3 h.1
  have := h.2
  simp at this
  exact ⟨a, b, c, rfl, this.1.1, this.1.2, this.2.1.1, this.2.1.2, this.2.2.1, this.2.2.2⟩

/-- **C10 (simplices).**  Normals of the faces of `Simplex(d)`, `d = 1, 2, 3`. -/
theorem C10_simplex_normals (d : Nat) (h1 : 1 ≤ d) (h3 : d ≤ 3) :
    ∃ faces, facesForShape (.simplex d) = .ok faces ∧
      ∀ f ∈ faces, GoodNormal (InSimplexInterior d) f := by
  interval_cases d
  · refine ⟨_, rfl, ?_⟩
    intro f hf
    simp only [List.zipIdx, List.map_cons, List.map_nil, List.mem_cons, List.not_mem_nil,
      or_false] at hf
    rcases hf with rfl | rfl
    · intro nz
      refine ⟨[-1], ?_, rfl, ?_, ?_, ?_⟩
      · simp [faceNormal, Shape.dim, Shape.unitVertices, selectColumns, Shape.unitVerticesSimplex, Real.sign_neg]
      · rintro x y ⟨p, hp, hx⟩ hy
        obtain ⟨a, rfl, h1, h2⟩ := inInt1 hy
        have hp : p = [] := (inSimplex0 p).1 hp
        subst hp
        revert hx; face_simp
        intro hx; subst hx
        simp [dot, diff]; linarith
      · rintro x y ⟨p, hp, hx⟩ ⟨q, hq, hy⟩
        have hp : p = [] := (inSimplex0 p).1 hp
        have hq : q = [] := (inSimplex0 q).1 hq
        subst hp hq
        rw [hx] at hy; cases hy
        revert hx; face_simp
        intro hx; subst hx
        simp [dot, diff]
      · simp [dot]
    · intro nz
      refine ⟨[1], ?_, rfl, ?_, ?_, ?_⟩
      · simp [faceNormal, Shape.dim, Shape.unitVertices, selectColumns, Shape.unitVerticesSimplex]
      · rintro x y ⟨p, hp, hx⟩ hy
        obtain ⟨a, rfl, h1, h2⟩ := inInt1 hy
        have hp : p = [] := (inSimplex0 p).1 hp
        subst hp
        revert hx; face_simp
        intro hx; subst hx
        simp [dot, diff]; linarith
      · rintro x y ⟨p, hp, hx⟩ ⟨q, hq, hy⟩
        have hp : p = [] := (inSimplex0 p).1 hp
        have hq : q = [] := (inSimplex0 q).1 hq
        subst hp hq
        rw [hx] at hy; cases hy
        revert hx; face_simp
        intro hx; subst hx
        simp [dot, diff]
      · simp [dot]
  · refine ⟨_, rfl, ?_⟩
    intro f hf
    simp only [List.zipIdx, List.map_cons, List.map_nil, List.mem_cons, List.not_mem_nil,
      or_false] at hf
    rcases hf with rfl | rfl | rfl
    · refine goodNormal2 rfl rfl rfl rfl (2) (0) (2) (by simp [selectColumns, Shape.unitVerticesSimplex] <;> norm_num)
        (by simp [selectColumns, Shape.unitVerticesSimplex] <;> norm_num) (by norm_num) ?_ ?_
      · rintro x ⟨p, hp, hx⟩
        obtain ⟨a, rfl⟩ := list1 hp.1
        face_simp_at hx
        subst hx
        exact ⟨_, _, rfl, by ring⟩
      · intro y hy
        obtain ⟨a, b, rfl, h1, h2, h3⟩ := inInt2 hy
        exact ⟨_, _, rfl, by linarith⟩
    · refine goodNormal2 rfl rfl rfl rfl (0) (-2) (2) (by simp [selectColumns, Shape.unitVerticesSimplex] <;> norm_num)
        (by simp [selectColumns, Shape.unitVerticesSimplex] <;> norm_num) (by norm_num) ?_ ?_
      · rintro x ⟨p, hp, hx⟩
        obtain ⟨a, rfl⟩ := list1 hp.1
        face_simp_at hx
        subst hx
        exact ⟨_, _, rfl, by ring⟩
      · intro y hy
        obtain ⟨a, b, rfl, h1, h2, h3⟩ := inInt2 hy
        exact ⟨_, _, rfl, by linarith⟩
    · refine goodNormal2 rfl rfl rfl rfl (-2) (2) (0) (by simp [selectColumns, Shape.unitVerticesSimplex] <;> norm_num)
        (by simp [selectColumns, Shape.unitVerticesSimplex] <;> norm_num) (by norm_num) ?_ ?_
      · rintro x ⟨p, hp, hx⟩
        obtain ⟨a, rfl⟩ := list1 hp.1
        face_simp_at hx
        subst hx
        exact ⟨_, _, rfl, by ring⟩
      · intro y hy
        obtain ⟨a, b, rfl, h1, h2, h3⟩ := inInt2 hy
        exact ⟨_, _, rfl, by linarith⟩
  · refine ⟨_, rfl, ?_⟩
    intro f hf
    simp only [List.zipIdx, List.map_cons, List.map_nil, List.mem_cons, List.not_mem_nil,
      or_false] at hf
    rcases hf with rfl | rfl | rfl | rfl
    · refine goodNormal3 rfl rfl rfl rfl (0) (0) (-4) (4)
        (by simp [selectColumns, Shape.unitVerticesSimplex] <;> norm_num)
        (by simp [selectColumns, Shape.unitVerticesSimplex] <;> norm_num)
        (by simp [selectColumns, Shape.unitVerticesSimplex] <;> norm_num) (by norm_num) ?_ ?_
      · rintro x ⟨p, hp, hx⟩
        obtain ⟨a, b, rfl⟩ := list2 hp.1
        face_simp_at hx
        subst hx
        exact ⟨_, _, _, rfl, by ring⟩
      · intro y hy
        obtain ⟨a, b, c, rfl, h1, h2, h3, h4⟩ := inInt3 hy
        exact ⟨_, _, _, rfl, by linarith⟩
    · refine goodNormal3 rfl rfl rfl rfl (0) (-4) (0) (4)
        (by simp [selectColumns, Shape.unitVerticesSimplex] <;> norm_num)
        (by simp [selectColumns, Shape.unitVerticesSimplex] <;> norm_num)
        (by simp [selectColumns, Shape.unitVerticesSimplex] <;> norm_num) (by norm_num) ?_ ?_
      · rintro x ⟨p, hp, hx⟩
        obtain ⟨a, b, rfl⟩ := list2 hp.1
        face_simp_at hx
        subst hx
        exact ⟨_, _, _, rfl, by ring⟩
      · intro y hy
        obtain ⟨a, b, c, rfl, h1, h2, h3, h4⟩ := inInt3 hy
        exact ⟨_, _, _, rfl, by linarith⟩
    · refine goodNormal3 rfl rfl rfl rfl (-4) (0) (0) (4)
        (by simp [selectColumns, Shape.unitVerticesSimplex] <;> norm_num)
        (by simp [selectColumns, Shape.unitVerticesSimplex] <;> norm_num)
        (by simp [selectColumns, Shape.unitVerticesSimplex] <;> norm_num) (by norm_num) ?_ ?_
      · rintro x ⟨p, hp, hx⟩
        obtain ⟨a, b, rfl⟩ := list2 hp.1
        face_simp_at hx
        subst hx
        exact ⟨_, _, _, rfl, by ring⟩
      · intro y hy
        obtain ⟨a, b, c, rfl, h1, h2, h3, h4⟩ := inInt3 hy
        exact ⟨_, _, _, rfl, by linarith⟩
    · refine goodNormal3 rfl rfl rfl rfl (4) (4) (4) (-4)
        (by simp [selectColumns, Shape.unitVerticesSimplex] <;> norm_num)
        (by simp [selectColumns, Shape.unitVerticesSimplex] <;> norm_num)
        (by simp [selectColumns, Shape.unitVerticesSimplex] <;> norm_num) (by norm_num) ?_ ?_
      · rintro x ⟨p, hp, hx⟩
        obtain ⟨a, b, rfl⟩ := list2 hp.1
        face_simp_at hx
        subst hx
        exact ⟨_, _, _, rfl, by ring⟩
      · intro y hy
        obtain ⟨a, b, c, rfl, h1, h2, h3, h4⟩ := inInt3 hy
        exact ⟨_, _, _, rfl, by linarith⟩

/-- **C10 (square and cube).** -/
theorem C10_hypercube_normals (d : Nat) (h2 : 2 ≤ d) (h3 : d ≤ 3) :
    ∃ faces, facesForShape (.hypercube d) = .ok faces ∧
      ∀ f ∈ faces, GoodNormal (InCubeInterior d) f := by
  obtain ⟨v, hok, hv, hg⟩ := C11_hypercube_bits d (by omega)
  interval_cases d
  · refine ⟨_, facesForHypercube_ok rfl hok rfl, ?_⟩
    intro f hf
    simp only [List.zipIdx, List.map_cons, List.map_nil, List.mem_cons, List.not_mem_nil,
      or_false] at hf
    rcases hf with rfl | rfl | rfl | rfl
    · refine goodNormal2 hok rfl rfl rfl (2) (0) (2) (by simp [selectColumns, hg, Nat.testBit] <;> norm_num)
        (by simp [selectColumns, hg, Nat.testBit] <;> norm_num) (by norm_num) ?_ ?_
      · rintro x ⟨p, hp, hx⟩
        obtain ⟨a, rfl⟩ := list1 hp.1
        cube_simp_at hv hg hx
        subst hx
        exact ⟨_, _, rfl, by ring⟩
      · intro y hy
        obtain ⟨a, b, rfl, h1, h2, h3, h4⟩ := inCubeInt2 hy
        exact ⟨_, _, rfl, by linarith⟩
    · refine goodNormal2 hok rfl rfl rfl (-2) (0) (2) (by simp [selectColumns, hg, Nat.testBit] <;> norm_num)
        (by simp [selectColumns, hg, Nat.testBit] <;> norm_num) (by norm_num) ?_ ?_
      · rintro x ⟨p, hp, hx⟩
        obtain ⟨a, rfl⟩ := list1 hp.1
        cube_simp_at hv hg hx
        subst hx
        exact ⟨_, _, rfl, by ring⟩
      · intro y hy
        obtain ⟨a, b, rfl, h1, h2, h3, h4⟩ := inCubeInt2 hy
        exact ⟨_, _, rfl, by linarith⟩
    · refine goodNormal2 hok rfl rfl rfl (0) (-2) (2) (by simp [selectColumns, hg, Nat.testBit] <;> norm_num)
        (by simp [selectColumns, hg, Nat.testBit] <;> norm_num) (by norm_num) ?_ ?_
      · rintro x ⟨p, hp, hx⟩
        obtain ⟨a, rfl⟩ := list1 hp.1
        cube_simp_at hv hg hx
        subst hx
        exact ⟨_, _, rfl, by ring⟩
      · intro y hy
        obtain ⟨a, b, rfl, h1, h2, h3, h4⟩ := inCubeInt2 hy
        exact ⟨_, _, rfl, by linarith⟩
    · refine goodNormal2 hok rfl rfl rfl (0) (2) (2) (by simp [selectColumns, hg, Nat.testBit] <;> norm_num)
        (by simp [selectColumns, hg, Nat.testBit] <;> norm_num) (by norm_num) ?_ ?_
      · rintro x ⟨p, hp, hx⟩
        obtain ⟨a, rfl⟩ := list1 hp.1
        cube_simp_at hv hg hx
        subst hx
        exact ⟨_, _, rfl, by ring⟩
      · intro y hy
        obtain ⟨a, b, rfl, h1, h2, h3, h4⟩ := inCubeInt2 hy
        exact ⟨_, _, rfl, by linarith⟩
  · refine ⟨_, facesForHypercube_ok rfl hok rfl, ?_⟩
    intro f hf
    simp only [List.zipIdx, List.map_cons, List.map_nil, List.mem_cons, List.not_mem_nil,
      or_false] at hf
    rcases hf with rfl | rfl | rfl | rfl | rfl | rfl
    · refine goodNormal3 hok rfl rfl rfl (0) (0) (-4) (4)
        (by simp [selectColumns, hg, Nat.testBit, Nat.shiftRight_eq_div_pow] <;> norm_num)
        (by simp [selectColumns, hg, Nat.testBit, Nat.shiftRight_eq_div_pow] <;> norm_num)
        (by simp [selectColumns, hg, Nat.testBit, Nat.shiftRight_eq_div_pow] <;> norm_num) (by norm_num) ?_ ?_
      · rintro x ⟨p, hp, hx⟩
        obtain ⟨a, b, rfl⟩ := list2 hp.1
        cube_simp_at hv hg hx
        subst hx
        exact ⟨_, _, _, rfl, by ring⟩
      · intro y hy
        obtain ⟨a, b, c, rfl, h1, h2, h3, h4, h5, h6⟩ := inCubeInt3 hy
        exact ⟨_, _, _, rfl, by linarith⟩
    · refine goodNormal3 hok rfl rfl rfl (0) (0) (4) (4)
        (by simp [selectColumns, hg, Nat.testBit, Nat.shiftRight_eq_div_pow] <;> norm_num)
        (by simp [selectColumns, hg, Nat.testBit, Nat.shiftRight_eq_div_pow] <;> norm_num)
        (by simp [selectColumns, hg, Nat.testBit, Nat.shiftRight_eq_div_pow] <;> norm_num) (by norm_num) ?_ ?_
      · rintro x ⟨p, hp, hx⟩
        obtain ⟨a, b, rfl⟩ := list2 hp.1
        cube_simp_at hv hg hx
        subst hx
        exact ⟨_, _, _, rfl, by ring⟩
      · intro y hy
        obtain ⟨a, b, c, rfl, h1, h2, h3, h4, h5, h6⟩ := inCubeInt3 hy
        exact ⟨_, _, _, rfl, by linarith⟩
    · refine goodNormal3 hok rfl rfl rfl (-4) (0) (0) (4)
        (by simp [selectColumns, hg, Nat.testBit, Nat.shiftRight_eq_div_pow] <;> norm_num)
        (by simp [selectColumns, hg, Nat.testBit, Nat.shiftRight_eq_div_pow] <;> norm_num)
        (by simp [selectColumns, hg, Nat.testBit, Nat.shiftRight_eq_div_pow] <;> norm_num) (by norm_num) ?_ ?_
      · rintro x ⟨p, hp, hx⟩
        obtain ⟨a, b, rfl⟩ := list2 hp.1
        cube_simp_at hv hg hx
        subst hx
        exact ⟨_, _, _, rfl, by ring⟩
      · intro y hy
        obtain ⟨a, b, c, rfl, h1, h2, h3, h4, h5, h6⟩ := inCubeInt3 hy
        exact ⟨_, _, _, rfl, by linarith⟩
    · refine goodNormal3 hok rfl rfl rfl (4) (0) (0) (4)
        (by simp [selectColumns, hg, Nat.testBit, Nat.shiftRight_eq_div_pow] <;> norm_num)
        (by simp [selectColumns, hg, Nat.testBit, Nat.shiftRight_eq_div_pow] <;> norm_num)
        (by simp [selectColumns, hg, Nat.testBit, Nat.shiftRight_eq_div_pow] <;> norm_num) (by norm_num) ?_ ?_
      · rintro x ⟨p, hp, hx⟩
        obtain ⟨a, b, rfl⟩ := list2 hp.1
        cube_simp_at hv hg hx
        subst hx
        exact ⟨_, _, _, rfl, by ring⟩
      · intro y hy
        obtain ⟨a, b, c, rfl, h1, h2, h3, h4, h5, h6⟩ := inCubeInt3 hy
        exact ⟨_, _, _, rfl, by linarith⟩
    · refine goodNormal3 hok rfl rfl rfl (0) (-4) (0) (4)
        (by simp [selectColumns, hg, Nat.testBit, Nat.shiftRight_eq_div_pow] <;> norm_num)
        (by simp [selectColumns, hg, Nat.testBit, Nat.shiftRight_eq_div_pow] <;> norm_num)
        (by simp [selectColumns, hg, Nat.testBit, Nat.shiftRight_eq_div_pow] <;> norm_num) (by norm_num) ?_ ?_
      · rintro x ⟨p, hp, hx⟩
        obtain ⟨a, b, rfl⟩ := list2 hp.1
        cube_simp_at hv hg hx
        subst hx
        exact ⟨_, _, _, rfl, by ring⟩
      · intro y hy
        obtain ⟨a, b, c, rfl, h1, h2, h3, h4, h5, h6⟩ := inCubeInt3 hy
        exact ⟨_, _, _, rfl, by linarith⟩
    · refine goodNormal3 hok rfl rfl rfl (0) (4) (0) (4)
        (by simp [selectColumns, hg, Nat.testBit, Nat.shiftRight_eq_div_pow] <;> norm_num)
        (by simp [selectColumns, hg, Nat.testBit, Nat.shiftRight_eq_div_pow] <;> norm_num)
        (by simp [selectColumns, hg, Nat.testBit, Nat.shiftRight_eq_div_pow] <;> norm_num) (by norm_num) ?_ ?_
      · rintro x ⟨p, hp, hx⟩
        obtain ⟨a, b, rfl⟩ := list2 hp.1
        cube_simp_at hv hg hx
        subst hx
        exact ⟨_, _, _, rfl, by ring⟩
      · intro y hy
        obtain ⟨a, b, c, rfl, h1, h2, h3, h4, h5, h6⟩ := inCubeInt3 hy
        exact ⟨_, _, _, rfl, by linarith⟩

/-- The interior sets above are inhabited (the claims are not vacuous). -/
example : InSimplexInterior 3 [-3/4, -3/4, -3/4] := by
  refine ⟨rfl, fun m hm => ?_⟩
  interval_cases m <;> simp [bary] <;> norm_num
example : InCubeInterior 3 [0, 1/2, -1/2] := by
  refine ⟨rfl, ?_⟩
  intro c hc; simp at hc; rcases hc with rfl | rfl | rfl <;> norm_num

end Modepy

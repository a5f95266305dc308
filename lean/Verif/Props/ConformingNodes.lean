import Verif.Props.Divergence
import Verif.Props.EdgeClustered
import Verif.Props.Symmetry

/-!
# Property C94: node sets of neighbouring elements agree on shared faces

Two elements sharing a face see it through any two of their faces and with any matching of the vertices.  The nodes they put on
it are the same points.
-/

namespace Modepy
open Spec NdArray

/-- The point `x` is one of the columns of the array of nodes. -/
def Spec.IsNode (A : NdArray ℝ) (x : List ℝ) : Prop := ∃ k < A.shape.getD 1 0, x = column A (A.shape.getD 0 0) k

/-- A simplex of dimension `d` with nodes `A` meets another through the faces `f` and `g`: whenever the points `p` and `q` of the
reference face have the same barycentric coordinates up to the matching `σ` of the vertices, `p` is a node seen from the one
side if and only if `q` is a node seen from the other. -/
def Spec.SimplexConforming (d : Nat) (A : NdArray ℝ) (f g : Face) : Prop :=
  ∀ (σ : Equiv.Perm (Fin d)) (p q : List ℝ), p.length = f.shape.dim → q.length = g.shape.dim →
    (∀ j : Fin d, bary q j = bary p (σ j)) → (IsNode A (okOr [] (f.mapToVolume p)) ↔ IsNode A (okOr [] (g.mapToVolume q)))

theorem bary_zero_fin {d : Nat} {x : List ℝ} (hx : x.length = d) : bary x 0 = 1 - ∑ i : Fin d, bary x (i + 1) := by
  subst hx
  rw [bary, ← List.sum_ofFn]
  congr 2
  apply List.ext_getElem (by simp)
  intro i h1 h2
  simp [bary, List.getD_eq_getElem?_getD, show i < x.length by simpa using h1]

theorem eq_of_bary {d : Nat} {x y : List ℝ} (hx : x.length = d) (hy : y.length = d) (h : ∀ m : Fin (d + 1), bary x m = bary y m) : x = y := by
  apply List.ext_getElem (by omega)
  intro i h1 h2
  have := h ⟨i + 1, by omega⟩
  simp only [bary, List.getD_eq_getElem?_getD, List.getElem?_eq_getElem h1, List.getElem?_eq_getElem h2, Option.getD_some] at this
  linarith

/-- The face map in barycentric coordinates. -/
structure FaceBary (d : Nat) (f : Face) (ι : Fin d → Fin (d + 1)) : Prop where
  shape : f.shape = .simplex (d - 1)
  inj : Function.Injective ι
  map : ∀ p : List ℝ, p.length = d - 1 → ∃ x, f.mapToVolume p = .ok x ∧ x.length = d ∧ (∀ j, bary x (ι j) = bary p j) ∧
    ∀ m : Fin (d + 1), (∀ j, ι j ≠ m) → bary x m = 0

theorem faceBary (d : Nat) (faces : List Face) (hf : facesForShape (.simplex d) = .ok faces) (f : Face) (hm : f ∈ faces) :
    ∃ ι, FaceBary d f ι := by
  have hd : 1 ≤ d ∧ d ≤ 3 := by
    by_contra h
    rw [C08_simplex_other d (by omega)] at hf
    simp at hf
  obtain ⟨h1, h3⟩ := hd
  interval_cases d
  · obtain ⟨f0, f1, h, a0, a1⟩ := faces_simplex_one
    obtain rfl := Except.ok.inj (hf.symm.trans h)
    simp only [List.mem_cons, List.not_mem_nil, or_false] at hm
    rcases hm with rfl | rfl
    · refine ⟨![0], a0.shape_eq, by decide, fun p hp => ⟨_, a0.map p hp, rfl, ?_, ?_⟩⟩
      all_goals (obtain rfl := List.length_eq_zero_iff.1 hp; simp [Fin.forall_fin_succ, bary])
    · refine ⟨![1], a1.shape_eq, by decide, fun p hp => ⟨_, a1.map p hp, rfl, ?_, ?_⟩⟩
      all_goals (obtain rfl := List.length_eq_zero_iff.1 hp; simp [Fin.forall_fin_succ, bary])
  · obtain ⟨f0, f1, f2, h, a0, a1, a2⟩ := faces_simplex_two
    obtain rfl := Except.ok.inj (hf.symm.trans h)
    simp only [List.mem_cons, List.not_mem_nil, or_false] at hm
    rcases hm with rfl | rfl | rfl
    · refine ⟨![0, 1], a0.shape_eq, by decide, fun p hp => ⟨_, a0.map p hp, rfl, ?_, ?_⟩⟩
      all_goals (obtain ⟨a, rfl⟩ := list1 hp; simp [Fin.forall_fin_succ, bary] <;> ring_nf <;> trivial)
    · refine ⟨![2, 0], a1.shape_eq, by decide, fun p hp => ⟨_, a1.map p hp, rfl, ?_, ?_⟩⟩
      all_goals (obtain ⟨a, rfl⟩ := list1 hp; simp [Fin.forall_fin_succ, bary] <;> ring_nf <;> trivial)
    · refine ⟨![1, 2], a2.shape_eq, by decide, fun p hp => ⟨_, a2.map p hp, rfl, ?_, ?_⟩⟩
      all_goals (obtain ⟨a, rfl⟩ := list1 hp; simp [Fin.forall_fin_succ, bary] <;> ring_nf <;> trivial)
  · obtain ⟨f0, f1, f2, f3, h, a0, a1, a2, a3⟩ := faces_simplex_three
    obtain rfl := Except.ok.inj (hf.symm.trans h)
    simp only [List.mem_cons, List.not_mem_nil, or_false] at hm
    rcases hm with rfl | rfl | rfl | rfl
    · refine ⟨![0, 2, 1], a0.shape_eq, by decide, fun p hp => ⟨_, a0.map p hp, rfl, ?_, ?_⟩⟩
      all_goals (obtain ⟨a, b, rfl⟩ := list2 hp; simp [Fin.forall_fin_succ, bary] <;> ring_nf <;> trivial)
    · refine ⟨![0, 1, 3], a1.shape_eq, by decide, fun p hp => ⟨_, a1.map p hp, rfl, ?_, ?_⟩⟩
      all_goals (obtain ⟨a, b, rfl⟩ := list2 hp; simp [Fin.forall_fin_succ, bary] <;> ring_nf <;> trivial)
    · refine ⟨![0, 3, 2], a2.shape_eq, by decide, fun p hp => ⟨_, a2.map p hp, rfl, ?_, ?_⟩⟩
      all_goals (obtain ⟨a, b, rfl⟩ := list2 hp; simp [Fin.forall_fin_succ, bary] <;> ring_nf <;> trivial)
    · refine ⟨![1, 2, 3], a3.shape_eq, by decide, fun p hp => ⟨_, a3.map p hp, rfl, ?_, ?_⟩⟩
      all_goals (obtain ⟨a, b, rfl⟩ := list2 hp; simp [Fin.forall_fin_succ, bary] <;> ring_nf <;> trivial)

/-- A node set that the symmetries of the simplex map to itself. -/
def Spec.SimplexSymmetric (d : Nat) (A : NdArray ℝ) : Prop :=
  ∀ (σ : Equiv.Perm (Fin (d + 1))) (x y : List ℝ), x.length = d → y.length = d → (∀ m : Fin (d + 1), bary y m = bary x (σ m)) →
    IsNode A x → IsNode A y

/-- Embeddings of the vertices of a face extend to permutations of the vertices. -/
theorem extend_perm {d : Nat} (ι κ : Fin d → Fin (d + 1)) (hι : Function.Injective ι) (hκ : Function.Injective κ) :
    ∃ τ : Equiv.Perm (Fin (d + 1)), ∀ j, τ (κ j) = ι j := by
  obtain ⟨τ, hτ⟩ := Equiv.Perm.exists_extending_pair κ ι hκ hι
  exact ⟨τ, hτ⟩

theorem conforming_of_symmetric (d : Nat) (A : NdArray ℝ) (hA : SimplexSymmetric d A) (faces : List Face)
    (hf : facesForShape (.simplex d) = .ok faces) (f : Face) (hfm : f ∈ faces) (g : Face) (hgm : g ∈ faces) : SimplexConforming d A f g := by
  obtain ⟨ι, hι⟩ := faceBary d faces hf f hfm
  obtain ⟨κ, hκ⟩ := faceBary d faces hf g hgm
  intro σ p q hp hq hpq
  rw [hι.shape] at hp
  rw [hκ.shape] at hq
  obtain ⟨x, hx, hxl, hxb, hx0⟩ := hι.map p hp
  obtain ⟨y, hy, hyl, hyb, hy0⟩ := hκ.map q hq
  rw [hx, hy]
  obtain ⟨τ, hτ⟩ := extend_perm (ι ∘ σ) κ (hι.inj.comp σ.injective) hκ.inj
  have key : ∀ m : Fin (d + 1), bary y m = bary x (τ m) := by
    intro m
    by_cases hm : ∃ j, κ j = m
    · obtain ⟨j, rfl⟩ := hm
      rw [hτ, Function.comp, hxb, hyb, hpq]
    · rw [hy0 m (fun j h => hm ⟨j, h⟩), hx0]
      intro j h
      apply hm
      refine ⟨σ.symm j, τ.injective ?_⟩
      rw [hτ, Function.comp, Equiv.apply_symm_apply, h]
  refine ⟨hA τ x y hxl hyl key, hA τ.symm y x hyl hxl fun m => ?_⟩
  rw [key, Equiv.apply_symm_apply]

/-! ## Equispaced nodes -/

theorem sum_getD_fin (t : List Nat) {d : Nat} (h : t.length = d) : ∑ i : Fin d, ((t.getD i 0 : Nat) : ℝ) = t.sum := by
  subst h
  rw [← Nat.cast_sum, ← List.sum_ofFn]
  congr 2
  apply List.ext_getElem (by simp)
  intro i h1 h2
  simp [List.getD_eq_getElem?_getD, show i < t.length by simpa using h1]

/-- Equispaced nodes are the points whose barycentric coordinates are multiples of `1 / n`. -/
theorem isNode_equispaced (d n : Nat) (hn : 1 ≤ n) : ∃ A : NdArray ℝ, equispacedNodes (.pn ⟨d, n⟩) (.simplex d) = .ok A ∧
    ∀ x : List ℝ, x.length = d → (IsNode A x ↔ ∀ m : Fin (d + 1), ∃ k : Nat, bary x m = k / n) := by
  obtain ⟨A, hA, hsh, hget⟩ := C04_pn (K := ℝ) d n hn
  refine ⟨A, hA, fun x hx => ?_⟩
  have hn0 : (n : ℝ) ≠ 0 := by positivity
  have hlen : (nodeTuples (.pn ⟨d, n⟩)).length = (n + d).choose d := length_nodeTuplesPN ⟨d, n⟩
  simp only [IsNode, hsh, List.getD_cons_zero, List.getD_cons_succ]
  constructor
  · rintro ⟨k, hk, rfl⟩
    have hk' : k < (nodeTuples (.pn ⟨d, n⟩)).length := by rwa [hlen]
    set t := (nodeTuples (.pn ⟨d, n⟩))[k] with ht
    obtain ⟨h1, h2⟩ := (C01_mem d n t).1 (by simp [ht])
    have hc : ∀ i : Fin d, bary (column A d k) (i + 1) = (t.getD i 0 : Nat) / n := by
      intro i
      simp only [bary, column, List.getD_eq_getElem?_getD, List.getElem?_map, List.getElem?_range i.2, Option.map_some, Option.getD_some]
      rw [hget, List.getD_eq_getElem?_getD, List.getD_eq_getElem?_getD, List.getElem?_eq_getElem hk', Option.getD_some, ← ht]
      ring
    intro m
    refine Fin.cases ?_ (fun i => ⟨_, hc i⟩) m
    refine ⟨n - t.sum, ?_⟩
    have e : ∑ i : Fin d, ((t.getD i 0 : Nat) : ℝ) = t.sum := sum_getD_fin t h1
    rw [Fin.val_zero, bary_zero_fin hx, Finset.sum_congr rfl fun i _ => hc i, ← Finset.sum_div, e, Nat.cast_sub h2]
    field_simp
  · intro h
    choose c hc using h
    have hs : c 0 + ∑ i : Fin d, c i.succ = n := by
      have h0 := bary_zero_fin hx
      have h1 : bary x 0 = c 0 / n := hc 0
      have h2 : ∀ i : Fin d, bary x (i + 1) = c i.succ / n := fun i => hc i.succ
      rw [h1, Finset.sum_congr rfl fun (i : Fin d) _ => h2 i, ← Finset.sum_div] at h0
      field_simp at h0
      have : ((c 0 + ∑ i : Fin d, c i.succ : Nat) : ℝ) = n := by push_cast; linarith
      exact_mod_cast this
    have hmem : (List.ofFn fun i : Fin d => c i.succ) ∈ nodeTuples (.pn ⟨d, n⟩) :=
      (C01_mem d n _).2 ⟨by simp, by rw [List.sum_ofFn]; omega⟩
    obtain ⟨k, hk, e⟩ := List.getElem_of_mem hmem
    refine ⟨k, by rwa [← hlen], ?_⟩
    apply List.ext_getElem (by simp [column, hx])
    intro i h1 h2
    have hi : i < d := by omega
    have hb := hc ⟨i + 1, by omega⟩
    simp only [bary, List.getD_eq_getElem?_getD, List.getElem?_eq_getElem h1, Option.getD_some] at hb
    simp only [column, List.getElem_map, List.getElem_range]
    rw [hget, List.getD_eq_getElem?_getD, List.getD_eq_getElem?_getD, List.getElem?_eq_getElem hk, Option.getD_some, e]
    simp only [List.getElem?_ofFn, hi, dif_pos, Option.getD_some, Fin.succ_mk]
    have : x[i] = 2 * (c ⟨i + 1, by omega⟩ / n) - 1 := by linarith
    rw [this]
    ring

/-- **C94 (equispaced nodes of simplices).**  On shared faces the equispaced nodes of two elements agree, and they are the
equispaced nodes of the face. -/
theorem C94_equispaced (d n : Nat) (hn : 1 ≤ n) (faces : List Face) (hf : facesForShape (.simplex d) = .ok faces) :
    ∃ A B : NdArray ℝ, equispacedNodes (.pn ⟨d, n⟩) (.simplex d) = .ok A ∧ equispacedNodes (.pn ⟨d - 1, n⟩) (.simplex (d - 1)) = .ok B ∧
      (∀ f ∈ faces, ∀ g ∈ faces, SimplexConforming d A f g) ∧
      ∀ f ∈ faces, ∀ p : List ℝ, p.length = d - 1 → (IsNode A (okOr [] (f.mapToVolume p)) ↔ IsNode B p) := by
  obtain ⟨A, hA, ha⟩ := isNode_equispaced d n hn
  obtain ⟨B, hB, hb⟩ := isNode_equispaced (d - 1) n hn
  refine ⟨A, B, hA, hB, fun f hfm g hgm => conforming_of_symmetric d A ?_ faces hf f hfm g hgm, fun f hfm p hp => ?_⟩
  · intro σ x y hx hy hxy h
    rw [ha x hx] at h
    rw [ha y hy]
    intro m
    rw [hxy]
    exact h _
  · obtain ⟨ι, hι⟩ := faceBary d faces hf f hfm
    obtain ⟨x, hx, hxl, hxb, hx0⟩ := hι.map p hp
    have hd : d - 1 + 1 = d := by
      by_contra h
      obtain rfl : d = 0 := by omega
      rw [C08_simplex_other 0 (by omega)] at hf
      simp at hf
    rw [hx, hb p hp]
    refine (ha x hxl).trans ⟨fun h m => ?_, fun h m => ?_⟩
    · have := h (ι ⟨m, by omega⟩)
      rwa [hxb] at this
    · by_cases hm : ∃ j, ι j = m
      · obtain ⟨j, rfl⟩ := hm
        rw [hxb]
        exact h ⟨j, by omega⟩
      · exact ⟨0, by rw [hx0 m fun j h => hm ⟨j, h⟩]; simp⟩

/-! ## Warp & blend nodes -/

theorem symmetric_warp (ext : Ext) (hext : ext.EighOk) (so : SetOrder) (d : Nat) (hd : 1 ≤ d ∧ d ≤ 3) (n : Nat) (hn : 1 ≤ n) (hn2 : n < 10 ^ 8) :
    ∃ A, edgeClusteredNodes ext so (.pn ⟨d, n⟩) (.simplex d) = .ok A ∧ SimplexSymmetric d A := by
  obtain ⟨A, N, hA, hsh, -, h⟩ := C47_symmetric_default ext hext so d hd n hn hn2
  refine ⟨A, by simp [edgeClusteredNodes, edgeClusteredPN, hd.2, hA], ?_⟩
  intro σ x y hx hy hxy
  simp only [IsNode, hsh, List.getD_cons_zero, List.getD_cons_succ]
  rintro ⟨k, hk, rfl⟩
  obtain ⟨k', hk', e⟩ := h σ k hk
  exact ⟨k', hk', eq_of_bary hy (by simp [column]) fun m => by rw [hxy, e]⟩

/-- **C94 (edge-clustered nodes of simplices).**  On shared faces the nodes of two elements agree. -/
theorem C94_edge_clustered (ext : Ext) (hext : ext.EighOk) (so : SetOrder) (d n : Nat) (hn : 1 ≤ n) (hn2 : n < 10 ^ 8) (faces : List Face)
    (hf : facesForShape (.simplex d) = .ok faces) :
    ∃ A, edgeClusteredNodes ext so (.pn ⟨d, n⟩) (.simplex d) = .ok A ∧ ∀ f ∈ faces, ∀ g ∈ faces, SimplexConforming d A f g := by
  have hd : 1 ≤ d ∧ d ≤ 3 := by
    by_contra h
    rw [C08_simplex_other d (by omega)] at hf
    simp at hf
  obtain ⟨A, hA, hs⟩ := symmetric_warp ext hext so d hd n hn hn2
  exact ⟨A, hA, fun f hfm g hgm => conforming_of_symmetric d A hs faces hf f hfm g hgm⟩

/-! ## Hypercubes -/

/-- A hypercube with nodes `A` meets another through the faces `f` and `g`: the points `p` and `q` of the reference face differ
by an exchange of axes and reflections. -/
def Spec.CubeConforming (A : NdArray ℝ) (f g : Face) : Prop :=
  ∀ (σ : Equiv.Perm (Fin f.shape.dim)) (ε : Fin f.shape.dim → ℝ) (p q : List ℝ), p.length = f.shape.dim → q.length = g.shape.dim →
    (∀ j, ε j = 1 ∨ ε j = -1) → (∀ j : Fin f.shape.dim, q.getD j 0 = ε j * p.getD (σ j) 0) →
    (IsNode A (okOr [] (f.mapToVolume p)) ↔ IsNode A (okOr [] (g.mapToVolume q)))

/-- The nodes are all points with coordinates in `S`. -/
def GridSet (d : Nat) (S : Set ℝ) (A : NdArray ℝ) : Prop :=
  ∀ z : List ℝ, z.length = d → (IsNode A z ↔ ∀ c ∈ z, c ∈ S)

theorem faces_hypercube_dim (d : Nat) (hd : d ≠ 1) (faces : List Face) (hf : facesForShape (.hypercube d) = .ok faces) : d = 2 ∨ d = 3 := by
  match d, hd, hf with
  | 0, _, hf => exact absurd hf (by simp [facesForShape, facesForHypercube, hypercubeFaces])
  | 2, _, _ => exact .inl rfl
  | 3, _, _ => exact .inr rfl
  | d + 4, _, hf => exact absurd hf (by simp [facesForShape, facesForHypercube, hypercubeFaces])

theorem cube_face (d : Nat) (hd : d ≠ 1) (S : Set ℝ) (hS : ∀ c, -c ∈ S ↔ c ∈ S) (A : NdArray ℝ) (hA : GridSet d S A) (faces : List Face)
    (hf : facesForShape (.hypercube d) = .ok faces) (f : Face) (hm : f ∈ faces) :
    f.shape.dim = d - 1 ∧ ∀ p : List ℝ, p.length = d - 1 → (IsNode A (okOr [] (f.mapToVolume p)) ↔ 1 ∈ S ∧ ∀ c ∈ p, c ∈ S) := by
  rcases faces_hypercube_dim d hd faces hf with rfl | rfl
  · obtain ⟨f0, f1, f2, f3, h, a0, a1, a2, a3⟩ := faces_cube_two
    obtain rfl := Except.ok.inj (hf.symm.trans h)
    simp only [List.mem_cons, List.not_mem_nil, or_false] at hm
    rcases hm with rfl | rfl | rfl | rfl
    · refine ⟨by rw [a0.shape_eq]; rfl, fun p hp => ?_⟩
      rw [a0.map p hp]
      obtain ⟨a, rfl⟩ := list1 hp
      refine (hA _ rfl).trans ?_
      simp [okOr, hS, and_comm]
    · refine ⟨by rw [a1.shape_eq]; rfl, fun p hp => ?_⟩
      rw [a1.map p hp]
      obtain ⟨a, rfl⟩ := list1 hp
      refine (hA _ rfl).trans ?_
      simp [okOr, hS, and_comm]
    · refine ⟨by rw [a2.shape_eq]; rfl, fun p hp => ?_⟩
      rw [a2.map p hp]
      obtain ⟨a, rfl⟩ := list1 hp
      refine (hA _ rfl).trans ?_
      simp [okOr, hS]
    · refine ⟨by rw [a3.shape_eq]; rfl, fun p hp => ?_⟩
      rw [a3.map p hp]
      obtain ⟨a, rfl⟩ := list1 hp
      refine (hA _ rfl).trans ?_
      simp [okOr]
  · obtain ⟨f0, f1, f2, f3, f4, f5, h, a0, a1, a2, a3, a4, a5⟩ := faces_cube_three
    obtain rfl := Except.ok.inj (hf.symm.trans h)
    simp only [List.mem_cons, List.not_mem_nil, or_false] at hm
    rcases hm with rfl | rfl | rfl | rfl | rfl | rfl
    · refine ⟨by rw [a0.shape_eq]; rfl, fun p hp => ?_⟩
      rw [a0.map p hp]
      obtain ⟨a, b, rfl⟩ := list2 hp
      refine (hA _ rfl).trans ?_
      simp [okOr, hS]; tauto
    · refine ⟨by rw [a1.shape_eq]; rfl, fun p hp => ?_⟩
      rw [a1.map p hp]
      obtain ⟨a, b, rfl⟩ := list2 hp
      refine (hA _ rfl).trans ?_
      simp [okOr]; tauto
    · refine ⟨by rw [a2.shape_eq]; rfl, fun p hp => ?_⟩
      rw [a2.map p hp]
      obtain ⟨a, b, rfl⟩ := list2 hp
      refine (hA _ rfl).trans ?_
      simp [okOr, hS]; tauto
    · refine ⟨by rw [a3.shape_eq]; rfl, fun p hp => ?_⟩
      rw [a3.map p hp]
      obtain ⟨a, b, rfl⟩ := list2 hp
      refine (hA _ rfl).trans ?_
      simp [okOr]
    · refine ⟨by rw [a4.shape_eq]; rfl, fun p hp => ?_⟩
      rw [a4.map p hp]
      obtain ⟨a, b, rfl⟩ := list2 hp
      refine (hA _ rfl).trans ?_
      simp [okOr, hS]; tauto
    · refine ⟨by rw [a5.shape_eq]; rfl, fun p hp => ?_⟩
      rw [a5.map p hp]
      obtain ⟨a, b, rfl⟩ := list2 hp
      refine (hA _ rfl).trans ?_
      simp [okOr]; tauto

theorem cube_face_shape (d : Nat) (hd : d ≠ 1) (faces : List Face) (hf : facesForShape (.hypercube d) = .ok faces) (f : Face) (hm : f ∈ faces) :
    f.shape = .simplex 1 ∨ f.shape = .hypercube 2 := by
  rcases faces_hypercube_dim d hd faces hf with rfl | rfl
  · obtain ⟨f0, f1, f2, f3, h, a0, a1, a2, a3⟩ := faces_cube_two
    obtain rfl := Except.ok.inj (hf.symm.trans h)
    simp only [List.mem_cons, List.not_mem_nil, or_false] at hm
    rcases hm with rfl | rfl | rfl | rfl
    exacts [.inl a0.shape_eq, .inl a1.shape_eq, .inl a2.shape_eq, .inl a3.shape_eq]
  · obtain ⟨f0, f1, f2, f3, f4, f5, h, a0, a1, a2, a3, a4, a5⟩ := faces_cube_three
    obtain rfl := Except.ok.inj (hf.symm.trans h)
    simp only [List.mem_cons, List.not_mem_nil, or_false] at hm
    rcases hm with rfl | rfl | rfl | rfl | rfl | rfl
    exacts [.inr a0.shape_eq, .inr a1.shape_eq, .inr a2.shape_eq, .inr a3.shape_eq, .inr a4.shape_eq, .inr a5.shape_eq]

theorem cube_conforming (d : Nat) (hd : d ≠ 1) (S : Set ℝ) (hS : ∀ c, -c ∈ S ↔ c ∈ S) (A : NdArray ℝ) (hA : GridSet d S A) (faces : List Face)
    (hf : facesForShape (.hypercube d) = .ok faces) (f : Face) (hfm : f ∈ faces) (g : Face) (hgm : g ∈ faces) : CubeConforming A f g := by
  obtain ⟨h1, h2⟩ := cube_face d hd S hS A hA faces hf f hfm
  obtain ⟨h3, h4⟩ := cube_face d hd S hS A hA faces hf g hgm
  intro σ ε p q hp hq hε hpq
  rw [h2 p (hp.trans h1), h4 q (hq.trans h3)]
  refine and_congr_right fun _ => ?_
  have hε' : ∀ j c, ε j * c ∈ S ↔ c ∈ S := by
    intro j c
    rcases hε j with h | h <;> simp [h, hS]
  have hmem : ∀ (l : List ℝ) {m : Nat}, l.length = m → ((∀ c ∈ l, c ∈ S) ↔ ∀ j : Fin m, l.getD j 0 ∈ S) := by
    intro l m hl
    subst hl
    rw [List.forall_mem_iff_getElem]
    constructor
    · intro h j
      have := h j j.2
      simpa [List.getD_eq_getElem?_getD] using this
    · intro h j hj
      have := h ⟨j, hj⟩
      simpa [List.getD_eq_getElem?_getD, hj] using this
  rw [hmem p hp, hmem q ((hq.trans h3).trans h1.symm)]
  constructor
  · intro h j
    rw [hpq, hε']
    exact h _
  · intro h j
    have := h (σ.symm j)
    rwa [hpq, hε', Equiv.apply_symm_apply] at this

theorem gridSet_of_digits (d n : Nat) (x : Fin (n + 1) → ℝ) (A : NdArray ℝ) (hs : A.shape = [d, (n + 1) ^ d])
    (h : ∀ i k, i < d → k < (n + 1) ^ d → A.get [i, k] = x ⟨k / (n + 1) ^ i % (n + 1), Nat.mod_lt _ (Nat.succ_pos n)⟩) :
    GridSet d (Set.range x) A := by
  intro z hz
  simp only [IsNode, hs, List.getD_cons_zero, List.getD_cons_succ]
  constructor
  · rintro ⟨k, hk, rfl⟩ c hc
    simp only [column, List.mem_map, List.mem_range] at hc
    obtain ⟨i, hi, rfl⟩ := hc
    rw [h i k hi hk]
    exact ⟨_, rfl⟩
  · intro hc
    have hc' : ∀ i : Fin d, ∃ j, x j = z.getD i 0 := by
      intro i
      have : (i : Nat) < z.length := by omega
      obtain ⟨j, hj⟩ := hc (z[(i : Nat)]) (List.getElem_mem _)
      exact ⟨j, by rw [hj, List.getD_eq_getElem?_getD, List.getElem?_eq_getElem this, Option.getD_some]⟩
    choose j hj using hc'
    refine ⟨finFunctionFinEquiv j, (finFunctionFinEquiv j).2, ?_⟩
    apply List.ext_getElem (by simp [column, hz])
    intro i h1 h2
    have hi : i < d := by omega
    simp only [column, List.getElem_map, List.getElem_range]
    rw [h i _ hi (finFunctionFinEquiv j).2]
    have e := congrFun (Equiv.symm_apply_apply finFunctionFinEquiv j) ⟨i, hi⟩
    have e2 : (⟨(finFunctionFinEquiv j : Nat) / (n + 1) ^ i % (n + 1), Nat.mod_lt _ (Nat.succ_pos n)⟩ : Fin (n + 1)) = j ⟨i, hi⟩ := by
      rw [← e]
      rfl
    rw [e2, hj, List.getD_eq_getElem?_getD, List.getElem?_eq_getElem h1, Option.getD_some]

/-- The array only matters up to its entries. -/
theorem gridSet_congr {d N : Nat} {S : Set ℝ} {A B : NdArray ℝ} (hA : A.shape = [d, N]) (hB : B.shape = [d, N])
    (h : ∀ i k, i < d → k < N → A.get [i, k] = B.get [i, k]) (hg : GridSet d S B) : GridSet d S A := by
  intro z hz
  rw [← hg z hz]
  simp only [IsNode, hA, hB, List.getD_cons_zero, List.getD_cons_succ]
  have e : ∀ k < N, column A d k = column B d k := by
    intro k hk
    simp only [column]
    exact List.map_congr_left fun i hi => h i k (List.mem_range.1 hi) hk
  constructor
  · rintro ⟨k, hk, rfl⟩; exact ⟨k, hk, e k hk⟩
  · rintro ⟨k, hk, rfl⟩; exact ⟨k, hk, (e k hk).symm⟩

theorem lobatto_grid (ext : Ext) (hext : ext.EighOk) (n : Nat) (hn : 1 ≤ n) : ∃ S : Set ℝ, (∀ c, -c ∈ S ↔ c ∈ S) ∧ 1 ∈ S ∧
    ∀ d, 0 < d → ∃ A : NdArray ℝ, legendreGaussLobattoTensorProductNodes ext d n = .ok A ∧ A.shape = [d, (n + 1) ^ d] ∧ GridSet d S A := by
  obtain ⟨m, rfl⟩ : ∃ m, n = m + 1 := ⟨n - 1, by omega⟩
  obtain ⟨x, x', hok, hok', hrev⟩ := C88_lobatto_nodes ext hext 0 0 (by norm_num) (by norm_num) m
  obtain rfl : x = x' := by rw [hok] at hok'; injection hok'
  have hx : ∀ d, 0 < d → ∃ A, legendreGaussLobattoTensorProductNodes ext d (m + 1) = .ok A ∧ A.shape = [d, (m + 1 + 1) ^ d] ∧
      x (Fin.last (m + 1)) = 1 ∧ GridSet d (Set.range x) A := by
    intro d hd
    obtain ⟨A, y, hA, hs, hy, -, h1, -, hg, -⟩ := C70_legendre_gauss_lobatto ext hext d (m + 1) hd
    have e : y = x := by
      simp only [legendreGaussLobattoNodes, jacobiGaussLobattoNodes, hok] at hy
      funext k
      have := congrArg (fun A => A.map fun B : NdArray ℝ => B.get [(k : Nat)]) hy
      simpa [Except.map, ofFn_get] using this.symm
    subst e
    exact ⟨A, hA, hs, (h1 (by omega)).2, gridSet_of_digits d (m + 1) y A hs hg⟩
  refine ⟨Set.range x, fun c => ⟨?_, ?_⟩, ?_, fun d hd => ?_⟩
  · rintro ⟨i, hi⟩
    exact ⟨i.rev, by rw [hrev, hi, neg_neg]⟩
  · rintro ⟨i, rfl⟩
    exact ⟨i.rev, hrev i⟩
  · obtain ⟨A, -, -, h, -⟩ := hx 1 (by omega)
    exact ⟨_, h⟩
  · obtain ⟨A, h1, h2, -, h3⟩ := hx d hd
    exact ⟨A, h1, h2, h3⟩

theorem lobatto_line (ext : Ext) (hext : ext.EighOk) (so : SetOrder) (n : Nat) (hn : 1 ≤ n) (hn2 : n < 10 ^ 8) (S : Set ℝ)
    (hS : ∃ A : NdArray ℝ, legendreGaussLobattoTensorProductNodes ext 1 n = .ok A ∧ GridSet 1 S A) :
    ∃ A, edgeClusteredNodes ext so (.pn ⟨1, n⟩) (.simplex 1) = .ok A ∧ GridSet 1 S A := by
  obtain ⟨B, hB, hg⟩ := hS
  obtain ⟨A, hA, hsh, -, hline, -⟩ := C71_simplex ext hext so 1 n hn2
  obtain ⟨x, hx, -, hxk⟩ := hline rfl hn
  obtain ⟨B', y, hB', hs, hy, -, -, -, hgy, -⟩ := C70_legendre_gauss_lobatto ext hext 1 n (by omega)
  obtain rfl : B = B' := Except.ok.inj (hB.symm.trans hB')
  have e : ∀ k : Fin (n + 1), y k = x k := by
    intro k
    have := congrArg (fun A => NdArray.get A [(k : Nat)]) (Except.ok.inj (hy.symm.trans hx))
    simpa only [ofFn_get] using this
  refine ⟨A, hA, gridSet_congr (N := n + 1) (by rw [hsh]; simp) (by rw [hs]; simp) (fun i k hi hk => ?_) hg⟩
  obtain rfl : i = 0 := by omega
  rw [hxk ⟨k, hk⟩, hgy 0 k (by omega) (by simpa using hk), ← e]
  congr 1
  simp [Nat.mod_eq_of_lt hk]

/-- **C94 (hypercubes).**  On shared faces the edge-clustered (that is, Legendre-Gauss-Lobatto) nodes of two hypercubes agree,
and they are the edge-clustered nodes of the face. -/
theorem C94_hypercube (ext : Ext) (hext : ext.EighOk) (so : SetOrder) (d n : Nat) (hd : d ≠ 1) (hn : 1 ≤ n) (hn2 : n < 10 ^ 8) (faces : List Face)
    (hf : facesForShape (.hypercube d) = .ok faces) :
    ∃ A, edgeClusteredNodes ext so (.qn d n) (.hypercube d) = .ok A ∧ (∀ f ∈ faces, ∀ g ∈ faces, CubeConforming A f g) ∧
      ∀ f ∈ faces, ∃ B, edgeClusteredNodes ext so (Space.mkQN f.shape.dim n) f.shape = .ok B ∧
        ∀ p : List ℝ, p.length = f.shape.dim → (IsNode A (okOr [] (f.mapToVolume p)) ↔ IsNode B p) := by
  obtain ⟨S, hS, h1, hgrid⟩ := lobatto_grid ext hext n hn
  have key : ∀ e, 0 < e → ∃ A, edgeClusteredNodes ext so (.qn e n) (.hypercube e) = .ok A ∧ GridSet e S A := by
    intro e he
    obtain ⟨A, B, hA, hB, hsh, hg⟩ := C71_hypercube ext hext so e n he hn2
    obtain ⟨B', hB', hs', hgs⟩ := hgrid e he
    obtain rfl : B = B' := Except.ok.inj (hB.symm.trans hB')
    exact ⟨A, hA, gridSet_congr (hsh.trans hs') hs' hg hgs⟩
  obtain ⟨A, hA, ha⟩ := key d (by rcases faces_hypercube_dim d hd faces hf with h | h <;> omega)
  refine ⟨A, hA, fun f hfm g hgm => cube_conforming d hd S hS A ha faces hf f hfm g hgm, fun f hfm => ?_⟩
  obtain ⟨hdim, hcf⟩ := cube_face d hd S hS A ha faces hf f hfm
  obtain ⟨B, hB, hb⟩ : ∃ B, edgeClusteredNodes ext so (Space.mkQN f.shape.dim n) f.shape = .ok B ∧ GridSet f.shape.dim S B := by
    rcases cube_face_shape d hd faces hf f hfm with h | h
    · rw [h]
      obtain ⟨B, hB, -, hg⟩ := hgrid 1 (by omega)
      exact lobatto_line ext hext so n hn hn2 S ⟨B, hB, hg⟩
    · rw [h]
      exact key 2 (by omega)
  refine ⟨B, hB, fun p hp => ?_⟩
  rw [hcf p (hp.trans hdim), hb p hp]
  exact ⟨fun h => h.2, fun h => ⟨h1, h⟩⟩

theorem mem_qn_tuples (d n : Nat) (t : List Nat) :
    t ∈ nodeTuples (.tp (List.replicate d ⟨1, n⟩)) ↔ t.length = d ∧ ∀ i ∈ t, i ≤ n := by
  rw [C02_mem]
  induction d generalizing t with
  | zero =>
    constructor
    · rintro ⟨parts, h, rfl⟩
      cases h
      simp
    · rintro ⟨h, -⟩
      obtain rfl := List.length_eq_zero_iff.1 h
      exact ⟨[], .nil, rfl⟩
  | succ d ih =>
    rw [List.replicate_succ]
    constructor
    · rintro ⟨parts, h, rfl⟩
      cases h with
      | @cons _ p _ parts h1 h2 =>
        obtain ⟨h3, h4⟩ := (ih _).1 ⟨parts, h2, rfl⟩
        obtain ⟨a, rfl⟩ : ∃ a, p = [a] := List.length_eq_one_iff.1 h1.1
        have h5 : a ≤ n := by simpa using h1.2
        simp only [List.flatten_cons, List.cons_append, List.nil_append, List.length_cons, h3, List.mem_cons, true_and]
        rintro i (rfl | hi)
        exacts [h5, h4 i hi]
    · rintro ⟨h1, h2⟩
      cases t with
      | nil => simp at h1
      | cons a t =>
        obtain ⟨parts, h3, rfl⟩ := (ih t).2 ⟨by simpa using h1, fun i hi => h2 i (List.mem_cons_of_mem _ hi)⟩
        exact ⟨[a] :: parts, .cons ⟨rfl, by simpa using h2 a (by simp)⟩ h3, by simp⟩

theorem equispaced_grid (n : Nat) (hn : 1 ≤ n) (d : Nat) (hd : 0 < d) : ∃ A : NdArray ℝ,
    equispacedNodes (.qn d n) (.hypercube d) = .ok A ∧ GridSet d {c | ∃ k ≤ n, c = 2 * ((k : Nat) : ℝ) / n - 1} A := by
  obtain ⟨A, hA, hs, hget⟩ := C04_tp (K := ℝ) (List.replicate d ⟨1, n⟩) (fun b hb => by rw [List.eq_of_mem_replicate hb]; exact hn)
    (by simpa using hd)
  have hA' : equispacedNodes (.qn d n) (.hypercube d) = .ok A := by
    rw [← hA]
    simp [equispacedNodes, Space.flatBases, Shape.flatBases, Space.spatialDim, Shape.dim]
  have hN : Space.spaceDim (.tp (List.replicate d ⟨1, n⟩)) = (n + 1) ^ d := by
    simp [Space.spaceDim, Space.flatBases, PNSpace.spaceDim]
  simp only [List.map_replicate, List.sum_replicate, smul_eq_mul, mul_one, hN] at hs
  have hg : ∀ i k, i < d → k < (n + 1) ^ d →
      A.get [i, k] = 2 * ((((nodeTuples (.tp (List.replicate d ⟨1, n⟩))).getD k []).getD i 0 : Nat) : ℝ) / n - 1 := by
    intro i k hi hk
    have := hget i (by simpa using hi) 0 k (by simp) (by rw [hN]; exact hk)
    simpa [List.take_replicate, Nat.min_eq_left hi.le] using this
  have hlen : (nodeTuples (.tp (List.replicate d ⟨1, n⟩))).length = (n + 1) ^ d := by
    have : (nodeTuples (.tp (List.replicate d ⟨1, n⟩))).length = ((List.replicate d (⟨1, n⟩ : PNSpace)).map PNSpace.spaceDim).prod :=
      length_nodeTuplesTP _
    rw [this]; simp [PNSpace.spaceDim]
  have hmem := mem_qn_tuples d n
  refine ⟨A, hA', fun z hz => ?_⟩
  simp only [IsNode, hs, List.getD_cons_zero, List.getD_cons_succ, Set.mem_setOf_eq]
  constructor
  · rintro ⟨k, hk, rfl⟩ c hc
    simp only [column, List.mem_map, List.mem_range] at hc
    obtain ⟨i, hi, rfl⟩ := hc
    refine ⟨_, ?_, hg i k hi hk⟩
    have hk' : k < (nodeTuples (.tp (List.replicate d ⟨1, n⟩))).length := by rwa [hlen]
    have e : (nodeTuples (.tp (List.replicate d ⟨1, n⟩))).getD k [] = (nodeTuples (.tp (List.replicate d ⟨1, n⟩)))[k] := by
      rw [List.getD_eq_getElem?_getD, List.getElem?_eq_getElem hk', Option.getD_some]
    obtain ⟨h1, h2⟩ := (hmem _).1 (List.getElem_mem hk')
    rw [e, List.getD_eq_getElem?_getD, List.getElem?_eq_getElem (by omega), Option.getD_some]
    exact h2 _ (List.getElem_mem _)
  · intro hc
    have hc' : ∀ i : Fin d, ∃ k ≤ n, z.getD i 0 = 2 * ((k : Nat) : ℝ) / n - 1 := by
      intro i
      have : (i : Nat) < z.length := by omega
      rw [List.getD_eq_getElem?_getD, List.getElem?_eq_getElem this, Option.getD_some]
      exact hc _ (List.getElem_mem _)
    choose j hjn hj using hc'
    obtain ⟨k, hk, e⟩ := List.getElem_of_mem ((hmem (List.ofFn j)).2 ⟨by simp, by
      intro i hi
      obtain ⟨a, rfl⟩ := List.mem_ofFn.1 hi
      exact hjn a⟩)
    refine ⟨k, by rwa [← hlen], ?_⟩
    apply List.ext_getElem (by simp [column, hz])
    intro i h1 h2
    have hi : i < d := by omega
    simp only [column, List.getElem_map, List.getElem_range]
    rw [hg i k hi (by rwa [← hlen]), List.getD_eq_getElem?_getD, List.getD_eq_getElem?_getD, List.getElem?_eq_getElem hk, Option.getD_some, e]
    have := hj ⟨i, hi⟩
    rw [List.getD_eq_getElem?_getD, List.getElem?_eq_getElem h1, Option.getD_some] at this
    simp [hi, this]

theorem equispaced_line (n : Nat) (hn : 1 ≤ n) : ∃ A : NdArray ℝ,
    equispacedNodes (.pn ⟨1, n⟩) (.simplex 1) = .ok A ∧ GridSet 1 {c | ∃ k ≤ n, c = 2 * ((k : Nat) : ℝ) / n - 1} A := by
  obtain ⟨A, hA, h⟩ := isNode_equispaced 1 n hn
  have hn0 : (n : ℝ) ≠ 0 := by positivity
  have hn1 : (0 : ℝ) < n := by positivity
  refine ⟨A, hA, fun z hz => (h z hz).trans ?_⟩
  obtain ⟨a, rfl⟩ := list1 hz
  refine (Fin.forall_fin_two (p := fun m : Fin 2 => ∃ k : Nat, bary [a] m = k / n)).trans ?_
  have e0 : bary [a] (0 : Fin 2) = 1 - (1 + a) / 2 := by simp [bary]
  have e1 : bary [a] (1 : Fin 2) = (1 + a) / 2 := by simp [bary]
  simp only [e0, e1, List.mem_singleton, forall_eq, Set.mem_setOf_eq]
  constructor
  · rintro ⟨⟨j, hj⟩, k, hk⟩
    refine ⟨k, ?_, by linear_combination 2 * hk⟩
    have : (0 : ℝ) ≤ j / n := by positivity
    have : (k : ℝ) / n ≤ 1 := by linarith
    rw [div_le_one hn1] at this
    exact_mod_cast this
  · rintro ⟨k, hk, rfl⟩
    refine ⟨⟨n - k, ?_⟩, k, by ring⟩
    rw [Nat.cast_sub hk]
    field_simp
    ring

/-- **C94 (equispaced nodes of hypercubes).** -/
theorem C94_equispaced_hypercube (d n : Nat) (hd : d ≠ 1) (hn : 1 ≤ n) (faces : List Face) (hf : facesForShape (.hypercube d) = .ok faces) :
    ∃ A : NdArray ℝ, equispacedNodes (.qn d n) (.hypercube d) = .ok A ∧ (∀ f ∈ faces, ∀ g ∈ faces, CubeConforming A f g) ∧
      ∀ f ∈ faces, ∃ B : NdArray ℝ, equispacedNodes (Space.mkQN f.shape.dim n) f.shape = .ok B ∧
        ∀ p : List ℝ, p.length = f.shape.dim → (IsNode A (okOr [] (f.mapToVolume p)) ↔ IsNode B p) := by
  have hn0 : (n : ℝ) ≠ 0 := by positivity
  have hS1 : ∀ c : ℝ, c ∈ {c : ℝ | ∃ k ≤ n, c = 2 * ((k : Nat) : ℝ) / n - 1} → -c ∈ {c : ℝ | ∃ k ≤ n, c = 2 * ((k : Nat) : ℝ) / n - 1} := by
    rintro c ⟨k, hk, rfl⟩
    refine ⟨n - k, by omega, ?_⟩
    rw [Nat.cast_sub hk]
    field_simp
    ring
  have hS : ∀ c : ℝ, -c ∈ {c : ℝ | ∃ k ≤ n, c = 2 * ((k : Nat) : ℝ) / n - 1} ↔ c ∈ {c : ℝ | ∃ k ≤ n, c = 2 * ((k : Nat) : ℝ) / n - 1} :=
    fun c => ⟨fun h => by simpa using hS1 _ h, hS1 c⟩
  have h1 : (1 : ℝ) ∈ {c : ℝ | ∃ k ≤ n, c = 2 * ((k : Nat) : ℝ) / n - 1} := ⟨n, le_rfl, by field_simp; norm_num⟩
  obtain ⟨A, hA, ha⟩ := equispaced_grid n hn d (by rcases faces_hypercube_dim d hd faces hf with h | h <;> omega)
  refine ⟨A, hA, fun f hfm g hgm => cube_conforming d hd _ hS A ha faces hf f hfm g hgm, fun f hfm => ?_⟩
  obtain ⟨hdim, hcf⟩ := cube_face d hd _ hS A ha faces hf f hfm
  obtain ⟨B, hB, hb⟩ : ∃ B : NdArray ℝ, equispacedNodes (Space.mkQN f.shape.dim n) f.shape = .ok B ∧
      GridSet f.shape.dim {c : ℝ | ∃ k ≤ n, c = 2 * ((k : Nat) : ℝ) / n - 1} B := by
    rcases cube_face_shape d hd faces hf f hfm with h | h
    · rw [h]
      exact equispaced_line n hn
    · rw [h]
      exact equispaced_grid n hn 2 (by omega)
  refine ⟨B, hB, fun p hp => ?_⟩
  rw [hcf p (hp.trans hdim), hb p hp]
  exact ⟨fun h => h.2, fun h => ⟨h1, h⟩⟩

/-- **C94 (no nodes on faces).**  Legendre-Gauss tensor product nodes avoid all faces of the hypercube. -/
theorem C94_legendre_gauss (ext : Ext) (hext : ext.EighOk) (d n : Nat) (hd : d ≠ 1) (faces : List Face)
    (hf : facesForShape (.hypercube d) = .ok faces) :
    ∃ A, legendreGaussTensorProductNodes ext d n = .ok A ∧
      ∀ f ∈ faces, ∀ p : List ℝ, p.length = f.shape.dim → ¬ IsNode A (okOr [] (f.mapToVolume p)) := by
  obtain ⟨A, x, hA, hs, hmono, hin, ⟨q, hq, hqx⟩, hg, -⟩ := C70_legendre_gauss ext hext d n
    (by rcases faces_hypercube_dim d hd faces hf with h | h <;> omega)
  refine ⟨A, hA, fun f hfm p hp hnode => ?_⟩
  have hgs := gridSet_of_digits d n x A hs hg
  -- enlarge to a symmetric set of interior points
  have hgs' : IsNode A (okOr [] (f.mapToVolume p)) → ∀ c ∈ okOr [] (f.mapToVolume p), -1 < c ∧ c < 1 := by
    rintro ⟨k, hk, e⟩ c hc
    rw [e] at hc
    have hcol : IsNode A (column A (A.shape.getD 0 0) k) := ⟨k, hk, rfl⟩
    obtain ⟨i, rfl⟩ := (hgs _ (by simp [column, hs])).1 hcol c hc
    exact hin i
  have hmem : (1 : ℝ) ∈ okOr [] (f.mapToVolume p) ∨ (-1 : ℝ) ∈ okOr [] (f.mapToVolume p) := by
    rcases faces_hypercube_dim d hd faces hf with rfl | rfl
    · obtain ⟨f0, f1, f2, f3, h, a0, a1, a2, a3⟩ := faces_cube_two
      obtain rfl := Except.ok.inj (hf.symm.trans h)
      simp only [List.mem_cons, List.not_mem_nil, or_false] at hfm
      rcases hfm with rfl | rfl | rfl | rfl
      · rw [a0.map p (by rw [hp, a0.shape_eq])]; simp [okOr]
      · rw [a1.map p (by rw [hp, a1.shape_eq])]; simp [okOr]
      · rw [a2.map p (by rw [hp, a2.shape_eq])]; simp [okOr]
      · rw [a3.map p (by rw [hp, a3.shape_eq])]; simp [okOr]
    · obtain ⟨f0, f1, f2, f3, f4, f5, h, a0, a1, a2, a3, a4, a5⟩ := faces_cube_three
      obtain rfl := Except.ok.inj (hf.symm.trans h)
      simp only [List.mem_cons, List.not_mem_nil, or_false] at hfm
      rcases hfm with rfl | rfl | rfl | rfl | rfl | rfl
      · rw [a0.map p (by rw [hp, a0.shape_eq])]; simp [okOr]
      · rw [a1.map p (by rw [hp, a1.shape_eq])]; simp [okOr]
      · rw [a2.map p (by rw [hp, a2.shape_eq])]; simp [okOr]
      · rw [a3.map p (by rw [hp, a3.shape_eq])]; simp [okOr]
      · rw [a4.map p (by rw [hp, a4.shape_eq])]; simp [okOr]
      · rw [a5.map p (by rw [hp, a5.shape_eq])]; simp [okOr]
  rcases hmem with h | h
  · exact absurd (hgs' hnode 1 h).2 (lt_irrefl _)
  · exact absurd (hgs' hnode (-1) h).1 (lt_irrefl _)

/-- Non-vacuity: tetrahedra of order five and cubes of order four. -/
example : ∃ faces, facesForShape (.simplex 3) = .ok faces ∧ faces.length = 4 := by
  obtain ⟨f0, f1, f2, f3, h, -⟩ := faces_simplex_three
  exact ⟨_, h, rfl⟩

example : ∃ faces, facesForShape (.hypercube 3) = .ok faces ∧ faces.length = 6 := by
  obtain ⟨f0, f1, f2, f3, f4, f5, h, -⟩ := faces_cube_three
  exact ⟨_, h, rfl⟩

/-- A node on a face of a tetrahedron of order two, seen from its first and its last face, with the vertices rotated. -/
example : ∃ σ : Equiv.Perm (Fin 3), ∀ j : Fin 3, bary [-1, 0] j = bary [0, 0] (σ j) := by
  refine ⟨Equiv.swap 0 1, fun j => ?_⟩
  have h : Equiv.swap (0 : Fin 3) 1 2 = 2 := by decide
  fin_cases j
  · simp [bary]; norm_num
  · simp [bary]; norm_num
  · simp [bary, h]

end Modepy

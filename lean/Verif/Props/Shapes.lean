import Verif.Proofs.TensorNodes
import Verif.Model.Spaces
import Mathlib.Data.Nat.Choose.Basic

/-!
# Properties C11-C13: reference vertices, construction of shapes and spaces
-/

namespace Modepy

open NdArray

/-! ## C11: reference vertices -/

/-- Simplex vertices: shape `(d, d+1)`, vertex `k` is `-1` everywhere except `+1` at coordinate
`k - 1` (for `k ≥ 1`). -/
theorem C11_simplex (d : Nat) :
    ∃ v, Shape.unitVertices (.simplex d) = .ok v ∧ v.shape = [d, Shape.nvertices (.simplex d)] ∧
      (∀ i, v.get [i, 0] = -1) ∧
      ∀ i k, v.get [i, k + 1] = if i = k then 1 else -1 := by
  refine ⟨Shape.unitVerticesSimplex d, rfl, rfl, ?_, ?_⟩
  · intro i; simp [Shape.unitVerticesSimplex]
  · intro i k
    simp [Shape.unitVerticesSimplex, eq_comm]

/-- Vertices of tensor products: `(dim, nvertices)` many; the coordinates of vertex `k` belonging to
base `j` are those of base vertex number `digit_j(k)`, first base fastest. -/
theorem C11_tp (s : Shape) (hs : s.isTP = true) (hdim : 0 < s.dim) :
    ∃ v, Shape.unitVertices s = .ok v ∧ v.shape = [s.dim, s.nvertices] ∧
      ∀ (j : Nat) (hj : j < s.flatBases.length) (r k : Nat), r < s.flatBases[j] →
        k < s.nvertices →
        v.get [(s.flatBases.take j).sum + r, k] =
          if Spec.digit (s.flatBases.map (· + 1)) k j = r + 1 then 1 else -1 := by
  have hu : Shape.unitVertices s =
      tensorProductNodes 0 (s.flatBases.map Shape.unitVerticesSimplex) := by
    cases s <;> first | rfl | simp [Shape.isTP] at hs
  have hd : s.dim = s.flatBases.sum := by
    cases s <;> simp [Shape.dim, Shape.flatBases]
  have hn : s.nvertices = (s.flatBases.map (· + 1)).prod := by
    cases s with
    | simplex d => simp [Shape.isTP] at hs
    | tp bs => rfl
    | hypercube d => rfl
  have hr : (rows ∘ Shape.unitVerticesSimplex) = id := by
    funext d; simp [rows, Shape.unitVerticesSimplex]
  have hc : (ncols ∘ Shape.unitVerticesSimplex) = (· + 1) := by
    funext d; simp [ncols, Shape.unitVerticesSimplex]
  obtain ⟨v, hok, hsh, hget⟩ := tensorProductNodes_ok (0 : Int)
    (s.flatBases.map Shape.unitVerticesSimplex)
    (by
      intro a ha
      obtain ⟨d, _, rfl⟩ := List.mem_map.1 ha
      simp [Is2D, rows, ncols, Shape.unitVerticesSimplex])
    (by rw [List.map_map, hr, List.map_id, ← hd]; exact hdim)
  rw [List.map_map, List.map_map, hr, hc, List.map_id] at hsh
  refine ⟨v, hu.trans hok, by rw [hsh, hd, hn], ?_⟩
  intro j hj r k hrr hk
  have := hget j (by simpa using hj) r k (by simpa [rows, Shape.unitVerticesSimplex] using hrr)
    (by rw [List.map_map, hc, ← hn]; exact hk)
  rw [← List.map_take, List.map_map, hr, List.map_id, List.map_map, hc] at this
  rw [this]
  simp [Shape.unitVerticesSimplex]

/-- The hypercube: coordinate `i` of vertex `k` is `+1` exactly when bit `i` of `k` is set. -/
theorem C11_hypercube_bits (d : Nat) (hd : 0 < d) :
    ∃ v, Shape.unitVertices (.hypercube d) = .ok v ∧ v.shape = [d, 2 ^ d] ∧
      ∀ i k, i < d → k < 2 ^ d → v.get [i, k] = if k.testBit i then 1 else -1 := by
  obtain ⟨v, hok, hsh, hget⟩ := C11_tp (.hypercube d) rfl (by simpa [Shape.dim] using hd)
  have hnv : Shape.nvertices (.hypercube d) = 2 ^ d := by
    simp [Shape.nvertices, Shape.flatBases, Shape.simplexCount]
  refine ⟨v, hok, by rw [hsh, hnv]; simp [Shape.dim], ?_⟩
  intro i k hi hk
  have := hget i (by simpa [Shape.flatBases] using hi) 0 k (by simp [Shape.flatBases])
    (by rw [hnv]; exact hk)
  have e : ((Shape.hypercube d).flatBases.take i).sum = i := by
    simp [Shape.flatBases, List.take_replicate, Nat.min_eq_left hi.le]
  rw [e, Nat.add_zero] at this
  rw [this]
  have hdig : Spec.digit ((Shape.hypercube d).flatBases.map (· + 1)) k i = k / 2 ^ i % 2 := by
    simp [Spec.digit, Shape.flatBases, List.take_replicate, Nat.min_eq_left hi.le, hi]
  rw [hdig, Nat.testBit_eq_decide_div_mod_eq]
  simp

example : ∃ s : Shape, s.isTP = true ∧ 0 < s.dim ∧ s = .tp [2, 1] := ⟨.tp [2, 1], rfl, by decide, rfl⟩

/-! ## C12: shape construction -/

/-- Everything but the one-tuple case goes through `__init__`. -/
theorem mkTP_of_length_ne_one (bases : List Shape) (h : bases.length ≠ 1) :
    Shape.mkTP bases = (Shape.tpInit bases).map Shape.tp := by
  unfold Shape.mkTP
  split
  · simp at h
  · simp at h
  · rfl

theorem tpInit_ok_iff (bases : List Shape) (fl : List Nat) :
    Shape.tpInit bases = .ok fl ↔ fl = bases.flatMap Shape.flatBases ∧
      ((bases.flatMap Shape.flatBases).filter (· ≠ 1)).length ≤ 1 := by
  unfold Shape.tpInit
  have hcount : ∀ l : List Nat, (l.filter (· = 1)).length + (l.filter (· ≠ 1)).length = l.length := by
    intro l
    induction l with
    | nil => rfl
    | cons a l ih => by_cases h : a = 1 <;> simp [h] at ih ⊢ <;> omega
  have := hcount (bases.flatMap Shape.flatBases)
  simp only
  split_ifs with h
  · constructor
    · intro h'; cases h'
    · rintro ⟨_, h'⟩; omega
  · constructor
    · intro h'; injection h' with h'; exact ⟨h'.symm, by omega⟩
    · rintro ⟨rfl, _⟩; rfl

theorem tpInit_error (bases : List Shape)
    (h : 2 ≤ ((bases.flatMap Shape.flatBases).filter (· ≠ 1)).length) :
    Shape.tpInit bases = .error .NotImplementedError := by
  cases hh : Shape.tpInit bases with
  | ok fl => have := ((tpInit_ok_iff _ _).1 hh).2; omega
  | error e =>
    unfold Shape.tpInit at hh
    simp only at hh
    split_ifs at hh
    injection hh with hh
    rw [← hh]

/-- Products of zero or at least two shapes: the constructor accepts exactly the lists with at most
one non-segment after flattening, and the result has the flattened bases, `dim` the sum of dims and
`nvertices` the product. -/
theorem C12_construct (bases : List Shape) (hlen : bases.length ≠ 1) :
    (((bases.flatMap Shape.flatBases).filter (· ≠ 1)).length ≤ 1 →
      ∃ s, Shape.mkTP bases = .ok s ∧ s.isTP = true ∧
        s.flatBases = bases.flatMap Shape.flatBases ∧
        s.dim = (bases.map Shape.dim).sum ∧
        s.nvertices = (bases.map Shape.nvertices).prod) ∧
    (2 ≤ ((bases.flatMap Shape.flatBases).filter (· ≠ 1)).length →
      Shape.mkTP bases = .error .NotImplementedError) := by
  rw [mkTP_of_length_ne_one bases hlen]
  constructor
  · intro h
    have := (tpInit_ok_iff bases _).2 ⟨rfl, h⟩
    rw [this]
    refine ⟨.tp _, rfl, rfl, rfl, ?_, ?_⟩
    · simp only [Shape.dim]
      clear h this hlen
      induction bases with
      | nil => rfl
      | cons a l ih =>
        simp only [List.flatMap_cons, List.sum_append, List.map_cons, List.sum_cons, ih]
        congr 1
        cases a <;> simp [Shape.flatBases, Shape.dim]
    · simp only [Shape.nvertices]
      clear h this hlen
      induction bases with
      | nil => rfl
      | cons a l ih =>
        have ih' : (List.map Shape.simplexCount (Shape.tp (l.flatMap Shape.flatBases)).flatBases).prod
          = (l.map Shape.nvertices).prod := ih
        simp only [Shape.flatBases, List.flatMap_cons, List.map_append, List.prod_append,
          List.map_cons, List.prod_cons] at ih' ⊢
        rw [ih']
        congr 1
        cases a <;> simp [Shape.flatBases, Shape.nvertices]
  · intro h
    rw [tpInit_error bases h]
    rfl

/-- Nesting does not matter: replacing some of the bases by their product (built before) gives the
same shape as the flat list. -/
theorem C12_nested (pre inner post : List Shape) (s : Shape) (hs : Shape.mkTP inner = .ok s)
    (h1 : (pre ++ s :: post).length ≠ 1) (h2 : (pre ++ inner ++ post).length ≠ 1) :
    Shape.mkTP (pre ++ s :: post) = Shape.mkTP (pre ++ inner ++ post) := by
  have hfl : s.flatBases = inner.flatMap Shape.flatBases := by
    unfold Shape.mkTP at hs
    split at hs
    · injection hs with hs; subst hs; simp [Shape.flatBases]
    · cases hs
    · cases h : Shape.tpInit inner with
      | error e => rw [h] at hs; cases hs
      | ok fl =>
        rw [h] at hs
        injection hs with hs
        subst hs
        exact ((tpInit_ok_iff _ _).1 h).1
  rw [mkTP_of_length_ne_one _ h1, mkTP_of_length_ne_one _ h2]
  unfold Shape.tpInit
  simp [List.flatMap_append, hfl]

/-- `Hypercube(d)`: always constructible, dimension `d`, `2^d` vertices and the bases of the product
of `d` segments. -/
theorem C12_hypercube (d : Nat) :
    ∃ s, Shape.mkHypercube d = .ok s ∧ s.dim = d ∧ s.nvertices = 2 ^ d ∧
      s.flatBases = List.replicate d 1 := by
  unfold Shape.mkHypercube
  by_cases h : d = 1
  · subst h; exact ⟨.simplex 1, rfl, rfl, rfl, rfl⟩
  · rw [if_neg h]
    have hf : (List.replicate d (Shape.simplex 1)).flatMap Shape.flatBases = List.replicate d 1 := by
      clear h
      induction d with
      | zero => rfl
      | succ d ih => simp [List.replicate_succ, ih, Shape.flatBases]
    have := (tpInit_ok_iff (List.replicate d (Shape.simplex 1)) _).2 ⟨rfl, by rw [hf]; simp⟩
    rw [this]
    exact ⟨.hypercube d, rfl, by simp [Shape.dim],
      by simp [Shape.nvertices, Shape.flatBases, Shape.simplexCount], rfl⟩

theorem insertSorted_replicate (a k : Nat) :
    Shape.insertSorted a (List.replicate k a) = List.replicate (k + 1) a := by
  induction k with
  | zero => rfl
  | succ k ih => simp only [List.replicate_succ, Shape.insertSorted] at ih ⊢; simp [ih]

theorem sorted_replicate (a k : Nat) : Shape.sorted (List.replicate k a) = List.replicate k a := by
  induction k with
  | zero => rfl
  | succ k ih =>
    rw [List.replicate_succ, Shape.sorted, List.foldr_cons, ← Shape.sorted, ih,
      insertSorted_replicate, List.replicate_succ]

theorem insertSorted_lt (a b k : Nat) (h : b < a) :
    Shape.insertSorted a (List.replicate k b) = List.replicate k b ++ [a] := by
  induction k with
  | zero => rfl
  | succ k ih => simp only [List.replicate_succ, Shape.insertSorted]; simp [h.le, ih]

theorem insertSorted_gt (a b k : Nat) (h : b < a) :
    Shape.insertSorted b (List.replicate k b ++ [a]) = List.replicate (k + 1) b ++ [a] := by
  induction k with
  | zero => simp [Shape.insertSorted, Nat.not_le.2 h]
  | succ k ih =>
    simp only [List.replicate_succ, List.cons_append, Shape.insertSorted] at ih ⊢
    simp [ih]

theorem sorted_prism (a k l : Nat) (h : 1 < a) :
    Shape.sorted (List.replicate k 1 ++ a :: List.replicate l 1) =
      List.replicate (k + l) 1 ++ [a] := by
  induction k with
  | zero =>
    simp only [List.replicate_zero, List.nil_append, Nat.zero_add]
    rw [Shape.sorted, List.foldr_cons, ← Shape.sorted, sorted_replicate, insertSorted_lt _ _ _ h]
  | succ k ih =>
    rw [List.replicate_succ, List.cons_append, Shape.sorted, List.foldr_cons, ← Shape.sorted, ih,
      insertSorted_gt _ _ _ h]
    congr 2
    omega

/-- `nfaces` of cubes is `2d` (for `d ≥ 1`; `Hypercube(1)` is a simplex). -/
theorem C12_hypercube_nfaces (d : Nat) (hd : 1 ≤ d) (s : Shape) (hs : Shape.mkHypercube d = .ok s) :
    s.nfaces = .ok (2 * d) := by
  unfold Shape.mkHypercube at hs
  split_ifs at hs with h
  · injection hs with hs; subst hs; subst h; rfl
  · cases h' : Shape.tpInit (List.replicate d (Shape.simplex 1)) with
    | error e => rw [h'] at hs; cases hs
    | ok fl =>
      rw [h'] at hs
      injection hs with hs
      subst hs
      obtain ⟨k, rfl⟩ : ∃ k, d = k + 2 := ⟨d - 2, by omega⟩
      simp only [Shape.nfaces, Shape.nfacesTP, Shape.flatBases, sorted_replicate]
      have e1 : (List.replicate (k + 2) 1).getLast? = some 1 := by
        rw [List.getLast?_replicate]; simp
      have e2 : (List.replicate (k + 2) 1).dropLast = 1 :: List.replicate k 1 := by
        rw [List.dropLast_replicate]; simp [List.replicate_succ]
      rw [e1, e2]
      simp [Shape.simplexCount]
      omega

/-- `nfaces` of a product of one simplex of dimension `a ≥ 2` with `k+l ≥ 1` segments (in any
position): each facet of one factor times the rest, i.e. `(a+1) + 2(k+l)`. -/
theorem C12_prism_nfaces (a k l : Nat) (ha : 2 ≤ a) (hkl : 1 ≤ k + l) :
    (Shape.tp (List.replicate k 1 ++ a :: List.replicate l 1)).nfaces =
      .ok ((a + 1) + 2 * (k + l)) := by
  simp only [Shape.nfaces, Shape.nfacesTP, Shape.flatBases, sorted_prism a k l (by omega)]
  obtain ⟨m, hm⟩ : ∃ m, k + l = m + 1 := ⟨k + l - 1, by omega⟩
  rw [hm]
  have e1 : (List.replicate (m + 1) 1 ++ [a]).getLast? = some a := by simp
  have e2 : (List.replicate (m + 1) 1 ++ [a]).dropLast = 1 :: List.replicate m 1 := by
    rw [List.dropLast_concat, List.replicate_succ]
  rw [e1, e2]
  simp [Shape.simplexCount]
  omega

/-- Zero-dimensional products have no `nfaces` (the tuple unpacking fails). -/
theorem C12_nfaces_empty : (Shape.tp []).nfaces = .error .ValueError ∧
    (Shape.hypercube 0).nfaces = .error .ValueError := ⟨rfl, rfl⟩

/-- A product of one simplex or one (already valid) product is that shape ... -/
theorem C12_singleton_partial (d : Nat) (bs : List Shape) (s : Shape)
    (hs : Shape.mkTP bs = .ok s) (hh : ∀ d, s ≠ .hypercube d) :
    Shape.mkTP [.simplex d] = .ok (.simplex d) ∧ Shape.mkTP [s] = .ok s := by
  refine ⟨rfl, ?_⟩
  cases s with
  | simplex d => rfl
  | hypercube d => exact absurd rfl (hh d)
  | tp l =>
    have hl : (l.filter (· ≠ 1)).length ≤ 1 := by
      unfold Shape.mkTP at hs
      split at hs
      · injection hs with hs; cases hs
      · cases hs
      · cases h : Shape.tpInit bs with
        | error e => rw [h] at hs; cases hs
        | ok fl =>
          rw [h] at hs
          injection hs with hs
          injection hs with hs
          subst hs
          have := (tpInit_ok_iff _ _).1 h
          rw [this.1]; exact this.2
    show (Shape.tpInit [.tp l]).map Shape.tp = _
    have : Shape.tpInit [.tp l] = .ok l := (tpInit_ok_iff _ _).2 ⟨by simp [Shape.flatBases],
      by simpa [Shape.flatBases] using hl⟩
    rw [this]; rfl

/-- ... but not for a hypercube of dimension other than one: the documented identity
`TensorProductShape((s,)) == s` fails with a `TypeError`. -/
theorem C12_singleton_hypercube_fails (d : Nat) (hd : d ≠ 1) :
    ∃ s, Shape.mkHypercube d = .ok s ∧ Shape.mkTP [s] = .error .TypeError := by
  obtain ⟨s, hs, -⟩ := C12_hypercube d
  refine ⟨s, hs, ?_⟩
  unfold Shape.mkHypercube at hs
  rw [if_neg hd] at hs
  cases h' : Shape.tpInit (List.replicate d (Shape.simplex 1)) with
  | error e => rw [h'] at hs; cases hs
  | ok fl => rw [h'] at hs; injection hs with hs; subst hs; rfl

example : ∃ bases : List Shape, bases.length ≠ 1 ∧
    ((bases.flatMap Shape.flatBases).filter (· ≠ 1)).length ≤ 1 ∧
    bases = [.simplex 2, .hypercube 2] := ⟨_, by simp, by simp [Shape.flatBases], rfl⟩
example : Shape.mkTP [.simplex 2, .simplex 3] = .error .NotImplementedError := by decide

/-! ## C13: function spaces -/

/-- Products of zero or at least two spaces flatten; `spatial_dim` adds, `space_dim` multiplies. -/
theorem C13_construct (bases : List Space) (hlen : bases.length ≠ 1) :
    ∃ s, Space.mkTP bases = .ok s ∧ s.flatBases = bases.flatMap Space.flatBases ∧
      s.spatialDim = (bases.map Space.spatialDim).sum ∧
      s.spaceDim = (bases.map Space.spaceDim).prod := by
  have : Space.mkTP bases = .ok (.tp (bases.flatMap Space.flatBases)) := by
    unfold Space.mkTP
    split
    · simp at hlen
    · simp at hlen
    · rfl
  refine ⟨_, this, rfl, ?_, ?_⟩
  · clear this hlen
    induction bases with
    | nil => rfl
    | cons a l ih =>
      simp only [Space.spatialDim, Space.flatBases] at ih
      simp only [Space.spatialDim, Space.flatBases, List.flatMap_cons, List.map_append,
        List.sum_append, List.map_cons, List.sum_cons, ih]
      congr 1
      cases a <;> simp only [Space.flatBases, Space.spatialDim, List.map_cons, List.map_nil, List.sum_cons, List.sum_nil, Nat.add_zero]
  · clear this hlen
    induction bases with
    | nil => rfl
    | cons a l ih =>
      simp only [Space.spaceDim, Space.flatBases] at ih
      simp only [Space.spaceDim, Space.flatBases, List.flatMap_cons, List.map_append,
        List.prod_append, List.map_cons, List.prod_cons, ih]
      congr 1
      cases a <;> simp only [Space.flatBases, Space.spaceDim, List.map_cons, List.map_nil, List.prod_cons, List.prod_nil, Nat.mul_one]

/-- Nested products of spaces flatten. -/
theorem C13_nested (pre inner post : List Space) (s : Space) (hs : Space.mkTP inner = .ok s)
    (h1 : (pre ++ s :: post).length ≠ 1) (h2 : (pre ++ inner ++ post).length ≠ 1) :
    Space.mkTP (pre ++ s :: post) = Space.mkTP (pre ++ inner ++ post) := by
  have hfl : s.flatBases = inner.flatMap Space.flatBases := by
    unfold Space.mkTP at hs
    split at hs
    · injection hs with hs; subst hs; simp [Space.flatBases]
    · cases hs
    · injection hs with hs; subst hs; rfl
  have key : ∀ l : List Space, l.length ≠ 1 → Space.mkTP l = .ok (.tp (l.flatMap Space.flatBases)) := by
    intro l hl
    unfold Space.mkTP
    split
    · simp at hl
    · simp at hl
    · rfl
  rw [key _ h1, key _ h2]
  simp [List.flatMap_append, hfl]

/-- `QN(d, n)` has dimension `(n+1)^d` in every dimension, and spatial dimension `d`. -/
theorem C13_qn (d n : Nat) : (Space.mkQN d n).spaceDim = (n + 1) ^ d ∧
    (Space.mkQN d n).spatialDim = d := by
  unfold Space.mkQN
  split_ifs with h
  · subst h; simp [Space.spaceDim, PNSpace.spaceDim, Space.spatialDim]
  · simp [Space.spaceDim, Space.flatBases, PNSpace.spaceDim, Space.spatialDim]

theorem Space.mkTP_pn (l : List PNSpace) :
    ∃ s, Space.mkTP (l.map Space.pn) = .ok s ∧ s.flatBases = l ∧
      s.spatialDim = (l.map PNSpace.spatialDim).sum := by
  match l with
  | [] => exact ⟨_, rfl, rfl, rfl⟩
  | [a] => exact ⟨_, rfl, rfl, by simp [Space.spatialDim]⟩
  | a :: b :: l =>
    have hf : ∀ l : List PNSpace, (l.map Space.pn).flatMap Space.flatBases = l := by
      intro l
      induction l with
      | nil => rfl
      | cons a l ih => simp [ih, Space.flatBases]
    refine ⟨.tp ((a :: b :: l).map Space.pn |>.flatMap Space.flatBases), rfl, hf _, ?_⟩
    simp only [Space.spatialDim, Space.flatBases, hf]

/-- `space_for_shape` matches the shape's dimension, for integer orders (always succeeds) and tuple
orders (succeeds iff one order per base; not for simplices). -/
theorem C13_space_for_shape (shape : Shape) (n : Nat) :
    ∃ s, Space.forShape shape (.int n) = .ok s ∧ s.spatialDim = shape.dim ∧
      s.flatBases = shape.flatBases.map fun d => ⟨d, n⟩ := by
  have key : ∀ l : List Nat, ∃ s, Space.mkTP (l.map fun d => Space.pn ⟨d, n⟩) = .ok s ∧
      s.flatBases = l.map (fun d => ⟨d, n⟩) ∧ s.spatialDim = l.sum := by
    intro l
    obtain ⟨s, h1, h2, h3⟩ := Space.mkTP_pn (l.map fun d => ⟨d, n⟩)
    rw [List.map_map] at h1
    refine ⟨s, h1, h2, ?_⟩
    rw [h3, List.map_map]
    congr 1
    exact List.map_id l
  cases shape with
  | simplex d => exact ⟨_, rfl, rfl, rfl⟩
  | tp bs =>
    obtain ⟨s, h1, h2, h3⟩ := key bs
    exact ⟨s, h1, h3, h2⟩
  | hypercube d =>
    obtain ⟨s, h1, h2, h3⟩ := key (List.replicate d 1)
    exact ⟨s, h1, h3, h2⟩

theorem C13_space_for_shape_tuple (shape : Shape) (hs : shape.isTP = true) (ns : List Nat) :
    (ns.length = shape.flatBases.length →
      ∃ s, Space.forShape shape (.tuple ns) = .ok s ∧ s.spatialDim = shape.dim ∧
        s.flatBases = List.zipWith PNSpace.mk shape.flatBases ns) ∧
    (ns.length ≠ shape.flatBases.length →
      Space.forShape shape (.tuple ns) = .error .ValueError) := by
  have hf : Space.forShape shape (.tuple ns) =
      if ns.length = shape.flatBases.length then
        Space.mkTP (List.zipWith (fun d n => Space.pn ⟨d, n⟩) shape.flatBases ns)
      else .error .ValueError := by
    cases shape <;> first | rfl | simp [Shape.isTP] at hs
  constructor
  · intro h
    rw [hf, if_pos h]
    obtain ⟨s, h1, h2, h3⟩ := Space.mkTP_pn (List.zipWith PNSpace.mk shape.flatBases ns)
    rw [List.map_zipWith] at h1
    refine ⟨s, h1, ?_, h2⟩
    have hd : shape.dim = shape.flatBases.sum := by
      cases shape <;> simp [Shape.dim, Shape.flatBases]
    rw [h3, hd]
    congr 1
    rw [List.map_zipWith]
    clear h1 h2 h3 hd hf
    generalize shape.flatBases = l at h ⊢
    induction l generalizing ns with
    | nil => simp
    | cons a l ih =>
      cases ns with
      | nil => simp at h
      | cons b ns => simp at h; simp [ih ns h]
  · intro h
    rw [hf, if_neg h]

/-- A simplex space takes one integer order only. -/
theorem C13_simplex_tuple (d : Nat) (ns : List Nat) :
    Space.forShape (.simplex d) (.tuple ns) = .error .AssertionError := rfl

/-- `order` of a product is defined exactly when all base orders agree (and there is a base). -/
theorem C13_order (bases : List PNSpace) (n : Nat) :
    Space.order (.tp bases) = .ok n ↔ bases ≠ [] ∧ ∀ b ∈ bases, b.order = n := by
  unfold Space.order
  cases bases with
  | nil => simp [Pytools.isSingleValued]
  | cons a l =>
    simp only [List.map_cons, Pytools.isSingleValued]
    cases h : (l.map PNSpace.order).all (· = a.order) with
    | true =>
      simp only [List.all_map, List.all_eq_true, Function.comp, decide_eq_true_eq] at h
      simp only [List.headD_cons]
      constructor
      · intro h'
        injection h' with h'
        subst h'
        refine ⟨by simp, ?_⟩
        intro b hb
        rcases List.mem_cons.1 hb with rfl | hb
        · rfl
        · exact h b hb
      · rintro ⟨_, h'⟩
        rw [h' a (by simp)]
    | false =>
      simp only
      constructor
      · intro h'; cases h'
      · rintro ⟨_, h'⟩
        exfalso
        have : (l.map PNSpace.order).all (· = a.order) = true := by
          simp only [List.all_map, List.all_eq_true, Function.comp, decide_eq_true_eq]
          intro b hb
          rw [h' b (by simp [hb]), h' a (by simp)]
        rw [this] at h
        cases h

/-- The one-element product of a `QN` space fails with a `TypeError` (as for shapes). -/
theorem C13_singleton_qn_fails (d n : Nat) (hd : d ≠ 1) :
    Space.mkTP [Space.mkQN d n] = .error .TypeError := by
  unfold Space.mkQN; rw [if_neg hd]; rfl

example : Space.forShape (.tp [2, 1]) (.tuple [3, 5]) = .ok (.tp [⟨2, 3⟩, ⟨1, 5⟩]) := by decide
example : Space.order (.tp [⟨2, 3⟩, ⟨1, 3⟩]) = .ok 3 := by decide

end Modepy

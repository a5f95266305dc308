import Verif.Proofs.SubmeshTables
import Mathlib.Data.Nat.Choose.Factorization
import Mathlib.Tactic.NormNum

/-!
# Properties C06, C07: submeshes
-/

namespace Modepy
open Pytools Spec

/-! ## C06 -/

theorem count_eq_1 (n : Nat) : (collectElements (gnitsam n 1) table1).length = n ^ 1 := by
  rw [count_1]
  split
  · rw [Nat.choose_one_right, pow_one]; omega
  · rw [pow_one]; omega

theorem count_eq_2 (n : Nat) : (collectElements (gnitsam n 2) table2).length = n ^ 2 := by
  rw [count_2]
  match n with
  | 0 => rfl
  | 1 => rfl
  | m + 2 =>
    rw [if_pos (by omega), if_pos (by omega)]
    have h1 := Nat.descFactorial_eq_factorial_mul_choose (m + 3) 2
    have h2 := Nat.descFactorial_eq_factorial_mul_choose (m + 2) 2
    simp only [Nat.descFactorial, Nat.factorial] at h1 h2
    have e1 : m + 2 - 1 + 2 = m + 3 := by omega
    have e2 : m + 2 - 2 + 2 = m + 2 := by omega
    rw [e1, e2]
    have e3 : m + 3 - 1 = m + 2 := by omega
    have e4 : m + 2 - 1 = m + 1 := by omega
    simp only [e3, e4, Nat.sub_zero] at h1 h2
    nlinarith

theorem count_eq_3 (n : Nat) : (collectElements (gnitsam n 3) table3).length = n ^ 3 := by
  rw [count_3]
  match n with
  | 0 => rfl
  | 1 => rfl
  | 2 => rfl
  | m + 3 =>
    simp only [show 1 ≤ m + 3 by omega, show 2 ≤ m + 3 by omega, show 3 ≤ m + 3 by omega, if_true]
    have h1 := Nat.descFactorial_eq_factorial_mul_choose (m + 5) 3
    have h2 := Nat.descFactorial_eq_factorial_mul_choose (m + 4) 3
    have h3 := Nat.descFactorial_eq_factorial_mul_choose (m + 3) 3
    simp only [Nat.descFactorial, Nat.factorial] at h1 h2 h3
    rw [show m + 3 - 1 + 3 = m + 5 by omega, show m + 3 - 2 + 3 = m + 4 by omega,
      show m + 3 - 3 + 3 = m + 3 by omega]
    simp only [show m + 5 - 1 = m + 4 by omega, show m + 5 - 2 = m + 3 by omega,
      show m + 4 - 1 = m + 3 by omega, show m + 4 - 2 = m + 2 by omega,
      show m + 3 - 1 = m + 2 by omega, show m + 3 - 2 = m + 1 by omega, Nat.sub_zero] at h1 h2 h3
    nlinarith

/-- **C06.**  For `d = 1, 2, 3` and every order `n ≥ 1`, `submesh_for_shape(Simplex(d), tuples)` with
the node tuples of `PN(d, n)` returns `n^d` elements forming a positively oriented tessellation of
the simplex (in index units). -/
theorem C06_tessellation (d n : Nat) (h1 : 1 ≤ d) (h3 : d ≤ 3) (hn : 1 ≤ n) :
    ∃ elems, submeshForShape (.simplex d) (nodeTuples (.pn ⟨d, n⟩)) = .ok elems ∧
      elems.length = n ^ d ∧
      SimplexTessellation d (nodeTuples (.pn ⟨d, n⟩)) elems (IndexSimplex d n) := by
  interval_cases d
  · refine ⟨collectElements (gnitsam n 1) table1, ?_, count_eq_1 n, ?_⟩
    · simp only [submeshForShape, submeshForSimplex, nodeTuples, nodeTuplesPN,
        singleValued_gnitsam, simplexOffsets_1]
    · exact tessellation_of_table (by simp [table1]) det_1 noOverlap_same_1 noOverlap_diff_1
        (cover_1 n hn)
  · refine ⟨collectElements (gnitsam n 2) table2, ?_, count_eq_2 n, ?_⟩
    · simp only [submeshForShape, submeshForSimplex, nodeTuples, nodeTuplesPN,
        singleValued_gnitsam, simplexOffsets_2]
    · exact tessellation_of_table (by simp [table2]) det_2 noOverlap_same_2 noOverlap_diff_2
        (cover_2 n hn)
  · refine ⟨collectElements (gnitsam n 3) table3, ?_, count_eq_3 n, ?_⟩
    · simp only [submeshForShape, submeshForSimplex, nodeTuples, nodeTuplesPN,
        singleValued_gnitsam, simplexOffsets_3]
    · exact tessellation_of_table (by simp [table3]) det_3 noOverlap_same_3 noOverlap_diff_3
        (cover_3 n hn)

/-- Order `0` (one node): no elements. -/
theorem C06_order_zero (d : Nat) (h1 : 1 ≤ d) (h3 : d ≤ 3) :
    submeshForShape (.simplex d) (nodeTuples (.pn ⟨d, 0⟩)) = .ok [] := by
  interval_cases d <;> decide

/-- Other dimensions raise `NotImplementedError`. -/
theorem C06_other_dims (d n : Nat) (h : d < 1 ∨ 3 < d) :
    submeshForShape (.simplex d) (nodeTuples (.pn ⟨d, n⟩)) = .error .NotImplementedError := by
  have hs : simplexOffsets d = none := by
    match d, h with
    | 0, _ => rfl
    | d + 4, _ => rfl
    | 1, h => omega
    | 2, h => omega
    | 3, h => omega
  simp only [submeshForShape, submeshForSimplex, nodeTuples, nodeTuplesPN, singleValued_gnitsam, hs]

/-- The dimension is taken from the node tuples: tuples of different lengths are rejected. -/
theorem C06_ragged (d : Nat) (nts : List (List Nat)) (s t : List Nat) (hs : s ∈ nts) (ht : t ∈ nts)
    (hne : s.length ≠ t.length) :
    submeshForShape (.simplex d) nts = .error .AssertionError := by
  cases nts with
  | nil => simp at hs
  | cons u us =>
    have : ¬ ((us.map List.length).all (· = u.length)) = true := by
      intro hall
      simp only [List.all_map, List.all_eq_true, Function.comp_apply, decide_eq_true_eq] at hall
      apply hne
      have key : ∀ w ∈ u :: us, w.length = u.length := by
        intro w hw
        rcases List.mem_cons.1 hw with rfl | hw
        · rfl
        · exact hall w hw
      rw [key s hs, key t ht]
    simp only [submeshForShape, submeshForSimplex, List.map_cons, singleValued, if_neg this]

example : submeshForShape (.simplex 2) (nodeTuples (.pn ⟨2, 2⟩)) =
    .ok [[0, 1, 3], [1, 4, 3], [1, 2, 4], [3, 4, 5]] := by decide

/-- The tessellated region is not trivial. -/
example : IndexSimplex 2 2 [1/2, 3/4] := by
  refine ⟨rfl, ?_, ?_⟩
  · intro c hc; simp at hc; rcases hc with rfl | rfl <;> norm_num
  · norm_num

/-! ## C07 -/

/-- Node tuples of a product of one-dimensional spaces of orders `ns`. -/
def Spec.boxSpace (ns : List Nat) : Space := .tp (ns.map fun n => ⟨1, n⟩)

/-- Element `e` is the unit cube with lowest corner `cur`, its vertices listed in the order of the
unit vertices of the hypercube: bit `i` of the position `k` is the offset along axis `i`. -/
def Spec.IsCubeCell (d : Nat) (nodes : List (List Nat)) (e cur : List Nat) : Prop :=
  cur.length = d ∧ e.length = 2 ^ d ∧
    ∀ k < 2 ^ d, e.getD k 0 < nodes.length ∧
      nodes.getD (e.getD k 0) [] =
        (List.range d).map fun i => cur.getD i 0 + if k.testBit i then 1 else 0

theorem mem_boxNodes (ns t : List Nat) :
    t ∈ nodeTuples (boxSpace ns) ↔ List.Forall₂ (fun n a => a ≤ n) ns t := by
  show t ∈ nodeTuplesTP _ ↔ _
  simp only [Space.flatBases, boxSpace]
  rw [mem_nodeTuplesTP]
  constructor
  · rintro ⟨parts, hp, rfl⟩
    induction ns generalizing parts with
    | nil => cases hp; exact .nil
    | cons n ns ih =>
      cases hp with
      | @cons _ p _ ps h1 h2 =>
        obtain ⟨a, rfl⟩ := natList1 h1.1
        exact .cons (by simpa using h1.2) (ih ps h2)
  · intro h
    refine ⟨t.map fun a => [a], ?_, ?_⟩
    · induction h with
      | nil => exact .nil
      | @cons n a ns t h1 _ ih => exact .cons ⟨rfl, by simpa using h1⟩ ih
    · clear h
      induction t with
      | nil => rfl
      | cons a t ih => simp only [List.map_cons, List.flatten_cons, ← ih]; rfl

theorem nodup_boxNodes (ns : List Nat) : (nodeTuples (boxSpace ns)).Nodup :=
  nodup_nodeTuplesTP _

theorem length_boxNodes (ns : List Nat) :
    (nodeTuples (boxSpace ns)).length = (ns.map (· + 1)).prod := by
  show (nodeTuplesTP _).length = _
  rw [length_nodeTuplesTP]
  simp only [Space.flatBases, boxSpace, List.map_map]
  congr 1
  apply List.map_congr_left
  intro n _
  simp [PNSpace.spaceDim]

/-- The 0/1 tuples in bit order. -/
theorem unit_tuples (d : Nat) :
    nodeTuples (boxSpace (List.replicate d 1)) =
      (List.range (2 ^ d)).map fun k => (List.range d).map fun i => if k.testBit i then 1 else 0 := by
  have hlen := length_boxNodes (List.replicate d 1)
  simp only [List.map_replicate, List.prod_replicate] at hlen
  apply List.ext_getElem
  · simpa using hlen
  · intro k h1 h2
    have hk : k < 2 ^ d := by simpa using h2
    have := getD_nodeTuplesTP (boxSpace (List.replicate d 1)).flatBases k (by
      simp [boxSpace, Space.flatBases, PNSpace.spaceDim, hk])
    have h3 : (nodeTuplesTP (boxSpace (List.replicate d 1)).flatBases).getD k [] =
        (nodeTuples (boxSpace (List.replicate d 1)))[k] := by
      rw [List.getD_eq_getElem?_getD]
      have : (nodeTuplesTP (boxSpace (List.replicate d 1)).flatBases)[k]? =
        some (nodeTuples (boxSpace (List.replicate d 1)))[k] := List.getElem?_eq_getElem h1
      rw [this]; rfl
    rw [h3] at this
    rw [this]
    simp only [List.getElem_map, List.getElem_range]
    have key : ∀ i ∈ List.range (boxSpace (List.replicate d 1)).flatBases.length,
        (nodeTuplesPN ((boxSpace (List.replicate d 1)).flatBases.getD i ⟨0, 0⟩)).getD
          (Spec.digit ((boxSpace (List.replicate d 1)).flatBases.map PNSpace.spaceDim) k i) [] =
        [if k.testBit i then 1 else 0] := by
      intro i hi
      have hi : i < d := by simpa [boxSpace, Space.flatBases] using hi
      have e1 : (boxSpace (List.replicate d 1)).flatBases.getD i ⟨0, 0⟩ = ⟨1, 1⟩ := by
        simp [boxSpace, Space.flatBases, List.getD_eq_getElem?_getD, hi]
      have e2 : Spec.digit ((boxSpace (List.replicate d 1)).flatBases.map PNSpace.spaceDim) k i =
          k / 2 ^ i % 2 := by
        simp [Spec.digit, boxSpace, Space.flatBases, PNSpace.spaceDim, List.take_replicate,
          Nat.min_eq_left hi.le, List.getD_eq_getElem?_getD, hi]
      rw [e1, e2, Nat.testBit_eq_decide_div_mod_eq]
      have h01 : k / 2 ^ i % 2 = 0 ∨ k / 2 ^ i % 2 = 1 := by omega
      rcases h01 with h | h <;> rw [h] <;> rfl
    rw [List.map_congr_left key]
    have hl : (boxSpace (List.replicate d 1)).flatBases.length = d := by
      simp [boxSpace, Space.flatBases]
    rw [hl]
    generalize List.range d = l
    induction l with
    | nil => rfl
    | cons a l ih => simp only [List.map_cons, List.flatten_cons, ih]; rfl

theorem forShape_hypercube (d : Nat) (hd : d ≠ 1) :
    Space.forShape (.hypercube d) (.int 1) = .ok (boxSpace (List.replicate d 1)) := by
  match d, hd with
  | 0, _ => rfl
  | d + 2, _ =>
    have hs : Space.forShape (.hypercube (d + 2)) (.int 1) =
        Space.mkTP ((Shape.hypercube (d + 2)).flatBases.map fun d => .pn ⟨d, 1⟩) := by
      simp only [Space.forShape]
    rw [hs]
    simp only [Shape.flatBases, List.map_replicate, List.replicate_succ]
    simp only [Space.mkTP, boxSpace, List.map_cons, List.map_replicate, List.flatMap_cons,
      Space.flatBases]
    congr 2
    have : ∀ d, (List.replicate d (Space.pn ⟨1, 1⟩)).flatMap Space.flatBases
        = List.replicate d ⟨1, 1⟩ := by
      intro d
      induction d with
      | zero => rfl
      | succ d ih => rw [List.replicate_succ, List.flatMap_cons, ih]; rfl
    rw [this]; rfl

/-- All corners of the cube at `cur` are nodes iff `cur` is below the orders. -/
theorem corners_iff {ns cur : List Nat} (hl : cur.length = ns.length) :
    (∀ o ∈ nodeTuples (boxSpace (List.replicate ns.length 1)),
      addTuples cur o ∈ nodeTuples (boxSpace ns)) ↔ List.Forall₂ (fun n a => a < n) ns cur := by
  simp only [mem_boxNodes]
  constructor
  · intro h
    have h1 := h (List.replicate ns.length 1) (by
      induction ns.length with
      | zero => exact .nil
      | succ n ih => exact .cons le_rfl ih)
    clear h
    induction ns generalizing cur with
    | nil => cases cur <;> simp_all
    | cons n ns ih =>
      cases cur with
      | nil => simp at hl
      | cons a cur =>
        simp only [List.length_cons, List.replicate_succ, addTuples, List.zipWith_cons_cons,
          List.forall₂_cons] at h1 ⊢
        exact ⟨by omega, ih (by simpa using hl) h1.2⟩
  · intro h o ho
    induction h generalizing o with
    | nil => cases ho; exact .nil
    | @cons n a ns cur h1 _ ih =>
      cases ho with
      | @cons _ b _ o hb ho =>
        simp only [addTuples, List.zipWith_cons_cons]
        exact .cons (by omega) (ih (by simpa using hl) o ho)

theorem addTuples_eq_map {cur o : List Nat} {d : Nat} (h1 : cur.length = d) (h2 : o.length = d) :
    addTuples cur o = (List.range d).map fun i => cur.getD i 0 + o.getD i 0 := by
  apply List.ext_getElem
  · simp [addTuples, h1, h2]
  · intro i h3 h4
    have hi : i < d := by simpa using h4
    simp [addTuples, List.getD_eq_getElem?_getD, List.getElem?_eq_getElem (h1 ▸ hi),
      List.getElem?_eq_getElem (h2 ▸ hi)]

theorem isCubeCell_of_tryAdd {ns cur e : List Nat} (hl : cur.length = ns.length)
    (h : tryAdd (nodeTuples (boxSpace ns)) cur (nodeTuples (boxSpace (List.replicate ns.length 1)))
      = some e) : IsCubeCell ns.length (nodeTuples (boxSpace ns)) e cur := by
  obtain ⟨h1, h2, h3, -⟩ := tryAdd_some h
  have hlen : e.length = 2 ^ ns.length := by rw [h1, unit_tuples]; simp
  refine ⟨hl, hlen, ?_⟩
  intro k hk
  have hke : k < e.length := by omega
  have hget : e.getD k 0 = e[k] := by
    rw [List.getD_eq_getElem?_getD, List.getElem?_eq_getElem hke]; rfl
  refine ⟨by rw [hget]; exact h2 _ (List.getElem_mem hke), ?_⟩
  have h4 := congrArg (fun l => l[k]?) h3
  simp only [elementPoints, unit_tuples, List.getElem?_map, List.getElem?_eq_getElem hke,
    List.getElem?_range hk, Option.map_some, Option.some.injEq] at h4
  rw [hget, h4, addTuples_eq_map hl (by simp)]
  apply List.map_congr_left
  intro i hi
  have hi : i < ns.length := by simpa using hi
  simp [List.getD_eq_getElem?_getD, hi]

theorem isCubeCell_unique {d : Nat} {nodes : List (List Nat)} {e cur cur' : List Nat}
    (h : IsCubeCell d nodes e cur) (h' : IsCubeCell d nodes e cur') : cur = cur' := by
  obtain ⟨l1, _, h⟩ := h
  obtain ⟨l2, _, h'⟩ := h'
  have e0 := (h 0 (by positivity)).2.symm.trans (h' 0 (by positivity)).2
  simp only [Nat.zero_testBit, Bool.false_eq_true, if_false, add_zero] at e0
  apply List.ext_getElem (by rw [l1, l2])
  intro i hi1 hi2
  have h5 := congrArg (fun l => l[i]?) e0
  simpa [List.getElem?_range (l1 ▸ hi1), List.getD_eq_getElem?_getD, hi1, hi2] using h5

theorem forall2_lt_iff {ns cur : List Nat} :
    List.Forall₂ (fun n a => a < n) ns cur ↔
      cur.length = ns.length ∧ ∀ i < ns.length, cur.getD i 0 < ns.getD i 0 := by
  rw [List.forall₂_iff_get]
  constructor
  · rintro ⟨h1, h2⟩
    refine ⟨h1.symm, fun i hi => ?_⟩
    have := h2 i hi (h1 ▸ hi)
    simpa [List.getD_eq_getElem?_getD, hi, h1 ▸ hi] using this
  · rintro ⟨h1, h2⟩
    refine ⟨h1.symm, fun i hi hi' => ?_⟩
    simpa [List.getD_eq_getElem?_getD, hi, hi'] using h2 i hi

theorem count_cells (ns : List Nat) :
    (collectElements (nodeTuples (boxSpace ns))
      [nodeTuples (boxSpace (List.replicate ns.length 1))]).length = ns.prod := by
  rw [length_collectElements]
  simp only [List.map_cons, List.map_nil, List.sum_cons, List.sum_nil, add_zero]
  have h1 : ((nodeTuples (boxSpace ns)).countP fun cur =>
      (tryAdd (nodeTuples (boxSpace ns)) cur
        (nodeTuples (boxSpace (List.replicate ns.length 1)))).isSome) =
      (nodeTuples (boxSpace ns)).countP fun cur =>
        decide (List.Forall₂ (fun n a => a < n) ns cur) := by
    apply List.countP_congr
    intro cur hcur
    have hl : cur.length = ns.length := ((mem_boxNodes _ _).1 hcur).length_eq.symm
    rw [Option.isSome_iff_exists, tryAdd_isSome, corners_iff hl, decide_eq_true_iff]
  rw [h1]
  by_cases h0 : 0 ∈ ns
  · rw [List.prod_eq_zero h0, List.countP_eq_zero]
    intro t ht
    rw [decide_eq_true_iff]
    intro h
    clear h1 ht
    induction h with
    | nil => simp at h0
    | @cons n a ns t h1 _ ih =>
      rcases List.mem_cons.1 h0 with h | h
      · omega
      · exact ih h
  · have hp : ns.prod = ((ns.map (· - 1)).map (· + 1)).prod := by
      congr 1
      rw [List.map_map]
      conv_lhs => rw [← List.map_id ns]
      apply List.map_congr_left
      intro n hn
      have : n ≠ 0 := fun h => h0 (h ▸ hn)
      simp; omega
    rw [hp, ← length_boxNodes, List.countP_eq_length_filter]
    apply List.Perm.length_eq
    rw [List.perm_ext_iff_of_nodup ((nodup_boxNodes ns).filter _) (nodup_boxNodes _)]
    intro t
    rw [List.mem_filter, decide_eq_true_iff, mem_boxNodes, mem_boxNodes]
    have h0' : ∀ n ∈ ns, n ≠ 0 := fun n hn h => h0 (h ▸ hn)
    clear h1 hp h0
    constructor
    · rintro ⟨-, h⟩
      induction h with
      | nil => exact .nil
      | @cons n a ns t h1 _ ih =>
        exact .cons (Nat.le_sub_one_of_lt h1) (ih fun n hn => h0' n (by simp [hn]))
    · intro h
      induction ns generalizing t with
      | nil => cases h; exact ⟨.nil, .nil⟩
      | cons n ns ih =>
        cases h with
        | @cons _ a _ t h1 h2 =>
          obtain ⟨i1, i2⟩ := ih t (fun n hn => h0' n (by simp [hn])) h2
          have := h0' n (by simp)
          have h1 : a ≤ n - 1 := h1
          exact ⟨.cons (by omega) i1, .cons (by omega) i2⟩

/-- **C07 (cells).**  For the `d`-cube (`d ≠ 1`; `Hypercube(1)` is `Simplex(1)`, C06) and the node
tuples of the product of one-dimensional spaces of any orders `ns`: `submesh_for_shape` returns
`∏ ns` elements; each is the unit cube at some `cur` below the orders, with its vertices in
unit-vertex order; every such `cur` occurs, and no two elements belong to the same `cur`. -/
theorem C07_hypercube_cells (ns : List Nat) (hd : ns.length ≠ 1) :
    ∃ elems, submeshForShape (.hypercube ns.length) (nodeTuples (boxSpace ns)) = .ok elems ∧
      elems.length = ns.prod ∧
      (∀ e ∈ elems, ∃ cur, IsCubeCell ns.length (nodeTuples (boxSpace ns)) e cur ∧
        ∀ i < ns.length, cur.getD i 0 < ns.getD i 0) ∧
      (∀ cur : List Nat, cur.length = ns.length → (∀ i < ns.length, cur.getD i 0 < ns.getD i 0) →
        ∃ e ∈ elems, IsCubeCell ns.length (nodeTuples (boxSpace ns)) e cur) ∧
      elems.Pairwise fun e e' => ∀ cur cur',
        IsCubeCell ns.length (nodeTuples (boxSpace ns)) e cur →
        IsCubeCell ns.length (nodeTuples (boxSpace ns)) e' cur' → cur ≠ cur' := by
  refine ⟨collectElements (nodeTuples (boxSpace ns))
      [nodeTuples (boxSpace (List.replicate ns.length 1))], ?_, count_cells ns, ?_, ?_, ?_⟩
  · simp only [submeshForShape, submeshForTP, forShape_hypercube _ hd]
  · intro e he
    obtain ⟨cur, hcur, offs, ho, ht⟩ := mem_collectElements.1 he
    obtain rfl := List.mem_singleton.1 ho
    have hl : cur.length = ns.length := ((mem_boxNodes _ _).1 hcur).length_eq.symm
    refine ⟨cur, isCubeCell_of_tryAdd hl ht, ?_⟩
    have := (corners_iff hl).1 (tryAdd_some ht).2.2.2
    exact (forall2_lt_iff.1 this).2
  · intro cur hl hlt
    have h2 := forall2_lt_iff.2 ⟨hl, hlt⟩
    obtain ⟨e, he⟩ := tryAdd_isSome.2 ((corners_iff hl).2 h2)
    refine ⟨e, mem_collectElements.2 ⟨cur, ?_, _, List.mem_singleton.2 rfl, he⟩,
      isCubeCell_of_tryAdd hl he⟩
    rw [mem_boxNodes]
    exact h2.imp fun _ _ h => le_of_lt h
  · unfold collectElements
    rw [List.pairwise_flatMap]
    constructor
    · intro cur _
      rw [List.pairwise_filterMap]
      exact List.pairwise_singleton _ _
    · refine List.Pairwise.imp_of_mem ?_ (nodup_boxNodes ns)
      intro c c' hc hc' hne e he e' he' cur cur' h1 h2
      obtain ⟨o, ho, he⟩ := List.mem_filterMap.1 he
      obtain ⟨o', ho', he'⟩ := List.mem_filterMap.1 he'
      obtain rfl := List.mem_singleton.1 ho
      obtain rfl := List.mem_singleton.1 ho'
      have hl : c.length = ns.length := ((mem_boxNodes _ _).1 hc).length_eq.symm
      have hl' : c'.length = ns.length := ((mem_boxNodes _ _).1 hc').length_eq.symm
      rw [isCubeCell_unique h1 (isCubeCell_of_tryAdd hl he),
        isCubeCell_unique h2 (isCubeCell_of_tryAdd hl' he')]
      exact hne

/-- **C07 (cover).**  Every point of the box `∏ [0, nᵢ]` (all `nᵢ ≥ 1`) lies in a returned cube. -/
theorem C07_hypercube_cover (ns : List Nat) (hd : ns.length ≠ 1) (hpos : ∀ n ∈ ns, 1 ≤ n)
    (x : List ℝ)
    (hb : ∀ i < ns.length, 0 ≤ x.getD i 0 ∧ x.getD i 0 ≤ ns.getD i 0) :
    ∃ elems, submeshForShape (.hypercube ns.length) (nodeTuples (boxSpace ns)) = .ok elems ∧
      ∃ e ∈ elems, ∃ cur, IsCubeCell ns.length (nodeTuples (boxSpace ns)) e cur ∧
        ∀ i < ns.length, (cur.getD i 0 : ℝ) ≤ x.getD i 0 ∧ x.getD i 0 ≤ cur.getD i 0 + 1 := by
  obtain ⟨elems, h1, -, -, h4, -⟩ := C07_hypercube_cells ns hd
  refine ⟨elems, h1, ?_⟩
  let cur := (List.range ns.length).map fun i => min ⌊x.getD i 0⌋₊ (ns.getD i 0 - 1)
  have hc : ∀ i < ns.length, cur.getD i 0 = min ⌊x.getD i 0⌋₊ (ns.getD i 0 - 1) := by
    intro i hi
    simp [cur, List.getD_eq_getElem?_getD, List.getElem?_range hi]
  have hn : ∀ i < ns.length, 1 ≤ ns.getD i 0 := by
    intro i hi
    rw [List.getD_eq_getElem?_getD, List.getElem?_eq_getElem hi]
    exact hpos _ (List.getElem_mem hi)
  obtain ⟨e, he, hcell⟩ := h4 cur (by simp [cur]) (fun i hi => by
    rw [hc i hi]; have := hn i hi; omega)
  refine ⟨e, he, cur, hcell, ?_⟩
  intro i hi
  rw [hc i hi]
  obtain ⟨hb1, hb2⟩ := hb i hi
  have f := Nat.floor_le hb1
  have g := Nat.lt_floor_add_one (x.getD i 0)
  have hni := hn i hi
  rcases Nat.lt_or_ge ⌊x.getD i 0⌋₊ (ns.getD i 0) with hlt | hge
  · rw [Nat.min_eq_left (by omega)]
    exact ⟨f, g.le⟩
  · rw [Nat.min_eq_right (by omega)]
    have hge' : ((ns.getD i 0 : Nat) : ℝ) ≤ (⌊x.getD i 0⌋₊ : ℝ) := by exact_mod_cast hge
    rw [Nat.cast_sub hni]
    constructor
    · push_cast; linarith
    · push_cast; linarith

/-- Uniform order: `n^d` cells for `QN(d, n)`. -/
theorem C07_uniform (d n : Nat) (hd : d ≠ 1) :
    ∃ elems, submeshForShape (.hypercube d) (nodeTuples (.qn d n)) = .ok elems ∧
      elems.length = n ^ d := by
  obtain ⟨elems, h1, h2, -⟩ := C07_hypercube_cells (List.replicate d n) (by simpa using hd)
  refine ⟨elems, ?_, by simpa using h2⟩
  have : nodeTuples (.qn d n) = nodeTuples (boxSpace (List.replicate d n)) := by
    show nodeTuplesTP _ = nodeTuplesTP _
    simp [Space.flatBases, boxSpace]
  rw [this]
  simpa using h1

example : submeshForShape (.hypercube 2) (nodeTuples (boxSpace [2, 1])) =
    .ok [[0, 1, 3, 4], [1, 2, 4, 5]] := by decide

theorem prism_vertices : Space.forShape (.tp [2, 1]) (.int 1) = .ok (.tp [⟨2, 1⟩, ⟨1, 1⟩]) := rfl

/-- **C07 (failure for prisms).**  For the prism triangle × segment and every order `n ≥ 2` the
returned elements do not cover the shape: the point `(2/3, 2/3, 1/2)` (index units) lies in the prism
but in no element.  So the documented "tessellation of the reference element" fails for tensor
products other than hypercubes. -/
theorem C07_prism_not_covered (n : Nat) (hn : 2 ≤ n) :
    ∃ elems, submeshForShape (.tp [2, 1]) (nodeTuples (.tp [⟨2, n⟩, ⟨1, n⟩])) = .ok elems ∧
      ∃ x0 x1 x2 : ℝ, (0 ≤ x0 ∧ 0 ≤ x1 ∧ x0 + x1 ≤ n ∧ 0 ≤ x2 ∧ x2 ≤ n) ∧
        ∀ e ∈ elems, ¬ InHull (elementPoints (nodeTuples (.tp [⟨2, n⟩, ⟨1, n⟩])) e) [x0, x1, x2] := by
  have hn' : (2 : ℝ) ≤ n := by exact_mod_cast hn
  refine ⟨collectElements _ _, by simp only [submeshForShape, submeshForTP, prism_vertices]; rfl,
    2/3, 2/3, 1/2, ⟨by norm_num, by norm_num, by linarith, by norm_num, by linarith⟩, ?_⟩
  intro e he hh
  obtain ⟨cur, hcur, offs, ho, ht⟩ := mem_collectElements.1 he
  obtain rfl := List.mem_singleton.1 ho
  rw [(tryAdd_some ht).2.2.1] at hh
  have hlen : cur.length = 3 := by
    obtain ⟨parts, hp, rfl⟩ := (mem_nodeTuplesTP _ _).1 hcur
    cases hp with
    | cons h1 hp =>
      cases hp with
      | cons h2 hp => cases hp; simp [h1.1, h2.1]
  obtain ⟨a, b, c, rfl⟩ := natList3 hlen
  have hv : nodeTuples (.tp [⟨2, 1⟩, ⟨1, 1⟩]) =
    [[0,0,0],[1,0,0],[0,1,0],[0,0,1],[1,0,1],[0,1,1]] := by decide
  rw [hv] at hh
  obtain ⟨w, hl, hw, hs, hx⟩ := hh
  match w, hl with
  | [w0, w1, w2, w3, w4, w5], _ =>
    have h0 := hx 0 (by simp)
    have h1 := hx 1 (by simp)
    simp [addTuples] at h0 h1 hs hw
    obtain ⟨k0, k1, k2, k3, k4, k5⟩ := hw
    obtain rfl : w0 = 1 - w1 - w2 - w3 - w4 - w5 := by linarith
    have ha : (a : ℝ) < 1 := by linarith
    have hb : (b : ℝ) < 1 := by linarith
    have ha : a = 0 := by
      have : a < 1 := by exact_mod_cast ha
      omega
    have hb : b = 0 := by
      have : b < 1 := by exact_mod_cast hb
      omega
    subst ha hb
    simp at h0 h1
    linarith

end Modepy

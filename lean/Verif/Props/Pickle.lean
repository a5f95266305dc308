import Verif.Model.Pickle

/-!
# C61: which shapes and spaces survive pickling
-/

namespace Modepy

/-- The class of an instance. -/
def Spec.classOf : PyObj → Option PyCls
  | .inst c _ => some c
  | _ => none

/-- Shapes that the constructors return. -/
inductive Spec.MadeShape : Shape → Prop
  | simplex (d : Nat) : Spec.MadeShape (.simplex d)
  | tp (bases : List Shape) (h : ∀ b ∈ bases, Spec.MadeShape b) (s : Shape) (hs : Shape.mkTP bases = .ok s) : Spec.MadeShape s
  | hypercube (d : Nat) (s : Shape) (hs : Shape.mkHypercube d = .ok s) : Spec.MadeShape s

/-- Spaces that the constructors return. -/
inductive Spec.MadeSpace : Space → Prop
  | pn (s : PNSpace) : Spec.MadeSpace (.pn s)
  | tp (bases : List Space) (h : ∀ b ∈ bases, Spec.MadeSpace b) (s : Space) (hs : Space.mkTP bases = .ok s) : Spec.MadeSpace s
  | qn (d n : Nat) : Spec.MadeSpace (Space.mkQN d n)

open Spec

theorem reload_simplexObj (d : Nat) : reload (simplexObj d) = .ok (simplexObj d) := rfl

theorem reload_pnObj (s : PNSpace) : reload (pnObj s) = .ok (pnObj s) := rfl

theorem reload_list {α : Type} (f : α → PyObj) (g : α → Pickled) (h1 : ∀ a, dumps (f a) = .ok (g a)) (h2 : ∀ a, loads (g a) = .ok (f a))
    (l : List α) : dumpsList (l.map f) = .ok (l.map g) ∧ loadsList (l.map g) = .ok (l.map f) := by
  induction l with
  | nil => exact ⟨rfl, rfl⟩
  | cons a l ih =>
    constructor
    · simp only [List.map_cons, dumpsList, h1, ih.1]
    · simp only [List.map_cons, loadsList, h2, ih.2]

theorem reload_simplices (l : List Nat) :
    dumpsList (l.map simplexObj) = .ok (l.map fun d => .reduce .Simplex [] [("dim", .int d)]) ∧
    loadsList (l.map fun d => .reduce .Simplex [] [("dim", .int d)]) = .ok (l.map simplexObj) :=
  reload_list _ _ (fun _ => rfl) (fun _ => rfl) l

theorem reload_pns (l : List PNSpace) :
    dumpsList (l.map pnObj) = .ok (l.map fun s => .reduce .PN [] [("_order", .int s.order), ("_spatial_dim", .int s.spatialDim)]) ∧
    loadsList (l.map fun s => .reduce .PN [] [("_order", .int s.order), ("_spatial_dim", .int s.spatialDim)]) = .ok (l.map pnObj) :=
  reload_list _ _ (fun _ => rfl) (fun _ => rfl) l

theorem made_hypercube {s : Shape} (h : MadeShape s) : ∀ d, s = .hypercube d → d ≠ 1 := by
  cases h with
  | simplex d => intro d h; cases h
  | tp bases h s hs =>
    intro d hd
    subst hd
    rw [Shape.mkTP.eq_def] at hs
    split at hs
    · cases hs
    · cases hs
    · cases ht : Shape.tpInit bases <;> rw [ht] at hs <;> simp [Except.map] at hs
  | hypercube d' s hs =>
    intro d hd
    subst hd
    rw [Shape.mkHypercube] at hs
    split at hs
    · cases hs
    · cases ht : Shape.tpInit (List.replicate d' (.simplex 1)) <;> rw [ht] at hs <;> simp [Except.map] at hs
      omega

/-- **C61 (shapes).**  Reloading a pickled `Simplex` or `Hypercube` gives an equal object.  A pickled `TensorProductShape` that is
not a `Hypercube` cannot be loaded: `__new__` is called without its argument and raises `TypeError`. -/
theorem C61_shapes (s : Shape) (h : MadeShape s) :
    reload s.toObj = match s with
      | .simplex _ => .ok s.toObj
      | .hypercube _ => .ok s.toObj
      | .tp _ => .error .TypeError := by
  cases s with
  | simplex d => rfl
  | tp bs =>
    simp only [reload, Shape.toObj, dumps, dumpsAttrs, (reload_simplices bs).1, PyCls.newArgs, List.map_nil, collect, loads,
      loadsList, pyNew]
  | hypercube d =>
    have hd := made_hypercube h d rfl
    simp only [reload, Shape.toObj, dumps, dumpsAttrs, (reload_simplices _).1, PyCls.newArgs, List.map_cons, List.map_nil, collect,
      getattr, List.find?_cons, decide_true, loads, loadsList, loadsState, (reload_simplices _).2]
    have : (List.replicate d 1).sum = d := by simp
    rw [this]
    rcases d with _ | _ | d
    · rfl
    · exact absurd rfl hd
    · rfl

theorem made_qn {s : Space} (h : MadeSpace s) : ∀ d n, s = .qn d n → d ≠ 1 := by
  cases h with
  | pn s => intro d n h; cases h
  | tp bases h s hs =>
    intro d n hd
    subst hd
    rw [Space.mkTP.eq_def] at hs
    split at hs <;> cases hs
  | qn d' n' =>
    intro d n hd
    rw [Space.mkQN] at hd
    split at hd
    · cases hd
    · cases hd; assumption

/-- **C61 (spaces).**  Reloading a pickled `PN`, or a `TensorProductSpace` whose number of bases is not one, gives an object of
the same class with equal attributes.  A pickled `QN` cannot be loaded: the inherited `__getnewargs__` passes one argument to a
`__new__` that takes two.  A `TensorProductSpace` with a single base comes back as its base, of class `PN`. -/
theorem C61_spaces (s : Space) (h : MadeSpace s) :
    match s with
      | .pn _ => reload s.toObj = .ok s.toObj
      | .qn _ _ => reload s.toObj = .error .TypeError
      | .tp bs => (bs.length ≠ 1 → reload s.toObj = .ok s.toObj) ∧
          (bs.length = 1 → ∃ o, reload s.toObj = .ok o ∧ classOf o = some .PN) := by
  cases s with
  | pn s => rfl
  | qn d n =>
    simp only [reload, Space.toObj, dumps, dumpsAttrs, (reload_pns _).1, PyCls.newArgs, List.map_cons, List.map_nil, collect, getattr,
      List.find?_cons, decide_true, loads, loadsList, (reload_pns _).2, pyNew]
  | tp bs =>
    have key : reload (Space.tp bs).toObj = match pyNew .TensorProductSpace [.tuple (bs.map pnObj)] with
        | .error e => .error e
        | .ok o => pyBuild o [("bases", .tuple (bs.map pnObj))] := by
      simp only [reload, Space.toObj, dumps, dumpsAttrs, (reload_pns _).1, PyCls.newArgs, List.map_cons, List.map_nil, collect, getattr,
        List.find?_cons, decide_true, loads, loadsList, loadsState, (reload_pns _).2]
      cases pyNew PyCls.TensorProductSpace [PyObj.tuple (List.map pnObj bs)] <;> rfl
    refine ⟨fun hl => ?_, fun hl => ?_⟩
    · rw [key]
      rcases bs with _ | ⟨a, _ | ⟨b, bs⟩⟩
      · rfl
      · exact absurd rfl hl
      · rfl
    · rw [key]
      rcases bs with _ | ⟨a, _ | ⟨b, bs⟩⟩
      · simp at hl
      · exact ⟨_, rfl, rfl⟩
      · simp at hl

/-- The spaces that `space_for_shape` returns survive, for every shape and order (the only ones that the tests pickle). -/
theorem C61_space_for_shape (shape : Shape) (order : Space.OrderArg) (s : Space) (hs : Space.forShape shape order = .ok s) :
    reload s.toObj = .ok s.toObj := by
  have key : ∀ l : List PNSpace, Space.mkTP (l.map Space.pn) = .ok s → reload s.toObj = .ok s.toObj := by
    intro l hl
    rcases l with _ | ⟨a, _ | ⟨b, l⟩⟩
    · cases hl; rfl
    · cases hl; rfl
    · have hm : MadeSpace s := .tp _ (fun b hb => by
        obtain ⟨p, _, rfl⟩ := List.mem_map.mp hb
        exact .pn p) s hl
      have hs : s = .tp (a :: b :: l) := by
        have : (List.map Space.pn (a :: b :: l)).flatMap Space.flatBases = a :: b :: l := by
          generalize a :: b :: l = m
          induction m with
          | nil => rfl
          | cons a m ih => rw [List.map_cons, List.flatMap_cons, ih]; rfl
        simp only [List.map_cons, Space.mkTP] at hl
        injection hl with hl
        rw [← hl]
        congr 1
      subst hs
      exact (C61_spaces _ hm).1 (by simp)
  have hz : ∀ (ds ns : List Nat), List.zipWith (fun d n => Space.pn ⟨d, n⟩) ds ns =
      (List.zipWith (fun d n => (⟨d, n⟩ : PNSpace)) ds ns).map Space.pn := by
    intro ds ns
    rw [List.map_zipWith]
  rw [Space.forShape.eq_def] at hs
  split at hs
  · cases hs; rfl
  · cases hs
  · rename_i n _
    refine key (shape.flatBases.map fun d => ⟨d, n⟩) ?_
    rw [List.map_map]
    exact hs
  · split at hs
    · rw [hz] at hs
      exact key _ hs
    · cases hs

/-- The prism, `QN(2, 3)` and a product with one base are constructible and do not survive. -/
theorem C61_witnesses :
    (MadeShape (.tp [1, 2]) ∧ reload (Shape.tp [1, 2]).toObj = .error .TypeError) ∧
    (MadeSpace (.qn 2 3) ∧ reload (Space.qn 2 3).toObj = .error .TypeError) ∧
    (MadeSpace (.tp [⟨2, 3⟩]) ∧ reload (Space.tp [⟨2, 3⟩]).toObj ≠ .ok (Space.tp [⟨2, 3⟩]).toObj) := by
  have h1 : MadeShape (.tp [1, 2]) := .tp [.simplex 1, .simplex 2] (fun b hb => by
    simp only [List.mem_cons, List.not_mem_nil, or_false] at hb
    rcases hb with rfl | rfl <;> exact .simplex _) _ rfl
  have h2 : MadeSpace (.qn 2 3) := .qn 2 3
  have h0 : MadeSpace (.tp []) := .tp [] (fun b hb => by simp at hb) _ rfl
  have h3 : MadeSpace (.tp [⟨2, 3⟩]) := .tp [.tp [], .pn ⟨2, 3⟩] (fun b hb => by
    simp only [List.mem_cons, List.not_mem_nil, or_false] at hb
    rcases hb with rfl | rfl
    · exact h0
    · exact .pn _) _ rfl
  refine ⟨⟨h1, C61_shapes _ h1⟩, ⟨h2, C61_spaces _ h2⟩, ⟨h3, ?_⟩⟩
  obtain ⟨o, ho, hc⟩ := (C61_spaces _ h3).2 rfl
  rw [ho]
  intro h
  injection h with h
  subst h
  simp [classOf, Space.toObj] at hc

example : MadeShape (.hypercube 3) ∧ reload (Shape.hypercube 3).toObj = .ok (Shape.hypercube 3).toObj := by
  have h : MadeShape (.hypercube 3) := .hypercube 3 _ rfl
  exact ⟨h, C61_shapes _ h⟩

example : ∃ s, Space.forShape (.tp [1, 2]) (.tuple [4, 5]) = .ok s ∧ reload s.toObj = .ok s.toObj :=
  ⟨_, rfl, C61_space_for_shape (.tp [1, 2]) (.tuple [4, 5]) _ rfl⟩

end Modepy

import Verif.Model.Submesh
import Verif.Spec.Tessellation
import Verif.Proofs.Nodes

namespace Modepy
open Pytools Spec

theorem nodeIndex_some {nts : List (List Nat)} {t : List Nat} {k : Nat}
    (h : nodeIndex nts t = some k) : k < nts.length ∧ nts.getD k [] = t := by
  unfold nodeIndex at h
  rw [Option.map_eq_some_iff] at h
  obtain ⟨⟨t', k'⟩, hf, rfl⟩ := h
  have h1 := List.find?_some hf
  have h2 := List.mem_of_find?_eq_some hf
  rw [List.mem_reverse, List.mk_mem_zipIdx_iff_getElem?] at h2
  simp only [decide_eq_true_eq] at h1
  subst h1
  obtain ⟨hk, he⟩ := List.getElem?_eq_some_iff.1 h2
  refine ⟨hk, ?_⟩
  rw [List.getD_eq_getElem?_getD, h2]; rfl

theorem nodeIndex_isSome {nts : List (List Nat)} {t : List Nat} :
    (∃ k, nodeIndex nts t = some k) ↔ t ∈ nts := by
  constructor
  · rintro ⟨k, h⟩
    obtain ⟨h1, h2⟩ := nodeIndex_some h
    rw [← h2, List.getD_eq_getElem?_getD, List.getElem?_eq_getElem h1]
    exact List.getElem_mem h1
  · intro h
    obtain ⟨k, hk, he⟩ := List.getElem_of_mem h
    unfold nodeIndex
    rw [← Option.isSome_iff_exists, Option.isSome_map, List.find?_isSome]
    refine ⟨(t, k), ?_, by simp⟩
    rw [List.mem_reverse, List.mk_mem_zipIdx_iff_getElem?, List.getElem?_eq_getElem hk, he]

theorem mapM_some_iff {α β : Type} (f : α → Option β) (l : List α) (r : List β) :
    l.mapM f = some r ↔ List.Forall₂ (fun a b => f a = some b) l r := by
  induction l generalizing r with
  | nil =>
    simp only [List.mapM_nil]
    constructor
    · intro h; cases h; exact .nil
    · intro h; cases h; rfl
  | cons a l ih =>
    rw [List.mapM_cons]
    constructor
    · intro h
      cases hfa : f a with
      | none => simp [hfa] at h
      | some b =>
        cases hl : l.mapM f with
        | none => simp [hfa, hl] at h
        | some bs =>
          simp [hfa, hl] at h
          subst h
          exact .cons hfa ((ih bs).1 hl)
    · intro h
      cases h with
      | @cons _ b _ bs h1 h2 =>
        rw [h1, (ih bs).2 h2]; rfl

theorem tryAdd_some {nts : List (List Nat)} {cur : List Nat} {offs : List (List Nat)} {e : List Nat}
    (h : tryAdd nts cur offs = some e) :
    e.length = offs.length ∧ (∀ k ∈ e, k < nts.length) ∧
      elementPoints nts e = offs.map (addTuples cur) ∧ ∀ o ∈ offs, addTuples cur o ∈ nts := by
  unfold tryAdd at h
  rw [mapM_some_iff] at h
  induction h with
  | nil => simp [elementPoints]
  | @cons o k os ks h1 _ ih =>
    obtain ⟨i1, i2, i3, i4⟩ := ih
    obtain ⟨a1, a2⟩ := nodeIndex_some h1
    refine ⟨by simp [i1], ?_, ?_, ?_⟩
    · intro k' hk'
      rcases List.mem_cons.1 hk' with rfl | h
      · exact a1
      · exact i2 _ h
    · simp only [elementPoints, List.map_cons]
      rw [a2]; congr 1
    · intro o' ho'
      rcases List.mem_cons.1 ho' with rfl | h
      · exact nodeIndex_isSome.1 ⟨k, h1⟩
      · exact i4 _ h

theorem tryAdd_isSome {nts : List (List Nat)} {cur : List Nat} {offs : List (List Nat)} :
    (∃ e, tryAdd nts cur offs = some e) ↔ ∀ o ∈ offs, addTuples cur o ∈ nts := by
  constructor
  · rintro ⟨e, h⟩; exact (tryAdd_some h).2.2.2
  · intro h
    unfold tryAdd
    induction offs with
    | nil => exact ⟨[], rfl⟩
    | cons o os ih =>
      obtain ⟨k, hk⟩ := nodeIndex_isSome.2 (h o (by simp))
      obtain ⟨e, he⟩ := ih fun o' ho' => h o' (by simp [ho'])
      exact ⟨k :: e, by rw [List.mapM_cons, hk, he]; rfl⟩

/-- Elements are the images of the offset lists all of whose nodes exist. -/
theorem mem_collectElements {nts : List (List Nat)} {table : List (List (List Nat))} {e : List Nat} :
    e ∈ collectElements nts table ↔
      ∃ cur ∈ nts, ∃ offs ∈ table, tryAdd nts cur offs = some e := by
  simp [collectElements, List.mem_flatMap, List.mem_filterMap]

theorem length_filterMap_isSome {α β : Type} (f : α → Option β) (l : List α) :
    (l.filterMap f).length = l.countP fun a => (f a).isSome := by
  induction l with
  | nil => rfl
  | cons a l ih =>
    cases h : f a <;> simp [h, ih]

theorem sum_map_ite_countP {α : Type} (p : α → Bool) (l : List α) :
    (l.map fun a => if p a then 1 else 0).sum = l.countP p := by
  induction l with
  | nil => rfl
  | cons a l ih => cases h : p a <;> simp [h, ih]; omega

/-- Number of elements, summed by element type. -/
theorem length_collectElements (nts : List (List Nat)) (table : List (List (List Nat))) :
    (collectElements nts table).length =
      (table.map fun offs => nts.countP fun cur => (tryAdd nts cur offs).isSome).sum := by
  unfold collectElements
  rw [List.length_flatMap]
  induction table with
  | nil =>
    simp
  | cons t table ih =>
    rw [List.map_cons, List.sum_cons, ← ih]
    have : (nts.map fun a => ((t :: table).filterMap (tryAdd nts a)).length) =
        nts.map fun a => (if (tryAdd nts a t).isSome then 1 else 0) +
          (table.filterMap (tryAdd nts a)).length := by
      apply List.map_congr_left
      intro a _
      cases h : tryAdd nts a t <;> simp [h]; omega
    rw [this, List.sum_map_add, sum_map_ite_countP]

theorem sum_addTuples {a b : List Nat} (h : a.length = b.length) :
    (addTuples a b).sum = a.sum + b.sum := by
  unfold addTuples
  induction a generalizing b with
  | nil => cases b <;> simp_all
  | cons x a ih =>
    cases b with
    | nil => simp at h
    | cons y b =>
      simp only [List.zipWith_cons_cons, List.sum_cons]
      rw [ih (by simpa using h)]; omega

theorem length_addTuples {a b : List Nat} (h : a.length = b.length) :
    (addTuples a b).length = a.length := by simp [addTuples, h]

theorem tryAdd_simplex_iff {n d M : Nat} {cur : List Nat} {offs : List (List Nat)}
    (hcur : cur.length = d) (hl : ∀ o ∈ offs, o.length = d) (hM : ∀ o ∈ offs, o.sum ≤ M)
    (hM' : ∃ o ∈ offs, o.sum = M) :
    (tryAdd (gnitsam n d) cur offs).isSome ↔ cur.sum + M ≤ n := by
  rw [Option.isSome_iff_exists, tryAdd_isSome]
  constructor
  · intro h
    obtain ⟨o, ho, rfl⟩ := hM'
    have := ((mem_gnitsam d n _).1 (h o ho)).2
    rwa [sum_addTuples (by rw [hcur, hl o ho])] at this
  · intro h o ho
    rw [mem_gnitsam, length_addTuples (by rw [hcur, hl o ho]), sum_addTuples (by rw [hcur, hl o ho])]
    exact ⟨hcur, by have := hM o ho; omega⟩

theorem countP_simplex {n d M : Nat} {offs : List (List Nat)}
    (hl : ∀ o ∈ offs, o.length = d) (hM : ∀ o ∈ offs, o.sum ≤ M)
    (hM' : ∃ o ∈ offs, o.sum = M) :
    ((gnitsam n d).countP fun cur => (tryAdd (gnitsam n d) cur offs).isSome) =
      if M ≤ n then Nat.choose (n - M + d) d else 0 := by
  have h1 : ((gnitsam n d).countP fun cur => (tryAdd (gnitsam n d) cur offs).isSome) =
      (gnitsam n d).countP fun cur => decide (cur.sum + M ≤ n) := by
    apply List.countP_congr
    intro cur hcur
    rw [tryAdd_simplex_iff ((mem_gnitsam d n _).1 hcur).1 hl hM hM']
    simp
  rw [h1]
  split
  · rename_i hMn
    rw [List.countP_eq_length_filter, ← length_gnitsam]
    apply List.Perm.length_eq
    rw [List.perm_ext_iff_of_nodup ((nodup_gnitsam d n).filter _) (nodup_gnitsam d _)]
    intro t
    rw [List.mem_filter, mem_gnitsam, mem_gnitsam]
    simp only [decide_eq_true_eq]
    constructor
    · rintro ⟨⟨h1, h2⟩, h3⟩; exact ⟨h1, by omega⟩
    · rintro ⟨h1, h2⟩; exact ⟨⟨h1, by omega⟩, by omega⟩
  · rename_i hMn
    rw [List.countP_eq_zero]
    intro t _
    simp only [decide_eq_true_eq]
    omega

end Modepy

import Verif.Model.Quadrature
import Verif.Spec.Interpolation
import Verif.Spec.Functional
import Verif.Proofs.TensorNodes
import Mathlib.Algebra.BigOperators.Ring.List
import Mathlib.Algebra.BigOperators.Ring.Finset
import Mathlib.Algebra.BigOperators.Group.Finset.Sigma
import Mathlib.Tactic.Ring

namespace Modepy
open NdArray Spec Quadrature

theorem exists_split_index (ds : List Nat) (r : Nat) (h : r < ds.sum) :
    ∃ j, ∃ hj : j < ds.length, ∃ r', r' < ds[j] ∧ r = (ds.take j).sum + r' := by
  induction ds generalizing r with
  | nil => simp at h
  | cons d ds ih =>
    by_cases hr : r < d
    · exact ⟨0, by simp, r, hr, by simp⟩
    · obtain ⟨j, hj, r', h1, h2⟩ := ih (r - d) (by simp only [List.sum_cons] at h; omega)
      refine ⟨j + 1, by simpa using hj, r', by simpa using h1, ?_⟩
      simp only [List.take_succ_cons, List.sum_cons]
      omega


theorem getElem?_flatten_split {α : Type*} (L : List (List α)) (j r : Nat) (hj : j < L.length)
    (hr : r < L[j].length) : L.flatten[((L.take j).map List.length).sum + r]? = L[j][r]? := by
  induction L generalizing j with
  | nil => simp at hj
  | cons a L ih =>
    cases j with
    | zero =>
      simp only [List.getElem_cons_zero] at hr
      simp [List.getElem?_append_left hr]
    | succ j =>
      simp only [List.getElem_cons_succ, List.take_succ_cons, List.map_cons, List.sum_cons,
        List.flatten_cons] at hr ⊢
      rw [Nat.add_assoc, List.getElem?_append_right (by omega), Nat.add_sub_cancel_left]
      exact ih j (by simpa using hj) hr

/-- Column `k` of a tensor product node array concatenates columns of the factors. -/
theorem column_tensorProduct {α : Type*} (ns : List (NdArray α)) (res : NdArray α)
    (hget : ∀ (j : Nat) (hj : j < ns.length) (r k : Nat), r < rows ns[j] → k < (ns.map ncols).prod →
        res.get [((ns.take j).map rows).sum + r, k] = ns[j].get [r, Spec.digit (ns.map ncols) k j])
    (k : Nat) (hk : k < (ns.map ncols).prod) :
    column res (ns.map rows).sum k =
      (List.zipWith (fun a i => column a (rows a) i) ns (unravelF (ns.map ncols) k)).flatten := by
  set L := List.zipWith (fun a i => column a (rows a) i) ns (unravelF (ns.map ncols) k) with hL
  have hLl : L.length = ns.length := by simp [hL]
  have hmap : L.map List.length = ns.map rows := by
    apply List.ext_getElem
    · simp [hL]
    · intro i h1 h2
      simp [hL, column]
  apply List.ext_getElem?
  intro r
  by_cases hr : r < (ns.map rows).sum
  · obtain ⟨j, hj, r', hr', rfl⟩ := exists_split_index (ns.map rows) r hr
    rw [List.length_map] at hj
    rw [List.getElem_map] at hr'
    have hLj : L[j]'(by omega) = column ns[j] (rows ns[j]) (Spec.digit (ns.map ncols) k j) := by
      simp only [hL, List.getElem_zipWith]
      congr 1
      simp [unravelF_eq_map_digit]
    have h1 := getElem?_flatten_split L j r' (by omega) (by rw [hLj]; simpa [column] using hr')
    rw [List.map_take, hmap] at h1
    rw [h1, hLj, column, List.getElem?_map, List.getElem?_range hr, column, List.getElem?_map,
      List.getElem?_range hr']
    simp only [Option.map_some, Option.some_inj]
    rw [← hget j hj r' k hr' hk, List.map_take]
  · rw [List.getElem?_eq_none (by simpa [column] using hr), List.getElem?_eq_none]
    rw [List.length_flatten, hmap]
    omega

/-- The two-dimensional form of a node array. -/
def as2 {α : Type*} (a : NdArray α) : NdArray α :=
  match asNodeset a with
  | .ok b => b
  | .error _ => a

theorem asNodeset_1d {α : Type*} (a : NdArray α) (n : Nat) (h : a.shape = [n]) :
    ∃ b, asNodeset a = .ok b ∧ b.shape = [1, n] ∧ ∀ k, k < n → b.get [0, k] = a.get [k] := by
  unfold asNodeset
  rw [h]
  simp only [reshapeC, h, size_cons, size_nil, Nat.mul_one, Nat.one_mul, if_true]
  refine ⟨_, rfl, rfl, ?_⟩
  intro k hk
  simp [ravelC, unravelC, Nat.mod_eq_of_lt hk]

theorem as2_1d {α : Type*} (a : NdArray α) (n : Nat) (h : a.shape = [n]) :
    asNodeset a = .ok (as2 a) ∧ Is2D (as2 a) ∧ rows (as2 a) = 1 ∧ ncols (as2 a) = n ∧
      ∀ k, k < n → (as2 a).get [0, k] = a.get [k] := by
  obtain ⟨b, hb, hs, hg⟩ := asNodeset_1d a n h
  have : as2 a = b := by simp [as2, hb]
  rw [this]
  refine ⟨hb, ?_, ?_, ?_, hg⟩ <;> simp [Is2D, rows, ncols, hs]

theorem as2_2d {α : Type*} (a : NdArray α) (d n : Nat) (h : a.shape = [d, n]) :
    asNodeset a = .ok (as2 a) ∧ Is2D (as2 a) ∧ as2 a = a ∧ rows a = d ∧ ncols a = n := by
  have h2 : Is2D a := by simp [Is2D, rows, ncols, h]
  have : as2 a = a := by simp [as2, asNodeset_of_is2D h2]
  rw [this]
  exact ⟨asNodeset_of_is2D h2, h2, rfl, by simp [rows, h], by simp [ncols, h]⟩

theorem tensorProductNodes_as2 {α : Type*} (fv : α) (ns : List (NdArray α))
    (h : ∀ a ∈ ns, asNodeset a = .ok (as2 a) ∧ Is2D (as2 a)) :
    tensorProductNodes fv ns = tensorProductNodes fv (ns.map as2) := by
  unfold tensorProductNodes
  rw [collect_map_of_ok ns asNodeset as2 fun a ha => (h a ha).1]
  have := collect_map_of_ok (ns.map as2) asNodeset id (by
    intro a ha
    obtain ⟨b, hb, rfl⟩ := List.mem_map.1 ha
    exact asNodeset_of_is2D (h b hb).2)
  rw [this, List.map_id]

theorem sum_map_range {M : Type*} [AddCommMonoid M] (n : Nat) (g : Nat → M) :
    ((List.range n).map g).sum = ∑ k ∈ Finset.range n, g k := by
  induction n with
  | zero => simp
  | succ n ih => rw [List.range_succ, List.map_append, List.sum_append, ih, Finset.sum_range_succ]; simp

theorem sum_range_mul (n m : Nat) (g : Nat → Nat → ℝ) :
    ((List.range (n * m)).map fun k => g (k % n) (k / n)).sum =
      ((List.range n).map fun i => ((List.range m).map fun j => g i j).sum).sum := by
  have h := Pytools.flatMap_range_eq m n (fun j i => g i j)
  rw [Nat.mul_comm n m, ← h]
  have : ∀ (l : List Nat), ((l.flatMap fun j => (List.range n).map fun i => g i j)).sum =
      (l.map fun j => ((List.range n).map fun i => g i j).sum).sum := by
    intro l
    induction l with
    | nil => rfl
    | cons a l ih => simp [List.flatMap_cons, ih]
  rw [this]
  simp only [sum_map_range]
  exact Finset.sum_comm

/-- The sum over all index tuples is the iterated sum. -/
theorem sum_unravel_eq_iterated : ∀ (quads : List Quadrature) (f : List ℝ → ℝ),
    ((List.range (quads.map nnodes).prod).map fun k =>
      (List.zipWith (fun (q : Quadrature) i => q.weights.get [i]) quads
        (unravelF (quads.map nnodes) k)).prod *
      f (List.zipWith (fun (q : Quadrature) i => q.node i) quads
        (unravelF (quads.map nnodes) k)).flatten).sum = iterated (quads.map call) f := by
  intro quads
  induction quads with
  | nil => intro f; simp [iterated]
  | cons q quads ih =>
    intro f
    simp only [List.map_cons, List.prod_cons, unravelF_cons, List.zipWith_cons_cons,
      List.flatten_cons, iterated]
    have := sum_range_mul q.nnodes (quads.map nnodes).prod (fun i j =>
      q.weights.get [i] * (List.zipWith (fun (q : Quadrature) i => q.weights.get [i]) quads
        (unravelF (quads.map nnodes) j)).prod *
        f (q.node i ++ (List.zipWith (fun (q : Quadrature) i => q.node i) quads
        (unravelF (quads.map nnodes) j)).flatten))
    rw [this, call]
    congr 1
    apply List.map_congr_left
    intro i _
    rw [← ih, ← List.sum_map_mul_left]
    congr 1
    apply List.map_congr_left
    intro j _
    ring

end Modepy

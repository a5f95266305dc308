import Verif.Model.TensorNodes
import Verif.Proofs.NdArray

namespace Modepy

open NdArray

theorem ravelF_ones_append (a : Nat) (s j : List Nat) :
    ravelF (List.replicate a 1 ++ s) (List.replicate a 0 ++ j) = ravelF s j := by
  rw [ravelF_append (by simp)]
  have h1 : ravelF (List.replicate a 1) (List.replicate a 0) = 0 := by
    induction a with
    | zero => simp
    | succ a ih => simp [List.replicate_succ, ih]
  have h2 : size (List.replicate a 1) = 1 := by simp [size_eq_prod]
  simp [h1, h2]

theorem zipWith_ones (a : Nat) (idx : List Nat) (h : a = idx.length) :
    List.zipWith (fun s i => if s = 1 then 0 else i) (List.replicate a 1) idx =
      List.replicate a 0 := by
  subst h
  induction idx with
  | nil => simp
  | cons x xs ih => simp [List.replicate_succ, ih]

/-- Reading the broadcast array. -/
theorem bcast_read (m i dI nI r : Nat) (idx : List Nat) (hm : idx.length = m) (hi : i < m)
    (hr : r < dI) (hx : idx[i] < nI) :
    unravelC [dI, nI]
      (ravelC (dI :: (List.replicate i 1 ++ nI :: List.replicate (m - i - 1) 1))
        (bcastIdx (dI :: (List.replicate i 1 ++ nI :: List.replicate (m - i - 1) 1)) (r :: idx))) =
      [r, idx[i]] := by
  have hsplit : idx = idx.take i ++ idx[i] :: idx.drop (i + 1) := by
    rw [List.getElem_cons_drop]; exact (List.take_append_drop i idx).symm
  have hb : bcastIdx (dI :: (List.replicate i 1 ++ nI :: List.replicate (m - i - 1) 1)) (r :: idx) =
      r :: (List.replicate i 0 ++ idx[i] :: List.replicate (m - i - 1) 0) := by
    unfold bcastIdx
    rw [List.zipWith_cons_cons]
    congr 1
    · split_ifs <;> omega
    · conv_lhs => rw [hsplit]
      rw [List.zipWith_append (by simp; omega), zipWith_ones _ _ (by simp; omega),
        List.zipWith_cons_cons, zipWith_ones _ _ (by simp; omega)]
      congr 2
      split_ifs <;> omega
  rw [hb]
  have hr2 : ravelC (dI :: (List.replicate i 1 ++ nI :: List.replicate (m - i - 1) 1))
      (r :: (List.replicate i 0 ++ idx[i] :: List.replicate (m - i - 1) 0)) =
      ravelC [dI, nI] [r, idx[i]] := by
    unfold ravelC
    simp only [List.reverse_cons, List.reverse_append, List.reverse_replicate, List.append_assoc]
    rw [ravelF_ones_append]
    simp only [List.cons_append, List.nil_append, List.reverse_nil,
      ravelF_cons]
    rw [ravelF_ones_append]
    simp
  rw [hr2]
  exact unravelC_ravelC ⟨hr, hx, trivial⟩

/-- A two-dimensional array. -/
def Is2D {α : Type*} (a : NdArray α) : Prop := a.shape = [rows a, ncols a]

theorem size_bcast (i k dI nI : Nat) :
    size (dI :: (List.replicate i 1 ++ nI :: List.replicate k 1)) = dI * nI := by
  simp [size_eq_prod]

theorem tpFill_spec {α : Type*} (m : Nat) (ns : List (NdArray α)) :
    ∀ (i d : Nat) (acc : NdArray α), (∀ a ∈ ns, Is2D a) → i + ns.length ≤ m →
    ∃ res, tpFill m ns i d acc = .ok res ∧ res.shape = acc.shape ∧
      (∀ r idx, r < d → res.get (r :: idx) = acc.get (r :: idx)) ∧
      (∀ (j : Nat) (hj : j < ns.length) (r : Nat) (idx : List Nat), r < rows ns[j] →
        (hl : idx.length = m) → (hh : i + j < idx.length) → idx[i + j] < ncols ns[j] →
        res.get ((d + ((ns.take j).map rows).sum + r) :: idx) = ns[j].get [r, idx[i + j]]) := by
  induction ns with
  | nil =>
    intro i d acc _ _
    exact ⟨acc, rfl, rfl, fun _ _ _ => rfl, fun j hj => absurd hj (by simp)⟩
  | cons a ns ih =>
    intro i d acc h2 hlen
    have ha : Is2D a := h2 a (by simp)
    have hsz : size (rows a :: (List.replicate i 1 ++ ncols a :: List.replicate (m - i - 1) 1)) =
        size a.shape := by
      rw [size_bcast, ha]; simp
    simp only [tpFill, reshapeC, hsz, if_true]
    obtain ⟨res, hok, hshape, hlow, hhigh⟩ := ih (i + 1) (d + rows a) _
      (fun b hb => h2 b (by simp [hb])) (by simp at hlen; omega)
    refine ⟨res, hok, hshape, ?_, ?_⟩
    · intro r idx hr
      rw [hlow r idx (by omega)]
      exact if_neg (by omega)
    · intro j hj r idx hr hl hh hx
      cases j with
      | zero =>
        simp only [List.take_zero, List.map_nil, List.sum_nil, Nat.add_zero,
          List.getElem_cons_zero] at *
        rw [hlow _ _ (by omega)]
        refine (if_pos (by omega)).trans ?_
        have hrd : d + r - d = r := by omega
        rw [hrd, show a.shape = [rows a, ncols a] from ha,
          bcast_read m i _ _ r idx hl (by rw [← hl]; exact hh) hr hx]
      | succ j =>
        have := hhigh j (by simpa using hj) r idx (by simpa using hr) hl (by omega) (by
          have : i + 1 + j = i + (j + 1) := by omega
          simp only [this]; simpa using hx)
        have e : i + 1 + j = i + (j + 1) := by omega
        simp only [e] at this
        simp only [List.take_succ_cons, List.map_cons, List.sum_cons, List.getElem_cons_succ]
        rw [← this]
        congr 2
        omega

theorem collect_ok {α : Type*} (l : List α) : collect (l.map (fun a => (Except.ok a : Py α))) = .ok l := by
  induction l with
  | nil => rfl
  | cons a l ih => simp [collect, ih]

theorem collect_map_of_ok {α β : Type*} (l : List α) (f : α → Py β) (g : α → β)
    (h : ∀ a ∈ l, f a = .ok (g a)) : collect (l.map f) = .ok (l.map g) := by
  induction l with
  | nil => rfl
  | cons a l ih =>
    simp only [List.map_cons, collect, h a (by simp)]
    rw [ih (fun b hb => h b (by simp [hb]))]

theorem asNodeset_of_is2D {α : Type*} {a : NdArray α} (h : Is2D a) : asNodeset a = .ok a := by
  unfold asNodeset
  rw [show a.shape = [rows a, ncols a] from h]

theorem tensorProductNodes_ok {α : Type*} (fv : α) (ns : List (NdArray α))
    (h2 : ∀ a ∈ ns, Is2D a) (hpos : 0 < (ns.map rows).sum) :
    ∃ res, tensorProductNodes fv ns = .ok res ∧
      res.shape = [(ns.map rows).sum, (ns.map ncols).prod] ∧
      ∀ (j : Nat) (hj : j < ns.length) (r k : Nat), r < rows ns[j] → k < (ns.map ncols).prod →
        res.get [((ns.take j).map rows).sum + r, k] =
          ns[j].get [r, Spec.digit (ns.map ncols) k j] := by
  unfold tensorProductNodes
  have hc : collect (ns.map asNodeset) = .ok ns := by
    have := collect_map_of_ok ns asNodeset id (fun a ha => asNodeset_of_is2D (h2 a ha))
    simpa using this
  rw [hc]
  simp only
  obtain ⟨res, hok, hshape, -, hget⟩ := tpFill_spec ns.length ns 0 0
    ⟨(ns.map rows).sum :: ns.map ncols, fun _ => fv⟩ h2 (by simp)
  rw [hok]
  simp only
  rw [if_neg (by omega)]
  simp only at hshape
  have hsz : size res.shape = (ns.map rows).sum * (ns.map ncols).prod := by
    rw [hshape]; simp [size_eq_prod]
  have hdiv : size res.shape / (ns.map rows).sum = (ns.map ncols).prod := by
    rw [hsz, Nat.mul_div_cancel_left _ hpos]
  rw [hdiv]
  unfold reshapeF
  rw [if_pos (by rw [hsz]; simp)]
  refine ⟨_, rfl, rfl, ?_⟩
  intro j hj r k hr hk
  simp only
  have hrow : ((ns.take j).map rows).sum + r < (ns.map rows).sum := by
    have h1 : (ns.map rows).sum = ((ns.take j).map rows).sum + ((ns.drop j).map rows).sum := by
      rw [← List.sum_append, ← List.map_append, List.take_append_drop]
    have h3 : ns.drop j = ns[j] :: ns.drop (j+1) := (List.getElem_cons_drop (h := hj)).symm
    rw [h1, h3]; simp only [List.map_cons, List.sum_cons]; omega
  have hk' : k < size (ns.map ncols) := by rwa [size_eq_prod]
  have hrav : unravelF res.shape (ravelF [(ns.map rows).sum, (ns.map ncols).prod]
      [((ns.take j).map rows).sum + r, k]) =
      (((ns.take j).map rows).sum + r) :: unravelF (ns.map ncols) k := by
    rw [hshape]
    simp only [ravelF_cons, ravelF_nil, Nat.mul_zero, Nat.add_zero, unravelF_cons]
    rw [Nat.add_mul_mod_self_left, Nat.mod_eq_of_lt hrow, Nat.add_mul_div_left _ _ hpos,
      Nat.div_eq_of_lt hrow, Nat.zero_add]
  rw [hrav]
  have hv := valid_unravelF hk'
  have hlen : (unravelF (ns.map ncols) k).length = ns.length := by simp
  have hd := getD_unravelF (ns.map ncols) k j (by simpa using hj)
  have hd' : (unravelF (ns.map ncols) k)[0 + j]'(by rw [hlen]; simpa using hj) =
      Spec.digit (ns.map ncols) k j := by
    rw [← hd, List.getD_eq_getElem?_getD, List.getElem?_eq_getElem (by rw [hlen]; exact hj)]
    simp
  have hlt := hv.getElem j (by rw [hlen]; exact hj)
  have := hget j hj r (unravelF (ns.map ncols) k) hr hlen (by rw [hlen]; simpa using hj) (by
    simpa using hlt)
  rw [hd'] at this
  rw [← this]
  congr 2
  omega

end Modepy

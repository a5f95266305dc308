import Verif.Model.Construction

/-!
# Property C50: linear combinations of integrands
-/

namespace Modepy

variable {ι X : Type}

/-- `Σ c_i f_i(x)`, the value a linear combination ought to have. -/
noncomputable def Spec.linComb (cs : List ℂ) (vals : List ℂ) : ℂ := (List.zipWith (· * ·) cs vals).sum
open Spec

/-- `==` of integrands may raise, but if it says `True` the two have the same values. -/
def EqSound (eq : Fn ι → Fn ι → Py Bool) (env : ι → X → ℂ) : Prop :=
  ∀ a b, eq a b = .ok true → ∀ x, a.eval env x = b.eval env x

/-- The invariant `LinearCombinationIntegrand.__post_init__` establishes. -/
def Fn.Checked : Fn ι → Prop
  | .leaf _ => True
  | .lc cs _ fs => cs.length = fs.length

theorem evalSum_eq (env : ι → X → ℂ) (x : X) (cs : List ℂ) (fs : List (Fn ι)) :
    Fn.evalSum env x cs fs = linComb cs (fs.map (Fn.eval env x)) := by
  induction cs generalizing fs with
  | nil => simp [Fn.evalSum, linComb]
  | cons c cs ih =>
    cases fs with
    | nil => simp [Fn.evalSum, linComb]
    | cons f fs => simp [Fn.evalSum, linComb, ih]

theorem eval_lc (env : ι → X → ℂ) (x : X) (cs : List ℂ) (k : SeqKind) (fs : List (Fn ι)) :
    (Fn.lc cs k fs).eval env x = linComb cs (fs.map (Fn.eval env x)) := by
  rw [Fn.eval, evalSum_eq]

theorem mkLC_ok {cs : List ℂ} {k : SeqKind} {fs : List (Fn ι)} {g : Fn ι} (h : mkLC cs k fs = .ok g) :
    cs.length = fs.length ∧ g = .lc cs k fs := by
  unfold mkLC at h
  split_ifs at h with h1
  injection h with h
  exact ⟨h1, h.symm⟩

theorem linComb_append_zero (cs vs ws : List ℂ) (m : Nat) (h : cs.length = vs.length) :
    linComb (cs ++ List.replicate m 0) (vs ++ ws) = linComb cs vs := by
  induction cs generalizing vs with
  | nil =>
    have : vs = [] := List.length_eq_zero_iff.1 h.symm
    subst this
    simp only [linComb, List.nil_append, List.zipWith_nil_left, List.sum_nil]
    induction m generalizing ws with
    | zero => simp
    | succ m ih =>
      cases ws with
      | nil => simp
      | cons w ws => simp [List.replicate_succ, ih]
  | cons c cs ih =>
    cases vs with
    | nil => simp at h
    | cons v vs =>
      have := ih vs (by simpa using h)
      simp only [linComb] at this ⊢
      simp [this]

theorem linComb_getD (n : Nat) (row vs : List ℂ) (hr : row.length = n) (hv : vs.length = n) :
    linComb row vs = ∑ j ∈ Finset.range n, row.getD j 0 * vs.getD j 0 := by
  induction n generalizing row vs with
  | zero =>
    have h1 : row = [] := List.length_eq_zero_iff.1 hr
    subst h1
    simp [linComb]
  | succ n ih =>
    cases row with
    | nil => simp at hr
    | cons r row =>
      cases vs with
      | nil => simp at hv
      | cons v vs =>
        rw [Finset.sum_range_succ']
        have := ih row vs (by simpa using hr) (by simpa using hv)
        simp only [linComb] at this ⊢
        simp [this, add_comm]

/-- `(c @ M) · v = c · (M v)`. -/
theorem linComb_vecMatrix {n : Nat} {cs v : List ℂ} {rows : List (List ℂ)} (h : vecMatrix n cs rows = .ok v)
    (hrows : ∀ r ∈ rows, r.length = n) (vs : List ℂ) (hv : vs.length = n) :
    linComb v vs = linComb cs (rows.map fun r => linComb r vs) := by
  unfold vecMatrix at h
  split_ifs at h with h1
  injection h with h
  rw [← h, linComb_getD n _ vs (by simp) hv]
  clear h h1
  induction cs generalizing rows with
  | nil =>
    rw [Finset.sum_eq_zero]
    · simp [linComb]
    · intro j hj
      simp only [Finset.mem_range] at hj
      simp [List.getD_eq_getElem?_getD, hj]
  | cons c cs ih =>
    cases rows with
    | nil =>
      rw [Finset.sum_eq_zero]
      · simp [linComb]
      · intro j hj
        simp only [Finset.mem_range] at hj
        simp [List.getD_eq_getElem?_getD, hj]
    | cons r rows =>
      have e := ih (rows := rows) fun r hr => hrows r (List.mem_cons_of_mem _ hr)
      have er := linComb_getD n r vs (hrows r List.mem_cons_self) hv
      have : linComb (c :: cs) ((r :: rows).map fun r => linComb r vs) =
          c * linComb r vs + linComb cs (rows.map fun r => linComb r vs) := by simp [linComb]
      rw [this, ← e, er, Finset.mul_sum, ← Finset.sum_add_distrib]
      refine Finset.sum_congr rfl fun j hj => ?_
      simp only [Finset.mem_range] at hj
      simp [List.getD_eq_getElem?_getD, hj]
      ring

theorem listEq_eval {eq : Fn ι → Fn ι → Py Bool} {env : ι → X → ℂ} (hs : EqSound eq env) (x : X) :
    ∀ {a b : List (Fn ι)}, listEq eq a b = .ok true → a.map (Fn.eval env x) = b.map (Fn.eval env x)
  | [], [], _ => rfl
  | [], _ :: _, h => by simp [listEq] at h
  | _ :: _, [], h => by simp [listEq] at h
  | a :: as, b :: bs, h => by
    unfold listEq at h
    cases e : eq a b with
    | error e' => rw [e] at h; simp at h
    | ok r =>
      rw [e] at h
      cases r with
      | false => simp at h
      | true =>
        simp only at h
        rw [List.map_cons, List.map_cons, hs a b e x, listEq_eval hs x h]

theorem seqNe_eval {eq : Fn ι → Fn ι → Py Bool} {env : ι → X → ℂ} (hs : EqSound eq env) (x : X) {k : SeqKind}
    {a b : List (Fn ι)} (h : seqNe eq k a b = .ok false) : a.map (Fn.eval env x) = b.map (Fn.eval env x) := by
  cases k with
  | tuple => simp [seqNe] at h
  | list =>
    unfold seqNe at h
    cases e : listEq eq a b with
    | error e' => rw [e] at h; simp at h
    | ok r =>
      rw [e] at h
      cases r with
      | false => simp at h
      | true => exact listEq_eval hs x e

/-- Invariant of the flattening loop: the basis only grows, and the rows stand for the values of the functions seen. -/
theorem flattenLoop_ok {eq : Fn ι → Fn ι → Py Bool} {env : ι → X → ℂ} (hs : EqSound eq env) (x : X) (n : Nat) :
    ∀ (lcs : List (List ℂ × SeqKind × List (Fn ι))) (basis : List (Fn ι)) (rows : List (List ℂ)) (B : List (Fn ι))
      (R : List (List ℂ)), (∀ f ∈ lcs, f.1.length = f.2.2.length) → (∀ r ∈ rows, r.length = n) →
      flattenLoop eq n lcs basis rows = .ok (some (B, R)) →
      (∃ E, B = basis ++ E) ∧ (∀ r ∈ R, r.length = n) ∧
      R.map (fun r => linComb r (B.map (Fn.eval env x))) = rows.map (fun r => linComb r (B.map (Fn.eval env x))) ++
        lcs.map fun f => linComb f.1 (f.2.2.map (Fn.eval env x))
  | [], basis, rows, B, R, _, hr, h => by
    simp only [flattenLoop, Except.ok.injEq, Option.some.injEq, Prod.mk.injEq] at h
    obtain ⟨rfl, rfl⟩ := h
    exact ⟨⟨[], by simp⟩, hr, by simp⟩
  | f :: lcs, basis, rows, B, R, hwf, hr, h => by
    unfold flattenLoop at h
    simp only at h
    cases e : seqNe eq f.2.1 (basis.take (min basis.length f.2.2.length))
        (f.2.2.take (min basis.length f.2.2.length)) with
    | error e' => rw [e] at h; simp at h
    | ok r =>
      rw [e] at h
      cases r with
      | true => simp at h
      | false =>
        simp only at h
        split_ifs at h with hlen
        have hv := seqNe_eval hs x e
        obtain ⟨⟨E, hE⟩, hR, hmap⟩ := flattenLoop_ok hs x n lcs _ _ B R
          (fun g hg => hwf g (List.mem_cons_of_mem _ hg)) (by
            intro r hr'
            rcases List.mem_append.1 hr' with h | h
            · exact hr r h
            · rw [List.mem_singleton.1 h]; simp; omega) h
        refine ⟨⟨_, hE.trans (List.append_assoc _ _ _)⟩, hR, ?_⟩
        rw [hmap, List.map_append, List.append_assoc, List.map_cons]
        congr 1
        simp only [List.map_cons, List.map_nil, List.cons_append, List.nil_append, List.cons.injEq, and_true]
        -- the functions of `f` are, by value, a prefix of the basis
        have hpre : ∃ W, B.map (Fn.eval env x) = f.2.2.map (Fn.eval env x) ++ W := by
          rcases Nat.le_total basis.length f.2.2.length with hle | hle
          · rw [Nat.min_eq_left hle] at hv hE
            refine ⟨E.map (Fn.eval env x), ?_⟩
            rw [hE, List.map_append, List.map_append]
            rw [List.take_length] at hv
            rw [hv, ← List.map_append, List.take_append_drop]
          · rw [Nat.min_eq_right hle] at hv hE
            rw [List.take_length] at hv
            refine ⟨(basis.drop f.2.2.length ++ E).map (Fn.eval env x), ?_⟩
            rw [hE, List.drop_length, List.append_nil, ← hv, ← List.map_append, ← List.append_assoc,
              List.take_append_drop]
        obtain ⟨W, hW⟩ := hpre
        rw [hW]
        exact linComb_append_zero _ _ _ _ (by rw [hwf f List.mem_cons_self, List.length_map])

theorem filterMap_asLC {fs : List (Fn ι)} (h : (fs.filterMap Fn.asLC).length = fs.length) :
    fs = (fs.filterMap Fn.asLC).map fun f => Fn.lc f.1 f.2.1 f.2.2 := by
  induction fs with
  | nil => rfl
  | cons f fs ih =>
    cases f with
    | leaf i =>
      have := List.length_filterMap_le Fn.asLC fs
      rw [List.filterMap_cons_none rfl, List.length_cons] at h
      omega
    | lc cs k gs =>
      rw [List.filterMap_cons_some (f := Fn.asLC) (b := (cs, k, gs)) rfl] at h ⊢
      rw [List.map_cons, ← ih (by simpa using h)]

/-- **C50.**  For all coefficients and functions (nested combinations included): whatever `linearly_combine` returns has the
value `Σ c_i f_i(x)` at every point. -/
theorem C50_value (eq : Fn ι → Fn ι → Py Bool) (env : ι → X → ℂ) (hs : EqSound eq env) (cs : List ℂ) (kind : SeqKind)
    (fs : List (Fn ι)) (hfs : ∀ f ∈ fs, f.Checked) (g : Fn ι) (h : linearlyCombine eq cs kind fs = .ok g) :
    cs.length = fs.length ∧ g.Checked ∧ ∀ x, g.eval env x = linComb cs (fs.map (Fn.eval env x)) := by
  have hun : mkLC cs kind fs = .ok g → cs.length = fs.length ∧ g.Checked ∧
      ∀ x, g.eval env x = linComb cs (fs.map (Fn.eval env x)) := by
    intro h
    obtain ⟨hl, rfl⟩ := mkLC_ok h
    exact ⟨hl, hl, fun x => eval_lc env x _ _ _⟩
  unfold linearlyCombine at h
  simp only at h
  split_ifs at h with hall
  · exact hun h
  have hall : (fs.filterMap Fn.asLC).length = fs.length := not_not.1 hall
  cases e : flattenLoop eq (fs.filterMap Fn.asLC).length (fs.filterMap Fn.asLC) [] [] with
  | error e' => rw [e] at h; simp at h
  | ok r =>
    rw [e] at h
    cases r with
    | none => exact hun h
    | some r =>
      simp only at h
      cases ev : vecMatrix (fs.filterMap Fn.asLC).length cs r.2 with
      | error e' => rw [ev] at h; simp at h
      | ok v =>
        rw [ev] at h
        simp only at h
        obtain ⟨hl, rfl⟩ := mkLC_ok h
        have hfm := filterMap_asLC hall
        have hwf : ∀ f ∈ fs.filterMap Fn.asLC, f.1.length = f.2.2.length := by
          intro f hf
          have : Fn.lc f.1 f.2.1 f.2.2 ∈ fs := by
            rw [hfm]
            exact List.mem_map_of_mem (f := fun f => Fn.lc f.1 f.2.1 f.2.2) hf
          exact hfs _ this
        have hcs : cs.length = (fs.filterMap Fn.asLC).length ∧ v.length = (fs.filterMap Fn.asLC).length := by
          unfold vecMatrix at ev
          split_ifs at ev with h1
          injection ev with ev
          exact ⟨h1, by rw [← ev]; simp⟩
        refine ⟨hcs.1.trans hall, hl, fun x => ?_⟩
        obtain ⟨-, hR, hmap⟩ := flattenLoop_ok hs x _ _ [] [] r.1 r.2 hwf (by simp) e
        rw [eval_lc, linComb_vecMatrix ev hR _ (by rw [List.length_map, ← hl, hcs.2]), hmap]
        congr 1
        conv_rhs => rw [hfm]
        simp only [List.map_nil, List.nil_append, List.map_map]
        refine List.map_congr_left fun f _ => ?_
        simp only [Function.comp]
        rw [eval_lc]

/-- **C50 (plain functions).**  Unless every function is itself a linear combination, matching lengths always succeed. -/
theorem C50_plain (eq : Fn ι → Fn ι → Py Bool) (cs : List ℂ) (kind : SeqKind) (fs : List (Fn ι))
    (hl : cs.length = fs.length) (i : ι) (hi : Fn.leaf i ∈ fs) :
    linearlyCombine eq cs kind fs = .ok (.lc cs kind fs) := by
  have : (fs.filterMap Fn.asLC).length ≠ fs.length := by
    intro h
    rw [filterMap_asLC h] at hi
    simp at hi
  unfold linearlyCombine
  simp only
  rw [if_pos this, mkLC, if_pos hl]

theorem listEq_self {eq : Fn ι → Fn ι → Py Bool} (hr : ∀ a, eq a a = .ok true) : ∀ a : List (Fn ι), listEq eq a a = .ok true
  | [] => rfl
  | a :: as => by unfold listEq; rw [hr a]; exact listEq_self hr as

theorem flattenLoop_common {eq : Fn ι → Fn ι → Py Bool} (hr : ∀ a, eq a a = .ok true) (B : List (Fn ι)) (n : Nat) :
    ∀ (rows : List (List ℂ)) (acc : List (List ℂ)), (∀ r ∈ rows, r.length = B.length) →
      flattenLoop eq n (rows.map fun r => (r, SeqKind.list, B)) B acc =
        if rows ≠ [] ∧ n < B.length then .error .ValueError
        else .ok (some (B, acc ++ rows.map fun r => r ++ List.replicate (n - r.length) 0))
  | [], acc, _ => by simp [flattenLoop]
  | r :: rows, acc, h => by
    have hrl := h r List.mem_cons_self
    rw [List.map_cons]
    unfold flattenLoop
    simp only [Nat.min_self, List.take_length, List.drop_length, List.append_nil, seqNe, listEq_self hr, Bool.not_true]
    by_cases hn : n < B.length
    · rw [if_neg (by omega), if_pos ⟨by simp, hn⟩]
    · rw [if_pos (by omega), if_neg (by simp [hn]),
        flattenLoop_common hr B n rows _ fun r hr => h r (List.mem_cons_of_mem _ hr), if_neg (by simp [hn])]
      simp

/-- **C50 (which flattenings succeed).**  For `n ≥ 1` combinations over one common list of `m` functions, flattening works
exactly for `m = n`: with more functions than combinations it raises `ValueError`, with fewer `AssertionError`. -/
theorem C50_common_basis (eq : Fn ι → Fn ι → Py Bool) (hr : ∀ a, eq a a = .ok true) (cs : List ℂ) (kind : SeqKind)
    (B : List (Fn ι)) (rows : List (List ℂ)) (hne : rows ≠ []) (hrows : ∀ r ∈ rows, r.length = B.length)
    (hc : cs.length = rows.length) :
    let res := linearlyCombine eq cs kind (rows.map fun r => Fn.lc r .list B)
    (rows.length < B.length → res = .error .ValueError) ∧
    (B.length < rows.length → res = .error .AssertionError) ∧
    (B.length = rows.length → ∃ v, res = .ok (.lc v .list B)) := by
  intro res
  have hfm : (rows.map fun r => Fn.lc r .list B).filterMap Fn.asLC = rows.map fun r => (r, SeqKind.list, B) := by
    rw [List.filterMap_map]
    have : (Fn.asLC ∘ fun r => Fn.lc r .list B) = fun r => some (r, SeqKind.list, B) := rfl
    rw [this]
    clear hne hrows hc res
    induction rows with
    | nil => rfl
    | cons r rows ih => simp [ih]
  have hloop : flattenLoop eq rows.length (rows.map fun r => (r, SeqKind.list, B)) [] [] =
      if rows.length < B.length then .error .ValueError
      else .ok (some (B, rows.map fun r => r ++ List.replicate (rows.length - r.length) 0)) := by
    cases rows with
    | nil => exact absurd rfl hne
    | cons r rows =>
      have hrl := hrows r List.mem_cons_self
      rw [List.map_cons]
      unfold flattenLoop
      simp only [List.length_nil, Nat.zero_min, List.take_zero, seqNe, listEq, Bool.not_true, List.drop_zero,
        List.nil_append]
      by_cases hn : (r :: rows).length < B.length
      · rw [if_neg (by omega), if_pos hn]
      · rw [if_pos (by omega), if_neg hn,
          flattenLoop_common hr B _ rows _ fun r hr => hrows r (List.mem_cons_of_mem _ hr), if_neg fun hh => hn hh.2]
        simp
  have hres : res = linearlyCombine eq cs kind (rows.map fun r => Fn.lc r .list B) := rfl
  unfold linearlyCombine at hres
  simp only [hfm, List.length_map, ne_eq, not_true_eq_false, if_false, hloop] at hres
  refine ⟨fun h => ?_, fun h => ?_, fun h => ?_⟩
  · rw [hres, if_pos h]
  · rw [hres, if_neg (by omega)]
    simp [vecMatrix, hc, mkLC, show rows.length ≠ B.length by omega]
  · rw [hres, if_neg (by omega)]
    simp [vecMatrix, hc, mkLC, h]

/-- Non-vacuity: a nested combination is flattened, to the right value. -/
example : ∃ g, linearlyCombine (ι := Bool) (fun _ _ => .ok true) [2, 3] .list
    [.lc [1] .list [.leaf true], .lc [1, 5] .list [.leaf true, .leaf false]] = .ok g ∧
    g = .lc [5, 15] .list [.leaf true, .leaf false] := by
  refine ⟨_, ?_, rfl⟩
  simp [linearlyCombine, Fn.asLC, flattenLoop, seqNe, listEq, vecMatrix, mkLC, List.range_succ]
  norm_num

/-- Combining two combinations of one function raises although their sum makes sense. -/
example (eq : Fn Bool → Fn Bool → Py Bool) (hr : ∀ a, eq a a = .ok true) :
    linearlyCombine eq [1, 1] .list [.lc [1] .list [.leaf true], .lc [2] .list [.leaf true]] = .error .AssertionError :=
  (C50_common_basis eq hr [1, 1] .list [.leaf true] [[1], [2]] (by simp) (by simp) rfl).2.1 (by simp)

end Modepy

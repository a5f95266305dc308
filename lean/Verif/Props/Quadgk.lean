import Verif.Props.KronrodRule
import Mathlib.Data.List.Perm.Basic
import Mathlib.MeasureTheory.Integral.IntervalIntegral.Basic

/-!
# Property C54: adaptive integration
-/

namespace Modepy
open Polynomial

section
variable {𝕜 V : Type} [RCLike 𝕜] [NormedAddCommGroup V] [NormedSpace 𝕜 V]

/-- Consecutive pairs. -/
def Spec.consecutive {α : Type} : List α → List (α × α)
  | a :: b :: rest => (a, b) :: Spec.consecutive (b :: rest)
  | _ => []

/-- Adaptive integration in the abstract.  `Adaptive … S T N`: starting from the segments `S`, the segments `T` are reached
after `N` evaluations by bisecting, while neither the tolerances nor the budget are exhausted, a segment of largest error. -/
inductive Spec.Adaptive (val : 𝕜 × 𝕜 → V) (err : 𝕜 × 𝕜 → ℝ) (cost : Nat) (abstol reltol : ℝ) (maxevals : Nat)
    (S : List (𝕜 × 𝕜)) : List (𝕜 × 𝕜) → Nat → Prop
  | start : Adaptive val err cost abstol reltol maxevals S S (cost * S.length)
  | split (l : List (𝕜 × 𝕜)) (a b : 𝕜) (r : List (𝕜 × 𝕜)) (N : Nat)
      (before : Adaptive val err cost abstol reltol maxevals S (l ++ (a, b) :: r) N)
      (habs : abstol < ((l ++ (a, b) :: r).map err).sum)
      (hrel : reltol * ‖((l ++ (a, b) :: r).map val).sum‖ < ((l ++ (a, b) :: r).map err).sum)
      (hmax : N < maxevals)
      (worst : ∀ v ∈ l ++ (a, b) :: r, err v ≤ err (a, b)) :
      Adaptive val err cost abstol reltol maxevals S (l ++ (a, (a + b) / 2) :: ((a + b) / 2, b) :: r) (N + 2 * cost)
open Spec

/-- The segment carrying the values for its end points. -/
def mkSeg (val : 𝕜 × 𝕜 → V) (err : 𝕜 × 𝕜 → ℝ) (p : 𝕜 × 𝕜) : Segment 𝕜 V := ⟨p.1, p.2, val p, err p⟩

theorem sum_map_mkSeg_val (val : 𝕜 × 𝕜 → V) (err : 𝕜 × 𝕜 → ℝ) (T : List (𝕜 × 𝕜)) :
    ((T.map (mkSeg val err)).map Segment.approxIntegral).sum = (T.map val).sum := by
  rw [List.map_map]; rfl

theorem sum_map_mkSeg_err (val : 𝕜 × 𝕜 → V) (err : 𝕜 × 𝕜 → ℝ) (T : List (𝕜 × 𝕜)) :
    ((T.map (mkSeg val err)).map Segment.errorEst).sum = (T.map err).sum := by
  rw [List.map_map]; rfl

theorem initialHeap_spec (q : Heapq (Segment 𝕜 V)) (Inv : List (Segment 𝕜 V) → Prop)
    (hpush : ∀ h x, Inv h → Inv (q.push h x) ∧ (q.push h x).Perm (x :: h))
    (ev : 𝕜 → 𝕜 → Py (Segment 𝕜 V)) (val : 𝕜 × 𝕜 → V) (err : 𝕜 × 𝕜 → ℝ)
    (hev : ∀ a b seg, ev a b = .ok seg → seg = mkSeg val err (a, b)) (s : List 𝕜) (heap : List (Segment 𝕜 V)) (hi : Inv heap)
    (heap' : List (Segment 𝕜 V)) (h : initialHeap q ev s heap = .ok heap') :
    Inv heap' ∧ heap'.Perm ((consecutive s).map (mkSeg val err) ++ heap) ∧ ∀ p ∈ consecutive s, ∃ seg, ev p.1 p.2 = .ok seg := by
  induction s generalizing heap with
  | nil =>
    simp only [initialHeap] at h
    injection h with h
    subst h
    exact ⟨hi, by simp [consecutive], by simp [consecutive]⟩
  | cons a s ih =>
    cases s with
    | nil =>
      simp only [initialHeap] at h
      injection h with h
      subst h
      exact ⟨hi, by simp [consecutive], by simp [consecutive]⟩
    | cons b rest =>
      simp only [initialHeap] at h
      cases hab : ev a b with
      | error e => rw [hab] at h; simp at h
      | ok seg =>
        rw [hab] at h
        obtain ⟨i1, p1⟩ := hpush heap seg hi
        obtain ⟨i2, p2, p3⟩ := ih _ i1 h
        refine ⟨i2, ?_, ?_⟩
        · rw [consecutive, List.map_cons, List.cons_append, ← hev a b seg hab]
          refine p2.trans (((List.Perm.append_left _ p1)).trans ?_)
          exact List.perm_middle
        · intro p hp
          rw [consecutive, List.mem_cons] at hp
          rcases hp with rfl | hp
          · exact ⟨seg, hab⟩
          · exact p3 p hp

/-- The loop runs the abstract algorithm. -/
theorem refineLoop_spec (q : Heapq (Segment 𝕜 V)) (Inv : List (Segment 𝕜 V) → Prop)
    (hpush : ∀ h x, Inv h → Inv (q.push h x) ∧ (q.push h x).Perm (x :: h))
    (hpop : ∀ h, Inv h → h ≠ [] → ∃ x h', q.pop h = some (x, h') ∧ Inv h' ∧ h.Perm (x :: h') ∧
      ∀ y ∈ h, y.errorEst ≤ x.errorEst)
    (ev : 𝕜 → 𝕜 → Py (Segment 𝕜 V)) (val : 𝕜 × 𝕜 → V) (err : 𝕜 × 𝕜 → ℝ)
    (hev : ∀ a b seg, ev a b = .ok seg → seg = mkSeg val err (a, b)) (n : Nat) (abstol reltol : ℝ) (maxevals : Nat)
    (S : List (𝕜 × 𝕜)) (k : Nat) :
    ∀ (T : List (𝕜 × 𝕜)) (heap : List (Segment 𝕜 V)) (approx : V) (errv : ℝ) (N : Nat),
    maxevals - N ≤ k → T ≠ [] → Inv heap → heap.Perm (T.map (mkSeg val err)) → approx = (T.map val).sum → errv = (T.map err).sum →
    (∀ p ∈ T, ∃ seg, ev p.1 p.2 = .ok seg) →
    Adaptive val err (2 * n + 1) abstol reltol maxevals S T N →
    (∀ heap' N', refineLoop q ev n abstol reltol maxevals heap approx errv N = .ok (heap', N') →
      ∃ T', heap'.Perm (T'.map (mkSeg val err)) ∧ Adaptive val err (2 * n + 1) abstol reltol maxevals S T' N' ∧
        (∀ p ∈ T', ∃ seg, ev p.1 p.2 = .ok seg) ∧
        ¬ (abstol < (T'.map err).sum ∧ reltol * ‖(T'.map val).sum‖ < (T'.map err).sum ∧ N' < maxevals)) ∧
    (∀ e, refineLoop q ev n abstol reltol maxevals heap approx errv N = .error e → ∃ a b, ev a b = .error e) := by
  induction k with
  | zero =>
    intro T heap approx errv N hk hT hi hp ha he hfin hA
    have hc : ¬ (abstol < errv ∧ reltol * ‖approx‖ < errv ∧ N < maxevals) := by
      rintro ⟨-, -, h⟩; omega
    rw [refineLoop, if_neg hc]
    refine ⟨fun heap' N' h => ?_, fun e h => by simp at h⟩
    injection h with h
    injection h with h1 h2
    subst h1 h2
    exact ⟨T, hp, hA, hfin, by rw [← ha, ← he]; exact hc⟩
  | succ k ih =>
    intro T heap approx errv N hk hT hi hp ha he hfin hA
    by_cases hc : abstol < errv ∧ reltol * ‖approx‖ < errv ∧ N < maxevals
    · have hne : heap ≠ [] := by
        rintro rfl
        have := hp.length_eq
        simp at this
        exact hT (List.length_eq_zero_iff.1 this.symm)
      obtain ⟨x, h', e1, hi', hperm, hmaxe⟩ := hpop heap hi hne
      rw [refineLoop, if_pos hc, e1]
      simp only
      -- the popped segment
      have hxT : x ∈ T.map (mkSeg val err) := hp.subset (hperm.symm.subset (List.mem_cons_self))
      obtain ⟨⟨a, b⟩, hab, hx⟩ := List.mem_map.1 hxT
      obtain ⟨l, r, rfl⟩ := List.append_of_mem hab
      have hxa : x.a = a := by rw [← hx]; rfl
      have hxb : x.b = b := by rw [← hx]; rfl
      have hmid : (x.a + x.b) * (1 / 2) = (a + b) / 2 := by rw [hxa, hxb]; ring
      rw [hmid, hxa, hxb]
      cases hs1 : ev a ((a + b) / 2) with
      | error e => exact ⟨by simp, fun e' h => by simp at h; subst h; exact ⟨_, _, hs1⟩⟩
      | ok s1 =>
        cases hs2 : ev ((a + b) / 2) b with
        | error e => exact ⟨by simp, fun e' h => by simp at h; subst h; exact ⟨_, _, hs2⟩⟩
        | ok s2 =>
          simp only
          have v1 := hev _ _ _ hs1
          have v2 := hev _ _ _ hs2
          obtain ⟨j1, q1⟩ := hpush h' s1 hi'
          obtain ⟨j2, q2⟩ := hpush _ s2 j1
          have hrest : h'.Perm ((l ++ r).map (mkSeg val err)) := by
            have hh := hperm.symm.trans hp
            rw [List.map_append, List.map_cons, hx] at hh
            have := hh.trans List.perm_middle
            rw [← List.map_append] at this
            exact this.cons_inv
          have hxv : x.approxIntegral = val (a, b) := by rw [← hx]; rfl
          have hxe : x.errorEst = err (a, b) := by rw [← hx]; rfl
          refine ih (l ++ (a, (a + b) / 2) :: ((a + b) / 2, b) :: r) _ _ _ _ (by omega) (by simp) j2 ?_ ?_ ?_ ?_ ?_
          · refine q2.trans ?_
            refine (List.Perm.cons _ q1).trans ?_
            refine (List.Perm.cons _ (List.Perm.cons _ hrest)).trans ?_
            rw [v1, v2, List.map_append, List.map_append, List.map_cons, List.map_cons]
            refine List.Perm.trans ?_ List.perm_middle.symm
            refine (List.Perm.swap _ _ _).trans (List.Perm.cons _ ?_)
            exact List.perm_middle.symm
          · rw [ha, hxv, v1, v2]
            simp only [List.map_append, List.sum_append, List.map_cons, List.sum_cons, mkSeg]
            abel
          · rw [he, hxe, v1, v2]
            simp only [List.map_append, List.sum_append, List.map_cons, List.sum_cons, mkSeg]
            ring
          · intro p hp'
            simp only [List.mem_append, List.mem_cons] at hp'
            rcases hp' with h | rfl | rfl | h
            · exact hfin p (by simp [h])
            · exact ⟨_, hs1⟩
            · exact ⟨_, hs2⟩
            · exact hfin p (by simp [h])
          · have := Adaptive.split l a b r N hA (by rw [← he]; exact hc.1) (by rw [← ha, ← he]; exact hc.2.1) hc.2.2 (by
              intro v hv
              have := hmaxe (mkSeg val err v) (hp.symm.subset (List.mem_map_of_mem hv))
              rw [hxe] at this
              exact this)
            rw [show N + (4 * n + 2) = N + 2 * (2 * n + 1) by ring]
            exact this
    · rw [refineLoop, if_neg hc]
      refine ⟨fun heap' N' h => ?_, fun e h => by simp at h⟩
      injection h with h
      injection h with h1 h2
      subst h1 h2
      exact ⟨T, hp, hA, hfin, by rw [← ha, ← he]; exact hc⟩

theorem initialHeap_error (q : Heapq (Segment 𝕜 V)) (ev : 𝕜 → 𝕜 → Py (Segment 𝕜 V)) (s : List 𝕜)
    (heap : List (Segment 𝕜 V)) (e : PyErr) (h : initialHeap q ev s heap = .error e) : ∃ a b, ev a b = .error e := by
  induction s generalizing heap with
  | nil => simp [initialHeap] at h
  | cons a s ih =>
    cases s with
    | nil => simp [initialHeap] at h
    | cons b rest =>
      simp only [initialHeap] at h
      cases hab : ev a b with
      | error e' =>
        rw [hab] at h
        injection h with h
        subst h
        exact ⟨a, b, hab⟩
      | ok seg =>
        rw [hab] at h
        exact ih _ h

theorem evalrule_error (f : 𝕜 → Option V) (a b : 𝕜) (x w gw : List ℝ) (e : PyErr)
    (h : evalrule f a b x w gw = .error e) : e = .ValueError ∧ ∃ p, f p = none := by
  rw [evalrule] at h
  split at h
  · rename_i hany
    injection h with h
    rw [List.any_eq_true] at hany
    obtain ⟨p, -, hp⟩ := hany
    exact ⟨h.symm, p, by simpa using hp⟩
  · simp at h

/-- **C54.**  For finite break points `s` (at least two), a successful `quadgk` runs the abstract adaptive algorithm on the
consecutive pairs of break points: it returns the sums of the values and of the error estimates of `_evalrule` over the
final segments, which are reached by bisecting segments of largest error while both tolerances and the budget are exceeded,
at `2n + 1` evaluations per segment evaluated, and it stops only when a tolerance is met or the budget is used up. -/
theorem C54_adaptive (eigvalsh : Eigvalsh) (q : Heapq (Segment 𝕜 V)) (hq : HeapqOk q) (f : 𝕜 → Option V) (s : List 𝕜)
    (hs : 2 ≤ s.length) (n : Nat) (abstol reltol : ℝ) (maxevals : Nat) (I : V) (E : ℝ) (N : Nat)
    (h : quadgkFinite eigvalsh q f s abstol reltol maxevals n = .ok (I, E, N)) :
    ∃ (x w gw : List ℝ) (val : 𝕜 × 𝕜 → V) (err : 𝕜 × 𝕜 → ℝ) (T : List (𝕜 × 𝕜)),
      kronrod eigvalsh n = .ok (x, w, gw) ∧
      Adaptive val err (2 * n + 1) abstol reltol maxevals (consecutive s) T N ∧
      (∀ p ∈ T, evalrule f p.1 p.2 x w gw = .ok ⟨p.1, p.2, val p, err p⟩) ∧
      I = (T.map val).sum ∧ E = (T.map err).sum ∧
      (E ≤ abstol ∨ E ≤ reltol * ‖I‖ ∨ maxevals ≤ N) ∧
      (∀ a b seg, evalrule f a b x w gw = .ok seg → seg = ⟨a, b, val (a, b), err (a, b)⟩) := by
  obtain ⟨Inv, h0, hpush, hpop⟩ := hq
  rw [quadgkFinite, if_neg (by omega), doQuadgkFinite] at h
  cases hk : kronrod eigvalsh n with
  | error e => rw [hk] at h; simp at h
  | ok r =>
    obtain ⟨x, w, gw⟩ := r
    rw [hk] at h
    simp only at h
    let g : 𝕜 × 𝕜 → Segment 𝕜 V := fun p => match evalrule f p.1 p.2 x w gw with
      | .ok seg => seg
      | .error _ => ⟨p.1, p.2, 0, 0⟩
    have hab : ∀ a b seg, evalrule f a b x w gw = .ok seg → seg.a = a ∧ seg.b = b := by
      intro a b seg hseg
      rw [evalrule] at hseg
      split at hseg
      · simp at hseg
      · injection hseg with hseg
        subst hseg
        exact ⟨rfl, rfl⟩
    have hev : ∀ a b seg, evalrule f a b x w gw = .ok seg →
        seg = mkSeg (fun p => (g p).approxIntegral) (fun p => (g p).errorEst) (a, b) := by
      intro a b seg hseg
      have hg : g (a, b) = seg := by simp only [g, hseg]
      obtain ⟨h1, h2⟩ := hab a b seg hseg
      simp only [mkSeg, hg]
      cases seg
      simp only at h1 h2
      subst h1 h2
      rfl
    cases hi : initialHeap q (fun a b => evalrule f a b x w gw) s [] with
    | error e => rw [hi] at h; simp at h
    | ok heap =>
      rw [hi] at h
      simp only at h
      obtain ⟨i1, p1, f1⟩ := initialHeap_spec q Inv hpush _ _ _ hev s [] h0 heap hi
      rw [List.append_nil] at p1
      have hlen : heap.length = (consecutive s).length := by rw [p1.length_eq, List.length_map]
      have hne : consecutive s ≠ [] := by
        match s, hs with
        | a :: b :: r, _ => simp [consecutive]
      have sv : (heap.map Segment.approxIntegral).sum = ((consecutive s).map fun p => (g p).approxIntegral).sum := by
        rw [(p1.map Segment.approxIntegral).sum_eq, sum_map_mkSeg_val]
      have se : (heap.map Segment.errorEst).sum = ((consecutive s).map fun p => (g p).errorEst).sum := by
        rw [(p1.map Segment.errorEst).sum_eq, sum_map_mkSeg_err]
      have hloop := refineLoop_spec q Inv hpush hpop _ _ _ hev n abstol reltol maxevals (consecutive s)
        (maxevals - (2 * n + 1) * heap.length) (consecutive s) heap _ _ ((2 * n + 1) * heap.length) le_rfl hne i1 p1 sv se
        f1 (by rw [hlen]; exact Adaptive.start)
      cases hr : refineLoop q (fun a b => evalrule f a b x w gw) n abstol reltol maxevals heap
          (heap.map Segment.approxIntegral).sum (heap.map Segment.errorEst).sum ((2 * n + 1) * heap.length) with
      | error e => rw [hr] at h; simp at h
      | ok res =>
        obtain ⟨heap', N'⟩ := res
        rw [hr] at h
        simp only at h
        injection h with h
        injection h with hI h
        injection h with hE hN
        obtain ⟨T, pT, aT, fT, stop⟩ := hloop.1 heap' N' hr
        have tv : I = (T.map fun p => (g p).approxIntegral).sum := by
          rw [← hI, (pT.map Segment.approxIntegral).sum_eq, sum_map_mkSeg_val]
        have te : E = (T.map fun p => (g p).errorEst).sum := by
          rw [← hE, (pT.map Segment.errorEst).sum_eq, sum_map_mkSeg_err]
        subst hN
        refine ⟨x, w, gw, _, _, T, rfl, aT, ?_, tv, te, ?_, hev⟩
        · intro p hp
          obtain ⟨seg, hseg⟩ := fT p hp
          rw [hseg]
          exact congrArg Except.ok (hev p.1 p.2 seg hseg)
        · rw [← tv, ← te] at stop
          by_contra hcon
          push Not at hcon
          exact stop ⟨hcon.1, hcon.2.1, hcon.2.2⟩

/-- **C54 (failure).**  `quadgk` fails only with `ValueError`: fewer than two break points, order zero, or an integrand that
is not finite somewhere. -/
theorem C54_errors (eigvalsh : Eigvalsh) (q : Heapq (Segment 𝕜 V)) (hq : HeapqOk q) (f : 𝕜 → Option V) (s : List 𝕜)
    (n : Nat) (abstol reltol : ℝ) (maxevals : Nat) (e : PyErr)
    (h : quadgkFinite eigvalsh q f s abstol reltol maxevals n = .error e) :
    e = .ValueError ∧ (s.length < 2 ∨ n = 0 ∨ ∃ p, f p = none) := by
  obtain ⟨Inv, h0, hpush, hpop⟩ := hq
  rw [quadgkFinite] at h
  by_cases hs : s.length < 2
  · rw [if_pos hs] at h
    injection h with h
    exact ⟨h.symm, .inl hs⟩
  rw [if_neg hs, doQuadgkFinite] at h
  by_cases hn : n < 1
  · rw [kronrod, if_pos hn] at h
    injection h with h
    exact ⟨h.symm, .inr (.inl (by omega))⟩
  cases hk : kronrod eigvalsh n with
  | error e => rw [kronrod, if_neg hn] at hk; simp at hk
  | ok r =>
    obtain ⟨x, w, gw⟩ := r
    rw [hk] at h
    simp only at h
    let g : 𝕜 × 𝕜 → Segment 𝕜 V := fun p => match evalrule f p.1 p.2 x w gw with
      | .ok seg => seg
      | .error _ => ⟨p.1, p.2, 0, 0⟩
    have hev : ∀ a b seg, evalrule f a b x w gw = .ok seg →
        seg = mkSeg (fun p => (g p).approxIntegral) (fun p => (g p).errorEst) (a, b) := by
      intro a b seg hseg
      have hg : g (a, b) = seg := by simp only [g, hseg]
      have hab : seg.a = a ∧ seg.b = b := by
        rw [evalrule] at hseg
        split at hseg
        · simp at hseg
        · injection hseg with hseg
          subst hseg
          exact ⟨rfl, rfl⟩
      obtain ⟨h1, h2⟩ := hab
      simp only [mkSeg, hg]
      cases seg
      simp only at h1 h2
      subst h1 h2
      rfl
    cases hi : initialHeap q (fun a b => evalrule f a b x w gw) s [] with
    | error e' =>
      rw [hi] at h
      injection h with h
      subst h
      obtain ⟨a, b, hab⟩ := initialHeap_error q _ s [] e' hi
      obtain ⟨h1, h2⟩ := evalrule_error f a b x w gw e' hab
      exact ⟨h1, .inr (.inr h2)⟩
    | ok heap =>
      rw [hi] at h
      simp only at h
      obtain ⟨i1, p1, f1⟩ := initialHeap_spec q Inv hpush _ _ _ hev s [] h0 heap hi
      rw [List.append_nil] at p1
      have hlen : heap.length = (consecutive s).length := by rw [p1.length_eq, List.length_map]
      have hne : consecutive s ≠ [] := by
        match s, hs with
        | [], hs => simp at hs
        | [_], hs => simp at hs
        | a :: b :: r, _ => simp [consecutive]
      have sv : (heap.map Segment.approxIntegral).sum = ((consecutive s).map fun p => (g p).approxIntegral).sum := by
        rw [(p1.map Segment.approxIntegral).sum_eq, sum_map_mkSeg_val]
      have se : (heap.map Segment.errorEst).sum = ((consecutive s).map fun p => (g p).errorEst).sum := by
        rw [(p1.map Segment.errorEst).sum_eq, sum_map_mkSeg_err]
      have hloop := refineLoop_spec q Inv hpush hpop _ _ _ hev n abstol reltol maxevals (consecutive s)
        (maxevals - (2 * n + 1) * heap.length) (consecutive s) heap _ _ ((2 * n + 1) * heap.length) le_rfl hne i1 p1 sv se
        f1 (by rw [hlen]; exact Adaptive.start)
      cases hr : refineLoop q (fun a b => evalrule f a b x w gw) n abstol reltol maxevals heap
          (heap.map Segment.approxIntegral).sum (heap.map Segment.errorEst).sum ((2 * n + 1) * heap.length) with
      | ok res => rw [hr] at h; simp at h
      | error e' =>
        rw [hr] at h
        injection h with h
        subst h
        obtain ⟨a, b, hab⟩ := hloop.2 e' hr
        obtain ⟨h1, h2⟩ := evalrule_error f a b x w gw e' hab
        exact ⟨h1, .inr (.inr h2)⟩

/-! ## Consequences for the final segments -/

theorem consecutive_telescope {G : Type} [AddCommGroup G] (F : 𝕜 → G) (s : List 𝕜) (first last : 𝕜)
    (h1 : s.head? = some first) (h2 : s.getLast? = some last) :
    ((consecutive s).map fun p => F p.2 - F p.1).sum = F last - F first := by
  induction s generalizing first with
  | nil => simp at h1
  | cons a s ih =>
    simp only [List.head?_cons, Option.some.injEq] at h1
    subst h1
    cases s with
    | nil =>
      simp only [List.getLast?_singleton, Option.some.injEq] at h2
      subst h2
      simp [consecutive]
    | cons b rest =>
      rw [consecutive, List.map_cons, List.sum_cons, ih b rfl (by rw [← h2]; simp [List.getLast?_cons_cons])]
      abel

/-- **C54 (partition and cost).**  The segments reached telescope over the path (any quantity additive over segments adds up
to its value from the first to the last break point), their end points stay consecutive, the number of evaluations is
`(2n+1)(2·#segments - #initial)`, and it exceeds the larger of the initial cost and the budget by less than one bisection. -/
theorem C54_partition (val : 𝕜 × 𝕜 → V) (err : 𝕜 × 𝕜 → ℝ) (cost : Nat) (abstol reltol : ℝ)
    (maxevals : Nat) (s : List 𝕜) (first last : 𝕜) (h1 : s.head? = some first) (h2 : s.getLast? = some last)
    (T : List (𝕜 × 𝕜)) (N : Nat) (h : Adaptive val err cost abstol reltol maxevals (consecutive s) T N) :
    (∀ (G : Type) [AddCommGroup G] (F : 𝕜 → G), (T.map fun p => F p.2 - F p.1).sum = F last - F first) ∧
    List.IsChain (fun u v => u.2 = v.1) T ∧
    N + cost * (consecutive s).length = cost * (2 * T.length) ∧
    N < max (cost * (consecutive s).length + 1) (maxevals + 2 * cost) := by
  induction h with
  | start =>
    refine ⟨fun G _ F => consecutive_telescope F s first last h1 h2, ?_, by ring, by omega⟩
    clear h1 h2
    induction s with
    | nil => simp [consecutive]
    | cons a s ih =>
      cases s with
      | nil => simp [consecutive]
      | cons b rest =>
        cases rest with
        | nil => simp [consecutive]
        | cons c rest =>
          rw [consecutive] at ih ⊢
          rw [consecutive]
          exact List.isChain_cons_cons.2 ⟨rfl, ih⟩
  | split l a b r N before habs hrel hmax worst ih =>
    obtain ⟨i1, i2, i3, i4⟩ := ih
    refine ⟨?_, ?_, ?_, by omega⟩
    · intro G _ F
      rw [← i1 G F]
      simp only [List.map_append, List.map_cons, List.sum_append, List.sum_cons]
      abel
    · rw [List.isChain_append] at i2 ⊢
      obtain ⟨c1, c2, c3⟩ := i2
      refine ⟨c1, ?_, ?_⟩
      · refine List.isChain_cons_cons.2 ⟨rfl, ?_⟩
        cases r with
        | nil => simp
        | cons c r => exact List.isChain_cons_cons.2 (List.isChain_cons_cons.1 c2)
      · intro u hu v hv
        simp only [List.head?_cons, Option.mem_def, Option.some.injEq] at hv
        subst hv
        exact c3 u hu (a, b) rfl
    · simp only [List.length_append, List.length_cons] at i3 ⊢
      linear_combination i3

end

/-! ## Exactness -/

section
variable {𝕜 : Type} [RCLike 𝕜]
open Spec

/-- A real rule exact for real polynomials integrates the derivative of a polynomial over `𝕜` exactly. -/
theorem rule_exact_field (c d : Nat) (W X : Nat → ℝ)
    (h : ∀ f : ℝ[X], f.natDegree ≤ d → ∑ j ∈ Finset.range c, W j * f.eval (X j) = ∫ t in (-1)..1, f.eval t)
    (P : 𝕜[X]) (hP : P.natDegree ≤ d + 1) :
    ∑ j ∈ Finset.range c, (W j : 𝕜) * P.derivative.eval (X j : 𝕜) = P.eval 1 - P.eval (-1) := by
  have hmono : ∀ k ≤ d, ∑ j ∈ Finset.range c, (W j : 𝕜) * (X j : 𝕜) ^ k = ((1 - (-1) ^ (k + 1)) / (k + 1 : 𝕜)) := by
    intro k hk
    have hk' := h (Polynomial.X ^ k) (by rw [natDegree_X_pow]; exact hk)
    simp only [eval_pow, eval_X, integral_pow] at hk'
    have := congrArg (fun r : ℝ => (r : 𝕜)) hk'
    simp only [RCLike.ofReal_sum, RCLike.ofReal_mul, RCLike.ofReal_pow, RCLike.ofReal_div, RCLike.ofReal_sub,
      RCLike.ofReal_add, RCLike.ofReal_one, RCLike.ofReal_neg, RCLike.ofReal_natCast, one_pow] at this
    exact this
  have hmon : ∀ k a, k ≤ d + 1 → ∑ j ∈ Finset.range c, (W j : 𝕜) * (monomial k a).derivative.eval (X j : 𝕜) =
      (monomial k a).eval 1 - (monomial k a).eval (-1) := by
    intro k a hk
    cases k with
    | zero => simp
    | succ k =>
      have hne : ((k : 𝕜) + 1) ≠ 0 := by exact_mod_cast Nat.succ_ne_zero k
      have e := hmono k (by omega)
      rw [eq_div_iff hne] at e
      simp only [derivative_monomial, eval_monomial, Nat.cast_add, Nat.cast_one, Nat.add_sub_cancel, one_pow]
      have : ∀ j, (W j : 𝕜) * (a * (k + 1) * (X j : 𝕜) ^ k) = (a * (k + 1)) * ((W j : 𝕜) * (X j : 𝕜) ^ k) := fun j => by ring
      simp only [this]
      rw [← Finset.mul_sum]
      linear_combination a * e
  have hsum := P.as_sum_range' (d + 2) (by omega)
  have key : ∀ z, P.derivative.eval z = ∑ k ∈ Finset.range (d + 2), (monomial k (P.coeff k)).derivative.eval z := by
    intro z
    conv_lhs => rw [hsum]
    rw [derivative_sum, eval_finsetSum]
  have key2 : ∀ z, P.eval z = ∑ k ∈ Finset.range (d + 2), (monomial k (P.coeff k)).eval z := by
    intro z
    conv_lhs => rw [hsum]
    rw [eval_finsetSum]
  rw [key2 1, key2 (-1), ← Finset.sum_sub_distrib]
  simp only [key, Finset.mul_sum]
  rw [Finset.sum_comm]
  refine Finset.sum_congr rfl fun k hk => ?_
  exact hmon k _ (by have := Finset.mem_range.1 hk; omega)

/-- **C54 (exactness).**  `quadgk` with order `n ≥ 1` on the derivative of a polynomial `P` of degree at most
`3n + 2`, along any path through two or more real or complex break points, succeeds and returns exactly `P(last) - P(first)`, for all tolerances and budgets. -/
theorem C54_exact (eigvalsh : Eigvalsh) (he : EigvalshOk eigvalsh) (q : Heapq (Segment 𝕜 𝕜)) (hq : HeapqOk q) (n : Nat)
    (hn : 1 ≤ n) (P : 𝕜[X]) (hP : P.natDegree ≤ 3 * n + 2) (s : List 𝕜) (first last : 𝕜)
    (hs : 2 ≤ s.length) (h1 : s.head? = some first) (h2 : s.getLast? = some last) (abstol reltol : ℝ) (maxevals : Nat) :
    ∃ E N, quadgkFinite eigvalsh q (fun z => some (P.derivative.eval z)) s abstol reltol maxevals n =
      .ok (P.eval last - P.eval first, E, N) := by
  cases hr : quadgkFinite eigvalsh q (fun z => some (P.derivative.eval z)) s abstol reltol maxevals n with
  | error e =>
    rcases (C54_errors eigvalsh q hq _ s n abstol reltol maxevals e hr).2 with h | h | ⟨p, h⟩
    · omega
    · omega
    · simp at h
  | ok r =>
    obtain ⟨I, E, N⟩ := r
    refine ⟨E, N, ?_⟩
    obtain ⟨x, w, gw, val, err, T, hk, hA, hev, hI, -, -⟩ :=
      C54_adaptive eigvalsh q hq _ s hs n abstol reltol maxevals I E N hr
    obtain ⟨X, W, G, -, f2, f3, -, -, f6, -, f8, -⟩ := kronrod_facts eigvalsh he hn
    rw [f8] at hk
    injection hk with hk
    injection hk with e1 hk
    injection hk with e2 e3
    have h0 : X n = 0 := by
      have := f2 n (by omega)
      rw [show 2 * n - n = n by omega] at this
      linarith
    have hget : ∀ (z : Nat → ℝ) (c i : Nat), i < c → ((List.range c).map z).getD i 0 = z i := by
      intro z c i hi
      rw [List.getD_eq_getElem?_getD, List.getElem?_map, List.getElem?_range hi]
      rfl
    have hval : ∀ p ∈ T, val p = P.eval p.2 - P.eval p.1 := by
      intro p hp
      have hpe := hev p hp
      have hx : x.length = n + 1 := by rw [← e1]; simp
      have hw : w.length = n + 1 := by rw [← e2]; simp
      have hg : gw.length = (n + 1) / 2 := by rw [← e3]; simp
      have hx0 : x.getD n 0 = 0 := by rw [← e1, hget X (n + 1) n (by omega), h0]
      have h53 := (C53_evalrule n x w gw hx hw hg hx0 (fun z => some (P.derivative.eval z)) p.1 p.2).1 (by simp)
      rw [hpe] at h53
      injection h53 with h53
      injection h53 with _ _ hv _
      rw [hv, (C53_assembly (𝕜 := 𝕜) (V := 𝕜) n x w gw hx hw hg).2.2.2.1]
      set a := p.1
      set b := p.2
      set s : 𝕜 := 1 / 2 * (b - a) with hsdef
      let Q : 𝕜[X] := P.comp (C a + (1 + Polynomial.X) * C s)
      have hQd : Q.natDegree ≤ 3 * n + 1 + 1 := by
        refine natDegree_comp_le.trans ?_
        have : (C a + (1 + Polynomial.X) * C s : 𝕜[X]).natDegree ≤ 1 := by compute_degree
        calc _ ≤ P.natDegree * 1 := Nat.mul_le_mul_left _ this
          _ ≤ _ := by omega
      have hrule := rule_exact_field (𝕜 := 𝕜) (2 * n + 1) (3 * n + 1) (fun j => W (X j)) X f6 Q hQd
      have hQ' : ∀ z, Q.derivative.eval z = s * P.derivative.eval (a + (1 + z) * s) := by
        intro z
        simp only [Q, derivative_comp, eval_mul, eval_comp, eval_add, eval_C, eval_one, eval_X]
        congr 1
        simp
      have hQ1 : Q.eval 1 = P.eval b := by
        simp only [Q, eval_comp, eval_add, eval_C, eval_mul, eval_one, eval_X]
        congr 1
        rw [hsdef]; ring
      have hQm : Q.eval (-1) = P.eval a := by
        simp only [Q, eval_comp, eval_add, eval_C, eval_mul, eval_one, eval_X]
        congr 1
        ring
      rw [hQ1, hQm] at hrule
      rw [← hrule]
      simp only [hQ', Option.getD_some, smul_eq_mul]
      rw [← e1, ← e2, hget (fun j => W (X j)) (n + 1) n (by omega), h0]
      rw [Finset.sum_congr rfl (g := fun j => ((W (X j) : ℝ) : 𝕜) * (P.derivative.eval (a + (1 + ((X j : ℝ) : 𝕜)) * s) +
        P.derivative.eval (a + (1 + ((-X j : ℝ) : 𝕜)) * s))) (fun j hj => by
          have hj := Finset.mem_range.1 hj
          rw [hget (fun j => W (X j)) (n + 1) j (by omega), hget X (n + 1) j (by omega)])]
      -- split the full sum at the middle
      rw [show 2 * n + 1 = n + 1 + n by omega, Finset.sum_range_add, Finset.sum_range_succ, h0]
      have hrefl : ∑ j ∈ Finset.range n, ((W (X (n + 1 + j)) : ℝ) : 𝕜) * (s * P.derivative.eval (a + (1 + ((X (n + 1 + j) : ℝ) : 𝕜)) * s)) =
          ∑ j ∈ Finset.range n, ((W (X j) : ℝ) : 𝕜) * (s * P.derivative.eval (a + (1 + ((-X j : ℝ) : 𝕜)) * s)) := by
        rw [← Finset.sum_range_reflect]
        refine Finset.sum_congr rfl fun j hj => ?_
        have hj := Finset.mem_range.1 hj
        have : X (n + 1 + (n - 1 - j)) = -X j := by
          rw [← f2 j (by omega)]
          congr 1
          omega
        rw [this, f3]
      rw [hrefl, mul_add, Finset.mul_sum, add_right_comm, ← Finset.sum_add_distrib, add_comm]
      refine congrArg₂ (· + ·) ?_ ?_
      · refine Finset.sum_congr rfl fun j _ => ?_
        ring
      · ring
    rw [hI, List.map_congr_left hval]
    rw [(C54_partition val err (2 * n + 1) abstol reltol maxevals s first last h1 h2 T N hA).1 𝕜 (fun z => P.eval z)]

end

/-- A lawful heap exists: a list from which an entry of largest error is taken. -/
noncomputable def Spec.listHeap {𝕜 V : Type} : Heapq (Segment 𝕜 V) where
  push h x := x :: h
  pop h := open Classical in
    if hx : ∃ x ∈ h, ∀ y ∈ h, y.errorEst ≤ x.errorEst then some (hx.choose, h.erase hx.choose) else none

theorem exists_heapqOk {𝕜 V : Type} [RCLike 𝕜] [NormedAddCommGroup V] [NormedSpace 𝕜 V] :
    HeapqOk (Spec.listHeap : Heapq (Segment 𝕜 V)) := by
  classical
  refine ⟨fun _ => True, trivial, fun h x _ => ⟨trivial, List.Perm.refl _⟩, fun h _ hne => ?_⟩
  have hx : ∃ x ∈ h, ∀ y ∈ h, y.errorEst ≤ x.errorEst := by
    have := Finset.exists_max_image h.toFinset Segment.errorEst (by simpa using hne)
    obtain ⟨x, h1, h2⟩ := this
    exact ⟨x, by simpa using h1, fun y hy => h2 y (by simpa using hy)⟩
  have e : (Spec.listHeap : Heapq (Segment 𝕜 V)).pop h = some (hx.choose, h.erase hx.choose) := by
    simp only [Spec.listHeap]
    rw [dif_pos hx]
  refine ⟨_, _, e, trivial, ?_, hx.choose_spec.2⟩
  have := List.perm_cons_erase hx.choose_spec.1
  convert this

/-- A lawful eigenvalue routine and heap exist, and `[0, 1, i]` is a path:
the hypotheses of `C54_exact` and `C54_adaptive` can be met together. -/
example : (∃ e : Eigvalsh, EigvalshOk e) ∧ HeapqOk (Spec.listHeap : Heapq (Segment ℂ ℂ)) ∧
    (Polynomial.X ^ 8 : ℂ[X]).natDegree ≤ 3 * 2 + 2 ∧ ([0, 1, Complex.I] : List ℂ).head? = some 0 ∧
    ([0, 1, Complex.I] : List ℂ).getLast? = some Complex.I :=
  ⟨exists_eigvalshOk, exists_heapqOk, by simp, rfl, rfl⟩

end Modepy

import Verif.Props.Quadgk

/-!
# Property C82: `quadgk` evaluates the integrand only strictly inside the segments of the path
-/

namespace Modepy
open Polynomial Spec

section
variable {𝕜 V : Type} [RCLike 𝕜] [NormedAddCommGroup V] [NormedSpace 𝕜 V]

/-- The two integrands have the same values strictly between `a` and `b`. -/
def Spec.AgreeInside (f g : 𝕜 → Option V) (a b : 𝕜) : Prop :=
  ∀ t : ℝ, 0 < t → t < 1 → f (a + (t : 𝕜) * (b - a)) = g (a + (t : 𝕜) * (b - a))

theorem agree_left {f g : 𝕜 → Option V} {a b : 𝕜} (h : AgreeInside f g a b) : AgreeInside f g a ((a + b) * (1 / 2)) := by
  intro t h0 h1
  have := h (t / 2) (by linarith) (by linarith)
  have e : a + (t : 𝕜) * ((a + b) * (1 / 2) - a) = a + ((t / 2 : ℝ) : 𝕜) * (b - a) := by
    push_cast
    ring
  rw [e]
  exact this

theorem agree_right {f g : 𝕜 → Option V} {a b : 𝕜} (h : AgreeInside f g a b) : AgreeInside f g ((a + b) * (1 / 2)) b := by
  intro t h0 h1
  have := h ((1 + t) / 2) (by linarith) (by linarith)
  have e : (a + b) * (1 / 2) + (t : 𝕜) * (b - (a + b) * (1 / 2)) = a + (((1 + t) / 2 : ℝ) : 𝕜) * (b - a) := by
    push_cast
    ring
  rw [e]
  exact this

theorem evalrule_congr (f g : 𝕜 → Option V) (a b : 𝕜) (x w gw : List ℝ) (hx : ∀ t ∈ x, -1 < t ∧ t < 1)
    (h : AgreeInside f g a b) : evalrule f a b x w gw = evalrule g a b x w gw := by
  have hp : ∀ t : ℝ, -1 < t → t < 1 → f (a + (1 + (t : 𝕜)) * ((1 / 2 : 𝕜) * (b - a))) =
      g (a + (1 + (t : 𝕜)) * ((1 / 2 : 𝕜) * (b - a))) := by
    intro t h1 h2
    have := h ((1 + t) / 2) (by linarith) (by linarith)
    have e : a + (1 + (t : 𝕜)) * ((1 / 2 : 𝕜) * (b - a)) = a + (((1 + t) / 2 : ℝ) : 𝕜) * (b - a) := by
      push_cast
      ring
    rw [e]
    exact this
  have hm : ∀ t : ℝ, -1 < t → t < 1 → f (a + (1 - (t : 𝕜)) * ((1 / 2 : 𝕜) * (b - a))) =
      g (a + (1 - (t : 𝕜)) * ((1 / 2 : 𝕜) * (b - a))) := by
    intro t h1 h2
    have := hp (-t) (by linarith) (by linarith)
    rw [RCLike.ofReal_neg, ← sub_eq_add_neg] at this
    exact this
  have h0 : f (a + (1 / 2 : 𝕜) * (b - a)) = g (a + (1 / 2 : 𝕜) * (b - a)) := by
    have := hp 0 (by norm_num) (by norm_num)
    simpa using this
  have hget : ∀ i, -1 < x.getD i 0 ∧ x.getD i 0 < 1 := by
    intro i
    rcases Nat.lt_or_ge i x.length with hi | hi
    · rw [List.getD_eq_getElem?_getD, List.getElem?_eq_getElem hi]
      exact hx _ (List.getElem_mem hi)
    · rw [List.getD_eq_getElem?_getD, List.getElem?_eq_none hi]
      norm_num
  have hany : (evalrulePoints a b x).any (fun p => (f p).isNone) = (evalrulePoints a b x).any (fun p => (g p).isNone) := by
    rw [Bool.eq_iff_iff, List.any_eq_true, List.any_eq_true]
    refine exists_congr fun p => and_congr_right fun hmem => ?_
    have : f p = g p := by
      rw [evalrulePoints, List.mem_cons] at hmem
      rcases hmem with rfl | hmem
      · exact h0
      · obtain ⟨t, ht, hpt⟩ := List.mem_flatMap.1 hmem
        obtain ⟨h1, h2⟩ := hx t (List.mem_of_mem_dropLast ht)
        simp only [List.mem_cons, List.not_mem_nil, or_false] at hpt
        rcases hpt with rfl | rfl
        · exact hp t h1 h2
        · exact hm t h1 h2
    rw [this]
  have hstep : evalruleStep (fun p => (f p).getD 0) a ((1 / 2 : 𝕜) * (b - a)) x w gw =
      evalruleStep (fun p => (g p).getD 0) a ((1 / 2 : 𝕜) * (b - a)) x w gw := by
    funext acc i
    simp only [evalruleStep]
    rw [hp _ (hget _).1 (hget _).2, hm _ (hget _).1 (hget _).2, hp _ (hget _).1 (hget _).2, hm _ (hget _).1 (hget _).2]
  have hsums : evalruleSums (fun p => (f p).getD 0) a ((1 / 2 : 𝕜) * (b - a)) x w gw =
      evalruleSums (fun p => (g p).getD 0) a ((1 / 2 : 𝕜) * (b - a)) x w gw := by
    simp only [evalruleSums]
    rw [hstep, h0, hp _ (hget _).1 (hget _).2, hm _ (hget _).1 (hget _).2]
  rw [evalrule, evalrule, hany]
  simp only [hsums]

theorem evalrule_ends (f : 𝕜 → Option V) (a b : 𝕜) (x w gw : List ℝ) (seg : Segment 𝕜 V)
    (h : evalrule f a b x w gw = .ok seg) : seg.a = a ∧ seg.b = b := by
  rw [evalrule] at h
  split at h
  · simp at h
  · injection h with h
    subst h
    exact ⟨rfl, rfl⟩

theorem initialHeap_congr (q : Heapq (Segment 𝕜 V)) (Inv : List (Segment 𝕜 V) → Prop)
    (hpush : ∀ h x, Inv h → Inv (q.push h x) ∧ (q.push h x).Perm (x :: h))
    (P : 𝕜 → 𝕜 → Prop) (ev ev' : 𝕜 → 𝕜 → Py (Segment 𝕜 V)) (hev : ∀ a b, P a b → ev a b = ev' a b)
    (hends : ∀ a b seg, ev a b = .ok seg → seg.a = a ∧ seg.b = b) (s : List 𝕜) (hs : ∀ p ∈ consecutive s, P p.1 p.2)
    (heap : List (Segment 𝕜 V)) (hi : Inv heap) (hheap : ∀ seg ∈ heap, P seg.a seg.b) :
    initialHeap q ev s heap = initialHeap q ev' s heap ∧
    ∀ heap', initialHeap q ev s heap = .ok heap' → Inv heap' ∧ ∀ seg ∈ heap', P seg.a seg.b := by
  induction s generalizing heap with
  | nil =>
    refine ⟨rfl, fun heap' h => ?_⟩
    simp only [initialHeap] at h
    injection h with h
    exact h ▸ ⟨hi, hheap⟩
  | cons a s ih =>
    cases s with
    | nil =>
      refine ⟨rfl, fun heap' h => ?_⟩
      simp only [initialHeap] at h
      injection h with h
      exact h ▸ ⟨hi, hheap⟩
    | cons b rest =>
      have hab := hs (a, b) (by rw [consecutive]; exact List.mem_cons_self)
      simp only [initialHeap]
      rw [← hev a b hab]
      cases hr : ev a b with
      | error e => exact ⟨rfl, fun heap' h => by simp at h⟩
      | ok seg =>
        obtain ⟨i1, p1⟩ := hpush heap seg hi
        obtain ⟨e1, e2⟩ := hends a b seg hr
        refine ih (fun p hp => hs p (by rw [consecutive]; exact List.mem_cons_of_mem _ hp)) _ i1 fun sg hsg => ?_
        rcases List.mem_cons.1 (p1.mem_iff.1 hsg) with rfl | hsg
        · rw [e1, e2]; exact hab
        · exact hheap sg hsg

theorem refineLoop_congr (q : Heapq (Segment 𝕜 V)) (Inv : List (Segment 𝕜 V) → Prop)
    (hpush : ∀ h x, Inv h → Inv (q.push h x) ∧ (q.push h x).Perm (x :: h))
    (hpop : ∀ h, Inv h → h ≠ [] → ∃ x h', q.pop h = some (x, h') ∧ Inv h' ∧ h.Perm (x :: h') ∧
      ∀ y ∈ h, y.errorEst ≤ x.errorEst)
    (P : 𝕜 → 𝕜 → Prop) (hl : ∀ a b, P a b → P a ((a + b) * (1 / 2))) (hr : ∀ a b, P a b → P ((a + b) * (1 / 2)) b)
    (ev ev' : 𝕜 → 𝕜 → Py (Segment 𝕜 V)) (hev : ∀ a b, P a b → ev a b = ev' a b)
    (hends : ∀ a b seg, ev a b = .ok seg → seg.a = a ∧ seg.b = b) (n : Nat) (abstol reltol : ℝ) (maxevals : Nat) (k : Nat) :
    ∀ (heap : List (Segment 𝕜 V)) (approx : V) (err : ℝ) (N : Nat), maxevals - N ≤ k → Inv heap → heap ≠ [] →
      (∀ seg ∈ heap, P seg.a seg.b) →
      refineLoop q ev n abstol reltol maxevals heap approx err N =
        refineLoop q ev' n abstol reltol maxevals heap approx err N := by
  induction k with
  | zero =>
    intro heap approx err N hk _ _ _
    have hc : ¬ (abstol < err ∧ reltol * ‖approx‖ < err ∧ N < maxevals) := by rintro ⟨-, -, h⟩; omega
    rw [refineLoop, refineLoop, if_neg hc, if_neg hc]
  | succ k ih =>
    intro heap approx err N hk hi hne hheap
    by_cases hc : abstol < err ∧ reltol * ‖approx‖ < err ∧ N < maxevals
    · obtain ⟨w, h', e1, hi', hperm, -⟩ := hpop heap hi hne
      rw [refineLoop, refineLoop, if_pos hc, if_pos hc, e1]
      simp only
      have hw : P w.a w.b := hheap w (hperm.mem_iff.2 List.mem_cons_self)
      rw [← hev _ _ (hl _ _ hw), ← hev _ _ (hr _ _ hw)]
      cases hs1 : ev w.a ((w.a + w.b) * (1 / 2)) with
      | error e => rfl
      | ok s1 =>
        simp only
        cases hs2 : ev ((w.a + w.b) * (1 / 2)) w.b with
        | error e => rfl
        | ok s2 =>
          simp only
          obtain ⟨a1, a2⟩ := hends _ _ _ hs1
          obtain ⟨b1, b2⟩ := hends _ _ _ hs2
          obtain ⟨i1, p1⟩ := hpush h' s1 hi'
          obtain ⟨i2, p2⟩ := hpush (q.push h' s1) s2 i1
          refine ih _ _ _ _ (by omega) i2 ?_ ?_
          · intro h0
            rw [h0] at p2
            exact absurd p2.length_eq (by simp)
          · intro sg hsg
            rcases List.mem_cons.1 (p2.mem_iff.1 hsg) with rfl | hsg
            · rw [b1, b2]; exact hr _ _ hw
            · rcases List.mem_cons.1 (p1.mem_iff.1 hsg) with rfl | hsg
              · rw [a1, a2]; exact hl _ _ hw
              · exact hheap sg (hperm.mem_iff.2 (List.mem_cons_of_mem _ hsg))
    · rw [refineLoop, refineLoop, if_neg hc, if_neg hc]

theorem kronrod_inside (eigvalsh : Eigvalsh) (he : EigvalshOk eigvalsh) (n : Nat) (x w gw : List ℝ)
    (h : kronrod eigvalsh n = .ok (x, w, gw)) : ∀ t ∈ x, -1 < t ∧ t < 1 := by
  rcases Nat.eq_zero_or_pos n with rfl | hn
  · rw [(C68_half eigvalsh he).1] at h
    simp at h
  · obtain ⟨x', w', gw', h', -, -, -, -, hx, -⟩ := (C68_half eigvalsh he).2 n hn
    rw [h] at h'
    injection h' with h'
    injection h' with h1 h2
    subst h1
    intro t ht
    exact ⟨(hx t ht).1, by linarith [(hx t ht).2]⟩

/-- **C82.**  The result of `quadgk` — value, error estimate, number of evaluations or failure — depends only on the values of
the integrand strictly between consecutive break points: neither the break points themselves nor points off the path are
ever evaluated, for every order, tolerance, budget and every path of real or complex break points. -/
theorem C82_inside (eigvalsh : Eigvalsh) (he : EigvalshOk eigvalsh) (q : Heapq (Segment 𝕜 V)) (hq : HeapqOk q)
    (f g : 𝕜 → Option V) (s : List 𝕜) (h : ∀ p ∈ consecutive s, AgreeInside f g p.1 p.2) (n : Nat) (abstol reltol : ℝ)
    (maxevals : Nat) :
    quadgkFinite eigvalsh q f s abstol reltol maxevals n = quadgkFinite eigvalsh q g s abstol reltol maxevals n := by
  obtain ⟨Inv, h0, hpush, hpop⟩ := hq
  rw [quadgkFinite, quadgkFinite]
  by_cases hs : s.length < 2
  · rw [if_pos hs, if_pos hs]
  rw [if_neg hs, if_neg hs, doQuadgkFinite, doQuadgkFinite]
  cases hk : kronrod eigvalsh n with
  | error e => rfl
  | ok r =>
    obtain ⟨x, w, gw⟩ := r
    have hx := kronrod_inside eigvalsh he n x w gw hk
    simp only
    have hev : ∀ a b, AgreeInside f g a b → evalrule f a b x w gw = evalrule g a b x w gw := fun a b hab =>
      evalrule_congr f g a b x w gw hx hab
    have hends : ∀ a b seg, evalrule f a b x w gw = .ok seg → seg.a = a ∧ seg.b = b := fun a b seg =>
      evalrule_ends f a b x w gw seg
    obtain ⟨e1, e2⟩ := initialHeap_congr q Inv hpush (AgreeInside f g) (fun a b => evalrule f a b x w gw)
      (fun a b => evalrule g a b x w gw) hev hends s h [] h0 (by simp)
    rw [← e1]
    cases hh : initialHeap q (fun a b => evalrule f a b x w gw) s [] with
    | error e => rfl
    | ok heap =>
      simp only
      obtain ⟨hi, hheap⟩ := e2 heap hh
      have hne : heap ≠ [] := by
        have := (initialHeap_spec q Inv hpush (fun a b => evalrule f a b x w gw)
          (fun p => match evalrule f p.1 p.2 x w gw with | .ok seg => seg.approxIntegral | .error _ => 0)
          (fun p => match evalrule f p.1 p.2 x w gw with | .ok seg => seg.errorEst | .error _ => 0)
          (fun a b seg hab => by
            obtain ⟨c1, c2⟩ := hends a b seg hab
            simp only [mkSeg, hab]
            rw [← c1, ← c2]) s [] h0 heap hh).2.1.length_eq
        match s, hs with
        | a :: b :: rest, _ =>
          rintro rfl
          simp [consecutive] at this
        | [_], hs => simp at hs
        | [], hs => simp at hs
      rw [refineLoop_congr q Inv hpush hpop (AgreeInside f g) (fun a b => agree_left) (fun a b => agree_right) _ _ hev hends
        n abstol reltol maxevals _ heap _ _ _ le_rfl hi hne hheap]

/-- **C82 (singular break points).**  If the integrand is finite strictly between consecutive break points, `quadgk` of order
`n ≥ 1` on two or more points succeeds, whatever happens at the break points and off the path. -/
theorem C82_total (eigvalsh : Eigvalsh) (he : EigvalshOk eigvalsh) (q : Heapq (Segment 𝕜 V)) (hq : HeapqOk q)
    (f : 𝕜 → Option V) (s : List 𝕜) (hs : 2 ≤ s.length) (n : Nat) (hn : 1 ≤ n)
    (h : ∀ p ∈ consecutive s, ∀ t : ℝ, 0 < t → t < 1 → f (p.1 + (t : 𝕜) * (p.2 - p.1)) ≠ none) (abstol reltol : ℝ)
    (maxevals : Nat) : ∃ I E N, quadgkFinite eigvalsh q f s abstol reltol maxevals n = .ok (I, E, N) := by
  have hc := C82_inside eigvalsh he q hq f (fun z => some ((f z).getD 0)) s (fun p hp t h0 h1 => by
    have := h p hp t h0 h1
    cases hf : f (p.1 + (t : 𝕜) * (p.2 - p.1)) with
    | none => exact absurd hf this
    | some v => simp only [hf, Option.getD_some]) n abstol reltol maxevals
  rw [hc]
  cases hr : quadgkFinite eigvalsh q (fun z => some ((f z).getD 0)) s abstol reltol maxevals n with
  | error e =>
    rcases (C54_errors eigvalsh q hq _ s n abstol reltol maxevals e hr).2 with h | h | ⟨p, h⟩
    · omega
    · omega
    · simp at h
  | ok r => exact ⟨r.1, r.2.1, r.2.2, rfl⟩

end

/-- `1/√x` on `[0, 1]`, whose value at zero is infinite, and a lawful eigenvalue routine and heap. -/
example : (∃ e : Eigvalsh, EigvalshOk e) ∧ HeapqOk (Spec.listHeap : Heapq (Segment ℝ ℝ)) ∧
    ∃ f : ℝ → Option ℝ, f 0 = none ∧ ∀ p ∈ consecutive [(0 : ℝ), 1], ∀ t : ℝ, 0 < t → t < 1 →
      f (p.1 + (t : ℝ) * (p.2 - p.1)) ≠ none := by
  classical
  refine ⟨exists_eigvalshOk, exists_heapqOk, fun x => if x = 0 then none else some (1 / Real.sqrt x), by simp, ?_⟩
  intro p hp t h0 h1
  simp only [consecutive, List.mem_singleton] at hp
  subst hp
  simp [h0.ne']

end Modepy

import Verif.Props.QuadgkLocal
import Verif.Props.QuadgkInf

/-!
# Property C82 for infinite intervals
-/

namespace Modepy
open Set Spec

section
variable {V : Type} [NormedAddCommGroup V] [NormedSpace ℝ V]

/-- Points strictly between two transformed break points correspond to points strictly between the break points. -/
theorem inside_piece (lo hi : ℝ) (φ : ℝ → ℝ) (ψ : EReal → ℝ) (dom : Set EReal) (hψ : ∀ p ∈ dom, ψ p ∈ Icc lo hi)
    (hlt : ∀ p ∈ dom, ∀ t ∈ Ioo lo hi, ψ p < t ↔ p < φ t) (hgt : ∀ p ∈ dom, ∀ t ∈ Ioo lo hi, t < ψ p ↔ (φ t : EReal) < p)
    (hsurj : ∀ x : ℝ, (∃ p ∈ dom, p < (x : EReal)) → (∃ q ∈ dom, (x : EReal) < q) → ∃ t ∈ Ioo lo hi, φ t = x)
    (p q : EReal) (hp : p ∈ dom) (hq : q ∈ dom) (hne : p ≠ q) (t : ℝ) (h0 : 0 < t) (h1 : t < 1) :
    ψ p + t * (ψ q - ψ p) ∈ Ioo lo hi ∧ min p q < (φ (ψ p + t * (ψ q - ψ p)) : EReal) ∧
      (φ (ψ p + t * (ψ q - ψ p)) : EReal) < max p q := by
  have hmono : ∀ p q, p ∈ dom → q ∈ dom → p < q → ψ p < ψ q := by
    intro p q hp hq hpq
    obtain ⟨z, hz1, hz2⟩ := EReal.lt_iff_exists_real_btwn.1 hpq
    obtain ⟨u, hu, rfl⟩ := hsurj z ⟨p, hp, hz1⟩ ⟨q, hq, hz2⟩
    exact ((hlt p hp u hu).2 hz1).trans ((hgt q hq u hu).2 hz2)
  have main : ∀ p q, p ∈ dom → q ∈ dom → p < q → ∀ u, ψ p < u → u < ψ q →
      u ∈ Ioo lo hi ∧ p < (φ u : EReal) ∧ (φ u : EReal) < q := by
    intro p q hp hq hpq u hu1 hu2
    have hu : u ∈ Ioo lo hi := ⟨(hψ p hp).1.trans_lt hu1, hu2.trans_le (hψ q hq).2⟩
    exact ⟨hu, (hlt p hp u hu).1 hu1, (hgt q hq u hu).1 hu2⟩
  rcases lt_or_gt_of_ne hne with h | h
  · have hm := hmono p q hp hq h
    rw [min_eq_left h.le, max_eq_right h.le]
    exact main p q hp hq h _ (by nlinarith) (by nlinarith)
  · have hm := hmono q p hq hp h
    rw [min_eq_right h.le, max_eq_left h.le]
    exact main q p hq hp h _ (by nlinarith) (by nlinarith)

theorem semiInfPos_inside (a : ℝ) (p q : EReal) (hp : (a : EReal) ≤ p) (hq : (a : EReal) ≤ q) (hne : p ≠ q) (t : ℝ)
    (h0 : 0 < t) (h1 : t < 1) :
    let u := semiInfPosMap a p + t * (semiInfPosMap a q - semiInfPosMap a p)
    u ∈ Ioo (0 : ℝ) 1 ∧ min p q < ((a + u / (1 - u) : ℝ) : EReal) ∧ ((a + u / (1 - u) : ℝ) : EReal) < max p q := by
  refine inside_piece 0 1 (fun t => a + t / (1 - t)) (semiInfPosMap a) {p | (a : EReal) ≤ p} ?_
    (fun p hp t ht => (semiInfPos_lt a p hp t ht).1) (fun p hp t ht => (semiInfPos_lt a p hp t ht).2) ?_ p q hp hq hne t h0 h1
  · intro p hp
    induction p using EReal.rec with
    | bot => simp at hp
    | top => exact ⟨by norm_num [show semiInfPosMap a ⊤ = 1 from rfl], le_refl (1 : ℝ)⟩
    | coe x =>
      have hx : a ≤ x := EReal.coe_le_coe_iff.1 hp
      rw [semiInfPosMap_coe, semiInfMapDiff_eq _ (by linarith)]
      have hd : 0 < 1 + (x - a) := by linarith
      exact ⟨div_nonneg (by linarith) hd.le, by rw [div_le_one hd]; linarith⟩
  · rintro x ⟨p, hp, hpx⟩ -
    have hx : a < x := EReal.coe_lt_coe_iff.1 (lt_of_le_of_lt hp hpx)
    have hd : 0 < 1 + (x - a) := by linarith
    refine ⟨(x - a) / (1 + (x - a)), ⟨div_pos (by linarith) hd, by rw [div_lt_one hd]; linarith⟩, ?_⟩
    have e : 1 - (x - a) / (1 + (x - a)) = 1 / (1 + (x - a)) := by
      field_simp
      ring
    simp only [e]
    field_simp
    ring

/-- **C82 (infinite intervals).**  For the combinations of end points that are integrated correctly, and distinct neighbouring
break points, the result of `quadgk` depends only on the values of the integrand strictly between consecutive break
points. -/
theorem C82_infinite (eigvalsh : Eigvalsh) (he : EigvalshOk eigvalsh) (q : Heapq (Segment ℝ V)) (hq : HeapqOk q)
    (f g : ℝ → Option V) (first : EReal) (mid : List ℝ) (last : EReal) (h : InfSupported first mid last)
    (hne : ∀ p ∈ consecutive (first :: (mid.map fun (x : ℝ) => (x : EReal)) ++ [last]), p.1 ≠ p.2)
    (hfg : ∀ p ∈ consecutive (first :: (mid.map fun (x : ℝ) => (x : EReal)) ++ [last]), ∀ x : ℝ,
      min p.1 p.2 < (x : EReal) → (x : EReal) < max p.1 p.2 → f x = g x)
    (abstol reltol : ℝ) (maxevals n : Nat) :
    quadgk eigvalsh q f first mid last abstol reltol maxevals n = quadgk eigvalsh q g first mid last abstol reltol maxevals n := by
  set pts : List EReal := first :: (mid.map fun (x : ℝ) => (x : EReal)) ++ [last] with hpts
  suffices hmain : (transformInf f first mid last).2 = (transformInf g first mid last).2 ∧
      2 ≤ (transformInf f first mid last).2.length ∧
      ∀ p ∈ consecutive (transformInf f first mid last).2,
        AgreeInside (transformInf f first mid last).1 (transformInf g first mid last).1 p.1 p.2 by
    obtain ⟨e, hlen, hag⟩ := hmain
    have := C82_inside eigvalsh he q hq _ _ _ hag n abstol reltol maxevals
    rw [quadgkFinite, quadgkFinite, if_neg (by omega), if_neg (by omega)] at this
    simp only [quadgk]
    rw [← e]
    exact this
  rcases h with ⟨h1, h2⟩ | ⟨a, h1, h2, h3⟩ | ⟨b, h1, h2, h3⟩ | ⟨a, b, h1, h2⟩
  · have e : ∀ f : ℝ → Option V, transformInf f first mid last = (bothInfIntegrand f, pts.map bothInfMap) := by
      intro f
      simp only [transformInf]
      rw [if_pos (.inl h1), if_pos ⟨h1, h2⟩, hpts]
    rw [e, e]
    refine ⟨rfl, by simp [hpts], ?_⟩
    intro p hp t h0 h1
    simp only [consecutive_map] at hp
    obtain ⟨r, hr, rfl⟩ := List.mem_map.1 hp
    obtain ⟨-, i2, i3⟩ := inside_piece (-1) 1 (fun t => t / (1 - t * t)) bothInfMap univ (fun p _ => bothInfMap_range p)
      (fun p _ t ht => (bothInf_lt p t ht).1) (fun p _ t ht => (bothInf_lt p t ht).2)
      (fun x _ _ => ⟨bothInfMap x, bothInf_mem x, bothInf_inv x⟩) r.1 r.2 trivial trivial (hne r hr) t h0 h1
    have := hfg r hr _ i2 i3
    simp only [Prod.map_fst, Prod.map_snd, RCLike.ofReal_real_eq_id, id, bothInfIntegrand]
    rw [← mul_one_div] at this
    rw [this]
  · subst h1 h2
    have e : ∀ f : ℝ → Option V, transformInf f a mid ⊤ = (semiInfPosIntegrand f a, pts.map (semiInfPosMap a)) := by
      intro f
      simp only [transformInf]
      rw [if_pos (by simp), if_neg (by simp), if_neg (by simp), EReal.toReal_coe, hpts]
    have hmem : ∀ p ∈ pts, (a : EReal) ≤ p := by
      intro p hp
      simp only [hpts, List.cons_append, List.mem_cons, List.mem_append, List.mem_map, List.not_mem_nil, or_false] at hp
      rcases hp with rfl | ⟨x, hx, rfl⟩ | rfl
      · exact le_rfl
      · exact EReal.coe_le_coe_iff.2 (h3 x hx)
      · exact le_top
    rw [e, e]
    refine ⟨rfl, by simp [hpts], ?_⟩
    intro p hp t h0 h1
    simp only [consecutive_map] at hp
    obtain ⟨r, hr, rfl⟩ := List.mem_map.1 hp
    obtain ⟨q1, q2⟩ := mem_consecutive _ _ hr
    obtain ⟨-, i2, i3⟩ := semiInfPos_inside a r.1 r.2 (hmem _ q1) (hmem _ q2) (hne r hr) t h0 h1
    have := hfg r hr _ i2 i3
    simp only [Prod.map_fst, Prod.map_snd, RCLike.ofReal_real_eq_id, id, semiInfPosIntegrand]
    rw [← mul_one_div] at this
    rw [this]
  · subst h1 h2
    have e : ∀ f : ℝ → Option V, transformInf f ⊥ mid b = (semiInfNegIntegrand f b, (pts.map (semiInfNegMap b)).reverse) := by
      intro f
      simp only [transformInf]
      rw [if_pos (by simp), if_neg (by simp), if_pos (by simp), EReal.toReal_coe, hpts]
    have hmem : ∀ p ∈ pts, p ≤ (b : EReal) := by
      intro p hp
      simp only [hpts, List.cons_append, List.mem_cons, List.mem_append, List.mem_map, List.not_mem_nil, or_false] at hp
      rcases hp with rfl | ⟨x, hx, rfl⟩ | rfl
      · exact bot_le
      · exact EReal.coe_le_coe_iff.2 (h3 x hx)
      · exact le_rfl
    have hneg : ∀ p ∈ pts, ((-b : ℝ) : EReal) ≤ -p := fun p hp => by
      rw [EReal.coe_neg]; exact EReal.neg_le_neg_iff.2 (hmem p hp)
    rw [e, e]
    refine ⟨rfl, by simp [hpts], ?_⟩
    intro p hp t h0 h1
    simp only [consecutive_reverse, consecutive_map, List.mem_reverse, List.map_map] at hp
    obtain ⟨r, hr, rfl⟩ := List.mem_map.1 hp
    obtain ⟨q1, q2⟩ := mem_consecutive _ _ hr
    obtain ⟨-, i2, i3⟩ := semiInfPos_inside (-b) (-r.2) (-r.1) (hneg _ q2) (hneg _ q1)
      (fun hc => hne r hr (neg_injective hc).symm) t h0 h1
    have := hfg r hr (b - (semiInfPosMap (-b) (-r.2) + t * (semiInfPosMap (-b) (-r.1) - semiInfPosMap (-b) (-r.2))) /
      (1 - (semiInfPosMap (-b) (-r.2) + t * (semiInfPosMap (-b) (-r.1) - semiInfPosMap (-b) (-r.2))))) ?_ ?_
    · simp only [Function.comp, Prod.swap, Prod.map_fst, Prod.map_snd, RCLike.ofReal_real_eq_id, id, semiInfNegIntegrand,
        semiInfNegMap_eq]
      rw [← mul_one_div] at this
      rw [this]
    · rw [show (b - (semiInfPosMap (-b) (-r.2) + t * (semiInfPosMap (-b) (-r.1) - semiInfPosMap (-b) (-r.2))) /
        (1 - (semiInfPosMap (-b) (-r.2) + t * (semiInfPosMap (-b) (-r.1) - semiInfPosMap (-b) (-r.2)))) : ℝ) =
        -(-b + (semiInfPosMap (-b) (-r.2) + t * (semiInfPosMap (-b) (-r.1) - semiInfPosMap (-b) (-r.2))) /
        (1 - (semiInfPosMap (-b) (-r.2) + t * (semiInfPosMap (-b) (-r.1) - semiInfPosMap (-b) (-r.2))))) by ring,
        EReal.coe_neg, EReal.lt_neg_comm]
      refine lt_of_lt_of_le i3 (le_of_eq ?_)
      rcases le_total r.1 r.2 with hle | hle
      · rw [min_eq_left hle, max_eq_right (EReal.neg_le_neg_iff.2 hle)]
      · rw [min_eq_right hle, max_eq_left (EReal.neg_le_neg_iff.2 hle)]
    · rw [show (b - (semiInfPosMap (-b) (-r.2) + t * (semiInfPosMap (-b) (-r.1) - semiInfPosMap (-b) (-r.2))) /
        (1 - (semiInfPosMap (-b) (-r.2) + t * (semiInfPosMap (-b) (-r.1) - semiInfPosMap (-b) (-r.2)))) : ℝ) =
        -(-b + (semiInfPosMap (-b) (-r.2) + t * (semiInfPosMap (-b) (-r.1) - semiInfPosMap (-b) (-r.2))) /
        (1 - (semiInfPosMap (-b) (-r.2) + t * (semiInfPosMap (-b) (-r.1) - semiInfPosMap (-b) (-r.2))))) by ring,
        EReal.coe_neg, EReal.neg_lt_comm]
      refine lt_of_le_of_lt (le_of_eq ?_) i2
      rcases le_total r.1 r.2 with hle | hle
      · rw [max_eq_right hle, min_eq_left (EReal.neg_le_neg_iff.2 hle)]
      · rw [max_eq_left hle, min_eq_right (EReal.neg_le_neg_iff.2 hle)]
  · subst h1 h2
    have e : ∀ f : ℝ → Option V, transformInf f a mid b = (f, (a :: mid) ++ [b]) := by
      intro f
      simp only [transformInf]
      rw [if_neg (by simp), EReal.toReal_coe, EReal.toReal_coe]
    have ep : pts = ((a :: mid) ++ [b]).map fun (x : ℝ) => (x : EReal) := by simp [hpts]
    rw [e, e]
    refine ⟨rfl, by simp, ?_⟩
    intro p hp t h0 h1
    have hp2 : Prod.map (fun (x : ℝ) => (x : EReal)) (fun (x : ℝ) => (x : EReal)) p ∈ consecutive pts := by
      rw [ep, consecutive_map]
      exact List.mem_map_of_mem hp
    have hn : p.1 ≠ p.2 := fun hc => hne _ hp2 (by simp [hc])
    have := hfg _ hp2 (p.1 + t * (p.2 - p.1)) ?_ ?_
    · simpa using this
    · rcases lt_or_gt_of_ne hn with hlt | hlt
      · rw [Prod.map_fst, Prod.map_snd, min_eq_left (EReal.coe_le_coe_iff.2 hlt.le), EReal.coe_lt_coe_iff]
        nlinarith
      · rw [Prod.map_fst, Prod.map_snd, min_eq_right (EReal.coe_le_coe_iff.2 hlt.le), EReal.coe_lt_coe_iff]
        nlinarith
    · rcases lt_or_gt_of_ne hn with hlt | hlt
      · rw [Prod.map_fst, Prod.map_snd, max_eq_right (EReal.coe_le_coe_iff.2 hlt.le), EReal.coe_lt_coe_iff]
        nlinarith
      · rw [Prod.map_fst, Prod.map_snd, max_eq_left (EReal.coe_le_coe_iff.2 hlt.le), EReal.coe_lt_coe_iff]
        nlinarith

end

/-- Integrands on `(1, ∞)` that differ at one. -/
example : InfSupported ((1 : ℝ) : EReal) [2] ⊤ ∧
    ∀ p ∈ consecutive (((1 : ℝ) : EReal) :: ([(2 : ℝ)].map fun (x : ℝ) => (x : EReal)) ++ [⊤]), p.1 ≠ p.2 := by
  refine ⟨.inr (.inl ⟨1, rfl, rfl, by simp⟩), ?_⟩
  intro p hp
  simp only [List.map_cons, List.map_nil, List.cons_append, List.nil_append, consecutive, List.mem_cons, List.not_mem_nil,
    or_false] at hp
  rcases hp with rfl | rfl
  · simp only [ne_eq, EReal.coe_eq_coe_iff]; norm_num
  · simp

end Modepy

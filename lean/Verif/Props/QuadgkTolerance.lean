import Mathlib.Topology.UniformSpace.HeineCantor
import Mathlib.Analysis.Convex.Segment
import Mathlib.Analysis.Convex.Topology
import Verif.Props.QuadgkLocal

/-!
# Property C83: `quadgk` meets its tolerance on continuous integrands, given enough evaluations
-/

namespace Modepy
open Polynomial Spec

section
variable {𝕜 V : Type} [RCLike 𝕜] [NormedAddCommGroup V] [NormedSpace 𝕜 V]

/-- The length of a segment. -/
noncomputable def Spec.len (p : 𝕜 × 𝕜) : ℝ := ‖p.2 - p.1‖

/-- The length of the path through the given segments. -/
noncomputable def Spec.pathLength (S : List (𝕜 × 𝕜)) : ℝ := (S.map len).sum

theorem len_halves (a b : 𝕜) : len (a, (a + b) / 2) = len (a, b) / 2 ∧ len ((a + b) / 2, b) = len (a, b) / 2 := by
  have h2 : ‖(2 : 𝕜)‖ = 2 := by simp
  constructor
  · simp only [len]
    rw [show (a + b) / 2 - a = (b - a) / 2 by ring, norm_div, h2]
  · simp only [len]
    rw [show b - (a + b) / 2 = (b - a) / 2 by ring, norm_div, h2]

theorem pathLength_nonneg (S : List (𝕜 × 𝕜)) : 0 ≤ pathLength S := by
  apply List.sum_nonneg
  intro v hv
  obtain ⟨p, -, rfl⟩ := List.mem_map.1 hv
  exact norm_nonneg _

/-- The number of bisections a segment of length `l` admits until all parts are shorter than `d` is at most this. -/
noncomputable def splitPot (d : ℝ) (p : 𝕜 × 𝕜) : ℝ := max 0 (2 * len p / d - 1)

theorem splitPot_split {d : ℝ} (hd : 0 < d) (a b : 𝕜) (h : d ≤ len (a, b)) :
    splitPot d (a, (a + b) / 2) + splitPot d ((a + b) / 2, b) + 1 ≤ splitPot d (a, b) := by
  obtain ⟨h1, h2⟩ := len_halves a b
  simp only [splitPot, h1, h2]
  have : 1 ≤ len (a, b) / d := (one_le_div hd).2 h
  have e : 2 * (len (a, b) / 2) / d - 1 = len (a, b) / d - 1 := by ring
  rw [e, max_eq_right (by linarith), max_eq_right (by rw [mul_div_assoc]; linarith)]
  have : 2 * len (a, b) / d = 2 * (len (a, b) / d) := by ring
  linarith

theorem sum_err_le (err : 𝕜 × 𝕜 → ℝ) (c : ℝ) (T : List (𝕜 × 𝕜)) (h : ∀ p ∈ T, err p ≤ c * len p) :
    (T.map err).sum ≤ c * pathLength T := by
  induction T with
  | nil => simp [pathLength]
  | cons p T ih =>
    have := ih fun q hq => h q (List.mem_cons_of_mem _ hq)
    have := h p List.mem_cons_self
    simp only [pathLength, List.map_cons, List.sum_cons, mul_add] at *
    linarith

/-- The abstract adaptive algorithm stops bisecting when short segments have small errors. -/
theorem adaptive_bound (val : 𝕜 × 𝕜 → V) (err : 𝕜 × 𝕜 → ℝ) (cost : Nat) (abstol reltol : ℝ) (maxevals : Nat)
    (S : List (𝕜 × 𝕜)) (P : 𝕜 × 𝕜 → Prop) (hS : ∀ p ∈ S, P p)
    (hP : ∀ a b, P (a, b) → P (a, (a + b) / 2) ∧ P ((a + b) / 2, b)) (d c : ℝ) (hd : 0 < d) (hc : 0 ≤ c)
    (herr : ∀ p, P p → len p < d → err p ≤ c * len p) (htol : c * pathLength S ≤ abstol) (T : List (𝕜 × 𝕜)) (N : Nat)
    (h : Adaptive val err cost abstol reltol maxevals S T N) :
    (∀ p ∈ T, P p) ∧ pathLength T = pathLength S ∧
      (N : ℝ) + 2 * cost * (T.map (splitPot d)).sum ≤ cost * S.length + 2 * cost * (S.map (splitPot d)).sum := by
  induction h with
  | start =>
    refine ⟨hS, rfl, ?_⟩
    push_cast
    exact le_rfl
  | split l a b r N before habs hrel hmax worst ih =>
    obtain ⟨i1, i2, i3⟩ := ih
    have hab : P (a, b) := i1 _ (by simp)
    have hlong : d ≤ len (a, b) := by
      by_contra hcon
      push Not at hcon
      have hall : ∀ p ∈ l ++ (a, b) :: r, err p ≤ c * len p := by
        intro p hp
        rcases lt_or_ge (len p) d with h | h
        · exact herr p (i1 p hp) h
        · calc err p ≤ err (a, b) := worst p hp
            _ ≤ c * len (a, b) := herr _ hab hcon
            _ ≤ c * len p := mul_le_mul_of_nonneg_left (by linarith) hc
      have := sum_err_le err c _ hall
      rw [i2] at this
      linarith
    refine ⟨?_, ?_, ?_⟩
    · intro p hp
      simp only [List.mem_append, List.mem_cons] at hp
      rcases hp with hp | rfl | rfl | hp
      · exact i1 p (by simp [hp])
      · exact (hP a b hab).1
      · exact (hP a b hab).2
      · exact i1 p (by simp [hp])
    · rw [← i2]
      obtain ⟨h1, h2⟩ := len_halves a b
      simp only [pathLength, List.map_append, List.map_cons, List.sum_append, List.sum_cons, h1, h2]
      ring
    · have hs := splitPot_split hd a b hlong
      simp only [List.map_append, List.map_cons, List.sum_append, List.sum_cons] at i3 ⊢
      push_cast
      have := mul_le_mul_of_nonneg_left hs (show (0 : ℝ) ≤ 2 * cost by positivity)
      linarith

theorem splitPot_sum_le {d : ℝ} (hd : 0 < d) (S : List (𝕜 × 𝕜)) : (S.map (splitPot d)).sum ≤ 2 * pathLength S / d := by
  induction S with
  | nil => simp [pathLength]
  | cons p S ih =>
    have h : splitPot d p ≤ 2 * len p / d := by
      have : 0 ≤ 2 * len p / d := div_nonneg (mul_nonneg (by norm_num) (norm_nonneg _)) hd.le
      exact max_le this (by linarith)
    simp only [pathLength, List.map_cons, List.sum_cons] at ih ⊢
    have : 2 * (len p + (S.map len).sum) / d = 2 * len p / d + 2 * (S.map len).sum / d := by ring
    linarith

theorem splitPot_sum_nonneg (d : ℝ) (T : List (𝕜 × 𝕜)) : 0 ≤ (T.map (splitPot d)).sum := by
  apply List.sum_nonneg
  intro v hv
  obtain ⟨p, -, rfl⟩ := List.mem_map.1 hv
  exact le_max_left _ _

theorem ruleSum_cons (t v : ℝ) (nodes weights : List ℝ) (F : ℝ → V) :
    ruleSum 𝕜 (t :: nodes) (v :: weights) F = (v : 𝕜) • F t + ruleSum 𝕜 nodes weights F := by
  rw [ruleSum, List.zipWith_cons_cons, List.sum_cons, ruleSum]

/-- A rule with nonnegative weights applied to values near `c` is near the sum of the weights times `c`. -/
theorem ruleSum_near (nodes weights : List ℝ) (hw : ∀ v ∈ weights, 0 ≤ v) (F : ℝ → V) (c : V) (η : ℝ)
    (hF : ∀ t ∈ nodes, ‖F t - c‖ ≤ η) :
    ‖ruleSum 𝕜 nodes weights F - ((ruleSum ℝ nodes weights fun _ => (1 : ℝ) : ℝ) : 𝕜) • c‖ ≤
      ruleSum ℝ nodes weights (fun _ => (1 : ℝ)) * η := by
  induction nodes generalizing weights with
  | nil => simp [ruleSum]
  | cons t nodes ih =>
    cases weights with
    | nil => simp [ruleSum]
    | cons v weights =>
      have h1 := ih weights (fun u hu => hw u (List.mem_cons_of_mem _ hu)) (fun u hu => hF u (List.mem_cons_of_mem _ hu))
      have hv := hw v List.mem_cons_self
      have h2 := hF t List.mem_cons_self
      rw [ruleSum_cons, ruleSum_cons]
      set A := ruleSum 𝕜 nodes weights F
      set B := ruleSum ℝ nodes weights fun _ => (1 : ℝ)
      have e0 : (RCLike.ofReal v : ℝ) • (1 : ℝ) + B = v + B := by simp
      rw [e0]
      have e : (v : 𝕜) • F t + A - ((v + B : ℝ) : 𝕜) • c = (v : 𝕜) • (F t - c) + (A - (B : 𝕜) • c) := by
        push_cast
        rw [add_smul, smul_sub]
        abel
      have h3 : ‖(v : 𝕜) • (F t - c)‖ ≤ v * η := by
        rw [norm_smul, RCLike.norm_ofReal, abs_of_nonneg hv]
        exact mul_le_mul_of_nonneg_left h2 hv
      rw [e, add_mul]
      exact (norm_add_le _ _).trans (add_le_add h3 h1)

theorem point_mem (a b : 𝕜) (t : ℝ) (h1 : -1 < t) (h2 : t < 1) :
    a + (1 + (t : 𝕜)) * ((1 / 2) * (b - a)) ∈ segment ℝ a b := by
  refine ⟨(1 - t) / 2, (1 + t) / 2, by linarith, by linarith, by ring, ?_⟩
  rw [RCLike.real_smul_eq_coe_mul, RCLike.real_smul_eq_coe_mul]
  push_cast
  ring

/-- The error estimate of `_evalrule` on a segment is at most twice its length times the oscillation of the integrand. -/
theorem evalrule_osc (eigvalsh : Eigvalsh) (he : EigvalshOk eigvalsh) (n : Nat) (hn : 1 ≤ n) (x w gw : List ℝ)
    (hk : kronrod eigvalsh n = .ok (x, w, gw)) (f : 𝕜 → Option V) (F : 𝕜 → V) (a b : 𝕜) (η : ℝ)
    (hf : ∀ z ∈ segment ℝ a b, f z = some (F z)) (hη : ∀ z ∈ segment ℝ a b, ‖F z - F a‖ ≤ η) :
    ∃ seg, evalrule f a b x w gw = .ok seg ∧ seg.errorEst ≤ 2 * η * ‖b - a‖ := by
  obtain ⟨x', w', gw', hk', l1, l2, l3, -, -, h0, -⟩ := (C68_half eigvalsh he).2 n hn
  rw [hk] at hk'
  injection hk' with hk'
  injection hk' with e1 e2
  injection e2 with e2 e3
  subst e1 e2 e3
  obtain ⟨q, hq, -, -, hex, w1, w2, w3, hg, hin, -⟩ := C68_rule eigvalsh he hn
  rw [makeKronrodQuadrature, hk] at hq
  simp only at hq
  injection hq with hq
  subst hq
  have hE := (C53_evalrule (𝕜 := 𝕜) (V := V) n x w gw l1 l2 l3 h0 f a b).1
  simp only at hE
  have hmem : ∀ t ∈ (assembleKronrod n x w gw).gaussQuadrature.nodes.toList1 ++ (assembleKronrod n x w gw).nodes,
      a + (1 + (t : 𝕜)) * ((1 / 2) * (b - a)) ∈ segment ℝ a b := by
    intro t ht
    have ht' : t ∈ (assembleKronrod n x w gw).nodes ++ (assembleKronrod n x w gw).gaussQuadrature.nodes.toList1 := by
      rw [List.mem_append] at ht ⊢
      exact ht.symm
    exact point_mem a b t (hin t ht').1 (hin t ht').2
  have hE := hE (fun t ht => by rw [hf _ (hmem t ht)]; simp)
  refine ⟨_, hE, ?_⟩
  simp only
  set G : ℝ → V := fun t => (f (a + (1 + (t : 𝕜)) * ((1 / 2) * (b - a)))).getD 0 with hGdef
  have hGn : ∀ t ∈ (assembleKronrod n x w gw).gaussQuadrature.nodes.toList1 ++ (assembleKronrod n x w gw).nodes,
      ‖G t - F a‖ ≤ η := by
    intro t ht
    have hm := hmem t ht
    simp only [hGdef]
    rw [hf _ hm]
    exact hη _ hm
  have s1 := ruleSum_near (𝕜 := 𝕜) (assembleKronrod n x w gw).gaussQuadrature.nodes.toList1
    (assembleKronrod n x w gw).weightsAtGaussNodes (fun v hv => (w2 v hv).le) G (F a) η
    (fun t ht => hGn t (List.mem_append_left _ ht))
  have s2 := ruleSum_near (𝕜 := 𝕜) (assembleKronrod n x w gw).nodes
    (assembleKronrod n x w gw).weights (fun v hv => (w1 v hv).le) G (F a) η
    (fun t ht => hGn t (List.mem_append_right _ ht))
  have s3 := ruleSum_near (𝕜 := 𝕜) (assembleKronrod n x w gw).gaussQuadrature.nodes.toList1
    (assembleKronrod n x w gw).gaussQuadrature.weights.toList1 (fun v hv => (w3 v hv).le) G (F a) η
    (fun t ht => hGn t (List.mem_append_left _ ht))
  have t3 : ruleSum ℝ (assembleKronrod n x w gw).gaussQuadrature.nodes.toList1
      (assembleKronrod n x w gw).gaussQuadrature.weights.toList1 (fun _ => (1 : ℝ)) = 2 := by
    have := hg 1 (by simp)
    simp only [eval_one] at this
    rw [this]
    norm_num
  have t12 : ruleSum ℝ (assembleKronrod n x w gw).gaussQuadrature.nodes.toList1
      (assembleKronrod n x w gw).weightsAtGaussNodes (fun _ => (1 : ℝ)) +
      ruleSum ℝ (assembleKronrod n x w gw).nodes (assembleKronrod n x w gw).weights (fun _ => (1 : ℝ)) = 2 := by
    have := hex 1 (by simp)
    simp only [eval_one] at this
    rw [C53_call n x w gw l1 l2 l3] at this
    rw [(C53_assembly (𝕜 := ℝ) (V := ℝ) n x w gw l1 l2 l3).2.2.2.1]
    simp only [RCLike.ofReal_real_eq_id, id_eq, smul_eq_mul]
    rw [this]
    norm_num
  rw [t3] at s3
  set A := ruleSum ℝ (assembleKronrod n x w gw).gaussQuadrature.nodes.toList1
      (assembleKronrod n x w gw).weightsAtGaussNodes (fun _ => (1 : ℝ))
  set B := ruleSum ℝ (assembleKronrod n x w gw).nodes (assembleKronrod n x w gw).weights (fun _ => (1 : ℝ))
  set SA := ruleSum 𝕜 (assembleKronrod n x w gw).gaussQuadrature.nodes.toList1
      (assembleKronrod n x w gw).weightsAtGaussNodes G
  set SB := ruleSum 𝕜 (assembleKronrod n x w gw).nodes (assembleKronrod n x w gw).weights G
  set SC := ruleSum 𝕜 (assembleKronrod n x w gw).gaussQuadrature.nodes.toList1
      (assembleKronrod n x w gw).gaussQuadrature.weights.toList1 G
  have hsum : SA + SB - SC = (SA - (A : 𝕜) • F a) + (SB - (B : 𝕜) • F a) - (SC - ((2 : ℝ) : 𝕜) • F a) := by
    rw [← t12]
    push_cast
    rw [add_smul]
    abel
  have hn4 : ‖SA + SB - SC‖ ≤ 4 * η := by
    rw [hsum]
    calc _ ≤ ‖(SA - (A : 𝕜) • F a) + (SB - (B : 𝕜) • F a)‖ + ‖SC - ((2 : ℝ) : 𝕜) • F a‖ := norm_sub_le _ _
      _ ≤ ‖SA - (A : 𝕜) • F a‖ + ‖SB - (B : 𝕜) • F a‖ + ‖SC - ((2 : ℝ) : 𝕜) • F a‖ := by
        gcongr
        exact norm_add_le _ _
      _ ≤ A * η + B * η + 2 * η := by gcongr
      _ = 4 * η := by rw [← add_mul, t12]; ring
  rw [← smul_sub, norm_smul, norm_mul]
  have h2 : ‖(1 / 2 : 𝕜)‖ = 1 / 2 := by simp
  rw [h2]
  nlinarith [norm_nonneg (b - a)]

/-- `p` is a part of one of the segments of the path. -/
def Spec.PartOf (S : List (𝕜 × 𝕜)) (p : 𝕜 × 𝕜) : Prop :=
  ∃ r ∈ S, p.1 ∈ segment ℝ r.1 r.2 ∧ p.2 ∈ segment ℝ r.1 r.2

theorem partOf_halves (S : List (𝕜 × 𝕜)) (a b : 𝕜) (h : PartOf S (a, b)) :
    PartOf S (a, (a + b) / 2) ∧ PartOf S ((a + b) / 2, b) := by
  obtain ⟨r, hr, h1, h2⟩ := h
  have hm : (a + b) / 2 ∈ segment ℝ r.1 r.2 := by
    have := convex_segment (𝕜 := ℝ) r.1 r.2 h1 h2 (show (0 : ℝ) ≤ 1 / 2 by norm_num) (show (0 : ℝ) ≤ 1 / 2 by norm_num)
      (by norm_num)
    rw [RCLike.real_smul_eq_coe_mul, RCLike.real_smul_eq_coe_mul] at this
    convert this using 1
    push_cast
    ring
  exact ⟨⟨r, hr, h1, hm⟩, ⟨r, hr, hm, h2⟩⟩

/-- **C83 (explicit bound).**  Let the integrand be finite on the path and vary by at most `η` between points closer than `δ`
on the same segment, where `2 η` times the length of the path is at most `abstol`.  Then `quadgk` meets one of its tolerances
after at most `(2n + 1) (segments + 4 length / δ)` evaluations, whatever budget beyond that is allowed. -/
theorem C83_bound (eigvalsh : Eigvalsh) (he : EigvalshOk eigvalsh) (q : Heapq (Segment 𝕜 V)) (hq : HeapqOk q)
    (f : 𝕜 → Option V) (F : 𝕜 → V) (s : List 𝕜) (hs : 2 ≤ s.length) (n : Nat) (hn : 1 ≤ n) (abstol η δ : ℝ) (hη : 0 ≤ η)
    (hδ : 0 < δ)
    (hf : ∀ p ∈ consecutive s, ∀ z ∈ segment ℝ p.1 p.2, f z = some (F z))
    (hosc : ∀ p ∈ consecutive s, ∀ z ∈ segment ℝ p.1 p.2, ∀ z' ∈ segment ℝ p.1 p.2, ‖z - z'‖ < δ → ‖F z - F z'‖ ≤ η)
    (htol : 2 * η * pathLength (consecutive s) ≤ abstol) (reltol : ℝ) (maxevals : Nat)
    (hmax : (2 * n + 1) * ((consecutive s).length + 4 * pathLength (consecutive s) / δ) < maxevals) :
    ∃ I E N, quadgkFinite eigvalsh q f s abstol reltol maxevals n = .ok (I, E, N) ∧
      (N : ℝ) ≤ (2 * n + 1) * ((consecutive s).length + 4 * pathLength (consecutive s) / δ) ∧
      (E ≤ abstol ∨ E ≤ reltol * ‖I‖) := by
  have htot : ∃ I E N, quadgkFinite eigvalsh q f s abstol reltol maxevals n = .ok (I, E, N) :=
    C82_total eigvalsh he q hq f s hs n hn (fun p hp t h0 h1 => by
      have : p.1 + (t : 𝕜) * (p.2 - p.1) ∈ segment ℝ p.1 p.2 := by
        refine ⟨1 - t, t, by linarith, by linarith, by ring, ?_⟩
        rw [RCLike.real_smul_eq_coe_mul, RCLike.real_smul_eq_coe_mul]
        push_cast
        ring
      rw [hf p hp _ this]
      simp) abstol reltol maxevals
  obtain ⟨I, E, N, hr⟩ := htot
  obtain ⟨x, w, gw, val, err, T, hk, hA, -, hI, hE, hstop, hev⟩ :=
    C54_adaptive eigvalsh q hq f s hs n abstol reltol maxevals I E N hr
  have herr : ∀ p, PartOf (consecutive s) p → len p < δ → err p ≤ 2 * η * len p := by
    rintro ⟨a, b⟩ ⟨r, hrS, h1, h2⟩ hl
    have hsub : segment ℝ a b ⊆ segment ℝ r.1 r.2 := (convex_segment r.1 r.2).segment_subset h1 h2
    obtain ⟨seg, hseg, hle⟩ := evalrule_osc eigvalsh he n hn x w gw hk f F a b η (fun z hz => hf r hrS z (hsub hz))
      (fun z hz => hosc r hrS z (hsub hz) a h1 (by
        obtain ⟨u, v, hu, hv, huv, rfl⟩ := hz
        have : u • a + v • b - a = v • (b - a) := by
          rw [show u = 1 - v by linarith, sub_smul, one_smul, smul_sub]
          abel
        rw [this, norm_smul, Real.norm_eq_abs, abs_of_nonneg hv]
        have hv1 : v ≤ 1 := by linarith
        have hl' : ‖b - a‖ < δ := hl
        nlinarith [norm_nonneg (b - a)]))
    rw [hev a b seg hseg] at hle
    exact hle
  have hb := (adaptive_bound val err (2 * n + 1) abstol reltol maxevals (consecutive s) (PartOf (consecutive s))
    (fun p hp => ⟨p, hp, left_mem_segment ℝ _ _, right_mem_segment ℝ _ _⟩) (partOf_halves _) δ (2 * η) hδ (by linarith) herr
    htol T N hA).2.2
  have hb1 := splitPot_sum_nonneg δ T
  have hb2 := splitPot_sum_le hδ (consecutive s)
  have hcost : (0 : ℝ) ≤ 2 * ((2 * n + 1 : Nat) : ℝ) := by positivity
  have hN : (N : ℝ) ≤ (2 * n + 1) * ((consecutive s).length + 4 * pathLength (consecutive s) / δ) := by
    have e1 := mul_nonneg hcost hb1
    have e2 := mul_le_mul_of_nonneg_left hb2 hcost
    push_cast at hb e1 e2
    have : (2 * (n : ℝ) + 1) * ((consecutive s).length + 4 * pathLength (consecutive s) / δ) =
      (2 * n + 1) * (consecutive s).length + 2 * (2 * n + 1) * (2 * pathLength (consecutive s) / δ) := by ring
    rw [this]
    linarith
  refine ⟨I, E, N, hr, hN, ?_⟩
  rcases hstop with h | h | h
  · exact Or.inl h
  · exact Or.inr h
  · exact absurd (lt_of_le_of_lt hN hmax) (by exact_mod_cast not_lt.2 h)

/-- **C83.**  For an integrand that is continuous on every closed segment of the path and a positive absolute tolerance there
is a number of evaluations after which `quadgk` has met one of its tolerances: with any larger budget it returns an error
estimate within tolerance, without using more. -/
theorem C83_continuous (eigvalsh : Eigvalsh) (he : EigvalshOk eigvalsh) (q : Heapq (Segment 𝕜 V)) (hq : HeapqOk q)
    (f : 𝕜 → Option V) (F : 𝕜 → V) (s : List 𝕜) (hs : 2 ≤ s.length) (n : Nat) (hn : 1 ≤ n) (abstol : ℝ) (hpos : 0 < abstol)
    (hf : ∀ p ∈ consecutive s, ∀ z ∈ segment ℝ p.1 p.2, f z = some (F z))
    (hc : ∀ p ∈ consecutive s, ContinuousOn F (segment ℝ p.1 p.2)) :
    ∃ N₀ : Nat, ∀ (reltol : ℝ) (maxevals : Nat), N₀ ≤ maxevals →
      ∃ I E N, quadgkFinite eigvalsh q f s abstol reltol maxevals n = .ok (I, E, N) ∧ N ≤ N₀ ∧
        (E ≤ abstol ∨ E ≤ reltol * ‖I‖) := by
  have hL := pathLength_nonneg (consecutive s)
  set L := pathLength (consecutive s) with hLdef
  set η := abstol / (2 * (L + 1)) with hηdef
  have hη : 0 < η := by positivity
  have hδ : ∀ S : List (𝕜 × 𝕜), (∀ p ∈ S, ContinuousOn F (segment ℝ p.1 p.2)) → ∃ δ > 0, ∀ p ∈ S,
      ∀ z ∈ segment ℝ p.1 p.2, ∀ z' ∈ segment ℝ p.1 p.2, ‖z - z'‖ < δ → ‖F z - F z'‖ ≤ η := by
    intro S
    induction S with
    | nil => intro _; exact ⟨1, one_pos, by simp⟩
    | cons p S ih =>
      intro hS
      obtain ⟨d, hd, h⟩ := ih fun r hr => hS r (List.mem_cons_of_mem _ hr)
      have hcomp : IsCompact (segment ℝ p.1 p.2) := by
        rw [segment_eq_image_lineMap]
        exact isCompact_Icc.image AffineMap.lineMap_continuous
      have hu := hcomp.uniformContinuousOn_of_continuous (hS p List.mem_cons_self)
      obtain ⟨d', hd', h'⟩ := Metric.uniformContinuousOn_iff.1 hu η hη
      refine ⟨min d d', lt_min hd hd', fun r hr z hz z' hz' hzz => ?_⟩
      rcases List.mem_cons.1 hr with rfl | hr
      · have := h' z hz z' hz' (by rw [dist_eq_norm]; exact hzz.trans_le (min_le_right _ _))
        rw [dist_eq_norm] at this
        exact this.le
      · exact h r hr z hz z' hz' (hzz.trans_le (min_le_left _ _))
  obtain ⟨δ, hδ0, hosc⟩ := hδ (consecutive s) hc
  obtain ⟨M, hM⟩ := exists_nat_gt ((2 * n + 1) * ((consecutive s).length + 4 * L / δ))
  refine ⟨M, fun reltol maxevals hmax => ?_⟩
  obtain ⟨I, E, N, h1, h2, h3⟩ := C83_bound eigvalsh he q hq f F s hs n hn abstol η δ hη.le hδ0 hf hosc (by
    rw [← hLdef, hηdef, show 2 * (abstol / (2 * (L + 1))) * L = abstol * (L / (L + 1)) by field_simp]
    have : L / (L + 1) ≤ 1 := (div_le_one (by linarith)).2 (by linarith)
    nlinarith) reltol maxevals (hM.trans_le (by exact_mod_cast hmax))
  refine ⟨I, E, N, h1, ?_, h3⟩
  exact_mod_cast (h2.trans hM.le)

/-- **C83 (Lipschitz integrands).**  For an integrand with Lipschitz constant `K` on each segment of a path of length `L`, the
number of evaluations is at most `(2n + 1) (segments + 8 K L² / abstol)`. -/
theorem C83_lipschitz (eigvalsh : Eigvalsh) (he : EigvalshOk eigvalsh) (q : Heapq (Segment 𝕜 V)) (hq : HeapqOk q)
    (f : 𝕜 → Option V) (F : 𝕜 → V) (s : List 𝕜) (hs : 2 ≤ s.length) (n : Nat) (hn : 1 ≤ n) (abstol K : ℝ) (hpos : 0 < abstol)
    (hK : 0 < K) (hL : 0 < pathLength (consecutive s))
    (hf : ∀ p ∈ consecutive s, ∀ z ∈ segment ℝ p.1 p.2, f z = some (F z))
    (hlip : ∀ p ∈ consecutive s, ∀ z ∈ segment ℝ p.1 p.2, ∀ z' ∈ segment ℝ p.1 p.2, ‖F z - F z'‖ ≤ K * ‖z - z'‖)
    (reltol : ℝ) (maxevals : Nat)
    (hmax : (2 * n + 1) * ((consecutive s).length + 8 * K * pathLength (consecutive s) ^ 2 / abstol) < maxevals) :
    ∃ I E N, quadgkFinite eigvalsh q f s abstol reltol maxevals n = .ok (I, E, N) ∧
      (N : ℝ) ≤ (2 * n + 1) * ((consecutive s).length + 8 * K * pathLength (consecutive s) ^ 2 / abstol) ∧
      (E ≤ abstol ∨ E ≤ reltol * ‖I‖) := by
  set L := pathLength (consecutive s) with hLdef
  have e : 4 * L / (abstol / (2 * K * L)) = 8 * K * L ^ 2 / abstol := by field_simp; ring
  have := C83_bound eigvalsh he q hq f F s hs n hn abstol (abstol / (2 * L)) (abstol / (2 * K * L)) (by positivity)
    (by positivity) hf (fun p hp z hz z' hz' h => by
      refine (hlip p hp z hz z' hz').trans ?_
      have := mul_le_mul_of_nonneg_left h.le hK.le
      rw [show K * (abstol / (2 * K * L)) = abstol / (2 * L) by field_simp] at this
      exact this) (by rw [← hLdef]; apply le_of_eq; field_simp) reltol maxevals (by rw [← hLdef, e]; exact hmax)
  rw [← hLdef, e] at this
  exact this

end

/-- The absolute value on `[-1, 2]` in two segments is continuous and Lipschitz; lawful routines exist. -/
example : (∃ e : Eigvalsh, EigvalshOk e) ∧ HeapqOk (Spec.listHeap : Heapq (Segment ℝ ℝ)) ∧
    0 < pathLength (consecutive [(-1 : ℝ), 1, 2]) ∧
    (∀ p ∈ consecutive [(-1 : ℝ), 1, 2], ContinuousOn (fun z : ℝ => |z|) (segment ℝ p.1 p.2)) ∧
    ∀ z z' : ℝ, ‖|z| - |z'|‖ ≤ 1 * ‖z - z'‖ := by
  refine ⟨exists_eigvalshOk, exists_heapqOk, ?_, fun _ _ => continuous_abs.continuousOn, fun z z' => ?_⟩
  · simp only [consecutive, pathLength, len, List.map_cons, List.map_nil, List.sum_cons, List.sum_nil]
    norm_num
  · rw [one_mul, Real.norm_eq_abs, Real.norm_eq_abs]
    exact abs_abs_sub_abs_le z z'

end Modepy

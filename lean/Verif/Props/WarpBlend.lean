import Verif.Proofs.WarpInner
import Verif.Props.Tools
import Verif.Props.Gauss
import Verif.Proofs.Pytools

/-!
# Property C47: warp and blend nodes
-/

namespace Modepy
open Spec

/-! ## Specification vocabulary -/

/-- The counts of a node tuple with that of the first vertex put in front: they sum to `n`. -/
def Spec.fullTuple (n : Nat) (t : List Nat) : List Nat := (n - t.sum) :: t

/-- Node tuples of the simplex of dimension `dims` and order `n`. -/
def Spec.ValidTuples (dims n : Nat) (ts : List (List Nat)) : Prop := ∀ t ∈ ts, t.length = dims ∧ t.sum ≤ n

/-- Barycentric coordinates of the equispaced node of a tuple. -/
noncomputable def tupleCoord (d n : Nat) (t : List Nat) : Fin (d + 1) → ℝ := fun p => ((fullTuple n t).getD p 0 : ℝ) / n

theorem fullTuple_sum {n : Nat} {t : List Nat} (h : t.sum ≤ n) : (fullTuple n t).sum = n := by
  simp [fullTuple]; omega

/-! ## The warp function -/

/-- **C47 (warp factor).**  For every `n ≥ 1`, scaled or not, `warp_factor` vanishes at the end points; unscaled, at the
equispaced points it is the displacement of the Legendre-Gauss-Lobatto nodes. -/
theorem C47_warp_factor (ext : Ext) (hext : ext.EighOk) (n : Nat) (hn : 1 ≤ n) :
    (∀ (scaled : Bool) (out : Fin 2 → ℝ), (∀ i, out i = -1 ∨ out i = 1) → warpFactor ext n out scaled = .ok fun _ => 0) ∧
    ∃ (x w : Fin (n + 1) → ℝ), legendreGaussLobattoNodes ext n .builtin false = .ok (NdArray.ofFn x) ∧
      warpFactor ext n (fun j : Fin (n + 1) => -1 + 2 * ((j : Nat) : ℝ) / n) false = .ok w ∧
      ∀ j : Fin (n + 1), (-1 + 2 * ((j : Nat) : ℝ) / n) + w j = x j := by
  obtain ⟨m, rfl⟩ : ∃ m, n = m + 1 := ⟨n - 1, by omega⟩
  obtain ⟨P, x, hok, h0, h1, -, -, -, hint, hodd, hu, hs⟩ := warpFactor_eq ext hext m
  have hm : ((m + 1 : Nat) : ℝ) ≠ 0 := by positivity
  have hP1 : P.eval 1 = 0 := by
    have := hint (Fin.last (m + 1))
    have e : linspaceUnit (m + 1) (Fin.last (m + 1)) = 1 := by
      simp only [linspaceUnit, Fin.val_last]
      field_simp
      ring
    rw [e, h1, sub_self] at this
    exact this
  have hPm : P.eval (-1) = 0 := by rw [hodd, hP1, neg_zero]
  have hz : ∀ t : ℝ, t = -1 ∨ t = 1 → P.eval t = 0 := by
    rintro t (rfl | rfl)
    · exact hPm
    · exact hP1
  constructor
  · intro scaled out hout
    cases scaled with
    | false =>
      rw [hu]
      congr 1
      funext i
      exact hz _ (hout i)
    | true =>
      rw [hs]
      congr 1
      funext i
      rw [scaledWarp, hz _ (hout i)]
      simp
  · refine ⟨x, _, ?_, hu _ _, fun j => ?_⟩
    · rw [legendreGaussLobattoNodes, jacobiGaussLobattoNodes, hok]
      simp
    · have := hint j
      rw [linspaceUnit] at this
      rw [this]
      ring

/-! ## Nodes in barycentric coordinates -/

/-- What the node map of an order does to barycentric coordinates. -/
structure WarpMap (d n : Nat) (x : Fin (n + 1) → ℝ) (B : (Fin (d + 1) → ℝ) → Fin (d + 1) → ℝ) : Prop where
  perm : ∀ l (σ : Equiv.Perm (Fin (d + 1))) p, B (l ∘ σ) p = B l (σ p)
  sum : ∀ l, ∑ p, B l p = ∑ p, l p
  face : ∀ l p, l p = 0 → B l p = 0
  edge : ∀ (a b : Nat) (hab : a + b = n) l (p q : Fin (d + 1)), p ≠ q → l p = (a : ℝ) / n → l q = (b : ℝ) / n →
    (∀ r, r ≠ p → r ≠ q → l r = 0) → B l p = (1 + x ⟨a, by omega⟩) / 2
  inner : WarpInner d n B

/-- The value of the displacement along an edge. -/
theorem edge_value {n : Nat} (hn : 1 ≤ n) (hn2 : n < 10 ^ 8) {P : Polynomial ℝ} {x : Fin (n + 1) → ℝ} (h0 : x 0 = -1)
    (h1 : x (Fin.last n) = 1) (hint : ∀ j, P.eval (linspaceUnit n j) = x j - linspaceUnit n j)
    (a b : Nat) (hab : a + b = n) :
    (a : ℝ) / n + 4 * ((a : ℝ) / n) * ((b : ℝ) / n) * scaledWarp P ((a : ℝ) / n - (b : ℝ) / n) / 2 =
      (1 + x ⟨a, by omega⟩) / 2 := by
  have hn0 : (0 : ℝ) < n := by exact_mod_cast hn
  have hb : (b : ℝ) = n - a := by rw [← hab]; push_cast; ring
  by_cases ha0 : a = 0
  · subst ha0
    have e : x ⟨0, by omega⟩ = -1 := h0
    rw [e]
    simp
  by_cases hb0 : b = 0
  · have e : x ⟨a, by omega⟩ = 1 := by
      rw [← h1]; congr 1; apply Fin.ext; simp; omega
    have : (a : ℝ) = n := by rw [← hab, hb0]; push_cast; ring
    rw [e, hb0, this]
    simp [hn0.ne']
  have hlin : linspaceUnit n ⟨a, by omega⟩ = (a : ℝ) / n - (b : ℝ) / n := by
    rw [linspaceUnit, hb]
    field_simp
    ring
  have hn8 : (n : ℝ) < 10 ^ 8 := by exact_mod_cast hn2
  have ha1 : (1 : ℝ) ≤ a := by exact_mod_cast Nat.one_le_iff_ne_zero.2 ha0
  have hb1 : (1 : ℝ) ≤ b := by exact_mod_cast Nat.one_le_iff_ne_zero.2 hb0
  have hinv : (1e-8 : ℝ) < 1 / n := by
    rw [lt_div_iff₀ hn0]
    norm_num
    linarith
  have hA : 1 / (n : ℝ) ≤ a / n := by gcongr
  have hB : 1 / (n : ℝ) ≤ b / n := by gcongr
  have hAB : (a : ℝ) / n + b / n = 1 := by rw [← add_div, div_eq_one_iff_eq hn0.ne', hb]; ring
  have hlt : |(a : ℝ) / n - (b : ℝ) / n| < 1 - 1e-10 := by
    rw [abs_lt]
    constructor <;> linarith [show (1e-10 : ℝ) < 1e-8 by norm_num]
  rw [scaledWarp, if_pos hlt, ← hlin, hint, hlin]
  set A := (a : ℝ) / n
  set B := (b : ℝ) / n
  have hBA : B = 1 - A := by linarith
  rw [hBA]
  have hApos : A ≠ 0 := by linarith
  have hBpos : 1 - A ≠ 0 := by linarith
  have e : 1 - (A - (1 - A)) ^ 2 = 4 * A * (1 - A) := by ring
  rw [e]
  field_simp
  ring

/-- Displacement on the segment. -/
noncomputable def disp1 (W : ℝ → ℝ) (l : Fin 2 → ℝ) (p : Fin 2) : ℝ :=
  4 * l p * l (p + 1) * W (l p - l (p + 1)) / 2

theorem warpMap1 {n : Nat} (hn : 1 ≤ n) (hn2 : n < 10 ^ 8) {P : Polynomial ℝ} {x : Fin (n + 1) → ℝ} (h0 : x 0 = -1)
    (h1 : x (Fin.last n) = 1) (hint : ∀ j, P.eval (linspaceUnit n j) = x j - linspaceUnit n j)
    (hodd : ∀ t, P.eval (-t) = -P.eval t) :
    WarpMap 1 n x fun l p => l p + disp1 (scaledWarp P) l p := by
  have hW := scaledWarp_neg P hodd
  refine ⟨?_, ?_, ?_, ?_, warpInner1 _⟩
  · intro l σ p
    have h : ∀ (σ : Equiv.Perm (Fin 2)) (p : Fin 2), σ (p + 1) = σ p + 1 := by decide
    simp [disp1, h]
  · intro l
    rw [Fin.sum_univ_two, Fin.sum_univ_two]
    have e : l 1 - l 0 = -(l 0 - l 1) := by ring
    simp only [disp1, zero_add, show (1 + 1 : Fin 2) = 0 from rfl, e, hW]
    ring
  · intro l p h
    simp [disp1, h]
  · intro a b hab l p q hpq hp hq _
    have h : ∀ p q : Fin 2, p ≠ q → p + 1 = q := by decide
    simp only [disp1, h p q hpq, hp, hq]
    exact edge_value hn hn2 h0 h1 hint a b hab

theorem warpMap2 {n : Nat} (hn : 1 ≤ n) (hn2 : n < 10 ^ 8) {P : Polynomial ℝ} {x : Fin (n + 1) → ℝ} (h0 : x 0 = -1)
    (h1 : x (Fin.last n) = 1) (hint : ∀ j, P.eval (linspaceUnit n j) = x j - linspaceUnit n j)
    (hodd : ∀ t, P.eval (-t) = -P.eval t) (hbd : WarpBounds n (scaledWarp P)) (α : ℝ) (hα : n = 4 ∨ n = 5 → α ^ 2 ≤ 2) :
    WarpMap 2 n x fun l p => l p + disp2 (scaledWarp P) α l p := by
  have hW := scaledWarp_neg P hodd
  refine ⟨?_, ?_, ?_, ?_, warpInner2 hW hbd hα⟩
  · intro l σ p
    have := disp2_perm (scaledWarp P) α l σ p
    exact congrArg (l (σ p) + ·) this
  · intro l
    rw [Finset.sum_add_distrib, disp2_sum hW, add_zero]
  · intro l p h
    simp [disp2, edgeC, h]
  · intro a b hab l p q hpq hp hq hr
    have h : ∀ p q : Fin 3, p ≠ q → -(p + q) ≠ p ∧ -(p + q) ≠ q := by decide
    have hz := hr _ (h p q hpq).1 (h p q hpq).2
    have e : disp2 (scaledWarp P) α l p = 4 * l p * l q * scaledWarp P (l p - l q) / 2 := by
      rw [disp2, Finset.sum_eq_single q]
      · rw [if_neg hpq.symm, edgeC, hz]; ring
      · intro s _ hs
        by_cases hsp : s = p
        · rw [if_pos hsp]
        · rw [if_neg hsp, edgeC, hr s hsp hs]; ring
      · intro hh; simp at hh
    simp only [e, hp, hq]
    exact edge_value hn hn2 h0 h1 hint a b hab

theorem warpMap3 {n : Nat} (hn : 1 ≤ n) (hn2 : n < 10 ^ 8) {P : Polynomial ℝ} {x : Fin (n + 1) → ℝ} (h0 : x 0 = -1)
    (h1 : x (Fin.last n) = 1) (hint : ∀ j, P.eval (linspaceUnit n j) = x j - linspaceUnit n j)
    (hodd : ∀ t, P.eval (-t) = -P.eval t) (hbd : WarpBounds n (scaledWarp P)) (α : ℝ) (hα : n = 4 ∨ n = 5 → α ^ 2 ≤ 2) :
    WarpMap 3 n x fun l p => l p + disp3 (scaledWarp P) α l p := by
  have hW := scaledWarp_neg P hodd
  have hdisp : ∀ l f, l f = 0 → ∀ p, disp3 (scaledWarp P) α l p = faceDisp (scaledWarp P) α l f p := by
    intro l f hf p
    have h : ∃ f, l f = 0 := ⟨f, hf⟩
    rw [disp3, dif_pos h]
    exact faceDisp_eq_of_zero _ α l _ f h.choose_spec hf p
  refine ⟨?_, ?_, ?_, ?_, warpInner3 hW hbd hα⟩
  · intro l σ p
    have := disp3_perm (scaledWarp P) α l σ p
    exact congrArg (l (σ p) + ·) this
  · intro l
    rw [Finset.sum_add_distrib, disp3_sum hW, add_zero]
  · intro l p h
    simp only [hdisp l p h p, h]
    simp [faceDisp]
  · intro a b hab l p q hpq hp hq hr
    have h : ∀ p q : Fin 4, p ≠ q → ∃ f, f ≠ p ∧ f ≠ q ∧ 2 - f - p - q ≠ p ∧ 2 - f - p - q ≠ q := by decide
    obtain ⟨f, hfp, hfq, h3, h4⟩ := h p q hpq
    have hz := hr _ h3 h4
    have e : disp3 (scaledWarp P) α l p = 4 * l p * l q * scaledWarp P (l p - l q) / 2 := by
      rw [hdisp l f (hr f hfp hfq), faceDisp, if_neg hfp.symm, Finset.sum_eq_single q]
      · rw [if_neg (by rintro (h | h); exacts [hpq h.symm, hfq h.symm]), edgeC, hz]; ring
      · intro s _ hs
        by_cases hsp : s = p ∨ s = f
        · rw [if_pos hsp]
        · rw [if_neg hsp, edgeC, hr s (fun e => hsp (Or.inl e)) hs]; ring
      · intro hh; simp at hh
    simp only [e, hp, hq]
    exact edge_value hn hn2 h0 h1 hint a b hab

/-! ## From the code to the node map -/

theorem tupleBary_eq {dims n : Nat} (hn : 1 ≤ n) (ts : List (List Nat)) (k : Nat) (t : List Nat)
    (ht : ts[k]? = some t) (hl : t.length = dims) (hs : t.sum ≤ n) :
    tupleBary dims n ts k = List.ofFn (tupleCoord dims n t) := by
  have hn0 : (n : ℝ) ≠ 0 := by have : 0 < n := hn; positivity
  have hcol : ((List.range dims).map fun i => (scaledTuples dims n ts : NdArray ℝ).get [i, k]) =
      t.map fun (a : Nat) => (a : ℝ) / n * 2 - 1 := by
    apply List.ext_getElem
    · simp [hl]
    · intro i h1 h2
      simp [scaledTuples, List.getD_eq_getElem?_getD, ht, List.getElem?_eq_getElem (show i < t.length by simpa using h2)]
  have hhalf : ((t.map fun (a : Nat) => (a : ℝ) / n * 2 - 1).map fun c => 0.5 * (c + 1)) = t.map fun (a : Nat) => (a : ℝ) / n := by
    rw [List.map_map]
    refine List.map_congr_left fun a _ => ?_
    simp only [Function.comp]
    norm_num
    ring
  have hsum : ((t.map fun (a : Nat) => (a : ℝ) / n)).sum = (t.sum : ℝ) / n := by
    clear hcol hhalf ht hl hs
    induction t with
    | nil => simp
    | cons a t ih => simp [ih, add_div]
  rw [tupleBary, hcol, unitToBarycentric, hhalf]
  simp only [hsum]
  have h1 : 1 - (t.sum : ℝ) / n = ((n - t.sum : Nat) : ℝ) / n := by
    rw [Nat.cast_sub hs]; field_simp
  rw [h1]
  apply List.ext_getElem
  · simp [hl]
  · intro i h1 h2
    simp only [List.getElem_ofFn, tupleCoord, fullTuple]
    cases i with
    | zero => simp
    | succ i =>
      have hi : i < t.length := by simpa using h1
      simp [List.getD_eq_getElem?_getD, hi]

/-- Columns produced by shifting barycentric coordinates. -/
theorem shiftedNodes_eq {dims m : Nat} (hd : 1 ≤ dims ∧ dims ≤ 3) (bary shift : Nat → List ℝ) (B : Nat → List ℝ)
    (hB : ∀ k < m, (B k).length = dims + 1 ∧ (B k).sum = 1)
    (h : ∀ k < m, ∃ e, barycentricToEquilateral (bary k) = .ok e ∧
      barycentricToEquilateral (B k) = .ok (List.zipWith (· + ·) e (shift k))) :
    ∃ A, shiftedNodes dims m bary shift = .ok A ∧ A.shape = [dims, m] ∧
      ∀ k < m, unitToBarycentric (column A dims k) = B k := by
  have hx : ∀ k, ∃ x, k < m → shiftedNode (bary k) (shift k) = .ok x ∧ x.length = dims ∧ unitToBarycentric x = B k := by
    intro k
    by_cases hk : k < m
    · obtain ⟨e, he, hBe⟩ := h k hk
      obtain ⟨hl, hs⟩ := hB k hk
      obtain ⟨e', x, h1, h2, h3⟩ := C44_equilateral (B k) (by omega) hs
      rw [hBe] at h1
      injection h1 with h1
      obtain ⟨x', h4, h5, h6⟩ := C44_bary_roundtrip (B k) (by intro hh; rw [hh] at hl; simp at hl)
      rw [h3] at h4
      injection h4 with h4
      refine ⟨x, fun _ => ⟨?_, by rw [h4]; omega, by rw [h4]; exact h6.2 hs⟩⟩
      rw [shiftedNode, he]
      simp only
      rw [h1, h2]
    · exact ⟨[], fun hh => absurd hh hk⟩
  choose x hx using hx
  have hcol : collect ((List.range m).map fun k => shiftedNode (bary k) (shift k)) = .ok ((List.range m).map x) :=
    collect_map_of_ok _ _ _ fun k hk => (hx k (List.mem_range.1 hk)).1
  refine ⟨⟨[dims, m], fun idx => (((List.range m).map x).getD (idx.getD 1 0) []).getD (idx.getD 0 0) 0⟩, ?_, rfl, ?_⟩
  · unfold shiftedNodes
    rw [hcol]
  · intro k hk
    obtain ⟨-, hlen, hun⟩ := hx k hk
    rw [← hun]
    congr 1
    rw [column]
    apply List.ext_getElem
    · simp [hlen]
    · intro i h1 h2
      simp [List.getD_eq_getElem?_getD, hk, h2]

theorem tupleCoord_facts {dims n : Nat} (hn : 1 ≤ n) (hn2 : n < 10 ^ 8) (t : List Nat) (hl : t.length = dims)
    (hs : t.sum ≤ n) :
    ∑ p, tupleCoord dims n t p = 1 ∧ ∀ p, tupleCoord dims n t p = 0 ∨ 1e-8 < tupleCoord dims n t p := by
  have hn0 : (0 : ℝ) < n := by exact_mod_cast hn
  have hlen : (fullTuple n t).length = dims + 1 := by simp [fullTuple, hl]
  constructor
  · have e : ∑ p : Fin (dims + 1), ((fullTuple n t).getD p 0 : ℝ) = ((fullTuple n t).sum : ℝ) := by
      rw [← List.sum_ofFn]
      have : (fullTuple n t) = List.ofFn fun p : Fin (dims + 1) => (fullTuple n t).getD p 0 := by
        apply List.ext_getElem
        · simp [hlen]
        · intro i h1 h2
          simp [-List.ofFn_succ, List.getD_eq_getElem?_getD, h1]
      conv_rhs => rw [this]
      rw [List.sum_ofFn, List.sum_ofFn]
      push_cast
      rfl
    simp only [tupleCoord]
    rw [← Finset.sum_div, e, fullTuple_sum hs, div_self hn0.ne']
  · intro p
    rcases Nat.eq_zero_or_pos ((fullTuple n t).getD p 0) with h | h
    · left; rw [tupleCoord, h]; simp
    · right
      have h1 : (1 : ℝ) ≤ ((fullTuple n t).getD p 0 : ℕ) := by exact_mod_cast h
      have hn8 : (n : ℝ) < 10 ^ 8 := by exact_mod_cast hn2
      rw [tupleCoord, lt_div_iff₀ hn0]
      have : (1e-8 : ℝ) * n < 1 := by norm_num; linarith
      linarith

theorem gnitsam_one (n : Nat) : Pytools.gnitsam n 1 = (List.range (n + 1)).map fun i => [i] := by
  simp only [Pytools.gnitsam, List.map_cons, List.map_nil, List.nil_append]
  induction List.range (n + 1) with
  | nil => rfl
  | cons a l ih => simp [ih]

/-- One dimension. -/
theorem warp1D (ext : Ext) (so : SetOrder) {m : Nat} {x : Fin (m + 2) → ℝ}
    (hok : lobattoNodes ext 0 0 (m + 1) .builtin = .ok x) (tuples : Option (List (List Nat))) (ts : List (List Nat))
    (hts : checkedTuples 1 (m + 1) tuples = .ok ts) (hv : ValidTuples 1 (m + 1) ts) :
    ∃ A, warpAndBlendNodes ext so 1 (m + 1) tuples = .ok A ∧ A.shape = [1, ts.length] ∧
        ∀ k a, ts[k]? = some [a] → ∃ ha : a < m + 2, A.get [0, k] = x ⟨a, ha⟩ := by
  have hl : legendreGaussLobattoNodes ext (m + 1) .builtin true = .ok (NdArray.ofFn x).addDimAxis := by
    rw [legendreGaussLobattoNodes, jacobiGaussLobattoNodes, hok]
    simp
  have hget : ∀ a (ha : a < m + 2), (NdArray.ofFn x).addDimAxis.get [0, a] = x ⟨a, ha⟩ := by
    intro a ha
    simp [NdArray.addDimAxis, NdArray.ofFn, ha]
  rw [warpAndBlendNodes, if_neg (by omega)]
  simp only [hl]
  cases tuples with
  | none =>
    simp only [checkedTuples, nodeTuplesPN, gnitsam_one] at hts
    injection hts with hts
    refine ⟨_, rfl, by simp [← hts, NdArray.addDimAxis, NdArray.ofFn], ?_⟩
    intro k a hk
    rw [← hts] at hk
    rw [List.getElem?_eq_some_iff] at hk
    obtain ⟨hk, e⟩ := hk
    have hk2 : k < m + 2 := by simp at hk; omega
    have : k = a := by simpa using e
    subst this
    exact ⟨hk2, hget k hk2⟩
  | some ts' =>
    simp only [checkedTuples] at hts
    have hdim : (⟨1, m + 1⟩ : PNSpace).spaceDim = m + 2 := by simp [PNSpace.spaceDim]
    split_ifs at hts with h
    injection hts with hts
    subst hts
    rw [hdim] at h
    have hlen : ts'.length = m + 2 := not_not.1 h
    simp only [hlen, ne_eq, not_true_eq_false, if_false]
    have hpick : ∀ t ∈ ts', pickNode (NdArray.ofFn x).addDimAxis (m + 1) t =
        .ok (if h : t.getD 0 0 < m + 2 then x ⟨t.getD 0 0, h⟩ else 0) := by
      intro t ht
      obtain ⟨h1, h2⟩ := hv t ht
      match t, h1 with
      | [a], _ =>
        have ha : a < m + 2 := by simp at h2; omega
        rw [pickNode, if_pos (by omega), hget a ha]
        simp [ha]
    rw [collect_map_of_ok _ _ _ hpick]
    refine ⟨_, rfl, rfl, ?_⟩
    intro k a hk
    have hmem := hv [a] (List.mem_of_getElem? hk)
    have ha : a < m + 2 := by have := hmem.2; simp at this; omega
    refine ⟨ha, ?_⟩
    simp [List.getD_eq_getElem?_getD, hk, ha]

/-- All orders and dimensions: the nodes are the images of the equispaced ones under a map commuting with the symmetries
of the simplex and taking edge points to Legendre-Gauss-Lobatto positions. -/
theorem warp_main (ext : Ext) (hext : ext.EighOk) (so : SetOrder) (dims : Nat) (hd : 1 ≤ dims ∧ dims ≤ 3) (n : Nat)
    (hn : 1 ≤ n) (hn2 : n < 10 ^ 8) (tuples : Option (List (List Nat))) (ts : List (List Nat))
    (hts : checkedTuples dims n tuples = .ok ts) (hv : ValidTuples dims n ts) :
    ∃ A x B, warpAndBlendNodes ext so dims n tuples = .ok A ∧
      legendreGaussLobattoNodes ext n .builtin false = .ok (NdArray.ofFn x) ∧ x 0 = -1 ∧ StrictMono x ∧
      WarpMap dims n x B ∧ A.shape = [dims, ts.length] ∧
      ∀ k t, ts[k]? = some t → unitToBarycentric (column A dims k) = List.ofFn (B (tupleCoord dims n t)) := by
  obtain ⟨m, rfl⟩ : ∃ m, n = m + 1 := ⟨n - 1, by omega⟩
  obtain ⟨P, x, hok, h0, h1, hmono, hsym, hdeg, hint, hodd, hu, hs⟩ := warpFactor_eq ext hext m
  have hW := scaledWarp_neg P hodd
  have hbd := warp_bounds ext hext m P x hok h1 hmono hsym hdeg hint hodd
  have hlgl : legendreGaussLobattoNodes ext (m + 1) .builtin false = .ok (NdArray.ofFn x) := by
    rw [legendreGaussLobattoNodes, jacobiGaussLobattoNodes, hok]
    simp
  have hmem : ∀ k t, ts[k]? = some t → k < ts.length ∧ t.length = dims ∧ t.sum ≤ m + 1 := by
    intro k t ht
    obtain ⟨hk, e⟩ := List.getElem?_eq_some_iff.1 ht
    exact ⟨hk, hv t (e ▸ List.getElem_mem hk)⟩
  obtain rfl | rfl | rfl : dims = 1 ∨ dims = 2 ∨ dims = 3 := by omega
  · have hB := warpMap1 hn hn2 h0 h1 hint hodd
    -- the columns are the Gauss-Lobatto nodes of the tuples
    have key : ∃ A, warpAndBlendNodes ext so 1 (m + 1) tuples = .ok A ∧ A.shape = [1, ts.length] ∧
        ∀ k a, ts[k]? = some [a] → ∃ ha : a < m + 2, A.get [0, k] = x ⟨a, ha⟩ :=
      warp1D ext so hok tuples ts hts hv
    obtain ⟨A, hA, hsh, hcol⟩ := key
    refine ⟨A, x, _, hA, hlgl, h0, hmono, hB, hsh, ?_⟩
    intro k t ht
    obtain ⟨hk, hl, hsum⟩ := hmem k t ht
    match t, hl with
    | [a], _ =>
      obtain ⟨ha, hx⟩ := hcol k a ht
      have ham : a ≤ m + 1 := by simpa using hsum
      have e0 := hB.edge a (m + 1 - a) (by omega) (tupleCoord 1 (m + 1) [a]) 1 0 (by decide) (by simp [tupleCoord, fullTuple])
        (by simp [tupleCoord, fullTuple]) (by
          have h : ∀ r : Fin 2, r ≠ 1 → r ≠ 0 → False := by decide
          exact fun r h1 h2 => (h r h1 h2).elim)
      have e1 := hB.sum (tupleCoord 1 (m + 1) [a])
      rw [(tupleCoord_facts (dims := 1) hn hn2 [a] rfl hsum).1, Fin.sum_univ_two] at e1
      rw [column]
      simp only [List.range_one, List.map_cons, List.map_nil, hx, unitToBarycentric, List.sum_cons, List.sum_nil, add_zero]
      simp only [List.ofFn_succ, List.ofFn_zero, Fin.succ_zero_eq_one]
      rw [e0] at e1 ⊢
      congr 1
      · norm_num
        linarith
      · congr 1
        norm_num
        ring
  · set α := alphaFor alphaOpt2D (5 / 3) (m + 1) with hα
    have hB := warpMap2 hn hn2 h0 h1 hint hodd hbd α (alpha2_bound _)
    let B : Nat → List ℝ := fun k => List.ofFn fun p : Fin 3 => tupleCoord 2 (m + 1) (ts.getD k []) p +
      disp2 (scaledWarp P) α (tupleCoord 2 (m + 1) (ts.getD k [])) p
    have hget : ∀ k, k < ts.length → ts[k]? = some (ts.getD k []) := by
      intro k hk
      simp [List.getD_eq_getElem?_getD, hk]
    have hbary : ∀ k (hk : k < ts.length), (fun p : Fin 3 => (tupleBary 2 (m + 1) ts k).getD p 0) =
        tupleCoord 2 (m + 1) (ts.getD k []) := by
      intro k hk
      obtain ⟨-, hl, hsum⟩ := hmem k _ (hget k hk)
      rw [tupleBary_eq hn ts k _ (hget k hk) hl hsum]
      funext p
      simp [-List.ofFn_succ, List.getD_eq_getElem?_getD, p.2]
    obtain ⟨A, hA, hsh, hcol⟩ := shiftedNodes_eq (dims := 2) (m := ts.length) (by omega) (tupleBary 2 (m + 1) ts)
      (fun k => if h : k < ts.length then
        [∑ p, equiVertex2 p 0 * disp2 (scaledWarp P) α (tupleCoord 2 (m + 1) (ts.getD k [])) p,
          ∑ p, equiVertex2 p 1 * disp2 (scaledWarp P) α (tupleCoord 2 (m + 1) (ts.getD k [])) p] else []) B
      (fun k hk => by
        obtain ⟨-, hl, hsum⟩ := hmem k _ (hget k hk)
        refine ⟨by simp [B, -List.ofFn_succ], ?_⟩
        rw [List.sum_ofFn, hB.sum, (tupleCoord_facts hn hn2 _ hl hsum).1])
      (fun k hk => by
        obtain ⟨-, hl, hsum⟩ := hmem k _ (hget k hk)
        rw [tupleBary_eq hn ts k _ (hget k hk) hl hsum]
        refine ⟨_, rfl, ?_⟩
        rw [dif_pos hk]
        simp [barycentricToEquilateral, equilateralVertices, equiVertex2, List.range_succ, B, Fin.sum_univ_three]
        constructor <;> ring)
    refine ⟨A, x, _, ?_, hlgl, h0, hmono, hB, hsh, ?_⟩
    · rw [warpAndBlendNodes, if_neg (by omega)]
      simp only [warpAndBlend2D, hts]
      rw [equilateralShift2D_eq ext so (m + 1) hW hs]
      simp only
      rw [← hA]
      congr 1
      funext k
      by_cases hk : k < ts.length
      · rw [dif_pos hk, dif_pos hk]
        simp only [hbary k hk]
        rfl
      · rw [dif_neg hk, dif_neg hk]
    · intro k t ht
      obtain ⟨hk, -, -⟩ := hmem k t ht
      rw [hcol k hk]
      simp only [B, List.getD_eq_getElem?_getD, ht, Option.getD_some]
  · set α := alphaFor alphaOpt3D 1 (m + 1) with hα
    have hB := warpMap3 hn hn2 h0 h1 hint hodd hbd α (alpha3_bound _)
    let B : Nat → List ℝ := fun k => List.ofFn fun p : Fin 4 => tupleCoord 3 (m + 1) (ts.getD k []) p +
      disp3 (scaledWarp P) α (tupleCoord 3 (m + 1) (ts.getD k [])) p
    have hget : ∀ k, k < ts.length → ts[k]? = some (ts.getD k []) := by
      intro k hk
      simp [List.getD_eq_getElem?_getD, hk]
    have hbary : ∀ k (hk : k < ts.length), (fun p : Fin 4 => (tupleBary 3 (m + 1) ts k).getD p 0) =
        tupleCoord 3 (m + 1) (ts.getD k []) := by
      intro k hk
      obtain ⟨-, hl, hsum⟩ := hmem k _ (hget k hk)
      rw [tupleBary_eq hn ts k _ (hget k hk) hl hsum]
      funext p
      simp [-List.ofFn_succ, List.getD_eq_getElem?_getD, p.2]
    obtain ⟨A, hA, hsh, hcol⟩ := shiftedNodes_eq (dims := 3) (m := ts.length) (by omega) (tupleBary 3 (m + 1) ts)
      (fun k => if h : k < ts.length then
        [∑ p, equiVertex3 p 0 * disp3 (scaledWarp P) α (tupleCoord 3 (m + 1) (ts.getD k [])) p,
          ∑ p, equiVertex3 p 1 * disp3 (scaledWarp P) α (tupleCoord 3 (m + 1) (ts.getD k [])) p,
          ∑ p, equiVertex3 p 2 * disp3 (scaledWarp P) α (tupleCoord 3 (m + 1) (ts.getD k [])) p] else []) B
      (fun k hk => by
        obtain ⟨-, hl, hsum⟩ := hmem k _ (hget k hk)
        refine ⟨by simp [B, -List.ofFn_succ], ?_⟩
        rw [List.sum_ofFn, hB.sum, (tupleCoord_facts hn hn2 _ hl hsum).1])
      (fun k hk => by
        obtain ⟨-, hl, hsum⟩ := hmem k _ (hget k hk)
        rw [tupleBary_eq hn ts k _ (hget k hk) hl hsum]
        refine ⟨_, rfl, ?_⟩
        rw [dif_pos hk]
        simp [barycentricToEquilateral, equilateralVertices, equiVertex3, List.range_succ, B, Fin.sum_univ_four]
        refine ⟨?_, ?_, ?_⟩ <;> ring)
    refine ⟨A, x, _, ?_, hlgl, h0, hmono, hB, hsh, ?_⟩
    · rw [warpAndBlendNodes, if_neg (by omega)]
      simp only [warpAndBlend3D, hts]
      rw [shift3D_eq ext so (m + 1) hW hs _ _ ?_ ?_]
      · simp only
        rw [← hA]
        congr 1
        funext k
        by_cases hk : k < ts.length
        · rw [dif_pos hk, dif_pos hk]
          simp only [hbary k hk]
          rfl
        · rw [dif_neg hk, dif_neg hk]
      · intro k p
        obtain ⟨-, hl, hsum⟩ := hmem k _ (hget k k.2)
        have := (tupleCoord_facts hn hn2 _ hl hsum).2 p
        rw [← hbary k k.2] at this
        exact this
      · intro k
        obtain ⟨-, hl, hsum⟩ := hmem k _ (hget k k.2)
        by_contra hc
        have e := (tupleCoord_facts hn hn2 _ hl hsum).1
        have hz : ∀ p, tupleCoord 3 (m + 1) (ts.getD k []) p = 0 := by
          intro p
          rw [← hbary k k.2]
          by_contra hp
          exact hc ⟨p, hp⟩
        rw [Finset.sum_eq_zero fun p _ => hz p] at e
        exact zero_ne_one e
    · intro k t ht
      obtain ⟨hk, -, -⟩ := hmem k t ht
      rw [hcol k hk]
      simp only [B, List.getD_eq_getElem?_getD, ht, Option.getD_some]

theorem bary_of_unitToBarycentric {x : List ℝ} {d : Nat} {B : Fin (d + 1) → ℝ}
    (h : unitToBarycentric x = List.ofFn B) (p : Fin (d + 1)) : bary x p = B p := by
  have e : (unitToBarycentric x).getD p 0 = B p := by
    rw [h]
    simp [-List.ofFn_succ, List.getD_eq_getElem?_getD, p.2]
  have hlen : x.length = d := by
    have := congrArg List.length h
    simpa [unitToBarycentric, -List.ofFn_succ] using this
  rw [← e]
  have hm : (x.map fun c => (0.5 : ℝ) * (c + 1)) = x.map fun c => (1 + c) / 2 :=
    List.map_congr_left fun c _ => by norm_num; ring
  obtain ⟨p, hp⟩ := p
  cases p with
  | zero => simp [bary, unitToBarycentric, hm]
  | succ i =>
    have hi : i < x.length := by omega
    simp only [bary, unitToBarycentric, List.getD_eq_getElem?_getD, List.getElem?_cons_succ, List.getElem?_map,
      List.getElem?_eq_getElem hi, Option.map_some, Option.getD_some]
    norm_num
    ring

/-! ## The theorems -/

/-- The default node tuples are valid. -/
theorem validTuples_default (dims n : Nat) : checkedTuples dims n none = .ok (nodeTuplesPN ⟨dims, n⟩) ∧
    ValidTuples dims n (nodeTuplesPN ⟨dims, n⟩) :=
  ⟨rfl, fun t ht => (Pytools.mem_gnitsam dims n t).1 ht⟩

theorem fullTuple_entries {dims n : Nat} {t : List Nat} (hl : t.length = dims) (hs : t.sum ≤ n) :
    ∑ p : Fin (dims + 1), (fullTuple n t).getD p 0 = n := by
  have hlen : (fullTuple n t).length = dims + 1 := by simp [fullTuple, hl]
  have : (fullTuple n t) = List.ofFn fun p : Fin (dims + 1) => (fullTuple n t).getD p 0 := by
    apply List.ext_getElem
    · simp [hlen]
    · intro i h1 h2
      simp [-List.ofFn_succ, List.getD_eq_getElem?_getD, h1]
  rw [← List.sum_ofFn, ← this, fullTuple_sum hs]

/-- **C47 (edges).**  In dimensions one to three, every order `1 ≤ n < 10^8`: the node of a tuple whose counts vanish except
at two vertices `p`, `q` - an edge point or a vertex - has the `t_i`-th Legendre-Gauss-Lobatto node as its `i`-th
coordinate, so every edge carries the Legendre-Gauss-Lobatto nodes. -/
theorem C47_edges (ext : Ext) (hext : ext.EighOk) (so : SetOrder) (dims : Nat) (hd : 1 ≤ dims ∧ dims ≤ 3) (n : Nat)
    (hn : 1 ≤ n) (hn2 : n < 10 ^ 8) (tuples : Option (List (List Nat))) (ts : List (List Nat))
    (hts : checkedTuples dims n tuples = .ok ts) (hv : ValidTuples dims n ts) :
    ∃ A x, warpAndBlendNodes ext so dims n tuples = .ok A ∧ A.shape = [dims, ts.length] ∧
      legendreGaussLobattoNodes ext n .builtin false = .ok (NdArray.ofFn x) ∧ StrictMono x ∧
      ∀ k t, ts[k]? = some t → ∀ p q : Fin (dims + 1), p ≠ q →
        (∀ r : Fin (dims + 1), r ≠ p → r ≠ q → (fullTuple n t).getD r 0 = 0) →
        ∀ i < dims, ∃ h : t.getD i 0 < n + 1, A.get [i, k] = x ⟨t.getD i 0, h⟩ := by
  obtain ⟨A, x, B, hA, hx, h0, hmono, hB, hsh, hcol⟩ := warp_main ext hext so dims hd n hn hn2 tuples ts hts hv
  refine ⟨A, x, hA, hsh, hx, hmono, ?_⟩
  intro k t ht p q hpq hr i hi
  have hvt := hv t (List.mem_of_getElem? ht)
  have hsum := fullTuple_entries hvt.1 hvt.2
  have hpair : (fullTuple n t).getD p 0 + (fullTuple n t).getD q 0 = n := by
    have e := Finset.sum_subset (Finset.subset_univ {p, q}) (f := fun r : Fin (dims + 1) => (fullTuple n t).getD r 0)
      fun r _ hrr => by
        simp only [Finset.mem_insert, Finset.mem_singleton, not_or] at hrr
        exact hr r hrr.1 hrr.2
    rw [Finset.sum_pair hpq] at e
    exact e.trans hsum
  have hrc : ∀ r : Fin (dims + 1), r ≠ p → r ≠ q → tupleCoord dims n t r = 0 := by
    intro r h1 h2
    rw [tupleCoord, hr r h1 h2]
    simp
  have hb := bary_of_unitToBarycentric (hcol k t ht) ⟨i + 1, by omega⟩
  have hcoord : bary (column A dims k) (i + 1) = (1 + A.get [i, k]) / 2 := by
    simp [bary, column, List.getD_eq_getElem?_getD, hi]
  simp only [hcoord] at hb
  have hent : (fullTuple n t).getD (i + 1) 0 = t.getD i 0 := by simp [fullTuple]
  by_cases h1 : (⟨i + 1, by omega⟩ : Fin (dims + 1)) = p
  · have hp : (fullTuple n t).getD p 0 = t.getD i 0 := by rw [← h1, ← hent]
    refine ⟨by omega, ?_⟩
    have e := hB.edge _ _ hpair (tupleCoord dims n t) p q hpq rfl rfl hrc
    rw [h1, e] at hb
    have : A.get [i, k] = x ⟨(fullTuple n t).getD p 0, by omega⟩ := by linarith
    rw [this]
    congr 1
    exact Fin.ext hp
  by_cases h2 : (⟨i + 1, by omega⟩ : Fin (dims + 1)) = q
  · have hp : (fullTuple n t).getD q 0 = t.getD i 0 := by rw [← h2, ← hent]
    refine ⟨by omega, ?_⟩
    have e := hB.edge _ _ ((add_comm _ _).trans hpair) (tupleCoord dims n t) q p hpq.symm rfl rfl
      fun r h1 h2 => hrc r h2 h1
    rw [h2, e] at hb
    have : A.get [i, k] = x ⟨(fullTuple n t).getD q 0, by omega⟩ := by linarith
    rw [this]
    congr 1
    exact Fin.ext hp
  · have hz : t.getD i 0 = 0 := by
      rw [← hent]
      exact hr ⟨i + 1, by omega⟩ h1 h2
    refine ⟨by omega, ?_⟩
    rw [hB.face _ _ (hrc _ h1 h2)] at hb
    have : A.get [i, k] = -1 := by linarith
    rw [this, ← h0]
    congr 1
    exact Fin.ext hz.symm

/-- **C47 (faces).**  Nodes whose tuple has no count at a vertex lie on the face opposite that vertex, and the tuple with all
counts at one vertex gives that vertex. -/
theorem C47_faces (ext : Ext) (hext : ext.EighOk) (so : SetOrder) (dims : Nat) (hd : 1 ≤ dims ∧ dims ≤ 3) (n : Nat)
    (hn : 1 ≤ n) (hn2 : n < 10 ^ 8) (tuples : Option (List (List Nat))) (ts : List (List Nat))
    (hts : checkedTuples dims n tuples = .ok ts) (hv : ValidTuples dims n ts) :
    ∃ A, warpAndBlendNodes ext so dims n tuples = .ok A ∧ ∀ k t, ts[k]? = some t → ∀ p ≤ dims,
      ((fullTuple n t).getD p 0 = 0 → bary (column A dims k) p = 0) ∧
      ((fullTuple n t).getD p 0 = n → bary (column A dims k) p = 1) := by
  obtain ⟨A, x, B, hA, hx, h0, hmono, hB, hsh, hcol⟩ := warp_main ext hext so dims hd n hn hn2 tuples ts hts hv
  refine ⟨A, hA, ?_⟩
  intro k t ht p hp
  have hb := bary_of_unitToBarycentric (hcol k t ht) ⟨p, by omega⟩
  have hface : ∀ r : Fin (dims + 1), (fullTuple n t).getD r 0 = 0 → B (tupleCoord dims n t) r = 0 := by
    intro r hr
    apply hB.face
    rw [tupleCoord, hr]
    simp
  have hvt := hv t (List.mem_of_getElem? ht)
  constructor
  · intro hz
    exact hb.trans (hface ⟨p, by omega⟩ hz)
  · intro hfull
    have hsum := fullTuple_entries hvt.1 hvt.2
    have hother : ∀ r : Fin (dims + 1), r ≠ ⟨p, by omega⟩ → (fullTuple n t).getD r 0 = 0 := by
      intro r hr
      have h2 : (fullTuple n t).getD (⟨p, by omega⟩ : Fin (dims + 1)) 0 + (fullTuple n t).getD r 0 ≤ n := by
        conv_rhs => rw [← hsum]
        rw [← Finset.sum_pair (f := fun r : Fin (dims + 1) => (fullTuple n t).getD r 0) hr.symm]
        exact Finset.sum_le_sum_of_subset (Finset.subset_univ _)
      simp only [hfull] at h2
      omega
    have e := hB.sum (tupleCoord dims n t)
    rw [(tupleCoord_facts hn hn2 t hvt.1 hvt.2).1, Finset.sum_eq_single (⟨p, by omega⟩ : Fin (dims + 1))
      (fun r _ hr => hface r (hother r hr)) (fun h => absurd (Finset.mem_univ _) h)] at e
    exact hb.trans e

/-- **C47 (symmetry).**  Permuting the vertices permutes the node set: nodes whose tuples (with the count of the first vertex)
are permutations of each other have barycentric coordinates permuted in the same way. -/
theorem C47_symmetric (ext : Ext) (hext : ext.EighOk) (so : SetOrder) (dims : Nat) (hd : 1 ≤ dims ∧ dims ≤ 3) (n : Nat)
    (hn : 1 ≤ n) (hn2 : n < 10 ^ 8) (tuples : Option (List (List Nat))) (ts : List (List Nat))
    (hts : checkedTuples dims n tuples = .ok ts) (hv : ValidTuples dims n ts) :
    ∃ A, warpAndBlendNodes ext so dims n tuples = .ok A ∧
      ∀ (σ : Equiv.Perm (Fin (dims + 1))) (k k' : Nat) (t t' : List Nat), ts[k]? = some t → ts[k']? = some t' →
        (∀ p : Fin (dims + 1), (fullTuple n t').getD p 0 = (fullTuple n t).getD (σ p) 0) →
        ∀ p : Fin (dims + 1), bary (column A dims k') p = bary (column A dims k) (σ p) := by
  obtain ⟨A, x, B, hA, hx, h0, hmono, hB, hsh, hcol⟩ := warp_main ext hext so dims hd n hn hn2 tuples ts hts hv
  refine ⟨A, hA, ?_⟩
  intro σ k k' t t' ht ht' h p
  rw [bary_of_unitToBarycentric (hcol k t ht), bary_of_unitToBarycentric (hcol k' t' ht'), ← hB.perm]
  congr 1
  funext r
  simp only [tupleCoord, h r, Function.comp]

/-- **C47 (symmetry, default node set).**  With the default tuples the node set is mapped to itself by every relabelling of
the vertices. -/
theorem C47_symmetric_default (ext : Ext) (hext : ext.EighOk) (so : SetOrder) (dims : Nat) (hd : 1 ≤ dims ∧ dims ≤ 3)
    (n : Nat) (hn : 1 ≤ n) (hn2 : n < 10 ^ 8) :
    ∃ A N, warpAndBlendNodes ext so dims n none = .ok A ∧ A.shape = [dims, N] ∧ N = (n + dims).choose dims ∧
      ∀ (σ : Equiv.Perm (Fin (dims + 1))), ∀ k < N, ∃ k' < N,
        ∀ p : Fin (dims + 1), bary (column A dims k') p = bary (column A dims k) (σ p) := by
  obtain ⟨hts, hv⟩ := validTuples_default dims n
  obtain ⟨A, hA, h⟩ := C47_symmetric ext hext so dims hd n hn hn2 none _ hts hv
  obtain ⟨A', x, hA', hsh, -⟩ := C47_edges ext hext so dims hd n hn hn2 none _ hts hv
  rw [hA] at hA'
  injection hA' with hA'
  subst hA'
  refine ⟨A, _, hA, hsh, ?_, ?_⟩
  · rw [nodeTuplesPN, Pytools.length_gnitsam]
  intro σ k hk
  set t := (nodeTuplesPN ⟨dims, n⟩)[k] with ht
  have hvt := hv t (List.getElem_mem hk)
  have hsum := fullTuple_entries hvt.1 hvt.2
  -- the permuted tuple
  let t' : List Nat := List.ofFn fun i : Fin dims => (fullTuple n t).getD (σ i.succ) 0
  have hsum' : (fullTuple n t).getD (σ 0) 0 + t'.sum = n := by
    have e := (Equiv.sum_comp σ fun p : Fin (dims + 1) => (fullTuple n t).getD p 0).trans hsum
    rw [Fin.sum_univ_succ] at e
    rw [List.sum_ofFn]
    exact e
  have hmem : t' ∈ nodeTuplesPN ⟨dims, n⟩ := by
    rw [nodeTuplesPN, Pytools.mem_gnitsam]
    exact ⟨by simp [t'], show t'.sum ≤ n by omega⟩
  obtain ⟨k', hk', e⟩ := List.getElem_of_mem hmem
  refine ⟨k', hk', h σ k k' t t' (by simp [ht, hk]) (by simp [hk', e]) ?_⟩
  intro p
  refine Fin.cases ?_ (fun i => ?_) p
  · simp only [fullTuple, Fin.val_zero, List.getD_cons_zero]
    rw [fullTuple] at hsum'
    omega
  · have : (fullTuple n t').getD (i.succ : Fin (dims + 1)) 0 = t'.getD i 0 := by simp [fullTuple]
    rw [this]
    simp [t', List.getD_eq_getElem?_getD]

theorem sum_replicate_real (n : Nat) (c : ℝ) : (List.replicate n c).sum = n * c := by
  induction n with
  | zero => simp
  | succ n ih => rw [List.replicate_succ, List.sum_cons, ih]; push_cast; ring

theorem centroid_get (d i : Nat) (hi : i < d) : (simplexCentroid d : NdArray ℝ).get [i, 0] = (1 - d) / (d + 1) := by
  have h : ∀ N, ((List.range (N + 1)).map fun k => (((Shape.unitVerticesSimplex d).get [i, k] : Int) : ℝ)).sum =
      -((N : ℝ) + 1) + if i + 1 ≤ N then 2 else 0 := by
    intro N
    induction N with
    | zero => simp [Shape.unitVerticesSimplex]
    | succ N ih =>
      rw [List.range_succ, List.map_append, List.sum_append, ih]
      simp only [List.map_cons, List.map_nil, List.sum_cons, List.sum_nil, add_zero]
      rcases Nat.lt_trichotomy N i with h | h | h
      · rw [if_neg (by omega), if_neg (by omega)]
        have : N ≠ i := by omega
        simp [Shape.unitVerticesSimplex, this]
        ring
      · subst h
        rw [if_neg (by omega), if_pos (by omega)]
        simp [Shape.unitVerticesSimplex]
        ring
      · rw [if_pos (by omega), if_pos (by omega)]
        have : N ≠ i := by omega
        simp [Shape.unitVerticesSimplex, this]
        ring
  simp only [simplexCentroid, List.headD_cons]
  rw [h d, if_pos (by omega)]
  push_cast
  ring

/-- **C47 (degenerate orders and rejections).**  Order zero gives the centroid; dimension four and up is not implemented;
the wrong number of node tuples is a `ValueError`. -/
theorem C47_rejects (ext : Ext) (hext : ext.EighOk) (so : SetOrder) (dims n : Nat) (tuples : Option (List (List Nat))) :
    (∃ A, warpAndBlendNodes ext so dims 0 tuples = .ok A ∧ A.shape = [dims, 1] ∧
      ∀ p ≤ dims, bary (column A dims 0) p = 1 / (dims + 1)) ∧
    (4 ≤ dims → 1 ≤ n → warpAndBlendNodes ext so dims n tuples = .error .NotImplementedError) ∧
    (1 ≤ dims → dims ≤ 3 → 1 ≤ n → ∀ ts : List (List Nat), ts.length ≠ (n + dims).choose dims →
      warpAndBlendNodes ext so dims n (some ts) = .error .ValueError) := by
  refine ⟨?_, ?_, ?_⟩
  · refine ⟨simplexCentroid dims, by simp [warpAndBlendNodes], rfl, ?_⟩
    have hd : (dims : ℝ) + 1 ≠ 0 := by positivity
    have hcol : column (simplexCentroid dims) dims 0 = List.replicate dims ((1 - (dims : ℝ)) / (dims + 1)) := by
      apply List.ext_getElem
      · simp [column]
      · intro i h1 h2
        simp only [column, List.getElem_map, List.getElem_range, List.getElem_replicate]
        exact centroid_get dims i (by simpa using h2)
    intro p hp
    rw [hcol]
    cases p with
    | zero =>
      simp only [bary, List.map_replicate, sum_replicate_real]
      field_simp
      ring
    | succ p =>
      simp only [bary, List.getD_eq_getElem?_getD, List.getElem?_replicate, if_pos (show p < dims by omega),
        Option.getD_some]
      field_simp
      ring
  · intro h h1
    match dims, h with
    | d + 4, _ => simp [warpAndBlendNodes, show n ≠ 0 by omega]
  · intro h1 h3 hn ts hl
    have hchk : checkedTuples dims n (some ts) = .error .ValueError := by
      rw [checkedTuples]
      exact if_pos hl
    obtain rfl | rfl | rfl : dims = 1 ∨ dims = 2 ∨ dims = 3 := by omega
    · obtain ⟨m, rfl⟩ : ∃ m, n = m + 1 := ⟨n - 1, by omega⟩
      obtain ⟨P, x, hok, -⟩ := warpFactor_eq ext hext m
      have hl' : ts.length ≠ m + 1 + 1 := by simpa using hl
      have e : legendreGaussLobattoNodes ext (m + 1) .builtin true = .ok (NdArray.ofFn x).addDimAxis := by
        rw [legendreGaussLobattoNodes, jacobiGaussLobattoNodes, hok]
        simp
      rw [warpAndBlendNodes, if_neg (by omega)]
      simp only [e]
      rw [if_pos hl']
    · rw [warpAndBlendNodes, if_neg (by omega)]
      simp only [warpAndBlend2D, hchk]
    · rw [warpAndBlendNodes, if_neg (by omega)]
      simp only [warpAndBlend3D, hchk]

/-! ## Non-vacuity -/

/-- Orders to which the theorems apply exist, with nodes on edges and in the interior. -/
example : ∃ (ext : Ext) (so : SetOrder) (A : NdArray ℝ), ext.EighOk ∧
    warpAndBlendNodes ext so 2 3 none = .ok A ∧ [1, 1] ∈ nodeTuplesPN ⟨2, 3⟩ ∧
    (∃ k, k < 10 ∧ bary (column A 2 k) 0 = 1 / 3 ∧ bary (column A 2 k) 1 = 1 / 3) := by
  obtain ⟨ext, hext⟩ := exists_eighOk
  let so : SetOrder := ⟨fun i => (i + 1, i + 2), by decide⟩
  obtain ⟨hts, hv⟩ := validTuples_default 2 3
  obtain ⟨A, hA, h⟩ := C47_symmetric ext hext so 2 (by omega) 3 (by omega) (by norm_num) none _ hts hv
  have hk : (nodeTuplesPN ⟨2, 3⟩)[5]? = some [1, 1] := by decide
  refine ⟨ext, so, A, hext, hA, by decide, 5, by omega, ?_⟩
  have h1 := h (Equiv.swap 0 1) 5 5 [1, 1] [1, 1] hk hk (by decide) 0
  have h2 := h (Equiv.swap 1 2) 5 5 [1, 1] [1, 1] hk hk (by decide) 1
  simp only [Equiv.swap_apply_left, Fin.val_zero, Fin.val_one, Fin.val_two] at h1 h2
  have hs : bary (column A 2 5) 0 = 1 - (bary (column A 2 5) 1 + bary (column A 2 5) 2) := by
    simp [bary, column, List.range_succ]
  constructor <;> linarith

end Modepy

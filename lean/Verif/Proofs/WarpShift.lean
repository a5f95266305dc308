import Verif.Proofs.WarpFactor
import Mathlib.Algebra.BigOperators.Fin
import Mathlib.Tactic.FinCases

/-!
# The displacements of the warp and blend nodes in barycentric coordinates
-/

namespace Modepy
open Spec

/-- Strength of the warp along the edge from vertex `j` to vertex `i`, seen from the opposite vertex `k`. -/
noncomputable def edgeC {d : Nat} (W : ℝ → ℝ) (α : ℝ) (l : Fin d → ℝ) (i j k : Fin d) : ℝ :=
  4 * l i * l j * W (l i - l j) * (1 + (α * l k) ^ 2)

theorem edgeC_swap {d : Nat} {W : ℝ → ℝ} (hW : ∀ t, W (-t) = -W t) (α : ℝ) (l : Fin d → ℝ) (i j k : Fin d) :
    edgeC W α l i j k = -edgeC W α l j i k := by
  unfold edgeC
  rw [show l i - l j = -(l j - l i) by ring, hW]
  ring

/-- Displacement of the barycentric coordinates on the triangle. -/
noncomputable def disp2 (W : ℝ → ℝ) (α : ℝ) (l : Fin 3 → ℝ) (p : Fin 3) : ℝ :=
  (∑ q, if q = p then 0 else edgeC W α l p q (-(p + q))) / 2

theorem disp2_sum {W : ℝ → ℝ} (hW : ∀ t, W (-t) = -W t) (α : ℝ) (l : Fin 3 → ℝ) : ∑ p, disp2 W α l p = 0 := by
  have h := edgeC_swap hW α l
  simp only [disp2, Fin.sum_univ_three]
  simp
  rw [h 1 0, h 2 0, h 2 1]
  ring

/-! ## Geometry of the equilateral simplices -/

theorem norm2_eq {d : Nat} (v : Fin d → ℝ) (c : ℝ) (hc : 0 ≤ c) (h : ∑ r, v r ^ 2 = c ^ 2) : norm2 v = c := by
  rw [norm2, h, Real.sqrt_sq hc]

theorem equi2_dist (i j : Fin 3) (h : i ≠ j) : ∑ r, (equiVertex2 i r - equiVertex2 j r) ^ 2 = (2 : ℝ) ^ 2 := by
  have h3 : (√3 : ℝ) ≠ 0 := by positivity
  have q3 : √3 ^ 2 = (3 : ℝ) := Real.sq_sqrt (by norm_num)
  fin_cases i <;> fin_cases j <;> simp [equiVertex2, equilateralVertices] at h ⊢ <;> field_simp <;>
    norm_num

theorem equi3_dist (i j : Fin 4) (h : i ≠ j) : ∑ r, (equiVertex3 i r - equiVertex3 j r) ^ 2 = (4 : ℝ) := by
  have h3 : (√3 : ℝ) ≠ 0 := by positivity
  have h6 : (√6 : ℝ) ≠ 0 := by positivity
  have q3 : √3 ^ 2 = (3 : ℝ) := Real.sq_sqrt (by norm_num)
  have q6 : √6 ^ 2 = (6 : ℝ) := Real.sq_sqrt (by norm_num)
  fin_cases i <;> fin_cases j <;> simp [equiVertex3, equilateralVertices, Fin.sum_univ_three] at h ⊢ <;> ring_nf <;>
    simp only [inv_pow, q3, q6] <;> norm_num

/-! ## The shift on the triangle -/

theorem pick_cases (so : SetOrder) (i : Fin 3) :
    so.pick i = (i + 1, i + 2) ∨ so.pick i = (i + 2, i + 1) := by
  obtain ⟨h1, h2, h3⟩ := so.ok i
  have : ∀ i a b : Fin 3, a ≠ i → b ≠ i → a ≠ b → (a, b) = (i + 1, i + 2) ∨ (a, b) = (i + 2, i + 1) := by decide
  exact this i _ _ h1 h2 h3

theorem shiftStep2D_eq (ext : Ext) (so : SetOrder) (n : Nat) {W : ℝ → ℝ} (hW : ∀ t, W (-t) = -W t)
    (hok : ∀ (k : Nat) (out : Fin k → ℝ), warpFactor ext n out true = .ok fun i => W (out i))
    {m : Nat} (bary : Fin 3 → Fin m → ℝ) (α : ℝ) (res : Fin 2 → Fin m → ℝ) (i : Fin 3) :
    shiftStep2D ext so n bary α (.ok res) i = .ok fun r k => res r k +
      edgeC W α (fun p => bary p k) (i + 1) (i + 2) i * (equiVertex2 (i + 1) r - equiVertex2 (i + 2) r) / 2 := by
  have hne : ∀ i : Fin 3, i + 1 ≠ i + 2 := by decide
  rcases pick_cases so i with h | h
  · simp only [shiftStep2D, h, hok]
    rw [norm2_eq _ 2 (by norm_num) (equi2_dist _ _ (hne i))]
    congr 1
    funext r k
    simp only [edgeC]
    ring
  · simp only [shiftStep2D, h, hok]
    rw [norm2_eq _ 2 (by norm_num) (equi2_dist _ _ (hne i).symm)]
    congr 1
    funext r k
    rw [edgeC_swap hW]
    simp only [edgeC]
    ring

/-- The shift is the displacement of the barycentric coordinates. -/
theorem equilateralShift2D_eq (ext : Ext) (so : SetOrder) (n : Nat) {W : ℝ → ℝ} (hW : ∀ t, W (-t) = -W t)
    (hok : ∀ (k : Nat) (out : Fin k → ℝ), warpFactor ext n out true = .ok fun i => W (out i))
    {m : Nat} (bary : Fin 3 → Fin m → ℝ) (α : ℝ) :
    equilateralShift2D ext so n bary α =
      .ok fun r k => ∑ p, equiVertex2 p r * disp2 W α (fun p => bary p k) p := by
  simp only [equilateralShift2D, List.foldl_cons, List.foldl_nil, shiftStep2D_eq ext so n hW hok]
  congr 1
  funext r k
  have h := edgeC_swap hW α fun p => bary p k
  simp only [disp2, Fin.sum_univ_three]
  simp
  rw [show (-1 : Fin 3) = 2 from rfl, show (-2 : Fin 3) = 1 from rfl, h 0 2, h 1 0, h 2 1]
  ring

/-! ## The shift on the tetrahedron -/

/-- Displacement of the barycentric coordinates caused by the face opposite to vertex `f`. -/
noncomputable def faceDisp (W : ℝ → ℝ) (α : ℝ) (l : Fin 4 → ℝ) (f p : Fin 4) : ℝ :=
  if p = f then 0 else (∑ q, if q = p ∨ q = f then 0 else edgeC W α l p q (2 - f - p - q)) / 2

open Classical in
/-- Blending factor of the face opposite to vertex `f`. -/
noncomputable def faceBlend (α : ℝ) (l : Fin 4 → ℝ) (f : Fin 4) : ℝ :=
  if (∏ q ∈ Finset.univ.erase f, (l q + 0.5 * l f)) > 1e-8 then
    (1 + (α * l f) ^ 2) * (∏ q ∈ Finset.univ.erase f, l q) / ∏ q ∈ Finset.univ.erase f, (l q + 0.5 * l f)
  else ∏ q ∈ Finset.univ.erase f, l q

/-- Condition under which a node counts as lying on the face opposite to vertex `f`. -/
def onFace (l : Fin 4 → ℝ) (f : Fin 4) : Prop :=
  l f < 1e-8 ∧ ∃ q, q ≠ f ∧ 1e-8 < l q

theorem tangents (a b c : Fin 3 → ℝ) (hab : ∑ r, (b r - a r) ^ 2 = 4) (hbc : ∑ r, (c r - b r) ^ 2 = 4)
    (hac : ∑ r, (c r - a r) ^ 2 = 4) :
    norm2 (fun r => b r - a r) = 2 ∧ (∑ s, (b s - a s) / 2 * (c s - b s)) = -1 ∧
      norm2 (fun r => (c r - b r) - -1 * ((b r - a r) / 2)) = √3 := by
  simp only [Fin.sum_univ_three] at hab hbc hac ⊢
  have hdot : (b 0 - a 0) / 2 * (c 0 - b 0) + (b 1 - a 1) / 2 * (c 1 - b 1) + (b 2 - a 2) / 2 * (c 2 - b 2) = -1 := by
    linarith
  refine ⟨norm2_eq _ 2 (by norm_num) ?_, hdot, norm2_eq _ _ (Real.sqrt_nonneg 3) ?_⟩
  · rw [Fin.sum_univ_three, hab]; norm_num
  · rw [Fin.sum_univ_three, Real.sq_sqrt (by norm_num)]
    linarith

theorem faceShift (a b c : ℝ) (d : Fin 3 → ℝ) (hd : ∑ p, d p = 0) :
    (∑ p, equiVertex2 p 0 * d p) * ((b - a) / 2) +
      (∑ p, equiVertex2 p 1 * d p) * (((c - b) - -1 * ((b - a) / 2)) / √3) = a * d 0 + b * d 1 + c * d 2 := by
  have h3 : (√3 : ℝ) ≠ 0 := by positivity
  have q3 : √3 ^ 2 = (3 : ℝ) := Real.sq_sqrt (by norm_num)
  have e : d 0 = -d 1 - d 2 := by rw [Fin.sum_univ_three] at hd; linarith
  simp [Fin.sum_univ_three, equiVertex2, equilateralVertices, e]
  field_simp
  rw [q3]
  ring

theorem faceDisp_sub (W : ℝ → ℝ) (α : ℝ) (l : Fin 4 → ℝ) (f : Fin 4) (g : Fin 4 → ℝ) :
    ∑ q, g q * faceDisp W α l f q =
      g (f + 1) * disp2 W α ![l (f + 1), l (f + 2), l (f + 3)] 0 + g (f + 2) * disp2 W α ![l (f + 1), l (f + 2), l (f + 3)] 1 +
        g (f + 3) * disp2 W α ![l (f + 1), l (f + 2), l (f + 3)] 2 := by
  have h1 : (-1 : Fin 3) = 2 := rfl
  have h2 : (-2 : Fin 3) = 1 := rfl
  have k1 : (-1 : Fin 4) = 3 := rfl
  have k3 : (-3 : Fin 4) = 1 := rfl
  have k4 : (3 - 3 : Fin 4) = 0 := rfl
  have k5 : (1 - 1 : Fin 4) = 0 := rfl
  fin_cases f <;> simp [faceDisp, disp2, Fin.sum_univ_three, Fin.sum_univ_four, edgeC, h1, h2, k1, k3] <;> ring

theorem prod_erase_four (f : Fin 4) (g : Fin 4 → ℝ) :
    ∏ q ∈ Finset.univ.erase f, g q = g (f + 1) * g (f + 2) * g (f + 3) := by
  have h : ∀ f : Fin 4, Finset.univ.erase f = {f + 1, f + 2, f + 3} := by decide
  have h1 : ∀ f : Fin 4, f + 1 ∉ ({f + 2, f + 3} : Finset (Fin 4)) := by decide
  have h2 : ∀ f : Fin 4, f + 2 ∉ ({f + 3} : Finset (Fin 4)) := by decide
  rw [h, Finset.prod_insert (h1 f), Finset.prod_insert (h2 f), Finset.prod_singleton, mul_assoc]

theorem onFace_iff (l : Fin 4 → ℝ) (f : Fin 4) :
    onFace l f ↔ l f < 1e-8 ∧ (l (f + 1) > 1e-8 ∨ l (f + 2) > 1e-8 ∨ l (f + 3) > 1e-8) := by
  have h : ∀ q f : Fin 4, q ≠ f → q = f + 1 ∨ q = f + 2 ∨ q = f + 3 := by decide
  have h1 : ∀ f : Fin 4, f + 1 ≠ f ∧ f + 2 ≠ f ∧ f + 3 ≠ f := by decide
  rw [onFace]
  refine and_congr_right fun _ => ⟨?_, ?_⟩
  · rintro ⟨q, hq, hl⟩
    rcases h q f hq with rfl | rfl | rfl
    · exact Or.inl hl
    · exact Or.inr (Or.inl hl)
    · exact Or.inr (Or.inr hl)
  · rintro (hl | hl | hl)
    · exact ⟨_, (h1 f).1, hl⟩
    · exact ⟨_, (h1 f).2.1, hl⟩
    · exact ⟨_, (h1 f).2.2, hl⟩

open Classical in
theorem shiftStep3D_eq (ext : Ext) (so : SetOrder) (n : Nat) {W : ℝ → ℝ} (hW : ∀ t, W (-t) = -W t)
    (hok : ∀ (k : Nat) (out : Fin k → ℝ), warpFactor ext n out true = .ok fun i => W (out i))
    {m : Nat} (bary : Fin 4 → Fin m → ℝ) (α : ℝ) (s : Fin 3 → Fin m → ℝ) (f : Fin 4) :
    shiftStep3D ext so n bary α (.ok s) (f, f + 1, f + 2, f + 3) = .ok fun r k =>
      if onFace (fun p => bary p k) f then ∑ q, equiVertex3 q r * faceDisp W α (fun p => bary p k) f q
      else s r k + faceBlend α (fun p => bary p k) f *
        ∑ q, equiVertex3 q r * faceDisp W α (fun p => bary p k) f q := by
  have hv1 : ∀ f : Fin 4, faceVertex f 1 = f + 3 := by decide
  have hv2 : ∀ f : Fin 4, faceVertex f 2 = f + 2 := by decide
  have hv3 : ∀ f : Fin 4, faceVertex f 3 = f + 1 := by decide
  have n21 : ∀ f : Fin 4, f + 2 ≠ f + 1 := by decide
  have n32 : ∀ f : Fin 4, f + 3 ≠ f + 2 := by decide
  have n31 : ∀ f : Fin 4, f + 3 ≠ f + 1 := by decide
  obtain ⟨t1, t2, t3⟩ := tangents (equiVertex3 (f + 1)) (equiVertex3 (f + 2)) (equiVertex3 (f + 3))
    (equi3_dist _ _ (n21 f)) (equi3_dist _ _ (n32 f)) (equi3_dist _ _ (n31 f))
  have hsub : ∀ (r : Fin 3) (k : Fin m), ∑ q, equiVertex3 q r * faceDisp W α (fun p => bary p k) f q =
      (∑ p, equiVertex2 p 0 * disp2 W α (fun p => ![bary (f + 1), bary (f + 2), bary (f + 3)] p k) p) *
          ((equiVertex3 (f + 2) r - equiVertex3 (f + 1) r) / 2) +
        (∑ p, equiVertex2 p 1 * disp2 W α (fun p => ![bary (f + 1), bary (f + 2), bary (f + 3)] p k) p) *
          ((equiVertex3 (f + 3) r - equiVertex3 (f + 2) r -
            -1 * ((equiVertex3 (f + 2) r - equiVertex3 (f + 1) r) / 2)) / √3) := by
    intro r k
    rw [faceShift _ _ _ _ (disp2_sum hW α _), faceDisp_sub W α (fun p => bary p k) f fun q => equiVertex3 q r]
    have e : (fun p => ![bary (f + 1), bary (f + 2), bary (f + 3)] p k) =
        ![bary (f + 1) k, bary (f + 2) k, bary (f + 3) k] := by
      funext p
      fin_cases p <;> rfl
    rw [e]
  simp only [shiftStep3D, hv1, hv2, hv3, equilateralShift2D_eq ext so n hW hok, t1, t2, t3]
  congr 1
  funext r k
  have hf := onFace_iff (fun p => bary p k) f
  by_cases h : onFace (fun p => bary p k) f
  · rw [if_pos h, if_pos (hf.1 h), hsub]
  · rw [if_neg h, if_neg fun hh => h (hf.2 hh), hsub, faceBlend, prod_erase_four, prod_erase_four]
    by_cases hd : (bary (f + 1) k + 0.5 * bary f k) * (bary (f + 2) k + 0.5 * bary f k) *
        (bary (f + 3) k + 0.5 * bary f k) > 1e-8
    · rw [if_pos hd]
      ring
    · rw [if_neg hd]
      ring

/-- A face node keeps the displacement of its face through the loop. -/
theorem faceBlend_zero (α : ℝ) (l : Fin 4 → ℝ) (f g : Fin 4) (h : g ≠ f) (hg : l g = 0) : faceBlend α l f = 0 := by
  have hp : ∏ q ∈ Finset.univ.erase f, l q = 0 := Finset.prod_eq_zero (Finset.mem_erase.2 ⟨h, Finset.mem_univ g⟩) hg
  rw [faceBlend, hp]
  simp

theorem faceDisp_eq_of_zero (W : ℝ → ℝ) (α : ℝ) (l : Fin 4 → ℝ) (f g : Fin 4) (hf : l f = 0) (hg : l g = 0)
    (p : Fin 4) : faceDisp W α l f p = faceDisp W α l g p := by
  have hz : ∀ p q k, l p = 0 ∨ l q = 0 → edgeC W α l p q k = 0 := by
    rintro p q k (h | h) <;> simp [edgeC, h]
  by_cases hp : l p = 0
  · simp [faceDisp, hz p _ _ (Or.inl hp)]
  have hpf : p ≠ f := fun h => hp (h ▸ hf)
  have hpg : p ≠ g := fun h => hp (h ▸ hg)
  rw [faceDisp, faceDisp, if_neg hpf, if_neg hpg]
  congr 1
  refine Finset.sum_congr rfl fun q _ => ?_
  by_cases hq : l q = 0
  · simp [hz p _ _ (Or.inr hq)]
  have hqf : q ≠ f := fun h => hq (h ▸ hf)
  have hqg : q ≠ g := fun h => hq (h ▸ hg)
  by_cases hqp : q = p
  · simp [hqp]
  rw [if_neg (by tauto), if_neg (by tauto)]
  by_cases hfg : f = g
  · rw [hfg]
  have h1 : ∀ f g p q : Fin 4, p ≠ f → p ≠ g → q ≠ f → q ≠ g → q ≠ p → f ≠ g → 2 - f - p - q = g ∧ 2 - g - p - q = f := by
    decide
  obtain ⟨e1, e2⟩ := h1 f g p q hpf hpg hqf hqg hqp hfg
  rw [e1, e2, edgeC, edgeC, hf, hg]

open Classical in
/-- Displacement of the barycentric coordinates on the tetrahedron. -/
noncomputable def disp3 (W : ℝ → ℝ) (α : ℝ) (l : Fin 4 → ℝ) (p : Fin 4) : ℝ :=
  if h : ∃ f, l f = 0 then faceDisp W α l h.choose p else ∑ f, faceBlend α l f * faceDisp W α l f p

/-- The shift computed by the loop, for coordinates that vanish or exceed the tolerance. -/
theorem shift3D_eq (ext : Ext) (so : SetOrder) (n : Nat) {W : ℝ → ℝ} (hW : ∀ t, W (-t) = -W t)
    (hok : ∀ (k : Nat) (out : Fin k → ℝ), warpFactor ext n out true = .ok fun i => W (out i))
    {m : Nat} (bary : Fin 4 → Fin m → ℝ) (α : ℝ)
    (htol : ∀ k p, bary p k = 0 ∨ 1e-8 < bary p k) (hex : ∀ k, ∃ p, bary p k ≠ 0) :
    facePick.foldl (shiftStep3D ext so n bary α) (.ok fun _ _ => 0) =
      .ok fun r k => ∑ q, equiVertex3 q r * disp3 W α (fun p => bary p k) q := by
  have hpick : facePick = ([0, 1, 2, 3] : List (Fin 4)).map fun f => (f, f + 1, f + 2, f + 3) := by decide
  rw [hpick]
  simp only [List.map_cons, List.map_nil, List.foldl_cons, List.foldl_nil, shiftStep3D_eq ext so n hW hok]
  congr 1
  funext r k
  set l : Fin 4 → ℝ := fun p => bary p k with hl
  have hon : ∀ f, onFace l f ↔ l f = 0 := by
    intro f
    constructor
    · rintro ⟨h, -⟩
      rcases htol k f with h' | h'
      · exact h'
      · exact absurd h (not_lt.2 h'.le)
    · intro h
      obtain ⟨p, hp⟩ := hex k
      refine ⟨by rw [h]; norm_num, p, ?_, ?_⟩
      · rintro rfl; exact hp h
      · rcases htol k p with h' | h'
        · exact absurd h' hp
        · exact h'
  by_cases h : ∃ f, l f = 0
  · have hd : ∀ f, l f = 0 → ∀ p, disp3 W α l p = faceDisp W α l f p := by
      intro f hf p
      rw [disp3, dif_pos h]
      exact faceDisp_eq_of_zero W α l _ f h.choose_spec hf p
    simp only [hon]
    have hb : ∀ f g, l g = 0 → l f ≠ 0 → faceBlend α l f = 0 := fun f g hg hf =>
      faceBlend_zero α l f g (fun e => hf (e ▸ hg)) hg
    by_cases h3 : l 3 = 0
    · rw [if_pos h3]
      simp only [hd 3 h3]
    rw [if_neg h3]
    by_cases h2 : l 2 = 0
    · rw [if_pos h2, hb 3 2 h2 h3]
      simp only [hd 2 h2, zero_mul, add_zero]
    rw [if_neg h2]
    by_cases h1 : l 1 = 0
    · rw [if_pos h1, hb 3 1 h1 h3, hb 2 1 h1 h2]
      simp only [hd 1 h1, zero_mul, add_zero]
    rw [if_neg h1]
    have h0 : l 0 = 0 := by
      obtain ⟨f, hf⟩ := h
      fin_cases f
      · exact hf
      · exact absurd hf h1
      · exact absurd hf h2
      · exact absurd hf h3
    rw [if_pos h0, hb 3 0 h0 h3, hb 2 0 h0 h2, hb 1 0 h0 h1]
    simp only [hd 0 h0, zero_mul, add_zero]
  · have hne : ∀ f, ¬ onFace l f := fun f hf => h ⟨f, (hon f).1 hf⟩
    simp only [if_neg (hne _), disp3, dif_neg h, zero_add]
    simp only [Fin.sum_univ_four]
    ring

theorem disp3_sum {W : ℝ → ℝ} (hW : ∀ t, W (-t) = -W t) (α : ℝ) (l : Fin 4 → ℝ) : ∑ p, disp3 W α l p = 0 := by
  have hf : ∀ f, ∑ p, faceDisp W α l f p = 0 := by
    intro f
    have := faceDisp_sub W α l f fun _ => 1
    simp only [one_mul] at this
    rw [this]
    have h := disp2_sum hW α ![l (f + 1), l (f + 2), l (f + 3)]
    rwa [Fin.sum_univ_three] at h
  by_cases h : ∃ f, l f = 0
  · simp only [disp3, dif_pos h]
    exact hf _
  · simp only [disp3, dif_neg h]
    rw [Finset.sum_comm]
    refine Finset.sum_eq_zero fun f _ => ?_
    rw [← Finset.mul_sum, hf, mul_zero]

/-! ## Symmetry -/

theorem edgeC_perm {d : Nat} (W : ℝ → ℝ) (α : ℝ) (l : Fin d → ℝ) (σ : Equiv.Perm (Fin d)) (i j k : Fin d) :
    edgeC W α (l ∘ σ) i j k = edgeC W α l (σ i) (σ j) (σ k) := rfl

theorem disp2_perm (W : ℝ → ℝ) (α : ℝ) (l : Fin 3 → ℝ) (σ : Equiv.Perm (Fin 3)) (p : Fin 3) :
    disp2 W α (l ∘ σ) p = disp2 W α l (σ p) := by
  have h : ∀ (σ : Equiv.Perm (Fin 3)) (p q : Fin 3), q ≠ p → σ (-(p + q)) = -(σ p + σ q) := by decide
  rw [disp2, disp2]
  refine congrArg (· / 2) ((Finset.sum_congr rfl fun q _ => ?_).trans
    (Equiv.sum_comp σ fun q => if q = σ p then 0 else edgeC W α l (σ p) q (-(σ p + q))))
  by_cases hq : q = p
  · rw [if_pos hq, if_pos (by rw [hq])]
  · rw [if_neg hq, if_neg fun e => hq (σ.injective e), edgeC_perm, h σ p q hq]

theorem third_perm : ∀ (σ : Equiv.Perm (Fin 4)) (f p q : Fin 4), p ≠ f → q ≠ p → q ≠ f →
    σ (2 - f - p - q) = 2 - σ f - σ p - σ q := by
  have h3 : ∀ f p q : Fin 4, p ≠ f → q ≠ p → q ≠ f →
      ∀ x : Fin 4, (x ≠ f ∧ x ≠ p ∧ x ≠ q) ↔ x = 2 - f - p - q := by decide
  intro σ f p q h1 h2 h4
  refine (h3 (σ f) (σ p) (σ q) (fun e => h1 (σ.injective e)) (fun e => h2 (σ.injective e))
    (fun e => h4 (σ.injective e)) _).1 ?_
  obtain ⟨a, b, c⟩ := (h3 f p q h1 h2 h4 (2 - f - p - q)).2 rfl
  exact ⟨fun e => a (σ.injective e), fun e => b (σ.injective e), fun e => c (σ.injective e)⟩

theorem faceDisp_perm (W : ℝ → ℝ) (α : ℝ) (l : Fin 4 → ℝ) (σ : Equiv.Perm (Fin 4)) (f p : Fin 4) :
    faceDisp W α (l ∘ σ) f p = faceDisp W α l (σ f) (σ p) := by
  by_cases hpf : p = f
  · rw [faceDisp, faceDisp, if_pos hpf, if_pos (by rw [hpf])]
  rw [faceDisp, faceDisp, if_neg hpf, if_neg fun e => hpf (σ.injective e)]
  refine congrArg (· / 2) ((Finset.sum_congr rfl fun q _ => ?_).trans
    (Equiv.sum_comp σ fun q => if q = σ p ∨ q = σ f then 0 else edgeC W α l (σ p) q (2 - σ f - σ p - q)))
  by_cases hq : q = p ∨ q = f
  · rw [if_pos hq, if_pos (hq.imp (congrArg σ) (congrArg σ))]
  · have hq' := hq
    rw [not_or] at hq'
    rw [if_neg hq, if_neg fun e => hq (e.imp (fun e => σ.injective e) fun e => σ.injective e), edgeC_perm,
      third_perm σ f p q hpf hq'.1 hq'.2]

theorem prod_erase_perm (g : Fin 4 → ℝ) (σ : Equiv.Perm (Fin 4)) (f : Fin 4) :
    ∏ q ∈ Finset.univ.erase f, g (σ q) = ∏ q ∈ Finset.univ.erase (σ f), g q := by
  refine Finset.prod_bij (fun q _ => σ q) ?_ ?_ ?_ ?_
  · intro q hq
    exact Finset.mem_erase.2 ⟨fun e => (Finset.mem_erase.1 hq).1 (σ.injective e), Finset.mem_univ _⟩
  · intro a _ b _ e
    exact σ.injective e
  · intro b hb
    refine ⟨σ.symm b, Finset.mem_erase.2 ⟨?_, Finset.mem_univ _⟩, by simp⟩
    rintro e
    exact (Finset.mem_erase.1 hb).1 (by rw [← e]; simp)
  · intro a _
    rfl

theorem faceBlend_perm (α : ℝ) (l : Fin 4 → ℝ) (σ : Equiv.Perm (Fin 4)) (f : Fin 4) :
    faceBlend α (l ∘ σ) f = faceBlend α l (σ f) := by
  simp only [faceBlend, Function.comp]
  rw [prod_erase_perm (fun q => l q + 0.5 * l (σ f)) σ f, prod_erase_perm l σ f]

theorem disp3_perm (W : ℝ → ℝ) (α : ℝ) (l : Fin 4 → ℝ) (σ : Equiv.Perm (Fin 4)) (p : Fin 4) :
    disp3 W α (l ∘ σ) p = disp3 W α l (σ p) := by
  by_cases h : ∃ f, l f = 0
  · have h' : ∃ f, (l ∘ σ) f = 0 := by
      obtain ⟨f, hf⟩ := h
      exact ⟨σ.symm f, by simpa using hf⟩
    rw [disp3, disp3, dif_pos h, dif_pos h', faceDisp_perm]
    exact faceDisp_eq_of_zero W α l _ _ h'.choose_spec h.choose_spec _
  · have h' : ¬ ∃ f, (l ∘ σ) f = 0 := by
      rintro ⟨f, hf⟩
      exact h ⟨σ f, hf⟩
    rw [disp3, disp3, dif_neg h, dif_neg h']
    refine (Finset.sum_congr rfl fun f _ => ?_).trans
      (Equiv.sum_comp σ fun f => faceBlend α l f * faceDisp W α l f (σ p))
    rw [faceBlend_perm, faceDisp_perm]

end Modepy

import Verif.Proofs.BaryPoly
import Verif.Proofs.BasisSpan
import Verif.Proofs.FormZero
import Verif.Props.DiffPermutation
import Verif.Props.WarpBlend

/-!
# Warp & blend nodes of orders three to five determine polynomials
-/

namespace Modepy
open Spec NdArray MvPolynomial

/-- The node map of an order gives points as `form_zero` needs them. -/
theorem WarpMap.facePoints {d n : Nat} (hn : 1 ≤ n) {x : Fin (n + 1) → ℝ} {B : (Fin (d + 1) → ℝ) → Fin (d + 1) → ℝ}
    (hB : WarpMap d n x B) (hx : StrictMono x) : FacePoints (d + 1) n fun a => B fun p => (a p : ℝ) / n := by
  have hn0 : (n : ℝ) ≠ 0 := by have : 0 < n := hn; positivity
  have hz : ∀ (a : Fin (d + 1) → ℕ) p, a p = 0 → (a p : ℝ) / n = 0 := fun a p h => by rw [h]; simp
  refine ⟨fun a p h => hB.face _ p (hz a p h), fun a h => ?_, fun a σ p => hB.perm (fun p => (a p : ℝ) / n) σ p, ?_, ?_, ?_, ?_, ?_⟩
  · rw [hB.sum, ← Finset.sum_div, ← Nat.cast_sum, h, div_self hn0]
  · refine ⟨fun i => (1 + x i) / 2, fun i j h => hx.injective (by simp only at h; linarith), ?_⟩
    intro a i p q hpq hp hq hr
    exact hB.edge i (n - i) (by have := i.2; omega) _ p q hpq (by simp only [hp]) (by simp only [hq])
      fun r h1 h2 => hz a r (hr r h1 h2)
  · rintro rfl a p q r h1 h2 h3 a1 a2 a3 h0
    refine And.imp_right (lt_of_le_of_lt · (by norm_num)) (hB.inner.four rfl _ p q r h1 h2 h3 (by simp only [a1]; norm_num)
      (by simp only [a2]; norm_num) (by simp only [a3]; norm_num) fun s e1 e2 e3 => hz a s (h0 s e1 e2 e3))
  · rintro rfl a p q r h1 h2 h3 a1 a2 a3 h0
    refine And.imp_right (lt_of_le_of_lt · (by norm_num)) (hB.inner.five rfl _ p q r h1 h2 h3 (by simp only [a1]; norm_num)
      (by simp only [a2]; norm_num) (by simp only [a3]; norm_num) fun s e1 e2 e3 => hz a s (h0 s e1 e2 e3))
  · rintro rfl a p q r h1 h2 h3 a1 a2 a3 h0
    exact hB.inner.pair rfl _ p q r h1 h2 h3 (by simp only [a1]; norm_num) (by simp only [a2]; norm_num)
      (by simp only [a3]; norm_num) fun s e1 e2 e3 => hz a s (h0 s e1 e2 e3)
  · rintro rfl a p q r s h1 h2 h3 h4 h5 h6 a1 a2 a3 a4 h0
    refine And.imp_right (lt_of_le_of_lt · (by norm_num)) (hB.inner.body rfl _ p q r s h1 h2 h3 h4 h5 h6
      (by simp only [a1]; norm_num) (by simp only [a2]; norm_num) (by simp only [a3]; norm_num)
      (by simp only [a4]; norm_num) fun u e1 e2 e3 e4 => hz a u (h0 u e1 e2 e3 e4))

theorem baryFin_of_unitToBarycentric {d : Nat} {y : List ℝ} {b : Fin (d + 1) → ℝ} (h : unitToBarycentric y = List.ofFn b) :
    y.length = d ∧ baryFin (fun i : Fin d => y.getD i 0) = b := by
  have hlen : y.length = d := by
    have := congrArg List.length h
    simpa [unitToBarycentric, -List.ofFn_succ] using this
  refine ⟨hlen, ?_⟩
  have hs : ∀ i : Fin d, (1 + y.getD i 0) / 2 = b i.succ := by
    intro i
    have := bary_of_unitToBarycentric h i.succ
    rw [← this]
    simp [bary, List.getD_eq_getElem?_getD, hlen]
  have hsum : ∑ j, b j = 1 := by
    rw [← List.sum_ofFn, ← h]
    simp [unitToBarycentric]
  funext j
  refine Fin.cases ?_ (fun i => ?_) j
  · simp only [baryFin, Fin.cons_zero, hs]
    rw [Fin.sum_univ_succ] at hsum
    linarith
  · simp only [baryFin, Fin.cons_succ, hs]

/-- Warp & blend nodes of orders three to five on triangle and tetrahedron determine the polynomials of the space. -/
theorem warp_unisolvent (ext : Ext) (hext : ext.EighOk) (so : SetOrder) (d n : Nat) (hd : d = 2 ∨ d = 3)
    (hn : n = 3 ∨ n = 4 ∨ n = 5) (A : NdArray ℝ) (hA : warpAndBlendNodes ext so d n none = .ok A) :
    Unisolvent (fun (j : Fin (nodeTuples (.pn ⟨d, n⟩)).length) => monomialValue (nodeTuples (.pn ⟨d, n⟩))[j])
      (fun (i : Fin (nodeTuples (.pn ⟨d, n⟩)).length) => column A d i) := by
  have hn1 : 1 ≤ n := by omega
  obtain ⟨hts, hv⟩ := validTuples_default d n
  obtain ⟨A', x, B, hA', -, -, hmono, hB, -, hcol⟩ :=
    warp_main ext hext so d (by omega) n hn1 (by omega) none _ hts hv
  rw [hA] at hA'
  injection hA' with e
  subst e
  intro c hc
  let P : MvPolynomial (Fin d) ℝ := ∑ j, MvPolynomial.monomial (expo d (nodeTuples (.pn ⟨d, n⟩))[j]) (c j)
  have hmem : ∀ j : Fin (nodeTuples (.pn ⟨d, n⟩)).length, (nodeTuples (.pn ⟨d, n⟩))[j].length = d ∧
      (nodeTuples (.pn ⟨d, n⟩))[j].sum ≤ n := fun j => (C01_mem d n _).1 (List.getElem_mem _)
  have hP : ∀ y : List ℝ, y.length = d → eval (fun i : Fin d => y.getD i 0) P =
      combine (fun j : Fin (nodeTuples (.pn ⟨d, n⟩)).length => monomialValue (nodeTuples (.pn ⟨d, n⟩))[j]) c y := by
    intro y hy
    rw [map_sum, combine]
    refine Finset.sum_congr rfl fun j _ => ?_
    rw [eval_monomial, Finsupp.prod_fintype _ _ (by simp), prod_pow_eq_monomialValue _ y (hmem j).1 hy]
  have hdeg : P.totalDegree ≤ n := by
    refine (totalDegree_finset_sum _ _).trans (Finset.sup_le fun j _ => ?_)
    refine (totalDegree_monomial_le _ _).trans ?_
    rw [Finsupp.sum_fintype _ _ (by simp)]
    obtain ⟨h1, h2⟩ := hmem j
    refine le_trans (le_of_eq ?_) h2
    generalize (nodeTuples (.pn ⟨d, n⟩))[j] = t at h1
    subst h1
    have e : t = List.ofFn fun i : Fin t.length => t[i] := by simp
    conv_rhs => rw [e]
    rw [List.sum_ofFn]
    refine Finset.sum_congr rfl fun i _ => ?_
    simp [expo, List.getD_eq_getElem?_getD]
  have hF := baryForm_homogeneous P hdeg
  have hzero : baryForm n P = 0 := by
    refine form_zero (by omega) hn (hB.facePoints hn1 hmono) hF fun a ha => ?_
    -- the node of this multi-index
    let t : List Nat := List.ofFn fun i : Fin d => a i.succ
    have hsum : a 0 + t.sum = n := by rw [List.sum_ofFn, ← ha, Fin.sum_univ_succ]
    have ht : t ∈ nodeTuples (.pn ⟨d, n⟩) := (C01_mem d n t).2 ⟨by simp [t], by omega⟩
    obtain ⟨k, hk, hkt⟩ := List.getElem_of_mem ht
    have hcoord : tupleCoord d n t = fun p => (a p : ℝ) / n := by
      funext p
      rw [tupleCoord]
      congr 2
      refine Fin.cases ?_ (fun i => ?_) p
      · simp only [fullTuple, Fin.val_zero, List.getD_cons_zero]
        omega
      · simp [fullTuple, t, List.getD_eq_getElem?_getD]
    have hb := hcol k t (by rw [List.getElem?_eq_some_iff]; exact ⟨hk, hkt⟩)
    rw [hcoord] at hb
    obtain ⟨hl, hbf⟩ := baryFin_of_unitToBarycentric hb
    have e := hP _ hl
    rw [hc ⟨k, hk⟩] at e
    rw [← hbf, eval_baryForm]
    exact e
  obtain ⟨A', -, hu⟩ := C62_pn d n
  refine hu c fun i => ?_
  have hl : (column A' d i).length = d := by simp [column]
  rw [← hP _ hl, ← eval_baryForm (d := n), hzero, map_zero]

end Modepy

import Mathlib.RingTheory.MvPolynomial.Homogeneous
import Mathlib.Algebra.MvPolynomial.Eval
import Mathlib.Data.Real.Basic
import Mathlib.LinearAlgebra.Vandermonde
import Mathlib.Tactic.LinearCombination
import Mathlib.Tactic.Linarith
import Mathlib.Tactic.IntervalCases

/-!
# Homogeneous polynomials vanishing at points with the symmetry of the warp & blend nodes
-/

namespace Modepy
open MvPolynomial

/-- The monomial with exponents `α` at `v`. -/
noncomputable def monAt {k : Nat} (v : Fin k → ℝ) (α : Fin k →₀ ℕ) : ℝ := ∏ i, v i ^ α i

theorem monAt_add {k : Nat} (v : Fin k → ℝ) (α β : Fin k →₀ ℕ) : monAt v (α + β) = monAt v α * monAt v β := by
  simp only [monAt, Finsupp.add_apply, pow_add, Finset.prod_mul_distrib]

theorem monAt_single {k : Nat} (v : Fin k → ℝ) (p : Fin k) (m : Nat) : monAt v (Finsupp.single p m) = v p ^ m := by
  classical
  rw [monAt, Finset.prod_eq_single p]
  · simp
  · intro i _ hi
    simp [Ne.symm hi]
  · intro h; exact absurd (Finset.mem_univ _) h

/-- A polynomial at a point where only the monomials of `E` can contribute. -/
theorem eval_explicit {k : Nat} (F : MvPolynomial (Fin k) ℝ) (E : Finset (Fin k →₀ ℕ)) (v : Fin k → ℝ)
    (h : ∀ α, coeff α F ≠ 0 → α ∉ E → ∃ i, α i ≠ 0 ∧ v i = 0) :
    eval v F = ∑ α ∈ E, coeff α F * monAt v α := by
  classical
  rw [eval_eq']
  have h1 : ∑ α ∈ F.support, coeff α F * ∏ i, v i ^ α i = ∑ α ∈ F.support ∩ E, coeff α F * monAt v α := by
    refine (Finset.sum_subset Finset.inter_subset_left fun α hα hn => ?_).symm
    obtain ⟨i, hi, hv⟩ := h α (mem_support_iff.1 hα) fun hE => hn (Finset.mem_inter.2 ⟨hα, hE⟩)
    rw [Finset.prod_eq_zero (Finset.mem_univ i) (by rw [hv, zero_pow hi]), mul_zero]
  rw [h1]
  refine Finset.sum_subset Finset.inter_subset_right fun α hα hn => ?_
  have : coeff α F = 0 := notMem_support_iff.1 fun hs => hn (Finset.mem_inter.2 ⟨hs, hα⟩)
  rw [this, zero_mul]

/-- The exponents of a homogeneous polynomial add up to its degree. -/
theorem sum_of_coeff {k n : Nat} {F : MvPolynomial (Fin k) ℝ} (hF : F.IsHomogeneous n) {α : Fin k →₀ ℕ}
    (h : coeff α F ≠ 0) : ∑ i, α i = n := by
  have := hF h
  rw [Finsupp.weight_apply, Finsupp.sum_fintype _ _ (by simp)] at this
  simpa using this

/-- A form in two variables vanishing at enough points of the segment has no coefficients. -/
theorem segment_zero {n : Nat} (c t : Fin (n + 1) → ℝ) (ht : Function.Injective t)
    (h : ∀ j, ∑ i : Fin (n + 1), c i * (t j ^ (i : ℕ) * (1 - t j) ^ (n - i)) = 0) : c = 0 := by
  let P : Polynomial ℝ := ∑ i : Fin (n + 1), Polynomial.C (c i) * (Polynomial.X ^ (i : ℕ) * (1 - Polynomial.X) ^ (n - i))
  have hdeg : P.natDegree ≤ n := by
    refine Polynomial.natDegree_sum_le_of_forall_le _ _ fun i _ => ?_
    refine (Polynomial.natDegree_C_mul_le _ _).trans ((Polynomial.natDegree_mul_le).trans ?_)
    have h2 : ((1 - Polynomial.X : Polynomial ℝ) ^ (n - (i : ℕ))).natDegree ≤ n - i := by
      refine (Polynomial.natDegree_pow_le).trans ?_
      have : (1 - Polynomial.X : Polynomial ℝ).natDegree ≤ 1 :=
        (Polynomial.natDegree_sub_le _ _).trans (by simp)
      calc (n - (i : ℕ)) * (1 - Polynomial.X : Polynomial ℝ).natDegree ≤ (n - i) * 1 := Nat.mul_le_mul_left _ this
        _ = n - i := mul_one _
    rw [Polynomial.natDegree_X_pow]
    have := i.2
    omega
  have heval : ∀ s, P.eval s = ∑ i : Fin (n + 1), c i * (s ^ (i : ℕ) * (1 - s) ^ (n - i)) := by
    intro s
    rw [Polynomial.eval_finsetSum]
    simp
  have hP : P = 0 :=
    Polynomial.eq_zero_of_natDegree_lt_card_of_eval_eq_zero P ht (fun j => (heval _).trans (h j))
      (by rw [Fintype.card_fin]; omega)
  refine Matrix.eq_zero_of_forall_index_sum_mul_pow_eq_zero (f := fun j : Fin (n + 1) => ((j : ℕ) : ℝ))
    (fun a b hab => Fin.ext (Nat.cast_injective (R := ℝ) hab)) fun j => ?_
  have h1 : (1 : ℝ) + ((j : ℕ) : ℝ) ≠ 0 := by positivity
  have e := heval (((j : ℕ) : ℝ) / (1 + ((j : ℕ) : ℝ)))
  rw [hP, Polynomial.eval_zero] at e
  have e2 : (∑ i : Fin (n + 1), c i * ((j : ℕ) : ℝ) ^ (i : ℕ)) = (1 + ((j : ℕ) : ℝ)) ^ n * 0 := by
    rw [e, Finset.mul_sum]
    refine Finset.sum_congr rfl fun i _ => ?_
    have e3 : (1 : ℝ) - ((j : ℕ) : ℝ) / (1 + ((j : ℕ) : ℝ)) = 1 / (1 + ((j : ℕ) : ℝ)) := by field_simp; ring
    have e4 : (1 + ((j : ℕ) : ℝ)) ^ n = (1 + ((j : ℕ) : ℝ)) ^ (i : ℕ) * (1 + ((j : ℕ) : ℝ)) ^ (n - i) := by
      rw [← pow_add]; congr 1; have := i.2; omega
    rw [e3, e4, div_pow, div_pow, one_pow]
    field_simp
  rw [e2, mul_zero]

/-- Points attached to the multi-indices of sum `n`, as far as the argument needs to know them. -/
structure FacePoints (k n : Nat) (b : (Fin k → ℕ) → Fin k → ℝ) : Prop where
  face : ∀ a p, a p = 0 → b a p = 0
  sum : ∀ a, ∑ p, a p = n → ∑ p, b a p = 1
  perm : ∀ a (σ : Equiv.Perm (Fin k)) p, b (a ∘ σ) p = b a (σ p)
  edge : ∃ t : Fin (n + 1) → ℝ, Function.Injective t ∧ ∀ (a : Fin k → ℕ) (i : Fin (n + 1)) (p q : Fin k), p ≠ q → a p = (i : ℕ) → a q = n - i →
    (∀ r, r ≠ p → r ≠ q → a r = 0) → b a p = t i
  inner4 : n = 4 → ∀ a p q r, p ≠ q → p ≠ r → q ≠ r → a p = 2 → a q = 1 → a r = 1 →
    (∀ s, s ≠ p → s ≠ q → s ≠ r → a s = 0) → 1 / 2 ≤ b a p ∧ b a p < 1
  inner5 : n = 5 → ∀ a p q r, p ≠ q → p ≠ r → q ≠ r → a p = 3 → a q = 1 → a r = 1 →
    (∀ s, s ≠ p → s ≠ q → s ≠ r → a s = 0) → 3 / 5 ≤ b a p ∧ b a p < 1
  pair5 : n = 5 → ∀ a p q r, p ≠ q → p ≠ r → q ≠ r → a p = 1 → a q = 2 → a r = 2 →
    (∀ s, s ≠ p → s ≠ q → s ≠ r → a s = 0) → 1 / 10 ≤ b a p ∧ b a p ≤ 1 / 5
  body5 : n = 5 → ∀ a p q r s, p ≠ q → p ≠ r → p ≠ s → q ≠ r → q ≠ s → r ≠ s → a p = 2 → a q = 1 → a r = 1 → a s = 1 →
    (∀ u, u ≠ p → u ≠ q → u ≠ r → u ≠ s → a u = 0) → 2 / 5 ≤ b a p ∧ b a p < 1

variable {k n : Nat} {b : (Fin k → ℕ) → Fin k → ℝ}

/-- Equal counts give equal coordinates. -/
theorem FacePoints.eq_of_eq (hb : FacePoints k n b) (a : Fin k → ℕ) (p q : Fin k) (h : a p = a q) : b a p = b a q := by
  have h1 := hb.perm a (Equiv.swap p q) p
  rw [Equiv.swap_apply_left] at h1
  rw [← h1]
  congr 1
  funext r
  simp only [Function.comp]
  by_cases hr : r = p
  · rw [hr, Equiv.swap_apply_left, h]
  by_cases hr2 : r = q
  · rw [hr2, Equiv.swap_apply_right, h]
  · rw [Equiv.swap_apply_of_ne_of_ne hr hr2]

theorem edge_coeff (hb : FacePoints k n b) {F : MvPolynomial (Fin k) ℝ} (hF : F.IsHomogeneous n)
    (hz : ∀ a, ∑ p, a p = n → eval (b a) F = 0) {p q : Fin k} (hpq : p ≠ q) (α : Fin k →₀ ℕ)
    (hα : ∀ r, r ≠ p → r ≠ q → α r = 0) : coeff α F = 0 := by
  classical
  by_contra hne
  obtain ⟨t, ht, hedge⟩ := hb.edge
  let m : Fin (n + 1) → (Fin k →₀ ℕ) := fun i => Finsupp.single p (i : ℕ) + Finsupp.single q (n - i)
  have mp : ∀ i, m i p = i := fun i => by simp [m, hpq.symm]
  have mq : ∀ i, m i q = n - i := fun i => by simp [m, hpq]
  have mr : ∀ i r, r ≠ p → r ≠ q → m i r = 0 := fun i r h1 h2 => by
    simp [m, h1.symm, h2.symm]
  have msum : ∀ i, ∑ r, m i r = n := by
    intro i
    simp only [m, Finsupp.add_apply, Finset.sum_add_distrib, Finsupp.single_apply, Finset.sum_ite_eq, Finset.mem_univ, if_true]
    have := i.2
    omega
  have minj : Function.Injective m := fun i j h => Fin.ext (by rw [← mp i, ← mp j, h])
  have hmem : ∀ β : Fin k →₀ ℕ, coeff β F ≠ 0 → (∀ r, r ≠ p → r ≠ q → β r = 0) → ∃ i, m i = β := by
    intro β hβ h0
    have hs := sum_of_coeff hF hβ
    have hpair : β p + β q = n := by
      rw [← hs, ← Finset.sum_pair (f := fun r => β r) hpq]
      refine Finset.sum_subset (Finset.subset_univ _) fun r _ hr => ?_
      simp only [Finset.mem_insert, Finset.mem_singleton, not_or] at hr
      exact h0 r hr.1 hr.2
    refine ⟨⟨β p, by omega⟩, ?_⟩
    ext r
    by_cases h1 : r = p
    · rw [h1, mp]
    by_cases h2 : r = q
    · rw [h2, mq]; simp only; omega
    · rw [mr _ r h1 h2, h0 r h1 h2]
  have key := segment_zero (fun i => coeff (m i) F) t ht fun j => by
    have h0 := hz (m j) (msum j)
    have hp : b (m j) p = t j := hedge _ j p q hpq (mp j) (mq j) (mr j)
    have hr0 : ∀ r, r ≠ p → r ≠ q → b (m j) r = 0 := fun r h1 h2 => hb.face _ _ (mr j r h1 h2)
    have hq : b (m j) q = 1 - t j := by
      have hs := hb.sum _ (msum j)
      rw [← Finset.sum_subset (Finset.subset_univ {p, q}) fun r _ hr => by
        simp only [Finset.mem_insert, Finset.mem_singleton, not_or] at hr
        exact hr0 r hr.1 hr.2, Finset.sum_pair hpq, hp] at hs
      linarith
    rw [eval_explicit F (Finset.univ.image m) (b (m j)), Finset.sum_image fun _ _ _ _ h => minj h] at h0
    · rw [← h0]
      refine Finset.sum_congr rfl fun i _ => ?_
      simp only [m]
      rw [monAt_add, monAt_single, monAt_single, hp, hq]
    · intro β hβ hE
      by_contra hcon
      push Not at hcon
      obtain ⟨i, hi⟩ := hmem β hβ fun r h1 h2 => by
        by_contra h3
        exact hcon r h3 (hr0 r h1 h2)
      exact hE (Finset.mem_image.2 ⟨i, Finset.mem_univ _, hi⟩)
  obtain ⟨i, hi⟩ := hmem α hne hα
  apply hne
  rw [← hi]
  exact congrFun key i

/-- Points where the coordinates outside a set vanish: only the monomials with exactly that set as support contribute, once
those with smaller support are known to be absent. -/
theorem eval_face (hb : FacePoints k n b) {F : MvPolynomial (Fin k) ℝ} (hF : F.IsHomogeneous n)
    (a : Fin k → ℕ) (S : Finset (Fin k)) (ha : ∀ r, r ∉ S → a r = 0)
    (hlow : ∀ α : Fin k →₀ ℕ, (∀ r, r ∉ S → α r = 0) → (∃ r ∈ S, α r = 0) → coeff α F = 0)
    (E : Finset (Fin k →₀ ℕ))
    (hE : ∀ α : Fin k →₀ ℕ, ∑ r, α r = n → (∀ r, r ∉ S → α r = 0) → (∀ r ∈ S, 1 ≤ α r) → α ∈ E) :
    eval (b a) F = ∑ α ∈ E, coeff α F * monAt (b a) α := by
  refine eval_explicit F E (b a) fun α hα hnE => ?_
  by_contra hcon
  push Not at hcon
  have h0 : ∀ r, r ∉ S → α r = 0 := fun r hr => by
    by_contra h
    exact hcon r h (hb.face a r (ha r hr))
  refine hnE (hE α (sum_of_coeff hF hα) h0 fun r hr => ?_)
  by_contra h
  exact hα (hlow α h0 ⟨r, hr, by omega⟩)

theorem sum_three (f : Fin k → ℕ) {p q r : Fin k} (hpq : p ≠ q) (hpr : p ≠ r) (hqr : q ≠ r)
    (h0 : ∀ s, s ≠ p → s ≠ q → s ≠ r → f s = 0) : ∑ s, f s = f p + f q + f r := by
  classical
  rw [← Finset.sum_subset (Finset.subset_univ {p, q, r}) fun s _ hs => by
    simp only [Finset.mem_insert, Finset.mem_singleton, not_or] at hs
    exact h0 s hs.1 hs.2.1 hs.2.2, Finset.sum_insert (by simp [hpq, hpr]), Finset.sum_pair hqr, add_assoc]

theorem sum_three' (f : Fin k → ℝ) {p q r : Fin k} (hpq : p ≠ q) (hpr : p ≠ r) (hqr : q ≠ r)
    (h0 : ∀ s, s ≠ p → s ≠ q → s ≠ r → f s = 0) : ∑ s, f s = f p + f q + f r := by
  classical
  rw [← Finset.sum_subset (Finset.subset_univ {p, q, r}) fun s _ hs => by
    simp only [Finset.mem_insert, Finset.mem_singleton, not_or] at hs
    exact h0 s hs.1 hs.2.1 hs.2.2, Finset.sum_insert (by simp [hpq, hpr]), Finset.sum_pair hqr, add_assoc]

/-- The exponents `x, y, z` on three vertices. -/
noncomputable def tri (p q r : Fin k) (x y z : ℕ) : Fin k →₀ ℕ :=
  Finsupp.single p x + Finsupp.single q y + Finsupp.single r z

theorem monAt_tri (v : Fin k → ℝ) (p q r : Fin k) (x y z : ℕ) :
    monAt v (tri p q r x y z) = v p ^ x * v q ^ y * v r ^ z := by
  rw [tri, monAt_add, monAt_add, monAt_single, monAt_single, monAt_single]

theorem tri_values {p q r : Fin k} (hpq : p ≠ q) (hpr : p ≠ r) (hqr : q ≠ r) (x y z : ℕ) :
    tri p q r x y z p = x ∧ tri p q r x y z q = y ∧ tri p q r x y z r = z ∧
      ∀ s, s ≠ p → s ≠ q → s ≠ r → tri p q r x y z s = 0 := by
  classical
  refine ⟨?_, ?_, ?_, fun s h1 h2 h3 => ?_⟩
  · simp [tri, hpq.symm, hpr.symm]
  · simp [tri, hpq, hqr.symm]
  · simp [tri, hpr, hqr]
  · simp [tri, h1.symm, h2.symm, h3.symm]

theorem eq_tri {p q r : Fin k} (hpq : p ≠ q) (hpr : p ≠ r) (hqr : q ≠ r) (α : Fin k →₀ ℕ)
    (h0 : ∀ s, s ≠ p → s ≠ q → s ≠ r → α s = 0) : α = tri p q r (α p) (α q) (α r) := by
  obtain ⟨h1, h2, h3, h4⟩ := tri_values hpq hpr hqr (α p) (α q) (α r)
  ext s
  by_cases hp : s = p
  · rw [hp, h1]
  by_cases hq : s = q
  · rw [hq, h2]
  by_cases hr : s = r
  · rw [hr, h3]
  · rw [h4 s hp hq hr, h0 s hp hq hr]

theorem low_three (hb : FacePoints k n b) {F : MvPolynomial (Fin k) ℝ} (hF : F.IsHomogeneous n)
    (hz : ∀ a, ∑ p, a p = n → eval (b a) F = 0) {p q r : Fin k} (hpq : p ≠ q) (hpr : p ≠ r) (hqr : q ≠ r)
    (α : Fin k →₀ ℕ) (h0 : ∀ s, s ≠ p → s ≠ q → s ≠ r → α s = 0) (h : α p = 0 ∨ α q = 0 ∨ α r = 0) :
    coeff α F = 0 := by
  rcases h with h | h | h
  · refine edge_coeff hb hF hz hqr α fun t h5 h6 => ?_
    by_cases ht : t = p
    · rw [ht, h]
    · exact h0 t ht h5 h6
  · refine edge_coeff hb hF hz hpr α fun t h5 h6 => ?_
    by_cases ht : t = q
    · rw [ht, h]
    · exact h0 t h5 ht h6
  · refine edge_coeff hb hF hz hpq α fun t h5 h6 => ?_
    by_cases ht : t = r
    · rw [ht, h]
    · exact h0 t h5 h6 ht

/-- The values on a triangle face: only exponents positive at its three vertices contribute. -/
theorem eval_three (hb : FacePoints k n b) {F : MvPolynomial (Fin k) ℝ} (hF : F.IsHomogeneous n)
    (hz : ∀ a, ∑ p, a p = n → eval (b a) F = 0) {p q r : Fin k} (hpq : p ≠ q) (hpr : p ≠ r) (hqr : q ≠ r)
    (x y z : ℕ) (hxyz : x + y + z = n) (T : Finset (ℕ × ℕ × ℕ))
    (hT : ∀ i j l, 1 ≤ i → 1 ≤ j → 1 ≤ l → i + j + l = n → (i, j, l) ∈ T) :
    let v := b ⇑(tri p q r x y z)
    v p + v q + v r = 1 ∧
      ∑ e ∈ T, coeff (tri p q r e.1 e.2.1 e.2.2) F * (v p ^ e.1 * v q ^ e.2.1 * v r ^ e.2.2) = 0 := by
  classical
  intro v
  obtain ⟨h1, h2, h3, h4⟩ := tri_values hpq hpr hqr x y z
  have hs : ∑ s, tri p q r x y z s = n := by rw [sum_three _ hpq hpr hqr h4, h1, h2, h3, hxyz]
  refine ⟨?_, ?_⟩
  · rw [← hb.sum _ hs, sum_three' _ hpq hpr hqr fun s x y z => hb.face _ s (h4 s x y z)]
  have hinj : Function.Injective fun e : ℕ × ℕ × ℕ => tri p q r e.1 e.2.1 e.2.2 := by
    rintro ⟨x1, y1, z1⟩ ⟨x2, y2, z2⟩ h
    obtain ⟨a1, a2, a3, -⟩ := tri_values hpq hpr hqr x1 y1 z1
    obtain ⟨b1, b2, b3, -⟩ := tri_values hpq hpr hqr x2 y2 z2
    simp only at h
    rw [h] at a1 a2 a3
    rw [← a1, ← a2, ← a3, b1, b2, b3]
  have he := eval_face hb hF (⇑(tri p q r x y z)) {p, q, r} (fun s hs => by
      simp only [Finset.mem_insert, Finset.mem_singleton, not_or] at hs
      exact h4 s hs.1 hs.2.1 hs.2.2) ?_ (T.image fun e => tri p q r e.1 e.2.1 e.2.2) ?_
  · rw [hz _ hs, Finset.sum_image fun _ _ _ _ h => hinj h] at he
    rw [he]
    exact Finset.sum_congr rfl fun e _ => by rw [monAt_tri]
  · rintro α h0 ⟨s, hs, hs0⟩
    simp only [Finset.mem_insert, Finset.mem_singleton, not_or] at hs h0
    refine low_three hb hF hz hpq hpr hqr α (fun s x y z => h0 s ⟨x, y, z⟩) ?_
    rcases hs with rfl | rfl | rfl
    · exact Or.inl hs0
    · exact Or.inr (Or.inl hs0)
    · exact Or.inr (Or.inr hs0)
  · intro α hs0 h0 h1'
    have hz0 : ∀ s, s ≠ p → s ≠ q → s ≠ r → α s = 0 := fun s x y z => h0 s (by simp [x, y, z])
    rw [sum_three α hpq hpr hqr hz0] at hs0
    refine Finset.mem_image.2 ⟨(α p, α q, α r), hT _ _ _ (h1' p (by simp)) (h1' q (by simp)) (h1' r (by simp)) hs0, ?_⟩
    exact (eq_tri hpq hpr hqr α hz0).symm

theorem face_coeff_three (hb : FacePoints k 3 b) {F : MvPolynomial (Fin k) ℝ} (hF : F.IsHomogeneous 3)
    (hz : ∀ a, ∑ p, a p = 3 → eval (b a) F = 0) {p q r : Fin k} (hpq : p ≠ q) (hpr : p ≠ r) (hqr : q ≠ r) :
    coeff (tri p q r 1 1 1) F = 0 := by
  obtain ⟨h1, h2, h3, h4⟩ := tri_values hpq hpr hqr 1 1 1
  obtain ⟨hsum, he⟩ := eval_three hb hF hz hpq hpr hqr 1 1 1 rfl {(1, 1, 1)} (by
    intro i j l hi hj hl h
    obtain ⟨rfl, rfl, rfl⟩ : i = 1 ∧ j = 1 ∧ l = 1 := by omega
    simp)
  have e1 := hb.eq_of_eq _ p q (h1.trans h2.symm)
  have e2 := hb.eq_of_eq _ p r (h1.trans h3.symm)
  rw [← e1, ← e2] at hsum
  rw [Finset.sum_singleton, ← e1, ← e2, show b (⇑(tri p q r 1 1 1)) p = 1 / 3 by linarith] at he
  linarith

/-- Relabelled counts give relabelled coordinates. -/
theorem FacePoints.relabel (hb : FacePoints k n b) (a a' : Fin k → ℕ) (σ : Equiv.Perm (Fin k)) (h : ∀ s, a' s = a (σ s))
    (s : Fin k) : b a' s = b a (σ s) := by
  rw [← hb.perm]
  congr 1
  exact funext h

/-- Coordinates at a face point and its relabellings. -/
theorem tri_swap (hb : FacePoints k n b) {p q r : Fin k} (hpq : p ≠ q) (hpr : p ≠ r) (hqr : q ≠ r) (x y z : ℕ) :
    b ⇑(tri p q r y x z) q = b ⇑(tri p q r x y z) p ∧ b ⇑(tri p q r y x z) p = b ⇑(tri p q r x y z) q ∧
      b ⇑(tri p q r y x z) r = b ⇑(tri p q r x y z) r := by
  classical
  obtain ⟨u1, u2, u3, u4⟩ := tri_values hpq hpr hqr x y z
  obtain ⟨v1, v2, v3, v4⟩ := tri_values hpq hpr hqr y x z
  have h := hb.relabel (⇑(tri p q r x y z)) (⇑(tri p q r y x z)) (Equiv.swap p q) fun s => by
    by_cases h1 : s = p
    · rw [h1, Equiv.swap_apply_left, u2, v1]
    by_cases h2 : s = q
    · rw [h2, Equiv.swap_apply_right, u1, v2]
    rw [Equiv.swap_apply_of_ne_of_ne h1 h2]
    by_cases h3 : s = r
    · rw [h3, u3, v3]
    · rw [u4 s h1 h2 h3, v4 s h1 h2 h3]
  refine ⟨?_, ?_, ?_⟩
  · rw [h, Equiv.swap_apply_right]
  · rw [h, Equiv.swap_apply_left]
  · rw [h, Equiv.swap_apply_of_ne_of_ne hpr.symm hqr.symm]

theorem tri_rot (p q r : Fin k) (x y z : ℕ) : tri p q r x y z = tri p r q x z y := by
  rw [tri, tri, add_right_comm]

theorem tri_swap' (hb : FacePoints k n b) {p q r : Fin k} (hpq : p ≠ q) (hpr : p ≠ r) (hqr : q ≠ r) (x y z : ℕ) :
    b ⇑(tri p q r z y x) r = b ⇑(tri p q r x y z) p ∧ b ⇑(tri p q r z y x) p = b ⇑(tri p q r x y z) r ∧
      b ⇑(tri p q r z y x) q = b ⇑(tri p q r x y z) q := by
  rw [tri_rot p q r x y z, tri_rot p q r z y x]
  exact tri_swap hb hpr hpq hqr.symm x z y

theorem solve_three {c1 c2 c3 A C : ℝ} (h1 : A + 2 * C = 1) (hA : A ≠ C)
    (e1 : A * c1 + C * (c2 + c3) = 0) (e2 : A * c2 + C * (c1 + c3) = 0) (e3 : A * c3 + C * (c1 + c2) = 0) :
    c1 = 0 ∧ c2 = 0 ∧ c3 = 0 := by
  have hs : c1 + c2 + c3 = 0 := by linear_combination e1 + e2 + e3 - (c1 + c2 + c3) * h1
  have hd : A - C ≠ 0 := sub_ne_zero.2 hA
  refine ⟨?_, ?_, ?_⟩
  · exact (mul_eq_zero.1 (by linear_combination e1 - C * hs : (A - C) * c1 = 0)).resolve_left hd
  · exact (mul_eq_zero.1 (by linear_combination e2 - C * hs : (A - C) * c2 = 0)).resolve_left hd
  · exact (mul_eq_zero.1 (by linear_combination e3 - C * hs : (A - C) * c3 = 0)).resolve_left hd

theorem face_coeff_four (hb : FacePoints k 4 b) {F : MvPolynomial (Fin k) ℝ} (hF : F.IsHomogeneous 4)
    (hz : ∀ a, ∑ p, a p = 4 → eval (b a) F = 0) {p q r : Fin k} (hpq : p ≠ q) (hpr : p ≠ r) (hqr : q ≠ r) :
    coeff (tri p q r 2 1 1) F = 0 ∧ coeff (tri p q r 1 2 1) F = 0 ∧ coeff (tri p q r 1 1 2) F = 0 := by
  have hT : ∀ i j l, 1 ≤ i → 1 ≤ j → 1 ≤ l → i + j + l = 4 →
      (i, j, l) ∈ ({(2, 1, 1), (1, 2, 1), (1, 1, 2)} : Finset (ℕ × ℕ × ℕ)) := by
    intro i j l hi hj hl h
    obtain ⟨rfl, rfl, rfl⟩ | ⟨rfl, rfl, rfl⟩ | ⟨rfl, rfl, rfl⟩ : i = 2 ∧ j = 1 ∧ l = 1 ∨ i = 1 ∧ j = 2 ∧ l = 1 ∨
      i = 1 ∧ j = 1 ∧ l = 2 := by omega
    all_goals simp
  obtain ⟨u1, u2, u3, u4⟩ := tri_values hpq hpr hqr 2 1 1
  obtain ⟨s1, e1⟩ := eval_three hb hF hz hpq hpr hqr 2 1 1 rfl _ hT
  obtain ⟨-, e2⟩ := eval_three hb hF hz hpq hpr hqr 1 2 1 rfl _ hT
  obtain ⟨-, e3⟩ := eval_three hb hF hz hpq hpr hqr 1 1 2 rfl _ hT
  obtain ⟨i1, i2⟩ := hb.inner4 rfl _ p q r hpq hpr hqr u1 u2 u3 u4
  have g1 := hb.eq_of_eq _ q r (u2.trans u3.symm)
  obtain ⟨t1, t2, t3⟩ := tri_swap hb hpq hpr hqr 2 1 1
  obtain ⟨t4, t5, t6⟩ := tri_swap' hb hpq hpr hqr 2 1 1
  rw [Finset.sum_insert (by decide), Finset.sum_pair (by decide)] at e1 e2 e3
  simp only [pow_one, pow_two] at e1 e2 e3
  rw [t1, t2, t3] at e2
  rw [t4, t5, t6] at e3
  rw [← g1] at e1 s1 e2 e3
  generalize coeff (tri p q r 2 1 1) F = c1 at *
  generalize coeff (tri p q r 1 2 1) F = c2 at *
  generalize coeff (tri p q r 1 1 2) F = c3 at *
  generalize b (⇑(tri p q r 2 1 1)) p = A at *
  generalize b (⇑(tri p q r 2 1 1)) q = C at *
  have hC : 0 < C := by linarith
  have hn : A * C * C ≠ 0 := by positivity
  refine solve_three (by linarith) (by linarith [show A - C ≠ 0 by intro h; linarith] : A ≠ C) ?_ ?_ ?_
  · exact (mul_eq_zero.1 (by linear_combination e1 : A * C * C * (A * c1 + C * (c2 + c3)) = 0)).resolve_left hn
  · exact (mul_eq_zero.1 (by linear_combination e2 : A * C * C * (A * c2 + C * (c1 + c3)) = 0)).resolve_left hn
  · exact (mul_eq_zero.1 (by linear_combination e3 : A * C * C * (A * c3 + C * (c1 + c2)) = 0)).resolve_left hn

/-- Conics through six points in two orbits of the symmetries of the triangle. -/
theorem solve_six {c1 c2 c3 e1 e2 e3 A C D G : ℝ} (h1 : A + 2 * C = 1) (h2 : G + 2 * D = 1)
    (hA : 3 / 5 ≤ A ∧ A < 1) (hG : 1 / 10 ≤ G ∧ G ≤ 1 / 5)
    (n1 : A ^ 2 * c1 + C ^ 2 * (c2 + c3) + A * C * (e2 + e3) + C ^ 2 * e1 = 0)
    (n2 : A ^ 2 * c2 + C ^ 2 * (c1 + c3) + A * C * (e1 + e3) + C ^ 2 * e2 = 0)
    (n3 : A ^ 2 * c3 + C ^ 2 * (c1 + c2) + A * C * (e1 + e2) + C ^ 2 * e3 = 0)
    (m1 : G ^ 2 * c1 + D ^ 2 * (c2 + c3) + G * D * (e2 + e3) + D ^ 2 * e1 = 0)
    (m2 : G ^ 2 * c2 + D ^ 2 * (c1 + c3) + G * D * (e1 + e3) + D ^ 2 * e2 = 0)
    (m3 : G ^ 2 * c3 + D ^ 2 * (c1 + c2) + G * D * (e1 + e2) + D ^ 2 * e3 = 0) :
    (c1 = 0 ∧ c2 = 0 ∧ c3 = 0) ∧ e1 = 0 ∧ e2 = 0 ∧ e3 = 0 := by
  have hC : C = (1 - A) / 2 := by linarith
  have hD : D = (1 - G) / 2 := by linarith
  have ns : (A ^ 2 + 2 * C ^ 2) * (c1 + c2 + c3) + (2 * A * C + C ^ 2) * (e1 + e2 + e3) = 0 := by
    linear_combination n1 + n2 + n3
  have ms : (G ^ 2 + 2 * D ^ 2) * (c1 + c2 + c3) + (2 * G * D + D ^ 2) * (e1 + e2 + e3) = 0 := by
    linear_combination m1 + m2 + m3
  have hdet : 0 < (A ^ 2 + 2 * C ^ 2) * (2 * G * D + D ^ 2) - (G ^ 2 + 2 * D ^ 2) * (2 * A * C + C ^ 2) := by
    rw [hC, hD]
    have : 0 < (A - G) * (A + G - 2 / 3) := mul_pos (by linarith) (by linarith)
    nlinarith
  have hs : c1 + c2 + c3 = 0 := by
    refine (mul_eq_zero.1 (?_ : ((A ^ 2 + 2 * C ^ 2) * (2 * G * D + D ^ 2) - (G ^ 2 + 2 * D ^ 2) * (2 * A * C + C ^ 2)) *
      (c1 + c2 + c3) = 0)).resolve_left hdet.ne'
    linear_combination (2 * G * D + D ^ 2) * ns - (2 * A * C + C ^ 2) * ms
  have ht : e1 + e2 + e3 = 0 := by
    refine (mul_eq_zero.1 (?_ : ((A ^ 2 + 2 * C ^ 2) * (2 * G * D + D ^ 2) - (G ^ 2 + 2 * D ^ 2) * (2 * A * C + C ^ 2)) *
      (e1 + e2 + e3) = 0)).resolve_left hdet.ne'
    linear_combination (A ^ 2 + 2 * C ^ 2) * ms - (G ^ 2 + 2 * D ^ 2) * ns
  have hdet2 : 0 < (A - C) * (D - G) * (A * D - C * G) := by
    have h3 : 0 < A - C := by linarith
    have h4 : 0 < D - G := by linarith
    have h5 : 0 < A * D - C * G := by
      have : C * G ≤ (1 / 5) * (1 / 5) := by
        apply mul_le_mul <;> linarith
      have : (3 / 5) * (2 / 5) ≤ A * D := by
        apply mul_le_mul <;> linarith
      linarith
    positivity
  have key : ∀ c e : ℝ, (A ^ 2 - C ^ 2) * c + (C ^ 2 - A * C) * e = 0 → (G ^ 2 - D ^ 2) * c + (D ^ 2 - G * D) * e = 0 →
      c = 0 ∧ e = 0 := by
    intro c e p1 p2
    constructor
    · refine (mul_eq_zero.1 (?_ : ((A - C) * (D - G) * (A * D - C * G)) * c = 0)).resolve_left hdet2.ne'
      linear_combination (D ^ 2 - G * D) * p1 - (C ^ 2 - A * C) * p2
    · refine (mul_eq_zero.1 (?_ : ((A - C) * (D - G) * (A * D - C * G)) * e = 0)).resolve_left hdet2.ne'
      linear_combination (A ^ 2 - C ^ 2) * p2 - (G ^ 2 - D ^ 2) * p1
  obtain ⟨a1, b1⟩ := key c1 e1 (by linear_combination n1 - C ^ 2 * hs - A * C * ht)
    (by linear_combination m1 - D ^ 2 * hs - G * D * ht)
  obtain ⟨a2, b2⟩ := key c2 e2 (by linear_combination n2 - C ^ 2 * hs - A * C * ht)
    (by linear_combination m2 - D ^ 2 * hs - G * D * ht)
  obtain ⟨a3, b3⟩ := key c3 e3 (by linear_combination n3 - C ^ 2 * hs - A * C * ht)
    (by linear_combination m3 - D ^ 2 * hs - G * D * ht)
  exact ⟨⟨a1, a2, a3⟩, b1, b2, b3⟩

theorem face_coeff_five (hb : FacePoints k 5 b) {F : MvPolynomial (Fin k) ℝ} (hF : F.IsHomogeneous 5)
    (hz : ∀ a, ∑ p, a p = 5 → eval (b a) F = 0) {p q r : Fin k} (hpq : p ≠ q) (hpr : p ≠ r) (hqr : q ≠ r) :
    (coeff (tri p q r 3 1 1) F = 0 ∧ coeff (tri p q r 1 3 1) F = 0 ∧ coeff (tri p q r 1 1 3) F = 0) ∧
      coeff (tri p q r 1 2 2) F = 0 ∧ coeff (tri p q r 2 1 2) F = 0 ∧ coeff (tri p q r 2 2 1) F = 0 := by
  have hT : ∀ i j l, 1 ≤ i → 1 ≤ j → 1 ≤ l → i + j + l = 5 →
      (i, j, l) ∈ ({(3, 1, 1), (1, 3, 1), (1, 1, 3), (1, 2, 2), (2, 1, 2), (2, 2, 1)} : Finset (ℕ × ℕ × ℕ)) := by
    intro i j l hi hj hl h
    obtain rfl : l = 5 - i - j := by omega
    have h1 : i ≤ 3 := by omega
    have h2 : j ≤ 3 := by omega
    interval_cases i <;> interval_cases j <;> first | (exfalso; omega) | simp
  obtain ⟨u1, u2, u3, u4⟩ := tri_values hpq hpr hqr 3 1 1
  obtain ⟨v1, v2, v3, v4⟩ := tri_values hpq hpr hqr 1 2 2
  obtain ⟨s1, e1⟩ := eval_three hb hF hz hpq hpr hqr 3 1 1 rfl _ hT
  obtain ⟨-, e2⟩ := eval_three hb hF hz hpq hpr hqr 1 3 1 rfl _ hT
  obtain ⟨-, e3⟩ := eval_three hb hF hz hpq hpr hqr 1 1 3 rfl _ hT
  obtain ⟨s2, e4⟩ := eval_three hb hF hz hpq hpr hqr 1 2 2 rfl _ hT
  obtain ⟨-, e5⟩ := eval_three hb hF hz hpq hpr hqr 2 1 2 rfl _ hT
  obtain ⟨-, e6⟩ := eval_three hb hF hz hpq hpr hqr 2 2 1 rfl _ hT
  have i1 := hb.inner5 rfl _ p q r hpq hpr hqr u1 u2 u3 u4
  have i2 := hb.pair5 rfl _ p q r hpq hpr hqr v1 v2 v3 v4
  have g1 := hb.eq_of_eq _ q r (u2.trans u3.symm)
  have g2 := hb.eq_of_eq _ q r (v2.trans v3.symm)
  obtain ⟨t1, t2, t3⟩ := tri_swap hb hpq hpr hqr 3 1 1
  obtain ⟨t4, t5, t6⟩ := tri_swap' hb hpq hpr hqr 3 1 1
  obtain ⟨r1, r2, r3⟩ := tri_swap hb hpq hpr hqr 1 2 2
  obtain ⟨r4, r5, r6⟩ := tri_swap' hb hpq hpr hqr 1 2 2
  rw [Finset.sum_insert (by decide), Finset.sum_insert (by decide), Finset.sum_insert (by decide),
    Finset.sum_insert (by decide), Finset.sum_pair (by decide)] at e1 e2 e3 e4 e5 e6
  simp only [pow_one] at e1 e2 e3 e4 e5 e6
  rw [t1, t2, t3] at e2
  rw [t4, t5, t6] at e3
  rw [r1, r2, r3] at e5
  rw [r4, r5, r6] at e6
  rw [← g1] at e1 s1 e2 e3
  rw [← g2] at e4 s2 e5 e6
  generalize coeff (tri p q r 3 1 1) F = c1 at *
  generalize coeff (tri p q r 1 3 1) F = c2 at *
  generalize coeff (tri p q r 1 1 3) F = c3 at *
  generalize coeff (tri p q r 1 2 2) F = f1 at *
  generalize coeff (tri p q r 2 1 2) F = f2 at *
  generalize coeff (tri p q r 2 2 1) F = f3 at *
  generalize b (⇑(tri p q r 3 1 1)) p = A at *
  generalize b (⇑(tri p q r 3 1 1)) q = C at *
  generalize b (⇑(tri p q r 1 2 2)) p = G at *
  generalize b (⇑(tri p q r 1 2 2)) q = D at *
  have hC : 0 < C := by linarith
  have hA : 0 < A := by linarith
  have hG : 0 < G := by linarith
  have hD : 0 < D := by linarith
  have hn : A * C * C ≠ 0 := by positivity
  have hn2 : G * D * D ≠ 0 := by positivity
  refine solve_six (A := A) (C := C) (D := D) (G := G) (by linarith) (by linarith) i1 i2 ?_ ?_ ?_ ?_ ?_ ?_
  · exact (mul_eq_zero.1 (by linear_combination e1 : A * C * C * _ = 0)).resolve_left hn
  · exact (mul_eq_zero.1 (by linear_combination e2 : A * C * C * _ = 0)).resolve_left hn
  · exact (mul_eq_zero.1 (by linear_combination e3 : A * C * C * _ = 0)).resolve_left hn
  · exact (mul_eq_zero.1 (by linear_combination e4 : G * D * D * _ = 0)).resolve_left hn2
  · exact (mul_eq_zero.1 (by linear_combination e5 : G * D * D * _ = 0)).resolve_left hn2
  · exact (mul_eq_zero.1 (by linear_combination e6 : G * D * D * _ = 0)).resolve_left hn2

/-- The exponents `x, y, z, w` on four vertices. -/
noncomputable def tet (p q r s : Fin k) (x y z w : ℕ) : Fin k →₀ ℕ := tri p q r x y z + Finsupp.single s w

theorem monAt_tet (v : Fin k → ℝ) (p q r s : Fin k) (x y z w : ℕ) :
    monAt v (tet p q r s x y z w) = v p ^ x * v q ^ y * v r ^ z * v s ^ w := by
  rw [tet, monAt_add, monAt_tri, monAt_single]

/-- Four vertices in a row. -/
structure Distinct4 (p q r s : Fin k) : Prop where
  pq : p ≠ q
  pr : p ≠ r
  ps : p ≠ s
  qr : q ≠ r
  qs : q ≠ s
  rs : r ≠ s

theorem tet_values {p q r s : Fin k} (h : Distinct4 p q r s) (x y z w : ℕ) :
    tet p q r s x y z w p = x ∧ tet p q r s x y z w q = y ∧ tet p q r s x y z w r = z ∧ tet p q r s x y z w s = w ∧
      ∀ u, u ≠ p → u ≠ q → u ≠ r → u ≠ s → tet p q r s x y z w u = 0 := by
  classical
  obtain ⟨h1, h2, h3, h4⟩ := tri_values h.pq h.pr h.qr x y z
  refine ⟨?_, ?_, ?_, ?_, fun u e1 e2 e3 e4 => ?_⟩
  · simp [tet, h1, h.ps]
  · simp [tet, h2, h.qs]
  · simp [tet, h3, h.rs]
  · simp [tet, h4 s h.ps.symm h.qs.symm h.rs.symm]
  · simp [tet, h4 u e1 e2 e3, e4]

theorem sum_four {M : Type*} [AddCommMonoid M] (f : Fin k → M) {p q r s : Fin k} (h : Distinct4 p q r s)
    (h0 : ∀ u, u ≠ p → u ≠ q → u ≠ r → u ≠ s → f u = 0) : ∑ u, f u = f p + f q + f r + f s := by
  classical
  rw [← Finset.sum_subset (Finset.subset_univ {p, q, r, s}) fun u _ hu => by
    simp only [Finset.mem_insert, Finset.mem_singleton, not_or] at hu
    exact h0 u hu.1 hu.2.1 hu.2.2.1 hu.2.2.2, Finset.sum_insert (by simp [h.pq, h.pr, h.ps]),
    Finset.sum_insert (by simp [h.qr, h.qs]), Finset.sum_pair h.rs, add_assoc, add_assoc]

theorem eq_tet {p q r s : Fin k} (h : Distinct4 p q r s) (α : Fin k →₀ ℕ)
    (h0 : ∀ u, u ≠ p → u ≠ q → u ≠ r → u ≠ s → α u = 0) : α = tet p q r s (α p) (α q) (α r) (α s) := by
  obtain ⟨h1, h2, h3, h4, h5⟩ := tet_values h (α p) (α q) (α r) (α s)
  ext u
  by_cases e1 : u = p
  · rw [e1, h1]
  by_cases e2 : u = q
  · rw [e2, h2]
  by_cases e3 : u = r
  · rw [e3, h3]
  by_cases e4 : u = s
  · rw [e4, h4]
  · rw [h5 u e1 e2 e3 e4, h0 u e1 e2 e3 e4]

/-- All coefficients on at most three vertices vanish. -/
theorem coeff_on_three (hn : n = 3 ∨ n = 4 ∨ n = 5) (hb : FacePoints k n b) {F : MvPolynomial (Fin k) ℝ}
    (hF : F.IsHomogeneous n) (hz : ∀ a, ∑ p, a p = n → eval (b a) F = 0) {p q r : Fin k} (hpq : p ≠ q) (hpr : p ≠ r)
    (hqr : q ≠ r) (α : Fin k →₀ ℕ) (h0 : ∀ s, s ≠ p → s ≠ q → s ≠ r → α s = 0) : coeff α F = 0 := by
  by_contra hne
  have hs := sum_of_coeff hF hne
  rw [sum_three α hpq hpr hqr h0] at hs
  have hpos : ¬(α p = 0 ∨ α q = 0 ∨ α r = 0) := fun h => hne (low_three hb hF hz hpq hpr hqr α h0 h)
  rw [eq_tri hpq hpr hqr α h0] at hne
  apply hne
  generalize α p = x at *
  generalize α q = y at *
  generalize α r = z at *
  clear hne h0
  rcases hn with rfl | rfl | rfl
  · obtain ⟨rfl, rfl, rfl⟩ : x = 1 ∧ y = 1 ∧ z = 1 := by omega
    exact face_coeff_three hb hF hz hpq hpr hqr
  · obtain ⟨h1, h2, h3⟩ := face_coeff_four hb hF hz hpq hpr hqr
    obtain ⟨rfl, rfl, rfl⟩ | ⟨rfl, rfl, rfl⟩ | ⟨rfl, rfl, rfl⟩ : x = 2 ∧ y = 1 ∧ z = 1 ∨ x = 1 ∧ y = 2 ∧ z = 1 ∨
      x = 1 ∧ y = 1 ∧ z = 2 := by omega
    exacts [h1, h2, h3]
  · obtain ⟨⟨h1, h2, h3⟩, h4, h5, h6⟩ := face_coeff_five hb hF hz hpq hpr hqr
    have hx : 1 ≤ x ∧ x ≤ 3 := by omega
    have hy : 1 ≤ y ∧ y ≤ 3 := by omega
    obtain rfl : z = 5 - x - y := by omega
    obtain ⟨hx1, hx2⟩ := hx
    obtain ⟨hy1, hy2⟩ := hy
    interval_cases x <;> interval_cases y <;> first | assumption | (exfalso; omega)

/-- The values inside a tetrahedron: only exponents positive at its four vertices contribute. -/
theorem eval_four (hn : n = 3 ∨ n = 4 ∨ n = 5) (hb : FacePoints k n b) {F : MvPolynomial (Fin k) ℝ} (hF : F.IsHomogeneous n)
    (hz : ∀ a, ∑ p, a p = n → eval (b a) F = 0) {p q r s : Fin k} (hd : Distinct4 p q r s)
    (x y z w : ℕ) (hxyz : x + y + z + w = n) (T : Finset (ℕ × ℕ × ℕ × ℕ))
    (hT : ∀ i j l m, 1 ≤ i → 1 ≤ j → 1 ≤ l → 1 ≤ m → i + j + l + m = n → (i, j, l, m) ∈ T) :
    let v := b ⇑(tet p q r s x y z w)
    v p + v q + v r + v s = 1 ∧
      ∑ e ∈ T, coeff (tet p q r s e.1 e.2.1 e.2.2.1 e.2.2.2) F *
        (v p ^ e.1 * v q ^ e.2.1 * v r ^ e.2.2.1 * v s ^ e.2.2.2) = 0 := by
  classical
  intro v
  obtain ⟨h1, h2, h3, h4, h5⟩ := tet_values hd x y z w
  have hs : ∑ u, tet p q r s x y z w u = n := by rw [sum_four _ hd h5, h1, h2, h3, h4, hxyz]
  refine ⟨?_, ?_⟩
  · rw [← hb.sum _ hs, sum_four _ hd fun u x y z w => hb.face _ u (h5 u x y z w)]
  have hinj : Function.Injective fun e : ℕ × ℕ × ℕ × ℕ => tet p q r s e.1 e.2.1 e.2.2.1 e.2.2.2 := by
    rintro ⟨x1, y1, z1, w1⟩ ⟨x2, y2, z2, w2⟩ h
    obtain ⟨a1, a2, a3, a4, -⟩ := tet_values hd x1 y1 z1 w1
    obtain ⟨b1, b2, b3, b4, -⟩ := tet_values hd x2 y2 z2 w2
    simp only at h
    rw [h] at a1 a2 a3 a4
    rw [← a1, ← a2, ← a3, ← a4, b1, b2, b3, b4]
  have he := eval_face hb hF (⇑(tet p q r s x y z w)) {p, q, r, s} (fun u hu => by
      simp only [Finset.mem_insert, Finset.mem_singleton, not_or] at hu
      exact h5 u hu.1 hu.2.1 hu.2.2.1 hu.2.2.2) ?_ (T.image fun e => tet p q r s e.1 e.2.1 e.2.2.1 e.2.2.2) ?_
  · rw [hz _ hs, Finset.sum_image fun _ _ _ _ h => hinj h] at he
    rw [he]
    exact Finset.sum_congr rfl fun e _ => by rw [monAt_tet]
  · rintro α h0 ⟨u, hu, hu0⟩
    simp only [Finset.mem_insert, Finset.mem_singleton, not_or] at hu h0
    rcases hu with rfl | rfl | rfl | rfl
    · refine coeff_on_three hn hb hF hz hd.qr hd.qs hd.rs α fun t e1 e2 e3 => ?_
      by_cases h : t = u
      · rw [h, hu0]
      · exact h0 t ⟨h, e1, e2, e3⟩
    · refine coeff_on_three hn hb hF hz hd.pr hd.ps hd.rs α fun t e1 e2 e3 => ?_
      by_cases h : t = u
      · rw [h, hu0]
      · exact h0 t ⟨e1, h, e2, e3⟩
    · refine coeff_on_three hn hb hF hz hd.pq hd.ps hd.qs α fun t e1 e2 e3 => ?_
      by_cases h : t = u
      · rw [h, hu0]
      · exact h0 t ⟨e1, e2, h, e3⟩
    · refine coeff_on_three hn hb hF hz hd.pq hd.pr hd.qr α fun t e1 e2 e3 => ?_
      by_cases h : t = u
      · rw [h, hu0]
      · exact h0 t ⟨e1, e2, e3, h⟩
  · intro α hs0 h0 h1'
    have hz0 : ∀ u, u ≠ p → u ≠ q → u ≠ r → u ≠ s → α u = 0 := fun u x y z w => h0 u (by simp [x, y, z, w])
    rw [sum_four α hd hz0] at hs0
    refine Finset.mem_image.2 ⟨(α p, α q, α r, α s), hT _ _ _ _ (h1' p (by simp)) (h1' q (by simp)) (h1' r (by simp))
      (h1' s (by simp)) hs0, ?_⟩
    exact (eq_tet hd α hz0).symm

theorem body_coeff_four (hb : FacePoints k 4 b) {F : MvPolynomial (Fin k) ℝ} (hF : F.IsHomogeneous 4)
    (hz : ∀ a, ∑ p, a p = 4 → eval (b a) F = 0) {p q r s : Fin k} (hd : Distinct4 p q r s) :
    coeff (tet p q r s 1 1 1 1) F = 0 := by
  obtain ⟨h1, h2, h3, h4, h5⟩ := tet_values hd 1 1 1 1
  obtain ⟨hsum, he⟩ := eval_four (by simp) hb hF hz hd 1 1 1 1 rfl {(1, 1, 1, 1)} (by
    intro i j l m hi hj hl hm h
    obtain ⟨rfl, rfl, rfl, rfl⟩ : i = 1 ∧ j = 1 ∧ l = 1 ∧ m = 1 := by omega
    simp)
  have e1 := hb.eq_of_eq _ p q (h1.trans h2.symm)
  have e2 := hb.eq_of_eq _ p r (h1.trans h3.symm)
  have e3 := hb.eq_of_eq _ p s (h1.trans h4.symm)
  rw [← e1, ← e2, ← e3] at hsum
  rw [Finset.sum_singleton, ← e1, ← e2, ← e3, show b (⇑(tet p q r s 1 1 1 1)) p = 1 / 4 by linarith] at he
  linarith

/-- The coordinates at the point with two counts at `p`, in terms of those with two counts at another vertex. -/
theorem tet_relabel (hb : FacePoints k n b) (a a' : Fin k → ℕ) {p q : Fin k} (hpq : a' p = a q) (hqp : a' q = a p)
    (h : ∀ u, u ≠ p → u ≠ q → a' u = a u) :
    b a' q = b a p ∧ b a' p = b a q ∧ ∀ u, u ≠ p → u ≠ q → b a' u = b a u := by
  classical
  have h := hb.relabel a a' (Equiv.swap p q) fun s => by
    by_cases h1 : s = p
    · rw [h1, Equiv.swap_apply_left, hpq]
    by_cases h2 : s = q
    · rw [h2, Equiv.swap_apply_right, hqp]
    rw [Equiv.swap_apply_of_ne_of_ne h1 h2, h s h1 h2]
  refine ⟨?_, ?_, fun u h1 h2 => ?_⟩
  · rw [h, Equiv.swap_apply_right]
  · rw [h, Equiv.swap_apply_left]
  · rw [h, Equiv.swap_apply_of_ne_of_ne h1 h2]

theorem body_coeff_five (hb : FacePoints k 5 b) {F : MvPolynomial (Fin k) ℝ} (hF : F.IsHomogeneous 5)
    (hz : ∀ a, ∑ p, a p = 5 → eval (b a) F = 0) {p q r s : Fin k} (hd : Distinct4 p q r s) :
    coeff (tet p q r s 2 1 1 1) F = 0 ∧ coeff (tet p q r s 1 2 1 1) F = 0 ∧ coeff (tet p q r s 1 1 2 1) F = 0 ∧
      coeff (tet p q r s 1 1 1 2) F = 0 := by
  have hT : ∀ i j l m, 1 ≤ i → 1 ≤ j → 1 ≤ l → 1 ≤ m → i + j + l + m = 5 → (i, j, l, m) ∈
      ({(2, 1, 1, 1), (1, 2, 1, 1), (1, 1, 2, 1), (1, 1, 1, 2)} : Finset (ℕ × ℕ × ℕ × ℕ)) := by
    intro i j l m hi hj hl hm h
    obtain ⟨rfl, rfl, rfl, rfl⟩ | ⟨rfl, rfl, rfl, rfl⟩ | ⟨rfl, rfl, rfl, rfl⟩ | ⟨rfl, rfl, rfl, rfl⟩ :
      i = 2 ∧ j = 1 ∧ l = 1 ∧ m = 1 ∨ i = 1 ∧ j = 2 ∧ l = 1 ∧ m = 1 ∨ i = 1 ∧ j = 1 ∧ l = 2 ∧ m = 1 ∨
      i = 1 ∧ j = 1 ∧ l = 1 ∧ m = 2 := by omega
    all_goals simp
  have h5 : (5 = 3 ∨ 5 = 4 ∨ 5 = 5) := by simp
  obtain ⟨u1, u2, u3, u4, u5⟩ := tet_values hd 2 1 1 1
  obtain ⟨v1, v2, v3, v4, v5⟩ := tet_values hd 1 2 1 1
  obtain ⟨w1, w2, w3, w4, w5⟩ := tet_values hd 1 1 2 1
  obtain ⟨x1, x2, x3, x4, x5⟩ := tet_values hd 1 1 1 2
  obtain ⟨s1, e1⟩ := eval_four h5 hb hF hz hd 2 1 1 1 rfl _ hT
  obtain ⟨-, e2⟩ := eval_four h5 hb hF hz hd 1 2 1 1 rfl _ hT
  obtain ⟨-, e3⟩ := eval_four h5 hb hF hz hd 1 1 2 1 rfl _ hT
  obtain ⟨-, e4⟩ := eval_four h5 hb hF hz hd 1 1 1 2 rfl _ hT
  obtain ⟨i1, i2⟩ := hb.body5 rfl _ p q r s hd.pq hd.pr hd.ps hd.qr hd.qs hd.rs u1 u2 u3 u4 u5
  have g1 := hb.eq_of_eq _ q r (u2.trans u3.symm)
  have g2 := hb.eq_of_eq _ q s (u2.trans u4.symm)
  obtain ⟨t1, t2, t3⟩ := tet_relabel hb (⇑(tet p q r s 2 1 1 1)) (⇑(tet p q r s 1 2 1 1)) (v1.trans u2.symm) (v2.trans u1.symm)
    fun u h1 h2 => by
      by_cases h3 : u = r
      · rw [h3, u3, v3]
      by_cases h4 : u = s
      · rw [h4, u4, v4]
      rw [u5 u h1 h2 h3 h4, v5 u h1 h2 h3 h4]
  obtain ⟨t4, t5, t6⟩ := tet_relabel hb (⇑(tet p q r s 2 1 1 1)) (⇑(tet p q r s 1 1 2 1)) (w1.trans u3.symm) (w3.trans u1.symm)
    fun u h1 h2 => by
      by_cases h3 : u = q
      · rw [h3, u2, w2]
      by_cases h4 : u = s
      · rw [h4, u4, w4]
      rw [u5 u h1 h3 h2 h4, w5 u h1 h3 h2 h4]
  obtain ⟨t7, t8, t9⟩ := tet_relabel hb (⇑(tet p q r s 2 1 1 1)) (⇑(tet p q r s 1 1 1 2)) (x1.trans u4.symm) (x4.trans u1.symm)
    fun u h1 h2 => by
      by_cases h3 : u = q
      · rw [h3, u2, x2]
      by_cases h4 : u = r
      · rw [h4, u3, x3]
      rw [u5 u h1 h3 h4 h2, x5 u h1 h3 h4 h2]
  rw [Finset.sum_insert (by decide), Finset.sum_insert (by decide), Finset.sum_pair (by decide)] at e1 e2 e3 e4
  simp only [pow_one] at e1 e2 e3 e4
  rw [t1, t2, t3 r hd.pr.symm hd.qr.symm, t3 s hd.ps.symm hd.qs.symm] at e2
  rw [t4, t5, t6 q hd.pq.symm hd.qr, t6 s hd.ps.symm hd.rs.symm] at e3
  rw [t7, t8, t9 q hd.pq.symm hd.qs, t9 r hd.pr.symm hd.rs] at e4
  rw [← g1, ← g2] at e1 s1 e2 e3 e4
  generalize coeff (tet p q r s 2 1 1 1) F = c1 at *
  generalize coeff (tet p q r s 1 2 1 1) F = c2 at *
  generalize coeff (tet p q r s 1 1 2 1) F = c3 at *
  generalize coeff (tet p q r s 1 1 1 2) F = c4 at *
  generalize b (⇑(tet p q r s 2 1 1 1)) p = A at *
  generalize b (⇑(tet p q r s 2 1 1 1)) q = C at *
  have hC : 0 < C := by linarith
  have hA : 0 < A := by linarith
  have hn : A * C * C * C ≠ 0 := by positivity
  have f1 : A * c1 + C * (c2 + c3 + c4) = 0 :=
    (mul_eq_zero.1 (by linear_combination e1 : A * C * C * C * _ = 0)).resolve_left hn
  have f2 : A * c2 + C * (c1 + c3 + c4) = 0 :=
    (mul_eq_zero.1 (by linear_combination e2 : A * C * C * C * _ = 0)).resolve_left hn
  have f3 : A * c3 + C * (c1 + c2 + c4) = 0 :=
    (mul_eq_zero.1 (by linear_combination e3 : A * C * C * C * _ = 0)).resolve_left hn
  have f4 : A * c4 + C * (c1 + c2 + c3) = 0 :=
    (mul_eq_zero.1 (by linear_combination e4 : A * C * C * C * _ = 0)).resolve_left hn
  have hs : c1 + c2 + c3 + c4 = 0 := by linear_combination f1 + f2 + f3 + f4 - (c1 + c2 + c3 + c4) * s1
  have hne : A - C ≠ 0 := by intro h; linarith
  refine ⟨?_, ?_, ?_, ?_⟩
  · exact (mul_eq_zero.1 (by linear_combination f1 - C * hs : (A - C) * c1 = 0)).resolve_left hne
  · exact (mul_eq_zero.1 (by linear_combination f2 - C * hs : (A - C) * c2 = 0)).resolve_left hne
  · exact (mul_eq_zero.1 (by linear_combination f3 - C * hs : (A - C) * c3 = 0)).resolve_left hne
  · exact (mul_eq_zero.1 (by linear_combination f4 - C * hs : (A - C) * c4 = 0)).resolve_left hne

/-- A form of degree three, four or five vanishing at all points is zero. -/
theorem form_zero (hk : k = 3 ∨ k = 4) (hn : n = 3 ∨ n = 4 ∨ n = 5) (hb : FacePoints k n b) {F : MvPolynomial (Fin k) ℝ}
    (hF : F.IsHomogeneous n) (hz : ∀ a, ∑ p, a p = n → eval (b a) F = 0) : F = 0 := by
  ext α
  rw [coeff_zero]
  rcases hk with rfl | rfl
  · refine coeff_on_three hn hb hF hz (p := 0) (q := 1) (r := 2) (by decide) (by decide) (by decide) α fun s h1 h2 h3 => ?_
    fin_cases s <;> simp at h1 h2 h3
  · by_contra hne
    have hs := sum_of_coeff hF hne
    rw [Fin.sum_univ_four] at hs
    have hd : Distinct4 (0 : Fin 4) 1 2 3 := ⟨by decide, by decide, by decide, by decide, by decide, by decide⟩
    have hlow : ∀ p q r s : Fin 4, Distinct4 p q r s → (∀ u, u = p ∨ u = q ∨ u = r ∨ u = s) → α s ≠ 0 := by
      intro p q r s h hu h0
      refine hne (coeff_on_three hn hb hF hz h.pq h.pr h.qr α fun u e1 e2 e3 => ?_)
      rcases hu u with rfl | rfl | rfl | rfl
      exacts [absurd rfl e1, absurd rfl e2, absurd rfl e3, h0]
    have h0 := hlow 1 2 3 0 ⟨by decide, by decide, by decide, by decide, by decide, by decide⟩ (by decide)
    have h1 := hlow 0 2 3 1 ⟨by decide, by decide, by decide, by decide, by decide, by decide⟩ (by decide)
    have h2 := hlow 0 1 3 2 ⟨by decide, by decide, by decide, by decide, by decide, by decide⟩ (by decide)
    have h3 := hlow 0 1 2 3 hd (by decide)
    rw [eq_tet hd α fun u e1 e2 e3 e4 => by fin_cases u <;> simp at e1 e2 e3 e4] at hne
    apply hne
    generalize α 0 = x at *
    generalize α 1 = y at *
    generalize α 2 = z at *
    generalize α 3 = w at *
    rcases hn with rfl | rfl | rfl
    · omega
    · obtain ⟨rfl, rfl, rfl, rfl⟩ : x = 1 ∧ y = 1 ∧ z = 1 ∧ w = 1 := by omega
      exact body_coeff_four hb hF hz hd
    · obtain ⟨a1, a2, a3, a4⟩ := body_coeff_five hb hF hz hd
      obtain ⟨rfl, rfl, rfl, rfl⟩ | ⟨rfl, rfl, rfl, rfl⟩ | ⟨rfl, rfl, rfl, rfl⟩ | ⟨rfl, rfl, rfl, rfl⟩ :
        x = 2 ∧ y = 1 ∧ z = 1 ∧ w = 1 ∨ x = 1 ∧ y = 2 ∧ z = 1 ∧ w = 1 ∨ x = 1 ∧ y = 1 ∧ z = 2 ∧ w = 1 ∨
        x = 1 ∧ y = 1 ∧ z = 1 ∧ w = 2 := by omega
      exacts [a1, a2, a3, a4]

end Modepy

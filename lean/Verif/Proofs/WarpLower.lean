import Mathlib.Data.Fin.Tuple.Sort
import Verif.Proofs.WarpUnisolvence

/-!
# Warp & blend nodes up to order five lie in the simplex
-/

namespace Modepy
open Spec NdArray

section lower
variable {d n : Nat} {x : Fin (n + 1) → ℝ} {B : (Fin (d + 1) → ℝ) → Fin (d + 1) → ℝ}

/-- Equal coordinates stay equal. -/
theorem WarpMap.eq_of_eq (hB : WarpMap d n x B) (l : Fin (d + 1) → ℝ) (p q : Fin (d + 1)) (h : l p = l q) : B l p = B l q := by
  have e : l ∘ Equiv.swap p q = l := by
    funext r
    by_cases h1 : r = p
    · subst h1; simp [h]
    by_cases h2 : r = q
    · subst h2; simp [h]
    simp [Equiv.swap_apply_of_ne_of_ne h1 h2]
  have := hB.perm l (Equiv.swap p q) q
  rw [e, Equiv.swap_apply_right] at this
  exact this.symm

/-- The coordinates of a node on three corners add up to one. -/
theorem WarpMap.sum_three (hB : WarpMap d n x B) (l : Fin (d + 1) → ℝ) (p q r : Fin (d + 1)) (hpq : p ≠ q) (hpr : p ≠ r)
    (hqr : q ≠ r) (h0 : ∀ s, s ≠ p → s ≠ q → s ≠ r → l s = 0) : B l p + B l q + B l r = l p + l q + l r := by
  have key : ∀ f : Fin (d + 1) → ℝ, (∀ s, s ≠ p → s ≠ q → s ≠ r → f s = 0) → ∑ s, f s = f p + f q + f r := by
    intro f hf
    rw [← Finset.sum_subset (Finset.subset_univ {p, q, r}) fun s _ hs => ?_, Finset.sum_insert (by simp [hpq, hpr]),
      Finset.sum_pair hqr, add_assoc]
    simp only [Finset.mem_insert, Finset.mem_singleton, not_or] at hs
    exact hf s hs.1 hs.2.1 hs.2.2
  rw [← key (B l) fun s h1 h2 h3 => hB.face l s (h0 s h1 h2 h3), hB.sum, key l h0]

/-- The same with four corners. -/
theorem WarpMap.sum_four (hB : WarpMap d n x B) (l : Fin (d + 1) → ℝ) (p q r s : Fin (d + 1)) (hpq : p ≠ q) (hpr : p ≠ r)
    (hps : p ≠ s) (hqr : q ≠ r) (hqs : q ≠ s) (hrs : r ≠ s) (h0 : ∀ u, u ≠ p → u ≠ q → u ≠ r → u ≠ s → l u = 0) :
    B l p + B l q + B l r + B l s = l p + l q + l r + l s := by
  have key : ∀ f : Fin (d + 1) → ℝ, (∀ u, u ≠ p → u ≠ q → u ≠ r → u ≠ s → f u = 0) → ∑ u, f u = f p + f q + f r + f s := by
    intro f hf
    rw [← Finset.sum_subset (Finset.subset_univ {p, q, r, s}) fun u _ hu => ?_, Finset.sum_insert (by simp [hpq, hpr, hps]),
      Finset.sum_insert (by simp [hqr, hqs]), Finset.sum_pair hrs]
    · ring
    · simp only [Finset.mem_insert, Finset.mem_singleton, not_or] at hu
      exact hf u hu.1 hu.2.1 hu.2.2.1 hu.2.2.2
  rw [← key (B l) fun u h1 h2 h3 h4 => hB.face l u (h0 u h1 h2 h3 h4), hB.sum, key l h0]

/-- Coordinates on an edge. -/
theorem WarpMap.lower_two (hB : WarpMap d n x B)
    (hx : ∀ j : Fin (n + 1), 0 < (j : ℕ) → (j : ℕ) < n → -(9 / 10) ≤ x j ∧ x j ≤ 9 / 10) (h1 : x (Fin.last n) = 1)
    (a : Fin (d + 1) → ℕ) (p q : Fin (d + 1)) (hpq : p ≠ q) (hs : a p + a q = n) (hp : 0 < a p)
    (h0 : ∀ r, r ≠ p → r ≠ q → a r = 0) : 1 / 30 ≤ B (fun p => (a p : ℝ) / n) p := by
  rw [hB.edge (a p) (a q) hs _ p q hpq rfl rfl fun r e1 e2 => by simp [h0 r e1 e2]]
  by_cases hq : a q = 0
  · have e : x ⟨a p, by omega⟩ = 1 := by rw [← h1]; congr 1; apply Fin.ext; simp; omega
    rw [e]
    norm_num
  · have := (hx ⟨a p, by omega⟩ hp (by simp only; omega)).1
    linarith

/-- Coordinates in a triangle. -/
theorem WarpMap.lower_three (hB : WarpMap d n x B) (hn : n ≤ 5) (a : Fin (d + 1) → ℕ) (p q r : Fin (d + 1)) (hpq : p ≠ q)
    (hpr : p ≠ r) (hqr : q ≠ r) (hs : a p + a q + a r = n) (hp : 0 < a p) (hle1 : a p ≤ a q) (hle2 : a q ≤ a r)
    (h0 : ∀ s, s ≠ p → s ≠ q → s ≠ r → a s = 0) (s : Fin (d + 1)) (hs' : 0 < a s) :
    1 / 30 ≤ B (fun p => (a p : ℝ) / n) s := by
  have hz : ∀ s, s ≠ p → s ≠ q → s ≠ r → (a s : ℝ) / n = 0 := fun s h1 h2 h3 => by simp [h0 s h1 h2 h3]
  have hsum := hB.sum_three (fun p => (a p : ℝ) / n) p q r hpq hpr hqr hz
  have hone : (a p : ℝ) / n + a q / n + a r / n = 1 := by
    have : (0 : ℝ) < n := by exact_mod_cast (by omega : 0 < n)
    rw [← add_div, ← add_div, div_eq_one_iff_eq this.ne']
    exact_mod_cast hs
  simp only [hone] at hsum
  have hmem : s = p ∨ s = q ∨ s = r := by
    by_contra h
    push Not at h
    have := h0 s h.1 h.2.1 h.2.2
    omega
  suffices h : 1 / 30 ≤ B (fun p => (a p : ℝ) / n) p ∧ 1 / 30 ≤ B (fun p => (a p : ℝ) / n) q ∧
      1 / 30 ≤ B (fun p => (a p : ℝ) / n) r by
    rcases hmem with rfl | rfl | rfl
    exacts [h.1, h.2.1, h.2.2]
  have hcase : (n = 3 ∧ a p = 1 ∧ a q = 1 ∧ a r = 1) ∨ (n = 4 ∧ a p = 1 ∧ a q = 1 ∧ a r = 2) ∨
      (n = 5 ∧ a p = 1 ∧ a q = 1 ∧ a r = 3) ∨ (n = 5 ∧ a p = 1 ∧ a q = 2 ∧ a r = 2) := by omega
  have heq : ∀ u v, a u = a v → B (fun p => (a p : ℝ) / n) u = B (fun p => (a p : ℝ) / n) v :=
    fun u v h => hB.eq_of_eq _ u v (by simp only [h])
  rcases hcase with ⟨rfl, e1, e2, e3⟩ | ⟨rfl, e1, e2, e3⟩ | ⟨rfl, e1, e2, e3⟩ | ⟨rfl, e1, e2, e3⟩
  · have f1 := heq p q (by omega)
    have f2 := heq p r (by omega)
    refine ⟨?_, ?_, ?_⟩ <;> linarith
  · have f1 := heq p q (by omega)
    obtain ⟨g1, g2⟩ := hB.inner.four rfl (fun p => (a p : ℝ) / (4 : ℕ)) r p q hpr.symm hqr.symm hpq
      (by simp only [e3]; norm_num) (by simp only [e1]; norm_num) (by simp only [e2]; norm_num) fun s k1 k2 k3 => hz s k2 k3 k1
    refine ⟨?_, ?_, ?_⟩ <;> linarith
  · have f1 := heq p q (by omega)
    obtain ⟨g1, g2⟩ := hB.inner.five rfl (fun p => (a p : ℝ) / (5 : ℕ)) r p q hpr.symm hqr.symm hpq
      (by simp only [e3]; norm_num) (by simp only [e1]; norm_num) (by simp only [e2]; norm_num) fun s k1 k2 k3 => hz s k2 k3 k1
    refine ⟨?_, ?_, ?_⟩ <;> linarith
  · have f1 := heq q r (by omega)
    obtain ⟨g1, g2⟩ := hB.inner.pair rfl (fun p => (a p : ℝ) / (5 : ℕ)) p q r hpq hpr hqr
      (by simp only [e1]; norm_num) (by simp only [e2]; norm_num) (by simp only [e3]; norm_num) fun s k1 k2 k3 => hz s k1 k2 k3
    refine ⟨?_, ?_, ?_⟩ <;> linarith

/-- Coordinates in the interior of the tetrahedron. -/
theorem WarpMap.lower_four (hB : WarpMap d n x B) (hn : n ≤ 5) (a : Fin (d + 1) → ℕ) (p q r s : Fin (d + 1)) (hpq : p ≠ q)
    (hpr : p ≠ r) (hps : p ≠ s) (hqr : q ≠ r) (hqs : q ≠ s) (hrs : r ≠ s) (hs : a p + a q + a r + a s = n) (hp : 0 < a p)
    (hle1 : a p ≤ a q) (hle2 : a q ≤ a r) (hle3 : a r ≤ a s) (h0 : ∀ u, u ≠ p → u ≠ q → u ≠ r → u ≠ s → a u = 0)
    (u : Fin (d + 1)) (hu : 0 < a u) : 1 / 30 ≤ B (fun p => (a p : ℝ) / n) u := by
  have hz : ∀ u, u ≠ p → u ≠ q → u ≠ r → u ≠ s → (a u : ℝ) / n = 0 := fun u h1 h2 h3 h4 => by simp [h0 u h1 h2 h3 h4]
  have hsum := hB.sum_four (fun p => (a p : ℝ) / n) p q r s hpq hpr hps hqr hqs hrs hz
  have hone : (a p : ℝ) / n + a q / n + a r / n + a s / n = 1 := by
    have : (0 : ℝ) < n := by exact_mod_cast (by omega : 0 < n)
    rw [← add_div, ← add_div, ← add_div, div_eq_one_iff_eq this.ne']
    exact_mod_cast hs
  simp only [hone] at hsum
  have hmem : u = p ∨ u = q ∨ u = r ∨ u = s := by
    by_contra h
    push Not at h
    have := h0 u h.1 h.2.1 h.2.2.1 h.2.2.2
    omega
  suffices h : 1 / 30 ≤ B (fun p => (a p : ℝ) / n) p ∧ 1 / 30 ≤ B (fun p => (a p : ℝ) / n) q ∧
      1 / 30 ≤ B (fun p => (a p : ℝ) / n) r ∧ 1 / 30 ≤ B (fun p => (a p : ℝ) / n) s by
    rcases hmem with rfl | rfl | rfl | rfl
    exacts [h.1, h.2.1, h.2.2.1, h.2.2.2]
  have hcase : (n = 4 ∧ a p = 1 ∧ a q = 1 ∧ a r = 1 ∧ a s = 1) ∨ (n = 5 ∧ a p = 1 ∧ a q = 1 ∧ a r = 1 ∧ a s = 2) := by omega
  have heq : ∀ u v, a u = a v → B (fun p => (a p : ℝ) / n) u = B (fun p => (a p : ℝ) / n) v :=
    fun u v h => hB.eq_of_eq _ u v (by simp only [h])
  have f1 := heq p q (by omega)
  have f2 := heq p r (by omega)
  rcases hcase with ⟨rfl, e1, e2, e3, e4⟩ | ⟨rfl, e1, e2, e3, e4⟩
  · have f3 := heq p s (by omega)
    refine ⟨?_, ?_, ?_, ?_⟩ <;> linarith
  · obtain ⟨g1, g2⟩ := hB.inner.body rfl (fun p => (a p : ℝ) / (5 : ℕ)) s p q r hps.symm hqs.symm hrs.symm hpq hpr hqr
      (by simp only [e4]; norm_num) (by simp only [e1]; norm_num) (by simp only [e2]; norm_num) (by simp only [e3]; norm_num)
      fun u k1 k2 k3 k4 => hz u k2 k3 k4 k1
    refine ⟨?_, ?_, ?_, ?_⟩ <;> linarith

end lower

/-- Every corner with a positive entry of the tuple has a barycentric coordinate of at least `1 / 30`. -/
theorem WarpMap.lower {d n : Nat} (hd : d = 2 ∨ d = 3) {x : Fin (n + 1) → ℝ} {B : (Fin (d + 1) → ℝ) → Fin (d + 1) → ℝ}
    (hB : WarpMap d n x B) (hn : n ≤ 5)
    (hx : ∀ j : Fin (n + 1), 0 < (j : ℕ) → (j : ℕ) < n → -(9 / 10) ≤ x j ∧ x j ≤ 9 / 10) (h1 : x (Fin.last n) = 1)
    (a : Fin (d + 1) → ℕ) (hs : ∑ p, a p = n) (p : Fin (d + 1)) (hp : 0 < a p) : 1 / 30 ≤ B (fun p => (a p : ℝ) / n) p := by
  -- sort the entries
  have hperm := hB.perm (fun p => (a p : ℝ) / n) (Tuple.sort a) ((Tuple.sort a).symm p)
  rw [Equiv.apply_symm_apply] at hperm
  rw [← hperm]
  have hmono := Tuple.monotone_sort a
  have hs' : ∑ p, (a ∘ Tuple.sort a) p = n := by rw [← hs]; exact Equiv.sum_comp _ a
  have hp' : 0 < (a ∘ Tuple.sort a) ((Tuple.sort a).symm p) := by simpa using hp
  change 1 / 30 ≤ B (fun p => (((a ∘ Tuple.sort a) p : ℕ) : ℝ) / n) _
  generalize (Tuple.sort a).symm p = p' at *
  generalize a ∘ Tuple.sort a = b at *
  clear hperm hp hs a p
  rcases hd with rfl | rfl
  · have m1 : b 0 ≤ b 1 := hmono (by decide)
    have m2 : b 1 ≤ b 2 := hmono (by decide)
    rw [Fin.sum_univ_three] at hs'
    have hall : ∀ s : Fin 3, s = 0 ∨ s = 1 ∨ s = 2 := by decide
    by_cases z0 : b 0 = 0
    · have hz : ∀ r : Fin 3, r ≠ 1 → r ≠ 2 → b r = 0 := fun r e1 e2 => by
        rcases hall r with rfl | rfl | rfl <;> first | assumption | contradiction
      rcases hall p' with rfl | rfl | rfl
      · omega
      · exact hB.lower_two hx h1 b 1 2 (by decide) (by omega) hp' hz
      · exact hB.lower_two hx h1 b 2 1 (by decide) (by omega) hp' fun r e1 e2 => hz r e2 e1
    · exact hB.lower_three hn b 0 1 2 (by decide) (by decide) (by decide) hs' (by omega) m1 m2
        (fun s e0 e1 e2 => by rcases hall s with rfl | rfl | rfl <;> contradiction) p' hp'
  · have m1 : b 0 ≤ b 1 := hmono (by decide)
    have m2 : b 1 ≤ b 2 := hmono (by decide)
    have m3 : b 2 ≤ b 3 := hmono (by decide)
    rw [Fin.sum_univ_four] at hs'
    have hall : ∀ s : Fin 4, s = 0 ∨ s = 1 ∨ s = 2 ∨ s = 3 := by decide
    by_cases z0 : b 0 = 0
    · by_cases z1 : b 1 = 0
      · have hz : ∀ r : Fin 4, r ≠ 2 → r ≠ 3 → b r = 0 := fun r e1 e2 => by
          rcases hall r with rfl | rfl | rfl | rfl <;> first | assumption | contradiction
        rcases hall p' with rfl | rfl | rfl | rfl
        · omega
        · omega
        · exact hB.lower_two hx h1 b 2 3 (by decide) (by omega) hp' hz
        · exact hB.lower_two hx h1 b 3 2 (by decide) (by omega) hp' fun r e1 e2 => hz r e2 e1
      · exact hB.lower_three hn b 1 2 3 (by decide) (by decide) (by decide) (by omega) (by omega) m2 m3
          (fun s e0 e1 e2 => by rcases hall s with rfl | rfl | rfl | rfl <;> first | assumption | contradiction) p' hp'
    · exact hB.lower_four hn b 0 1 2 3 (by decide) (by decide) (by decide) (by decide) (by decide) (by decide) hs' (by omega)
        m1 m2 m3 (fun s e0 e1 e2 e3 => by rcases hall s with rfl | rfl | rfl | rfl <;> contradiction) p' hp'

end Modepy

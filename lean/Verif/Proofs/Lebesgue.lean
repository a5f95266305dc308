import Verif.Model.Lebesgue
import Verif.Props.BasisSpan
import Verif.Props.Shapes
import Verif.Spec.Geometry

/-!
# Sample lattices and the matrix of the Lebesgue function
-/

namespace Modepy
open Spec NdArray

theorem npMax_spec (l : List ℝ) (h : l ≠ []) : ∃ c, npMax l = .ok c ∧ c ∈ l ∧ ∀ a ∈ l, a ≤ c := by
  obtain ⟨x, xs, rfl⟩ := List.exists_cons_of_ne_nil h
  refine ⟨_, rfl, ?_⟩
  clear h
  induction xs generalizing x with
  | nil => simp
  | cons y ys ih =>
    simp only [List.foldl_cons]
    obtain ⟨h1, h2⟩ := ih (max x y)
    constructor
    · rcases List.mem_cons.1 h1 with h | h
      · rcases max_choice x y with e | e
        · rw [h, e]; simp
        · rw [h, e]; simp
      · simp [h]
    · intro a ha
      have hm := h2 (max x y) (by simp)
      rcases List.mem_cons.1 ha with rfl | ha
      · exact (le_max_left _ _).trans hm
      · rcases List.mem_cons.1 ha with rfl | ha
        · exact (le_max_right _ _).trans hm
        · exact h2 a (by simp [ha])

/-- Rows of the Vandermonde matrix of a basis given in terms of `φ`. -/
noncomputable def basisRow {n : Nat} (φ : Fin n → List ℝ → ℝ) (C : Matrix (Fin n) (Fin n) ℝ) (x : List ℝ) : List ℝ :=
  List.ofFn fun k => combine φ (C k) x

theorem lebesgueRows_eq {n : Nat} (φ : Fin n → List ℝ → ℝ) (C : Matrix (Fin n) (Fin n) ℝ) (hC : C.det ≠ 0)
    (nodes : Fin n → List ℝ) (pts : List (List ℝ)) :
    (¬ Unisolvent φ nodes → lebesgueRows n (List.ofFn fun i => basisRow φ C (nodes i)) (pts.map (basisRow φ C)) =
      .error .LinAlgError) ∧
    ∀ ℓ, IsLagrangeBasis φ nodes ℓ →
      lebesgueRows n (List.ofFn fun i => basisRow φ C (nodes i)) (pts.map (basisRow φ C)) =
        .ok (pts.map fun x => ∑ j, |ℓ j x|) := by
  have hA : (Matrix.of fun i j : Fin n => (((List.ofFn fun i => basisRow φ C (nodes i)).getD i []).getD j 0 : ℝ)).transpose =
      C * (vandermonde φ nodes).transpose := by
    ext j i
    simp [List.getD_eq_getElem?_getD, basisRow, combine, Matrix.mul_apply, vandermonde]
  unfold lebesgueRows
  rw [if_neg (by simp), hA]
  constructor
  · intro hu
    rw [unisolvent_iff_det, not_not] at hu
    rw [npSolve, if_pos (by rw [Matrix.det_mul, Matrix.det_transpose, hu, mul_zero])]
  · rintro ℓ ⟨D, hD, hδ⟩
    have h1 : Matrix.of D * (vandermonde φ nodes).transpose = 1 := by
      ext i j
      rw [Matrix.one_apply, ← hδ i j, hD i]
      simp [Matrix.mul_apply, vandermonde, combine]
    have h2 : (vandermonde φ nodes).transpose * Matrix.of D = 1 := mul_eq_one_comm.1 h1
    have hdet : (C * (vandermonde φ nodes).transpose).det ≠ 0 := by
      rw [Matrix.det_mul]
      refine mul_ne_zero hC fun h0 => ?_
      have := congrArg Matrix.det h2
      rw [Matrix.det_mul, h0, zero_mul, Matrix.det_one] at this
      exact zero_ne_one this
    have hB : (Matrix.of fun (i : Fin (pts.map (basisRow φ C)).length) (j : Fin n) =>
        (((pts.map (basisRow φ C)).getD i []).getD j 0 : ℝ)).transpose =
        C * (vandermonde φ nodes).transpose * (Matrix.of D * Matrix.of fun (l : Fin n)
          (i : Fin (pts.map (basisRow φ C)).length) => φ l (pts.getD i [])) := by
      rw [Matrix.mul_assoc, ← Matrix.mul_assoc _ (Matrix.of D), h2, Matrix.one_mul]
      ext j i
      have hi : (i : Nat) < pts.length := by simpa using i.2
      simp [List.getD_eq_getElem?_getD, hi, basisRow, combine, Matrix.mul_apply]
    rw [npSolve, if_neg hdet, hB, Matrix.nonsing_inv_mul_cancel_left _ _ hdet.isUnit]
    simp only [Except.ok.injEq]
    apply List.ext_getElem (by simp)
    intro i hi hi'
    simp only [List.length_map] at hi'
    simp only [List.getElem_ofFn, List.getElem_map]
    refine Finset.sum_congr rfl fun j _ => ?_
    rw [hD j]
    simp [Matrix.mul_apply, combine, List.getD_eq_getElem?_getD, hi']

theorem mem_nodeTuples (space : Space) (t : List Nat) :
    t ∈ nodeTuples space ↔ ∃ parts : List (List Nat),
      List.Forall₂ (fun b p => p.length = b.spatialDim ∧ p.sum ≤ b.order) space.flatBases parts ∧ t = parts.flatten := by
  cases space with
  | pn s =>
    rw [C01_mem]
    constructor
    · intro h
      exact ⟨[t], by simpa [Space.flatBases] using h, by simp⟩
    · rintro ⟨parts, hp, rfl⟩
      simp only [Space.flatBases] at hp
      rcases hp with _ | ⟨h, hn⟩
      cases hn
      simpa using h
  | tp bs => exact mem_nodeTuplesTP bs t
  | qn d n => exact mem_nodeTuplesTP _ t

/-- The lattice of spacing `2/N` on a product of simplices. -/
def Spec.lattice (shape : Shape) (N : Nat) : Set (List ℝ) :=
  {x | ∃ parts : List (List Nat), List.Forall₂ (fun d p => p.length = d ∧ p.sum ≤ N) shape.flatBases parts ∧
    x = parts.flatten.map fun a : Nat => (a : ℝ) / N * 2 - 1}

theorem inSimplex_lattice {d N : Nat} (p : List Nat) (hl : p.length = d) (hs : p.sum ≤ N) :
    InSimplex d (p.map fun a : Nat => (a : ℝ) / N * 2 - 1) := by
  refine ⟨by simpa using hl, fun m _ => ?_⟩
  rcases m with _ | m
  · simp only [bary, List.map_map]
    have e : (p.map ((fun c : ℝ => (1 + c) / 2) ∘ fun a : Nat => (a : ℝ) / N * 2 - 1)).sum = (p.sum : ℝ) / N := by
      clear hl hs
      induction p with
      | nil => simp
      | cons a p ih => simp only [List.map_cons, List.sum_cons, ih, Function.comp]; push_cast; ring
    rw [e, sub_nonneg]
    exact div_le_one_of_le₀ (by exact_mod_cast hs) (Nat.cast_nonneg _)
  · simp only [bary]
    by_cases hm : m < p.length
    · simp only [List.getD_eq_getElem?_getD, List.getElem?_map, List.getElem?_eq_getElem hm, Option.map_some,
        Option.getD_some]
      have : (0 : ℝ) ≤ (p[m] : ℝ) / N := by positivity
      linarith
    · rw [List.getD_eq_getElem?_getD, List.getElem?_eq_none (by simpa using hm)]
      norm_num

theorem inProduct_lattice {N : Nat} {dims : List Nat} {parts : List (List Nat)}
    (h : List.Forall₂ (fun d p => p.length = d ∧ p.sum ≤ N) dims parts) :
    InProduct dims (parts.flatten.map fun a : Nat => (a : ℝ) / N * 2 - 1) := by
  induction h with
  | nil => simp [InProduct]
  | @cons d p dims parts hp _ ih =>
    simp only [List.flatten_cons, List.map_append, InProduct]
    rw [List.take_left' (by simpa using hp.1), List.drop_left' (by simpa using hp.1)]
    exact ⟨inSimplex_lattice p hp.1 hp.2, ih⟩

theorem inCube_of_inProduct (d : Nat) (x : List ℝ) (h : InProduct (List.replicate d 1) x) : InCube d x := by
  induction d generalizing x with
  | zero => simp only [List.replicate_zero, InProduct] at h; subst h; simp [InCube]
  | succ d ih =>
    obtain ⟨h1, h2⟩ := h
    obtain ⟨h3, h4⟩ := ih _ h2
    rcases x with _ | ⟨y, x⟩
    · simp [InSimplex] at h1
    · simp only [List.take_succ_cons, List.take_zero, List.drop_succ_cons, List.drop_zero] at h1 h3 h4
      refine ⟨by simp [h3], fun c hc => ?_⟩
      rcases List.mem_cons.1 hc with rfl | hc
      · have e0 := h1.2 0 (by omega)
        have e1 := h1.2 1 (by omega)
        simp [bary] at e0 e1
        constructor <;> linarith
      · exact h4 c hc

theorem inShape_of_inProduct (shape : Shape) (x : List ℝ) (h : InProduct shape.flatBases x) : InShape shape x := by
  cases shape with
  | simplex d =>
    obtain ⟨h1, h2⟩ := h
    have hd : x.take d = x := by
      have h3 : x.drop d = [] := h2
      have := List.take_append_drop d x
      rwa [h3, List.append_nil] at this
    rw [hd] at h1
    exact h1
  | tp ds => exact h
  | hypercube d => exact inCube_of_inProduct d x h

theorem slices_flatten {dims : List Nat} {parts : List (List Nat)} {P : Nat → List Nat → Prop} (f : Nat → ℝ)
    (h : List.Forall₂ (fun d p => p.length = d ∧ P d p) dims parts) :
    slices dims (parts.flatten.map f) = parts.map (List.map f) := by
  induction h with
  | nil => rfl
  | @cons d p dims parts hp _ ih =>
    simp only [List.flatten_cons, List.map_append, slices, List.map_cons]
    rw [List.take_left' (by simpa using hp.1), List.drop_left' (by simpa using hp.1), ih]

theorem regular_lattice {d N : Nat} (hN : N ≤ 10 ^ 10) (p : List Nat) (hl : p.length = d) (hs : p.sum ≤ N) :
    Regular d (p.map fun a : Nat => (a : ℝ) / N * 2 - 1) := by
  have hgap : ∀ a : Nat, a < N → (2e-10 : ℝ) ≤ 2 - (a : ℝ) / N * 2 := by
    intro a ha
    have hN0 : (0 : ℝ) < N := by exact_mod_cast (by omega : 0 < N)
    have h1 : (a : ℝ) + 1 ≤ N := by exact_mod_cast ha
    have h2 : (N : ℝ) ≤ 10 ^ 10 := by exact_mod_cast hN
    have h3 : (1 : ℝ) / 10 ^ 10 ≤ 1 / N := one_div_le_one_div_of_le hN0 h2
    have h4 : (a : ℝ) / N ≤ 1 - 1 / N := by
      rw [div_le_iff₀ hN0]
      field_simp
      linarith
    norm_num at h3 h4 ⊢
    linarith
  have hfull : 0 < N → (N : ℝ) / N = 1 := fun h => div_self (by positivity)
  match d, p, hl with
  | 0, _, hl => simpa [Regular] using hl
  | 1, _, hl => simpa [Regular] using hl
  | 2, [a, b], _ =>
    simp only [List.sum_cons, List.sum_nil] at hs
    show _ ∨ _
    rcases Nat.eq_zero_or_pos N with rfl | h0
    · left; norm_num
    rcases Nat.lt_or_ge b N with hb | hb
    · left
      have := hgap b hb
      rw [abs_of_neg (by norm_num at this ⊢; linarith)]
      norm_num at this ⊢
      linarith
    · right
      obtain rfl : b = N := by omega
      obtain rfl : a = 0 := by omega
      simp only [hfull h0]
      norm_num
  | 3, [a, b, c], _ =>
    simp only [List.sum_cons, List.sum_nil] at hs
    show _ ∨ _ ∨ _
    rcases Nat.eq_zero_or_pos N with rfl | h0
    · left; norm_num
    have hbc : ((b + c : Nat) : ℝ) / N * 2 = (b : ℝ) / N * 2 + (c : ℝ) / N * 2 := by push_cast; ring
    rcases Nat.lt_or_ge c N with hc | hc
    · have h2 : (1e-10 : ℝ) < |(c : ℝ) / N * 2 - 1 - 1| := by
        have := hgap c hc
        rw [abs_of_neg (by norm_num at this ⊢; linarith)]
        norm_num at this ⊢
        linarith
      rcases Nat.lt_or_ge (b + c) N with hb | hb
      · left
        refine ⟨?_, h2⟩
        have := hgap (b + c) hb
        rw [hbc] at this
        rw [abs_of_neg (by norm_num at this ⊢; linarith)]
        norm_num at this ⊢
        linarith
      · right; left
        obtain rfl : a = 0 := by omega
        have e : b + c = N := by omega
        rw [e, hfull h0] at hbc
        refine ⟨by norm_num, by linarith, h2⟩
    · right; right
      obtain rfl : c = N := by omega
      obtain rfl : a = 0 := by omega
      obtain rfl : b = 0 := by omega
      simp only [hfull h0]
      norm_num
  | d + 4, _, hl => simpa [Regular] using hl

end Modepy

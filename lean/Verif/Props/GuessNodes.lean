import Verif.Model.Construction
import Mathlib.Analysis.Convex.Combination
import Mathlib.Analysis.Complex.Polynomial.Basic
import Mathlib.LinearAlgebra.Matrix.Charpoly.Eigs
import Mathlib.LinearAlgebra.Matrix.ToLinearEquiv
import Mathlib.RingTheory.Polynomial.Basic
import Mathlib.LinearAlgebra.Dimension.Finrank

/-!
# Property C63: node guesses from the multiplication operator
-/

namespace Modepy
open Matrix
open scoped ComplexConjugate

theorem exists_eigenvector {n : Nat} (M : Matrix (Fin n) (Fin n) ℂ) (μ : ℂ) (h : μ ∈ M.charpoly.roots) :
    ∃ v, v ≠ 0 ∧ M *ᵥ v = μ • v := by
  have hroot : M.charpoly.IsRoot μ := (Polynomial.mem_roots'.1 h).2
  rw [Polynomial.IsRoot.def, Matrix.eval_charpoly] at hroot
  obtain ⟨v, hv, h0⟩ := Matrix.exists_mulVec_eq_zero_iff.2 hroot
  refine ⟨v, hv, ?_⟩
  rw [Matrix.sub_mulVec, sub_eq_zero] at h0
  rw [← h0]
  simp [Matrix.scalar_apply, ← Matrix.smul_one_eq_diagonal, Matrix.smul_mulVec]

theorem mem_roots_of_eigenvector {n : Nat} (M : Matrix (Fin n) (Fin n) ℂ) (μ : ℂ) (v : Fin n → ℂ) (hv : v ≠ 0)
    (h : M *ᵥ v = μ • v) : μ ∈ M.charpoly.roots := by
  rw [Polynomial.mem_roots (Matrix.charpoly_monic M).ne_zero, Polynomial.IsRoot.def, Matrix.eval_charpoly]
  refine Matrix.exists_mulVec_eq_zero_iff.1 ⟨v, hv, ?_⟩
  rw [Matrix.sub_mulVec, h, sub_eq_zero]
  simp [Matrix.scalar_apply, ← Matrix.smul_one_eq_diagonal, Matrix.smul_mulVec]

/-- The quadratic form of a weighted Gram matrix. -/
theorem gram_form {n K : Nat} (c : Fin K → ℂ) (φ : Fin n → Fin K → ℂ) (v : Fin n → ℂ) :
    ∑ i, conj (v i) * ∑ j, (∑ k, c k * (φ i k * conj (φ j k))) * v j =
      ∑ k, c k * (Complex.normSq (∑ i, conj (v i) * φ i k) : ℂ) := by
  have e : ∀ k, c k * (Complex.normSq (∑ i, conj (v i) * φ i k) : ℂ) =
      ∑ i, ∑ j, conj (v i) * (c k * (φ i k * conj (φ j k)) * v j) := by
    intro k
    rw [← Complex.mul_conj, map_sum, Finset.sum_mul_sum, Finset.mul_sum]
    refine Finset.sum_congr rfl fun i _ => ?_
    rw [Finset.mul_sum]
    refine Finset.sum_congr rfl fun j _ => ?_
    simp only [map_mul, Complex.conj_conj]
    ring
  simp only [e]
  rw [Finset.sum_comm]
  refine Finset.sum_congr rfl fun i _ => ?_
  rw [Finset.sum_comm, Finset.mul_sum]
  refine Finset.sum_congr rfl fun j _ => ?_
  rw [Finset.sum_mul, Finset.mul_sum]

/-- **C63 (nodes stay in the domain).**  If `integrate` is a quadrature with nonnegative weights at points of a convex set
and `onb` is orthonormal for it, then `guess_nodes_vioreanu_rokhlin` returns `len(onb)` nodes, all in that set. -/
theorem C63_in_convex (eigvals : ∀ n, Matrix (Fin n) (Fin n) ℂ → Py (List ℂ)) (hE : EigvalsOk eigvals) {n K : Nat}
    (w : Fin K → ℝ) (z : Fin K → ℂ) (hw : ∀ k, 0 ≤ w k) (Ω : Set ℂ) (hΩ : Convex ℝ Ω) (hz : ∀ k, z k ∈ Ω)
    (onb : Fin n → ℂ → ℂ)
    (horth : ∀ i j, ∑ k, (w k : ℂ) * (onb i (z k) * conj (onb j (z k))) = if i = j then 1 else 0) (l : List ℂ)
    (h : guessNodes eigvals (fun f => ∑ k, (w k : ℂ) * f (z k)) onb = .ok l) :
    l.length = n ∧ ∀ x ∈ l, x ∈ Ω := by
  set M := multiplicationMatrix (fun f => ∑ k, (w k : ℂ) * f (z k)) onb with hM
  have hn : n ≠ 0 := by
    intro h0
    rw [guessNodes, if_pos h0] at h
    cases h
  rw [guessNodes, if_neg hn] at h
  have hroots := hE n M l h
  constructor
  · have e1 : (l : Multiset ℂ).card = l.length := Multiset.coe_card l
    rw [← e1, hroots]
    have := IsAlgClosed.card_roots_eq_natDegree (p := M.charpoly)
    rw [this, Matrix.charpoly_natDegree_eq_dim, Fintype.card_fin]
  · intro x hx
    have hx' : x ∈ M.charpoly.roots := by rw [← hroots]; exact hx
    obtain ⟨v, hv, hMv⟩ := exists_eigenvector M x hx'
    set u : Fin K → ℝ := fun k => Complex.normSq (∑ i, conj (v i) * onb i (z k)) with hu
    have h1 := gram_form (fun k => (w k : ℂ) * z k) (fun i k => onb i (z k)) v
    have h2 := gram_form (fun k => (w k : ℂ)) (fun i k => onb i (z k)) v
    simp only [horth] at h2
    have hvv : (∑ i, conj (v i) * ∑ j, (if i = j then (1 : ℂ) else 0) * v j) = ((∑ i, Complex.normSq (v i) : ℝ) : ℂ) := by
      rw [Complex.ofReal_sum]
      refine Finset.sum_congr rfl fun i _ => ?_
      simp [Complex.normSq_eq_conj_mul_self]
    rw [hvv] at h2
    have hMl : (∑ i, conj (v i) * ∑ j, (∑ k, (w k : ℂ) * z k * (onb i (z k) * conj (onb j (z k)))) * v j) =
        x * ((∑ i, Complex.normSq (v i) : ℝ) : ℂ) := by
      rw [Complex.ofReal_sum, Finset.mul_sum]
      refine Finset.sum_congr rfl fun i _ => ?_
      have := congrFun hMv i
      rw [Matrix.mulVec, dotProduct] at this
      have e : ∀ j, M i j = ∑ k, (w k : ℂ) * z k * (onb i (z k) * conj (onb j (z k))) := by
        intro j
        rw [hM, multiplicationMatrix, Matrix.of_apply]
        refine Finset.sum_congr rfl fun k _ => ?_
        ring
      simp only [e] at this
      rw [this, Pi.smul_apply, smul_eq_mul, Complex.normSq_eq_conj_mul_self]
      ring
    rw [hMl] at h1
    have hpos : 0 < ∑ i, Complex.normSq (v i) := by
      obtain ⟨i, hi⟩ := Function.ne_iff.1 hv
      exact Finset.sum_pos' (fun i _ => Complex.normSq_nonneg _) ⟨i, Finset.mem_univ _, Complex.normSq_pos.2 hi⟩
    have hS : ∑ k, w k * u k = ∑ i, Complex.normSq (v i) := by
      have : ((∑ k, w k * u k : ℝ) : ℂ) = ((∑ i, Complex.normSq (v i) : ℝ) : ℂ) := by
        rw [h2]
        push_cast
        rfl
      exact_mod_cast this
    have hx2 : x = Finset.univ.centerMass (fun k => w k * u k) z := by
      rw [Finset.centerMass, hS, Complex.real_smul]
      have hne : ((∑ i, Complex.normSq (v i) : ℝ) : ℂ) ≠ 0 := by exact_mod_cast hpos.ne'
      have h3 : x * ((∑ i, Complex.normSq (v i) : ℝ) : ℂ) = ∑ k, (w k * u k) • z k := by
        rw [h1]
        refine Finset.sum_congr rfl fun k _ => ?_
        rw [Complex.real_smul, hu]
        push_cast
        ring
      rw [← h3, Complex.ofReal_inv]
      field_simp
    rw [hx2]
    exact hΩ.centerMass_mem (fun k _ => mul_nonneg (hw k) (Complex.normSq_nonneg _)) (by rw [hS]; exact hpos) fun k _ => hz k

/-- **C63 (one dimension: Gauss nodes).**  If `onb` is a basis of the polynomials of degree below `n`, orthonormal for a
linear `integrate`, then every root of the polynomial of degree `n` orthogonal to all of them is among the returned
nodes; when these roots are distinct they are all the returned nodes. -/
theorem C63_gauss (eigvals : ∀ n, Matrix (Fin n) (Fin n) ℂ → Py (List ℂ)) (hE : EigvalsOk eigvals) {n : Nat}
    (integrate : (ℂ → ℂ) →ₗ[ℂ] ℂ) (b : Fin n → Polynomial ℂ) (hdeg : ∀ i, (b i).degree < n)
    (horth : ∀ i j, integrate (fun z => (b i).eval z * conj ((b j).eval z)) = if i = j then 1 else 0)
    (P : Polynomial ℂ) (hP : P.natDegree = n) (hPorth : ∀ j, integrate (fun z => P.eval z * conj ((b j).eval z)) = 0)
    (l : List ℂ) (h : guessNodes eigvals integrate (fun i z => (b i).eval z) = .ok l) :
    (∀ x, P.IsRoot x → x ∈ l) ∧ (P.roots.Nodup → (l : Multiset ℂ) = P.roots) := by
  have hn : n ≠ 0 := by
    intro h0
    rw [guessNodes, if_pos h0] at h
    cases h
  rw [guessNodes, if_neg hn] at h
  have hroots := hE n _ l h
  have hP0 : P ≠ 0 := by
    intro h0
    rw [h0, Polynomial.natDegree_zero] at hP
    exact hn hP.symm
  -- expansion in the orthonormal basis
  have hind : LinearIndependent ℂ b := by
    rw [Fintype.linearIndependent_iff]
    intro c hc j
    have e : integrate (fun z => (∑ i, c i • b i).eval z * conj ((b j).eval z)) = c j := by
      have : (fun z => (∑ i, c i • b i).eval z * conj ((b j).eval z)) =
          ∑ i, c i • fun z => (b i).eval z * conj ((b j).eval z) := by
        funext z
        simp only [Polynomial.eval_finsetSum, Polynomial.eval_smul, Finset.sum_apply, Pi.smul_apply, smul_eq_mul,
          Finset.sum_mul, mul_assoc]
      rw [this, map_sum]
      simp [horth]
    rw [hc] at e
    rw [← e]
    have : (fun z => (0 : Polynomial ℂ).eval z * conj ((b j).eval z)) = 0 := by
      funext z
      simp
    rw [this, map_zero]
  have hspan : ∀ q : Polynomial ℂ, q.degree < n → ∃ c : Fin n → ℂ, q = ∑ j, c j • b j := by
    intro q hq
    have hmem : ∀ i, b i ∈ Polynomial.degreeLT ℂ n := fun i => Polynomial.mem_degreeLT.2 (hdeg i)
    let b' : Fin n → Polynomial.degreeLT ℂ n := fun i => ⟨b i, hmem i⟩
    have hind' : LinearIndependent ℂ b' := by
      apply LinearIndependent.of_comp (Polynomial.degreeLT ℂ n).subtype
      exact hind
    have hfr : Fintype.card (Fin n) = Module.finrank ℂ (Polynomial.degreeLT ℂ n) := by
      rw [(Polynomial.degreeLTEquiv ℂ n).finrank_eq]
      simp
    have hne : Nonempty (Fin n) := ⟨⟨0, Nat.pos_of_ne_zero hn⟩⟩
    have := (basisOfLinearIndependentOfCardEqFinrank hind' hfr).sum_repr ⟨q, Polynomial.mem_degreeLT.2 hq⟩
    refine ⟨fun j => (basisOfLinearIndependentOfCardEqFinrank hind' hfr).repr ⟨q, Polynomial.mem_degreeLT.2 hq⟩ j, ?_⟩
    have e := congrArg Subtype.val this
    simp only [coe_basisOfLinearIndependentOfCardEqFinrank, b'] at e
    refine e.symm.trans ?_
    rw [AddSubmonoidClass.coe_finsetSum]
    rfl
  have hmul : ∀ i, ∃ a : ℂ, ∀ z, z * (b i).eval z =
      ∑ j, multiplicationMatrix integrate (fun i z => (b i).eval z) i j * (b j).eval z + a * P.eval z := by
    intro i
    have hlead : P.leadingCoeff ≠ 0 := Polynomial.leadingCoeff_ne_zero.2 hP0
    have hXd : (Polynomial.X * b i).degree ≤ ((n : Nat) : WithBot Nat) := by
      by_cases hb : b i = 0
      · rw [hb]
        simp
      · rw [Polynomial.degree_mul, Polynomial.degree_X, Polynomial.degree_eq_natDegree hb]
        have := hdeg i
        rw [Polynomial.degree_eq_natDegree hb] at this
        have h1 : (b i).natDegree < n := by exact_mod_cast this
        have : 1 + (b i).natDegree ≤ n := by omega
        exact_mod_cast this
    set a := (Polynomial.X * b i).coeff n / P.leadingCoeff with ha
    have hq : (Polynomial.X * b i - a • P).degree < ((n : Nat) : WithBot Nat) := by
      rw [Polynomial.degree_lt_iff_coeff_zero]
      intro m hm
      rcases eq_or_lt_of_le hm with rfl | hm'
      · rw [Polynomial.coeff_sub, Polynomial.coeff_smul, smul_eq_mul, ha]
        have : P.coeff n = P.leadingCoeff := by rw [Polynomial.leadingCoeff, hP]
        rw [this]
        field_simp
        ring
      · have h1 : (Polynomial.X * b i).coeff m = 0 :=
          Polynomial.coeff_eq_zero_of_degree_lt (lt_of_le_of_lt hXd (by exact_mod_cast hm'))
        have h2 : P.coeff m = 0 := Polynomial.coeff_eq_zero_of_natDegree_lt (by omega)
        rw [Polynomial.coeff_sub, Polynomial.coeff_smul, h1, h2]
        simp
    obtain ⟨c, hc⟩ := hspan _ hq
    have hX : ∀ z, z * (b i).eval z = ∑ j, c j * (b j).eval z + a * P.eval z := by
      intro z
      have := congrArg (Polynomial.eval z) hc
      simp only [Polynomial.eval_sub, Polynomial.eval_mul, Polynomial.eval_X, Polynomial.eval_smul, smul_eq_mul,
        Polynomial.eval_finsetSum] at this
      linear_combination this
    refine ⟨a, fun z => ?_⟩
    rw [hX]
    congr 1
    refine Finset.sum_congr rfl fun j _ => ?_
    congr 1
    rw [multiplicationMatrix, Matrix.of_apply]
    have : (fun z => z * (b i).eval z * conj ((b j).eval z)) =
        ∑ k, c k • (fun z => (b k).eval z * conj ((b j).eval z)) + a • fun z => P.eval z * conj ((b j).eval z) := by
      funext z
      rw [hX z]
      simp only [Finset.sum_apply, Pi.add_apply, Pi.smul_apply, smul_eq_mul, add_mul, Finset.sum_mul, mul_assoc]
    rw [this, map_add, map_sum]
    simp [horth, hPorth]
  choose a ha using hmul
  have hmem : ∀ x, P.IsRoot x → x ∈ (multiplicationMatrix integrate fun i z => (b i).eval z).charpoly.roots := by
    intro x hx
    refine mem_roots_of_eigenvector _ x (fun j => (b j).eval x) ?_ ?_
    · intro h0
      obtain ⟨c, hc⟩ := hspan 1 (by rw [Polynomial.degree_one]; exact_mod_cast Nat.pos_of_ne_zero hn)
      have := congrArg (Polynomial.eval x) hc
      simp only [Polynomial.eval_one, Polynomial.eval_finsetSum, Polynomial.eval_smul] at this
      have h00 : ∀ j, (b j).eval x = 0 := fun j => congrFun h0 j
      simp [h00] at this
    · funext i
      have := ha i x
      rw [hx.eq_zero, mul_zero, add_zero] at this
      simp only [Matrix.mulVec, dotProduct, Pi.smul_apply, smul_eq_mul]
      exact this.symm
  constructor
  · intro x hx
    have := hmem x hx
    rw [← hroots] at this
    exact this
  · intro hnd
    rw [hroots]
    symm
    apply Multiset.eq_of_le_of_card_le
    · rw [Multiset.le_iff_subset hnd]
      intro x hx
      exact hmem x (Polynomial.mem_roots'.1 hx).2
    · rw [IsAlgClosed.card_roots_eq_natDegree, IsAlgClosed.card_roots_eq_natDegree, Matrix.charpoly_natDegree_eq_dim,
        Fintype.card_fin, hP]

/-- A lawful `eigvals` exists. -/
theorem exists_eigvalsOk : ∃ eigvals : ∀ n, Matrix (Fin n) (Fin n) ℂ → Py (List ℂ), EigvalsOk eigvals ∧
    ∀ n M, ∃ l, eigvals n M = .ok l := by
  refine ⟨fun n M => .ok M.charpoly.roots.toList, ?_, fun n M => ⟨_, rfl⟩⟩
  intro n M l h
  cases h
  simp

/-- Non-vacuity: two points `±1` with weights `1/2` and the orthonormal functions `1, z`; the guess succeeds. -/
example : ∃ eigvals, EigvalsOk eigvals ∧ ∃ l, guessNodes eigvals
    (fun f => ∑ k, (((fun _ => 1 / 2 : Fin 2 → ℝ) k : ℝ) : ℂ) * f ((![1, -1] : Fin 2 → ℂ) k))
    (![fun _ => 1, fun z => z] : Fin 2 → ℂ → ℂ) = .ok l ∧ l.length = 2 ∧ ∀ x ∈ l, x ∈ {z : ℂ | z.im = 0} := by
  obtain ⟨eigvals, hE, hex⟩ := exists_eigvalsOk
  obtain ⟨l, hl⟩ := hex 2 (multiplicationMatrix
    (fun f => ∑ k, (((fun _ => 1 / 2 : Fin 2 → ℝ) k : ℝ) : ℂ) * f ((![1, -1] : Fin 2 → ℂ) k))
    (![fun _ => 1, fun z => z] : Fin 2 → ℂ → ℂ))
  have hg : guessNodes eigvals
    (fun f => ∑ k, (((fun _ => 1 / 2 : Fin 2 → ℝ) k : ℝ) : ℂ) * f ((![1, -1] : Fin 2 → ℂ) k))
    (![fun _ => 1, fun z => z] : Fin 2 → ℂ → ℂ) = .ok l := by
    rw [guessNodes, if_neg (by norm_num)]
    exact hl
  refine ⟨eigvals, hE, l, hg, ?_⟩
  refine C63_in_convex eigvals hE (fun _ => 1 / 2) ![1, -1] (fun _ => by norm_num) {z : ℂ | z.im = 0} ?_ ?_ _ ?_ l hg
  · intro x hx y hy a b _ _ _
    simp only [Set.mem_ofPred_eq] at hx hy ⊢
    simp [hx, hy]
  · intro k
    fin_cases k <;> simp
  · intro i j
    fin_cases i <;> fin_cases j <;> simp [Fin.sum_univ_two] <;> norm_num

end Modepy

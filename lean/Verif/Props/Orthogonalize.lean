import Verif.Props.LinearCombination
import Verif.Proofs.TensorNodes
import Mathlib.LinearAlgebra.Matrix.Block

/-!
# Property C51: orthogonalize_basis
-/

namespace Modepy
open Matrix Spec
open scoped ComplexOrder ComplexConjugate

variable {ι X : Type}

theorem collect_elim {α : Type*} {l : List (Py α)} {r : List α} (h : collect l = .ok r) :
    r.length = l.length ∧ ∀ (i : Nat) (hi : i < l.length) (hi' : i < r.length), l[i] = .ok r[i] := by
  induction l generalizing r with
  | nil =>
    simp only [collect, Except.ok.injEq] at h
    subst h
    simp
  | cons a l ih =>
    unfold collect at h
    cases a with
    | error e => simp at h
    | ok a =>
      simp only at h
      cases hl : collect l with
      | error e => rw [hl] at h; simp at h
      | ok r' =>
        rw [hl] at h
        simp only [Except.ok.injEq] at h
        subst h
        obtain ⟨h1, h2⟩ := ih hl
        refine ⟨by simp [h1], fun i hi hi' => ?_⟩
        cases i with
        | zero => rfl
        | succ i => exact h2 i (by simpa using hi) (by simpa using hi')

/-- Gram matrix `∫ f_i conj(f_j)`. -/
noncomputable def gram {n : Nat} (I : (X → ℂ) → ℂ) (f : Fin n → X → ℂ) : Matrix (Fin n) (Fin n) ℂ :=
  Matrix.of fun i j => I fun x => f i x * conj (f j x)

theorem gram_conj {n : Nat} {I : (X → ℂ) →ₗ[ℂ] ℂ} (hI : ∀ f, I (fun x => conj (f x)) = conj (I f)) (f : Fin n → X → ℂ)
    (i j : Fin n) : gram I f j i = conj (gram I f i j) := by
  simp only [gram, Matrix.of_apply]
  rw [← hI]
  congr 1
  funext x
  simp [mul_comm]

theorem sum_apply_mul {n : Nat} (I : (X → ℂ) →ₗ[ℂ] ℂ) (f : Fin n → X → ℂ) (a b : Fin n → ℂ) :
    I (fun x => (∑ k, a k * f k x) * conj (∑ l, b l * f l x)) = ∑ k, ∑ l, a k * conj (b l) * gram I f k l := by
  have e : (fun x => (∑ k, a k * f k x) * conj (∑ l, b l * f l x)) =
      ∑ k, ∑ l, (a k * conj (b l)) • fun x => f k x * conj (f l x) := by
    funext x
    simp only [Finset.sum_apply, Pi.smul_apply, smul_eq_mul, map_sum, map_mul, Finset.sum_mul_sum]
    refine Finset.sum_congr rfl fun k _ => Finset.sum_congr rfl fun l _ => ?_
    ring
  rw [e]
  simp only [map_sum, map_smul, smul_eq_mul, gram, Matrix.of_apply]

/-- Facts on a Cholesky factor of a Gram matrix. -/
theorem chol_facts {n : Nat} {L G : Matrix (Fin n) (Fin n) ℂ} (htri : ∀ i j, i < j → L i j = 0) (hdiag : ∀ i, 0 < L i i)
    (hG : L * Lᴴ = G) : L.det ≠ 0 ∧ (∀ i j, i < j → L⁻¹ i j = 0) ∧ (∀ i, L⁻¹ i i ≠ 0) ∧ L⁻¹ * L = 1 ∧ L * L⁻¹ = 1 ∧
      L⁻¹ * G * (L⁻¹)ᴴ = 1 := by
  have hB : L.BlockTriangular OrderDual.toDual := fun i j h => htri i j h
  have hdet : L.det ≠ 0 := by
    rw [det_of_lowerTriangular L hB]
    exact Finset.prod_ne_zero_iff.2 fun i _ => (hdiag i).ne'
  have hu : IsUnit L.det := isUnit_iff_ne_zero.2 hdet
  letI := L.invertibleOfIsUnitDet hu
  have hinv := blockTriangular_inv_of_blockTriangular hB
  have h1 : L⁻¹ * L = 1 := nonsing_inv_mul L hu
  have h2 : L * L⁻¹ = 1 := mul_nonsing_inv L hu
  have htinv : ∀ i j, i < j → L⁻¹ i j = 0 := fun i j h => hinv h
  refine ⟨hdet, htinv, ?_, h1, h2, ?_⟩
  · intro i h0
    have e : (L⁻¹ * L) i i = 1 := by rw [h1]; simp
    rw [Matrix.mul_apply, Finset.sum_eq_zero] at e
    · exact zero_ne_one e
    · intro k _
      rcases lt_trichotomy i k with h | h | h
      · rw [htinv i k h, zero_mul]
      · rw [← h, h0, zero_mul]
      · rw [htri k i h, mul_zero]
  · rw [← hG, ← Matrix.mul_assoc, h1, Matrix.one_mul, ← conjTranspose_mul, h1, conjTranspose_one]

theorem linComb_take {n : Nat} (c : Fin n → ℂ) (i : Fin n) (hc : ∀ j, i < j → c j = 0) (vs : List ℂ) (hv : vs.length = n) :
    linComb ((List.ofFn c).take (i + 1)) (vs.take (i + 1)) = ∑ k, c k * vs.getD k 0 := by
  rw [linComb_getD (i + 1) _ _ (by simp) (by simp [hv])]
  have e : ∑ k, c k * vs.getD k 0 = ∑ k ∈ Finset.range n, (List.ofFn c).getD k 0 * vs.getD k 0 := by
    rw [Finset.sum_range]
    refine Finset.sum_congr rfl fun k _ => ?_
    simp [List.getD_eq_getElem?_getD]
  rw [e, ← Finset.sum_subset (Finset.range_subset_range.2 (show (i : Nat) + 1 ≤ n by omega))]
  · refine Finset.sum_congr rfl fun k hk => ?_
    simp only [Finset.mem_range] at hk
    have hkn : k < n := by omega
    simp [List.getD_eq_getElem?_getD, hk, hkn]
  · intro k hk hk'
    simp only [Finset.mem_range] at hk hk'
    have : (List.ofFn c).getD k 0 = c ⟨k, hk⟩ := by simp [List.getD_eq_getElem?_getD, hk]
    rw [this, hc ⟨k, hk⟩ (by rw [Fin.lt_def]; simp only; omega), zero_mul]

/-- **C51.**  For every linear `integrate` compatible with conjugation and every basis: the functions `orthogonalize_basis`
returns are orthonormal, the `i`-th is a combination of the first `i+1` basis functions with nonzero last coefficient, and
conversely every basis function is such a combination of the returned ones (so the spans agree, step by step). -/
theorem C51_orthonormal (eq : Fn ι → Fn ι → Py Bool) (env : ι → X → ℂ) (hs : EqSound eq env)
    (chol : ∀ n, Matrix (Fin n) (Fin n) ℂ → Py (Matrix (Fin n) (Fin n) ℂ)) (hchol : CholOk chol)
    (I : (X → ℂ) →ₗ[ℂ] ℂ) (hI : ∀ f, I (fun x => conj (f x)) = conj (I f)) (kind : SeqKind) (basis : List (Fn ι))
    (hb : ∀ f ∈ basis, f.Checked) (gs : List (Fn ι)) (h : orthogonalizeBasis eq env chol I kind basis = .ok gs) :
    ∃ hl : gs.length = basis.length,
    (∀ i j : Fin basis.length, I (fun x => (gs.get (i.cast hl.symm)).eval env x * conj ((gs.get (j.cast hl.symm)).eval env x)) =
      if i = j then 1 else 0) ∧
    (∀ i : Fin basis.length, ∃ c : Fin basis.length → ℂ, c i ≠ 0 ∧ (∀ j, i < j → c j = 0) ∧
      ∀ x, (gs.get (i.cast hl.symm)).eval env x = ∑ k, c k * (basis.get k).eval env x) ∧
    (∀ i : Fin basis.length, ∃ c : Fin basis.length → ℂ, c i ≠ 0 ∧ (∀ j, i < j → c j = 0) ∧
      ∀ x, (basis.get i).eval env x = ∑ k, c k * (gs.get (k.cast hl.symm)).eval env x) := by
  set n := basis.length with hn
  set f : Fin n → X → ℂ := fun i x => (basis.get i).eval env x with hf
  unfold orthogonalizeBasis at h
  simp only at h
  split_ifs at h with h0
  cases hc : chol basis.length (massMatrixOf I fun (i : Fin basis.length) x => (basis.get i).eval env x) with
  | error e => rw [hc] at h; simp at h
  | ok L =>
    rw [hc] at h
    have hreal : ∀ i, (massMatrixOf I f i i).im = 0 := by
      intro i
      have := gram_conj hI f i i
      simp only [massMatrixOf, Matrix.of_apply, le_refl, if_true]
      have h2 := congrArg Complex.im this
      simp only [gram, Matrix.of_apply, Complex.conj_im] at h2
      have h3 : (I fun x => f i x * conj (f i x)).im = -(I fun x => f i x * conj (f i x)).im := h2
      linarith
    obtain ⟨htri, hdiag, hlow⟩ := hchol.factor _ _ _ hc hreal
    have hG : L * Lᴴ = gram I f := by
      ext i j
      rcases le_total j i with hij | hij
      · rw [hlow i j hij]
        simp only [massMatrixOf, Matrix.of_apply, if_pos hij]
        rfl
      · have e := hlow j i hij
        have e2 : (L * Lᴴ) i j = conj ((L * Lᴴ) j i) := by
          have : (L * Lᴴ)ᴴ = L * Lᴴ := by rw [conjTranspose_mul, conjTranspose_conjTranspose]
          conv_lhs => rw [← this]
          rfl
        rw [e2, e, gram_conj hI f j i]
        simp only [massMatrixOf, Matrix.of_apply, if_pos hij]
        rfl
    obtain ⟨hdet, htinv, hdinv, h1, h2, hone⟩ := chol_facts htri hdiag hG
    simp only [npInv, if_neg hdet] at h
    split_ifs at h with hass
    obtain ⟨hlen, hget⟩ := collect_elim h
    have hl : gs.length = n := by simpa using hlen
    have hval : ∀ i : Fin n, ∀ x, (gs.get (i.cast hl.symm)).eval env x = ∑ k, L⁻¹ i k * f k x := by
      intro i x
      have e := hget i (by simp [hn.symm]) (by omega)
      simp only [List.getElem_map, List.getElem_finRange] at e
      have := (C50_value eq env hs _ kind _ (fun f hf => hb f (List.mem_of_mem_take hf)) _ e).2.2 x
      rw [List.get_eq_getElem]
      simp only [Fin.val_cast]
      rw [this, List.map_take]
      refine (linComb_take (fun k => L⁻¹ i k) i (fun j hj => htinv i j hj) (basis.map (Fn.eval env x)) (by simp [hn])).trans ?_
      refine Finset.sum_congr rfl fun k _ => ?_
      simp [hf, List.getD_eq_getElem?_getD]
    refine ⟨hl, ?_, ?_, ?_⟩
    · intro i j
      have e : (fun x => (gs.get (i.cast hl.symm)).eval env x * conj ((gs.get (j.cast hl.symm)).eval env x)) =
          fun x => (∑ k, L⁻¹ i k * f k x) * conj (∑ l, L⁻¹ j l * f l x) := by
        funext x
        rw [hval, hval]
      rw [e, sum_apply_mul]
      have : (L⁻¹ * gram I f * (L⁻¹)ᴴ) i j = if i = j then 1 else 0 := by
        rw [hone, Matrix.one_apply]
      rw [← this, Matrix.mul_apply]
      simp only [Matrix.mul_apply, conjTranspose_apply, Finset.sum_mul]
      rw [Finset.sum_comm]
      refine Finset.sum_congr rfl fun k _ => Finset.sum_congr rfl fun l _ => ?_
      simp only [starRingEnd_apply]
      ring
    · exact fun i => ⟨fun k => L⁻¹ i k, hdinv i, fun j hj => htinv i j hj, hval i⟩
    · intro i
      refine ⟨fun k => L i k, (hdiag i).ne', fun j hj => htri i j hj, fun x => ?_⟩
      have e : ∑ k, L i k * (gs.get (k.cast hl.symm)).eval env x = ∑ l, (L * L⁻¹) i l * f l x := by
        simp only [hval, Finset.mul_sum, Matrix.mul_apply, Finset.sum_mul]
        rw [Finset.sum_comm]
        refine Finset.sum_congr rfl fun k _ => Finset.sum_congr rfl fun l _ => ?_
        ring
      rw [e, h2]
      simp [Matrix.one_apply, hf]

/-- **C51 (success).**  On a nonempty list of plain functions with positive definite inner product the call succeeds; it
fails on the empty list. -/
theorem C51_succeeds (eq : Fn ι → Fn ι → Py Bool) (env : ι → X → ℂ)
    (chol : ∀ n, Matrix (Fin n) (Fin n) ℂ → Py (Matrix (Fin n) (Fin n) ℂ)) (hchol : CholOk chol)
    (I : (X → ℂ) →ₗ[ℂ] ℂ) (hI : ∀ f, I (fun x => conj (f x)) = conj (I f)) (kind : SeqKind) (basis : List ι) :
    (basis ≠ [] → (∀ c : Fin basis.length → ℂ, c ≠ 0 →
      0 < I (fun x => (∑ k, c k * env (basis.get k) x) * conj (∑ k, c k * env (basis.get k) x))) →
      ∃ gs, orthogonalizeBasis eq env chol I kind (basis.map Fn.leaf) = .ok gs) ∧
    (basis = [] → orthogonalizeBasis eq env chol I kind (basis.map Fn.leaf) = .error .LinAlgError) := by
  constructor
  swap
  · rintro rfl
    simp [orthogonalizeBasis]
  intro hne hpos
  set B : List (Fn ι) := basis.map Fn.leaf with hB
  have hn : B.length = basis.length := by simp [hB]
  set f : Fin B.length → X → ℂ := fun i x => (B.get i).eval env x with hf
  have hfe : ∀ i x, f i x = env (basis.get (i.cast hn)) x := by
    intro i x
    simp [hf, hB, Fn.eval]
  have hpd : (gram I f).PosDef := by
    rw [posDef_iff_dotProduct_mulVec]
    refine ⟨?_, ?_⟩
    · ext i j
      rw [conjTranspose_apply]
      exact (gram_conj hI f j i).symm
    · intro x hx
      have hc : (fun k => conj (x (Fin.cast hn.symm k))) ≠ (0 : Fin basis.length → ℂ) := by
        intro h0
        apply hx
        funext k
        have := congrFun h0 (k.cast hn)
        simpa using this
      have := hpos _ hc
      have e : (fun y => (∑ k, conj (x (Fin.cast hn.symm k)) * env (basis.get k) y) *
          conj (∑ k, conj (x (Fin.cast hn.symm k)) * env (basis.get k) y)) =
          fun y => (∑ k, conj (x k) * f k y) * conj (∑ k, conj (x k) * f k y) := by
        funext y
        have : ∑ k, conj (x (Fin.cast hn.symm k)) * env (basis.get k) y = ∑ k, conj (x k) * f k y := by
          simp only [hfe]
          exact (Equiv.sum_comp (finCongr hn) fun k => conj (x (Fin.cast hn.symm k)) * env (basis.get k) y).symm
        rw [this]
      rw [e, sum_apply_mul] at this
      convert this using 1
      simp only [dotProduct, mulVec, Finset.mul_sum, Pi.star_apply, Complex.conj_conj]
      refine Finset.sum_congr rfl fun k _ => Finset.sum_congr rfl fun l _ => ?_
      simp only [starRingEnd_apply]
      ring
  obtain ⟨L, hL⟩ := hchol.posDef _ (massMatrixOf I f) (gram I f) hpd (fun i j hij => by
    simp only [massMatrixOf, Matrix.of_apply, if_pos hij]; rfl)
  have hreal : ∀ i, (massMatrixOf I f i i).im = 0 := by
    intro i
    have h2 := congrArg Complex.im (gram_conj hI f i i)
    simp only [gram, Matrix.of_apply, Complex.conj_im] at h2
    simp only [massMatrixOf, Matrix.of_apply, le_refl, if_true]
    have h3 : (I fun x => f i x * conj (f i x)).im = -(I fun x => f i x * conj (f i x)).im := h2
    linarith
  obtain ⟨htri, hdiag, -⟩ := hchol.factor _ _ _ hL hreal
  obtain ⟨hdet, htinv, -⟩ := chol_facts (G := L * Lᴴ) htri hdiag rfl
  have hB0 : B.length ≠ 0 := by
    rw [hn]
    exact fun h => hne (List.length_eq_zero_iff.1 h)
  refine ⟨(List.finRange B.length).map fun i =>
    Fn.lc ((List.ofFn (L⁻¹ i)).take (i + 1)) kind (B.take (i + 1)), ?_⟩
  unfold orthogonalizeBasis
  simp only
  rw [if_neg hB0, hL]
  simp only [npInv, if_neg hdet]
  rw [if_pos]
  · refine collect_map_of_ok _ _ _ fun i _ => ?_
    have hi : (i : Nat) < basis.length := by omega
    obtain ⟨b, bs, hbb⟩ := List.exists_cons_of_ne_nil hne
    refine C50_plain eq _ kind _ ?_ b ?_
    · simp
    · have hB' : B = Fn.leaf b :: bs.map Fn.leaf := by rw [hB, hbb]; rfl
      have : ∀ k : Nat, Fn.leaf b ∈ B.take (k + 1) := fun k => by rw [hB']; simp
      exact this i
  · have : (∑ i, ∑ j, if i < j then Complex.normSq (L⁻¹ i j) else 0) = 0 := by
      refine Finset.sum_eq_zero fun i _ => Finset.sum_eq_zero fun j _ => ?_
      split_ifs with hij
      · rw [htinv i j hij]; simp
      · rfl
    rw [this]
    norm_num

/-! ## The Cholesky contract can be met -/

theorem exists_cholesky : ∀ (n : Nat) (H : Matrix (Fin n) (Fin n) ℂ), H.PosDef →
    ∃ L : Matrix (Fin n) (Fin n) ℂ, (∀ i j, i < j → L i j = 0) ∧ (∀ i, 0 < L i i) ∧ L * Lᴴ = H
  | 0, H, _ => ⟨0, by simp, by simp, by ext i; exact i.elim0⟩
  | n + 1, H, hH => by
    set A : Matrix (Fin n) (Fin n) ℂ := H.submatrix Fin.castSucc Fin.castSucc with hA
    have hApd : A.PosDef := hH.submatrix (Fin.castSucc_injective n)
    obtain ⟨L, htri, hdiag, hL⟩ := exists_cholesky n A hApd
    obtain ⟨hdet, htinv, hdinv, h1, h2, hone⟩ := chol_facts htri hdiag hL
    set b : Fin n → ℂ := fun i => H i.castSucc (Fin.last n) with hb
    set y : Fin n → ℂ := L⁻¹ *ᵥ b with hy
    have hLy : L *ᵥ y = b := by rw [hy, mulVec_mulVec, h2, one_mulVec]
    set z : Fin n → ℂ := (L⁻¹)ᴴ *ᵥ y with hz
    have hAz : A *ᵥ z = b := by
      rw [hz, ← hL, mulVec_mulVec, Matrix.mul_assoc, ← conjTranspose_mul, h1, conjTranspose_one, Matrix.mul_one, hLy]
    have hherm : ∀ i j, H i j = conj (H j i) := fun i j => by
      conv_lhs => rw [← hH.isHermitian]
      rfl
    -- the Schur complement is positive
    have hpos : 0 < H (Fin.last n) (Fin.last n) - ∑ k, y k * conj (y k) := by
      have hx : (Fin.snoc (fun i => -z i) 1 : Fin (n + 1) → ℂ) ≠ 0 := by
        intro h
        have := congrFun h (Fin.last n)
        simp at this
      have := (posDef_iff_dotProduct_mulVec.1 hH).2 hx
      convert this using 1
      simp only [dotProduct, mulVec, Fin.sum_univ_castSucc, Pi.star_apply, Fin.snoc_castSucc, Fin.snoc_last, star_one,
        one_mul, mul_one, mul_neg]
      have e1 : ∀ i : Fin n, ∑ x, -(H i.castSucc x.castSucc * z x) + H i.castSucc (Fin.last n) = 0 := by
        intro i
        have := congrFun hAz i
        simp only [mulVec, dotProduct, hA, submatrix_apply, hb] at this
        rw [Finset.sum_neg_distrib, this]
        ring
      simp only [e1, mul_zero, Finset.sum_const_zero, zero_add]
      rw [sub_eq_neg_add, ← Finset.sum_neg_distrib]
      congr 1
      -- bᴴ z = yᴴ y
      have e2 : ∑ x, H (Fin.last n) x.castSucc * z x = star b ⬝ᵥ z := by
        simp only [dotProduct, Pi.star_apply, hb]
        refine Finset.sum_congr rfl fun x _ => ?_
        rw [hherm]
        rfl
      have e3 : star b ⬝ᵥ z = star y ⬝ᵥ y := by
        rw [← hLy, star_mulVec, hz, ← dotProduct_mulVec, mulVec_mulVec, ← conjTranspose_mul, h1, conjTranspose_one,
          one_mulVec]
      rw [Finset.sum_neg_distrib, Finset.sum_neg_distrib, e2, e3]
      simp only [dotProduct, Pi.star_apply, starRingEnd_apply]
      congr 1
      exact Finset.sum_congr rfl fun k _ => mul_comm _ _
    obtain ⟨hre, him⟩ := Complex.lt_def.1 hpos
    set s : ℝ := √ (H (Fin.last n) (Fin.last n) - ∑ k, y k * conj (y k)).re with hs
    have hs0 : 0 < s := Real.sqrt_pos.2 hre
    have hss : ((s : ℂ) * (s : ℂ)) = H (Fin.last n) (Fin.last n) - ∑ k, y k * conj (y k) := by
      rw [← Complex.ofReal_mul, Real.mul_self_sqrt hre.le]
      apply Complex.ext
      · simp
      · simpa using him
    let L' : Matrix (Fin (n + 1)) (Fin (n + 1)) ℂ := Matrix.of fun i j =>
      Fin.lastCases (motive := fun _ => ℂ) (Fin.snoc (α := fun _ => ℂ) (fun k => conj (y k)) (s : ℂ) j)
        (fun i => Fin.snoc (α := fun _ => ℂ) (fun k => L i k) 0 j) i
    have l1 : ∀ i j : Fin n, L' i.castSucc j.castSucc = L i j := by intro i j; simp [L']
    have l2 : ∀ i : Fin n, L' i.castSucc (Fin.last n) = 0 := by intro i; simp [L']
    have l3 : ∀ j : Fin n, L' (Fin.last n) j.castSucc = conj (y j) := by intro j; simp [L']
    have l4 : L' (Fin.last n) (Fin.last n) = s := by simp [L']
    refine ⟨L', ?_, ?_, ?_⟩
    · intro i j
      refine Fin.lastCases (fun h => absurd h (not_lt.2 (Fin.le_last _))) (fun i => ?_) i
      refine Fin.lastCases (fun _ => l2 i) (fun j h => ?_) j
      rw [l1]
      exact htri i j (by simpa using h)
    · intro i
      refine Fin.lastCases ?_ (fun i => ?_) i
      · rw [l4]; exact_mod_cast hs0
      · rw [l1]; exact hdiag i
    · ext i j
      rw [Matrix.mul_apply, Fin.sum_univ_castSucc]
      simp only [conjTranspose_apply]
      refine Fin.lastCases ?_ (fun i => ?_) i <;> refine Fin.lastCases ?_ (fun j => ?_) j
      · simp only [l3, l4]
        have : star (s : ℂ) = s := Complex.conj_ofReal s
        rw [this, hss]
        have e : ∑ x, conj (y x) * star (conj (y x)) = ∑ k, y k * conj (y k) :=
          Finset.sum_congr rfl fun k _ => by rw [← starRingEnd_apply, Complex.conj_conj, mul_comm]
        rw [e]
        ring
      · simp only [l1, l2, l3, star_zero, mul_zero, add_zero]
        rw [hherm]
        have := congrFun hLy j
        simp only [hb, mulVec, dotProduct] at this
        rw [← this, map_sum]
        refine Finset.sum_congr rfl fun k _ => ?_
        rw [map_mul, mul_comm]
        rfl
      · simp only [l1, l2, l3, zero_mul, add_zero]
        have := congrFun hLy i
        simp only [hb, mulVec, dotProduct] at this
        rw [← this]
        refine Finset.sum_congr rfl fun k _ => ?_
        rw [← starRingEnd_apply, Complex.conj_conj]
      · simp only [l1, l2, zero_mul, add_zero]
        have := congrFun (congrFun hL i) j
        rw [Matrix.mul_apply] at this
        simpa [hA] using this

/-- A Cholesky routine meeting the contract exists. -/
theorem exists_cholOk : ∃ chol, CholOk chol := by
  classical
  let herm : ∀ n, Matrix (Fin n) (Fin n) ℂ → Matrix (Fin n) (Fin n) ℂ := fun n M =>
    Matrix.of fun i j => if j ≤ i then M i j else conj (M j i)
  refine ⟨fun n M => if h : (herm n M).PosDef then .ok (exists_cholesky n _ h).choose else .error .LinAlgError, ?_, ?_⟩
  · intro n M L h hreal
    split_ifs at h with hpd
    injection h with h
    have := (exists_cholesky n _ hpd).choose_spec
    rw [h] at this
    refine ⟨this.1, this.2.1, fun i j hij => ?_⟩
    rw [this.2.2]
    simp [herm, hij]
  · intro n M H hH hlow
    have : herm n M = H := by
      ext i j
      simp only [herm, Matrix.of_apply]
      split_ifs with hij
      · exact (hlow i j hij).symm
      · rw [← hlow j i (le_of_not_ge hij)]
        conv_rhs => rw [← hH.isHermitian]
        rfl
    exact ⟨_, dif_pos (by rw [this]; exact hH)⟩

/-- Non-vacuity: two functions on two points, summed, are orthonormalised. -/
example : ∃ (chol : _) (gs : List (Fn Bool)), CholOk chol ∧
    orthogonalizeBasis (X := Bool) (fun _ _ => .ok false) (fun i x => if i then 1 else if x then 1 else 0) chol
      (fun f => f true + f false) .list [.leaf true, .leaf false] = .ok gs := by
  obtain ⟨chol, hchol⟩ := exists_cholOk
  let I : (Bool → ℂ) →ₗ[ℂ] ℂ := 
    LinearMap.proj (R := ℂ) (φ := fun _ : Bool => ℂ) true + LinearMap.proj (R := ℂ) (φ := fun _ : Bool => ℂ) false
  obtain ⟨gs, h⟩ := (C51_succeeds (ι := Bool) (X := Bool) (fun _ _ => .ok false)
    (fun i x => if i then 1 else if x then 1 else 0) chol hchol I (by intro f; simp [I]) .list [true, false]).1 (by simp)
    (by
      intro c hc
      have hnn : ∀ z : ℂ, 0 ≤ z * conj z := fun z => by rw [Complex.mul_conj]; exact_mod_cast Complex.normSq_nonneg z
      have hp : ∀ z : ℂ, z ≠ 0 → 0 < z * conj z := fun z hz => by
        rw [Complex.mul_conj]; exact_mod_cast Complex.normSq_pos.2 hz
      simp only [I, LinearMap.add_apply, LinearMap.proj_apply]
      have e : ∀ v : Bool, (∑ k : Fin 2, c k * (if [true, false].get k then (1 : ℂ) else if v then 1 else 0)) =
          c 0 + if v then c 1 else 0 := by
        intro v
        rw [Fin.sum_univ_two]
        cases v <;> simp
      have e1 := e true
      have e2 := e false
      simp only [if_true, add_zero, Bool.false_eq_true, if_false] at e1 e2
      by_cases h0 : c 0 = 0
      · have h1 : c 1 ≠ 0 := by
          intro h1
          apply hc
          funext k
          have : ∀ k : Fin 2, k = 0 ∨ k = 1 := by decide
          rcases this k with rfl | rfl <;> assumption
        refine add_pos_of_pos_of_nonneg ?_ (hnn _)
        refine hp _ ?_
        refine ne_of_eq_of_ne e1 ?_
        rw [h0, zero_add]
        exact h1
      · refine add_pos_of_nonneg_of_pos (hnn _) (hp _ ?_)
        refine ne_of_eq_of_ne e2 ?_
        exact h0)
  exact ⟨chol, gs, hchol, h⟩

end Modepy

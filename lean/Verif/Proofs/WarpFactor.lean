import Verif.Model.WarpBlend
import Verif.Props.Lobatto
import Verif.Props.Matrices

/-!
# The one-dimensional warp function
-/

namespace Modepy
open Spec Polynomial Matrix

/-! ## Symmetry of the Gauss–Lobatto nodes -/

theorem jpoly_neg {α : ℝ} (h : JacobiParams α α) (n : Nat) (x : ℝ) :
    (jpoly α α n).eval (-x) = (-1) ^ n * (jpoly α α n).eval x := by
  obtain ⟨hα, hβ, -⟩ := id h
  rw [eval_jpoly h, eval_jpoly h, jacobi_eq h, jacobi_eq h, jacobiP_neg α α (by linarith) hα hα]
  ring

/-- Roots of a polynomial that is even or odd, in increasing order, are symmetric about the origin. -/
theorem roots_symm {n : Nat} (p : ℝ[X]) (hp : p ≠ 0) (hd : p.natDegree ≤ n) (e : ℝ)
    (hneg : ∀ x, p.eval (-x) = e * p.eval x) (x : Fin n → ℝ) (hx : StrictMono x) (h : ∀ i, p.eval (x i) = 0)
    (i : Fin n) : x i.rev = -x i := by
  have := roots_unique p hp hd x (fun i => -x i.rev) hx
    (fun a b hab => by simpa using hx (Fin.rev_lt_rev.2 hab)) h (fun i => by rw [hneg, h, mul_zero])
  have h2 : x i = -x i.rev := congrFun this i
  linarith

/-- The Legendre-Gauss-Lobatto nodes are symmetric about the origin. -/
theorem lobatto_symm (ext : Ext) (hext : ext.EighOk) {α : ℝ} (hα : -1 < α) (m : Nat) :
    ∃ x : Fin (m + 2) → ℝ, lobattoNodes ext α α (m + 1) .builtin = .ok x ∧
      x 0 = -1 ∧ x (Fin.last (m + 1)) = 1 ∧ StrictMono x ∧ ∀ i, x i.rev = -x i := by
  obtain ⟨x, v, hok, h0, h1, hmono, -, -, hroot, -⟩ := lobattoNodes_facts ext hext hα hα m
  refine ⟨x, hok, h0, h1, hmono, ?_⟩
  have hp := (gaussParams_succ hα hα).jacobi
  have hsym := roots_symm (jpoly (α + 1) (α + 1) m) (jpoly_ne_zero hp m) (natDegree_jpoly _ _ m) _ (jpoly_neg hp m)
    (fun i : Fin m => x i.succ.castSucc)
    (fun a b hab => hmono (by rw [Fin.lt_def] at hab ⊢; exact Nat.succ_lt_succ hab)) hroot
  intro i
  rcases Fin.eq_castSucc_or_eq_last i with ⟨j, rfl⟩ | rfl
  · rcases Fin.eq_zero_or_eq_succ j with rfl | ⟨k, rfl⟩
    · simp [h0, h1]
    · have := hsym k
      rw [← this]
      congr 1
      apply Fin.ext
      simp [Fin.val_rev]
      omega
  · simp [h0, h1]

/-! ## One-dimensional Jacobi bases are unisolvent -/

theorem combine_eq_poly {n : Nat} {α β : ℝ} (h : JacobiParams α β) (c : Fin n → ℝ) (x : ℝ) :
    combine (fun (k : Fin n) (x : ℝ) => jacobi α β k x) c x = (∑ k : Fin n, C (c k) * jpoly α β k).eval x := by
  rw [combine, eval_finsetSum]
  refine Finset.sum_congr rfl fun k _ => ?_
  rw [eval_mul, eval_C, eval_jpoly h]

theorem natDegree_combine {n : Nat} (α β : ℝ) (c : Fin (n + 1) → ℝ) :
    (∑ k : Fin (n + 1), C (c k) * jpoly α β k).natDegree ≤ n := by
  refine natDegree_sum_le_of_forall_le _ _ fun k _ => ?_
  refine (natDegree_C_mul_le _ _).trans ((natDegree_jpoly α β k).trans ?_)
  have := k.2
  omega

theorem jacobiL_orthonormal {α β : ℝ} (h : JacobiParams α β) (hα : -1 < α) (hβ : -1 < β) (k j : Nat) :
    jacobiL hα hβ (jpoly α β k * jpoly α β j) = if k = j then 1 else 0 := by
  rw [jacobiL_apply, ← C18_orthonormal α β h k j]
  congr 1
  funext t
  rw [eval_mul, eval_jpoly h, eval_jpoly h, jacobiWeight]
  ring

/-- Any `n + 1` distinct points determine the combinations of the first `n + 1` Jacobi polynomials. -/
theorem jacobi_unisolvent {α β : ℝ} (h : JacobiParams α β) (n : Nat) (x : Fin (n + 1) → ℝ)
    (hx : Function.Injective x) :
    Unisolvent (fun (k : Fin (n + 1)) (x : ℝ) => jacobi α β k x) x := by
  intro c hc
  have hz : (∑ k : Fin (n + 1), C (c k) * jpoly α β k) = 0 := by
    refine eq_zero_of_natDegree_lt_card_of_eval_eq_zero _ hx (fun i => ?_) ?_
    · rw [← combine_eq_poly h, hc]
    · rw [Fintype.card_fin]
      exact Nat.lt_succ_of_le (natDegree_combine α β c)
  funext k
  have hzero : ∀ t : ℝ, ∑ j : Fin (n + 1), c j * jacobi α β j t = 0 := by
    intro t
    have := combine_eq_poly h c t
    rw [hz, eval_zero] at this
    exact this
  obtain ⟨hα, hβ, -⟩ := id h
  have hL : jacobiL hα hβ (jpoly α β k * ∑ j : Fin (n + 1), C (c j) * jpoly α β j) = c k := by
    rw [Finset.mul_sum, map_sum, Finset.sum_eq_single k]
    · have e : jpoly α β k * (C (c k) * jpoly α β k) = c k • (jpoly α β k * jpoly α β k) := by
        rw [smul_eq_C_mul]; ring
      rw [e, map_smul, jacobiL_orthonormal h, if_pos rfl, smul_eq_mul, mul_one]
    · intro j _ hj
      have e : jpoly α β k * (C (c j) * jpoly α β j) = c j • (jpoly α β k * jpoly α β j) := by
        rw [smul_eq_C_mul]; ring
      rw [e, map_smul, jacobiL_orthonormal h, if_neg fun hh => hj (Fin.ext hh.symm), smul_zero]
    · intro hk; simp at hk
  rw [hz, mul_zero, map_zero] at hL
  exact hL.symm

/-! ## The warp function -/

theorem linspaceUnit_injective {n : Nat} (hn : n ≠ 0) : Function.Injective (linspaceUnit n) := by
  intro i j hij
  have hn' : (n : ℝ) ≠ 0 := by exact_mod_cast hn
  simp only [linspaceUnit] at hij
  field_simp at hij
  have : (i : ℝ) = j := by linarith
  exact Fin.ext (by exact_mod_cast this)

theorem linspaceUnit_rev {n : Nat} (hn : n ≠ 0) (i : Fin (n + 1)) : linspaceUnit n i.rev = -linspaceUnit n i := by
  have hn' : (n : ℝ) ≠ 0 := by exact_mod_cast hn
  have hi := i.2
  have : ((i.rev : Fin (n + 1)) : ℝ) = n - i := by
    rw [Fin.val_rev, show n + 1 - (i + 1) = n - i by omega, Nat.cast_sub (by omega)]
  simp only [linspaceUnit, this]
  field_simp
  ring

/-- The scaled warp function of a polynomial. -/
noncomputable def scaledWarp (P : ℝ[X]) (t : ℝ) : ℝ :=
  if |t| < 1 - 1e-10 then P.eval t / (1 - t ^ 2) else 0

theorem scaledWarp_neg (P : ℝ[X]) (hP : ∀ t, P.eval (-t) = -P.eval t) (t : ℝ) :
    scaledWarp P (-t) = -scaledWarp P t := by
  simp only [scaledWarp, abs_neg, hP, neg_sq, neg_div]
  split_ifs <;> simp

/-- `warp_factor` evaluates one fixed function: the odd polynomial of degree at most `n` that takes the equispaced
nodes to the displacements of the Legendre-Gauss-Lobatto nodes, divided by `1 - t²` if `scaled`. -/
theorem warpFactor_eq (ext : Ext) (hext : ext.EighOk) (m : Nat) :
    ∃ (P : ℝ[X]) (x : Fin (m + 2) → ℝ), lobattoNodes ext 0 0 (m + 1) .builtin = .ok x ∧ x 0 = -1 ∧
      x (Fin.last (m + 1)) = 1 ∧ StrictMono x ∧ (∀ i, x i.rev = -x i) ∧ P.natDegree ≤ m + 1 ∧
      (∀ j, P.eval (linspaceUnit (m + 1) j) = x j - linspaceUnit (m + 1) j) ∧ (∀ t, P.eval (-t) = -P.eval t) ∧
      (∀ (k : Nat) (out : Fin k → ℝ), warpFactor ext (m + 1) out false = .ok fun i => P.eval (out i)) ∧
      (∀ (k : Nat) (out : Fin k → ℝ), warpFactor ext (m + 1) out true = .ok fun i => scaledWarp P (out i)) := by
  obtain ⟨x, hok, h0, h1, hmono, hsym⟩ := lobatto_symm ext hext (α := 0) (by norm_num) m
  have hinj := linspaceUnit_injective (Nat.succ_ne_zero m)
  have huni := jacobi_unisolvent params_zero (m + 1) (linspaceUnit (m + 1)) hinj
  set φ : Fin (m + 1 + 1) → ℝ → ℝ := fun k x => jacobi 0 0 k x with hφ
  have hdet := (unisolvent_iff_det φ (linspaceUnit (m + 1))).1 huni
  set V := vandermonde φ (linspaceUnit (m + 1)) with hV
  let c : Fin (m + 1 + 1) → ℝ := V⁻¹ *ᵥ (x - linspaceUnit (m + 1))
  let P : ℝ[X] := ∑ k : Fin (m + 1 + 1), C (c k) * jpoly 0 0 k
  have hP : ∀ t, combine φ c t = P.eval t := combine_eq_poly params_zero c
  have hPd : P.natDegree ≤ m + 1 := natDegree_combine 0 0 c
  have hint : ∀ j, P.eval (linspaceUnit (m + 1) j) = x j - linspaceUnit (m + 1) j := by
    intro j
    rw [← hP, ← vandermonde_mulVec, ← hV, mulVec_mulVec, mul_nonsing_inv _ hdet.isUnit, one_mulVec]
    rfl
  have hodd : ∀ t, P.eval (-t) = -P.eval t := by
    have hz : P.comp (-X) + P = 0 := by
      refine eq_zero_of_natDegree_lt_card_of_eval_eq_zero _ hinj (fun i => ?_) ?_
      · rw [eval_add, eval_comp, eval_neg, eval_X, ← linspaceUnit_rev (Nat.succ_ne_zero m), hint, hint,
          linspaceUnit_rev (Nat.succ_ne_zero m), hsym]
        ring
      · rw [Fintype.card_fin]
        refine Nat.lt_succ_of_le ((natDegree_add_le _ _).trans (max_le ?_ hPd))
        refine natDegree_comp_le.trans ?_
        rw [natDegree_neg, natDegree_X, mul_one]
        exact hPd
    intro t
    have := congrArg (eval t) hz
    rw [eval_add, eval_comp, eval_neg, eval_X, eval_zero] at this
    linarith
  have hwarp : ∀ (k : Nat) (out : Fin k → ℝ) (i : Fin k),
      (((Vᵀ)⁻¹ * (vandermonde φ out)ᵀ)ᵀ *ᵥ (x - linspaceUnit (m + 1))) i = P.eval (out i) := by
    intro k out i
    rw [transpose_mul, transpose_nonsing_inv, transpose_transpose, transpose_transpose, ← mulVec_mulVec,
      vandermonde_mulVec, hP]
  have hsolve : ∀ (k : Nat) (out : Fin k → ℝ),
      npSolve (vandermonde (fun (k : Fin (m + 1 + 1)) => jacobi (R := ℝ) 0 0 k) (linspaceUnit (m + 1)))ᵀ
        (vandermonde (fun (k : Fin (m + 1 + 1)) => jacobi (R := ℝ) 0 0 k) out)ᵀ = .ok ((Vᵀ)⁻¹ * (vandermonde φ out)ᵀ) :=
    fun k out => npSolve_ok (by rw [det_transpose]; exact hdet) _
  refine ⟨P, x, hok, h0, h1, hmono, hsym, hPd, hint, hodd, ?_, ?_⟩
  · intro k out
    simp only [warpFactor, hok]
    rw [hsolve]
    simp only [Bool.false_eq_true, if_false]
    congr 1
    funext i
    exact hwarp k out i
  · intro k out
    simp only [warpFactor, hok]
    rw [hsolve]
    simp only [if_true]
    congr 1
    funext i
    simp only [hwarp, scaledWarp]
    by_cases h : |out i| < 1 - 1e-10
    · rw [if_pos h, if_pos (by norm_num at h ⊢; exact h)]
      norm_num
    · rw [if_neg h, if_neg (by norm_num at h ⊢; exact h)]
      norm_num

end Modepy

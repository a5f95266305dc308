import Verif.Proofs.KronrodRule
import Verif.Props.Gauss

/-!
# Property C67: `kronrod.gauss`
-/

namespace Modepy
open Polynomial Matrix Spec

theorem legendre_weight (q : ℝ) : q ^ 2 / (1 / Real.sqrt (jacNorm 0 0 0)) ^ 2 = 2 * q ^ 2 := by
  have fam := jacobi_family params_zero (by norm_num)
  have h1 := fam.orth 0 0
  have hn : jacNorm 0 0 0 = 2 := by
    rw [if_pos rfl, fam.p_zero, jacobiL_apply] at h1
    have hpos := jacNorm_pos params_zero.1 params_zero.2.1 0
    have h2 : ((1 : ℝ) / Real.sqrt (jacNorm 0 0 0)) * (1 / Real.sqrt (jacNorm 0 0 0)) = 1 / jacNorm 0 0 0 := by
      rw [div_mul_div_comm, Real.mul_self_sqrt hpos.le, one_mul]
    simp only [eval_mul, eval_C, h2, jacobiWeight, Real.rpow_zero, one_mul, intervalIntegral.integral_const] at h1
    norm_num at h1
    field_simp at h1
    linarith
  rw [hn, div_pow, Real.sq_sqrt (by norm_num)]
  ring

/-- **C67 (same rule).**  `kronrod.gauss(N + 1)` returns the nodes and weights of `LegendreGaussQuadrature(N)`, for all
eigenvalue routines meeting their documentation. -/
theorem C67_agree (eigvalsh : Eigvalsh) (h : EigvalshOk eigvalsh) (ext : Ext) (hext : ext.EighOk) (N : Nat) :
    ∃ x w : Fin (N + 1) → ℝ, computeWeightsAndNodes ext N 0 0 = .ok (x, w) ∧
      kronrodGauss eigvalsh (N + 1) = .ok (List.ofFn x, List.ofFn w) := by
  classical
  have hgp : GaussParams 0 0 := ⟨by norm_num, by norm_num, by norm_num, by norm_num [abs_of_pos]⟩
  let ext' : Ext := ⟨fun n T => if hT : T.IsSymm then (eigvalsh n T, (h n T hT).choose) else (0, 0), fun _ _ _ => (0, 0)⟩
  have hext' : ext'.EighOk := by
    intro n T hT
    simp only [ext', dif_pos hT]
    exact (h n T hT).choose_spec
  have hT : gaussT 0 0 N = eignewtMatrix legendreOffdiag (N + 1) := by
    rw [gaussT_eq, eignewtMatrix_eq_tridiag]
    ext i j
    simp only [tridiag, of_apply, gaussB_legendre]
    by_cases h0 : j = i
    · rw [if_pos h0, if_pos h0]
    · rw [if_neg h0, if_neg h0]
      by_cases h1 : (j : Nat) + 1 = i
      · rw [if_pos h1, if_pos h1, ← h1, gaussA_legendre, Nat.add_sub_cancel]
      · rw [if_neg h1, if_neg h1]
        by_cases h2 : (j : Nat) = i + 1
        · rw [if_pos h2, if_pos h2, gaussA_legendre, Nat.add_sub_cancel]
        · rw [if_neg h2, if_neg h2]
  have hsym := eignewtMatrix_isSymm legendreOffdiag (N + 1)
  have hok := compute_ok ext' hgp N
  rw [C27_unique ext' ext hext' hext 0 0 hgp N, hT] at hok
  refine ⟨_, _, hok, ?_⟩
  have hE := hext' (N + 1) _ hsym
  have hx : (ext'.eigh (N + 1) (eignewtMatrix legendreOffdiag (N + 1))).1 =
      eigvalsh (N + 1) (eignewtMatrix legendreOffdiag (N + 1)) := by
    simp only [ext', dif_pos hsym]
  rw [kronrodGauss, if_neg (by omega)]
  simp only [eignewt_eq eigvalsh h, Nat.add_sub_cancel]
  rw [← hx, List.take_of_length_le (by simp), List.map_ofFn]
  congr 3
  funext i
  have := (eigvec1_weight legendreOffdiag N N (fun i _ => (legendreOffdiag_pos i).ne') hE i).1
  rw [legendre_weight, ← this]
  rfl

/-- **C67.**  `kronrod.gauss(n)`, `n ≥ 1`, returns `n` increasing nodes in `(-1, 1)` and positive weights that integrate
polynomials of degree up to `2n - 1` exactly; nonpositive `n` raises `ValueError`. -/
theorem C67_gauss (eigvalsh : Eigvalsh) (h : EigvalshOk eigvalsh) (n : Nat) :
    (n = 0 → kronrodGauss eigvalsh n = .error .ValueError) ∧
    (1 ≤ n → ∃ x w : List ℝ, kronrodGauss eigvalsh n = .ok (x, w) ∧ x.length = n ∧ w.length = n ∧
      x.Pairwise (· < ·) ∧ (∀ t ∈ x, -1 < t ∧ t < 1) ∧ (∀ v ∈ w, 0 < v) ∧
      ∀ f : ℝ[X], f.natDegree ≤ 2 * n - 1 →
        (List.zipWith (fun t v => f.eval t * v) x w).sum = ∫ t in (-1)..1, f.eval t) := by
  refine ⟨fun h0 => by rw [kronrodGauss, if_pos (by omega)], fun hn => ?_⟩
  obtain ⟨N, rfl⟩ : ∃ N, n = N + 1 := ⟨n - 1, by omega⟩
  obtain ⟨ext, hext⟩ := exists_eighOk
  have hgp : GaussParams 0 0 := ⟨by norm_num, by norm_num, by norm_num, by norm_num [abs_of_pos]⟩
  obtain ⟨x, w, hok, hx⟩ := C67_agree eigvalsh h ext hext N
  obtain ⟨x', w', hok', hex, hw, hm, hin, -⟩ := compute_facts ext hext hgp N
  rw [hok] at hok'
  injection hok' with e
  injection e with e1 e2
  subst e1 e2
  refine ⟨_, _, hx, by simp, by simp, ?_, ?_, ?_, ?_⟩
  · rw [List.pairwise_ofFn]
    exact fun i j hij => hm hij
  · intro t ht
    rw [List.mem_ofFn] at ht
    obtain ⟨i, rfl⟩ := ht
    exact hin i
  · intro t ht
    rw [List.mem_ofFn] at ht
    obtain ⟨i, rfl⟩ := ht
    exact hw i
  · intro f hf
    have := hex f (by omega)
    simp only [Real.rpow_zero, mul_one] at this
    rw [← this, ← List.sum_ofFn]
    congr 1
    apply List.ext_getElem
    · simp
    · intro i h1 h2
      rw [List.getElem_zipWith, List.getElem_ofFn, List.getElem_ofFn, List.getElem_ofFn, mul_comm]

/-- The contract can be met, and two points integrate `t³ + t²` exactly. -/
example : ∃ eigvalsh : Eigvalsh, EigvalshOk eigvalsh ∧ ∃ x w, kronrodGauss eigvalsh 2 = .ok (x, w) ∧
    (List.zipWith (fun t v => (X ^ 3 + X ^ 2 : ℝ[X]).eval t * v) x w).sum = 2 / 3 := by
  obtain ⟨e, he⟩ := exists_eigvalshOk
  obtain ⟨x, w, h1, -, -, -, -, -, h2⟩ := (C67_gauss e he 2).2 (by omega)
  refine ⟨e, he, x, w, h1, ?_⟩
  rw [h2 _ (by compute_degree)]
  simp only [eval_add, eval_pow, eval_X]
  rw [intervalIntegral.integral_add (by simp) (by simp)]
  norm_num [integral_pow]

end Modepy

import Verif.Model.Basis
import Verif.Props.Pkdo
import Verif.Props.Basis
import Verif.Proofs.ProductUnisolvence

/-!
# Bases in terms of monomials
-/

namespace Modepy
open Spec MvPolynomial NdArray

/-- Points at which the orthonormal modes agree with their polynomials: outside the tolerance strips of the collapsed
coordinates, or on the collapsed set (modes.py 292-302, 387-397). -/
def Spec.Regular : Nat → List ℝ → Prop
  | 2, [r, s] => 1e-12 ≤ |s - 1| ∨ (r = -1 ∧ s = 1)
  | 3, [r, s, t] => (1e-10 < |s + t| ∧ 1e-10 < |t - 1|) ∨ (r = -1 ∧ s = -t ∧ 1e-10 < |t - 1|) ∨
      (r = -1 ∧ s = -1 ∧ t = 1)
  | d, x => x.length = d

theorem regular_length {d : Nat} {x : List ℝ} (h : Regular d x) : x.length = d := by
  unfold Regular at h
  split at h <;> simp_all

theorem leftInv_of_det {n : Nat} (M : Matrix (Fin n) (Fin n) ℝ) (hdet : M.det ≠ 0) (C : Nat → Nat → ℝ)
    (hC : ∀ i j : Fin n, C i j = M i j) : HasLeftInv n C := by
  have hinv := Matrix.nonsing_inv_mul M hdet.isUnit
  refine ⟨fun a b => if h : a < n ∧ b < n then M⁻¹ ⟨a, h.1⟩ ⟨b, h.2⟩ else 0, fun a ha c hc => ?_⟩
  have e := congrFun (congrFun hinv ⟨a, ha⟩) ⟨c, hc⟩
  rw [Matrix.mul_apply, Matrix.one_apply] at e
  simp only [Fin.mk.injEq] at e
  rw [← e, Finset.sum_range]
  refine Finset.sum_congr rfl fun b _ => ?_
  have h1 : C b c = M b ⟨c, hc⟩ := hC b ⟨c, hc⟩
  simp only [h1, ha, b.2, and_self, dite_true]

theorem det_of_leftInv {n : Nat} (C : Nat → Nat → ℝ) (h : HasLeftInv n C) :
    (Matrix.of fun i j : Fin n => C i j).det ≠ 0 := by
  obtain ⟨P, hP⟩ := h
  have : (Matrix.of fun i j : Fin n => P i j) * (Matrix.of fun i j : Fin n => C i j) = 1 := by
    ext i j
    rw [Matrix.mul_apply, Matrix.one_apply]
    have := hP i i.2 j j.2
    rw [Finset.sum_range] at this
    simpa [Fin.ext_iff] using this
  intro h0
  have hd := congrArg Matrix.det this
  rw [Matrix.det_mul, h0, mul_zero, Matrix.det_one] at hd
  exact zero_ne_one hd

/-- The exponent vector of a tuple. -/
noncomputable def expo (d : Nat) (t : List Nat) : Fin d →₀ ℕ := Finsupp.equivFunOnFinite.symm fun i => t.getD i 0

theorem expo_inj {d : Nat} {s t : List Nat} (hs : s.length = d) (ht : t.length = d) (h : expo d s = expo d t) : s = t := by
  apply List.ext_getElem (by omega)
  intro i h1 h2
  have := DFunLike.congr_fun h ⟨i, by omega⟩
  simpa [expo, List.getD_eq_getElem?_getD, h1, h2] using this

theorem prod_pow_eq_monomialValue {d : Nat} (t : List Nat) (x : List ℝ) (ht : t.length = d) (hx : x.length = d) :
    ∏ i : Fin d, (x.getD i 0) ^ (expo d t i) = monomialValue t x := by
  subst ht
  induction t generalizing x with
  | nil => simp [monomialValue]
  | cons a t ih =>
    obtain _ | ⟨y, x⟩ := x
    · simp at hx
    · change ∏ i : Fin (t.length + 1), (y :: x).getD i 0 ^ (expo (t.length + 1) (a :: t)) i = _
      rw [Fin.prod_univ_succ]
      have := ih x (by simpa using hx)
      simp only [expo, Finsupp.coe_equivFunOnFinite_symm] at this ⊢
      simp only [Fin.val_zero, List.getD_cons_zero, Fin.val_succ, List.getD_cons_succ]
      rw [this]
      simp [monomialValue]

/-- Polynomials of degree at most `N`, linearly independent and as many as monomials, are an invertible combination of
the monomials. -/
theorem expand_polynomials {d N : Nat} (T : List (List Nat)) (hT : T = Pytools.gnitsam N d) (Q : List Nat → MvPolynomial (Fin d) ℝ)
    (hdeg : ∀ t ∈ T, (Q t).totalDegree ≤ N)
    (hli : LinearIndependent ℝ fun k : Fin T.length => Q T[k]) :
    ∃ C : Matrix (Fin T.length) (Fin T.length) ℝ, C.det ≠ 0 ∧
      ∀ k (x : List ℝ), x.length = d →
        eval (fun i : Fin d => x.getD i 0) (Q T[k]) =
          ∑ l, C k l * monomialValue T[l] x := by
  classical
  have hmem : ∀ t ∈ T, t.length = d ∧ t.sum ≤ N := fun t ht => (Pytools.mem_gnitsam _ _ _).1 (hT ▸ ht)
  have hnd : T.Nodup := hT ▸ Pytools.nodup_gnitsam _ _
  have hinj : Function.Injective fun l : Fin T.length => expo d T[l] := by
    intro a b hab
    have := expo_inj (hmem _ (List.getElem_mem _)).1 (hmem _ (List.getElem_mem _)).1 hab
    exact Fin.ext ((List.Nodup.getElem_inj_iff hnd).1 this)
  have hsup : ∀ k : Fin T.length, (Q T[k]).support ⊆ Finset.univ.image fun l : Fin T.length => expo d T[l] := by
    intro k m hm
    have h1 : (m.sum fun _ e => e) ≤ N := (le_totalDegree hm).trans (hdeg _ (List.getElem_mem _))
    have h2 : List.ofFn (fun i : Fin d => m i) ∈ T := by
      rw [hT, Pytools.mem_gnitsam]
      refine ⟨by simp, ?_⟩
      rw [List.sum_ofFn]
      rwa [Finsupp.sum_fintype _ _ (fun _ => rfl)] at h1
    obtain ⟨l, hl, he⟩ := List.getElem_of_mem h2
    refine Finset.mem_image.2 ⟨⟨l, hl⟩, Finset.mem_univ _, ?_⟩
    simp only [Fin.getElem_fin, he]
    ext i
    simp [expo, List.getD_eq_getElem?_getD]
  refine ⟨Matrix.of fun k l => coeff (expo d T[l]) (Q T[k]), ?_, ?_⟩
  · rw [Ne, ← Matrix.exists_vecMul_eq_zero_iff]
    rintro ⟨v, hv, h0⟩
    apply hv
    have hP : ∑ k, v k • Q T[k] = 0 := by
      ext m
      rw [coeff_sum, coeff_zero]
      by_cases hm : m ∈ Finset.univ.image fun l : Fin T.length => expo d T[l]
      · obtain ⟨l, -, rfl⟩ := Finset.mem_image.1 hm
        have := congrFun h0 l
        simpa [Matrix.vecMul, dotProduct] using this
      · refine Finset.sum_eq_zero fun k _ => ?_
        rw [coeff_smul, notMem_support_iff.1 fun h => hm (hsup k h), smul_zero]
    funext k
    exact (Fintype.linearIndependent_iff.1 hli) v hP k
  · intro k x hx
    rw [eval_eq', Finset.sum_subset (hsup k), Finset.sum_image fun a _ b _ h => hinj h]
    · refine Finset.sum_congr rfl fun l _ => ?_
      rw [prod_pow_eq_monomialValue T[l] _ (hmem _ (List.getElem_mem _)).1 hx]
      rfl
    · intro m _ hm
      rw [notMem_support_iff.1 hm, zero_mul]

/-- The functions span the space: `C` is the (invertible) matrix of their coefficients in terms of the monomials. -/
def SpansPN (fs : List (List ℝ → Py ℝ)) (s : PNSpace) (C : Nat → Nat → ℝ) : Prop :=
  fs.length = s.spaceDim ∧ HasLeftInv s.spaceDim C ∧
  ∀ k < s.spaceDim, ∀ x, Regular s.spatialDim x →
    (fs.getD k fun _ => .error .IndexError) x =
      .ok (∑ l ∈ Finset.range s.spaceDim, C k l * monomialValue ((nodeTuplesPN s).getD l []) x)

/-- The polynomial with the coefficients in row `k`. -/
noncomputable def polyPN (s : PNSpace) (C : Nat → Nat → ℝ) (k : Nat) (x : List ℝ) : ℝ :=
  ∑ l ∈ Finset.range s.spaceDim, C k l * monomialValue ((nodeTuplesPN s).getD l []) x

/-- The rows are the coefficients of the polynomials `Q`. -/
def RowsAre (d N : Nat) (C : Nat → Nat → ℝ) (Q : List Nat → MvPolynomial (Fin d) ℝ) : Prop :=
  ∀ k (hk : k < (Pytools.gnitsam N d).length) (x : List ℝ), x.length = d →
    polyPN ⟨d, N⟩ C k x = eval (fun i : Fin d => x.getD i 0) (Q (Pytools.gnitsam N d)[k])

theorem spansPN_of_polynomials {d N : Nat} (Q : List Nat → MvPolynomial (Fin d) ℝ)
    (f : List Nat → List ℝ → Py ℝ)
    (hdeg : ∀ t ∈ Pytools.gnitsam N d, (Q t).totalDegree ≤ N)
    (hli : LinearIndependent ℝ fun k : Fin (Pytools.gnitsam N d).length => Q (Pytools.gnitsam N d)[k])
    (hf : ∀ t ∈ Pytools.gnitsam N d, ∀ x, Regular d x → f t x = .ok (eval (fun i : Fin d => x.getD i 0) (Q t))) :
    ∃ C, SpansPN ((Pytools.gnitsam N d).map f) ⟨d, N⟩ C ∧ RowsAre d N C Q := by
  obtain ⟨M, hdet, hM⟩ := expand_polynomials _ rfl Q hdeg hli
  have hlen : (Pytools.gnitsam N d).length = (PNSpace.mk d N).spaceDim := length_nodeTuplesPN ⟨d, N⟩
  have hT : nodeTuplesPN ⟨d, N⟩ = Pytools.gnitsam N d := rfl
  refine ⟨fun k l => if h : k < (Pytools.gnitsam N d).length ∧ l < (Pytools.gnitsam N d).length
    then M ⟨k, h.1⟩ ⟨l, h.2⟩ else 0, ⟨by simp [hlen], ?_, ?_⟩, ?_⟩
  · rw [← hlen]
    exact leftInv_of_det M hdet _ fun i j => by simp
  · intro k hk x hx
    rw [← hlen] at hk ⊢
    have e : (((Pytools.gnitsam N d).map f).getD k fun _ => .error .IndexError) = f (Pytools.gnitsam N d)[k] := by
      simp [List.getD_eq_getElem?_getD, hk]
    rw [e, hf _ (List.getElem_mem hk) x hx]
    have := hM ⟨k, hk⟩ x (regular_length hx)
    simp only [Fin.getElem_fin] at this
    rw [this, Finset.sum_range]
    congr 1
    refine Finset.sum_congr rfl fun l _ => ?_
    simp [hk, hT, List.getD_eq_getElem?_getD]
  · intro k hk x hx
    have := hM ⟨k, hk⟩ x hx
    simp only [Fin.getElem_fin] at this
    rw [this, polyPN, ← hlen, Finset.sum_range]
    refine Finset.sum_congr rfl fun l _ => ?_
    simp [hk, hT, List.getD_eq_getElem?_getD]

/-- The polynomials computed by the orthonormal modes. -/
noncomputable def lineMode (t : List Nat) : MvPolynomial (Fin 1) ℝ := Polynomial.aeval (X 0) (jpoly 0 0 (t.getD 0 0))
noncomputable def triModeOf (t : List Nat) : MvPolynomial (Fin 2) ℝ := triMode (t.getD 0 0) (t.getD 1 0)
noncomputable def tetModeOf (t : List Nat) : MvPolynomial (Fin 3) ℝ := tetMode (t.getD 0 0) (t.getD 1 0) (t.getD 2 0)

theorem eval_lineMode (i : Nat) (r : ℝ) : jacobi 0 0 i r = eval ![r] (lineMode [i]) := by
  rw [lineMode, ← coe_aeval_eq_eval, RingHom.coe_coe, ← Polynomial.aeval_algHom_apply, aeval_X,
    Polynomial.coe_aeval_eq_eval, List.getD_cons_zero, eval_jpoly params_zero]
  simp

theorem nodup_tuples (N d : Nat) : Function.Injective fun k : Fin (Pytools.gnitsam N d).length =>
    (Pytools.gnitsam N d)[k] := fun a b h =>
  Fin.ext ((List.Nodup.getElem_inj_iff (Pytools.nodup_gnitsam d N)).1 h)

theorem spansPN_line (N : Nat) : ∃ C, SpansPN ((Pytools.gnitsam N 1).map pkdo) ⟨1, N⟩ C ∧ RowsAre 1 N C lineMode := by
  have hev : ∀ (i : Nat) (r : ℝ), jacobi 0 0 i r = eval ![r] (Polynomial.aeval (X 0) (jpoly 0 0 i)) := eval_lineMode
  refine spansPN_of_polynomials lineMode pkdo ?_ ?_ ?_
  · intro t ht
    obtain ⟨h1, h2⟩ := (Pytools.mem_gnitsam _ _ _).1 ht
    obtain ⟨i, rfl⟩ := List.length_eq_one_iff.1 h1
    refine (totalDegree_aeval_le _ _ (by rw [totalDegree_X])).trans ((natDegree_jpoly _ _ _).trans ?_)
    simpa using h2
  · refine (C25_interval _ hev).1.comp (fun k : Fin (Pytools.gnitsam N 1).length =>
      ((Pytools.gnitsam N 1)[k]).getD 0 0) ?_
    intro a b hab
    apply nodup_tuples N 1
    have ha := ((Pytools.mem_gnitsam _ _ _).1 (List.getElem_mem a.2)).1
    have hb := ((Pytools.mem_gnitsam _ _ _).1 (List.getElem_mem b.2)).1
    obtain ⟨i, hi⟩ := List.length_eq_one_iff.1 ha
    obtain ⟨j, hj⟩ := List.length_eq_one_iff.1 hb
    simp only [Fin.getElem_fin] at hab ⊢
    rw [hi, hj] at hab ⊢
    simpa using hab
  · intro t ht x hx
    obtain ⟨i, rfl⟩ := List.length_eq_one_iff.1 ((Pytools.mem_gnitsam _ _ _).1 ht).1
    obtain ⟨r, rfl⟩ := List.length_eq_one_iff.1 (regular_length hx)
    have e : (fun i : Fin 1 => [r].getD i 0) = ![r] := by funext k; fin_cases k; rfl
    rw [e]
    simp only [pkdo, eval_lineMode]

theorem spansPN_triangle (N : Nat) :
    ∃ C, SpansPN ((Pytools.gnitsam N 2).map pkdo) ⟨2, N⟩ C ∧ RowsAre 2 N C triModeOf := by
  refine spansPN_of_polynomials triModeOf pkdo ?_ ?_ ?_
  · intro t ht
    obtain ⟨h1, h2⟩ := (Pytools.mem_gnitsam _ _ _).1 ht
    obtain ⟨i, j, rfl⟩ := List.length_eq_two.1 h1
    refine (totalDegree_triMode _ _).trans ?_
    simpa using h2
  · refine (C25_triangle _ computesTri_triMode).1.comp (fun k : Fin (Pytools.gnitsam N 2).length =>
      (((Pytools.gnitsam N 2)[k]).getD 0 0, ((Pytools.gnitsam N 2)[k]).getD 1 0)) ?_
    intro a b hab
    apply nodup_tuples N 2
    have ha := ((Pytools.mem_gnitsam _ _ _).1 (List.getElem_mem a.2)).1
    have hb := ((Pytools.mem_gnitsam _ _ _).1 (List.getElem_mem b.2)).1
    obtain ⟨i, i', hi⟩ := List.length_eq_two.1 ha
    obtain ⟨j, j', hj⟩ := List.length_eq_two.1 hb
    simp only [Fin.getElem_fin] at hab ⊢
    rw [hi, hj] at hab ⊢
    simpa using hab
  · intro t ht x hx
    obtain ⟨i, j, rfl⟩ := List.length_eq_two.1 ((Pytools.mem_gnitsam _ _ _).1 ht).1
    obtain ⟨r, s, rfl⟩ := List.length_eq_two.1 (regular_length hx)
    have e : (fun i : Fin 2 => [r, s].getD i 0) = ![r, s] := by funext k; fin_cases k <;> rfl
    rw [e]
    simp only [pkdo, triModeOf, tetModeOf, List.getD_cons_zero, List.getD_cons_succ]
    congr 1
    rcases hx with h | ⟨rfl, rfl⟩
    · exact (computesTri_triMode i j).1 r s h
    · exact (computesTri_triMode i j).2

theorem spansPN_tetrahedron (N : Nat) :
    ∃ C, SpansPN ((Pytools.gnitsam N 3).map pkdo) ⟨3, N⟩ C ∧ RowsAre 3 N C tetModeOf := by
  refine spansPN_of_polynomials tetModeOf pkdo ?_ ?_ ?_
  · intro t ht
    obtain ⟨h1, h2⟩ := (Pytools.mem_gnitsam _ _ _).1 ht
    obtain ⟨i, j, k, rfl⟩ := List.length_eq_three.1 h1
    refine (totalDegree_tetMode _ _ _).trans ?_
    simpa [add_assoc] using h2
  · refine (C25_tetrahedron _ computesTet_tetMode).1.comp (fun k : Fin (Pytools.gnitsam N 3).length =>
      (((Pytools.gnitsam N 3)[k]).getD 0 0, ((Pytools.gnitsam N 3)[k]).getD 1 0,
        ((Pytools.gnitsam N 3)[k]).getD 2 0)) ?_
    intro a b hab
    apply nodup_tuples N 3
    have ha := ((Pytools.mem_gnitsam _ _ _).1 (List.getElem_mem a.2)).1
    have hb := ((Pytools.mem_gnitsam _ _ _).1 (List.getElem_mem b.2)).1
    obtain ⟨i, i', i'', hi⟩ := List.length_eq_three.1 ha
    obtain ⟨j, j', j'', hj⟩ := List.length_eq_three.1 hb
    simp only [Fin.getElem_fin] at hab ⊢
    rw [hi, hj] at hab ⊢
    simpa using hab
  · intro t ht x hx
    obtain ⟨i, j, k, rfl⟩ := List.length_eq_three.1 ((Pytools.mem_gnitsam _ _ _).1 ht).1
    obtain ⟨r, s, t, rfl⟩ := List.length_eq_three.1 (regular_length hx)
    have e : (fun i : Fin 3 => [r, s, t].getD i 0) = ![r, s, t] := by funext k; fin_cases k <;> rfl
    rw [e]
    simp only [pkdo, triModeOf, tetModeOf, List.getD_cons_zero, List.getD_cons_succ]
    congr 1
    rcases hx with ⟨h1, h2⟩ | ⟨rfl, rfl, h⟩ | ⟨rfl, rfl, rfl⟩
    · exact (computesTet_tetMode i j k).1 r s t h1 h2
    · exact (computesTet_tetMode i j k).2.1 t h
    · exact (computesTet_tetMode i j k).2.2

theorem leftInv_one (n : Nat) : HasLeftInv n fun k l => if k = l then 1 else 0 := by
  refine ⟨fun k l => if k = l then 1 else 0, fun a ha c hc => ?_⟩
  simp
  omega

theorem spansPN_monomial (d N : Nat) : SpansPN ((Pytools.gnitsam N d).map monomial) ⟨d, N⟩
    fun k l => if k = l then 1 else 0 := by
  have hlen : (Pytools.gnitsam N d).length = (PNSpace.mk d N).spaceDim := length_nodeTuplesPN ⟨d, N⟩
  have hT : nodeTuplesPN ⟨d, N⟩ = Pytools.gnitsam N d := rfl
  refine ⟨by simp [hlen], leftInv_one _, fun k hk x hx => ?_⟩
  have hk' : k < (Pytools.gnitsam N d).length := by rw [hlen]; exact hk
  have e : (((Pytools.gnitsam N d).map (monomial (R := ℝ))).getD k fun _ => .error .IndexError) =
      monomial (Pytools.gnitsam N d)[k] := by
    simp [List.getD_eq_getElem?_getD, hk']
  rw [e, C17_value _ _ ?_]
  · congr 1
    simp [hk, hT, List.getD_eq_getElem?_getD, hk']
  · rw [((Pytools.mem_gnitsam _ _ _).1 (List.getElem_mem hk')).1, regular_length hx]

theorem spansPN_point_two (N : Nat) : SpansPN [zerodBasis] ⟨0, N⟩ fun _ _ => 2 := by
  have hd : (PNSpace.mk 0 N).spaceDim = 1 := by simp [PNSpace.spaceDim]
  refine ⟨by simp [hd], ⟨fun _ _ => 1 / 2, fun a ha c hc => ?_⟩, fun k hk x hx => ?_⟩
  · rw [hd] at ha hc ⊢
    obtain rfl : a = 0 := by omega
    obtain rfl : c = 0 := by omega
    simp
  · rw [hd] at hk ⊢
    obtain rfl : k = 0 := by omega
    obtain rfl := List.length_eq_zero_iff.1 (regular_length hx)
    have hT : nodeTuplesPN ⟨0, N⟩ = [[]] := by simp [nodeTuplesPN, Pytools.gnitsam]
    simp [zerodBasis, hT, monomialValue, Duck.lit]
    norm_num

theorem spansPN_point (N : Nat) : ∃ C, SpansPN [zerodBasis] ⟨0, N⟩ C := ⟨_, spansPN_point_two N⟩

theorem spansPN_onb (s : PNSpace) (h : s.spatialDim ≤ 3) :
    ∃ fs C, (orthonormalBasisPN s : Basis ℝ).functions = .ok fs ∧ SpansPN fs s C := by
  obtain ⟨d, N⟩ := s
  simp only at h
  interval_cases d
  · obtain ⟨C, hC⟩ := spansPN_point N
    exact ⟨_, C, by simp [orthonormalBasisPN, simplexONB], hC⟩
  · obtain ⟨C, hC, -⟩ := spansPN_line N
    exact ⟨_, C, by simp [orthonormalBasisPN, simplexONB], hC⟩
  · obtain ⟨C, hC, -⟩ := spansPN_triangle N
    exact ⟨_, C, by simp [orthonormalBasisPN, simplexONB], hC⟩
  · obtain ⟨C, hC, -⟩ := spansPN_tetrahedron N
    exact ⟨_, C, by simp [orthonormalBasisPN, simplexONB], hC⟩

theorem spansPN_mono (s : PNSpace) :
    ∃ fs C, (monomialBasisPN s : Basis ℝ).functions = .ok fs ∧ SpansPN fs s C :=
  ⟨_, _, rfl, spansPN_monomial s.spatialDim s.order⟩

theorem spansPN_basis (s : PNSpace) :
    ∃ fs C, (basisPN s : Basis ℝ).functions = .ok fs ∧ SpansPN fs s C := by
  unfold basisPN
  split_ifs with h
  · exact spansPN_onb s h
  · exact spansPN_mono s

/-- The values of the factors of product function `k` at `x`. -/
noncomputable def factorValues (C : PNSpace → Nat → Nat → ℝ) : List PNSpace → List ℝ → Nat → List ℝ
  | [], _, _ => []
  | s :: ss, x, k =>
      (∑ l ∈ Finset.range s.spaceDim, C s (k % s.spaceDim) l *
        monomialValue ((nodeTuplesPN s).getD l []) (x.take s.spatialDim)) ::
      factorValues C ss (x.drop s.spatialDim) (k / s.spaceDim)

theorem length_factorValues (C : PNSpace → Nat → Nat → ℝ) (bases : List PNSpace) (x : List ℝ) (k : Nat) :
    (factorValues C bases x k).length = bases.length := by
  induction bases generalizing x k with
  | nil => rfl
  | cons s ss ih => simp [factorValues, ih]

theorem factorValues_get (C : PNSpace → Nat → Nat → ℝ) (bases : List PNSpace) (x : List ℝ) (k i : Nat)
    (s : PNSpace) (hs : bases[i]? = some s) :
    (factorValues C bases x k).getD i 0 = ∑ l ∈ Finset.range s.spaceDim,
      C s (digit (bases.map PNSpace.spaceDim) k i) l *
        monomialValue ((nodeTuplesPN s).getD l []) ((slices (bases.map PNSpace.spatialDim) x).getD i []) := by
  induction bases generalizing x k i with
  | nil => simp at hs
  | cons b ss ih =>
    rcases i with _ | i
    · simp only [List.getElem?_cons_zero, Option.some.injEq] at hs
      subst hs
      simp [factorValues, digit, slices]
    · simp only [List.getElem?_cons_succ] at hs
      simp only [factorValues, List.getD_cons_succ, List.map_cons, slices]
      rw [ih _ _ _ hs]
      refine Finset.sum_congr rfl fun l _ => ?_
      simp [digit, Nat.div_div_eq_div_mul]

theorem factorValues_prod (C : PNSpace → Nat → Nat → ℝ) (bases : List PNSpace) (x : List ℝ) (k : Nat)
    (hx : x.length = (bases.map PNSpace.spatialDim).sum) :
    (factorValues C bases x k).prod = ∑ l ∈ Finset.range (bases.map PNSpace.spaceDim).prod,
      kron (bases.map fun s => (s.spaceDim, C s)) k l *
        monomialValue (List.zipWith (fun (ts : List (List Nat)) j => ts.getD j []) (bases.map nodeTuplesPN)
          (unravelF (bases.map PNSpace.spaceDim) l)).flatten x := by
  induction bases generalizing x k with
  | nil => simp [factorValues, kron, monomialValue]
  | cons b ss ih =>
    simp only [List.map_cons, List.sum_cons] at hx
    have hx1 : (x.take b.spatialDim).length = b.spatialDim := by simp; omega
    have hx2 : (x.drop b.spatialDim).length = (ss.map PNSpace.spatialDim).sum := by simp; omega
    simp only [factorValues, List.prod_cons, ih _ _ hx2, List.map_cons]
    rw [← sum_range_mul']
    refine Finset.sum_congr rfl fun l hl => ?_
    rw [Finset.mem_range] at hl
    have hpos : 0 < b.spaceDim := Nat.pos_of_ne_zero fun h0 => by simp [h0] at hl
    have hlt : l % b.spaceDim < (nodeTuplesPN b).length := by
      rw [length_nodeTuplesPN]; exact Nat.mod_lt _ hpos
    simp only [unravelF_cons, List.zipWith_cons_cons, List.flatten_cons, kron]
    have e := monomialValue_append ((nodeTuplesPN b).getD (l % b.spaceDim) [])
      (List.zipWith (fun (ts : List (List Nat)) j => ts.getD j []) (ss.map nodeTuplesPN)
          (unravelF (ss.map PNSpace.spaceDim) (l / b.spaceDim))).flatten (x.take b.spatialDim) (x.drop b.spatialDim)
      (by
        rw [hx1, List.getD_eq_getElem?_getD, List.getElem?_eq_getElem hlt, Option.getD_some,
          ((Pytools.mem_gnitsam _ _ _).1 (List.getElem_mem hlt)).1])
    rw [List.take_append_drop] at e
    rw [e]
    ring

/-- Product bases, with their coefficients. -/
theorem spans_product_explicit (forPN : PNSpace → Basis ℝ) (bases : List PNSpace) (F : PNSpace → List (List ℝ → Py ℝ))
    (C : PNSpace → Nat → Nat → ℝ) (hF : ∀ s ∈ bases, (forPN s).functions = .ok (F s)) (hS : ∀ s ∈ bases, SpansPN (F s) s (C s)) :
    ∃ (fs : List (List ℝ → Py ℝ)), (tensorProductBasis (bases.map forPN) (bases.map PNSpace.spatialDim)).functions = .ok fs ∧
      fs.length = (bases.map PNSpace.spaceDim).prod ∧
      HasLeftInv (bases.map PNSpace.spaceDim).prod (kron (bases.map fun s => (s.spaceDim, C s))) ∧
      ∀ (k : Nat) (f : List ℝ → Py ℝ), fs[k]? = some f → ∀ x : List ℝ, x.length = (bases.map PNSpace.spatialDim).sum →
        List.Forall₂ Regular (bases.map PNSpace.spatialDim) (slices (bases.map PNSpace.spatialDim) x) →
        f x = .ok (∑ l ∈ Finset.range (bases.map PNSpace.spaceDim).prod,
          kron (bases.map fun s => (s.spaceDim, C s)) k l * monomialValue ((nodeTuplesTP bases).getD l []) x) := by
  have hlen : (bases.map F).map List.length = bases.map PNSpace.spaceDim := by
    rw [List.map_map]
    exact List.map_congr_left fun s hs => (hS s hs).1
  obtain ⟨fs, hfs, hl, hv⟩ := C15_value (bases.map forPN) (bases.map PNSpace.spatialDim) (bases.map F)
    (by
      rw [List.map_map, List.map_map]
      exact List.map_congr_left fun s hs => hF s hs) (by simp)
  refine ⟨fs, hfs, by rw [hl, hlen], ?_, ?_⟩
  · have := kron_leftInv (bases.map fun s => (s.spaceDim, C s)) (by
      intro p hp
      obtain ⟨s, hs, rfl⟩ := List.mem_map.1 hp
      exact (hS s hs).2.1)
    rwa [List.map_map] at this
  · intro k f hk x hx hreg
    rw [hv k f hk x (factorValues C bases x k) hx (by simp [length_factorValues])]
    · rw [factorValues_prod _ _ _ _ hx]
      congr 1
      refine Finset.sum_congr rfl fun l hl => ?_
      rw [Finset.mem_range] at hl
      have hkey : (nodeTuplesTP bases)[l]? = some (List.zipWith (fun (ts : List (List Nat)) j => ts.getD j [])
          (bases.map nodeTuplesPN) (unravelF (bases.map PNSpace.spaceDim) l)).flatten := by
        rw [nodeTuplesTP_eq, List.getElem?_map, List.getElem?_range (by rw [size_eq_prod]; exact hl)]
        rfl
      rw [List.getD_eq_getElem?_getD, hkey, Option.getD_some]
    · intro i hi
      simp only [List.length_map] at hi
      have hs : bases[i]? = some bases[i] := List.getElem?_eq_getElem hi
      rw [factorValues_get _ _ _ _ _ _ hs, hlen]
      have hSi := hS _ (List.getElem_mem hi)
      have hkl : k < (bases.map PNSpace.spaceDim).prod := by
        rw [← hlen, ← hl]
        by_contra hc
        rw [List.getElem?_eq_none (by omega)] at hk
        cases hk
      have hpos : 0 < bases[i].spaceDim := by
        refine Nat.pos_of_ne_zero fun h0 => ?_
        have : (bases.map PNSpace.spaceDim).prod = 0 :=
          List.prod_eq_zero (List.mem_map.2 ⟨_, List.getElem_mem hi, h0⟩)
        omega
      have e1 : (bases.map F).getD i [] = F bases[i] := by simp [List.getD_eq_getElem?_getD, hi]
      rw [e1, hSi.2.2 _ ?_ _ ?_]
      · have e : (bases.map PNSpace.spaceDim).getD i 1 = bases[i].spaceDim := by
          simp [List.getD_eq_getElem?_getD, hi]
        rw [digit, e]
        exact Nat.mod_lt _ hpos
      · have := (List.forall₂_iff_get.1 hreg).2 i (by simpa using hi) (by simpa using hi)
        simp only [List.get_eq_getElem, List.getElem_map] at this
        rw [List.getD_eq_getElem?_getD, List.getElem?_eq_getElem (by simpa using hi)]
        exact this

/-- Product bases span the product space. -/
theorem spans_product (forPN : PNSpace → Basis ℝ) (bases : List PNSpace)
    (h : ∀ s ∈ bases, ∃ fs C, (forPN s).functions = .ok fs ∧ SpansPN fs s C) :
    ∃ (fs : List (List ℝ → Py ℝ)) (C : Nat → Nat → ℝ), (tensorProductBasis (bases.map forPN) (bases.map PNSpace.spatialDim)).functions = .ok fs ∧
      fs.length = (bases.map PNSpace.spaceDim).prod ∧ HasLeftInv (bases.map PNSpace.spaceDim).prod C ∧
      ∀ (k : Nat) (f : List ℝ → Py ℝ), fs[k]? = some f → ∀ x : List ℝ, x.length = (bases.map PNSpace.spatialDim).sum →
        List.Forall₂ Regular (bases.map PNSpace.spatialDim) (slices (bases.map PNSpace.spatialDim) x) →
        f x = .ok (∑ l ∈ Finset.range (bases.map PNSpace.spaceDim).prod,
          C k l * monomialValue ((nodeTuplesTP bases).getD l []) x) := by
  choose! F C hF hS using h
  obtain ⟨fs, h⟩ := spans_product_explicit forPN bases F C hF hS
  exact ⟨fs, _, h⟩

end Modepy

import Verif.Proofs.Unisolvence
import Verif.Proofs.TensorQuadrature
import Verif.Proofs.Nodes

/-!
# Products of unisolvent node sets
-/

namespace Modepy
open Spec Matrix NdArray

/-- The product of matrices along mixed-radix digits, least significant digit first. -/
noncomputable def kron : List (Nat × (Nat → Nat → ℝ)) → Nat → Nat → ℝ
  | [], _, _ => 1
  | (n, M) :: L, k, l => M (k % n) (l % n) * kron L (k / n) (l / n)

/-- The leading `n × n` block of `M` has a left inverse. -/
def HasLeftInv (n : Nat) (M : Nat → Nat → ℝ) : Prop :=
  ∃ P : Nat → Nat → ℝ, ∀ a < n, ∀ c < n, ∑ b ∈ Finset.range n, P a b * M b c = if a = c then 1 else 0

theorem sum_range_mul' (n m : Nat) (f g : Nat → ℝ) :
    ∑ k ∈ Finset.range (n * m), f (k % n) * g (k / n) =
      (∑ i ∈ Finset.range n, f i) * ∑ j ∈ Finset.range m, g j := by
  have h := sum_range_mul n m fun i j => f i * g j
  simp only [sum_map_range] at h
  rw [h, Finset.sum_mul_sum]

theorem kron_leftInv (L : List (Nat × (Nat → Nat → ℝ))) (h : ∀ p ∈ L, HasLeftInv p.1 p.2) :
    HasLeftInv (L.map Prod.fst).prod (kron L) := by
  induction L with
  | nil =>
    refine ⟨fun _ _ => 1, fun a ha c hc => ?_⟩
    simp only [List.map_nil, List.prod_nil, Nat.lt_one_iff] at ha hc
    simp [kron, ha, hc]
  | cons p L ih =>
    obtain ⟨n, M⟩ := p
    obtain ⟨P, hP⟩ := h (n, M) (by simp)
    obtain ⟨Q, hQ⟩ := ih fun p hp => h p (List.mem_cons_of_mem _ hp)
    simp only at hP
    refine ⟨fun a b => P (a % n) (b % n) * Q (a / n) (b / n), fun a ha c hc => ?_⟩
    simp only [List.map_cons, List.prod_cons] at ha hc ⊢
    have hn : 0 < n := Nat.pos_of_ne_zero fun h0 => by simp [h0] at ha
    have e : ∀ b, P (a % n) (b % n) * Q (a / n) (b / n) * kron ((n, M) :: L) b c =
        (P (a % n) (b % n) * M (b % n) (c % n)) * (Q (a / n) (b / n) * kron L (b / n) (c / n)) := by
      intro b
      simp only [kron]
      ring
    simp only [e]
    rw [sum_range_mul' n _ (fun b => P (a % n) b * M b (c % n)) fun b => Q (a / n) b * kron L b (c / n),
      hP _ (Nat.mod_lt _ hn) _ (Nat.mod_lt _ hn), hQ _ (Nat.div_lt_of_lt_mul ha) _ (Nat.div_lt_of_lt_mul hc)]
    by_cases hac : a = c
    · simp [hac]
    · rw [if_neg hac]
      by_cases h1 : a % n = c % n
      · by_cases h2 : a / n = c / n
        · exact absurd (by rw [← Nat.div_add_mod a n, ← Nat.div_add_mod c n, h1, h2]) hac
        · simp [h2]
      · simp [h1]

theorem unisolvent_of_leftInv {X : Type*} {n : Nat} (φ : Fin n → X → ℝ) (x : Fin n → X) (M : Nat → Nat → ℝ)
    (hM : ∀ i j : Fin n, φ j (x i) = M i j) (h : HasLeftInv n M) : Unisolvent φ x := by
  obtain ⟨P, hP⟩ := h
  intro c hc
  funext a
  have h1 : ∀ i : Fin n, ∑ j : Fin n, M i j * c j = 0 := by
    intro i
    rw [← hc i]
    simp only [combine]
    exact Finset.sum_congr rfl fun j _ => by rw [hM, mul_comm]
  have h2 : ∑ j : Fin n, (∑ b ∈ Finset.range n, P a b * M b j) * c j = c a := by
    rw [Finset.sum_eq_single a]
    · rw [hP a a.2 a a.2]; simp
    · intro j _ hj
      rw [hP a a.2 j j.2, if_neg (fun h => hj (Fin.ext h.symm)), zero_mul]
    · simp
  rw [← h2]
  simp only [Finset.sum_mul]
  rw [Finset.sum_comm]
  simp only [mul_assoc, ← Finset.mul_sum]
  exact Finset.sum_eq_zero fun b hb => by rw [h1 ⟨b, Finset.mem_range.1 hb⟩, mul_zero]

theorem leftInv_of_unisolvent {X : Type*} {n : Nat} (φ : Fin n → X → ℝ) (x : Fin n → X) (M : Nat → Nat → ℝ)
    (hM : ∀ i j : Fin n, φ j (x i) = M i j) (h : Unisolvent φ x) : HasLeftInv n M := by
  have hdet := (unisolvent_iff_det φ x).1 h
  have hinv := Matrix.nonsing_inv_mul (vandermonde φ x) hdet.isUnit
  refine ⟨fun a b => if h : a < n ∧ b < n then (vandermonde φ x)⁻¹ ⟨a, h.1⟩ ⟨b, h.2⟩ else 0, fun a ha c hc => ?_⟩
  have e := congrFun (congrFun hinv ⟨a, ha⟩) ⟨c, hc⟩
  rw [Matrix.mul_apply, Matrix.one_apply] at e
  simp only [Fin.mk.injEq] at e
  rw [← e, Finset.sum_range]
  refine Finset.sum_congr rfl fun b _ => ?_
  have h1 : M b c = vandermonde φ x b ⟨c, hc⟩ := (hM b ⟨c, hc⟩).symm
  simp only [h1, ha, b.2, and_self, dite_true]

theorem monomialValue_append (s t : List Nat) (x y : List ℝ) (h : s.length = x.length) :
    monomialValue (s ++ t) (x ++ y) = monomialValue s x * monomialValue t y := by
  rw [monomialValue, List.zipWith_append h, List.prod_append]
  rfl

/-- The monomials of the product space at the nodes of a product node set. -/
theorem monomial_kron (bases : List PNSpace) (As : List (NdArray ℝ))
    (h : List.Forall₂ (fun b A => rows A = b.spatialDim ∧ ncols A = b.spaceDim) bases As) :
    ∀ k l, k < (bases.map PNSpace.spaceDim).prod → l < (bases.map PNSpace.spaceDim).prod →
    monomialValue (List.zipWith (fun (ts : List (List Nat)) j => ts.getD j []) (bases.map nodeTuplesPN)
        (unravelF (bases.map PNSpace.spaceDim) l)).flatten
      (List.zipWith (fun a i => column a (rows a) i) As (unravelF (As.map ncols) k)).flatten =
    kron (List.zipWith (fun b A => (PNSpace.spaceDim b,
      fun i j => monomialValue ((nodeTuplesPN b).getD j []) (column A b.spatialDim i))) bases As) k l := by
  induction h with
  | nil => intro k l _ _; simp [kron, monomialValue]
  | @cons b A bases As hb _ ih =>
    intro k l hk hl
    simp only [List.map_cons, List.prod_cons] at hk hl
    have hpos : 0 < b.spaceDim := Nat.pos_of_ne_zero fun h0 => by simp [h0] at hk
    simp only [List.map_cons, unravelF_cons, List.zipWith_cons_cons, List.flatten_cons, kron]
    have hlt : l % b.spaceDim < (nodeTuplesPN b).length := by
      rw [length_nodeTuplesPN]; exact Nat.mod_lt _ hpos
    rw [monomialValue_append, hb.1, hb.2, ih _ _ (Nat.div_lt_of_lt_mul hk) (Nat.div_lt_of_lt_mul hl)]
    rw [List.getD_eq_getElem?_getD, List.getElem?_eq_getElem hlt, Option.getD_some,
      ((Pytools.mem_gnitsam _ _ _).1 (List.getElem_mem hlt)).1]
    simp [column, hb.1]

/-- The node set `A` is unisolvent for `PN`. -/
def UnisolventPN (b : PNSpace) (A : NdArray ℝ) : Prop :=
  Unisolvent (fun j : Fin (nodeTuples (.pn b)).length => monomialValue (nodeTuples (.pn b))[j])
    (fun i : Fin (nodeTuples (.pn b)).length => column A b.spatialDim i)

theorem tensor_unisolvent (bases : List PNSpace) (As : List (NdArray ℝ)) (fv : ℝ)
    (h : List.Forall₂ (fun b A => A.shape = [b.spatialDim, b.spaceDim] ∧ UnisolventPN b A) bases As)
    (hdim : 0 < (bases.map PNSpace.spatialDim).sum) :
    ∃ A, tensorProductNodes fv As = .ok A ∧
      A.shape = [(bases.map PNSpace.spatialDim).sum, Space.spaceDim (.tp bases)] ∧
      Unisolvent (fun j : Fin (nodeTuples (.tp bases)).length => monomialValue (nodeTuples (.tp bases))[j])
        (fun i : Fin (nodeTuples (.tp bases)).length => column A (bases.map PNSpace.spatialDim).sum i) := by
  have hrc : List.Forall₂ (fun b A => rows A = b.spatialDim ∧ ncols A = b.spaceDim) bases As :=
    h.imp fun b A hbA => by simp [rows, ncols, hbA.1]
  have h2 : ∀ a ∈ As, Is2D a := by
    clear hrc hdim
    induction h with
    | nil => simp
    | cons hb _ ih =>
      intro a ha
      rcases List.mem_cons.1 ha with rfl | ha
      · simp [Is2D, rows, ncols, hb.1]
      · exact ih a ha
  have hrows : As.map rows = bases.map PNSpace.spatialDim := by
    clear h2 h hdim
    induction hrc with
    | nil => rfl
    | cons hb _ ih => simp [hb.1, ih]
  have hcols : As.map ncols = bases.map PNSpace.spaceDim := by
    clear h2 h hdim hrows
    induction hrc with
    | nil => rfl
    | cons hb _ ih => simp [hb.2, ih]
  obtain ⟨A, hA, hsh, hget⟩ := tensorProductNodes_ok fv As h2 (by rw [hrows]; exact hdim)
  refine ⟨A, hA, by rw [hsh, hrows, hcols]; rfl, ?_⟩
  have hlen : (nodeTuples (.tp bases)).length = (bases.map PNSpace.spaceDim).prod := length_nodeTuplesTP bases
  set L := List.zipWith (fun b A => (PNSpace.spaceDim b,
      fun i j => monomialValue ((nodeTuplesPN b).getD j []) (column A b.spatialDim i))) bases As with hL
  have hfst : L.map Prod.fst = bases.map PNSpace.spaceDim := by
    rw [hL]
    clear_value L; clear h2 h hdim hrows hcols hget hL hlen hsh hA
    induction hrc with
    | nil => rfl
    | cons hb _ ih => simp only [List.zipWith_cons_cons, List.map_cons, ih]
  have hinv : ∀ p ∈ L, HasLeftInv p.1 p.2 := by
    rw [hL]
    clear_value L; clear hrc h2 hdim hrows hcols hget hL hlen hsh hA hfst
    induction h with
    | nil => simp
    | @cons b A bases As hb _ ih =>
      simp only [List.zipWith_cons_cons, List.mem_cons]
      rintro p (rfl | hp)
      · simp only
        have e : (nodeTuples (.pn b)).length = b.spaceDim := length_nodeTuplesPN b
        have := leftInv_of_unisolvent _ _
          (fun i j => monomialValue ((nodeTuplesPN b).getD j []) (column A b.spatialDim i)) ?_ hb.2
        · rwa [e] at this
        · intro i j
          simp [nodeTuples, List.getD_eq_getElem?_getD,
            List.getElem?_eq_getElem (show (j : Nat) < (nodeTuplesPN b).length from j.2)]
          rfl
      · exact ih p hp
  have hk := kron_leftInv L hinv
  rw [hfst, ← hlen] at hk
  refine unisolvent_of_leftInv _ _ (kron L) ?_ hk
  intro i j
  have hi : (i : Nat) < (bases.map PNSpace.spaceDim).prod := by rw [← hlen]; exact i.2
  have hj : (j : Nat) < (bases.map PNSpace.spaceDim).prod := by rw [← hlen]; exact j.2
  have hc := column_tensorProduct As A hget i (by rw [hcols]; exact hi)
  rw [hrows] at hc
  rw [hc, hL, ← monomial_kron bases As hrc i j hi hj]
  congr 1
  have hkey : (nodeTuplesTP bases)[(j : Nat)]? = some (List.zipWith (fun (ts : List (List Nat)) j => ts.getD j [])
      (bases.map nodeTuplesPN) (unravelF (bases.map PNSpace.spaceDim) j)).flatten := by
    rw [nodeTuplesTP_eq, List.getElem?_map, List.getElem?_range (by rw [size_eq_prod]; exact hj)]
    rfl
  rw [← Option.some_inj, ← hkey]
  exact (List.getElem?_eq_getElem (l := nodeTuplesTP bases) j.2).symm

end Modepy

import Verif.Model.ModalDecay
import Verif.Proofs.PinvExists
import Verif.Proofs.Pytools
import Verif.Proofs.TensorNodes
import Mathlib.Analysis.SpecialFunctions.ImproperIntegrals
import Mathlib.Analysis.SpecialFunctions.Log.Base

/-!
# Properties C58, C59, C65, C66: skyline pessimization, modal decay fit and residual estimate
-/

namespace Modepy
open Spec Matrix MeasureTheory

/-! ## C58 -/

theorem length_skylineScan : ∀ (l : List ℝ) (cur : ℝ), (skylineScan cur l).length = l.length
  | [], _ => rfl
  | v :: vs, cur => by simp [skylineScan, length_skylineScan vs]

theorem skylineScan_greatest : ∀ (l : List ℝ) (cur : ℝ) (i : Nat), i < l.length →
    IsGreatest {v | v = cur ∨ ∃ j, j ≤ i ∧ v = l.getD j 0} ((skylineScan cur l).getD i 0)
  | [], _, _, h => by simp at h
  | v :: vs, cur, 0, _ => by
      simp only [skylineScan, List.getD_cons_zero]
      constructor
      · rcases max_choice cur v with e | e
        · exact Or.inl e
        · exact Or.inr ⟨0, le_rfl, by simpa using e⟩
      · rintro x (rfl | ⟨j, hj, rfl⟩)
        · exact le_max_left _ _
        · obtain rfl : j = 0 := by omega
          simp
  | v :: vs, cur, i + 1, h => by
      have ih := skylineScan_greatest vs (max cur v) i (by simpa using h)
      simp only [skylineScan, List.getD_cons_succ]
      constructor
      · rcases ih.1 with e | ⟨j, hj, e⟩
        · rcases max_choice cur v with e2 | e2
          · exact Or.inl (e.trans e2)
          · exact Or.inr ⟨0, Nat.zero_le _, by rw [e, e2]; simp⟩
        · exact Or.inr ⟨j + 1, by omega, by rw [e]; simp⟩
      · rintro x (rfl | ⟨j, hj, rfl⟩)
        · exact (le_max_left _ _).trans (ih.2 (Or.inl rfl))
        · cases j with
          | zero =>
            rw [List.getD_cons_zero]
            exact (le_max_right _ _).trans (ih.2 (Or.inl rfl))
          | succ j =>
            rw [List.getD_cons_succ]
            exact ih.2 (Or.inr ⟨j, by omega, rfl⟩)

theorem getD_reverse (l : List ℝ) (i : Nat) (h : i < l.length) : l.reverse.getD i 0 = l.getD (l.length - 1 - i) 0 := by
  simp [List.getD_eq_getElem?_getD, List.getElem?_reverse h]

/-- **C58 (value).**  Entry `i` is the largest of the entries from `i` on; the last entry is treated like the one before it. -/
theorem C58_value (row : List ℝ) (h2 : 2 ≤ row.length) : ∃ out, skylineRow row = .ok out ∧ out.length = row.length ∧
    ∀ i < row.length, IsGreatest {v | ∃ j, min i (row.length - 2) ≤ j ∧ j < row.length ∧ v = row.getD j 0} (out.getD i 0) := by
  obtain ⟨l1, l2, rest, hr⟩ : ∃ l1 l2 rest, row.reverse = l1 :: l2 :: rest := by
    match h : row.reverse with
    | [] => have := congrArg List.length h; simp at this; rw [this] at h2; simp at h2
    | [a] => have := congrArg List.length h; simp at this; omega
    | a :: b :: c => exact ⟨a, b, c, rfl⟩
  have hlen : (l1 :: l2 :: rest).length = row.length := by rw [← hr]; simp
  refine ⟨(skylineScan (max l1 l2) (l1 :: l2 :: rest)).reverse, ?_, ?_, ?_⟩
  · unfold skylineRow
    rw [hr]
  · rw [List.length_reverse, length_skylineScan, hlen]
  · intro i hi
    have hsl : (skylineScan (max l1 l2) (l1 :: l2 :: rest)).length = row.length := by rw [length_skylineScan, hlen]
    rw [getD_reverse _ _ (by rw [hsl]; exact hi), hsl]
    have hg := skylineScan_greatest (l1 :: l2 :: rest) (max l1 l2) (row.length - 1 - i) (by rw [hlen]; omega)
    have hrow : ∀ j < row.length, (l1 :: l2 :: rest).getD j 0 = row.getD (row.length - 1 - j) 0 := by
      intro j hj
      rw [← hr, getD_reverse _ _ hj]
    have e1 : l1 = row.getD (row.length - 1) 0 := by simpa using hrow 0 (by omega)
    have e2 : l2 = row.getD (row.length - 2) 0 := hrow 1 (by omega)
    have hset : {v | v = max l1 l2 ∨ ∃ j, j ≤ row.length - 1 - i ∧ v = (l1 :: l2 :: rest).getD j 0} ⊆
        {v | ∃ j, min i (row.length - 2) ≤ j ∧ j < row.length ∧ v = row.getD j 0} := by
      rintro v (rfl | ⟨j, hj, rfl⟩)
      · rcases max_choice l1 l2 with e | e
        · exact ⟨row.length - 1, by omega, by omega, by rw [e, e1]⟩
        · exact ⟨row.length - 2, by omega, by omega, by rw [e, e2]⟩
      · exact ⟨row.length - 1 - j, by omega, by omega, hrow j (by omega)⟩
    refine ⟨hset hg.1, ?_⟩
    rintro v ⟨j, hj1, hj2, rfl⟩
    by_cases hji : i ≤ j
    · refine hg.2 (Or.inr ⟨row.length - 1 - j, by omega, ?_⟩)
      rw [hrow _ (by omega)]
      congr 1
      omega
    · have : j = row.length - 2 := by omega
      subst this
      rw [← e2]
      exact (le_max_right _ _).trans (hg.2 (Or.inl rfl))

/-- **C58.**  The result is nonincreasing, dominates the input, is below every nonincreasing sequence that dominates the input
except in the last place, and its last entry is the maximum of the last two inputs. -/
theorem C58_skyline (row : List ℝ) (h2 : 2 ≤ row.length) : ∃ out, skylineRow row = .ok out ∧ out.length = row.length ∧
    (∀ i j, i ≤ j → j < row.length → out.getD j 0 ≤ out.getD i 0) ∧
    (∀ i < row.length, row.getD i 0 ≤ out.getD i 0) ∧
    (∀ g : Nat → ℝ, (∀ i j, i ≤ j → j < row.length → g j ≤ g i) → (∀ i < row.length, row.getD i 0 ≤ g i) →
      ∀ i < row.length - 1, out.getD i 0 ≤ g i) ∧
    out.getD (row.length - 1) 0 = max (row.getD (row.length - 1) 0) (row.getD (row.length - 2) 0) := by
  obtain ⟨out, ho, hl, hg⟩ := C58_value row h2
  refine ⟨out, ho, hl, ?_, ?_, ?_, ?_⟩
  · intro i j hij hj
    obtain ⟨k, hk1, hk2, hk⟩ := (hg j hj).1
    rw [hk]
    exact (hg i (by omega)).2 ⟨k, by omega, hk2, rfl⟩
  · intro i hi
    exact (hg i hi).2 ⟨i, by omega, hi, rfl⟩
  · intro g hanti hdom i hi
    obtain ⟨k, hk1, hk2, hk⟩ := (hg i (by omega)).1
    rw [hk]
    exact (hdom k hk2).trans (hanti i k (by omega) hk2)
  · apply le_antisymm
    · obtain ⟨k, hk1, hk2, hk⟩ := (hg (row.length - 1) (by omega)).1
      rw [hk]
      have : k = row.length - 1 ∨ k = row.length - 2 := by omega
      rcases this with rfl | rfl
      · exact le_max_left _ _
      · exact le_max_right _ _
    · exact max_le ((hg _ (by omega)).2 ⟨_, by omega, by omega, rfl⟩) ((hg _ (by omega)).2 ⟨_, by omega, by omega, rfl⟩)

/-- **C58 (whole arrays).**  Rows are treated independently. -/
theorem C58_rows (rows : List (List ℝ)) (h : ∀ row ∈ rows, 2 ≤ row.length) : ∃ outs, skylinePessimize rows = .ok outs ∧
    outs.length = rows.length ∧ ∀ k < rows.length, skylineRow (rows.getD k []) = .ok (outs.getD k []) := by
  have hex : ∀ row : List ℝ, ∃ out, 2 ≤ row.length → skylineRow row = .ok out := by
    intro row
    by_cases h2 : 2 ≤ row.length
    · obtain ⟨out, ho, -⟩ := C58_value row h2
      exact ⟨out, fun _ => ho⟩
    · exact ⟨[], fun h => absurd h h2⟩
  choose f hf using hex
  refine ⟨rows.map f, ?_, by simp, ?_⟩
  · have e : rows.map skylineRow = (rows.map f).map .ok := by
      rw [List.map_map]
      exact List.map_congr_left fun row hr => hf row (h row hr)
    rw [skylinePessimize, e, collect_ok]
  · intro k hk
    have h1 : rows.getD k [] = rows[k] := by simp [List.getD_eq_getElem?_getD, hk]
    have h3 : (rows.map f).getD k [] = f rows[k] := by simp [List.getD_eq_getElem?_getD, hk]
    rw [h1, h3]
    exact hf _ (h _ (List.getElem_mem _))

/-- **C58.**  Fewer than two modes are rejected. -/
theorem C58_short (row : List ℝ) (h : row.length < 2) : skylineRow row = .error .IndexError := by
  match row, h with
  | [], _ => rfl
  | [a], _ => rfl

example : ∃ out, skylineRow [4, 1, 2, 1] = .ok out ∧ out.getD 3 0 = 2 := by
  obtain ⟨out, h, -, -, -, -, hl⟩ := C58_skyline [4, 1, 2, 1] (by simp)
  refine ⟨out, h, ?_⟩
  have : out.getD 3 0 = max 1 2 := hl
  rw [this]
  norm_num

/-! ## The fit -/

/-- The quantity whose logarithm is fitted: the pessimized squared coefficient plus the square of the decay baseline
`k^(-n)` (normalised over all modes used) times the squared norm. -/
noncomputable def Spec.decayTarget (sq : List ℝ) (orders : List Nat) (n ignored k : Nat) : ℝ :=
  let b : Nat → ℝ := fun o => if o = 0 then 1 else ((o : ℝ) ^ n)⁻¹
  sq.getD (ignored + k) 0 + (b (orders.getD k 0) / √ ((orders.map fun (o : Nat) => b o ^ 2).sum) * sq.sum) ^ 2

theorem pinv_exact {m : Nat} {A : Matrix (Fin m) (Fin 2) ℝ} {P : Matrix (Fin 2) (Fin m) ℝ} (h : IsPinv A P)
    (hinj : ∀ x, A *ᵥ x = 0 → x = 0) (x : Fin 2 → ℝ) : P *ᵥ (A *ᵥ x) = x := by
  have : A *ᵥ (P *ᵥ (A *ᵥ x) - x) = 0 := by
    rw [Matrix.mulVec_sub, Matrix.mulVec_mulVec, Matrix.mulVec_mulVec, h.apa, sub_self]
  exact sub_eq_zero.1 (hinj _ this)

theorem pinv_least_squares {m : Nat} {A : Matrix (Fin m) (Fin 2) ℝ} {P : Matrix (Fin 2) (Fin m) ℝ} (h : IsPinv A P)
    (b : Fin m → ℝ) (y : Fin 2 → ℝ) : ∑ i, ((A *ᵥ (P *ᵥ b)) i - b i) ^ 2 ≤ ∑ i, ((A *ᵥ y) i - b i) ^ 2 := by
  set r : Fin m → ℝ := A *ᵥ (P *ᵥ b) - b with hr
  set z : Fin m → ℝ := A *ᵥ y - A *ᵥ (P *ᵥ b) with hz
  have hAr : Aᵀ *ᵥ r = 0 := by
    have h1 : Aᵀ * (A * P) = Aᵀ := by
      have := congrArg Matrix.transpose h.apa
      rw [Matrix.transpose_mul, h.symm_ap] at this
      exact this
    rw [hr, Matrix.mulVec_sub, Matrix.mulVec_mulVec, Matrix.mulVec_mulVec, Matrix.mul_assoc, h1, sub_self]
  have hzz : z = A *ᵥ (y - P *ᵥ b) := by rw [hz, Matrix.mulVec_sub]
  have hdot : z ⬝ᵥ r = 0 := by
    rw [hzz, dotProduct_comm, Matrix.dotProduct_mulVec, ← Matrix.mulVec_transpose, hAr, zero_dotProduct]
  have e1 : ∀ i, (A *ᵥ y) i - b i = z i + r i := by
    intro i
    simp [hz, hr]
  have e2 : ∀ i, (A *ᵥ (P *ᵥ b)) i - b i = r i := fun i => rfl
  simp only [e1, e2]
  have : ∑ i, (z i + r i) ^ 2 = ∑ i, z i ^ 2 + 2 * (z ⬝ᵥ r) + ∑ i, r i ^ 2 := by
    rw [dotProduct, Finset.mul_sum, ← Finset.sum_add_distrib, ← Finset.sum_add_distrib]
    exact Finset.sum_congr rfl fun i _ => by ring
  rw [this, hdot, mul_zero, add_zero]
  exact le_add_of_nonneg_left (Finset.sum_nonneg fun i _ => sq_nonneg _)

theorem decayMatrix_mulVec (v : List Nat) (x : Fin 2 → ℝ) (i : Fin v.length) :
    (decayMatrix v (v.map fun _ => 1) *ᵥ x) i = x 0 + x 1 * Real.log (v.getD i 0 : Nat) := by
  have hw : (v.map fun _ => (1 : ℝ)).getD i 0 = 1 := by simp [List.getD_eq_getElem?_getD]
  simp only [Matrix.mulVec, dotProduct, Fin.sum_univ_two, decayMatrix, Matrix.of_apply, if_true, one_ne_zero, if_false,
    hw, one_mul]
  ring

theorem decayMatrix_injective (v : List Nat) (i j : Fin v.length)
    (hij : Real.log (v.getD i 0 : Nat) ≠ Real.log (v.getD j 0 : Nat)) (x : Fin 2 → ℝ)
    (hx : decayMatrix v (v.map fun _ => 1) *ᵥ x = 0) : x = 0 := by
  have hi := congrFun hx i
  have hj := congrFun hx j
  rw [decayMatrix_mulVec] at hi hj
  simp only [Pi.zero_apply] at hi hj
  have h1 : x 1 = 0 := by
    have : x 1 * (Real.log (v.getD i 0 : Nat) - Real.log (v.getD j 0 : Nat)) = 0 := by linear_combination hi - hj
    rcases mul_eq_zero.1 this with h | h
    · exact h
    · exact absurd (sub_eq_zero.1 h) hij
  have h0 : x 0 = 0 := by rw [h1] at hi; linarith
  funext k
  have : ∀ k : Fin 2, k = 0 ∨ k = 1 := by decide
  rcases this k with rfl | rfl <;> assumption

theorem gnitsam_head (d : Nat) : ∀ n, ∃ rest, Pytools.gnitsam n d = List.replicate d 0 :: rest := by
  induction d with
  | zero => intro n; exact ⟨[], rfl⟩
  | succ d ih =>
    intro n
    obtain ⟨rest, h⟩ := ih n
    rw [Pytools.gnitsam, List.range_succ_eq_map]
    simp only [List.flatMap_cons, Nat.sub_zero, h, List.map_cons]
    rw [List.cons_append, List.replicate_succ']
    exact ⟨_, rfl⟩

theorem sum_eq_zero_iff_replicate : ∀ (t : List Nat), t.sum = 0 ↔ t = List.replicate t.length 0
  | [] => by simp
  | a :: t => by
      have := sum_eq_zero_iff_replicate t
      simp only [List.sum_cons, Nat.add_eq_zero_iff, List.length_cons, List.replicate_succ, List.cons.injEq]
      rw [this]

/-- The vector of mode orders in `fit_modal_decay`, for `ignored_modes` 0 or 1. -/
theorem modeNumbers (dims n ignored : Nat) (hig : ignored ≤ 1) :
    ∃ rest, Pytools.gnitsam n dims = List.replicate dims 0 :: rest ∧ 0 ∉ rest.map List.sum ∧
      (∀ k ≤ n, 1 ≤ k → 1 ≤ dims → k ∈ rest.map List.sum) ∧ (∀ k ∈ rest.map List.sum, k ≤ n) ∧
      makeModeNumberVector (Pytools.gnitsam n dims) ignored =
        .ok (if ignored = 0 then 0 :: rest.map List.sum else rest.map List.sum) := by
  obtain ⟨rest, h⟩ := gnitsam_head dims n
  have hnd := Pytools.nodup_gnitsam dims n
  have hmem := Pytools.mem_gnitsam dims n
  rw [h] at hnd hmem
  refine ⟨rest, h, ?_, ?_, ?_, ?_⟩
  · intro h0
    obtain ⟨t, ht, hs⟩ := List.mem_map.1 h0
    rw [sum_eq_zero_iff_replicate] at hs
    have hl := ((hmem t).1 (List.mem_cons_of_mem _ ht)).1
    rw [hl] at hs
    rw [hs] at ht
    exact (List.nodup_cons.1 hnd).1 ht
  · intro k hk hk1 hd
    refine List.mem_map.2 ⟨k :: List.replicate (dims - 1) 0, ?_, by simp⟩
    have hin : (k :: List.replicate (dims - 1) 0) ∈ List.replicate dims 0 :: rest :=
      (hmem _).2 ⟨by simp; omega, by simpa using hk⟩
    rcases List.mem_cons.1 hin with e | e
    · exfalso
      have := congrArg List.sum e
      simp at this
      omega
    · exact e
  · intro k hk
    obtain ⟨t, ht, rfl⟩ := List.mem_map.1 hk
    exact ((hmem t).1 (List.mem_cons_of_mem _ ht)).2
  · rw [h, makeModeNumberVector, if_neg (by simp; omega)]
    have : ignored = 0 ∨ ignored = 1 := by omega
    rcases this with rfl | rfl
    · simp
    · simp

theorem fitMatrix_ok (pinv : Pinv2) (rest : List Nat) (h0 : 0 ∉ rest) (ignored : Nat) (w : List ℝ) :
    getDecayFitMatrix pinv (if ignored = 0 then 0 :: rest else rest) ignored w =
      .ok (pinv _ (decayMatrix (if ignored = 0 then 0 :: rest else rest) w)) := by
  by_cases hi : ignored = 0
  · subst hi
    unfold getDecayFitMatrix
    simp [h0]
  · unfold getDecayFitMatrix
    rw [if_neg hi]
    simp only [if_neg hi]
    rw [if_neg h0]

theorem decayData_eq (v : List Nat) (n ignored : Nat) (sq : List ℝ) (hl : sq.length - ignored = v.length) (k : Fin v.length) :
    decayData v n ignored sq k = decayTarget sq v n ignored k := by
  have hk := k.2
  have hv : v[(k : Nat)]? = some v[(k : Nat)] := List.getElem?_eq_getElem hk
  simp only [decayData, if_pos hl, decayTarget, createDecayBaseline, List.getD_eq_getElem?_getD, List.getElem?_map, hv,
    Option.map_some, Option.getD_some, List.map_map]
  rfl

/-- The data to be fitted are positive unless all coefficients vanish. -/
theorem decayTarget_pos (sq : List ℝ) (v : List Nat) (n ignored : Nat) (hnn : ∀ x ∈ sq, 0 ≤ x) (hpos : ∃ x ∈ sq, 0 < x)
    (k : Fin v.length) : 0 < decayTarget sq v n ignored k := by
  have hS : 0 < sq.sum := by
    obtain ⟨x, hx, hx0⟩ := hpos
    calc 0 < x := hx0
      _ ≤ sq.sum := List.single_le_sum hnn x hx
  have hb : ∀ o : Nat, 0 < (if o = 0 then (1 : ℝ) else ((o : ℝ) ^ n)⁻¹) := by
    intro o
    split
    · norm_num
    · have : (0 : ℝ) < o := by exact_mod_cast Nat.pos_of_ne_zero ‹_›
      positivity
  have hvs : 0 < (v.map fun (o : Nat) => (if o = 0 then (1 : ℝ) else ((o : ℝ) ^ n)⁻¹) ^ 2).sum := by
    have hmem : (if v[(k : Nat)] = 0 then (1 : ℝ) else ((v[(k : Nat)] : ℝ) ^ n)⁻¹) ^ 2 ∈
        v.map fun (o : Nat) => (if o = 0 then (1 : ℝ) else ((o : ℝ) ^ n)⁻¹) ^ 2 :=
      List.mem_map.2 ⟨v[(k : Nat)], List.getElem_mem _, rfl⟩
    calc 0 < (if v[(k : Nat)] = 0 then (1 : ℝ) else ((v[(k : Nat)] : ℝ) ^ n)⁻¹) ^ 2 := by
          have := hb v[(k : Nat)]
          positivity
      _ ≤ _ := List.single_le_sum (by
          intro x hx
          obtain ⟨o, -, rfl⟩ := List.mem_map.1 hx
          positivity) _ hmem
  have h1 : 0 ≤ sq.getD (ignored + k) 0 := by
    rw [List.getD_eq_getElem?_getD]
    cases hc : sq[ignored + k]? with
    | none => simp
    | some x => exact hnn x (List.mem_of_getElem? hc)
  unfold decayTarget
  refine add_pos_of_nonneg_of_pos h1 ?_
  have := hb (v.getD k 0)
  positivity

/-- Pessimized squares are nonnegative, and not all zero if the coefficients are not. -/
theorem skyline_squares (row : List ℝ) (h2 : 2 ≤ row.length) : ∃ sq, skylineRow (row.map fun c => c ^ 2) = .ok sq ∧
    sq.length = row.length ∧ (∀ x ∈ sq, 0 ≤ x) ∧ ((∃ c ∈ row, c ≠ 0) → ∃ x ∈ sq, 0 < x) := by
  obtain ⟨sq, hs, hl, -, hdom, -, -⟩ := C58_skyline (row.map fun c => c ^ 2) (by simpa using h2)
  have hl' : sq.length = row.length := by simpa using hl
  have hge : ∀ i (hi : i < sq.length), (row[i]'(by omega)) ^ 2 ≤ sq[i] := by
    intro i hi
    have hi' : i < row.length := by omega
    have := hdom i (by simpa using hi')
    simpa [List.getD_eq_getElem?_getD, hi, hi'] using this
  refine ⟨sq, hs, hl', ?_, ?_⟩
  · intro x hx
    obtain ⟨i, hi, rfl⟩ := List.mem_iff_getElem.1 hx
    exact (sq_nonneg _).trans (hge i hi)
  · rintro ⟨c, hc, hc0⟩
    obtain ⟨i, hi, rfl⟩ := List.mem_iff_getElem.1 hc
    refine ⟨sq[i]'(by omega), List.getElem_mem _, lt_of_lt_of_le ?_ (hge i (by omega))⟩
    positivity

/-- One row of the fit. -/
theorem fitModalDecay_single (pinv : Pinv2) (row : List ℝ) (dims n ignored : Nat) (hig : ignored ≤ 1)
    (hlen : row.length = Nat.choose (n + dims) dims) (h2 : 2 ≤ row.length) :
    ∃ sq v fitMat, skylineRow (row.map fun c => c ^ 2) = .ok sq ∧
      v = ((Pytools.gnitsam n dims).drop ignored).map List.sum ∧
      fitMat = pinv _ (decayMatrix v (v.map fun _ => 1)) ∧ sq.length - ignored = v.length ∧
      fitModalDecay pinv [row] row.length dims n ignored = .ok [fitRow v n ignored fitMat sq] := by
  obtain ⟨sq, hs, hl, -, -⟩ := skyline_squares row h2
  obtain ⟨rest, hg, h0, -, -, hv⟩ := modeNumbers dims n ignored hig
  have hvv : (if ignored = 0 then 0 :: rest.map List.sum else rest.map List.sum) =
      ((Pytools.gnitsam n dims).drop ignored).map List.sum := by
    have : ignored = 0 ∨ ignored = 1 := by omega
    rw [hg]
    rcases this with rfl | rfl <;> simp
  have hvl : sq.length - ignored = (if ignored = 0 then 0 :: rest.map List.sum else rest.map List.sum).length := by
    rw [hvv, List.length_map, List.length_drop, Pytools.length_gnitsam, hl, hlen]
  have hfm := fitMatrix_ok pinv (rest.map List.sum) h0 ignored
    ((if ignored = 0 then 0 :: rest.map List.sum else rest.map List.sum).map fun _ => (1 : ℝ))
  refine ⟨sq, _, _, hs, hvv, rfl, hvl, ?_⟩
  unfold fitModalDecay
  rw [hv]
  simp only
  rw [hfm]
  simp only [List.map_cons, List.map_nil, skylinePessimize, hs, collect]
  rw [if_pos (Or.inl (by rw [← hvl, hl]))]

/-- **C59 (what is fitted).**  For an element with nonzero coefficients and order at least 2, exponent and constant are finite,
the constant is positive, and they are the least squares fit of `log C + e log k` to half the logarithm of the pessimized
and baseline-corrected squared coefficients. -/
theorem C59_least_squares_partial (pinv : Pinv2) (hp : ∀ m A, IsPinv A (pinv m A)) (row : List ℝ) (dims n ignored : Nat)
    (hig : ignored ≤ 1) (hlen : row.length = Nat.choose (n + dims) dims) (h2 : 2 ≤ row.length) (hne : ∃ c ∈ row, c ≠ 0) :
    ∃ sq e C, skylineRow (row.map fun c => c ^ 2) = .ok sq ∧
      fitModalDecay pinv [row] row.length dims n ignored = .ok [some (e, C)] ∧ 0 < C ∧
      let v := ((Pytools.gnitsam n dims).drop ignored).map List.sum
      ∀ e' C' : ℝ, 0 < C' →
        ∑ k : Fin v.length, (Real.log C + e * Real.log (v.getD k 0 : Nat) - Real.log (decayTarget sq v n ignored k) / 2) ^ 2 ≤
        ∑ k : Fin v.length, (Real.log C' + e' * Real.log (v.getD k 0 : Nat) - Real.log (decayTarget sq v n ignored k) / 2) ^ 2 := by
  obtain ⟨sq, v, fitMat, hs, hv, hf, hl, hfit⟩ := fitModalDecay_single pinv row dims n ignored hig hlen h2
  obtain ⟨sq', hs', -, hnn, hpos⟩ := skyline_squares row h2
  rw [hs] at hs'
  obtain rfl : sq = sq' := by injection hs'
  have hdata : decayData v n ignored sq = fun k : Fin v.length => decayTarget sq v n ignored k := funext fun k => decayData_eq v n ignored sq hl k
  have hposd : ∀ k, 0 < decayData v n ignored sq k := by
    intro k
    rw [hdata]
    exact decayTarget_pos sq v n ignored hnn (hpos hne) k
  set b : Fin v.length → ℝ := fun k => Real.log (decayData v n ignored sq k) / 2 with hb
  refine ⟨sq, (fitMat *ᵥ b) 1, Real.exp ((fitMat *ᵥ b) 0), hs, ?_, Real.exp_pos _, ?_⟩
  · rw [hfit, fitRow, if_pos hposd]
  · rw [← hv]
    intro v' e' C' hC'
    have hls := pinv_least_squares (hp _ (decayMatrix v (v.map fun _ => 1))) b ![Real.log C', e']
    rw [← hf] at hls
    simp only [decayMatrix_mulVec, hb] at hls
    rw [Real.log_exp]
    simp only [hb]
    have hd : ∀ k : Fin v.length, decayTarget sq v n ignored k = decayData v n ignored sq k := fun k => by rw [hdata]
    simp only [v', hd]
    simpa using hls

/-- **C59 (power laws).**  If the fitted quantities follow `(C k^e)²` exactly, then `e` and `C` are returned. -/
theorem C59_power_law_partial (pinv : Pinv2) (hp : ∀ m A, IsPinv A (pinv m A)) (row : List ℝ) (dims n ignored : Nat)
    (hig : ignored ≤ 1) (hd : 1 ≤ dims) (hn : 2 ≤ n) (hlen : row.length = Nat.choose (n + dims) dims) (h2 : 2 ≤ row.length)
    (e C : ℝ) (hC : 0 < C) (sq : List ℝ) (hs : skylineRow (row.map fun c => c ^ 2) = .ok sq)
    (hlaw : let v := ((Pytools.gnitsam n dims).drop ignored).map List.sum
      ∀ k < v.length, decayTarget sq v n ignored k = (C * if v.getD k 0 = 0 then 1 else (v.getD k 0 : ℝ) ^ e) ^ 2) :
    fitModalDecay pinv [row] row.length dims n ignored = .ok [some (e, C)] := by
  obtain ⟨sq', v, fitMat, hs', hv, hf, hl, hfit⟩ := fitModalDecay_single pinv row dims n ignored hig hlen h2
  rw [hs] at hs'
  obtain rfl : sq = sq' := by injection hs'
  rw [← hv] at hlaw
  have hdata : ∀ k : Fin v.length, decayData v n ignored sq k = (C * if v.getD k 0 = 0 then 1 else (v.getD k 0 : ℝ) ^ e) ^ 2 :=
    fun k => (decayData_eq v n ignored sq hl k).trans (hlaw k k.2)
  have hbase : ∀ k : Fin v.length, 0 < C * if v.getD k 0 = 0 then 1 else (v.getD k 0 : ℝ) ^ e := by
    intro k
    refine mul_pos hC ?_
    split
    · norm_num
    · have : (0 : ℝ) < (v.getD k 0 : Nat) := by exact_mod_cast Nat.pos_of_ne_zero ‹_›
      positivity
  have hpos : ∀ k, 0 < decayData v n ignored sq k := by
    intro k
    rw [hdata]
    have := hbase k
    positivity
  rw [hfit, fitRow, if_pos hpos]
  have hlog : (fun k => Real.log (decayData v n ignored sq k) / 2) =
      decayMatrix v (v.map fun _ => 1) *ᵥ ![Real.log C, e] := by
    funext k
    rw [decayMatrix_mulVec, hdata]
    have h2' : Real.log ((C * if v.getD k 0 = 0 then 1 else (v.getD k 0 : ℝ) ^ e) ^ 2) / 2 =
        Real.log (C * if v.getD k 0 = 0 then 1 else (v.getD k 0 : ℝ) ^ e) := by
      rw [Real.log_pow]
      push_cast
      ring
    rw [h2']
    simp only [Matrix.cons_val_zero, Matrix.cons_val_one]
    by_cases h0 : v.getD k 0 = 0
    · rw [if_pos h0, h0]
      simp
    · rw [if_neg h0]
      have : (0 : ℝ) < (v.getD k 0 : Nat) := by exact_mod_cast Nat.pos_of_ne_zero h0
      rw [Real.log_mul hC.ne' (by positivity), Real.log_rpow this]
  rw [hlog, hf]
  -- two different orders are present
  obtain ⟨rest, hg, -, hmem, -, -⟩ := modeNumbers dims n ignored hig
  have hin : ∀ k ≤ n, 1 ≤ k → k ∈ v := by
    intro k hk hk1
    have hr := hmem k hk hk1 hd
    rw [hv, hg]
    have : ignored = 0 ∨ ignored = 1 := by omega
    rcases this with rfl | rfl
    · simp only [List.drop_zero, List.map_cons]
      exact List.mem_cons_of_mem _ hr
    · simpa using hr
  obtain ⟨i, hi, hi1⟩ := List.mem_iff_getElem.1 (hin 1 (by omega) le_rfl)
  obtain ⟨j, hj, hj2⟩ := List.mem_iff_getElem.1 (hin 2 hn (by omega))
  have hinj := decayMatrix_injective v ⟨i, hi⟩ ⟨j, hj⟩ (by
    simp only [List.getD_eq_getElem?_getD, List.getElem?_eq_getElem hi, List.getElem?_eq_getElem hj, hi1, hj2,
      Option.getD_some]
    have : 0 < Real.log 2 := Real.log_pos (by norm_num)
    rw [Nat.cast_one, Real.log_one]
    push_cast
    exact this.ne)
  rw [pinv_exact (hp _ _) hinj]
  simp [Real.exp_log hC]

/-- **C59 (fit matrix).**  `get_decay_fit_matrix(v, ignored, w)` returns a matrix that solves the weighted least squares
problem `∑ (w_k (c₀ + c₁ log v_k) - b_k)²`, where `log` is replaced by zero at the leading zero of `v` if no mode is ignored.
A mode number vector that does not start at zero (or is empty) is rejected if no mode is ignored, and further zeros are
always rejected. -/
theorem C59_fit_matrix (pinv : Pinv2) (hp : ∀ m A, IsPinv A (pinv m A)) (v : List Nat) (ignored : Nat) (w : List ℝ) :
    (((ignored = 0 ∧ v.head? = some 0 ∧ 0 ∉ v.tail) ∨ (ignored ≠ 0 ∧ 0 ∉ v)) →
      ∃ A, getDecayFitMatrix pinv v ignored w = .ok A ∧ ∀ (b : Fin v.length → ℝ) (c : Fin 2 → ℝ),
        let obj := fun c0 c1 : ℝ => ∑ k : Fin v.length,
          (w.getD k 0 * (c0 + c1 * if v.getD k 0 = 0 then 0 else Real.log (v.getD k 0 : Nat)) - b k) ^ 2
        obj ((A *ᵥ b) 0) ((A *ᵥ b) 1) ≤ obj (c 0) (c 1)) ∧
    (ignored = 0 → v = [] → getDecayFitMatrix pinv v ignored w = .error .IndexError) ∧
    (ignored = 0 → ∀ k ks, v = k :: ks → k ≠ 0 → getDecayFitMatrix pinv v ignored w = .error .AssertionError) ∧
    (ignored = 0 → ∀ ks, v = 0 :: ks → 0 ∈ ks → getDecayFitMatrix pinv v ignored w = .error .LinAlgError) ∧
    (ignored ≠ 0 → 0 ∈ v → getDecayFitMatrix pinv v ignored w = .error .LinAlgError) := by
  have key : ∀ v : List Nat, ∀ (b : Fin v.length → ℝ) (c : Fin 2 → ℝ),
      let obj := fun c0 c1 : ℝ => ∑ k : Fin v.length,
        (w.getD k 0 * (c0 + c1 * if v.getD k 0 = 0 then 0 else Real.log (v.getD k 0 : Nat)) - b k) ^ 2
      obj ((pinv _ (decayMatrix v w) *ᵥ b) 0) ((pinv _ (decayMatrix v w) *ᵥ b) 1) ≤ obj (c 0) (c 1) := by
    intro v b c
    have h := pinv_least_squares (hp _ (decayMatrix v w)) b c
    have e : ∀ (x : Fin 2 → ℝ) (k : Fin v.length), (decayMatrix v w *ᵥ x) k =
        w.getD k 0 * (x 0 + x 1 * if v.getD k 0 = 0 then 0 else Real.log (v.getD k 0 : Nat)) := by
      intro x k
      simp only [Matrix.mulVec, dotProduct, Fin.sum_univ_two, decayMatrix, Matrix.of_apply, if_true, one_ne_zero, if_false]
      split_ifs with h0
      · rw [h0]
        simp
      · ring
    simp only [e] at h
    exact h
  refine ⟨?_, ?_, ?_, ?_, ?_⟩
  · rintro (⟨h0, h1, h2⟩ | ⟨h0, h1⟩)
    · cases v with
      | nil => simp at h1
      | cons k ks =>
        simp only [List.head?_cons, Option.some.injEq] at h1
        subst h1
        refine ⟨_, ?_, key _⟩
        simp only [getDecayFitMatrix, h0, if_true, ne_eq, not_true_eq_false, if_false]
        rw [if_neg (by simpa using h2)]
    · refine ⟨_, ?_, key _⟩
      rw [getDecayFitMatrix.eq_def, if_neg h0, if_neg h1]
  · rintro h0 rfl
    simp [getDecayFitMatrix, h0]
  · rintro h0 k ks rfl hk
    simp [getDecayFitMatrix, h0, hk]
  · rintro h0 ks rfl hk
    simp [getDecayFitMatrix, h0, hk]
  · intro h0 hk
    rw [getDecayFitMatrix.eq_def, if_neg h0, if_pos hk]

/-- **C59 (elements are independent).** -/
theorem C59_rows (pinv : Pinv2) (rows : List (List ℝ)) (dims n ignored nmodes : Nat) (hig : ignored ≤ 1)
    (hnm : nmodes = Nat.choose (n + dims) dims) (h2 : 2 ≤ nmodes) (hrows : ∀ row ∈ rows, row.length = nmodes) :
    ∃ fits, fitModalDecay pinv rows nmodes dims n ignored = .ok fits ∧ fits.length = rows.length ∧
      ∀ k < rows.length, fitModalDecay pinv [rows.getD k []] nmodes dims n ignored = .ok [fits.getD k none] := by
  obtain ⟨rest, hg, h0, -, -, hv⟩ := modeNumbers dims n ignored hig
  have hfm := fitMatrix_ok pinv (rest.map List.sum) h0 ignored
    ((if ignored = 0 then 0 :: rest.map List.sum else rest.map List.sum).map fun _ => (1 : ℝ))
  obtain ⟨outs, ho, hol, hok⟩ := C58_rows (rows.map fun row => row.map fun c => c ^ 2) (by
    intro r hr
    obtain ⟨row, hrow, rfl⟩ := List.mem_map.1 hr
    rw [List.length_map, hrows row hrow]
    exact h2)
  have hvl : nmodes - ignored = (if ignored = 0 then 0 :: rest.map List.sum else rest.map List.sum).length := by
    have := Pytools.length_gnitsam dims n
    rw [hg, ← hnm, List.length_cons] at this
    have : ignored = 0 ∨ ignored = 1 := by omega
    rcases this with rfl | rfl
    · simp; omega
    · simp; omega
  have hgen : ∀ (rs outs : List (List ℝ)), skylinePessimize (rs.map fun row => row.map fun c => c ^ 2) = .ok outs →
      fitModalDecay pinv rs nmodes dims n ignored = .ok (outs.map (fitRow _ n ignored
        (pinv _ (decayMatrix (if ignored = 0 then 0 :: rest.map List.sum else rest.map List.sum)
          ((if ignored = 0 then 0 :: rest.map List.sum else rest.map List.sum).map fun _ => (1 : ℝ)))))) := by
    intro rs outs ho
    unfold fitModalDecay
    rw [hv]
    simp only
    rw [hfm]
    simp only [ho]
    rw [if_pos (Or.inl hvl)]
  refine ⟨_, hgen rows outs ho, by simpa using hol, ?_⟩
  intro k hk
  have hk' := hok k (by simpa using hk)
  have hk2 : k < outs.length := by simpa [hol] using hk
  rw [hgen [rows.getD k []] [outs.getD k []]]
  · simp [List.getD_eq_getElem?_getD, hk2]
  · have e1 : (rows.map fun row => row.map fun c => c ^ 2).getD k [] = (rows.getD k []).map fun c => c ^ 2 := by
      simp [List.getD_eq_getElem?_getD, hk]
    rw [e1] at hk'
    simp only [skylinePessimize, List.map_cons, List.map_nil, hk', collect]

/-! ## The example `c = (0, t, t/2)` of order two on the interval -/

theorem fit_example (pinv : Pinv2) (hp : ∀ m A, IsPinv A (pinv m A)) (t : ℝ) (ht : 0 < t) :
    fitModalDecay pinv [[0, t, t / 2]] 3 1 2 1 =
      .ok [some (Real.logb 2 (√ ((17 + 9 * t ^ 2) / (17 + 144 * t ^ 2))), √ (t ^ 2 + 144 / 17 * t ^ 4))] := by
  have hsq : skylineRow ([0, t, t / 2].map fun c => c ^ 2) = .ok [t ^ 2, t ^ 2, t ^ 2] := by
    have h1 : max ((t / 2) ^ 2) (t ^ 2) = t ^ 2 := max_eq_right (by nlinarith)
    have h2 : max (t ^ 2) ((t / 2) ^ 2) = t ^ 2 := max_eq_left (by nlinarith)
    have h3 : max (t ^ 2) ((0 : ℝ) ^ 2) = t ^ 2 := max_eq_left (by nlinarith)
    simp only [List.map_cons, List.map_nil, skylineRow, List.reverse_cons, List.reverse_nil, List.nil_append,
      List.cons_append, skylineScan, h1, h2, h3, max_self]
  refine C59_power_law_partial pinv hp [0, t, t / 2] 1 2 1 le_rfl le_rfl le_rfl rfl (by simp) _ _ ?_ [t ^ 2, t ^ 2, t ^ 2] hsq ?_
  · positivity
  · have hv : ((Pytools.gnitsam 2 1).drop 1).map List.sum = [1, 2] := by decide
    rw [hv]
    intro v k hk
    have hsum : √ (((1 : ℝ) ^ 2)⁻¹ ^ 2 + ((2 : ℝ) ^ 2)⁻¹ ^ 2) ^ 2 = 17 / 16 := by
      rw [Real.sq_sqrt (by positivity)]
      norm_num
    have hd1 : 0 < t ^ 2 + 144 / 17 * t ^ 4 := by positivity
    have hk' : k = 0 ∨ k = 1 := by
      simp [v] at hk
      omega
    rcases hk' with rfl | rfl
    · simp only [v, decayTarget, List.getD_cons_zero, List.getD_cons_succ, List.map_cons, List.map_nil, List.sum_cons,
        List.sum_nil, one_ne_zero, if_false, OfNat.ofNat_ne_zero, Nat.cast_one, Nat.cast_ofNat, add_zero]
      rw [mul_pow, div_pow, hsum, Real.one_rpow, mul_one, Real.sq_sqrt hd1.le]
      norm_num
      ring
    · simp only [v, decayTarget, List.getD_cons_zero, List.getD_cons_succ, List.map_cons, List.map_nil, List.sum_cons,
        List.sum_nil, one_ne_zero, if_false, OfNat.ofNat_ne_zero, Nat.cast_one, Nat.cast_ofNat, add_zero]
      have hr : 0 < (17 + 9 * t ^ 2) / (17 + 144 * t ^ 2) := by positivity
      rw [mul_pow, div_pow, hsum, Real.rpow_logb (by norm_num) (by norm_num) (Real.sqrt_pos.2 hr), mul_pow,
        Real.sq_sqrt hd1.le, Real.sq_sqrt hr.le]
      norm_num
      field_simp
      ring

/-- **C59 (refuted as stated).**  Coefficients `c_k = k^(-1)` (`C = 1`, decay rate 1) are not recovered: the last coefficient
is replaced by the last but one and a baseline is added before fitting. -/
theorem C59_not_recovered (pinv : Pinv2) (hp : ∀ m A, IsPinv A (pinv m A)) :
    fitModalDecay pinv [[0, 1, 1 / 2]] 3 1 2 1 ≠ .ok [some (-1, 1)] := by
  have h := fit_example pinv hp 1 one_pos
  rw [h]
  intro he
  injection he with he
  simp only [List.cons.injEq, Option.some.injEq, Prod.mk.injEq, and_true] at he
  have := he.2
  rw [Real.sqrt_eq_one] at this
  norm_num at this

/-! ## C65: scaling -/

/-- **C65 (how the fitted data scale).**  Multiplying the coefficients by `t` multiplies their squares by `t²` but the squared
baseline by `t⁴`: the data become `t² (sq_k + t² baseline_k)`. -/
theorem C65_scaling_partial (sq : List ℝ) (orders : List Nat) (n ignored k : Nat) (t : ℝ) :
    decayTarget (sq.map fun x => t ^ 2 * x) orders n ignored k =
      t ^ 2 * (sq.getD (ignored + k) 0 + t ^ 2 * (decayTarget sq orders n ignored k - sq.getD (ignored + k) 0)) := by
  have hs : (sq.map fun x => t ^ 2 * x).sum = t ^ 2 * sq.sum := by rw [List.sum_map_mul_left, List.map_id']
  have hg : (sq.map fun x => t ^ 2 * x).getD (ignored + k) 0 = t ^ 2 * sq.getD (ignored + k) 0 := by
    simp only [List.getD_eq_getElem?_getD, List.getElem?_map]
    cases sq[ignored + k]? <;> simp
  simp only [decayTarget, hs, hg]
  ring

/-- **C65 (refuted).**  The exponent is not invariant under scaling of the function: for `c = (0, 1, 1/2)` and `2 c` on the
interval with order 2 the fitted exponents differ. -/
theorem C65_not_scale_invariant (pinv : Pinv2) (hp : ∀ m A, IsPinv A (pinv m A)) :
    ∃ e1 C1 e2 C2, fitModalDecay pinv [[0, 1, 1 / 2]] 3 1 2 1 = .ok [some (e1, C1)] ∧
      fitModalDecay pinv [[0, 2, 1]] 3 1 2 1 = .ok [some (e2, C2)] ∧ e1 ≠ e2 := by
  have h1 := fit_example pinv hp 1 one_pos
  have h2 := fit_example pinv hp 2 two_pos
  rw [show (2 : ℝ) / 2 = 1 by norm_num] at h2
  refine ⟨_, _, _, _, h1, h2, ?_⟩
  intro he
  have h := Real.logb_injOn_pos (b := 2) (by norm_num) (by simp only [Set.mem_Ioi]; positivity)
    (by simp only [Set.mem_Ioi]; positivity) he
  rw [Real.sqrt_inj (by positivity) (by positivity)] at h
  norm_num at h

/-! ## C66: residual estimates -/

/-- **C66 (value).**  With a fitted decay `C k^e`, `e < -1/2`, the estimate is `C (∫_{n+1}^∞ x^(2e) dx)^(1/2) / ‖c‖`, set to
zero when it exceeds one; otherwise it is NaN.  A finite estimate lies in `[0, 1]`. -/
theorem C66_estimate (n : Nat) (row : List ℝ) (e C : ℝ) (hC : 0 < C) (hne : ∃ c ∈ row, c ≠ 0) :
    (e < -1 / 2 → residualRow n row (some (e, C)) =
      let r := C * √ (∫ x in Set.Ioi (n + 1 : ℝ), x ^ (2 * e)) / √ ((row.map fun c => c ^ 2).sum)
      some (if r > 1 then 0 else r)) ∧
    (-1 / 2 ≤ e → residualRow n row (some (e, C)) = none) ∧
    ∀ r, residualRow n row (some (e, C)) = some r → 0 ≤ r ∧ r ≤ 1 := by
  have hn : (0 : ℝ) < n + 1 := by positivity
  have hl2 : √ ((row.map fun c => c ^ 2).sum) ≠ 0 := by
    obtain ⟨c, hc, hc0⟩ := hne
    apply ne_of_gt
    apply Real.sqrt_pos.2
    have h0 : 0 < c ^ 2 := by positivity
    refine lt_of_lt_of_le h0 (List.single_le_sum ?_ _ (List.mem_map.2 ⟨c, hc, rfl⟩))
    intro x hx
    obtain ⟨y, -, rfl⟩ := List.mem_map.1 hx
    exact sq_nonneg y
  refine ⟨?_, ?_, ?_⟩
  · intro he
    have h1 : 2 * e + 1 ≠ 0 := by linarith
    have hint : ∫ x in Set.Ioi (n + 1 : ℝ), x ^ (2 * e) = -((n + 1 : ℝ) ^ (2 * e + 1)) / (2 * e + 1) :=
      integral_Ioi_rpow_of_lt (by linarith) hn
    have h2 : ¬ -((n + 1 : ℝ) ^ (2 * e + 1)) / (2 * e + 1) < 0 := by
      rw [not_lt]
      apply div_nonneg_of_nonpos
      · have : 0 < (n + 1 : ℝ) ^ (2 * e + 1) := Real.rpow_pos_of_pos hn _
        linarith
      · linarith
    simp only [residualRow, tailFactor, if_neg h1, if_neg h2, if_neg hl2, hint]
  · intro he
    by_cases h1 : 2 * e + 1 = 0
    · simp only [residualRow, tailFactor, if_pos h1]
    · have h2 : -((n + 1 : ℝ) ^ (2 * e + 1)) / (2 * e + 1) < 0 := by
        apply div_neg_of_neg_of_pos
        · have : 0 < (n + 1 : ℝ) ^ (2 * e + 1) := Real.rpow_pos_of_pos hn _
          linarith
        · exact lt_of_le_of_ne (by linarith) (Ne.symm h1)
      simp only [residualRow, tailFactor, if_neg h1, if_pos h2]
  · intro r hr
    simp only [residualRow, tailFactor] at hr
    split_ifs at hr with h1 h2
    simp only [Option.some.injEq] at hr
    split_ifs at hr with h3
    · rw [← hr]
      norm_num
    · rw [← hr]
      constructor
      · positivity
      · exact not_lt.1 h3

theorem fitRow_of_zero_column (v : List Nat) (n ignored : Nat) (P : Matrix (Fin 2) (Fin v.length) ℝ)
    (hP : IsPinv (decayMatrix v (v.map fun _ => 1)) P) (hz : ∀ k : Fin v.length, Real.log (v.getD k 0 : Nat) = 0)
    (sq : List ℝ) (e C : ℝ) (h : fitRow v n ignored P sq = some (e, C)) : e = 0 := by
  set A := decayMatrix v (v.map fun _ => 1) with hA
  have hcol : ∀ k, A k 1 = 0 := by
    intro k
    have := hz k
    simp only [hA, decayMatrix]
    simp [this, -Real.log_eq_zero, -List.getD_eq_getElem?_getD]
  have hPA : ∀ i, (P * A) 1 i = 0 := by
    intro i
    rw [← hP.symm_pa, Matrix.transpose_apply, Matrix.mul_apply]
    simp [hcol]
  have hrow : ∀ k, P 1 k = 0 := by
    intro k
    rw [← hP.pap, Matrix.mul_apply]
    simp [hPA]
  unfold fitRow at h
  simp only at h
  split_ifs at h
  injection h with h
  rw [Prod.mk.injEq] at h
  rw [← h.1]
  simp [Matrix.mulVec, dotProduct, hrow]

/-- **C66 (order one).**  With polynomials of degree at most one all usable modes have the same order, the fitted exponent is
zero, and the estimate is NaN for every function. -/
theorem C66_order_one_nan (pinv : Pinv2) (hp : ∀ m A, IsPinv A (pinv m A)) (row : List ℝ) (dims : Nat) (hd : 1 ≤ dims)
    (hlen : row.length = dims + 1) : estimateResidual pinv [row] row.length dims 1 1 = .ok [none] := by
  obtain ⟨sq, v, fitMat, hs, hv, hf, hl, hfit⟩ := fitModalDecay_single pinv row dims 1 1 le_rfl
    (by rw [hlen, Nat.add_comm 1, Nat.choose_succ_self_right]) (by omega)
  unfold estimateResidual
  rw [hfit]
  simp only [List.zipWith_cons_cons, List.zipWith_nil_right]
  congr 2
  cases hfr : fitRow v 1 1 fitMat sq with
  | none => rfl
  | some ec =>
    obtain ⟨e, C⟩ := ec
    have he : e = 0 := by
      refine fitRow_of_zero_column v 1 1 fitMat (by rw [hf]; exact hp _ _) ?_ sq e C hfr
      intro k
      obtain ⟨rest, hg, h0, -, hle, -⟩ := modeNumbers dims 1 1 le_rfl
      have hmem : v.getD k 0 ∈ v := by
        simp [List.getD_eq_getElem?_getD]
      have hv2 : v = rest.map List.sum := by rw [hv, hg]; simp
      have h1 : ∀ x ∈ v, x ≤ 1 := by
        rw [hv2]
        intro x hx
        exact hle x (by simpa using hx)
      have h1 := h1 _ hmem
      have : v.getD k 0 = 0 ∨ v.getD k 0 = 1 := by omega
      rcases this with e | e <;> rw [e] <;> simp
    subst he
    have h2 : ¬ (2 * (0 : ℝ) + 1 = 0) := by norm_num
    have h3 : -((1 + 1 : ℝ) ^ (2 * (0 : ℝ) + 1)) / (2 * 0 + 1) < 0 := by norm_num
    simp only [residualRow, tailFactor, Nat.cast_one, if_neg h2, if_pos h3]

/-- A pseudoinverse routine meeting the contract exists, so the theorems above apply. -/
example : ∃ pinv : Pinv2, ∀ m A, IsPinv A (pinv m A) :=
  ⟨fun m A => (exists_isPinv A).choose, fun _ A => (exists_isPinv A).choose_spec⟩

end Modepy

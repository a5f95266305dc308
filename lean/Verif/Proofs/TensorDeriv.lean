import Verif.Proofs.TensorBasis

/-!
# `TensorProductBasis.derivatives`: helper lemmas
-/

namespace Modepy
open NdArray Spec

/-- Start offsets, beginning at `s`. -/
def startsFrom (s : Nat) : List Nat → List Nat
  | [] => []
  | d :: ds => s :: startsFrom (s + d) ds

theorem startsFrom_eq (s : Nat) (dims : List Nat) :
    startsFrom s dims = (List.range dims.length).map fun i => s + (dims.take i).sum := by
  induction dims generalizing s with
  | nil => rfl
  | cons d ds ih =>
    rw [startsFrom, ih, List.length_cons, List.range_succ_eq_map, List.map_cons, List.map_map]
    simp [Function.comp_def, Nat.add_assoc]

theorem dimStarts_eq (dims : List Nat) : dimStarts dims = startsFrom 0 dims := by
  rw [startsFrom_eq]; simp [dimStarts]

/-- The selection of factors for an axis. -/
noncomputable def axisFactors (axis : Nat) (bases : List (Basis ℝ)) (sd : List (Nat × Nat)) :
    List (Py (List (List ℝ → Py ℝ))) :=
  List.zipWith (fun (b : Basis ℝ) (sd : Nat × Nat) =>
    if sd.1 ≤ axis ∧ axis < sd.1 + sd.2 then b.derivatives (axis - sd.1) else b.functions) bases sd

theorem axisFactors_cons (axis : Nat) (b : Basis ℝ) (bs : List (Basis ℝ)) (s d : Nat)
    (r : List (Nat × Nat)) : axisFactors axis (b :: bs) ((s, d) :: r) =
      (if s ≤ axis ∧ axis < s + d then b.derivatives (axis - s) else b.functions) ::
        axisFactors axis bs r := rfl

theorem axisFactors_below (axis : Nat) (bases : List (Basis ℝ)) : ∀ (dims : List Nat) (s : Nat),
    dims.length = bases.length → axis < s →
    axisFactors axis bases (List.zip (startsFrom s dims) dims) = bases.map (·.functions) := by
  induction bases with
  | nil => intros; simp [axisFactors]
  | cons b bases ih =>
    intro dims s hl hs
    cases dims with
    | nil => simp at hl
    | cons d ds =>
      have := ih ds (s + d) (by simpa using hl) (by omega)
      rw [startsFrom, List.zip_cons_cons, axisFactors_cons, this, if_neg (by omega), List.map_cons]

theorem axisFactors_at (ider a : Nat) : ∀ (bases : List (Basis ℝ)) (dims : List Nat) (s : Nat),
    dims.length = bases.length → ider < dims.length → a < dims.getD ider 0 →
    axisFactors (s + (dims.take ider).sum + a) bases (List.zip (startsFrom s dims) dims) =
      (bases.map (·.functions)).set ider
        ((bases.map fun b => b.derivatives a).getD ider (.error .IndexError)) := by
  induction ider with
  | zero =>
    intro bases dims s hl hi ha
    cases dims with
    | nil => simp at hi
    | cons d ds =>
    cases bases with
    | nil => simp at hl
    | cons b bases =>
      have := axisFactors_below (s + a) bases ds (s + d) (by simpa using hl)
        (by simp at ha; omega)
      simp only [List.getD_cons_zero] at ha
      rw [List.take_zero, List.sum_nil, Nat.add_zero, startsFrom, List.zip_cons_cons,
        axisFactors_cons, this, if_pos ⟨by omega, by omega⟩, Nat.add_sub_cancel_left]
      rfl
  | succ ider ih =>
    intro bases dims s hl hi ha
    cases dims with
    | nil => simp at hi
    | cons d ds =>
    cases bases with
    | nil => simp at hl
    | cons b bases =>
      have := ih bases ds (s + d) (by simpa using hl) (by simpa using hi) (by simpa using ha)
      rw [List.take_succ_cons, List.sum_cons, startsFrom, List.zip_cons_cons,
        show s + (d + (ds.take ider).sum) + a = s + d + (ds.take ider).sum + a by omega,
        axisFactors_cons, this, if_neg (by omega)]
      rfl

theorem productGradient_getD : ∀ (vgs : List (ℝ × List ℝ)) (ider a : Nat), ider < vgs.length →
    a < (vgs.getD ider (0, [])).2.length →
    (productGradient vgs).getD (((vgs.map fun q => q.2.length).take ider).sum + a) 0 =
      ((vgs.map Prod.fst).set ider ((vgs.getD ider (0, [])).2.getD a 0)).prod := by
  intro vgs
  induction vgs with
  | nil => intro ider a h; simp at h
  | cons vg vgs ih =>
    intro ider a h ha
    obtain ⟨v, g⟩ := vg
    cases ider with
    | zero =>
      simp only [List.getD_cons_zero] at ha
      simp only [productGradient, List.take_zero, List.sum_nil, Nat.zero_add, List.getD_cons_zero,
        List.map_cons, List.set_cons_zero, List.prod_cons]
      simp only [List.getD_eq_getElem?_getD]
      rw [List.getElem?_append_left (by simpa using ha)]
      simp [ha]
    | succ ider =>
      simp only [List.getD_cons_succ] at ha
      have h' : ider < vgs.length := by simpa using h
      have := ih ider a h' ha
      simp only [productGradient, List.map_cons, List.take_succ_cons, List.sum_cons,
        List.getD_cons_succ, List.set_cons_succ, List.prod_cons]
      rw [← this]
      simp only [List.getD_eq_getElem?_getD]
      rw [List.getElem?_append_right (by simp; omega)]
      rw [List.length_map, show g.length + ((vgs.map fun q => q.2.length).take ider).sum + a - g.length
        = ((vgs.map fun q => q.2.length).take ider).sum + a by omega, List.getElem?_map]
      cases hc : (productGradient vgs)[((vgs.map fun q => q.2.length).take ider).sum + a]? <;> simp

theorem tp_derivatives_eq (bases : List (Basis ℝ)) (dims : List Nat)
    (fss : List (List (List ℝ → Py ℝ))) (ds : List (List ℝ → Py ℝ)) (ider a : Nat)
    (hfs : bases.map (·.functions) = fss.map .ok) (hdims : dims.length = bases.length)
    (hi : ider < dims.length) (ha : a < dims.getD ider 0)
    (hds : (bases.map fun b => b.derivatives a).getD ider (.error .IndexError) = .ok ds) :
    (tensorProductBasis bases dims).derivatives ((dims.take ider).sum + a) =
      .ok ((modeIndexTuples (fss.map List.length)).map fun mi =>
        tpFunction dims (List.zipWith (fun l j => l.getD j fun _ => .error .IndexError)
          (fss.set ider ds) mi)) := by
  have hfl : fss.length = bases.length := by simpa using (congrArg List.length hfs).symm
  have hdl : dims.length = fss.length := by omega
  have hf : collect (bases.map (·.functions)) = .ok fss := by rw [hfs, collect_ok]
  have hax := axisFactors_at ider a bases dims 0 hdims hi ha
  rw [Nat.zero_add, hds, hfs, ← dimStarts_eq] at hax
  have hset : (fss.map (fun a => (Except.ok a : Py _))).set ider (.ok ds) =
      (fss.set ider ds).map .ok := by rw [List.map_set]
  simp only [axisFactors] at hax
  simp only [tensorProductBasis, hf, bind, Except.bind, hdl, ne_eq, not_true, if_false, hax, hset,
    collect_ok]
  rfl

end Modepy

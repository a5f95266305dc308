import Verif.Model.Basis
import Verif.Spec.Calculus
import Verif.Proofs.NdArray
import Verif.Proofs.TensorNodes
import Mathlib.Analysis.Calculus.Deriv.Mul

/-!
# Tensor product functions and gradients: helper lemmas
-/

namespace Modepy
open NdArray Spec

theorem modeIndexTuples_eq (counts : List Nat) :
    modeIndexTuples counts = (List.range (size counts)).map (unravelF counts) :=
  Pytools.gnitb_reverse_map_reverse counts

/-! ## Slices -/

@[simp] theorem length_slices {α : Type*} (dims : List Nat) (x : List α) :
    (slices dims x).length = dims.length := by
  induction dims generalizing x with
  | nil => rfl
  | cons d ds ih => simp [slices, ih]

theorem slices_set {α : Type*} (dims : List Nat) (x : List α) (j : Nat) (t : α) :
    ∀ d, slices (d :: dims) (x.set j t) =
      if j < d then (x.take d).set j t :: slices dims (x.drop d)
      else x.take d :: slices dims ((x.drop d).set (j - d) t) := by
  intro d
  by_cases h : j < d
  · rw [if_pos h]
    simp only [slices]
    rw [List.take_set, List.drop_set_of_lt h]
  · rw [if_neg h]
    simp only [slices]
    rw [List.take_set, List.set_eq_of_length_le (by simp; omega), List.drop_set, if_neg h]

/-! ## Values -/

theorem tpFunctionLoop_eq (x : List ℝ) : ∀ (dims : List Nat) (fs : List (List ℝ → Py ℝ))
    (vs : List ℝ) (r : ℝ) (n : Nat), fs.length = dims.length →
    List.Forall₂ (fun (p : (List ℝ → Py ℝ) × List ℝ) v => p.1 p.2 = .ok v)
      (List.zip fs (slices dims (x.drop n))) vs →
    tpFunctionLoop x dims fs r n = .ok (r * vs.prod) := by
  intro dims
  induction dims with
  | nil =>
    intro fs vs r n hl h
    have : fs = [] := List.length_eq_zero_iff.1 hl
    subst this
    cases h
    simp [tpFunctionLoop]
  | cons d ds ih =>
    intro fs vs r n hl h
    cases fs with
    | nil => simp at hl
    | cons f fs =>
      simp only [slices, List.zip_cons_cons] at h
      cases h with
      | @cons _ v _ vs h1 h2 =>
        simp only [tpFunctionLoop]
        simp only at h1
        rw [h1]
        simp only
        rw [ih fs vs (r * v) (n + d) (by simpa using hl) (by rwa [List.drop_drop] at h2)]
        rw [List.prod_cons, mul_assoc]

theorem tpFunction_eq (dims : List Nat) (fs : List (List ℝ → Py ℝ)) (x vs : List ℝ)
    (hx : x.length = dims.sum) (hl : fs.length = dims.length)
    (h : List.Forall₂ (fun (p : (List ℝ → Py ℝ) × List ℝ) v => p.1 p.2 = .ok v)
      (List.zip fs (slices dims x)) vs) :
    tpFunction dims fs x = .ok vs.prod := by
  unfold tpFunction
  rw [if_neg (by simpa using hx), tpFunctionLoop_eq x dims fs vs _ 0 hl (by simpa using h)]
  show Except.ok (1 * vs.prod) = _
  rw [one_mul]

/-! ## Gradients -/

/-- Row `p` of the table of callables: all functions, except the gradient at position `p`. -/
def rowAt {R : Type} : Nat → List ((List R → Py R) × (List R → Py (List R))) → List (FnOrGrad R)
  | _, [] => []
  | 0, p :: r => .grad p.2 :: r.map fun q => .fn q.1
  | k + 1, p :: r => .fn p.1 :: rowAt k r

theorem tpGradientInner_fn (x : List ℝ) (nb : Nat) : ∀ (dims : List Nat)
    (ps : List ((List ℝ → Py ℝ) × (List ℝ → Py (List ℝ)))) (vs block : List ℝ) (off : Nat),
    ps.length = dims.length →
    List.Forall₂ (fun (p : ((List ℝ → Py ℝ) × (List ℝ → Py (List ℝ))) × List ℝ) v =>
      p.1.1 p.2 = .ok v) (List.zip ps (slices dims (x.drop off))) vs →
    tpGradientInner x nb dims (ps.map fun q => .fn q.1) block off =
      .ok (block.map (· * vs.prod)) := by
  intro dims
  induction dims with
  | nil =>
    intro ps vs block off hl h
    have : ps = [] := List.length_eq_zero_iff.1 hl
    subst this
    cases h
    simp [tpGradientInner]
  | cons d ds ih =>
    intro ps vs block off hl h
    cases ps with
    | nil => simp at hl
    | cons p ps =>
      simp only [slices, List.zip_cons_cons] at h
      cases h with
      | @cons _ v _ vs h1 h2 =>
        simp only [List.map_cons, tpGradientInner]
        simp only at h1
        rw [h1]
        simp only
        rw [ih ps vs _ (off + d) (by simpa using hl) (by rwa [List.drop_drop] at h2), List.map_map]
        congr 1
        apply List.map_congr_left
        intro a _
        simp [mul_assoc]

theorem tpGradientInner_row (x : List ℝ) (nb : Nat) : ∀ (p : Nat) (dims : List Nat)
    (ps : List ((List ℝ → Py ℝ) × (List ℝ → Py (List ℝ)))) (vgs : List (ℝ × List ℝ))
    (block : List ℝ) (off : Nat),
    ps.length = dims.length → p < dims.length → (∀ q ∈ vgs[p]?, q.2.length = nb) →
    List.Forall₂ (fun (p : ((List ℝ → Py ℝ) × (List ℝ → Py (List ℝ))) × List ℝ) (v : ℝ × List ℝ) =>
      p.1.1 p.2 = .ok v.1 ∧ p.1.2 p.2 = .ok v.2) (List.zip ps (slices dims (x.drop off))) vgs →
    tpGradientInner x nb dims (rowAt p ps) block off =
      .ok ((List.zipWith (· * ·) block (vgs.getD p (0, [])).2).map
        (· * ((vgs.map Prod.fst).eraseIdx p).prod)) := by
  intro p
  induction p with
  | zero =>
    intro dims ps vgs block off hl hp hlen h
    cases dims with
    | nil => simp at hp
    | cons d ds =>
    cases ps with
    | nil => simp at hl
    | cons q ps =>
      simp only [slices, List.zip_cons_cons] at h
      cases h with
      | @cons _ vg _ vgs h1 h2 =>
        simp only at h1
        simp only [rowAt, tpGradientInner, h1.2]
        have hc : vg.2.length = nb := hlen vg (by simp)
        rw [if_neg (by simpa using hc)]
        rw [tpGradientInner_fn x nb ds ps (vgs.map Prod.fst) _ (off + d) (by simpa using hl)]
        · simp
        · rw [List.forall₂_map_right_iff]
          rw [List.drop_drop] at h2
          exact h2.imp fun a b hab => hab.1
  | succ p ih =>
    intro dims ps vgs block off hl hp hlen h
    cases dims with
    | nil => simp at hp
    | cons d ds =>
    cases ps with
    | nil => simp at hl
    | cons q ps =>
      simp only [slices, List.zip_cons_cons] at h
      cases h with
      | @cons _ vg _ vgs h1 h2 =>
        simp only at h1
        simp only [rowAt, tpGradientInner, h1.1]
        rw [ih ds ps vgs _ (off + d) (by simpa using hl) (by simpa using hp) (by simpa using hlen)
          (by rwa [List.drop_drop] at h2)]
        simp only [List.map_cons, List.eraseIdx_cons_succ, List.prod_cons, List.getD_cons_succ]
        congr 1
        rw [List.zipWith_map_left, List.map_zipWith, List.map_zipWith]
        congr 1
        funext a b
        ring

/-- The gradient of a product of blocks. -/
def productGradient : List (ℝ × List ℝ) → List ℝ
  | [] => []
  | (v, g) :: r => g.map (· * (r.map Prod.fst).prod) ++ (productGradient r).map (v * ·)

theorem productGradient_eq (vgs : List (ℝ × List ℝ)) :
    ((List.range vgs.length).map fun p =>
      (vgs.getD p (0, [])).2.map (· * ((vgs.map Prod.fst).eraseIdx p).prod)).flatten =
      productGradient vgs := by
  induction vgs with
  | nil => rfl
  | cons vg vgs ih =>
    obtain ⟨v, g⟩ := vg
    rw [List.length_cons, List.range_succ_eq_map, List.map_cons, List.flatten_cons, productGradient,
      ← ih]
    congr 1
    rw [List.map_map, List.map_flatten, List.map_map]
    congr 1
    apply List.map_congr_left
    intro p _
    simp only [Function.comp, List.getD_cons_succ, List.map_cons, Nat.succ_eq_add_one,
      List.eraseIdx_cons_succ, List.prod_cons, List.map_map]
    apply List.map_congr_left
    intro a _
    simp only [Function.comp]
    ring

theorem tpGradient_eq (dims : List Nat)
    (ps : List ((List ℝ → Py ℝ) × (List ℝ → Py (List ℝ)))) (vgs : List (ℝ × List ℝ)) (x : List ℝ)
    (hx : x.length = dims.sum) (hl : ps.length = dims.length)
    (hlen : vgs.map (fun q => q.2.length) = dims)
    (h : List.Forall₂ (fun (p : ((List ℝ → Py ℝ) × (List ℝ → Py (List ℝ))) × List ℝ)
      (v : ℝ × List ℝ) => p.1.1 p.2 = .ok v.1 ∧ p.1.2 p.2 = .ok v.2)
      (List.zip ps (slices dims x)) vgs) :
    tpGradient dims ((List.range dims.length).map fun p => rowAt p ps) x =
      .ok (productGradient vgs) := by
  unfold tpGradient
  rw [if_neg (by simpa using hx)]
  have hvl : vgs.length = dims.length := by rw [← hlen]; simp
  have : List.zipWith
      (fun nb df => tpGradientInner x nb dims df (List.replicate nb (Duck.lit 1)) 0) dims
      ((List.range dims.length).map fun p => rowAt p ps) =
      ((List.range vgs.length).map fun p =>
        (vgs.getD p (0, [])).2.map (· * ((vgs.map Prod.fst).eraseIdx p).prod)).map
        (fun a => (Except.ok a : Py (List ℝ))) := by
    apply List.ext_getElem
    · simp [hvl]
    · intro p h1 h2
      have hp : p < dims.length := by simpa using h1
      have hp' : p < vgs.length := by omega
      have hd : dims[p] = (vgs[p].2).length := by
        have : dims[p]? = (vgs.map (fun q => q.2.length))[p]? := by rw [hlen]
        rw [List.getElem?_eq_getElem hp, List.getElem?_map, List.getElem?_eq_getElem hp'] at this
        simpa using this
      simp only [List.getElem_zipWith, List.getElem_map, List.getElem_range]
      rw [tpGradientInner_row x _ p dims ps vgs _ 0 hl hp _ (by simpa using h)]
      · congr 2
        have hg : (vgs.getD p (0, [])) = vgs[p] := by
          rw [List.getD_eq_getElem?_getD, List.getElem?_eq_getElem hp']; rfl
        rw [hg, hd]
        apply List.ext_getElem
        · simp
        · intro i h3 h4
          simp only [List.getElem_zipWith, List.getElem_replicate]
          show (1 : ℝ) * _ = _
          rw [one_mul]
      · intro q hq
        rw [List.getElem?_eq_getElem hp'] at hq
        rw [hd]
        simpa using congrArg (fun q : ℝ × List ℝ => q.2.length) (Option.some.inj hq).symm
  rw [this, collect_ok]
  simp only
  rw [productGradient_eq]

theorem length_productGradient (vgs : List (ℝ × List ℝ)) :
    (productGradient vgs).length = (vgs.map fun q => q.2.length).sum := by
  induction vgs with
  | nil => rfl
  | cons vg vgs ih => simp [productGradient, ih]

/-- Product rule over blocks of coordinates. -/
theorem isGradientAt_product : ∀ (dims : List Nat) (Fs : List (List ℝ → ℝ)) (gs : List (List ℝ))
    (x : List ℝ), x.length = dims.sum → Fs.length = dims.length → gs.length = dims.length →
    (∀ i < dims.length, IsGradientAt (dims.getD i 0) (Fs.getD i fun _ => 0)
      ((slices dims x).getD i []) (gs.getD i [])) →
    IsGradientAt dims.sum (fun y => (List.zipWith (fun F z => F z) Fs (slices dims y)).prod) x
      (productGradient (List.zipWith (fun (F : (List ℝ → ℝ) × List ℝ) g => (F.1 F.2, g))
        (List.zip Fs (slices dims x)) gs)) := by
  intro dims
  induction dims with
  | nil =>
    intro Fs gs x hx hF hg h
    have : Fs = [] := List.length_eq_zero_iff.1 hF
    subst this
    exact ⟨by simp [productGradient], fun j hj => by simp at hj⟩
  | cons d ds ih =>
    intro Fs gs x hx hF hg h
    cases Fs with
    | nil => simp at hF
    | cons F Fs =>
    cases gs with
    | nil => simp at hg
    | cons g gs =>
      simp only [List.length_cons, add_left_inj] at hF hg
      simp only [List.sum_cons] at hx
      have h0 := h 0 (by simp)
      simp only [List.getD_cons_zero, slices] at h0
      have hrest := ih Fs gs (x.drop d) (by simp [hx]) hF hg (by
        intro i hi
        have := h (i + 1) (by simpa using hi)
        simpa only [List.getD_cons_succ, slices] using this)
      obtain ⟨hlg, hdg⟩ := h0
      obtain ⟨hlr, hdr⟩ := hrest
      have hfst : ∀ (Fs : List (List ℝ → ℝ)) (gs : List (List ℝ)) (zs : List (List ℝ)),
          Fs.length = gs.length → zs.length = gs.length →
          (List.zipWith (fun (F : (List ℝ → ℝ) × List ℝ) g => (F.1 F.2, g)) (List.zip Fs zs) gs).map
            Prod.fst = List.zipWith (fun F z => F z) Fs zs := by
        intro Fs gs zs h1 h2
        apply List.ext_getElem
        · simp [h1, h2]
        · intro i _ _; simp
      simp only [slices, List.zip_cons_cons, List.zipWith_cons_cons, productGradient, List.prod_cons,
        List.sum_cons]
      rw [hfst Fs gs _ (by omega) (by simp [hg])]
      refine ⟨by simp [hlg, hlr], ?_⟩
      intro j hj
      have htake : (x.take d).length = d := by simp; omega
      by_cases hjd : j < d
      · have e : (fun t => F ((x.set j t).take d) *
            (List.zipWith (fun F z => F z) Fs (slices ds ((x.set j t).drop d))).prod) =
            fun t => F ((x.take d).set j t) *
              (List.zipWith (fun F z => F z) Fs (slices ds (x.drop d))).prod := by
          funext t
          rw [List.take_set, List.drop_set_of_lt hjd]
        rw [e]
        have hd1 := hdg j hjd
        have ex : (x.take d).getD j 0 = x.getD j 0 := by
          simp [List.getD_eq_getElem?_getD, hjd]
        rw [ex] at hd1
        have := hd1.mul_const (List.zipWith (fun F z => F z) Fs (slices ds (x.drop d))).prod
        refine this.congr_deriv ?_
        simp only [List.getD_eq_getElem?_getD]
        rw [List.getElem?_append_left (by simpa [hlg] using hjd)]
        simp [List.getD_eq_getElem?_getD, hlg, hjd]
      · have e : (fun t => F ((x.set j t).take d) *
            (List.zipWith (fun F z => F z) Fs (slices ds ((x.set j t).drop d))).prod) =
            fun t => F (x.take d) *
              (List.zipWith (fun F z => F z) Fs (slices ds ((x.drop d).set (j - d) t))).prod := by
          funext t
          rw [List.take_set, List.set_eq_of_length_le (by omega), List.drop_set, if_neg hjd]
        rw [e]
        have hj' : j - d < ds.sum := by omega
        have hd1 := hdr (j - d) hj'
        have ex : (x.drop d).getD (j - d) 0 = x.getD j 0 := by
          rw [List.getD_eq_getElem?_getD, List.getD_eq_getElem?_getD, List.getElem?_drop,
            show d + (j - d) = j by omega]
        rw [ex] at hd1
        refine (hd1.const_mul (F (x.take d))).congr_deriv ?_
        simp only [List.getD_eq_getElem?_getD]
        rw [List.getElem?_append_right (by simp [hlg]; omega)]
        simp [List.getD_eq_getElem?_getD, hlg, hlr, hj']

end Modepy

import Verif.Props.Fractions
import Verif.Proofs.EulerianB
import Verif.Proofs.GmLists
import Verif.Proofs.BaryPoly
import Verif.Proofs.TensorNodes
import Verif.Proofs.QuadArrays

/-!
# Property C32: Grundmann–Möller quadrature
-/

namespace Modepy
open Spec Pytools

/-! ## The points -/

/-- The value of a stored fraction. -/
noncomputable def ratVal (ab : Int × Int) : ℝ := (ab.1 : ℝ) / ab.2

/-- The reduced pair, when there is one. -/
def simplified (x : Int × Int) : Int × Int :=
  match simplifyFraction x with
  | .ok y => y
  | .error _ => (0, 0)

theorem simplified_ok {a b : Int} (hb : b ≠ 0) :
    simplifyFraction (a, b) = .ok (simplified (a, b)) ∧ ratVal (simplified (a, b)) = (a : ℝ) / b := by
  rcases C33_value a b with ⟨-, h, -⟩ | ⟨a', b', h1, -, -, h4⟩
  · exact absurd h hb
  · rw [simplified, h1]
    exact ⟨rfl, (h4 hb).2⟩

/-- The denominator for the `i`-th group. -/
def gmDen (s n i : Nat) : Int := (2 * s + 1 + n : Int) - 2 * i

theorem gmDen_pos {s i : Nat} (n : Nat) (h : i ≤ s) : 0 < gmDen s n i := by
  rw [gmDen]; omega

/-- The stored point of a tuple. -/
def gmPt (s n i : Nat) (beta : List Nat) : List (Int × Int) :=
  beta.map fun (b : Nat) => simplified (2 * (b : Int) + 1, gmDen s n i)

theorem gmPoint_ok {s i : Nat} (n : Nat) (h : i ≤ s) (beta : List Nat) :
    gmPoint s n i beta = .ok (gmPt s n i beta) := by
  rw [gmPoint]
  exact collect_map_of_ok _ _ _ fun b _ => (simplified_ok (gmDen_pos n h).ne').1

theorem gmPt_vals {s i : Nat} (n : Nat) (h : i ≤ s) (beta : List Nat) :
    (gmPt s n i beta).map ratVal = beta.map fun (b : Nat) => (2 * (b : ℝ) + 1) / (gmDen s n i : ℝ) := by
  rw [gmPt, List.map_map]
  apply List.map_congr_left
  intro b _
  rw [Function.comp, (simplified_ok (gmDen_pos n h).ne').2]
  push_cast
  rfl

/-- The list of all `(point, weight)` pairs. -/
noncomputable def gmList (s n : Nat) : List (List (Int × Int) × ℝ) :=
  (List.range (s + 1)).flatMap fun i =>
    (gmBetas (s - i) (n + 1)).map fun beta => (gmPt s n i beta, gmWeight s n i)

theorem gmEntries_ok (s n : Nat) : gmEntries s n = .ok (gmList s n) := by
  rw [gmEntries]
  have : ((List.range (s + 1)).flatMap fun i => (gmBetas (s - i) (n + 1)).map fun beta =>
      gmEntry s n i beta) = (gmList s n).map .ok := by
    rw [gmList, List.map_flatMap]
    apply List.flatMap_congr
    intro i hi
    rw [List.map_map]
    apply List.map_congr_left
    intro beta _
    rw [gmEntry, gmPoint_ok n (by have := List.mem_range.1 hi; omega)]
    rfl
  rw [this]
  exact collect_ok _

/-! ## Cartesian coordinates -/

theorem foldl_zipAdd (n : Nat) (vs : List (List ℝ)) : ∀ v : List ℝ, v.length = n → (∀ u ∈ vs, u.length = n) →
    (vs.foldl (List.zipWith (· + ·)) v).length = n ∧
      ∀ r < n, (vs.foldl (List.zipWith (· + ·)) v).getD r 0 = v.getD r 0 + (vs.map fun u => u.getD r 0).sum := by
  induction vs with
  | nil => intro v hv _; simp [hv]
  | cons u us ih =>
    intro v hv hu
    have hul := hu u (by simp)
    have hz : (List.zipWith (· + ·) v u).length = n := by simp [hv, hul]
    obtain ⟨h1, h2⟩ := ih _ hz (fun w hw => hu w (by simp [hw]))
    refine ⟨h1, fun r hr => ?_⟩
    rw [List.foldl_cons, h2 r hr, List.map_cons, List.sum_cons, ← add_assoc]
    congr 1
    simp only [List.getD_eq_getElem?_getD]
    rw [List.getElem?_zipWith, List.getElem?_eq_getElem (show r < v.length by omega),
      List.getElem?_eq_getElem (show r < u.length by omega)]
    simp

theorem wandering_getD (n j r : Nat) (hj : j < n) (hr : r < n) :
    (List.replicate j (-1 : ℝ) ++ [1] ++ List.replicate (n - 1 - j) (-1)).getD r 0 =
      if j = r then 1 else -1 := by
  simp only [List.getD_eq_getElem?_getD, List.append_assoc]
  by_cases h : r < j
  · rw [List.getElem?_append_left (by simpa using h), if_neg (by omega)]
    simp [List.getElem?_replicate, h]
  · rw [List.getElem?_append_right (by simpa using h), List.length_replicate]
    by_cases h2 : j = r
    · simp [h2]
    · rw [if_neg h2, List.getElem?_append_right (by simp; omega)]
      simp only [List.length_cons, List.length_nil, List.getElem?_replicate]
      rw [if_pos (by omega)]
      rfl

theorem sum_pick (l : List ℝ) (n r : Nat) (hl : l.length = n) (hr : r < n) :
    (List.zipWith (fun (c : ℝ) (j : Nat) => c * (if j = r then (1 : ℝ) else -1)) l (List.range n)).sum =
      2 * l.getD r 0 - l.sum := by
  subst hl
  have h1 : List.zipWith (fun (c : ℝ) (j : Nat) => c * (if j = r then (1 : ℝ) else -1)) l (List.range l.length) =
      (List.range l.length).map fun j => l.getD j 0 * (if j = r then (1 : ℝ) else -1) := by
    apply List.ext_getElem
    · simp
    · intro i h1 h2
      simp at h1
      simp [List.getD_eq_getElem?_getD, h1]
  have h2 : l.sum = ((List.range l.length).map fun j => l.getD j 0).sum := by
    congr 1
    apply List.ext_getElem
    · simp
    · intro i h1 h2
      simp [List.getD_eq_getElem?_getD, h1]
  rw [h1, h2, sum_map_range_real, sum_map_range_real]
  have h3 : ∀ j, l.getD j 0 * (if j = r then (1 : ℝ) else -1) =
      (if j = r then 2 * l.getD r 0 else 0) - l.getD j 0 := by
    intro j
    split_ifs with h
    · rw [h]; ring
    · ring
  simp only [h3, Finset.sum_sub_distrib]
  rw [Finset.sum_ite_eq' , if_pos (Finset.mem_range.2 hr)]

/-- The Cartesian point of barycentric coordinates with sum one. -/
theorem gmRealPoint_ok (n : Nat) (p : List (Int × Int)) (hl : p.length = n + 1) (hs : (p.map ratVal).sum = 1) :
    gmRealPoint p (gmVertices n) = .ok ((p.tail.map ratVal).map fun c => 2 * c - 1) := by
  match p, hl with
  | p0 :: ps, hl =>
    have hps : ps.length = n := by simpa using hl
    have hw : (wanderingElement n (1 : ℝ) (-1)).length = n := by simp [wanderingElement]
    rw [gmRealPoint, if_neg (by simp [gmVertices, hps, hw])]
    simp only [gmVertices, List.zipWith_cons_cons]
    congr 1
    set vs := List.zipWith (fun (ab : Int × Int) v => v.map fun c => (ab.1 : ℝ) / ab.2 * c) ps
      (wanderingElement n (1 : ℝ) (-1)) with hvs
    have hmem : ∀ u ∈ vs, u.length = n := by
      intro u hu
      rw [hvs, List.mem_iff_getElem] at hu
      obtain ⟨i, hi, rfl⟩ := hu
      simp only [List.length_zipWith, hps, hw, Nat.min_self] at hi
      simp [wanderingElement]
      omega
    obtain ⟨h1, h2⟩ := foldl_zipAdd n vs ((List.replicate n (-1)).map fun c => (p0.1 : ℝ) / p0.2 * c)
      (by simp) hmem
    apply List.ext_getElem
    · rw [h1]; simp [hps]
    · intro r hr1 hr2
      have hr : r < n := by rwa [h1] at hr1
      have h3 := h2 r hr
      rw [List.getD_eq_getElem?_getD, List.getElem?_eq_getElem hr1, Option.getD_some] at h3
      rw [h3]
      have h4 : (vs.map fun u => u.getD r 0) =
          List.zipWith (fun (c : ℝ) (j : Nat) => c * (if j = r then (1 : ℝ) else -1)) (ps.map ratVal)
            (List.range n) := by
        rw [hvs, List.map_zipWith, wanderingElement, List.zipWith_map_right, List.zipWith_map_left]
        apply List.ext_getElem
        · simp
        · intro j h5 h6
          simp only [List.length_zipWith, List.length_range, hps, Nat.min_self] at h5
          simp only [List.getElem_zipWith, List.getElem_range]
          have h7 := wandering_getD n j r h5 hr
          rw [← h7, ratVal]
          simp only [List.getD_eq_getElem?_getD, List.getElem?_map]
          have hlen : r < (List.replicate j (-1 : ℝ) ++ [1] ++ List.replicate (n - 1 - j) (-1)).length := by
            simp; omega
          rw [List.getElem?_eq_getElem hlen]
          simp
      rw [h4, sum_pick _ n r (by simp [hps]) hr]
      simp only [List.map_cons, List.sum_cons] at hs
      simp only [List.tail_cons, List.getElem_map, List.getD_eq_getElem?_getD, List.getElem?_map]
      rw [List.getElem?_eq_getElem (show r < ps.length by omega)]
      simp only [List.getElem?_replicate, hr, if_true, Option.getD_some, Option.map_some]
      simp only [ratVal] at hs ⊢
      linarith

/-- Barycentric coordinates of the Cartesian point. -/
theorem bary_of_vals (n : Nat) (c : List ℝ) (hl : c.length = n + 1) (hs : c.sum = 1) (j : Fin (n + 1)) :
    baryFin (fun i : Fin n => ((c.tail.map fun c => 2 * c - 1).getD i 0)) j = c.getD j 0 := by
  match c, hl with
  | c0 :: cs, hl =>
    have hcs : cs.length = n := by simpa using hl
    have hget : ∀ i : Fin n, (1 + ((cs.map fun c => 2 * c - 1).getD i 0)) / 2 = cs.getD i 0 := by
      intro i
      simp only [List.getD_eq_getElem?_getD, List.getElem?_map]
      rw [List.getElem?_eq_getElem (show (i : Nat) < cs.length by omega)]
      simp
    simp only [List.tail_cons]
    refine Fin.cases ?_ (fun i => ?_) j
    · simp only [baryFin, Fin.cons_zero, hget]
      have : ∑ i : Fin n, cs.getD i 0 = cs.sum := by
        subst hcs
        rw [← List.sum_ofFn]
        congr 1
        apply List.ext_getElem
        · simp
        · intro i h1 h2
          simp [List.getD_eq_getElem?_getD, h2]
      rw [this]
      simp only [List.sum_cons] at hs
      simp
      linarith
    · simp only [baryFin, Fin.cons_succ, hget]
      simp

/-! ## Visited tuples -/

theorem gm_vals {s n i : Nat} (h : i ≤ s) {beta : List Nat} (hb : beta ∈ gmBetas (s - i) (n + 1)) :
    (gmPt s n i beta).length = n + 1 ∧ ((gmPt s n i beta).map ratVal).sum = 1 ∧
      (∀ c ∈ (gmPt s n i beta).map ratVal, 0 < c) ∧
      ∀ j : Fin (n + 1), ((gmPt s n i beta).map ratVal).getD j 0 =
        (2 * (beta.getD j 0 : ℝ) + 1) / (gmDen s n i : ℝ) := by
  obtain ⟨hl, hs⟩ := (mem_gmBetas _ _ _).1 hb
  have hD : (0 : ℝ) < (gmDen s n i : ℝ) := by exact_mod_cast gmDen_pos n h
  refine ⟨by simp [gmPt, hl], ?_, ?_, ?_⟩
  · rw [gmPt_vals n h]
    have hsum : ∀ l : List Nat, (l.map fun (b : Nat) => (2 * (b : ℝ) + 1) / (gmDen s n i : ℝ)).sum =
        (2 * (l.sum : ℝ) + l.length) / (gmDen s n i : ℝ) := by
      intro l
      induction l with
      | nil => simp
      | cons a l ih =>
        rw [List.map_cons, List.sum_cons, ih, List.sum_cons, List.length_cons, ← add_div]
        push_cast
        ring
    rw [hsum, hl, hs, div_eq_one_iff_eq hD.ne', gmDen, Nat.cast_sub h]
    push_cast
    ring
  · rw [gmPt_vals n h]
    intro c hc
    obtain ⟨b, -, rfl⟩ := List.mem_map.1 hc
    positivity
  · intro j
    rw [gmPt_vals n h]
    simp only [List.getD_eq_getElem?_getD, List.getElem?_map]
    rw [List.getElem?_eq_getElem (show (j : Nat) < beta.length by omega)]
    simp

theorem mem_gmList {s n : Nat} {e : List (Int × Int) × ℝ} (h : e ∈ gmList s n) :
    ∃ i ≤ s, ∃ beta ∈ gmBetas (s - i) (n + 1), e = (gmPt s n i beta, gmWeight s n i) := by
  rw [gmList, List.mem_flatMap] at h
  obtain ⟨i, hi, h⟩ := h
  obtain ⟨beta, hb, rfl⟩ := List.mem_map.1 h
  exact ⟨i, by have := List.mem_range.1 hi; omega, beta, hb, rfl⟩

/-- The dictionary. -/
noncomputable def gmDict (s n : Nat) : List (List (Int × Int) × ℝ) :=
  (gmList s n).foldl (fun dict e => dictAdd dict e.1 e.2) []

theorem gmDict_key {s n : Nat} {e : List (Int × Int) × ℝ} (h : e ∈ gmDict s n) :
    ∃ i ≤ s, ∃ beta ∈ gmBetas (s - i) (n + 1), e.1 = gmPt s n i beta := by
  have := ((dict_fold (fun _ => 0) (gmList s n) [] (by simp)).2.1 e.1).1 (List.mem_map_of_mem h)
  rcases this with h | h
  · simp at h
  · obtain ⟨e', he', h2⟩ := List.mem_map.1 h
    obtain ⟨i, hi, beta, hb, rfl⟩ := mem_gmList he'
    exact ⟨i, hi, beta, hb, h2.symm⟩

/-- Cartesian coordinates of a stored point. -/
noncomputable def gmX (p : List (Int × Int)) : List ℝ := (p.tail.map ratVal).map fun c => 2 * c - 1

theorem gm_ok (s n : Nat) (hn : n ≠ 0) : grundmannMoeller s n =
    .ok ⟨⟨[n, ((gmDict s n).map fun e => gmX e.1).length], fun idx =>
        (((gmDict s n).map fun e => gmX e.1).getD (idx.getD 1 0) []).getD (idx.getD 0 0) 0⟩,
      ⟨[((gmDict s n).map fun e => (2 : ℝ) ^ n * e.2).length], fun idx =>
        ((gmDict s n).map fun e => (2 : ℝ) ^ n * e.2).getD (idx.getD 0 0) 0⟩,
      some (.num (2 * s + 1 : Nat)), none⟩ := by
  have hc : collect ((gmDict s n).map fun e => gmRealPoint e.1 (gmVertices n)) =
      .ok ((gmDict s n).map fun e => gmX e.1) := by
    apply collect_map_of_ok
    intro e he
    obtain ⟨i, hi, beta, hb, h⟩ := gmDict_key he
    obtain ⟨h1, h2, -⟩ := gm_vals hi hb
    rw [h, gmRealPoint_ok n _ h1 h2, gmX]
  rw [grundmannMoeller]
  simp only [if_neg hn, gmEntries_ok]
  rw [← gmDict]
  simp only [hc]

theorem gmX_length {s n : Nat} {e : List (Int × Int) × ℝ} (h : e ∈ gmDict s n) : (gmX e.1).length = n := by
  obtain ⟨i, hi, beta, hb, h⟩ := gmDict_key h
  obtain ⟨h1, -⟩ := gm_vals hi hb
  rw [h, gmX]
  simp [h1]

theorem gm_node (s n : Nat) (W : NdArray ℝ) (E : Option PyVal) (k : Nat) (hk : k < (gmDict s n).length) :
    Quadrature.node ⟨⟨[n, ((gmDict s n).map fun e => gmX e.1).length], fun idx =>
        (((gmDict s n).map fun e => gmX e.1).getD (idx.getD 1 0) []).getD (idx.getD 0 0) 0⟩, W, E, none⟩ k =
      gmX ((gmDict s n)[k]).1 := by
  simp only [Quadrature.node]
  have hg : ((gmDict s n).map fun e => gmX e.1).getD k [] = gmX ((gmDict s n)[k]).1 := by
    simp only [List.getD_eq_getElem?_getD, List.getElem?_map]
    rw [List.getElem?_eq_getElem hk]
    simp
  have hl := gmX_length (List.getElem_mem hk)
  apply List.ext_getElem
  · simp [hl]
  · intro r h1 h2
    simp only [List.getElem_map, List.getElem_range, List.getD_cons_zero, List.getD_cons_succ]
    rw [hg, List.getD_eq_getElem?_getD, List.getElem?_eq_getElem h2]
    rfl

theorem sum_range_getD {β : Type} (l : List β) (F : Nat → ℝ) (G : β → ℝ)
    (h : ∀ (k : Nat) (hk : k < l.length), F k = G l[k]) :
    ((List.range l.length).map F).sum = (l.map G).sum := by
  congr 1
  apply List.ext_getElem
  · simp
  · intro i h1 h2
    simp at h2
    simp [h i h2]

/-- Applying the rule: a sum over the visited tuples. -/
theorem gm_call (s n : Nat) (f : List ℝ → ℝ) :
    Quadrature.call ⟨⟨[n, ((gmDict s n).map fun e => gmX e.1).length], fun idx =>
        (((gmDict s n).map fun e => gmX e.1).getD (idx.getD 1 0) []).getD (idx.getD 0 0) 0⟩,
      ⟨[((gmDict s n).map fun e => (2 : ℝ) ^ n * e.2).length], fun idx =>
        ((gmDict s n).map fun e => (2 : ℝ) ^ n * e.2).getD (idx.getD 0 0) 0⟩,
      some (.num (2 * s + 1 : Nat)), none⟩ f =
    ((gmList s n).map fun e => e.2 * (2 ^ n * f (gmX e.1))).sum := by
  have h := (dict_fold (fun p => 2 ^ n * f (gmX p)) (gmList s n) [] (by simp)).2.2
  rw [← gmDict] at h
  simp only [List.map_nil, List.sum_nil, zero_add] at h
  rw [← h, Quadrature.call]
  have hn : Quadrature.nnodes ⟨⟨[n, ((gmDict s n).map fun e => gmX e.1).length], fun idx =>
        (((gmDict s n).map fun e => gmX e.1).getD (idx.getD 1 0) []).getD (idx.getD 0 0) 0⟩,
      ⟨[((gmDict s n).map fun e => (2 : ℝ) ^ n * e.2).length], fun idx =>
        ((gmDict s n).map fun e => (2 : ℝ) ^ n * e.2).getD (idx.getD 0 0) 0⟩,
      some (.num (2 * s + 1 : Nat)), none⟩ = (gmDict s n).length := by
    simp [Quadrature.nnodes]
  rw [hn]
  apply sum_range_getD
  intro k hk
  rw [gm_node s n _ _ k hk]
  simp only [List.getD_eq_getElem?_getD, List.getElem?_cons_zero, Option.getD_some, List.getElem?_map]
  rw [List.getElem?_eq_getElem hk]
  simp only [Option.map_some, Option.getD_some]
  ring

/-- Coefficients of the product of the odd series are sums over the visited tuples. -/
theorem coeff_oddSeries (m n : Nat) (α : Fin (n + 1) → Nat) :
    PowerSeries.coeff m (∏ j, oddSeries (α j)) =
      ((gmBetas m (n + 1)).map fun b => ∏ j : Fin (n + 1), (2 * ((b.getD j 0 : Nat) : ℝ) + 1) ^ α j).sum := by
  rw [PowerSeries.coeff_prod, ← List.sum_toFinset _ (nodup_gmBetas m n)]
  refine Finset.sum_bij' (fun l _ => List.ofFn l)
    (fun b _ => Finsupp.equivFunOnFinite.symm fun j : Fin (n + 1) => b.getD j 0) ?_ ?_ ?_ ?_ ?_
  · intro l hl
    rw [Finset.mem_finsuppAntidiag] at hl
    rw [List.mem_toFinset, mem_gmBetas]
    refine ⟨by simp, ?_⟩
    rw [List.sum_ofFn]
    exact hl.1
  · intro b hb
    rw [List.mem_toFinset, mem_gmBetas] at hb
    rw [Finset.mem_finsuppAntidiag]
    refine ⟨?_, Finset.subset_univ _⟩
    obtain ⟨hl, hs⟩ := hb
    simp only [Finsupp.equivFunOnFinite_symm_apply_apply]
    rw [← hs, ← List.sum_ofFn]
    congr 1
    apply List.ext_getElem
    · simp [hl]
    · intro i h1 h2
      simp [-List.ofFn_succ, List.getD_eq_getElem?_getD, h2]
  · intro l _
    ext j
    simp [-List.ofFn_succ, List.getD_eq_getElem?_getD, Nat.lt_succ_iff.1 j.2]
  · intro b hb
    rw [List.mem_toFinset, mem_gmBetas] at hb
    apply List.ext_getElem
    · simp [hb.1]
    · intro i h1 h2
      simp [-List.ofFn_succ, List.getD_eq_getElem?_getD, h2]
  · intro l _
    apply Finset.prod_congr rfl
    intro j _
    simp [-List.ofFn_succ, oddSeries, List.getD_eq_getElem?_getD, Nat.lt_succ_iff.1 j.2]

theorem sum_flatMap_real {β : Type} (l : List β) (F : β → List ℝ) :
    (l.flatMap F).sum = (l.map fun a => (F a).sum).sum := by
  induction l with
  | nil => rfl
  | cons a l ih => simp [List.flatMap_cons, ih]

/-- The rule on barycentric monomials of degree `2s + 1`. -/
theorem gm_bary (s n : Nat) (α : Fin (n + 1) → Nat) (hα : ∑ j, α j = 2 * s + 1) :
    ((gmList s n).map fun e => e.2 * (2 ^ n *
      ∏ j, baryFin (fun i : Fin n => (gmX e.1).getD i 0) j ^ α j)).sum =
      2 ^ n * (∏ j, ((α j).factorial : ℝ)) / (n + (2 * s + 1)).factorial := by
  have hid := gm_identity n s α hα
  rw [gmList, List.map_flatMap, sum_flatMap_real]
  have hterm : ∀ i ∈ List.range (s + 1), (((gmBetas (s - i) (n + 1)).map fun beta =>
        (gmPt s n i beta, gmWeight s n i)).map fun e => e.2 * (2 ^ n *
      ∏ j, baryFin (fun k : Fin n => (gmX e.1).getD k 0) j ^ α j)).sum =
      2 ^ n * (2 : ℝ) ^ (-2 * (s : Int)) / (n + (2 * s + 1)).factorial *
        ((-1) ^ i * ((2 * s + 1 + n).choose i : ℝ) * PowerSeries.coeff (s - i) (∏ j, oddSeries (α j))) := by
    intro i hi
    have his : i ≤ s := by have := List.mem_range.1 hi; omega
    have hD : (0 : ℝ) < (gmDen s n i : ℝ) := by exact_mod_cast gmDen_pos n his
    rw [coeff_oddSeries, List.map_map, ← mul_assoc, ← List.sum_map_mul_left]
    congr 1
    apply List.map_congr_left
    intro beta hb
    obtain ⟨h1, h2, -, h4⟩ := gm_vals his hb
    have hprod : ∏ j, baryFin (fun k : Fin n => (gmX (gmPt s n i beta)).getD k 0) j ^ α j =
        (∏ j : Fin (n + 1), (2 * ((beta.getD j 0 : Nat) : ℝ) + 1) ^ α j) / (gmDen s n i : ℝ) ^ (2 * s + 1) := by
      rw [← hα, ← Finset.prod_pow_eq_pow_sum, ← Finset.prod_div_distrib]
      apply Finset.prod_congr rfl
      intro j _
      have := bary_of_vals n ((gmPt s n i beta).map ratVal) (by simpa using h1) h2 j
      rw [← List.map_tail] at this
      rw [gmX, this, h4, div_pow]
    simp only [Function.comp, hprod]
    have hchoose : ((2 * s + 1 + n).choose i : ℝ) * (i.factorial * (2 * s + 1 + n - i).factorial) =
        (n + (2 * s + 1)).factorial := by
      have := Nat.choose_mul_factorial_mul_factorial (show i ≤ 2 * s + 1 + n by omega)
      rw [show n + (2 * s + 1) = 2 * s + 1 + n by omega]
      exact_mod_cast (by rw [← this]; ring)
    rw [gmWeight]
    have hDe : ((((2 * s + 1 : Nat) + n : Int) - 2 * i : Int) : ℝ) = (gmDen s n i : ℝ) := by
      rw [gmDen]; push_cast; ring
    rw [hDe, ← hchoose]
    have p1 : (0 : ℝ) < i.factorial := by positivity
    have p2 : (0 : ℝ) < (2 * s + 1 + n - i).factorial := by positivity
    have p3 : (0 : ℝ) < (2 * s + 1 + n).choose i := by
      exact_mod_cast Nat.choose_pos (by omega)
    have p4 : (gmDen s n i : ℝ) ^ (2 * s + 1) ≠ 0 := by positivity
    field_simp
  rw [List.map_congr_left hterm, List.sum_map_mul_left, sum_map_range_real, hid]
  have h2 : (2 : ℝ) ^ (-2 * (s : Int)) * 2 ^ (2 * s) = 1 := by
    rw [← zpow_natCast (2 : ℝ) (2 * s), ← zpow_add₀ (by norm_num)]
    push_cast
    simp
  have : (0 : ℝ) < (n + (2 * s + 1)).factorial := by positivity
  rw [div_mul_eq_mul_div]
  congr 1
  linear_combination (2 ^ n * ∏ j, ((α j).factorial : ℝ)) * h2

/-- **C32.**  In every dimension `n ≥ 1` and for every order `s`, `GrundmannMoellerSimplexQuadrature(s, n)`
integrates every polynomial of total degree at most `exact_to = 2s + 1` exactly over the bi-unit simplex; all
nodes lie in the interior of the simplex and no two of them coincide. -/
theorem C32_exact (s n : Nat) (hn : n ≠ 0) :
    ∃ q, grundmannMoeller s n = .ok q ∧ q.getExactTo = .ok (.num (2 * s + 1 : Nat)) ∧
      (∀ p : MvPolynomial (Fin n) ℝ, p.totalDegree ≤ 2 * s + 1 →
        q.call (fun x => MvPolynomial.eval (fun i : Fin n => x.getD i 0) p) =
          ∫ x in simplexSet n, MvPolynomial.eval x p) ∧
      q.dim = n ∧ q.nodes.shape = [n, q.nnodes] ∧
      (∀ k < q.nnodes, InSimplexInterior n (q.node k)) ∧
      (∀ j k, j < k → k < q.nnodes → q.node j ≠ q.node k) := by
  refine ⟨_, gm_ok s n hn, rfl, ?_, rfl, ?_, ?_, ?_⟩
  · intro p hp
    rw [gm_call]
    have hlist : ∀ g : (Fin n → ℝ) → ℝ, ((gmList s n).map fun e => e.2 * (2 ^ n *
        g fun i : Fin n => (gmX e.1).getD i 0)).sum =
        ∑ k : Fin (gmList s n).length, (gmList s n)[k].2 * 2 ^ n *
          g fun i : Fin n => (gmX (gmList s n)[k].1).getD i 0 := by
      intro g
      rw [← List.sum_ofFn]
      congr 1
      apply List.ext_getElem
      · simp
      · intro i h1 h2
        simp [mul_assoc]
    have := exact_of_bary (n := n) (d := 2 * s + 1) Finset.univ
      (fun k : Fin (gmList s n).length => (gmList s n)[k].2 * 2 ^ n)
      (fun k => fun i : Fin n => (gmX (gmList s n)[k].1).getD i 0) (by
        intro α hα
        rw [← gm_bary s n α hα, hlist (fun y => ∏ j, baryFin y j ^ α j)]) p hp
    rw [← this]
    exact hlist fun y => MvPolynomial.eval y p
  · simp [Quadrature.nnodes]
  · intro k hk
    have hk' : k < (gmDict s n).length := by simpa [Quadrature.nnodes] using hk
    rw [gm_node s n _ _ k hk']
    obtain ⟨i, hi, beta, hb, h⟩ := gmDict_key (List.getElem_mem hk')
    obtain ⟨h1, h2, h3, -⟩ := gm_vals hi hb
    refine ⟨gmX_length (List.getElem_mem hk'), ?_⟩
    intro m hm
    have hbary : bary (gmX ((gmDict s n)[k]).1) m = ((gmPt s n i beta).map ratVal).getD m 0 := by
      rw [h, gmX]
      match hc : (gmPt s n i beta).map ratVal, h1, h2 with
      | [], h1, _ => 
        have := congrArg List.length hc
        rw [List.length_map, h1] at this
        simp at this
      | c0 :: cs, h1, h2 =>
        have hlen : cs.length = n := by
          have := congrArg List.length hc
          rw [List.length_map, h1] at this
          simpa using this.symm
        have ht : (gmPt s n i beta).tail.map ratVal = cs := by
          rw [List.map_tail, hc]
          rfl
        rw [ht]
        cases m with
        | zero =>
          simp only [bary, List.map_map]
          have : ((fun c : ℝ => (1 + c) / 2) ∘ fun c : ℝ => 2 * c - 1) = id := by
            funext c
            simp [Function.comp]
          rw [this, List.map_id]
          simp only [List.sum_cons] at h2
          simp
          linarith
        | succ m =>
          simp only [bary, List.getD_eq_getElem?_getD, List.getElem?_map, List.getElem?_cons_succ]
          rw [List.getElem?_eq_getElem (show m < cs.length by omega)]
          simp
    rw [hbary, List.getD_eq_getElem?_getD,
      List.getElem?_eq_getElem (show m < ((gmPt s n i beta).map ratVal).length by
        rw [List.length_map, h1]; omega), Option.getD_some]
    exact h3 _ (List.getElem_mem _)
  · intro j k hjk hk heq
    have hk' : k < (gmDict s n).length := by simpa [Quadrature.nnodes] using hk
    have hj' : j < (gmDict s n).length := by omega
    rw [gm_node s n _ _ k hk', gm_node s n _ _ j hj'] at heq
    have hnd := (dict_fold (fun _ => 0) (gmList s n) [] (by simp)).1
    rw [← gmDict] at hnd
    have hkey : ((gmDict s n)[j]).1 = ((gmDict s n)[k]).1 := by
      obtain ⟨i, hi, beta, hb, h⟩ := gmDict_key (List.getElem_mem hj')
      obtain ⟨i', hi', beta', hb', h'⟩ := gmDict_key (List.getElem_mem hk')
      obtain ⟨a1, a2, -, a4⟩ := gm_vals hi hb
      obtain ⟨b1, b2, -, b4⟩ := gm_vals hi' hb'
      rw [h, h'] at heq ⊢
      obtain ⟨c1, -⟩ := (mem_gmBetas _ _ _).1 hb
      obtain ⟨d1, -⟩ := (mem_gmBetas _ _ _).1 hb'
      have hval : ∀ m : Fin (n + 1), ((gmPt s n i beta).map ratVal).getD m 0 =
          ((gmPt s n i' beta').map ratVal).getD m 0 := by
        intro m
        rw [← bary_of_vals n _ (by simpa using a1) a2 m, ← bary_of_vals n _ (by simpa using b1) b2 m,
          ← List.map_tail, ← List.map_tail]
        rw [gmX, gmX] at heq
        rw [heq]
      rw [gmPt, gmPt]
      apply List.ext_getElem
      · simp [c1, d1]
      · intro m m1 m2
        have hm : m < n + 1 := by simpa [c1] using m1
        have := hval ⟨m, hm⟩
        rw [a4, b4] at this
        simp only [List.getD_eq_getElem?_getD] at this
        rw [List.getElem?_eq_getElem (show m < beta.length by omega),
          List.getElem?_eq_getElem (show m < beta'.length by omega), Option.getD_some, Option.getD_some] at this
        have p1 := gmDen_pos n hi
        have p2 := gmDen_pos n hi'
        rw [div_eq_div_iff (by exact_mod_cast p1.ne') (by exact_mod_cast p2.ne')] at this
        have hz : (2 * (beta[m] : Int) + 1) * gmDen s n i' = (2 * (beta'[m] : Int) + 1) * gmDen s n i := by
          exact_mod_cast this
        have hsim := (C33_canonical p1.ne' p2.ne').2 hz
        simp only [List.getElem_map]
        rw [simplified, simplified, hsim]
    have hlt : j < ((gmDict s n).map Prod.fst).length := by simpa using hj'
    have hlt' : k < ((gmDict s n).map Prod.fst).length := by simpa using hk'
    have := (List.Nodup.getElem_inj_iff hnd (hi := hlt) (hj := hlt')).1 (by simpa using hkey)
    omega

/-- In dimension zero the rule evaluates at the single point and is declared exact for everything. -/
theorem C32_zero (s : Nat) : ∃ q, grundmannMoeller s 0 = .ok q ∧ q.getExactTo = .ok .inf ∧
    ∀ f, q.call f = f [] := by
  refine ⟨_, rfl, rfl, fun f => ?_⟩
  simp [Quadrature.call, Quadrature.nnodes, Quadrature.node, List.range_succ]

/-- An instance: the rule of order 1 in four dimensions integrates `x₀ x₁ x₂` (degree 3). -/
example : ∃ q, grundmannMoeller 1 4 = .ok q ∧
    q.call (fun x => x.getD 0 0 * x.getD 1 0 * x.getD 2 0) =
      ∫ x in simplexSet 4, x 0 * x 1 * x 2 := by
  obtain ⟨q, hq, -, hex, -⟩ := C32_exact 1 4 (by norm_num)
  refine ⟨q, hq, ?_⟩
  have := hex (MvPolynomial.X 0 * MvPolynomial.X 1 * MvPolynomial.X 2) (by
    refine (MvPolynomial.totalDegree_mul _ _).trans ?_
    have h1 := MvPolynomial.totalDegree_mul (MvPolynomial.X 0 : MvPolynomial (Fin 4) ℝ) (MvPolynomial.X 1)
    simp only [MvPolynomial.totalDegree_X] at h1 ⊢
    omega)
  simpa using this

end Modepy

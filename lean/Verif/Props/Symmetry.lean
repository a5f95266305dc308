import Verif.Props.Gauss
import Verif.Props.Chebyshev
import Verif.Props.Lobatto
import Verif.Props.ClenshawCurtis
import Verif.Props.Fejer

/-!
# Property C88: one-dimensional rules are mirror images of one another
-/

namespace Modepy
open Polynomial Spec MeasureTheory

/-- The rule `q'` on `m` nodes is the image of the rule `q` under `t ↦ -t`: reading the nodes of `q'` backwards and changing
their sign gives the nodes of `q`, with the same weights. -/
def Spec.Mirror (m : Nat) (q q' : Quadrature) : Prop :=
  q.nnodes = m ∧ q'.nnodes = m ∧
    ∀ k < m, ∃ t, q.node k = [t] ∧ q'.node (m - 1 - k) = [-t] ∧ q'.weights.get [m - 1 - k] = q.weights.get [k]

/-- Applying the mirror image of a rule is applying the rule to the mirrored integrand. -/
theorem mirror_call {m : Nat} {q q' : Quadrature} (h : Mirror m q q') (f : ℝ → ℝ) :
    q'.call (fun x => f (x.headD 0)) = q.call (fun x => f (-(x.headD 0))) := by
  obtain ⟨h1, h2, h3⟩ := h
  rw [Quadrature.call, Quadrature.call, h1, h2, sum_map_range_real, sum_map_range_real, ← Finset.sum_range_reflect]
  apply Finset.sum_congr rfl
  intro k hk
  obtain ⟨t, e1, e2, e3⟩ := h3 k (Finset.mem_range.1 hk)
  simp only [e1, e2, e3, List.headD_cons]

/-- A rule that is its own mirror image integrates every odd function to zero, exactly. -/
theorem mirror_odd {m : Nat} {q : Quadrature} (h : Mirror m q q) (f : ℝ → ℝ) (hf : ∀ t, f (-t) = -f t) :
    q.call (fun x => f (x.headD 0)) = 0 := by
  have e := mirror_call h f
  simp only [hf] at e
  have e2 : q.call (fun x => -f (x.headD 0)) = -q.call (fun x => f (x.headD 0)) := by
    rw [Quadrature.call, Quadrature.call, sum_map_range_real, sum_map_range_real, ← Finset.sum_neg_distrib]
    apply Finset.sum_congr rfl
    intro k _
    ring
  rw [e2] at e
  linarith

/-- Two rules on `m` nodes agreeing on polynomials of degree below `2m` are equal. -/
theorem two_rules {m : Nat} (x x' w w' : Fin m → ℝ) (hx : StrictMono x) (hx' : StrictMono x') (hw : ∀ i, w i ≠ 0)
    (h : ∀ p : ℝ[X], p = 0 ∨ p.natDegree + 1 ≤ 2 * m → ∑ i, w i * p.eval (x i) = ∑ i, w' i * p.eval (x' i)) :
    x = x' ∧ w = w' := by
  let π : ℝ[X] := ∏ k, (X - C (x' k))
  let g : Fin m → ℝ[X] := fun i => ∏ k ∈ Finset.univ.erase i, (X - C (x k))
  have hπ : π.natDegree = m := by simp [π]
  have hg : ∀ i, (g i).natDegree = m - 1 := by
    intro i
    simp only [g]
    rw [natDegree_prod_of_monic _ _ fun k _ => monic_X_sub_C _]
    simp [Finset.card_erase_of_mem]
  have hgi : ∀ i, (g i).eval (x i) ≠ 0 := by
    intro i
    simp only [g, eval_prod, eval_sub, eval_X, eval_C]
    exact Finset.prod_ne_zero_iff.2 fun k hk => sub_ne_zero.2 fun e => (Finset.mem_erase.1 hk).1 (hx.injective e).symm
  have hgj : ∀ i j, j ≠ i → (g i).eval (x j) = 0 := by
    intro i j hj
    simp only [g, eval_prod, eval_sub, eval_X, eval_C]
    exact Finset.prod_eq_zero (Finset.mem_erase.2 ⟨hj, Finset.mem_univ _⟩) (sub_self _)
  have hroot : ∀ i, π.eval (x i) = 0 := by
    intro i
    have hm : 0 < m := i.pos
    have hd : (π * g i).natDegree + 1 ≤ 2 * m := by
      have := natDegree_mul_le (p := π) (q := g i)
      rw [hπ, hg] at this
      omega
    have e := h (π * g i) (.inr hd)
    rw [Finset.sum_eq_single i (fun j _ hj => by rw [eval_mul, hgj i j hj, mul_zero, mul_zero]) (by simp),
      Finset.sum_eq_zero (fun j _ => by
        rw [eval_mul, show π.eval (x' j) = 0 from by
          simp only [π, eval_prod, eval_sub, eval_X, eval_C]
          exact Finset.prod_eq_zero (Finset.mem_univ j) (sub_self _), zero_mul, mul_zero]), eval_mul] at e
    rcases mul_eq_zero.1 e with e | e
    · exact absurd e (hw i)
    · exact (mul_eq_zero.1 e).resolve_right (hgi i)
  have hxx : x = x' := roots_unique π (monic_prod_of_monic _ _ fun k _ => monic_X_sub_C _).ne_zero hπ.le x x' hx hx' hroot
    fun i => by
      simp only [π, eval_prod, eval_sub, eval_X, eval_C]
      exact Finset.prod_eq_zero (Finset.mem_univ i) (sub_self _)
  refine ⟨hxx, ?_⟩
  subst hxx
  funext i
  have hm : 0 < m := i.pos
  have e := h (g i) (.inr (by rw [hg]; omega))
  rw [Finset.sum_eq_single i (fun j _ hj => by rw [hgj i j hj, mul_zero]) (by simp),
    Finset.sum_eq_single i (fun j _ hj => by rw [hgj i j hj, mul_zero]) (by simp)] at e
  exact mul_right_cancel₀ (hgi i) e

theorem natDegree_comp_neg (p : ℝ[X]) : (p.comp (-X)).natDegree = p.natDegree := by
  rw [natDegree_comp, natDegree_neg, natDegree_X, mul_one]

theorem integral_weight_neg (α β : ℝ) (p : ℝ[X]) :
    ∫ t in (-1)..1, (p.comp (-X)).eval t * ((1 - t) ^ α * (1 + t) ^ β) =
      ∫ t in (-1)..1, p.eval t * ((1 - t) ^ β * (1 + t) ^ α) := by
  have := intervalIntegral.integral_comp_neg (a := -1) (b := 1) fun t : ℝ => p.eval t * ((1 - t) ^ β * (1 + t) ^ α)
  rw [neg_neg] at this
  rw [← this]
  apply intervalIntegral.integral_congr
  intro t _
  simp only [eval_comp, eval_neg, eval_X, sub_neg_eq_add, ← sub_eq_add_neg]
  ring

/-- Rules with `m` nodes exact to degree `2m - 1` for a weight and for its reflection are mirror images. -/
theorem gauss_mirror {m : Nat} {α β : ℝ} (x x' w w' : Fin m → ℝ) (hx : StrictMono x) (hx' : StrictMono x') (hw : ∀ i, 0 < w i)
    (h : ∀ p : ℝ[X], p = 0 ∨ p.natDegree + 1 ≤ 2 * m →
      ∑ i, w i * p.eval (x i) = ∫ t in (-1)..1, p.eval t * ((1 - t) ^ α * (1 + t) ^ β))
    (h' : ∀ p : ℝ[X], p = 0 ∨ p.natDegree + 1 ≤ 2 * m →
      ∑ i, w' i * p.eval (x' i) = ∫ t in (-1)..1, p.eval t * ((1 - t) ^ β * (1 + t) ^ α)) (i : Fin m) :
    x' i.rev = -x i ∧ w' i.rev = w i := by
  have key := two_rules (fun i => -x i.rev) x' (fun i => w i.rev) w'
    (fun i j hij => neg_lt_neg (hx (Fin.rev_lt_rev.2 hij))) hx' (fun i => (hw _).ne') (fun p hp => by
      rw [h' p hp, ← integral_weight_neg, ← h (p.comp (-X)) (by
        rcases hp with rfl | hp
        · simp
        · rw [natDegree_comp_neg]; exact .inr hp), ← Equiv.sum_comp Fin.revPerm]
      simp [eval_comp])
  constructor
  · rw [← key.1]; simp
  · rw [← key.2]; simp

theorem mirror_nodes1D {m : Nat} (x x' w w' : Fin m → ℝ) (e e' : Option PyVal) (fd fd' : Bool)
    (h : ∀ i : Fin m, x' i.rev = -x i ∧ w' i.rev = w i) :
    Mirror m ⟨nodes1D x fd, NdArray.ofFn w, e, none⟩ ⟨nodes1D x' fd', NdArray.ofFn w', e', none⟩ := by
  refine ⟨rfl, rfl, fun k hk => ⟨x ⟨k, hk⟩, node_nodes1D x _ _ fd none ⟨k, hk⟩, ?_, ?_⟩⟩
  · have h1 := node_nodes1D x' (NdArray.ofFn w') e' fd' none (Fin.rev ⟨k, hk⟩)
    rw [(h ⟨k, hk⟩).1, Fin.val_rev] at h1
    rw [show m - 1 - k = m - (k + 1) by omega]
    exact h1
  · have h1 := ofFn_get w' (Fin.rev ⟨k, hk⟩)
    rw [(h ⟨k, hk⟩).2, Fin.val_rev] at h1
    have h2 := ofFn_get w ⟨k, hk⟩
    rw [show m - 1 - k = m - (k + 1) by omega]
    exact h1.trans h2.symm

theorem gaussParams_swap {α β : ℝ} (h : GaussParams α β) : GaussParams β α := by
  obtain ⟨h1, h2, h3, h4⟩ := h
  exact ⟨h2, h1, by rwa [add_comm β α], fun h => h4 h.symm⟩

/-- **C88 (Gauss–Jacobi).**  Exchanging the two parameters reflects `JacobiGaussQuadrature`: the nodes of the rule for `(β, α)`
are the negatives of those for `(α, β)` in reverse order, with the same weights, so that applying one to `f(t)` is applying the
other to `f(-t)`. -/
theorem C88_gauss (ext : Ext) (hext : ext.EighOk) (α β : ℝ) (h : GaussParams α β) (N : Nat) (fd : Bool) :
    ∃ q q', jacobiGaussQuadrature ext α β N .builtin fd = .ok q ∧ jacobiGaussQuadrature ext β α N .builtin fd = .ok q' ∧
      Mirror (N + 1) q q' ∧ ∀ f : ℝ → ℝ, q'.call (fun x => f (x.headD 0)) = q.call (fun x => f (-(x.headD 0))) := by
  obtain ⟨x, w, hok, hex, hw, hx, -⟩ := compute_facts ext hext h N
  obtain ⟨x', w', hok', hex', -, hx', -⟩ := compute_facts ext hext (gaussParams_swap h) N
  have hm := mirror_nodes1D x x' w w' (some (.num (2 * N + 1))) (some (.num (2 * N + 1))) fd fd
    (gauss_mirror x x' w w' hx hx' hw
      (fun p hp => hex p (by rcases hp with rfl | hp; · simp
                             · omega))
      (fun p hp => hex' p (by rcases hp with rfl | hp; · simp
                              · omega)))
  exact ⟨_, _, gauss_ok ext α β N fd x w hok, gauss_ok ext β α N fd x' w' hok', hm, mirror_call hm⟩

/-- **C88 (Gegenbauer, in particular Legendre).**  With equal parameters the rule is its own mirror image and integrates every odd
function to zero, whatever its smoothness. -/
theorem C88_symmetric (ext : Ext) (hext : ext.EighOk) (α : ℝ) (h : GaussParams α α) (N : Nat) (fd : Bool) :
    ∃ q, jacobiGaussQuadrature ext α α N .builtin fd = .ok q ∧ Mirror (N + 1) q q ∧
      ∀ f : ℝ → ℝ, (∀ t, f (-t) = -f t) → q.call (fun x => f (x.headD 0)) = 0 := by
  obtain ⟨q, q', h1, h2, hm, -⟩ := C88_gauss ext hext α α h N fd
  obtain rfl : q = q' := by rw [h1] at h2; injection h2
  exact ⟨q, h1, hm, mirror_odd hm⟩

/-- **C88 (Chebyshev, first kind).** -/
theorem C88_chebyshev (ext : Ext) (N : Nat) (fd : Bool) :
    ∃ q, chebyshevGaussQuadrature ext N 1 .builtin fd = .ok q ∧ Mirror (N + 1) q q ∧
      ∀ f : ℝ → ℝ, (∀ t, f (-t) = -f t) → q.call (fun x => f (x.headD 0)) = 0 := by
  have h1 := gauss_ok ext _ _ N fd _ _ (chebyshev_compute ext N)
  have hm : Mirror (N + 1) _ _ := mirror_nodes1D
    (fun i : Fin (N + 1) => Real.cos (Real.pi / (2 * (N + 1)) * (2 * ((N + 1 - (i : Nat) : Nat) : ℝ) - 1)))
    (fun i : Fin (N + 1) => Real.cos (Real.pi / (2 * (N + 1)) * (2 * ((N + 1 - (i : Nat) : Nat) : ℝ) - 1)))
    (fun _ => Real.pi / (N + 1)) (fun _ => Real.pi / (N + 1)) (some (.num (2 * N + 1))) (some (.num (2 * N + 1))) fd fd (fun i => by
      refine ⟨?_, rfl⟩
      rw [← Real.cos_pi_sub]
      congr 1
      have hi : (i : Nat) ≤ N := by have := i.2; omega
      rw [Fin.val_rev, show N + 1 - (N + 1 - ((i : Nat) + 1)) = i + 1 by omega, Nat.cast_sub (by omega)]
      push_cast
      have : (N : ℝ) + 1 ≠ 0 := by positivity
      field_simp
      ring)
  exact ⟨_, by rw [chebyshevGaussQuadrature, if_pos rfl, h1], hm, mirror_odd hm⟩

/-- **C88 (Gauss–Lobatto).**  The Gauss–Lobatto nodes for `(β, α)` are those for `(α, β)` reflected, and with equal parameters the
rule, weights included, is its own mirror image. -/
theorem C88_lobatto_nodes (ext : Ext) (hext : ext.EighOk) (α β : ℝ) (hα : -1 < α) (hβ : -1 < β) (m : Nat) :
    ∃ x x' : Fin (m + 2) → ℝ, lobattoNodes ext α β (m + 1) .builtin = .ok x ∧ lobattoNodes ext β α (m + 1) .builtin = .ok x' ∧
      ∀ i, x' i.rev = -x i := by
  obtain ⟨x, v, hok, h0, h1, hmono, -, hv, -, hex⟩ := lobattoNodes_facts ext hext hα hβ m
  obtain ⟨x', v', hok', h0', h1', hmono', -, -, -, hex'⟩ := lobattoNodes_facts ext hext hβ hα m
  refine ⟨x, x', hok, hok', ?_⟩
  have hs : ∀ z : Fin (m + 2) → ℝ, StrictMono z → StrictMono fun i : Fin m => z i.succ.castSucc := by
    intro z hz i j hij
    exact hz (by simpa using hij)
  have hin := gauss_mirror _ _ v v' (hs x hmono) (hs x' hmono') hv hex hex'
  intro i
  rcases Fin.eq_zero_or_eq_succ i with rfl | ⟨j, rfl⟩
  · rw [Fin.rev_zero, h1', h0, neg_neg]
  · rcases Fin.eq_castSucc_or_eq_last j with ⟨k, rfl⟩ | rfl
    · have := (hin k).1
      rw [Fin.succ_castSucc, ← this]
      congr 1
      ext
      simp [Fin.val_rev]
      omega
    · rw [Fin.succ_last, Fin.rev_last, h0', h1]

/-- **C88 (Gauss–Lobatto).**  With equal parameters the Gauss–Lobatto rule is its own mirror image, weights included; it integrates
every odd function to zero.  (This holds although the weights are wrong when the parameters are not zero, see C29.) -/
theorem C88_lobatto (ext : Ext) (hext : ext.EighOk) (α : ℝ) (h : JacobiParams α α) (N : Nat) (hN : 1 ≤ N) (fd : Bool) :
    ∃ q, jacobiGaussLobattoQuadrature ext α α N .builtin fd = .ok q ∧ Mirror (N + 1) q q ∧
      ∀ f : ℝ → ℝ, (∀ t, f (-t) = -f t) → q.call (fun x => f (x.headD 0)) = 0 := by
  obtain ⟨m, rfl⟩ : ∃ m, N = m + 1 := ⟨N - 1, by omega⟩
  obtain ⟨x, x', hok, hok', hrev⟩ := C88_lobatto_nodes ext hext α α h.1 h.1 m
  obtain rfl : x = x' := by rw [hok] at hok'; injection hok'
  have hw : ∀ t, lobattoInteriorWeight α α m (-t) = lobattoInteriorWeight α α m t := by
    intro t
    have e := fun t => C20_classical eps100 α α h (by rw [eps100]; positivity) (m + 1) (by omega) t
    have h2 : (((-1 : ℝ) ^ (m + 1)) ^ 2) = 1 := by rw [← pow_mul, mul_comm, pow_mul]; simp
    rw [lobattoInteriorWeight, lobattoInteriorWeight]
    rw [e, e, jacobiP_neg α α (by linarith [h.1]) h.1 h.1, mul_pow, h2, one_mul, neg_sq]
  have hm : Mirror (m + 1 + 1) _ _ := mirror_nodes1D x x
    (fun i : Fin (m + 2) => if (i : Nat) = 0 ∨ (i : Nat) = m + 1 then lobattoEdgeWeight α α m
        else lobattoInteriorWeight α α m (x i))
    (fun i : Fin (m + 2) => if (i : Nat) = 0 ∨ (i : Nat) = m + 1 then lobattoEdgeWeight α α m
        else lobattoInteriorWeight α α m (x i)) (some (.num (2 * (m + 1) - 1))) (some (.num (2 * (m + 1) - 1))) fd fd (fun i => by
      refine ⟨hrev i, ?_⟩
      have hi := i.2
      simp only [Fin.val_rev]
      rw [hrev i, hw]
      by_cases hc : (i : Nat) = 0 ∨ (i : Nat) = m + 1
      · rw [if_pos hc, if_pos (by omega)]
      · rw [if_neg hc, if_neg (by omega)])
  exact ⟨_, lobatto_ok ext α α m fd x hok, hm, mirror_odd hm⟩

theorem mirror_ofList {m : Nat} (x w : Nat → ℝ) (e : Option PyVal) (fd : Bool)
    (hx : ∀ k < m, x (m - 1 - k) = -x k) (hw : ∀ k < m, w (m - 1 - k) = w k) :
    Mirror m ⟨if fd then (NdArray.ofList ((List.range m).map x)).addDimAxis else NdArray.ofList ((List.range m).map x),
        NdArray.ofList ((List.range m).map w), e, none⟩
      ⟨if fd then (NdArray.ofList ((List.range m).map x)).addDimAxis else NdArray.ofList ((List.range m).map x),
        NdArray.ofList ((List.range m).map w), e, none⟩ := by
  have hnode : ∀ k < m, Quadrature.node
      ⟨if fd then (NdArray.ofList ((List.range m).map x)).addDimAxis else NdArray.ofList ((List.range m).map x),
        NdArray.ofList ((List.range m).map w), e, none⟩ k = [x k] := by
    intro k hk
    have h := getD_map_range (n := m) x k hk
    cases fd <;> simp only [Quadrature.node, NdArray.ofList, NdArray.addDimAxis, if_true, if_false,
      Bool.false_eq_true] <;> simpa using h
  have hwt : ∀ k < m, (NdArray.ofList ((List.range m).map w)).get [k] = w k := fun k hk => getD_map_range w k hk
  have hn : Quadrature.nnodes
      ⟨if fd then (NdArray.ofList ((List.range m).map x)).addDimAxis else NdArray.ofList ((List.range m).map x),
        NdArray.ofList ((List.range m).map w), e, none⟩ = m := by
    simp [Quadrature.nnodes, NdArray.ofList]
  refine ⟨hn, hn, fun k hk => ⟨x k, hnode k hk, ?_, ?_⟩⟩
  · rw [hnode _ (by omega), hx k hk]
  · simp only
    rw [hwt _ (by omega), hwt k hk, hw k hk]

theorem cos_even_reflect (j : Nat) (θ : ℝ) : Real.cos (2 * j * (Real.pi - θ)) = Real.cos (2 * j * θ) := by
  rw [show 2 * (j : ℝ) * (Real.pi - θ) = -(2 * j * θ) + j * (2 * Real.pi) by ring, Real.cos_add_nat_mul_two_pi, Real.cos_neg]

theorem seqWeight_reflect {n : Nat} (hn : 0 < n) (V : Nat → ℝ) (k : Nat) (hk : k ≤ n) : seqWeight n V (n - k) = seqWeight n V k := by
  rw [seqWeight, seqWeight]
  congr 1
  apply Finset.sum_congr rfl
  intro j _
  have hn0 : (n : ℝ) ≠ 0 := by positivity
  rw [show ((n - k : Nat) : ℝ) * Real.pi / n = Real.pi - k * Real.pi / n by rw [Nat.cast_sub hk]; field_simp, cos_even_reflect]

/-- **C88 (Clenshaw–Curtis).**  The rule is its own mirror image; for even `N` it is therefore exact to degree `N + 1`, one more than
the `exact_to` it declares. -/
theorem C88_clenshaw_curtis (N : Nat) (hN : 1 ≤ N) (fd : Bool) :
    ∃ q, clenshawCurtisQuadrature N fd = .ok q ∧ Mirror (N + 1) q q ∧
      ∀ f : ℝ → ℝ, (∀ t, f (-t) = -f t) → q.call (fun x => f (x.headD 0)) = 0 := by
  rcases Nat.lt_or_eq_of_le hN with hn | hn
  · have hN0 : (N : ℝ) ≠ 0 := by positivity
    have hm := mirror_ofList (m := N + 1) (fun k => Real.cos (k * Real.pi / N)) (seqWeight N (ccV N)) (some (.num N)) fd
      (fun k hk => by
        rw [show N + 1 - 1 - k = N - k by omega, Nat.cast_sub (by omega), ← Real.cos_pi_sub]
        congr 1
        field_simp)
      (fun k hk => by rw [show N + 1 - 1 - k = N - k by omega, seqWeight_reflect (by omega) _ k (by omega)])
    exact ⟨_, cc_eq hn fd, hm, mirror_odd hm⟩
  · subst hn
    have hq : clenshawCurtisQuadrature 1 fd = .ok ⟨if fd then (NdArray.ofList [-1, 1]).addDimAxis
        else NdArray.ofList [-1, 1], NdArray.ofList [1, 1], some (.num 1), none⟩ := by
      rw [clenshawCurtisQuadrature, makeClenshawCurtis, if_neg (by omega), if_pos rfl]
      simp
    have hm := mirror_ofList (m := 2) (fun k => if k = 0 then -1 else 1) (fun _ => 1) (some (.num 1)) fd
      (fun k hk => by
        have : k = 0 ∨ k = 1 := by omega
        rcases this with rfl | rfl <;> simp) (fun _ _ => rfl)
    simp only [List.range_succ, List.range_zero, List.nil_append, List.cons_append, List.map_cons, List.map_nil, if_true,
      if_neg one_ne_zero] at hm
    exact ⟨_, hq, hm, mirror_odd hm⟩

/-- **C88 (Fejér).**  Both Fejér rules are their own mirror image. -/
theorem C88_fejer (N : Nat) (fd : Bool) :
    (1 ≤ N → ∃ q, fejerQuadrature N 1 fd = .ok q ∧ Mirror N q q ∧
      ∀ f : ℝ → ℝ, (∀ t, f (-t) = -f t) → q.call (fun x => f (x.headD 0)) = 0) ∧
    (2 ≤ N → ∃ q, fejerQuadrature N 2 fd = .ok q ∧ Mirror (N - 1) q q ∧
      ∀ f : ℝ → ℝ, (∀ t, f (-t) = -f t) → q.call (fun x => f (x.headD 0)) = 0) := by
  constructor
  · intro hN
    have hN0 : (N : ℝ) ≠ 0 := by positivity
    have ha : ∀ k < N, (((N - 1 - k : Nat) : ℝ) + 0.5) * Real.pi / N = Real.pi - (k + 0.5) * Real.pi / N := by
      intro k hk
      rw [Nat.sub_sub, Nat.cast_sub (by omega)]
      push_cast
      field_simp
      ring
    have hm := mirror_ofList (m := N) (fun k => Real.cos ((k + 0.5) * Real.pi / N)) (fejerW1 N) none fd
      (fun k hk => by rw [ha k hk, Real.cos_pi_sub])
      (fun k hk => by
        rw [fejerW1, fejerW1]
        simp only [ha k hk, cos_even_reflect])
    exact ⟨_, by rw [fejerQuadrature]; simp only [if_true, make_fejer1_ok hN], hm, mirror_odd hm⟩
  · intro hN
    have hN0 : (N : ℝ) ≠ 0 := by positivity
    have hm := mirror_ofList (m := N - 1) (fun k => Real.cos ((k + 1 : Nat) * Real.pi / N))
      (fun k => seqWeight N (fejerV N) (k + 1)) none fd
      (fun k hk => by
        rw [show N - 1 - 1 - k + 1 = N - (k + 1) by omega, Nat.cast_sub (by omega), ← Real.cos_pi_sub]
        congr 1
        field_simp)
      (fun k hk => by rw [show N - 1 - 1 - k + 1 = N - (k + 1) by omega, seqWeight_reflect (by omega) _ (k + 1) (by omega)])
    exact ⟨_, by rw [fejerQuadrature]
                 simp only [show ¬ ((2 : Int) = 1) by decide, if_false, if_true, make_fejer2_ok hN], hm, mirror_odd hm⟩

/-- A rule that is its own mirror image and exact to an even degree is exact to the next degree as well. -/
theorem mirror_exact {m D : Nat} {q : Quadrature} (h : Mirror m q q) (hD : Even D) (hex : ExactOn D (-1) 1 q.call) :
    ExactOn (D + 1) (-1) 1 q.call := by
  intro p hp
  have hodd : Odd (D + 1) := hD.add_one
  have hsplit : ∀ t, p.eval t = (p.erase (D + 1)).eval t + p.coeff (D + 1) * t ^ (D + 1) := by
    intro t
    conv_lhs => rw [← monomial_add_erase p (D + 1)]
    rw [eval_add, eval_monomial, add_comm]
  have hdeg : (p.erase (D + 1)).natDegree ≤ D := by
    rw [natDegree_le_iff_coeff_eq_zero]
    intro N hN
    rw [coeff_erase]
    split_ifs with hc
    · rfl
    · exact coeff_eq_zero_of_natDegree_lt (by omega)
  have hcall : q.call (fun x => p.eval (x.headD 0)) =
      q.call (fun x => (p.erase (D + 1)).eval (x.headD 0)) + q.call (fun x => p.coeff (D + 1) * (x.headD 0) ^ (D + 1)) := by
    rw [Quadrature.call, Quadrature.call, Quadrature.call, sum_map_range_real, sum_map_range_real, sum_map_range_real,
      ← Finset.sum_add_distrib]
    exact Finset.sum_congr rfl fun k _ => by rw [hsplit]; ring
  have hz := mirror_odd h (fun t => p.coeff (D + 1) * t ^ (D + 1)) (fun t => by rw [hodd.neg_pow]; ring)
  have hi : ∫ t in (-1 : ℝ)..1, p.coeff (D + 1) * t ^ (D + 1) = 0 := by
    rw [intervalIntegral.integral_const_mul, integral_pow, hodd.add_one.neg_pow]
    simp
  rw [hcall, hz, hex _ hdeg, add_zero]
  simp only [hsplit]
  rw [intervalIntegral.integral_add ((p.erase (D + 1)).continuous.intervalIntegrable _ _)
    ((by fun_prop : Continuous fun t : ℝ => p.coeff (D + 1) * t ^ (D + 1)).intervalIntegrable _ _), hi, add_zero]

/-- **C88 (hidden exactness).**  For even `N`, Clenshaw–Curtis integrates polynomials of degree `N + 1` exactly, one more than its
`exact_to = N`; likewise the Fejér rules gain a degree when their number of nodes is odd. -/
theorem C88_extra_degree (N : Nat) (fd : Bool) :
    (2 ≤ N → Even N → ∃ q, clenshawCurtisQuadrature N fd = .ok q ∧ q.getExactTo = .ok (.num N) ∧ ExactOn (N + 1) (-1) 1 q.call) ∧
    (1 ≤ N → Odd N → ∃ q, fejerQuadrature N 1 fd = .ok q ∧ ExactOn N (-1) 1 q.call) ∧
    (2 ≤ N → Even N → ∃ q, fejerQuadrature N 2 fd = .ok q ∧ ExactOn (N - 1) (-1) 1 q.call) := by
  refine ⟨fun h2 he => ?_, fun h1 ho => ?_, fun h2 he => ?_⟩
  · obtain ⟨q, hq, hx, hex, -⟩ := C30_exact N (by omega) fd
    obtain ⟨q', hq', hm, -⟩ := C88_clenshaw_curtis N (by omega) fd
    obtain rfl : q = q' := by rw [hq] at hq'; injection hq'
    exact ⟨q, hq, hx, mirror_exact hm he hex⟩
  · obtain ⟨q, hq, hex, -⟩ := C31_first N h1 fd
    obtain ⟨q', hq', hm, -⟩ := (C88_fejer N fd).1 h1
    obtain rfl : q = q' := by rw [hq] at hq'; injection hq'
    have := mirror_exact hm (Nat.Odd.sub_odd ho odd_one) hex
    rw [Nat.sub_add_cancel h1] at this
    exact ⟨q, hq, this⟩
  · obtain ⟨q, hq, hex, -⟩ := C31_second N h2 fd
    obtain ⟨q', hq', hm, -⟩ := (C88_fejer N fd).2 h2
    obtain rfl : q = q' := by rw [hq] at hq'; injection hq'
    have := mirror_exact hm (by obtain ⟨r, hr⟩ := he; exact ⟨r - 1, by omega⟩) hex
    rw [show N - 2 + 1 = N - 1 by omega] at this
    exact ⟨q, hq, this⟩

/-- An instance: Simpson's rule (`N = 2`) integrates the cubic `t³ + t²` exactly, and the discontinuous sign function to zero. -/
example : ∃ q, clenshawCurtisQuadrature 2 false = .ok q ∧
    q.call (fun x => (x.headD 0) ^ 3 + (x.headD 0) ^ 2) = 2 / 3 ∧ q.call (fun x => SignType.sign (x.headD 0)) = 0 := by
  obtain ⟨q, hq, -, hex⟩ := (C88_extra_degree 2 false).1 (by omega) (by decide)
  obtain ⟨q', hq', -, ho⟩ := C88_clenshaw_curtis 2 (by omega) false
  obtain rfl : q = q' := by rw [hq] at hq'; injection hq'
  refine ⟨q, hq, ?_, ?_⟩
  · have := hex (X ^ 3 + X ^ 2) (by compute_degree)
    simp only [eval_add, eval_pow, eval_X] at this
    rw [this, intervalIntegral.integral_add ((continuous_pow 3).intervalIntegrable _ _)
      ((continuous_pow 2).intervalIntegrable _ _), integral_pow, integral_pow]
    norm_num
  · exact ho (fun t => ((SignType.sign t : SignType) : ℝ)) fun t => by rw [Left.sign_neg]; simp

end Modepy

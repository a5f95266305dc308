import Verif.Model.Construction
import Verif.Spec.Interpolation
import Mathlib.Analysis.Calculus.FDeriv.Add
import Mathlib.Analysis.Calculus.FDeriv.Mul
import Mathlib.Analysis.Calculus.FDeriv.Prod
import Mathlib.Analysis.Calculus.FDeriv.Pi
import Mathlib.Analysis.Calculus.FDeriv.Comp
import Mathlib.Analysis.InnerProductSpace.PiL2
import Mathlib.Analysis.InnerProductSpace.Projection.Minimal

/-!
# Properties C52, C64: residual Jacobian, Gauss-Newton step and undetermined coefficients
-/

namespace Modepy
open Spec

/-! ## Specification vocabulary -/

/-- The quadrature residual `Σ_j w_j f(x_j) - I` as a function of weights and nodes (`X a j` is coordinate `a` of node
`j`). -/
noncomputable def Spec.quadResidual {d n : Nat} (f : List ℝ → ℝ) (integral : ℝ)
    (p : (Fin n → ℝ) × (Fin d → Fin n → ℝ)) : ℝ :=
  ∑ j, p.1 j * f (List.ofFn fun a => p.2 a j) - integral

/-- `f`, as a function of `d` coordinates, has at `x` the partial derivatives `g a (x)`. -/
def Spec.HasPartials {d : Nat} (f : List ℝ → ℝ) (g : Fin d → List ℝ → ℝ) (x : Fin d → ℝ) : Prop :=
  HasFDerivAt (fun y : Fin d → ℝ => f (List.ofFn y)) (∑ a, g a (List.ofFn x) • ContinuousLinearMap.proj (R := ℝ) (φ := fun _ : Fin d => ℝ) a) x

/-- `J (δw, δx)` in row `i`, for a Jacobian with the weight block `dW` and the node block `dN`, node columns ordered by
axis, then node. -/
noncomputable def Spec.applyJacobian (dW dN : NdArray ℝ) (d n i : Nat) (δw : Fin n → ℝ) (δx : Fin d → Fin n → ℝ) : ℝ :=
  ∑ j : Fin n, dW.get [i, j] * δw j + ∑ a : Fin d, ∑ j : Fin n, dN.get [i, a * n + j] * δx a j

/-! ## C52 -/

theorem nodeAt_two {nodes : NdArray ℝ} {d n : Nat} (hs : nodes.shape = [d, n]) (j : Nat) :
    nodeAt nodes j = List.ofFn fun a : Fin d => nodes.get [a, j] := by
  unfold nodeAt
  rw [hs]
  simp only
  apply List.ext_getElem
  · simp
  · intro i h1 h2
    simp

theorem rowDot_eq (A : NdArray ℝ) (n : Nat) (x : List ℝ) (i : Nat) :
    rowDot A n x i = ∑ j : Fin n, A.get [i, j] * x.getD j 0 := by
  rw [rowDot, ← Finset.sum_range fun j => A.get [i, j] * x.getD j 0]
  rfl

theorem residual_hasFDerivAt {d n : Nat} (f : List ℝ → ℝ) (g : Fin d → List ℝ → ℝ) (integral : ℝ) (w : Fin n → ℝ)
    (X : Fin d → Fin n → ℝ) (hf : ∀ j, HasPartials f g fun a => X a j) :
    ∃ L : ((Fin n → ℝ) × (Fin d → Fin n → ℝ)) →L[ℝ] ℝ, HasFDerivAt (quadResidual f integral) L (w, X) ∧
      ∀ δ, L δ = ∑ j, f (List.ofFn fun a => X a j) * δ.1 j +
        ∑ a, ∑ j, (g a (List.ofFn fun a => X a j) * w j) * δ.2 a j := by
  let E := (Fin n → ℝ) × (Fin d → Fin n → ℝ)
  let wj : Fin n → (E →L[ℝ] ℝ) := fun j => (ContinuousLinearMap.proj (R := ℝ) (φ := fun _ : Fin n => ℝ) j).comp (ContinuousLinearMap.fst ℝ _ _)
  let xj : Fin n → (E →L[ℝ] (Fin d → ℝ)) := fun j =>
    ContinuousLinearMap.pi fun a => (ContinuousLinearMap.proj (R := ℝ) (φ := fun _ : Fin n => ℝ) j).comp
      ((ContinuousLinearMap.proj (R := ℝ) (φ := fun _ : Fin d => Fin n → ℝ) a).comp (ContinuousLinearMap.snd ℝ _ _))
  have hterm : ∀ j : Fin n, HasFDerivAt (fun p : E => p.1 j * f (List.ofFn fun a => p.2 a j))
      (w j • ((∑ a, g a (List.ofFn fun a => X a j) • ContinuousLinearMap.proj (R := ℝ) (φ := fun _ : Fin d => ℝ) a).comp (xj j)) +
        f (List.ofFn fun a => X a j) • wj j) (w, X) := by
    intro j
    have h1 : HasFDerivAt (fun p : E => p.1 j) (wj j) (w, X) := (wj j).hasFDerivAt
    have h2 : HasFDerivAt (fun p : E => fun a => p.2 a j) (xj j) (w, X) := (xj j).hasFDerivAt
    have h3 : HasFDerivAt (fun p : E => f (List.ofFn fun a => p.2 a j)) _ (w, X) :=
      HasFDerivAt.comp (w, X) (g := fun y : Fin d → ℝ => f (List.ofFn y)) (f := fun p : E => fun a => p.2 a j) (hf j) h2
    exact h1.mul h3
  have hsum := (HasFDerivAt.fun_sum (u := Finset.univ) fun j _ => hterm j).sub_const integral
  refine ⟨_, hsum, fun δ => ?_⟩
  simp only [ContinuousLinearMap.sum_apply, ContinuousLinearMap.add_apply, ContinuousLinearMap.smul_apply,
    ContinuousLinearMap.comp_apply, ContinuousLinearMap.proj_apply, ContinuousLinearMap.coe_pi', smul_eq_mul, wj, xj,
    ContinuousLinearMap.coe_fst', ContinuousLinearMap.coe_snd', Finset.sum_add_distrib]
  rw [add_comm]
  congr 1
  rw [Finset.sum_comm]
  refine Finset.sum_congr rfl fun j _ => ?_
  rw [Finset.mul_sum]
  refine Finset.sum_congr rfl fun a _ => ?_
  ring

theorem quadResidual_ok (nodes : NdArray ℝ) (weights : List ℝ) (integrands : List (List ℝ → ℝ))
    (derivatives : List (List (List ℝ → ℝ))) (ref : List ℝ) (d n : Nat) (hs : nodes.shape = [d, n]) (hd : 1 ≤ d)
    (hw : weights.length = n) (hdl : derivatives.length = d) (hdm : ∀ ax ∈ derivatives, ax.length = integrands.length)
    (hr : ref.length = integrands.length) :
    ∃ q, quadResidualAndJacobian nodes weights integrands derivatives ref = .ok q ∧
      q.residual = (List.range integrands.length).map (fun i =>
        ∑ j : Fin n, integrands.getD i (fun _ => 0) (List.ofFn fun a : Fin d => nodes.get [a, j]) * weights.getD j 0 - ref.getD i 0) ∧
      q.dWeights.shape = [integrands.length, n] ∧ q.dNodes.shape = [integrands.length, d * n] ∧
      (∀ i j, q.dWeights.get [i, j] = integrands.getD i (fun _ => 0) (List.ofFn fun a : Fin d => nodes.get [a, j])) ∧
      ∀ i (a : Fin d) (j : Fin n), q.dNodes.get [i, a * n + j] =
        (derivatives.getD a []).getD i (fun _ => 0) (List.ofFn fun a : Fin d => nodes.get [a, j]) * weights.getD j 0 := by
  have hne : ¬ ∃ ax ∈ derivatives, ax.length ≠ integrands.length := by
    rintro ⟨ax, h1, h2⟩
    exact h2 (hdm ax h1)
  have hnn : numNodes nodes = n := by simp [numNodes, hs]
  unfold quadResidualAndJacobian
  rw [hs]
  simp only [hdl, hw, ne_eq, not_true_eq_false, if_false, if_neg hne, vecSub, List.length_map, List.length_range, hr, if_true]
  have hb : ∀ g : List (List ℝ → ℝ) → NdArray ℝ, derivatives.map g ≠ [] := by
    intro g h
    have := congrArg List.length h
    simp at this
    rw [this] at hdl
    simp at hdl
    omega
  simp only [hstackBlocks, if_neg (hb _)]
  refine ⟨_, rfl, ?_, ?_, ?_, ?_, ?_⟩
  · apply List.ext_getElem
    · simp [hr]
    · intro i h1 h2
      have hi : i < integrands.length := by simpa using h2
      simp only [List.getElem_zipWith, List.getElem_map, List.getElem_range, rowDot_eq]
      congr 1
      · refine Finset.sum_congr rfl fun j _ => ?_
        simp only [vandermondeT, nodeAt_two hs, List.getD_cons_zero, List.getD_cons_succ]
      · simp [List.getD_eq_getElem?_getD, hr, hi]
  · simp [vandermondeT, hnn]
  · simp [hdl]
  · intro i j
    simp only [vandermondeT, nodeAt_two hs, List.getD_cons_zero, List.getD_cons_succ]
  · intro i a j
    have hn0 : 0 < n := by have := j.2; omega
    have e1 : ((a : Nat) * n + j) / n = a := by
      rw [Nat.mul_comm, Nat.mul_add_div hn0, Nat.div_eq_of_lt j.2, add_zero]
    have e2 : ((a : Nat) * n + j) % n = j := by
      rw [Nat.mul_comm, Nat.mul_add_mod, Nat.mod_eq_of_lt j.2]
    have ha : (a : Nat) < derivatives.length := by omega
    simp only [List.getD_cons_zero, List.getD_cons_succ, e1, e2]
    simp [List.getD_eq_getElem?_getD, ha, vandermondeT, nodeAt_two hs]

/-- **C52 (residual and Jacobian).**  For all integrands, nodes and weights: the returned residual is
`Σ_j w_j f_i(x_j) - I_i`, and `(dresid_dweights, dresid_dnodes)` is its derivative with respect to all weights and all node
coordinates whenever the supplied derivative functions are the partial derivatives of the integrands at the nodes. -/
theorem C52_jacobian (nodes : NdArray ℝ) (weights : List ℝ) (integrands : List (List ℝ → ℝ))
    (derivatives : List (List (List ℝ → ℝ))) (ref : List ℝ) (d n : Nat) (hs : nodes.shape = [d, n]) (hd : 1 ≤ d)
    (hw : weights.length = n) (hdl : derivatives.length = d) (hdm : ∀ ax ∈ derivatives, ax.length = integrands.length)
    (hr : ref.length = integrands.length) :
    ∃ q, quadResidualAndJacobian nodes weights integrands derivatives ref = .ok q ∧
      q.residual.length = integrands.length ∧ q.dWeights.shape = [integrands.length, n] ∧
      q.dNodes.shape = [integrands.length, d * n] ∧
      ∀ i < integrands.length,
        let F := quadResidual (d := d) (n := n) (integrands.getD i fun _ => 0) (ref.getD i 0)
        let p : (Fin n → ℝ) × (Fin d → Fin n → ℝ) := (fun j => weights.getD j 0, fun a j => nodes.get [a, j])
        q.residual.getD i 0 = F p ∧
        ((∀ j : Fin n, HasPartials (integrands.getD i fun _ => 0) (fun a : Fin d => (derivatives.getD a []).getD i fun _ => 0)
            fun a => nodes.get [a, j]) →
          ∃ L : ((Fin n → ℝ) × (Fin d → Fin n → ℝ)) →L[ℝ] ℝ, HasFDerivAt F L p ∧ ∀ δw δx, L (δw, δx) = applyJacobian q.dWeights q.dNodes d n i δw δx) := by
  obtain ⟨q, hq, hres, hsw, hsn, hdw, hdn⟩ :=
    quadResidual_ok nodes weights integrands derivatives ref d n hs hd hw hdl hdm hr
  refine ⟨q, hq, by simp [hres], hsw, hsn, ?_⟩
  intro i hi F p
  constructor
  · simp only [hres, F, p, quadResidual, List.getD_eq_getElem?_getD, List.getElem?_map, List.getElem?_range hi,
      Option.map_some, Option.getD_some]
    congr 1
    exact Finset.sum_congr rfl fun j _ => mul_comm _ _
  · intro hp
    obtain ⟨L, hL, hLδ⟩ := residual_hasFDerivAt (n := n) (integrands.getD i fun _ => 0)
      (fun a : Fin d => (derivatives.getD a []).getD i fun _ => 0) (ref.getD i 0) (fun j => weights.getD j 0)
      (fun a j => nodes.get [a, j]) hp
    refine ⟨L, hL, fun δw δx => ?_⟩
    rw [hLδ, applyJacobian]
    simp only [hdw, hdn]

/-- Sum over the columns of `hstack([dW, dN])`. -/
theorem sum_hstack (n c : Nat) (f : Nat → ℝ) : ∑ k ∈ Finset.range (n + c), f k =
    ∑ j : Fin n, f j + ∑ k ∈ Finset.range c, f (n + k) := by
  rw [Finset.sum_range_add, Finset.sum_range]

theorem sum_columns (d n : Nat) (f : Nat → ℝ) : ∑ k ∈ Finset.range (d * n), f k =
    ∑ a : Fin d, ∑ j : Fin n, f (a * n + j) := by
  rw [← Finset.sum_range fun a => ∑ j : Fin n, f (a * n + j)]
  induction d with
  | zero => simp
  | succ d ih => rw [Nat.succ_mul, Finset.sum_range_add, ih, Finset.sum_range_succ, Finset.sum_range fun x => f (d * n + x)]

/-- **C52 (step).**  `quad_gauss_newton_increment` returns weight increments and node increments of shape `(ndim, nnodes)`,
in the layout of the Jacobian: no other pair makes the linearised residual `r + J (δw, δx)` smaller in the least squares
sense. -/
theorem C52_step (lstsq : Lstsq) (hl : LstsqOk lstsq) (q : QRJ) (m d n : Nat) (hn : 1 ≤ n)
    (hr : q.residual.length = m) (hsw : q.dWeights.shape = [m, n]) (hsn : q.dNodes.shape = [m, d * n]) :
    ∃ dw dx, gaussNewtonIncrement lstsq q = .ok (dw, dx) ∧ dw.length = n ∧ dx.shape = [d, n] ∧
      ∀ (δw : Fin n → ℝ) (δx : Fin d → Fin n → ℝ),
        ∑ i ∈ Finset.range m, (q.residual.getD i 0 +
          applyJacobian q.dWeights q.dNodes d n i (fun j => dw.getD j 0) (fun a j => dx.get [a, j])) ^ 2 ≤
        ∑ i ∈ Finset.range m, (q.residual.getD i 0 + applyJacobian q.dWeights q.dNodes d n i δw δx) ^ 2 := by
  set full : NdArray ℝ := ⟨[m, n + d * n], fun idx =>
    if idx.getD 1 0 < n then q.dWeights.get [idx.getD 0 0, idx.getD 1 0]
    else q.dNodes.get [idx.getD 0 0, idx.getD 1 0 - n]⟩ with hfull
  obtain ⟨hlen, hmin⟩ := hl full m (n + d * n) q.residual rfl hr
  set inc : List ℝ := (lstsq full q.residual).map fun v => -v with hinc
  have hilen : inc.length = n + d * n := by simp [hinc, hlen]
  have hrest : (inc.drop n).length = d * n := by simp [hilen]
  have hdiv : d * n / n = d := Nat.mul_div_cancel _ (by omega)
  -- rows of the full matrix applied to a vector
  have hrow : ∀ (y : List ℝ) i, rowDot full (n + d * n) y i = applyJacobian q.dWeights q.dNodes d n i
      (fun j => y.getD j 0) (fun a j => y.getD (n + (a * n + j)) 0) := by
    intro y i
    have e : rowDot full (n + d * n) y i = ∑ k ∈ Finset.range (n + d * n), full.get [i, k] * y.getD k 0 := rfl
    rw [e, sum_hstack, sum_columns, applyJacobian]
    congr 1
    · refine Finset.sum_congr rfl fun j _ => ?_
      simp [hfull]
    · refine Finset.sum_congr rfl fun a _ => Finset.sum_congr rfl fun j _ => ?_
      simp [hfull]
  refine ⟨inc.take n, ⟨[d, n], fun idx => (inc.drop n).getD (NdArray.unravelC [d * n] (NdArray.ravelC [d, n] idx) |>.getD 0 0) 0⟩,
    ?_, by simp [hilen], rfl, ?_⟩
  · unfold gaussNewtonIncrement
    rw [hsw, hsn]
    simp only [ne_eq, not_true_eq_false, if_false, hr]
    rw [← hfull, ← hinc, if_neg (by rw [hrest]; simp; omega)]
    simp [NdArray.reshapeC, hrest, hdiv, NdArray.size]
  · intro δw δx
    have hgetx : ∀ (a : Fin d) (j : Fin n), ((inc.drop n).getD
        (NdArray.unravelC [d * n] (NdArray.ravelC [d, n] [(a : Nat), (j : Nat)]) |>.getD 0 0) 0) = inc.getD (n + (a * n + j)) 0 := by
      intro a j
      have h1 : (a : Nat) * n + j < d * n := by
        calc (a : Nat) * n + j < a * n + n := by have := j.2; omega
          _ = (a + 1) * n := by ring
          _ ≤ d * n := Nat.mul_le_mul_right _ a.2
      have h2 : (j : Nat) + n * a = a * n + j := by ring
      simp [NdArray.unravelC, NdArray.ravelC, NdArray.unravelF, NdArray.ravelF, h2, Nat.mod_eq_of_lt h1,
        List.getD_eq_getElem?_getD]
    simp only [hgetx]
    have htake : ∀ j : Fin n, (inc.take n).getD j 0 = inc.getD j 0 := by
      intro j
      simp [List.getD_eq_getElem?_getD]
    simp only [htake]
    have hneg : ∀ k, inc.getD k 0 = -(lstsq full q.residual).getD k 0 := by
      intro k
      simp only [hinc, List.getD_eq_getElem?_getD, List.getElem?_map]
      cases (lstsq full q.residual)[k]? <;> simp
    -- the competitor as one vector
    set y : List ℝ := (List.range (n + d * n)).map fun k =>
      if h : k < n then -δw ⟨k, h⟩ else
        if h2 : (k - n) / n < d then -δx ⟨(k - n) / n, h2⟩ ⟨(k - n) % n, Nat.mod_lt _ (by omega)⟩ else 0 with hy
    have hy1 : ∀ j : Fin n, y.getD j 0 = -δw j := by
      intro j
      have : (j : Nat) < n + d * n := by have := j.2; omega
      simp [hy, List.getD_eq_getElem?_getD, this]
    have hy2 : ∀ (a : Fin d) (j : Fin n), y.getD (n + (a * n + j)) 0 = -δx a j := by
      intro a j
      have h1 : (a : Nat) * n + j < d * n := by
        calc (a : Nat) * n + j < a * n + n := by have := j.2; omega
          _ = (a + 1) * n := by ring
          _ ≤ d * n := Nat.mul_le_mul_right _ a.2
      have e1 : ((a : Nat) * n + j) / n = a := by
        rw [Nat.mul_comm, Nat.mul_add_div (by omega), Nat.div_eq_of_lt j.2, add_zero]
      have e2 : ((a : Nat) * n + j) % n = j := by
        rw [Nat.mul_comm, Nat.mul_add_mod, Nat.mod_eq_of_lt j.2]
      simp [hy, List.getD_eq_getElem?_getD, h1, e1, e2]
    have hmin' := hmin y (by simp [hy])
    have hJneg : ∀ i (u : Fin n → ℝ) (v : Fin d → Fin n → ℝ),
        applyJacobian q.dWeights q.dNodes d n i (fun j => -u j) (fun a j => -v a j) =
          -applyJacobian q.dWeights q.dNodes d n i u v := by
      intro i u v
      simp only [applyJacobian, mul_neg, Finset.sum_neg_distrib]
      ring
    have hL : ((List.range m).map fun i => (rowDot full (n + d * n) (lstsq full q.residual) i - q.residual.getD i 0) ^ 2).sum =
        ∑ i ∈ Finset.range m, (q.residual.getD i 0 + applyJacobian q.dWeights q.dNodes d n i (fun j => inc.getD j 0)
          (fun a j => inc.getD (n + (a * n + j)) 0)) ^ 2 := by
      change ∑ i ∈ Finset.range m, _ = _
      refine Finset.sum_congr rfl fun i _ => ?_
      rw [hrow]
      simp only [hneg, hJneg]
      ring
    have hR : ((List.range m).map fun i => (rowDot full (n + d * n) y i - q.residual.getD i 0) ^ 2).sum =
        ∑ i ∈ Finset.range m, (q.residual.getD i 0 + applyJacobian q.dWeights q.dNodes d n i δw δx) ^ 2 := by
      change ∑ i ∈ Finset.range m, _ = _
      refine Finset.sum_congr rfl fun i _ => ?_
      rw [hrow]
      simp only [hy1, hy2, hJneg]
      ring
    rw [hL, hR] at hmin'
    exact hmin'

/-- **C52 (rejections).**  Wrong numbers of derivatives are rejected; so are one-dimensional node arrays, which the
documentation of `quad_residual_and_jacobian` announces as accepted. -/
theorem C52_rejects (nodes : NdArray ℝ) (weights : List ℝ) (integrands : List (List ℝ → ℝ))
    (derivatives : List (List (List ℝ → ℝ))) (ref : List ℝ) :
    (∀ n, nodes.shape = [n] → quadResidualAndJacobian nodes weights integrands derivatives ref = .error .ValueError) ∧
    (∀ d n, nodes.shape = [d, n] → (derivatives.length ≠ d ∨ (∃ ax ∈ derivatives, ax.length ≠ integrands.length)) →
      quadResidualAndJacobian nodes weights integrands derivatives ref = .error .ValueError) := by
  constructor
  · intro n h
    unfold quadResidualAndJacobian
    rw [h]
  · intro d n h hor
    unfold quadResidualAndJacobian
    rw [h]
    simp only
    by_cases h1 : derivatives.length ≠ d
    · rw [if_pos h1]
    · rw [if_neg h1]
      rcases hor with h2 | h2
      · exact absurd h2 h1
      · rw [if_pos h2]

/-! ## C64: undetermined coefficients -/

/-- **C64.**  If any weights at the given nodes integrate all integrands exactly, then so do the weights
`find_weights_undetermined_coefficients` returns; the result has one weight per node, and mismatched input is rejected. -/
theorem C64_weights (lstsq : Lstsq) (hl : LstsqOk lstsq) (integrands : List (List ℝ → ℝ)) (nodes : NdArray ℝ)
    (ref : List ℝ) :
    (ref.length ≠ integrands.length → findWeights lstsq integrands nodes ref = .error .ValueError) ∧
    (ref.length = integrands.length → ∃ w, findWeights lstsq integrands nodes ref = .ok w ∧ w.length = numNodes nodes ∧
      ((∃ w' : List ℝ, w'.length = numNodes nodes ∧ ∀ i < integrands.length,
          ∑ j : Fin (numNodes nodes), integrands.getD i (fun _ => 0) (nodeAt nodes j) * w'.getD j 0 = ref.getD i 0) →
        ∀ i < integrands.length,
          ∑ j : Fin (numNodes nodes), integrands.getD i (fun _ => 0) (nodeAt nodes j) * w.getD j 0 = ref.getD i 0)) := by
  constructor
  · intro h
    rw [findWeights, if_pos h]
  · intro h
    obtain ⟨hlen, hmin⟩ := hl (vandermondeT integrands nodes) integrands.length (numNodes nodes) ref rfl h
    refine ⟨_, by rw [findWeights, if_neg (not_not.2 h)], hlen, ?_⟩
    rintro ⟨w', hw', hex⟩
    have e : ∀ (x : List ℝ) i, rowDot (vandermondeT integrands nodes) (numNodes nodes) x i =
        ∑ j : Fin (numNodes nodes), integrands.getD i (fun _ => 0) (nodeAt nodes j) * x.getD j 0 := by
      intro x i
      rw [rowDot_eq]
      simp only [vandermondeT, List.getD_cons_zero, List.getD_cons_succ]
    have hle := hmin w' hw'
    have hz : ((List.range integrands.length).map fun i =>
        (rowDot (vandermondeT integrands nodes) (numNodes nodes) w' i - ref.getD i 0) ^ 2).sum = 0 := by
      change ∑ i ∈ Finset.range integrands.length, _ = _
      refine Finset.sum_eq_zero fun i hi => ?_
      rw [e, hex i (Finset.mem_range.1 hi)]
      simp
    rw [hz] at hle
    have hle' : ∑ i ∈ Finset.range integrands.length, (rowDot (vandermondeT integrands nodes) (numNodes nodes)
        (lstsq (vandermondeT integrands nodes) ref) i - ref.getD i 0) ^ 2 ≤ 0 := hle
    have h0 := (Finset.sum_eq_zero_iff_of_nonneg fun i _ => sq_nonneg _).1
      (le_antisymm hle' (Finset.sum_nonneg fun i _ => sq_nonneg _))
    intro i hi
    have := h0 i (Finset.mem_range.2 hi)
    rw [← e]
    exact sub_eq_zero.1 (pow_eq_zero_iff two_ne_zero |>.1 this)

/-! ## The hypotheses can be met -/

theorem exists_minimiser (A : NdArray ℝ) (rows cols : Nat) (b : List ℝ) : ∃ x : List ℝ, x.length = cols ∧
    ∀ y : List ℝ, y.length = cols →
      ((List.range rows).map fun i => (rowDot A cols x i - b.getD i 0) ^ 2).sum ≤
        ((List.range rows).map fun i => (rowDot A cols y i - b.getD i 0) ^ 2).sum := by
  let T : (Fin cols → ℝ) →ₗ[ℝ] EuclideanSpace ℝ (Fin rows) :=
    { toFun := fun x => WithLp.toLp 2 fun i => ∑ j : Fin cols, A.get [i, j] * x j
      map_add' := by
        intro x y
        ext i
        simp [mul_add, Finset.sum_add_distrib]
      map_smul' := by
        intro c x
        ext i
        simp only [Pi.smul_apply, smul_eq_mul, PiLp.smul_apply, RingHom.id_apply, Finset.mul_sum]
        exact Finset.sum_congr rfl fun j _ => by ring }
  let u : EuclideanSpace ℝ (Fin rows) := WithLp.toLp 2 fun i => b.getD i 0
  obtain ⟨v, hv, hmin⟩ := (LinearMap.range T).exists_norm_eq_iInf_of_complete_subspace
    (Submodule.complete_of_finiteDimensional _) u
  obtain ⟨x, rfl⟩ := hv
  have hsq : ∀ y : Fin cols → ℝ, ‖u - T y‖ ^ 2 =
      ((List.range rows).map fun i => (rowDot A cols (List.ofFn y) i - b.getD i 0) ^ 2).sum := by
    intro y
    have e : ((List.range rows).map fun i => (rowDot A cols (List.ofFn y) i - b.getD i 0) ^ 2).sum =
        ∑ i ∈ Finset.range rows, (rowDot A cols (List.ofFn y) i - b.getD i 0) ^ 2 := rfl
    rw [e, Finset.sum_range, EuclideanSpace.norm_sq_eq]
    refine Finset.sum_congr rfl fun i _ => ?_
    rw [rowDot_eq, Real.norm_eq_abs, sq_abs]
    have : (u - T y) i = b.getD i 0 - ∑ j : Fin cols, A.get [i, j] * y j := rfl
    rw [this]
    have h2 : ∀ j : Fin cols, (List.ofFn y).getD j 0 = y j := by
      intro j
      simp [List.getD_eq_getElem?_getD]
    simp only [h2]
    ring
  refine ⟨List.ofFn x, by simp, fun y hy => ?_⟩
  obtain ⟨y', rfl⟩ : ∃ y' : Fin cols → ℝ, y = List.ofFn y' := by
    subst hy
    exact ⟨y.get, (List.ofFn_get y).symm⟩
  rw [← hsq, ← hsq]
  have hle : ‖u - T x‖ ≤ ‖u - T y'‖ := by
    rw [hmin]
    exact ciInf_le (f := fun z : ((LinearMap.range T : Submodule ℝ _) : Set (EuclideanSpace ℝ (Fin rows))) =>
      ‖u - (z : EuclideanSpace ℝ (Fin rows))‖) ⟨0, Set.forall_mem_range.mpr fun z => norm_nonneg _⟩
      ⟨T y', LinearMap.mem_range_self T y'⟩
  exact pow_le_pow_left₀ (norm_nonneg _) hle 2

/-- Lawful least squares solvers exist. -/
theorem exists_lstsqOk : ∃ lstsq : Lstsq, LstsqOk lstsq := by
  choose f hf using exists_minimiser
  refine ⟨fun A b => f A (A.shape.getD 0 0) (A.shape.getD 1 0) b, ?_⟩
  intro A rows cols b hs _
  have := hf A rows cols b
  simpa [hs] using this

/-- Non-vacuity of the derivative hypothesis: `f(x, y) = x y` with the derivatives `y` and `x`. -/
theorem hasPartials_mul (x : Fin 2 → ℝ) :
    HasPartials (fun l => l.getD 0 0 * l.getD 1 0) ![fun l => l.getD 1 0, fun l => l.getD 0 0] x := by
  have h0 : HasFDerivAt (fun y : Fin 2 → ℝ => y 0) (ContinuousLinearMap.proj (R := ℝ) (φ := fun _ : Fin 2 => ℝ) 0) x :=
    (ContinuousLinearMap.proj (R := ℝ) (φ := fun _ : Fin 2 => ℝ) 0).hasFDerivAt
  have h1 : HasFDerivAt (fun y : Fin 2 → ℝ => y 1) (ContinuousLinearMap.proj (R := ℝ) (φ := fun _ : Fin 2 => ℝ) 1) x :=
    (ContinuousLinearMap.proj (R := ℝ) (φ := fun _ : Fin 2 => ℝ) 1).hasFDerivAt
  have h := h0.mul h1
  unfold HasPartials
  refine HasFDerivAt.congr_fderiv (f := fun y : Fin 2 → ℝ => y 0 * y 1) h ?_
  simp [Fin.sum_univ_two, add_comm]

/-- Non-vacuity: two nodes in the plane, the integrands `1` and `x y`, an increment. -/
example : ∃ (lstsq : Lstsq) (q : QRJ) (dw : List ℝ) (dx : NdArray ℝ), LstsqOk lstsq ∧
    quadResidualAndJacobian ⟨[2, 2], fun idx => (idx.getD 0 0 : ℝ) + idx.getD 1 0⟩ [1, 1]
      [fun _ => 1, fun l => l.getD 0 0 * l.getD 1 0]
      [[fun _ => 0, fun l => l.getD 1 0], [fun _ => 0, fun l => l.getD 0 0]] [4, 0] = .ok q ∧
    gaussNewtonIncrement lstsq q = .ok (dw, dx) ∧ dw.length = 2 ∧ dx.shape = [2, 2] := by
  obtain ⟨lstsq, hl⟩ := exists_lstsqOk
  obtain ⟨q, hq, hr, hsw, hsn, -⟩ := C52_jacobian ⟨[2, 2], fun idx => (idx.getD 0 0 : ℝ) + idx.getD 1 0⟩ [1, 1]
    [fun _ => 1, fun l => l.getD 0 0 * l.getD 1 0]
    [[fun _ => 0, fun l => l.getD 1 0], [fun _ => 0, fun l => l.getD 0 0]] [4, 0] 2 2 rfl (by norm_num) rfl rfl
    (by simp) rfl
  obtain ⟨dw, dx, h, h1, h2, -⟩ := C52_step lstsq hl q 2 2 2 (by norm_num) hr hsw hsn
  exact ⟨lstsq, q, dw, dx, hl, hq, h, h1, h2⟩

/-- Non-vacuity of C64: the two-point rule at `±1` exact on `1` and `x`. -/
example (lstsq : Lstsq) (hl : LstsqOk lstsq) : ∃ w, findWeights lstsq [fun _ => 1, fun l => l.getD 0 0]
    ⟨[1, 2], fun idx => if idx.getD 1 0 = 0 then -1 else 1⟩ [2, 0] = .ok w ∧ w.length = 2 ∧
      w.getD 0 0 + w.getD 1 0 = 2 ∧ -w.getD 0 0 + w.getD 1 0 = 0 := by
  obtain ⟨w, h, hlen, hex⟩ := (C64_weights lstsq hl [fun _ => 1, fun l => l.getD 0 0]
    ⟨[1, 2], fun idx => if idx.getD 1 0 = 0 then -1 else 1⟩ [2, 0]).2 rfl
  have h2 := hex ⟨[1, 1], rfl, by
    intro i hi
    change ∑ j : Fin 2, _ = _
    have : i = 0 ∨ i = 1 := by simp at hi; omega
    rcases this with rfl | rfl
    · simp [Fin.sum_univ_two]; norm_num
    · simp [Fin.sum_univ_two, nodeAt]⟩
  refine ⟨w, h, hlen, ?_, ?_⟩
  · have := h2 0 (by simp)
    have e : ∑ j : Fin 2, ([fun _ => 1, fun l => l.getD 0 0] : List (List ℝ → ℝ)).getD 0 (fun _ => 0)
      (nodeAt ⟨[1, 2], fun idx => if idx.getD 1 0 = 0 then -1 else 1⟩ j) * w.getD j 0 = ([2, 0] : List ℝ).getD 0 0 := this
    simpa [Fin.sum_univ_two] using e
  · have := h2 1 (by simp)
    have e : ∑ j : Fin 2, ([fun _ => 1, fun l => l.getD 0 0] : List (List ℝ → ℝ)).getD 1 (fun _ => 0)
      (nodeAt ⟨[1, 2], fun idx => if idx.getD 1 0 = 0 then -1 else 1⟩ j) * w.getD j 0 = ([2, 0] : List ℝ).getD 1 0 := this
    simpa [Fin.sum_univ_two, nodeAt] using e

end Modepy

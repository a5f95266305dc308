import Verif.Model.Kronrod
import Mathlib.Algebra.BigOperators.Intervals
import Mathlib.Algebra.BigOperators.Group.List.Basic
import Mathlib.Tactic.Abel
import Mathlib.Tactic.NormNum

/-!
# Property C53: assembling and evaluating Gauss-Kronrod rules
-/

namespace Modepy
open Finset

section
variable {𝕜 V : Type} [RCLike 𝕜] [NormedAddCommGroup V] [NormedSpace 𝕜 V]

/-- `∑ v_i F(t_i)` for nodes and weights given by lists. -/
def Spec.ruleSum (𝕜 : Type) {V : Type} [RCLike 𝕜] [NormedAddCommGroup V] [NormedSpace 𝕜 V] (nodes weights : List ℝ)
    (F : ℝ → V) : V :=
  (List.zipWith (fun t (v : ℝ) => (v : 𝕜) • F t) nodes weights).sum
open Spec

theorem map_range_sum {M : Type} [AddCommMonoid M] (f : Nat → M) (c : Nat) :
    ((List.range c).map f).sum = ∑ i ∈ range c, f i := by
  induction c with
  | zero => simp
  | succ c ih => rw [List.range_succ, List.map_append, List.sum_append, ih, sum_range_succ]; simp

theorem zipWith_map_range {α β γ : Type} (g : α → β → γ) (a : Nat → α) (b : Nat → β) (c : Nat) :
    List.zipWith g ((List.range c).map a) ((List.range c).map b) = (List.range c).map fun i => g (a i) (b i) := by
  apply List.ext_getElem
  · simp
  · intro i h1 h2
    simp

theorem list_eq_map_range (l : List ℝ) (c : Nat) (h : l.length = c) : l = (List.range c).map fun i => l.getD i 0 := by
  apply List.ext_getElem
  · simp [h]
  · intro i h1 h2
    simp [List.getD_eq_getElem?_getD, h1]

theorem ruleSum_range (a b : Nat → ℝ) (c : Nat) (F : ℝ → V) :
    ruleSum 𝕜 ((List.range c).map a) ((List.range c).map b) F = ∑ i ∈ range c, (b i : 𝕜) • F (a i) := by
  rw [ruleSum, zipWith_map_range, map_range_sum]

theorem ruleSum_reverse_neg (a b : Nat → ℝ) (c : Nat) (F : ℝ → V) :
    ruleSum 𝕜 (((List.range c).map a).reverse.map Neg.neg) ((List.range c).map b).reverse F =
      ∑ i ∈ range c, (b i : 𝕜) • F (-a i) := by
  rw [ruleSum, ← List.map_reverse, List.map_map, ← List.map_reverse, List.zipWith_map]
  rw [List.zipWith_self, List.map_reverse, List.sum_reverse, map_range_sum]
  rfl

theorem ruleSum_append (l l' v v' : List ℝ) (h : l.length = v.length) (F : ℝ → V) :
    ruleSum 𝕜 (l ++ l') (v ++ v') F = ruleSum 𝕜 l v F + ruleSum 𝕜 l' v' F := by
  rw [ruleSum, List.zipWith_append h, List.sum_append]
  rfl

theorem ruleSum_sym (a b : Nat → ℝ) (c : Nat) (F : ℝ → V) :
    ruleSum 𝕜 ((List.range c).map a ++ ((List.range c).map a).reverse.map Neg.neg)
      ((List.range c).map b ++ ((List.range c).map b).reverse) F =
      ∑ i ∈ range c, (b i : 𝕜) • (F (a i) + F (-a i)) := by
  rw [ruleSum_append _ _ _ _ (by simp), ruleSum_range, ruleSum_reverse_neg, ← sum_add_distrib]
  simp only [smul_add]

theorem ruleSum_sym_center (a b : Nat → ℝ) (c : Nat) (w0 : ℝ) (F : ℝ → V) :
    ruleSum 𝕜 ((List.range c).map a ++ [0] ++ ((List.range c).map a).reverse.map Neg.neg)
      ((List.range c).map b ++ [w0] ++ ((List.range c).map b).reverse) F =
      ∑ i ∈ range c, (b i : 𝕜) • (F (a i) + F (-a i)) + (w0 : 𝕜) • F 0 := by
  rw [ruleSum_append _ _ _ _ (by simp), ruleSum_append _ _ _ _ (by simp), ruleSum_range, ruleSum_reverse_neg]
  simp only [smul_add, sum_add_distrib]
  simp only [ruleSum, List.zipWith_cons_cons, List.zipWith_nil_left, List.sum_cons, List.sum_nil, add_zero]
  abel

theorem dropLast_map_range {α : Type} (a : Nat → α) (c : Nat) :
    ((List.range (c + 1)).map a).dropLast = (List.range c).map a := by
  rw [List.range_succ, List.map_append, List.map_singleton, List.dropLast_concat]

theorem getLastD_eq (l : List ℝ) (c : Nat) (h : l.length = c + 1) : l.getLastD 0 = l.getD c 0 := by
  rw [List.getLastD_eq_getLast?, List.getLast?_eq_getElem?, h, Nat.add_sub_cancel, List.getD_eq_getElem?_getD]

@[simp] theorem toList1_ofList (l : List ℝ) : (NdArray.ofList l).toList1 = l := by
  simp only [NdArray.toList1, NdArray.ofList, List.headD_cons]
  exact (list_eq_map_range l _ rfl).symm

theorem everyOther_range (start c : Nat) (l : List ℝ) (h : (l.length + 1 - start) / 2 = c) :
    everyOther start l = (List.range c).map fun i => l.getD (start + 2 * i) 0 := by rw [everyOther, h]

/-- The assembled rules as lists. -/
theorem assemble_even (p : Nat) (x w gw : List ℝ) (hx : x.length = 2 * p + 1) (hw : w.length = 2 * p + 1)
    (hg : gw.length = p) :
    let q := assembleKronrod (2 * p) x w gw
    q.nodes = (List.range p).map (fun i => x.getD (2 * i) 0) ++ [0] ++
      ((List.range p).map fun i => x.getD (2 * i) 0).reverse.map Neg.neg ∧
    q.weights = (List.range p).map (fun i => w.getD (2 * i) 0) ++ [w.getD (2 * p) 0] ++
      ((List.range p).map fun i => w.getD (2 * i) 0).reverse ∧
    q.gaussQuadrature.nodes.toList1 = (List.range p).map (fun i => x.getD (1 + 2 * i) 0) ++
      ((List.range p).map fun i => x.getD (1 + 2 * i) 0).reverse.map Neg.neg ∧
    q.weightsAtGaussNodes = (List.range p).map (fun i => w.getD (1 + 2 * i) 0) ++
      ((List.range p).map fun i => w.getD (1 + 2 * i) 0).reverse ∧
    q.gaussQuadrature.weights.toList1 = (List.range p).map (fun i => gw.getD i 0) ++
      ((List.range p).map fun i => gw.getD i 0).reverse := by
  intro q
  have e0 : ∀ l : List ℝ, l.length = 2 * p + 1 → everyOther 0 l = (List.range (p + 1)).map fun i => l.getD (2 * i) 0 := by
    intro l hl
    rw [everyOther_range 0 (p + 1) l (by omega)]
    simp only [Nat.zero_add]
  have e1 : ∀ l : List ℝ, l.length = 2 * p + 1 → everyOther 1 l = (List.range p).map fun i => l.getD (1 + 2 * i) 0 := by
    intro l hl
    exact everyOther_range 1 p l (by omega)
  have hlast : ((List.range (p + 1)).map fun i => w.getD (2 * i) 0).getLastD 0 = w.getD (2 * p) 0 := by
    rw [List.range_succ, List.map_append, List.map_singleton, List.getLastD_concat]
  simp only [q, assembleKronrod, if_neg (show ¬ 2 * p % 2 = 1 by omega), e0 x hx, e1 x hx, e0 w hw, e1 w hw,
    revFromSecondLast, dropLast_map_range, hlast, toList1_ofList]
  refine ⟨trivial, trivial, trivial, trivial, ?_⟩
  conv_lhs => rw [list_eq_map_range gw p hg]

theorem assemble_odd (p : Nat) (x w gw : List ℝ) (hx : x.length = 2 * p + 2) (hw : w.length = 2 * p + 2)
    (hg : gw.length = p + 1) :
    let q := assembleKronrod (2 * p + 1) x w gw
    q.nodes = (List.range (p + 1)).map (fun i => x.getD (2 * i) 0) ++
      ((List.range (p + 1)).map fun i => x.getD (2 * i) 0).reverse.map Neg.neg ∧
    q.weights = (List.range (p + 1)).map (fun i => w.getD (2 * i) 0) ++
      ((List.range (p + 1)).map fun i => w.getD (2 * i) 0).reverse ∧
    q.gaussQuadrature.nodes.toList1 = (List.range p).map (fun i => x.getD (1 + 2 * i) 0) ++ [0] ++
      ((List.range p).map fun i => x.getD (1 + 2 * i) 0).reverse.map Neg.neg ∧
    q.weightsAtGaussNodes = (List.range p).map (fun i => w.getD (1 + 2 * i) 0) ++ [w.getD (2 * p + 1) 0] ++
      ((List.range p).map fun i => w.getD (1 + 2 * i) 0).reverse ∧
    q.gaussQuadrature.weights.toList1 = (List.range p).map (fun i => gw.getD i 0) ++ [gw.getD p 0] ++
      ((List.range p).map fun i => gw.getD i 0).reverse := by
  intro q
  have e0 : ∀ l : List ℝ, l.length = 2 * p + 2 → everyOther 0 l = (List.range (p + 1)).map fun i => l.getD (2 * i) 0 := by
    intro l hl
    rw [everyOther_range 0 (p + 1) l (by omega)]
    simp only [Nat.zero_add]
  have e1 : ∀ l : List ℝ, l.length = 2 * p + 2 →
      everyOther 1 l = (List.range (p + 1)).map fun i => l.getD (1 + 2 * i) 0 := by
    intro l hl
    exact everyOther_range 1 (p + 1) l (by omega)
  simp only [q, assembleKronrod, if_pos (show (2 * p + 1) % 2 = 1 by omega), e0 x hx, e1 x hx, e0 w hw, e1 w hw,
    revFromSecondLast, dropLast_map_range, toList1_ofList, getLastD_eq w (2 * p + 1) hw, getLastD_eq gw p hg]
  refine ⟨trivial, trivial, trivial, trivial, ?_⟩
  have : gw.dropLast = (List.range p).map fun i => gw.getD i 0 := by
    conv_lhs => rw [list_eq_map_range gw (p + 1) hg, dropLast_map_range]
  rw [this]

theorem sum_range_even_odd {M : Type} [AddCommMonoid M] (h : Nat → M) (p : Nat) :
    ∑ j ∈ range (2 * p), h j = ∑ i ∈ range p, h (2 * i) + ∑ i ∈ range p, h (1 + 2 * i) := by
  induction p with
  | zero => simp
  | succ p ih =>
    rw [show 2 * (p + 1) = 2 * p + 1 + 1 by ring, sum_range_succ, sum_range_succ, ih, sum_range_succ, sum_range_succ,
      show 2 * p + 1 = 1 + 2 * p by ring]
    abel

/-- **C53 (assembly).**  From half rules `x` (`n + 1` nodes), `w` (`n + 1` weights) and `gw` (`⌈n/2⌉` weights),
`make_kronrod_quadrature` builds a rule of `n + 1` Kronrod and `n` Gauss nodes, both symmetric about zero, whose sums are
`w_n F(0) + ∑_{j<n} w_j (F(x_j) + F(-x_j))` and, for the Gauss rule, the sum over the odd `j` (with `F(0)` taken once if
`n` is odd), for integrands with values in any normed space. -/
theorem C53_assembly (n : Nat) (x w gw : List ℝ) (hx : x.length = n + 1) (hw : w.length = n + 1)
    (hg : gw.length = (n + 1) / 2) :
    let q := assembleKronrod n x w gw
    (q.nodes.length = n + 1 ∧ q.weights.length = n + 1 ∧ q.gaussQuadrature.nodes.toList1.length = n ∧
      q.weightsAtGaussNodes.length = n ∧ q.gaussQuadrature.weights.toList1.length = n) ∧
    (q.nodes.reverse = q.nodes.map Neg.neg ∧ q.weights.reverse = q.weights ∧
      q.gaussQuadrature.nodes.toList1.reverse = q.gaussQuadrature.nodes.toList1.map Neg.neg ∧
      q.weightsAtGaussNodes.reverse = q.weightsAtGaussNodes ∧
      q.gaussQuadrature.weights.toList1.reverse = q.gaussQuadrature.weights.toList1) ∧
    (q.exactTo = 3 * n + 1 ∧ q.gaussQuadrature.exactTo = some (.num ((2 * n - 1 : Nat) : ℚ))) ∧
    (∀ F : ℝ → V, ruleSum 𝕜 q.gaussQuadrature.nodes.toList1 q.weightsAtGaussNodes F + ruleSum 𝕜 q.nodes q.weights F =
      (w.getD n 0 : 𝕜) • F 0 + ∑ j ∈ range n, (w.getD j 0 : 𝕜) • (F (x.getD j 0) + F (-x.getD j 0))) ∧
    (∀ F : ℝ → V, ruleSum 𝕜 q.gaussQuadrature.nodes.toList1 q.gaussQuadrature.weights.toList1 F =
      (if n % 2 = 1 then (gw.getD (n / 2) 0 : 𝕜) • F 0 else 0) +
        ∑ i ∈ range (n / 2), (gw.getD i 0 : 𝕜) • (F (x.getD (1 + 2 * i) 0) + F (-x.getD (1 + 2 * i) 0))) := by
  intro q
  have hneg : ∀ l : List ℝ, ((l.map Neg.neg).map Neg.neg) = l := by
    intro l
    simp [List.map_map]
  rcases Nat.even_or_odd' n with ⟨p, rfl | rfl⟩
  · obtain ⟨h1, h2, h3, h4, h5⟩ := assemble_even p x w gw hx hw (by omega)
    refine ⟨?_, ?_, ?_, ?_, ?_⟩
    · simp only [q, h1, h2, h3, h4, h5]
      simp
      omega
    · simp only [q, h1, h2, h3, h4, h5]
      simp only [List.reverse_append, List.map_append, List.reverse_reverse, List.map_reverse, hneg, List.reverse_cons,
        List.reverse_nil, List.nil_append, List.append_assoc, List.map_singleton, neg_zero, and_self]
    · constructor
      · simp only [q, assembleKronrod]; split <;> rfl
      · simp only [q, assembleKronrod]; split <;> rfl
    · intro F
      simp only [q, h1, h2, h3, h4]
      rw [ruleSum_sym, ruleSum_sym_center, sum_range_even_odd]
      abel
    · intro F
      simp only [q, h3, h5]
      rw [ruleSum_sym, if_neg (by omega), zero_add, Nat.mul_div_cancel_left p (by norm_num)]
  · obtain ⟨h1, h2, h3, h4, h5⟩ := assemble_odd p x w gw hx hw (by omega)
    refine ⟨?_, ?_, ?_, ?_, ?_⟩
    · simp only [q, h1, h2, h3, h4, h5]
      simp
      omega
    · simp only [q, h1, h2, h3, h4, h5]
      simp only [List.reverse_append, List.map_append, List.reverse_reverse, List.map_reverse, hneg, List.reverse_cons,
        List.reverse_nil, List.nil_append, List.append_assoc, List.map_singleton, neg_zero, and_self]
    · constructor
      · simp only [q, assembleKronrod]; split <;> rfl
      · simp only [q, assembleKronrod]; split <;> rfl
    · intro F
      simp only [q, h1, h2, h3, h4]
      rw [ruleSum_sym, ruleSum_sym_center, sum_range_succ, sum_range_succ, sum_range_even_odd]
      abel
    · intro F
      simp only [q, h3, h5]
      rw [ruleSum_sym_center, if_pos (by omega), show (2 * p + 1) / 2 = p by omega]
      abel

/-- `KronrodQuadrature.__call__` is that sum for real-valued functions. -/
theorem C53_call (n : Nat) (x w gw : List ℝ) (hx : x.length = n + 1) (hw : w.length = n + 1)
    (hg : gw.length = (n + 1) / 2) (f : ℝ → ℝ) :
    (assembleKronrod n x w gw).call f =
      w.getD n 0 * f 0 + ∑ j ∈ range n, w.getD j 0 * (f (x.getD j 0) + f (-x.getD j 0)) := by
  have h := (C53_assembly (𝕜 := ℝ) (V := ℝ) n x w gw hx hw hg).2.2.2.1 f
  simp only [RCLike.ofReal_real_eq_id, id_eq, smul_eq_mul] at h
  rw [← h, KronrodQuadrature.call]
  have e : ∀ l v : List ℝ, listDot (l.map f) v = ruleSum ℝ l v f := by
    intro l v
    rw [listDot, ruleSum, List.zipWith_map_left]
    congr 2
    funext t u
    simp [mul_comm]
  rw [e, e]

/-! ## Evaluation on a segment -/

/-- The sums accumulated by `_evalrule`. -/
theorem evalruleSums_eq (n : Nat) (x w gw : List ℝ) (hx : x.length = n + 1) (hw : w.length = n + 1)
    (hg : gw.length = (n + 1) / 2) (f : 𝕜 → V) (a s : 𝕜) :
    let F : ℝ → V := fun t => f (a + (1 + (t : 𝕜)) * s)
    evalruleSums f a s x w gw =
      ((w.getD n 0 : 𝕜) • F 0 + ∑ j ∈ range n, (w.getD j 0 : 𝕜) • (F (x.getD j 0) + F (-x.getD j 0)),
        (if n % 2 = 1 then (gw.getD (n / 2) 0 : 𝕜) • F 0 else 0) +
        ∑ i ∈ range (n / 2), (gw.getD i 0 : 𝕜) • (F (x.getD (1 + 2 * i) 0) + F (-x.getD (1 + 2 * i) 0))) := by
  intro F
  have hF0 : f (a + s) = F 0 := by simp [F]
  have hFp : ∀ t : ℝ, f (a + (1 + (t : 𝕜)) * s) = F t := fun t => rfl
  have hFm : ∀ t : ℝ, f (a + (1 - (t : 𝕜)) * s) = F (-t) := by
    intro t
    simp only [F, RCLike.ofReal_neg]
    rw [sub_eq_add_neg]
  have hfold : ∀ p : Nat, (List.range' 1 p).foldl (evalruleStep f a s x w gw) (0, 0) =
      (∑ j ∈ range (2 * p), (w.getD j 0 : 𝕜) • (F (x.getD j 0) + F (-x.getD j 0)),
        ∑ i ∈ range p, (gw.getD i 0 : 𝕜) • (F (x.getD (1 + 2 * i) 0) + F (-x.getD (1 + 2 * i) 0))) := by
    intro p
    induction p with
    | zero => simp
    | succ p ih =>
      rw [List.range'_1_concat, List.foldl_append, ih]
      simp only [List.foldl_cons, List.foldl_nil, evalruleStep, hFp, hFm]
      rw [show 2 * (1 + p) - 1 = 2 * p + 1 by omega, show 2 * (1 + p) - 2 = 2 * p by omega, Nat.add_sub_cancel_left,
        show 2 * (p + 1) = 2 * p + 1 + 1 by ring, sum_range_succ _ (2 * p + 1), sum_range_succ _ (2 * p),
        sum_range_succ _ p, show 1 + 2 * p = 2 * p + 1 by ring]
      congr 1
      abel
  rcases Nat.even_or_odd' n with ⟨p, rfl | rfl⟩
  · have h1 : 1 - x.length % 2 = 0 := by omega
    simp only [evalruleSums, h1, if_true, Nat.sub_zero, hg]
    rw [show (2 * p + 1) / 2 = p by omega, hfold, if_neg (by omega), hF0, getLastD_eq w (2 * p) hw,
      show 2 * p / 2 = p by omega, zero_add]
    simp only
    rw [add_comm]
  · have h1 : 1 - x.length % 2 = 1 := by omega
    simp only [evalruleSums, h1, one_ne_zero, if_false, hg]
    rw [show (2 * p + 1 + 1) / 2 - 1 = p by omega, hfold, if_pos (by omega), hF0, getLastD_eq w (2 * p + 1) hw,
      getLastD_eq gw p (by omega), hFp, hFm, hx, hw, show 2 * p + 1 + 1 - 2 = 2 * p by omega,
      show (2 * p + 1) / 2 = p by omega, sum_range_succ]
    simp only
    congr 1
    · abel
    · abel

/-- **C53 (evaluation).**  For the same half rules, `_evalrule(f, a, b, x, w, gw)` on a real or complex segment, with
`s = (b - a)/2` and `F(t) = f(a + (1 + t) s)`: if `f` is finite at the images of all nodes, the segment carries `s` times
the Kronrod sum of the assembled rule over `F`, and the norm of its difference from `s` times the Gauss sum; otherwise
`ValueError` is raised. -/
theorem C53_evalrule (n : Nat) (x w gw : List ℝ) (hx : x.length = n + 1) (hw : w.length = n + 1)
    (hg : gw.length = (n + 1) / 2) (h0 : x.getD n 0 = 0) (f : 𝕜 → Option V) (a b : 𝕜) :
    let q := assembleKronrod n x w gw
    let s : 𝕜 := (1 / 2) * (b - a)
    let point : ℝ → 𝕜 := fun t => a + (1 + (t : 𝕜)) * s
    let F : ℝ → V := fun t => (f (point t)).getD 0
    ((∀ t ∈ q.gaussQuadrature.nodes.toList1 ++ q.nodes, f (point t) ≠ none) →
      evalrule f a b x w gw = .ok ⟨a, b,
        s • (ruleSum 𝕜 q.gaussQuadrature.nodes.toList1 q.weightsAtGaussNodes F + ruleSum 𝕜 q.nodes q.weights F),
        ‖s • (ruleSum 𝕜 q.gaussQuadrature.nodes.toList1 q.weightsAtGaussNodes F + ruleSum 𝕜 q.nodes q.weights F) -
          s • ruleSum 𝕜 q.gaussQuadrature.nodes.toList1 q.gaussQuadrature.weights.toList1 F‖⟩) ∧
    ((∃ t ∈ q.gaussQuadrature.nodes.toList1 ++ q.nodes, f (point t) = none) →
      evalrule f a b x w gw = .error .ValueError) := by
  intro q s point F
  have hmem : ∀ P : 𝕜 → Prop, (∃ p ∈ evalrulePoints a b x, P p) ↔
      ∃ t ∈ q.gaussQuadrature.nodes.toList1 ++ q.nodes, P (point t) := by
    intro P
    have hpt : ∀ p, p ∈ evalrulePoints a b x ↔ p = point 0 ∨ ∃ j < n, p = point (x.getD j 0) ∨ p = point (-x.getD j 0) := by
      intro p
      have e0 : point 0 = a + s := by simp [point]
      have em : ∀ t : ℝ, point (-t) = a + (1 - (t : 𝕜)) * s := by
        intro t
        simp only [point, RCLike.ofReal_neg]
        rw [sub_eq_add_neg]
      have hd : x.dropLast = (List.range n).map fun i => x.getD i 0 := by
        conv_lhs => rw [list_eq_map_range x (n + 1) hx, dropLast_map_range]
      rw [evalrulePoints, hd]
      simp only [List.mem_cons, List.mem_flatMap, List.mem_map, List.mem_range, List.not_mem_nil, or_false, e0, em]
      constructor
      · rintro (h | ⟨_, ⟨j, hj, rfl⟩, h⟩)
        · exact .inl h
        · exact .inr ⟨j, hj, h⟩
      · rintro (h | ⟨j, hj, h⟩)
        · exact .inl h
        · exact .inr ⟨_, ⟨j, hj, rfl⟩, h⟩
    have hnodes : ∀ t, t ∈ q.gaussQuadrature.nodes.toList1 ++ q.nodes ↔
        t = 0 ∨ ∃ j < n, t = x.getD j 0 ∨ t = -x.getD j 0 := by
      intro t
      rcases Nat.even_or_odd' n with ⟨p, rfl | rfl⟩
      · obtain ⟨h1, -, h3, -, -⟩ := assemble_even p x w gw hx hw (by omega)
        simp only [q, h1, h3, List.mem_append, List.mem_map, List.mem_reverse, List.mem_range, List.mem_singleton]
        constructor
        · rintro ((⟨i, hi, rfl⟩ | ⟨_, ⟨i, hi, rfl⟩, rfl⟩) | ((⟨i, hi, rfl⟩ | rfl) | ⟨_, ⟨i, hi, rfl⟩, rfl⟩))
          · exact .inr ⟨1 + 2 * i, by omega, .inl rfl⟩
          · exact .inr ⟨1 + 2 * i, by omega, .inr rfl⟩
          · exact .inr ⟨2 * i, by omega, .inl rfl⟩
          · exact .inl rfl
          · exact .inr ⟨2 * i, by omega, .inr rfl⟩
        · rintro (rfl | ⟨j, hj, h⟩)
          · exact .inr (.inl (.inr rfl))
          · rcases Nat.even_or_odd' j with ⟨i, rfl | rfl⟩
            · rcases h with rfl | rfl
              · exact .inr (.inl (.inl ⟨i, by omega, rfl⟩))
              · exact .inr (.inr ⟨_, ⟨i, by omega, rfl⟩, rfl⟩)
            · rw [show 2 * i + 1 = 1 + 2 * i by ring] at h
              rcases h with rfl | rfl
              · exact .inl (.inl ⟨i, by omega, rfl⟩)
              · exact .inl (.inr ⟨_, ⟨i, by omega, rfl⟩, rfl⟩)
      · obtain ⟨h1, -, h3, -, -⟩ := assemble_odd p x w gw hx hw (by omega)
        simp only [q, h1, h3, List.mem_append, List.mem_map, List.mem_reverse, List.mem_range, List.mem_singleton]
        constructor
        · rintro (((⟨i, hi, rfl⟩ | rfl) | ⟨_, ⟨i, hi, rfl⟩, rfl⟩) | (⟨i, hi, rfl⟩ | ⟨_, ⟨i, hi, rfl⟩, rfl⟩))
          · exact .inr ⟨1 + 2 * i, by omega, .inl rfl⟩
          · exact .inl rfl
          · exact .inr ⟨1 + 2 * i, by omega, .inr rfl⟩
          · exact .inr ⟨2 * i, by omega, .inl rfl⟩
          · exact .inr ⟨2 * i, by omega, .inr rfl⟩
        · rintro (rfl | ⟨j, hj, h⟩)
          · exact .inl (.inl (.inr rfl))
          · rcases Nat.even_or_odd' j with ⟨i, rfl | rfl⟩
            · rcases h with rfl | rfl
              · exact .inr (.inl ⟨i, by omega, rfl⟩)
              · exact .inr (.inr ⟨_, ⟨i, by omega, rfl⟩, rfl⟩)
            · rw [show 2 * i + 1 = 1 + 2 * i by ring] at h
              rcases h with rfl | rfl
              · exact .inl (.inl (.inl ⟨i, by omega, rfl⟩))
              · exact .inl (.inr ⟨_, ⟨i, by omega, rfl⟩, rfl⟩)
    constructor
    · rintro ⟨p, hp, h⟩
      rcases (hpt p).1 hp with rfl | ⟨j, hj, rfl | rfl⟩
      · exact ⟨0, (hnodes 0).2 (.inl rfl), h⟩
      · exact ⟨_, (hnodes _).2 (.inr ⟨j, hj, .inl rfl⟩), h⟩
      · exact ⟨_, (hnodes _).2 (.inr ⟨j, hj, .inr rfl⟩), h⟩
    · rintro ⟨t, ht, h⟩
      refine ⟨point t, (hpt _).2 ?_, h⟩
      rcases (hnodes t).1 ht with rfl | ⟨j, hj, rfl | rfl⟩
      · exact .inl rfl
      · exact .inr ⟨j, hj, .inl rfl⟩
      · exact .inr ⟨j, hj, .inr rfl⟩
  have hany := hmem fun p => f p = none
  constructor
  · intro hall
    have hf : ¬ (evalrulePoints a b x).any (fun p => (f p).isNone) = true := by
      rw [List.any_eq_true]
      rintro ⟨p, hp, h⟩
      obtain ⟨t, ht, h2⟩ := hany.1 ⟨p, hp, by simpa using h⟩
      exact hall t ht h2
    rw [evalrule, if_neg hf]
    have hs := evalruleSums_eq n x w gw hx hw hg (fun p => (f p).getD 0) a s
    have hA := C53_assembly (𝕜 := 𝕜) (V := V) n x w gw hx hw hg
    simp only at hs
    simp only [hA.2.2.2.1 F, hA.2.2.2.2 F, q, F]
    simp only [s, point] at hs ⊢
    rw [hs]
  · intro h
    obtain ⟨p, hp, h2⟩ := hany.2 h
    rw [evalrule, if_pos]
    rw [List.any_eq_true]
    exact ⟨p, hp, by simp [h2]⟩

end

/-- The hypotheses hold for the three point rule (`n = 1`): nodes `-√(3/5), 0`. -/
example : ([-√ (3 / 5 : ℝ), 0] : List ℝ).length = 1 + 1 ∧ ([5 / 9, 8 / 9] : List ℝ).length = 1 + 1 ∧
    ([2] : List ℝ).length = (1 + 1) / 2 ∧ ([-√ (3 / 5 : ℝ), 0] : List ℝ).getD 1 0 = 0 :=
  ⟨rfl, rfl, rfl, rfl⟩

end Modepy

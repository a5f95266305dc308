import Verif.Model.Gauss
import Mathlib.Algebra.BigOperators.Fin

/-!
# Reading one-dimensional rules built from finite sequences of nodes and weights
-/

namespace Modepy

theorem ofFn_get {n : Nat} (f : Fin n → ℝ) (i : Fin n) : (NdArray.ofFn f).get [(i : Nat)] = f i := by
  simp [NdArray.ofFn]

theorem sum_map_range_real {n : Nat} (g : Nat → ℝ) : ((List.range n).map g).sum = ∑ k ∈ Finset.range n, g k :=
  rfl

/-- The nodes of a one-dimensional rule, with or without the dimension axis. -/
def nodes1D {n : Nat} (x : Fin n → ℝ) (fd : Bool) : NdArray ℝ :=
  if fd then (NdArray.ofFn x).addDimAxis else NdArray.ofFn x

theorem nodes1D_shape {n : Nat} (x : Fin n → ℝ) (fd : Bool) :
    (nodes1D x fd).shape = if fd then [1, n] else [n] := by
  cases fd <;> rfl

theorem node_nodes1D {n : Nat} (x : Fin n → ℝ) (w : NdArray ℝ) (e : Option PyVal) (fd : Bool)
    (fac : Option (List Nat)) (i : Fin n) : Quadrature.node ⟨nodes1D x fd, w, e, fac⟩ i = [x i] := by
  cases fd <;> simp [Quadrature.node, nodes1D, NdArray.ofFn, NdArray.addDimAxis]

/-- Applying a one-dimensional rule built from `n` nodes and weights. -/
theorem call_nodes1D {n : Nat} (x w : Fin n → ℝ) (e : Option PyVal) (fd : Bool) (fac : Option (List Nat))
    (f : List ℝ → ℝ) :
    Quadrature.call ⟨nodes1D x fd, NdArray.ofFn w, e, fac⟩ f = ∑ i, w i * f [x i] := by
  rw [Quadrature.call]
  have hn : Quadrature.nnodes ⟨nodes1D x fd, NdArray.ofFn w, e, fac⟩ = n := rfl
  rw [hn, sum_map_range_real, Finset.sum_range]
  apply Finset.sum_congr rfl
  intro i _
  rw [node_nodes1D]
  simp only [ofFn_get]

end Modepy

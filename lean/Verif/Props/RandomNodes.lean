import Verif.Model.RandomNodes
import Verif.Spec.Geometry
import Mathlib.Tactic.Linarith
import Mathlib.Tactic.Ring

/-!
# Property C46: random nodes lie in the shape
-/

namespace Modepy
open Spec

/-- The documented range of `uniform(-1, 1)`: the half-open interval. -/
def Spec.RngOk {σ : Type} (rng : Rng σ) : Prop :=
  ∀ st d k i j, i < d → j < k → -1 ≤ (rng.uniform st d k).1 i j ∧ (rng.uniform st d k).1 i j < 1

/-- Column `k` of an array with `d` rows, as a point. -/
def colOf (a : NdArray ℝ) (d k : Nat) : List ℝ := (List.range d).map fun i => a.get [i, k]

theorem inSimplex_of (d : Nat) (x : List ℝ) (hl : x.length = d) (hlo : ∀ c ∈ x, -1 ≤ c) (hs : x.sum ≤ 2 - (d : ℝ)) :
    InSimplex d x := by
  refine ⟨hl, fun m hm => ?_⟩
  cases m with
  | zero =>
    have h : ∀ l : List ℝ, (l.map fun c => (1 + c) / 2).sum = (l.length + l.sum) / 2 := by
      intro l
      induction l with
      | nil => simp
      | cons c l ih =>
        simp only [List.map_cons, List.sum_cons, ih, List.length_cons]
        push_cast
        ring
    simp only [bary]
    rw [h, hl]
    linarith
  | succ i =>
    simp only [bary]
    have hi : i < x.length := by omega
    have : x.getD i (-1) = x[i] := by
      simp only [List.getD_eq_getElem?_getD]
      rw [List.getElem?_eq_getElem hi]
      rfl
    rw [this]
    linarith [hlo x[i] (List.getElem_mem hi)]

theorem mem_accepted {dim k : Nat} {m : Nat → Nat → ℝ} {j : Nat} (h : j ∈ acceptedColumns dim k m) :
    j < k ∧ ((List.range dim).map fun i => m i j).sum < 2 - (dim : ℝ) := by
  simpa [acceptedColumns] using h

/-- The loop invariant: the first `obtained` columns lie in the simplex. -/
theorem randomLoop_inv {σ : Type} (rng : Rng σ) (hr : RngOk rng) (dim nnodes : Nat) :
    ∀ (fuel : Nat) (st : σ) (result : NdArray ℝ) (obtained : Nat) (a : NdArray ℝ) (st' : σ),
      result.shape = [dim, nnodes] → obtained ≤ nnodes →
      (∀ k < obtained, InSimplex dim (colOf result dim k)) →
      randomLoop rng dim nnodes fuel st result obtained = some (a, st') →
      a.shape = [dim, nnodes] ∧ ∀ k < nnodes, InSimplex dim (colOf a dim k) := by
  intro fuel
  induction fuel with
  | zero => intro st result obtained a st' _ _ _ h; simp [randomLoop] at h
  | succ fuel ih =>
    intro st result obtained a st' hs ho hin h
    rw [randomLoop] at h
    set m := (rng.uniform st dim (nnodes - obtained)).1 with hm
    set cols := acceptedColumns dim (nnodes - obtained) m with hcols
    have hlen : cols.length ≤ nnodes - obtained := by
      rw [hcols, acceptedColumns]
      exact (List.length_filter_le _ _).trans (by simp)
    have hnew : ∀ k < obtained + cols.length, InSimplex dim (colOf (assignColumns result obtained cols m) dim k) := by
      intro k hk
      by_cases hko : obtained ≤ k
      · have hcol : colOf (assignColumns result obtained cols m) dim k =
            (List.range dim).map fun i => m i (cols.getD (k - obtained) 0) := by
          simp only [colOf, assignColumns]
          exact List.map_congr_left fun i _ => if_pos ⟨hko, hk⟩
        rw [hcol]
        have hmem : cols.getD (k - obtained) 0 ∈ cols := by
          have hlt : k - obtained < cols.length := by omega
          simp only [List.getD_eq_getElem?_getD]
          rw [List.getElem?_eq_getElem hlt]
          exact List.getElem_mem hlt
        obtain ⟨h1, h2⟩ := mem_accepted hmem
        refine inSimplex_of dim _ (by simp) ?_ h2.le
        intro c hc
        obtain ⟨i, hi, rfl⟩ := List.mem_map.1 hc
        exact (hr st dim (nnodes - obtained) i _ (by simpa using hi) h1).1
      · have hcol : colOf (assignColumns result obtained cols m) dim k = colOf result dim k := by
          simp only [colOf, assignColumns]
          exact List.map_congr_left fun i _ => if_neg (by omega)
        rw [hcol]
        exact hin k (by omega)
    by_cases hdone : obtained + cols.length = nnodes
    · rw [if_pos hdone] at h
      obtain ⟨rfl, -⟩ := Prod.mk.inj (Option.some.inj h)
      exact ⟨hs, by rw [← hdone]; exact hnew⟩
    · rw [if_neg hdone] at h
      exact ih _ (assignColumns result obtained cols m) _ a st' hs (by omega) hnew h

/-- **C46 (simplex).**  Whatever the generator delivers, if the call returns, the array has shape `(dim, nnodes)` and
every column is a point of the simplex. -/
theorem C46_simplex {σ : Type} (rng : Rng σ) (hr : RngOk rng) (fuel dim nnodes : Nat) (st st' : σ) (a : NdArray ℝ)
    (h : randomNodesSimplex rng fuel dim nnodes st = some (a, st')) :
    a.shape = [dim, nnodes] ∧ ∀ k < nnodes, InSimplex dim (colOf a dim k) :=
  randomLoop_inv rng hr dim nnodes fuel st _ 0 a st' rfl (Nat.zero_le _) (by simp) h

theorem inProduct_append : ∀ (ds : List Nat) (x : List ℝ) (d : Nat) (y : List ℝ), InProduct ds x → InSimplex d y →
    InProduct (ds ++ [d]) (x ++ y) := by
  intro ds
  induction ds with
  | nil =>
    rintro x d y rfl hy
    simp only [List.nil_append, InProduct]
    have := hy.1
    rw [List.take_of_length_le (by omega), List.drop_of_length_le (by omega)]
    exact ⟨hy, rfl⟩
  | cons d0 ds ih =>
    intro x d y hx hy
    obtain ⟨h1, h2⟩ := hx
    have hl : d0 ≤ x.length := by
      have := h1.1
      simp at this
      exact this
    simp only [List.cons_append, InProduct]
    rw [List.take_append_of_le_length hl, List.drop_append_of_le_length hl]
    exact ⟨h1, ih _ _ _ h2 hy⟩

theorem colOf_add (a : NdArray ℝ) (d s k : Nat) :
    colOf a (d + s) k = colOf a d k ++ (List.range s).map fun i => a.get [d + i, k] := by
  simp only [colOf, List.range_add, List.map_append, List.map_map]
  rfl

theorem randomTpLoop_inv {σ : Type} (rng : Rng σ) (hr : RngOk rng) (fuel nnodes : Nat) :
    ∀ (bases done : List Nat) (nodes : NdArray ℝ) (st : σ) (a : NdArray ℝ) (st' : σ),
      (∀ k < nnodes, InProduct done (colOf nodes done.sum k)) →
      randomTpLoop rng fuel nnodes bases done.sum nodes st = some (a, st') →
      a.shape = nodes.shape ∧ ∀ k < nnodes, InProduct (done ++ bases) (colOf a (done ++ bases).sum k) := by
  intro bases
  induction bases with
  | nil =>
    intro done nodes st a st' hin h
    rw [randomTpLoop] at h
    obtain ⟨rfl, -⟩ := Prod.mk.inj (Option.some.inj h)
    simpa using hin
  | cons s bases ih =>
    intro done nodes st a st' hin h
    rw [randomTpLoop] at h
    cases hb : randomNodesSimplex rng fuel s nnodes st with
    | none => rw [hb] at h; simp at h
    | some r =>
      obtain ⟨b, st1⟩ := r
      rw [hb] at h
      simp only at h
      obtain ⟨-, hbin⟩ := C46_simplex rng hr fuel s nnodes st st1 b hb
      have hsum : (done ++ [s]).sum = done.sum + s := by simp
      rw [← hsum] at h
      have key := ih (done ++ [s]) _ st1 a st' ?_ h
      · simpa using key
      · intro k hk
        rw [hsum, colOf_add]
        have e1 : ∀ nodes' : NdArray ℝ, (∀ i < done.sum, nodes'.get [i, k] = nodes.get [i, k]) →
            colOf nodes' done.sum k = colOf nodes done.sum k := by
          intro nodes' h'
          simp only [colOf]
          exact List.map_congr_left fun i hi => h' i (by simpa using hi)
        rw [e1 _ (by intro i hi; simp only; exact if_neg (by omega))]
        refine inProduct_append done _ s _ (hin k hk) ?_
        have e2 : ((List.range s).map fun i => if done.sum ≤ done.sum + i ∧ done.sum + i < done.sum + s then
            b.get [done.sum + i - done.sum, k] else nodes.get [done.sum + i, k]) = colOf b s k := by
          simp only [colOf]
          refine List.map_congr_left fun i hi => ?_
          have := List.mem_range.1 hi
          rw [if_pos ⟨by omega, by omega⟩, Nat.add_sub_cancel_left]
        have := hbin k hk
        rw [← e2] at this
        exact this

theorem inCube_of_product : ∀ (n : Nat) (x : List ℝ), InProduct (List.replicate n 1) x → InCube n x := by
  intro n
  induction n with
  | zero =>
    intro x hx
    have hx' : x = [] := hx
    subst hx'
    exact ⟨rfl, by simp⟩
  | succ n ih =>
    intro x hx
    rw [List.replicate_succ] at hx
    obtain ⟨h1, h2⟩ := hx
    obtain ⟨g1, g2⟩ := ih _ h2
    cases x with
    | nil => have := h1.1; simp at this
    | cons c x =>
      simp only [List.drop_succ_cons, List.drop_zero] at g1 g2
      refine ⟨by simp [g1], ?_⟩
      intro y hy
      rcases List.mem_cons.1 hy with rfl | hy
      · have a0 := h1.2 0 (by omega)
        have a1 := h1.2 1 (by omega)
        simp [bary] at a0 a1
        constructor <;> linarith
      · exact g2 y hy

/-- **C46.**  For every shape: if the call returns, the array has shape `(dim, nnodes)` and every column is a point of
the shape; the content of the uninitialised array plays no role. -/
theorem C46_shape {σ : Type} (rng : Rng σ) (hr : RngOk rng) (fuel : Nat) (fill : ℝ) (shape : Shape) (nnodes : Nat)
    (st st' : σ) (a : NdArray ℝ) (h : randomNodesForShape rng fuel fill shape nnodes st = some (a, st')) :
    a.shape = [shape.dim, nnodes] ∧ ∀ k < nnodes, InShape shape (colOf a shape.dim k) := by
  cases shape with
  | simplex dim => exact C46_simplex rng hr fuel dim nnodes st st' a h
  | tp bases =>
    have := randomTpLoop_inv rng hr fuel nnodes bases [] ⟨[bases.sum, nnodes], fun _ => fill⟩ st a st'
      (by intro k _; rfl) h
    exact this
  | hypercube dim =>
    have := randomTpLoop_inv rng hr fuel nnodes (List.replicate dim 1) []
      ⟨[(List.replicate dim 1).sum, nnodes], fun _ => fill⟩ st a st' (by intro k _; rfl) h
    exact ⟨this.1, fun k hk => inCube_of_product dim _ (this.2 k hk)⟩

/-! ## Termination -/

/-- Running longer does not change the result. -/
theorem C46_fuel_mono {σ : Type} (rng : Rng σ) (dim nnodes : Nat) : ∀ (fuel fuel' : Nat) (st : σ) (result : NdArray ℝ)
    (obtained : Nat) (r : NdArray ℝ × σ), fuel ≤ fuel' → randomLoop rng dim nnodes fuel st result obtained = some r →
      randomLoop rng dim nnodes fuel' st result obtained = some r := by
  intro fuel
  induction fuel with
  | zero => intro fuel' st result obtained r _ h; simp [randomLoop] at h
  | succ fuel ih =>
    intro fuel' st result obtained r hle h
    obtain ⟨f, rfl⟩ : ∃ f, fuel' = f + 1 := ⟨fuel' - 1, by omega⟩
    rw [randomLoop] at h ⊢
    split_ifs at h ⊢ with hd
    · exact h
    · exact ih f _ _ _ r (by omega) h

/-- If every requested batch contains an acceptable column, at most `max 1 nnodes` batches are drawn. -/
theorem C46_terminates {σ : Type} (rng : Rng σ) (dim nnodes : Nat)
    (hacc : ∀ st k, 0 < k → acceptedColumns dim k (rng.uniform st dim k).1 ≠ []) (st : σ) :
    ∃ r, randomNodesSimplex rng (nnodes + 1) dim nnodes st = some r := by
  have key : ∀ (fuel : Nat) (st : σ) (result : NdArray ℝ) (obtained : Nat), obtained ≤ nnodes →
      nnodes - obtained < fuel → ∃ r, randomLoop rng dim nnodes fuel st result obtained = some r := by
    intro fuel
    induction fuel with
    | zero => intro st result obtained _ h; omega
    | succ fuel ih =>
      intro st result obtained ho hf
      rw [randomLoop]
      have hlen : (acceptedColumns dim (nnodes - obtained) (rng.uniform st dim (nnodes - obtained)).1).length ≤
          nnodes - obtained := by
        rw [acceptedColumns]
        exact (List.length_filter_le _ _).trans (by simp)
      split_ifs with hd
      · exact ⟨_, rfl⟩
      · have hk : 0 < nnodes - obtained := by omega
        have := List.length_pos_iff.2 (hacc st (nnodes - obtained) hk)
        exact ih _ _ _ (by omega) (by omega)
  exact key (nnodes + 1) st _ 0 (Nat.zero_le _) (by omega)

/-- On segments every column is acceptable: one batch suffices. -/
theorem C46_segment {σ : Type} (rng : Rng σ) (hr : RngOk rng) (nnodes : Nat) (st : σ) :
    ∃ r, randomNodesSimplex rng 1 1 nnodes st = some r := by
  rw [randomNodesSimplex, randomLoop]
  simp only [Nat.sub_zero, Nat.zero_add]
  have : (acceptedColumns 1 nnodes (rng.uniform st 1 nnodes).1).length = nnodes := by
    have h : acceptedColumns 1 nnodes (rng.uniform st 1 nnodes).1 = List.range nnodes := by
      rw [acceptedColumns]
      apply List.filter_eq_self.2
      intro j hj
      simp only [List.range_one, List.map_cons, List.map_nil, List.sum_cons, List.sum_nil, add_zero, Nat.cast_one,
        decide_eq_true_eq]
      linarith [(hr st 1 nnodes 0 j (by omega) (by simpa using hj)).2]
    rw [h, List.length_range]
  rw [if_pos this]
  exact ⟨_, rfl⟩

/-- In two and more dimensions the loop need not end: a generator delivering only the value `1/2` keeps it running. -/
theorem C46_can_hang (dim nnodes fuel : Nat) (hd : 2 ≤ dim) (hn : 0 < nnodes) :
    randomNodesSimplex (⟨fun s _ _ => (fun _ _ => 1 / 2, s)⟩ : Rng Unit) fuel dim nnodes () = none := by
  have hacc : ∀ k, acceptedColumns dim k (fun _ _ => 1 / 2) = [] := by
    intro k
    rw [acceptedColumns]
    apply List.filter_eq_nil_iff.2
    intro j _
    have : (2 : ℝ) ≤ dim := by exact_mod_cast hd
    have hsum : ∀ n : Nat, ((List.range n).map fun _ => (1 / 2 : ℝ)).sum = n / 2 := by
      intro n
      induction n with
      | zero => simp
      | succ n ih =>
        rw [List.range_succ, List.map_append, List.sum_append, ih]
        simp
        ring
    rw [hsum]
    simp only [decide_eq_true_eq, not_lt]
    linarith
  have key : ∀ (fuel : Nat) (result : NdArray ℝ),
      randomLoop (⟨fun s _ _ => (fun _ _ => 1 / 2, s)⟩ : Rng Unit) dim nnodes fuel () result 0 = none := by
    intro fuel
    induction fuel with
    | zero => intro result; rfl
    | succ fuel ih =>
      intro result
      rw [randomLoop]
      simp only [hacc, List.length_nil, Nat.add_zero]
      rw [if_neg (by omega)]
      exact ih _
  exact key fuel _

/-- An instance: the constant generator `-1/3` is in range and yields nodes of the prism. -/
example : RngOk (⟨fun s _ _ => (fun _ _ => -1 / 3, s)⟩ : Rng Unit) ∧
    ∃ r, randomNodesForShape (⟨fun s _ _ => (fun _ _ => -1 / 3, s)⟩ : Rng Unit) 1 0 (.tp [2, 1]) 3 () = some r := by
  refine ⟨fun _ _ _ _ _ _ _ => by norm_num, ?_⟩
  have hacc : ∀ d, d = 1 ∨ d = 2 → acceptedColumns d 3 (fun _ _ => -1 / 3) = List.range 3 := by
    rintro d (rfl | rfl) <;> rw [acceptedColumns] <;> apply List.filter_eq_self.2 <;> intro j _ <;>
      simp [List.range_succ] <;> norm_num
  simp [randomNodesForShape, Shape.flatBases, randomTpLoop, randomNodesSimplex, randomLoop, hacc]

end Modepy

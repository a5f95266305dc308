import Verif.Proofs.Lebesgue

/-!
# Property C73: the estimate of the Lebesgue constant

`estimate_lebesgue_constant(n, nodes, shape)` is the largest value of the Lebesgue function `Σ |ℓ_j|` - `ℓ_j` the Lagrange
polynomials of the nodes in the space of order `n` on the shape - at the points of an equispaced lattice (spacing `2/(30n)`
in two dimensions, `2/(10n)` otherwise) of the shape.
-/

namespace Modepy
open Spec NdArray

/-- The subdivision of the sample lattice (tools.py 317). -/
def Spec.sampleOrder (shape : Shape) (n : Nat) : Nat := (if shape.dim = 2 then 30 else 10) * n

/-- A product shape that can be constructed has zero or at least two factors (one factor yields that factor). -/
def Spec.Constructible (shape : Shape) : Prop := shape.isTP = true → shape.flatBases.length ≠ 1

/-- Order-`n` space and basis of a shape. -/
theorem space_basis (shape : Shape) (hs : Constructible shape) (n : Nat) :
    ∃ space b, Space.forShape shape (.int n) = .ok space ∧ (basisForSpace space shape : Py (Basis ℝ)) = .ok b ∧
      space.spatialDim = shape.dim ∧ space.flatBases = shape.flatBases.map fun d => ⟨d, n⟩ := by
  have key : ∀ l : List Nat, l.length ≠ 1 →
      Space.mkTP (l.map fun d => Space.pn ⟨d, n⟩) = .ok (.tp (l.map fun d => ⟨d, n⟩)) := by
    intro l hl
    have e : ∀ l : List Nat, (l.map fun d => Space.pn ⟨d, n⟩).flatMap Space.flatBases = l.map fun d => ⟨d, n⟩ := by
      intro l
      induction l with
      | nil => rfl
      | cons a l ih => simp [ih, Space.flatBases]
    match l, hl with
    | [], _ => rfl
    | [a], h => simp at h
    | a :: b :: l, _ =>
      show Except.ok (Space.tp _) = _
      rw [← e (a :: b :: l)]
      rfl
  have hsum : ∀ l : List Nat, ((l.map fun d => (⟨d, n⟩ : PNSpace)).map PNSpace.spatialDim).sum = l.sum := by
    intro l
    rw [List.map_map]
    congr 1
    exact List.map_id l
  cases shape with
  | simplex d => exact ⟨_, _, rfl, rfl, rfl, rfl⟩
  | tp ds =>
    have hb : ∃ b, (basisForSpace (.tp (ds.map fun d => ⟨d, n⟩)) (.tp ds) : Py (Basis ℝ)) = .ok b := by
      simp only [basisForSpace, basisForSpaceWith]
      rw [if_neg (by simp only [Space.spatialDim, Space.flatBases, Shape.dim, hsum]; simp),
        if_neg (by simp [Space.flatBases, Shape.flatBases])]
      exact ⟨_, rfl⟩
    obtain ⟨b, hb⟩ := hb
    exact ⟨_, b, key ds (hs rfl), hb, hsum ds, rfl⟩
  | hypercube d =>
    have hb : ∃ b, (basisForSpace (.tp ((List.replicate d 1).map fun d => ⟨d, n⟩)) (.hypercube d) : Py (Basis ℝ)) =
        .ok b := by
      simp only [basisForSpace, basisForSpaceWith]
      rw [if_neg (by simp only [Space.spatialDim, Space.flatBases, Shape.dim, hsum]; simp),
        if_neg (by simp [Space.flatBases, Shape.flatBases])]
      exact ⟨_, rfl⟩
    obtain ⟨b, hb⟩ := hb
    exact ⟨_, b, key _ (hs rfl), hb, hsum _, rfl⟩

theorem forall₂_map_space (shape : Shape) (N : Nat) (parts : List (List Nat)) :
    List.Forall₂ (fun (b : PNSpace) p => p.length = b.spatialDim ∧ p.sum ≤ b.order)
      (shape.flatBases.map fun d => ⟨d, N⟩) parts ↔
    List.Forall₂ (fun d p => p.length = d ∧ p.sum ≤ N) shape.flatBases parts := by
  rw [List.forall₂_map_left_iff]

/-- Everything in `_evaluate_lebesgue_function` up to the matrices. -/
theorem evaluate_eq (shape : Shape) (hs : Constructible shape) (n : Nat) (hn : n ≤ 10 ^ 8) (space : Space)
    (hsp : Space.forShape shape (.int n) = .ok space) (nodes : NdArray ℝ) (m : Nat) (hsh : nodes.shape = [shape.dim, m])
    (hreg : ∀ k < m, RegularFor space (column nodes shape.dim k)) :
    ∃ (C : Matrix (Fin (nodeTuples space).length) (Fin (nodeTuples space).length) ℝ) (pts : List (List ℝ))
      (tuples : List (List Nat)) (A : NdArray ℝ), C.det ≠ 0 ∧ pts ≠ [] ∧
      (∀ x, x ∈ pts ↔ x ∈ lattice shape (sampleOrder shape n)) ∧
      (∃ hsp', Space.forShape shape (.int (sampleOrder shape n)) = .ok hsp' ∧ tuples = nodeTuples hsp') ∧
      evaluateLebesgueFunction n nodes shape =
        match lebesgueRows (nodeTuples space).length
          ((List.range m).map fun k => basisRow (fun l => monomialValue (nodeTuples space)[l]) C (column nodes shape.dim k))
          (pts.map (basisRow (fun l => monomialValue (nodeTuples space)[l]) C)) with
        | .error e => .error e
        | .ok worst => .ok (worst, tuples, A) := by
  obtain ⟨space', b, h1, h2, h3, h4⟩ := space_basis shape hs n
  obtain rfl : space' = space := by rw [h1] at hsp; exact Except.ok.inj hsp
  obtain ⟨hspace, -, hh1, -, hh3, hh4⟩ := space_basis shape hs (sampleOrder shape n)
  obtain ⟨fs, hfs, hfl, C, hC, hv⟩ := C72_basis space' shape b h2
  have hdims : space'.flatBases.map PNSpace.spatialDim = shape.flatBases := by
    rw [h4, List.map_map]; exact List.map_id _
  have hlen := length_nodeTuples space'
  have htl : ∀ t ∈ nodeTuples hspace, t.length = shape.dim := by
    intro t ht
    obtain ⟨parts, hp, rfl⟩ := (mem_nodeTuples _ _).1 ht
    rw [hh4, forall₂_map_space] at hp
    have hd : shape.dim = shape.flatBases.sum := by cases shape <;> simp [Shape.dim, Shape.flatBases]
    rw [hd]
    clear ht hd
    generalize shape.flatBases = ds at hp
    induction hp with
    | nil => simp
    | cons h _ ih => simp [ih, h.1]
  have hne : nodeTuples hspace ≠ [] := by
    have : (nodeTuples hspace) = [] → False := by
      intro h0
      have hmem : (shape.flatBases.map fun d => List.replicate d 0).flatten ∈ nodeTuples hspace := by
        rw [mem_nodeTuples]
        refine ⟨_, ?_, rfl⟩
        rw [hh4, forall₂_map_space, List.forall₂_map_right_iff]
        exact List.forall₂_same.2 fun d _ => by simp
      rw [h0] at hmem
      simp at hmem
    exact this
  have hhead : ((nodeTuples hspace).headD []).length = shape.dim := by
    obtain ⟨t, ts, e⟩ := List.exists_cons_of_ne_nil hne
    rw [e]
    exact htl t (by rw [e]; simp)
  set N := sampleOrder shape n with hN
  have hN10 : N ≤ 10 ^ 10 := by
    rw [hN, sampleOrder]
    split_ifs <;> omega
  -- the sample points
  have hcols : columnsOf (scaledTuples shape.dim N (nodeTuples hspace) : NdArray ℝ) =
      (nodeTuples hspace).map fun t => t.map fun a : Nat => (a : ℝ) / N * 2 - 1 := by
    simp only [columnsOf, scaledTuples, List.getD_cons_zero, List.getD_cons_succ]
    apply List.ext_getElem (by simp)
    intro k hk hk'
    simp only [List.length_map, List.length_range] at hk
    simp only [List.getElem_map, List.getElem_range]
    have hk2 := htl _ (List.getElem_mem hk)
    apply List.ext_getElem (by simp [hk2])
    intro i hi hi'
    simp only [List.length_map, List.length_range] at hi
    simp [List.getD_eq_getElem?_getD, hk, hk2, hi]
  have hpts : ∀ x, x ∈ ((nodeTuples hspace).map fun t => t.map fun a : Nat => (a : ℝ) / N * 2 - 1) ↔ x ∈ lattice shape N := by
    intro x
    rw [List.mem_map]
    constructor
    · rintro ⟨t, ht, rfl⟩
      obtain ⟨parts, hp, rfl⟩ := (mem_nodeTuples _ _).1 ht
      rw [hh4, forall₂_map_space] at hp
      exact ⟨parts, hp, rfl⟩
    · rintro ⟨parts, hp, rfl⟩
      refine ⟨parts.flatten, (mem_nodeTuples _ _).2 ⟨parts, ?_, rfl⟩, rfl⟩
      rw [hh4, forall₂_map_space]
      exact hp
  have hregL : ∀ x ∈ lattice shape N, RegularFor space' x := by
    rintro x ⟨parts, hp, rfl⟩
    refine ⟨?_, ?_⟩
    · have := (hpts _).2 ⟨parts, hp, rfl⟩
      obtain ⟨t, ht, e⟩ := List.mem_map.1 this
      rw [← e, List.length_map, htl t ht, h3]
    · rw [hdims, slices_flatten (P := fun _ p => p.sum ≤ N) _ hp, List.forall₂_map_right_iff]
      exact hp.imp fun d p h => regular_lattice hN10 p h.1 h.2
  -- the Vandermonde matrices
  have hrow : ∀ x, RegularFor space' x → collect (fs.map fun f => f x) =
      .ok (basisRow (fun l => monomialValue (nodeTuples space')[l]) C x) := by
    intro x hx
    have e : fs.map (fun f => f x) = (List.ofFn fun k : Fin (nodeTuples space').length =>
        combine (fun l => monomialValue (nodeTuples space')[l]) (C k) x).map fun a => (Except.ok a : Py ℝ) := by
      apply List.ext_getElem (by simp [hfl, hlen])
      intro k hk hk'
      simp only [List.length_map, List.length_ofFn] at hk hk'
      simp only [List.getElem_map, List.getElem_ofFn]
      exact hv ⟨k, hk'⟩ _ (List.getElem?_eq_getElem hk) x hx
    rw [e, collect_ok]
    rfl
  have hrows : ∀ l : List (List ℝ), (∀ x ∈ l, RegularFor space' x) → vandermondeRows fs l =
      .ok (l.map (basisRow (fun l => monomialValue (nodeTuples space')[l]) C)) := by
    intro l hl
    exact collect_map_of_ok l _ _ fun x hx => hrow x (hl x hx)
  have hnc : columnsOf nodes = (List.range m).map fun k => column nodes shape.dim k := by
    simp [columnsOf, hsh, column]
  refine ⟨C, _, nodeTuples hspace, scaledTuples shape.dim N (nodeTuples hspace), hC, ?_, hpts, ⟨hspace, hh1, rfl⟩, ?_⟩
  · simpa using hne
  · have hN' : (if shape.dim = 2 then 30 else 10) * n = N := rfl
    simp only [evaluateLebesgueFunction, hN', h1, hh1, h2, hhead, hfs, hcols]
    rw [if_neg (by simp [scaledTuples, hsh]), hrows _ (by
      rw [hnc]
      intro x hx
      obtain ⟨k, hk, rfl⟩ := List.mem_map.1 hx
      exact hreg k (List.mem_range.1 hk)), hrows _ fun x hx => hregL x ((hpts x).1 hx)]
    simp only [hnc, List.map_map, hfl, ← hlen]
    rfl

/-- **C73 (rejections).**  Nodes of the wrong dimension. -/
theorem C73_wrong_dimension (n : Nat) (nodes : NdArray ℝ) (shape : Shape) (v : Bool)
    (h : shape.dim ≠ nodes.shape.getD 0 0) : estimateLebesgueConstant n nodes shape v = .error .ValueError := by
  unfold estimateLebesgueConstant
  rw [if_pos h]

/-- **C73 (rejections).**  The number of nodes must be the dimension of the space, and the nodes must determine its
functions. -/
theorem C73_not_unisolvent (shape : Shape) (hs : Constructible shape) (n : Nat) (hn : n ≤ 10 ^ 8) (space : Space)
    (hsp : Space.forShape shape (.int n) = .ok space) (nodes : NdArray ℝ) (m : Nat) (hsh : nodes.shape = [shape.dim, m])
    (hreg : ∀ k < m, RegularFor space (column nodes shape.dim k)) (v : Bool)
    (hu : m ≠ space.spaceDim ∨ m = space.spaceDim ∧
      ¬ Unisolvent (fun l : Fin (nodeTuples space).length => monomialValue (nodeTuples space)[l])
        (fun i : Fin (nodeTuples space).length => column nodes shape.dim i)) :
    estimateLebesgueConstant n nodes shape v = .error .LinAlgError := by
  obtain ⟨C, pts, tuples, A, hC, hne, hpts, -, hev⟩ := evaluate_eq shape hs n hn space hsp nodes m hsh hreg
  have hlen := length_nodeTuples space
  have hrows : lebesgueRows (nodeTuples space).length
      ((List.range m).map fun k => basisRow (fun l => monomialValue (nodeTuples space)[l]) C (column nodes shape.dim k))
      (pts.map (basisRow (fun l => monomialValue (nodeTuples space)[l]) C)) = .error .LinAlgError := by
    rcases hu with hu | ⟨rfl, hu⟩
    · rw [lebesgueRows, if_pos]
      simpa [hlen] using hu
    · rw [← hlen, ← (lebesgueRows_eq (fun l => monomialValue (nodeTuples space)[l]) C hC
        (fun i : Fin (nodeTuples space).length => column nodes shape.dim i) pts).1 hu]
      congr 1
      apply List.ext_getElem <;> simp
  rw [hrows] at hev
  simp [estimateLebesgueConstant, hsh, hev]

/-- **C73 (value).**  For nodes that determine the functions of the space, `ℓ_j` their Lagrange polynomials (in terms of the
monomials of the space, hence independent of the basis): the result is the largest value of the Lebesgue function on the
sample lattice. It is at least one, no more than the true Lebesgue constant of the shape, and the norm of interpolation
on the lattice: the sharp bound of the interpolant of data between `-1` and `1`. -/
theorem C73_value (shape : Shape) (hs : Constructible shape) (n : Nat) (hn : n ≤ 10 ^ 8) (space : Space)
    (hsp : Space.forShape shape (.int n) = .ok space) (nodes : NdArray ℝ)
    (hsh : nodes.shape = [shape.dim, space.spaceDim])
    (hreg : ∀ k < space.spaceDim, RegularFor space (column nodes shape.dim k))
    (ℓ : Fin (nodeTuples space).length → List ℝ → ℝ)
    (hℓ : IsLagrangeBasis (fun l : Fin (nodeTuples space).length => monomialValue (nodeTuples space)[l])
      (fun i : Fin (nodeTuples space).length => column nodes shape.dim i) ℓ) :
    ∃ Λ, estimateLebesgueConstant n nodes shape false = .ok Λ ∧
      IsGreatest {v | ∃ x ∈ lattice shape (sampleOrder shape n), v = ∑ j, |ℓ j x|} Λ ∧
      1 ≤ Λ ∧
      (∀ M, (∀ x, InShape shape x → ∑ j, |ℓ j x| ≤ M) → Λ ≤ M) ∧
      IsGreatest {v | ∃ x ∈ lattice shape (sampleOrder shape n), ∃ y : Fin (nodeTuples space).length → ℝ,
        (∀ j, |y j| ≤ 1) ∧ v = |∑ j, y j * ℓ j x|} Λ ∧
      (shape.dim = 1 → estimateLebesgueConstant n nodes shape true = .ok Λ) ∧
      (shape.dim ≠ 1 → shape.dim ≠ 2 → estimateLebesgueConstant n nodes shape true = .error .ValueError) ∧
      (shape.dim = 2 → ∀ hsp' mesh, Space.forShape shape (.int (30 * n)) = .ok hsp' →
        submeshForShape shape (nodeTuples hsp') = .ok mesh → estimateLebesgueConstant n nodes shape true = .ok Λ) := by
  obtain ⟨C, pts, tuples, A, hC, hne, hpts, ⟨hspace, hh1, htup⟩, hev⟩ :=
    evaluate_eq shape hs n hn space hsp nodes _ hsh hreg
  have hlen := length_nodeTuples space
  have hrows : lebesgueRows (nodeTuples space).length
      ((List.range space.spaceDim).map fun k =>
        basisRow (fun l => monomialValue (nodeTuples space)[l]) C (column nodes shape.dim k))
      (pts.map (basisRow (fun l => monomialValue (nodeTuples space)[l]) C)) = .ok (pts.map fun x => ∑ j, |ℓ j x|) := by
    rw [← hlen, ← (lebesgueRows_eq (fun l => monomialValue (nodeTuples space)[l]) C hC
      (fun i : Fin (nodeTuples space).length => column nodes shape.dim i) pts).2 ℓ hℓ]
    congr 1
    apply List.ext_getElem <;> simp
  rw [hrows] at hev
  obtain ⟨Λ, hΛ, hmem, hmax⟩ := npMax_spec (pts.map fun x => ∑ j, |ℓ j x|) (by simpa using hne)
  obtain ⟨x₀, hx₀, hΛx⟩ := List.mem_map.1 hmem
  have hx₀L := (hpts x₀).1 hx₀
  have hle : ∀ x ∈ lattice shape (sampleOrder shape n), ∑ j, |ℓ j x| ≤ Λ := fun x hx =>
    hmax _ (List.mem_map.2 ⟨x, (hpts x).2 hx, rfl⟩)
  -- constants are reproduced
  have hone : ∀ x, x.length = shape.dim → ∑ j, ℓ j x = 1 := by
    obtain ⟨space', -, h1, -, h3, h4⟩ := space_basis shape hs n
    obtain rfl : space' = space := by rw [h1] at hsp; exact Except.ok.inj hsp
    have hmem : (shape.flatBases.map fun d => List.replicate d 0).flatten ∈ nodeTuples space' := by
      rw [mem_nodeTuples]
      refine ⟨_, ?_, rfl⟩
      rw [h4, forall₂_map_space, List.forall₂_map_right_iff]
      exact List.forall₂_same.2 fun d _ => by simp
    obtain ⟨l0, hl0, e0⟩ := List.getElem_of_mem hmem
    have hmono : ∀ x : List ℝ, monomialValue (nodeTuples space')[l0] x = 1 := by
      intro x
      rw [e0]
      have hz : ∀ a ∈ (shape.flatBases.map fun d => List.replicate d 0).flatten, a = 0 := by
        intro a ha
        obtain ⟨l, hl, ha⟩ := List.mem_flatten.1 ha
        obtain ⟨d, -, rfl⟩ := List.mem_map.1 hl
        exact List.eq_of_mem_replicate ha
      generalize (shape.flatBases.map fun d => List.replicate d 0).flatten = t at hz
      clear e0 hmem
      induction t generalizing x with
      | nil => simp [monomialValue]
      | cons a t ih =>
        rcases x with _ | ⟨y, x⟩
        · simp [monomialValue]
        · have := ih x fun a ha => hz a (by simp [ha])
          simp only [monomialValue, List.zipWith_cons_cons, List.prod_cons] at this ⊢
          rw [this, hz a (by simp)]
          simp
    obtain ⟨D, hD, hδ⟩ := hℓ
    have h1' : Matrix.of D * (vandermonde (fun l : Fin (nodeTuples space').length => monomialValue (nodeTuples space')[l])
        (fun i : Fin (nodeTuples space').length => column nodes shape.dim i)).transpose = 1 := by
      ext i j
      rw [Matrix.one_apply, ← hδ i j, hD i]
      simp [Matrix.mul_apply, vandermonde, combine]
    have h2' := mul_eq_one_comm.1 h1'
    intro x _
    have e : ∀ l : Fin (nodeTuples space').length, ∑ j, D j l = if (l : Nat) = l0 then 1 else 0 := by
      intro l
      have := congrFun (congrFun h2' ⟨l0, hl0⟩) l
      rw [Matrix.mul_apply, Matrix.one_apply] at this
      simp only [Matrix.transpose_apply, vandermonde, Matrix.of_apply, Fin.getElem_fin, hmono, one_mul] at this
      rw [this]
      simp [Fin.ext_iff, eq_comm]
    simp only [hD, combine]
    rw [Finset.sum_comm]
    simp only [← Finset.sum_mul, e]
    rw [Finset.sum_eq_single ⟨l0, hl0⟩]
    · simp [hmono]
    · intro l _ hl
      rw [if_neg fun h => hl (Fin.ext h), zero_mul]
    · simp
  have hxlen : x₀.length = shape.dim := by
    obtain ⟨parts, hp, rfl⟩ := hx₀L
    have hd : shape.dim = shape.flatBases.sum := by cases shape <;> simp [Shape.dim, Shape.flatBases]
    rw [hd, List.length_map]
    clear hx₀ hd hΛx hmem
    generalize shape.flatBases = ds at hp
    induction hp with
    | nil => simp
    | cons h _ ih => simp [ih, h.1]
  have hin : InShape shape x₀ := by
    obtain ⟨parts, hp, rfl⟩ := hx₀L
    exact inShape_of_inProduct _ _ (inProduct_lattice hp)
  refine ⟨Λ, ?_, ⟨⟨x₀, hx₀L, hΛx.symm⟩, ?_⟩, ?_, ?_, ⟨⟨x₀, hx₀L, fun j => SignType.sign (ℓ j x₀), ?_, ?_⟩, ?_⟩, ?_, ?_, ?_⟩
  · simp [estimateLebesgueConstant, hsh, hev, hΛ]
  · rintro v ⟨x, hx, rfl⟩
    exact hle x hx
  · rw [← hΛx, ← hone x₀ hxlen]
    exact Finset.sum_le_sum fun j _ => le_abs_self _
  · intro M hM
    rw [← hΛx]
    exact hM x₀ hin
  · intro j
    rcases lt_trichotomy (ℓ j x₀) 0 with h | h | h <;> simp [h]
  · rw [← hΛx]
    have : ∀ j, ((SignType.sign (ℓ j x₀) : SignType) : ℝ) * ℓ j x₀ = |ℓ j x₀| := fun j => sign_mul_self _
    simp only [this]
    rw [abs_of_nonneg (Finset.sum_nonneg fun j _ => abs_nonneg _)]
  · rintro v ⟨x, hx, y, hy, rfl⟩
    refine (Finset.abs_sum_le_sum_abs _ _).trans ((Finset.sum_le_sum fun j _ => ?_).trans (hle x hx))
    rw [abs_mul]
    exact mul_le_of_le_one_left (abs_nonneg _) (hy j)
  · intro h
    simp [estimateLebesgueConstant, hsh, hev, hΛ, h]
  · intro h1 h2
    simp [estimateLebesgueConstant, hsh, hev, hΛ, h1, h2]
  · intro h2 hsp' mesh hsp'' hmesh
    rw [sampleOrder, if_pos h2, hsp''] at hh1
    obtain rfl := Except.ok.inj hh1
    rw [← htup] at hmesh
    simp [estimateLebesgueConstant, hsh, hev, hΛ, h2, hmesh]

/-- **C73 (existence).**  The Lagrange polynomials exist if and only if the nodes are unisolvent. -/
theorem C73_lagrange_exists {n : Nat} (φ : Fin n → List ℝ → ℝ) (nodes : Fin n → List ℝ) :
    (∃ ℓ, IsLagrangeBasis φ nodes ℓ) ↔ Unisolvent φ nodes := by
  refine ⟨?_, lagrange_exists φ nodes⟩
  rintro ⟨ℓ, D, hD, hδ⟩
  rw [unisolvent_iff_det]
  intro h0
  have h1 : Matrix.of D * (vandermonde φ nodes).transpose = 1 := by
    ext i j
    rw [Matrix.one_apply, ← hδ i j, hD i]
    simp [Matrix.mul_apply, vandermonde, combine]
  have := congrArg Matrix.det h1
  rw [Matrix.det_mul, Matrix.det_transpose, h0, mul_zero, Matrix.det_one] at this
  exact zero_ne_one this

/-- The Lagrange polynomials of the end points of the interval. -/
theorem hat_lagrange (T : List (List Nat)) (hT : T = [[0], [1]]) :
    ∃ ℓ, IsLagrangeBasis (fun l : Fin T.length => monomialValue T[l])
      (fun i : Fin T.length => [if (i : Nat) = 0 then (-1 : ℝ) else 1]) ℓ ∧
      ∀ y : ℝ, -1 ≤ y → y ≤ 1 → ∑ j, |ℓ j [y]| = 1 := by
  subst hT
  refine ⟨fun j => combine _ fun l => if (j : Nat) = 0 ∧ (l : Nat) = 1 then -1 / 2 else 1 / 2, ⟨_, fun _ => rfl, ?_⟩, ?_⟩
  · show ∀ i j : Fin 2, _
    intro i j
    fin_cases i <;> fin_cases j <;> simp [combine, monomialValue] <;> norm_num
  · intro y h1 h2
    simp [combine, monomialValue]
    rw [abs_of_nonneg (by linarith), abs_of_nonneg (by linarith)]
    ring

/-- Non-vacuity: the two end points of the interval at order one have Lebesgue constant one. -/
example : estimateLebesgueConstant 1 ⟨[1, 2], fun idx => if idx = [0, 0] then -1 else 1⟩ (.simplex 1) false = .ok 1 := by
  have hcol : ∀ k : Nat, column (⟨[1, 2], fun idx => if idx = [0, 0] then -1 else 1⟩ : NdArray ℝ) 1 k =
      [if k = 0 then -1 else 1] := by intro k; simp [column]
  obtain ⟨ℓ, hℓ, hval⟩ := hat_lagrange (nodeTuples (.pn ⟨1, 1⟩)) (by decide)
  obtain ⟨Λ, h1, ⟨⟨x, ⟨parts, hp, rfl⟩, hx⟩, -⟩, -⟩ := C73_value (.simplex 1) (by simp [Constructible, Shape.isTP]) 1
    (by norm_num) (.pn ⟨1, 1⟩) rfl ⟨[1, 2], fun idx => if idx = [0, 0] then -1 else 1⟩
    (by simp [Shape.dim, Space.spaceDim, PNSpace.spaceDim])
    (by intro k _; rw [Shape.dim, hcol]; exact ⟨rfl, by simp [Space.flatBases, slices, Regular]⟩)
    ℓ (by simp only [Shape.dim, hcol]; exact hℓ)
  rw [h1, hx]
  simp only [Shape.flatBases] at hp
  rcases hp with _ | ⟨⟨hl, hs⟩, hn⟩
  cases hn
  obtain ⟨a, rfl⟩ := List.length_eq_one_iff.1 hl
  have ha : (a : ℝ) ≤ 10 := by
    have : a ≤ 10 := by simpa [sampleOrder, Shape.dim] using hs
    exact_mod_cast this
  have e : (sampleOrder (.simplex 1) 1 : ℝ) = 10 := by simp [sampleOrder, Shape.dim]
  have := Nat.cast_nonneg (α := ℝ) a
  congr 1
  refine hval _ ?_ ?_ <;> rw [e] <;> linarith

end Modepy

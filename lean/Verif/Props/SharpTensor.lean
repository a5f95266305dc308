import Verif.Props.Sharp
import Verif.Props.ConvergenceCube

/-!
# Property C89: the exact degree of the tensor product rules
-/

namespace Modepy
open Spec Quadrature

/-- A power of a rule exact to degree `D` integrates single powers of the first coordinate to that degree only if the rule does. -/
theorem tensor_power_degree (q : Quadrature) (m D dims : Nat) (hd : 1 ≤ dims) (e : ℚ) (he : q.exactTo = some (.num e))
    (hsn : q.nodes.shape = [1, m]) (hsw : q.weights.shape = [m]) (h1 : ExactOn 0 (-1) 1 q.call) :
    ∃ Q, tensorProduct (List.replicate dims q) = .ok Q ∧ (ExactTo dims D Q.call (cubeIntegral dims) → ExactOn D (-1) 1 q.call) := by
  have hws : WellShaped q := ⟨m, hsw, Or.inr ⟨1, hsn⟩⟩
  have hdim : q.dim = 1 := by simp [dim, hsn]
  obtain ⟨r, hr⟩ := minExact_replicate dims e
  obtain ⟨Q, hQ, -, -, -, -, -, -, hcall⟩ := C34_iterated (List.replicate dims q) (fun q' h => by rw [List.eq_of_mem_replicate h]; exact hws)
    (by
      intro h
      rw [List.map_replicate, hdim] at h
      have : dims = 0 := by simpa using h
      omega) r (by rw [List.map_replicate, he]; exact hr)
  refine ⟨Q, hQ, fun hex => ?_⟩
  have hone : q.call (fun _ => 1) = 2 := by
    have := h1 1 (by simp)
    simp only [Polynomial.eval_one] at this
    rw [this]
    norm_num
  have hconst : ∀ c : ℝ, q.call (fun _ => c) = 2 * c := by
    intro c
    have := (call_isFunctional q hws).smul c fun _ => 1
    simp only [one_mul] at this
    rw [this, hone]
  -- powers of the first coordinate
  have hit : ∀ n (c : ℝ), iterated (List.replicate n q.call) (fun _ => c) = 2 ^ n * c := by
    intro n
    induction n with
    | zero => intro c; simp [iterated]
    | succ n ih =>
      intro c
      rw [List.replicate_succ, iterated]
      simp only [ih, hconst]
      ring
  have hpow : ∀ j ≤ D, q.call (fun x => x.headD 0 ^ j) = ∫ t in (-1 : ℝ)..1, t ^ j := by
    intro j hj
    obtain ⟨n, rfl⟩ : ∃ n, dims = n + 1 := ⟨dims - 1, by omega⟩
    have h2 := hex (j :: List.replicate n 0) (by simp) (by simpa using hj)
    have hint : cubeIntegral (n + 1) (power (j :: List.replicate n 0)) = (∫ t in (-1 : ℝ)..1, t ^ j) * 2 ^ n := by
      have := cubeIntegral_power (j :: List.replicate n 0)
      simp only [List.length_cons, List.length_replicate] at this
      rw [this]
      simp
      norm_num
    rw [hint, hcall, List.map_replicate, List.replicate_succ, iterated] at h2
    have hp : ∀ x : List ℝ, x.length = q.dim → iterated (List.replicate n q.call) (fun y => power (j :: List.replicate n 0) (x ++ y)) =
        x.headD 0 ^ j * 2 ^ n := by
      intro x hx
      rw [hdim] at hx
      obtain ⟨t, rfl⟩ := List.length_eq_one_iff.1 hx
      have : ∀ y : List ℝ, power (j :: List.replicate n 0) ([t] ++ y) = t ^ j := by
        intro y
        simp only [power, List.singleton_append, List.zipWith_cons_cons, List.prod_cons]
        rw [List.prod_eq_one, mul_one]
        intro v hv
        obtain ⟨i, hi, rfl⟩ := List.getElem_of_mem hv
        simp
      simp only [this, hit, List.headD_cons]
      ring
    rw [(call_isFunctional q hws).congr _ _ hp, (call_isFunctional q hws).smul] at h2
    exact mul_right_cancel₀ (by positivity) h2
  intro p hp
  have e1 : ∀ t : ℝ, p.eval t = ∑ j ∈ Finset.range (D + 1), p.coeff j * t ^ j := fun t =>
    Polynomial.eval_eq_sum_range' (by omega) t
  simp only [e1]
  rw [intervalIntegral.integral_finset_sum fun j _ => ((by fun_prop : Continuous fun t : ℝ => p.coeff j * t ^ j).intervalIntegrable _ _)]
  have e2 : q.call (fun x => ∑ j ∈ Finset.range (D + 1), p.coeff j * x.headD 0 ^ j) =
      ∑ j ∈ Finset.range (D + 1), p.coeff j * q.call (fun x => x.headD 0 ^ j) := by
    simp only [Quadrature.call, sum_map_range_real, Finset.mul_sum]
    rw [Finset.sum_comm]
    exact Finset.sum_congr rfl fun j _ => Finset.sum_congr rfl fun k _ => by ring
  rw [e2]
  refine Finset.sum_congr rfl fun j hj => ?_
  rw [hpow j (by have := Finset.mem_range.1 hj; omega), intervalIntegral.integral_const_mul]

/-- **C89 (tensor products).**  In every dimension `dims ≥ 1` the tensor product Gauss rule is exact to total degree `2N + 1` but not
`2N + 2`, the Gauss–Lobatto one to `2N - 1` but not `2N`. -/
theorem C89_tensor (ext : Ext) (hext : ext.EighOk) (dims : Nat) (hd : 1 ≤ dims) (N : Nat) :
    (∃ Q, legendreGaussTensorProduct ext N dims .builtin = .ok Q ∧ ExactTo dims (2 * N + 1) Q.call (cubeIntegral dims) ∧
      ¬ ExactTo dims (2 * N + 2) Q.call (cubeIntegral dims)) ∧
    (1 ≤ N → ∃ Q, legendreGaussLobattoTensorProduct ext N dims .builtin = .ok Q ∧
      ExactTo dims (2 * N - 1) Q.call (cubeIntegral dims) ∧ ¬ ExactTo dims (2 * N) Q.call (cubeIntegral dims)) := by
  have hget : ∀ (q : Quadrature) (v : PyVal), q.getExactTo = .ok v → q.exactTo = some v := by
    intro q v h
    rw [getExactTo] at h
    cases he : q.exactTo with
    | none => rw [he] at h; simp at h
    | some e => rw [he] at h; simpa using h
  have hmono : ∀ {D D' : Nat} {Q : (List ℝ → ℝ) → ℝ}, D' ≤ D → ExactOn D (-1) 1 Q → ExactOn D' (-1) 1 Q :=
    fun hD h p hp => h p (hp.trans hD)
  -- exactness of powers
  have hexact : ∀ (q Q : Quadrature) (m D : Nat), q.nodes.shape = [1, m] → q.weights.shape = [m] → ExactOn D (-1) 1 q.call →
      tensorProduct (List.replicate dims q) = .ok Q → ExactTo dims D Q.call (cubeIntegral dims) := by
    intro q Q m D hsn hsw hex hQ
    have hws : WellShaped q := ⟨m, hsw, Or.inr ⟨1, hsn⟩⟩
    have hdim : q.dim = 1 := by simp [dim, hsn]
    have hdims : (List.replicate dims q).map dim = List.replicate dims 1 := by rw [List.map_replicate, hdim]
    have hz : ((List.replicate dims q).map dim).sum = 0 → ((List.replicate dims q).map nnodes).prod = 1 := by
      intro h
      rw [hdims] at h
      have : dims = 0 := by simpa using h
      omega
    have := (C34_exact (List.replicate dims q) (fun q' h => by rw [List.eq_of_mem_replicate h]; exact hws)
      (List.replicate dims lineInt) (by
        rw [hdims, List.forall₂_iff_get]
        refine ⟨by simp, fun i h1 h2 => ?_⟩
        simp only [List.get_eq_getElem, List.getElem_replicate]
        exact lineInt_functional) (List.replicate dims D) (by simp) (by
          intro i hi
          simp only [List.getElem_replicate]
          intro a ha hs
          rw [hdim] at ha
          obtain ⟨k, rfl⟩ := List.length_eq_one_iff.1 ha
          have := hex (Polynomial.X ^ k) (by simpa using hs)
          simp only [Polynomial.eval_pow, Polynomial.eval_X] at this
          rw [(call_isFunctional _ hws).congr (power [k]) (fun x => x.headD 0 ^ k) (fun x hx => by
            rw [hdim] at hx
            obtain ⟨t, rfl⟩ := List.length_eq_one_iff.1 hx
            simp [power]), this, lineInt]
          simp [power]) Q hQ hz).2 D (by
            intro i hi
            simp)
    rw [hdims, List.sum_replicate, smul_eq_mul, mul_one] at this
    intro a ha hs
    rw [this a ha hs, ← ha, cubeIntegral_power]
    have h2 := iterated_lineInt a 1
    simp only [one_mul] at h2
    exact h2
  constructor
  · obtain ⟨q, hq, he, hex, hsn, hsw, -⟩ := C27_exact ext hext 0 0 gaussParams_zero N true
    obtain ⟨q', hq', -, hdeg⟩ := C89_gauss ext hext N true
    obtain rfl : q = q' := by
      rw [legendreGaussQuadrature, hq] at hq'
      injection hq'
    obtain ⟨Q, hQ, himp⟩ := tensor_power_degree q (N + 1) (2 * N + 2) dims hd _ (hget q _ he) hsn hsw (hmono (by omega) hdeg.1)
    exact ⟨Q, by rw [legendreGaussTensorProduct, legendreGaussQuadrature, hq]; exact hQ, hexact q Q _ _ hsn hsw hdeg.1 hQ,
      fun h => hdeg.2 (himp h)⟩
  · intro hN
    obtain ⟨q, hq, he, -, hsn, hsw, -⟩ := C29_legendre ext hext N hN true
    obtain ⟨q', hq', -, hdeg⟩ := C89_lobatto ext hext N hN true
    obtain rfl : q = q' := by
      rw [hq] at hq'
      injection hq'
    obtain ⟨Q, hQ, himp⟩ := tensor_power_degree q (N + 1) (2 * N) dims hd _ (hget q _ he) hsn hsw (hmono (by omega) hdeg.1)
    refine ⟨Q, by rw [legendreGaussLobattoTensorProduct, hq]; exact hQ, hexact q Q _ _ hsn hsw hdeg.1 hQ, fun h => hdeg.2 ?_⟩
    rw [Nat.sub_add_cancel (by omega)]
    exact himp h

/-- An instance: the one-point rule in five dimensions is exact for linear but not for quadratic functions. -/
example (ext : Ext) (hext : ext.EighOk) : ∃ Q, legendreGaussTensorProduct ext 0 5 .builtin = .ok Q ∧
    ExactTo 5 1 Q.call (cubeIntegral 5) ∧ ¬ ExactTo 5 2 Q.call (cubeIntegral 5) :=
  (C89_tensor ext hext 5 (by omega) 0).1

end Modepy

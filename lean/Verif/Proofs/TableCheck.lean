import Verif.Props.MonomialTools
import Verif.Model.TableRules
import Mathlib.Algebra.Order.BigOperators.Group.Finset
import Mathlib.Algebra.BigOperators.Ring.Finset
import Mathlib.Algebra.Order.Field.Basic

/-!
# A checker for tabulated rules

`Table.check` compares all moments of a rule, given by natural numbers over common denominators, with the exact
integrals.  It uses nothing but operations on natural numbers which the kernel evaluates quickly, so that complete
tables can be checked by evaluation.  This file proves that it means what it should.
-/

namespace Modepy.Table
noncomputable section

/-- Rules with up to three coordinates: weights and coordinates as numerators. -/
inductive PL where
  | nil
  | cons (w p q r : Nat) (t : PL)

/-- An affine function with rational coefficients, rounded down. -/
structure Aff where
  c0 : Int
  cx : Int
  cy : Int
  cz : Int
  k : Nat

def Aff.num (A : Aff) (x y z : Int) : Int := A.c0 + A.cx * x + A.cy * y + A.cz * z

def Aff.approx (A : Aff) (x y z : Int) : Nat := (A.num x y z / (A.k : Int)).toNat

/-- How to convert the entries of a table to numerators over `E` (weights) and `D` (coordinates). -/
structure Scaling where
  D : Nat
  E : Nat
  cw : Int
  kw : Nat
  p : Aff
  q : Aff
  r : Aff

def Scaling.wt (A : Scaling) (w : Int) : Nat := (A.cw * w / (A.kw : Int)).toNat

def conv (A : Scaling) : List Int → List Int → List Int → List Int → PL
  | [], _, _, _ => .nil
  | w :: ws, xs, ys, zs =>
      .cons (A.wt w) (A.p.approx (xs.headD 0) (ys.headD 0) (zs.headD 0))
        (A.q.approx (xs.headD 0) (ys.headD 0) (zs.headD 0)) (A.r.approx (xs.headD 0) (ys.headD 0) (zs.headD 0))
        (conv A ws xs.tail ys.tail zs.tail)

def near (x y t : Nat) : Bool := and (Nat.ble x (Nat.add y t)) (Nat.ble y (Nat.add x t))

def fact (n : Nat) : Nat := Nat.rec (motive := fun _ => Nat) 1 (fun n ih => Nat.mul (Nat.succ n) ih) n

def sumP (l : PL) (a b c : Nat) : Nat :=
  PL.rec (motive := fun _ => Nat) 0 (fun w p q r _ ih =>
    Nat.add (Nat.mul w (Nat.mul (Nat.pow p a) (Nat.mul (Nat.pow q b) (Nat.pow r c)))) ih) l

def allP (f : Nat → Nat → Nat → Nat → Bool) (l : PL) : Bool :=
  PL.rec (motive := fun _ => Bool) true (fun w p q r _ ih => and (f w p q r) ih) l

def allTo (f : Nat → Bool) (N : Nat) : Bool :=
  Nat.rec (motive := fun _ => Bool) (f 0) (fun k ih => and (f (Nat.succ k)) ih) N

/-- The sum `s / (E D^(a+b+c))` differs from `num/den` by at most `tn/td`. -/
def momentTest (D E tn td num den k s : Nat) : Bool :=
  near (Nat.mul td (Nat.mul s den)) (Nat.mul td (Nat.mul num (Nat.mul E (Nat.pow D k))))
    (Nat.mul tn (Nat.mul den (Nat.mul E (Nat.pow D k))))

/-- All moments with `a + b + c ≤ N` and `c ≤ M`. -/
def check (num den : Nat → Nat → Nat → Nat) (D E tn td N M : Nat) (l : PL) : Bool :=
  allTo (fun a => allTo (fun b => allTo (fun c =>
    momentTest D E tn td (num a b c) (den a b c) (Nat.add a (Nat.add b c)) (sumP l a b c))
      (Nat.min M (Nat.sub (Nat.sub N a) b))) (Nat.sub N a)) N

/-- Integrals of `u^a v^b w^c` over the bi-unit simplex of dimension `d`, `u = (1+x)/2` etc. -/
def simplexNum (d a b c : Nat) : Nat := Nat.mul (Nat.pow 2 d) (Nat.mul (fact a) (Nat.mul (fact b) (fact c)))

def simplexDen (d a b c : Nat) : Nat := fact (Nat.add (Nat.add a (Nat.add b c)) d)

/-- Integrals of `u^a v^b w^c` over the cube `[-1,1]^d`. -/
def cubeNum (d : Nat) (_ _ _ : Nat) : Nat := Nat.pow 2 d

def cubeDen (a b c : Nat) : Nat := Nat.mul (Nat.succ a) (Nat.mul (Nat.succ b) (Nat.succ c))

/-- Weights above the margin, points at least the margin inside the simplex. -/
def insideSimplex (D m w p q r : Nat) : Bool :=
  and (Nat.ble (Nat.succ m) w) (and (Nat.ble m p) (and (Nat.ble m q) (and (Nat.ble m r)
    (Nat.ble (Nat.add (Nat.add p (Nat.add q r)) (Nat.mul 3 m)) D))))

def insideCube (D w p q r : Nat) : Bool :=
  and (Nat.ble 1 w) (and (Nat.ble p D) (and (Nat.ble q D) (Nat.ble r D)))

/-! ## Meaning -/

theorem fact_eq (n : Nat) : fact n = n.factorial := by
  induction n with
  | zero => rfl
  | succ n ih => rw [Nat.factorial_succ, ← ih]; rfl

theorem allTo_spec {f : Nat → Bool} {N : Nat} (h : allTo f N = true) : ∀ k ≤ N, f k = true := by
  induction N with
  | zero => intro k hk; rw [Nat.le_zero.mp hk]; exact h
  | succ N ih =>
    have h' : and (f (N + 1)) (allTo f N) = true := h
    rw [Bool.and_eq_true] at h'
    intro k hk
    rcases Nat.lt_or_ge k (N + 1) with hlt | hge
    · exact ih h'.2 k (by omega)
    · rw [show k = N + 1 by omega]; exact h'.1

/-- The summands of a converted table. -/
def wHat (A : Scaling) (ws : List Int) (k : Nat) : Nat := A.wt (ws.getD k 0)
def cHat (B : Aff) (xs ys zs : List Int) (k : Nat) : Nat := B.approx (xs.getD k 0) (ys.getD k 0) (zs.getD k 0)

theorem getD_tail (l : List Int) (k : Nat) : l.tail.getD k 0 = l.getD (k + 1) 0 := by
  cases l <;> simp

theorem headD_getD (l : List Int) : l.headD 0 = l.getD 0 0 := by
  cases l <;> simp

theorem sumP_conv (A : Scaling) (a b c : Nat) : ∀ ws xs ys zs : List Int,
    sumP (conv A ws xs ys zs) a b c = ∑ k ∈ Finset.range ws.length,
      wHat A ws k * (cHat A.p xs ys zs k ^ a * (cHat A.q xs ys zs k ^ b * cHat A.r xs ys zs k ^ c)) := by
  intro ws
  induction ws with
  | nil => intro xs ys zs; rfl
  | cons w ws ih =>
    intro xs ys zs
    rw [List.length_cons, Finset.sum_range_succ']
    have h := ih xs.tail ys.tail zs.tail
    have e : sumP (conv A (w :: ws) xs ys zs) a b c =
      A.wt w * (A.p.approx (xs.headD 0) (ys.headD 0) (zs.headD 0) ^ a *
        (A.q.approx (xs.headD 0) (ys.headD 0) (zs.headD 0) ^ b *
          A.r.approx (xs.headD 0) (ys.headD 0) (zs.headD 0) ^ c)) +
      sumP (conv A ws xs.tail ys.tail zs.tail) a b c := rfl
    rw [e, h, add_comm]
    congr 1
    · refine Finset.sum_congr rfl fun k _ => ?_
      simp only [wHat, cHat, getD_tail, List.getD_cons_succ]
    · simp only [wHat, cHat, headD_getD, List.getD_cons_zero]

theorem allP_conv (A : Scaling) (f : Nat → Nat → Nat → Nat → Bool) : ∀ ws xs ys zs : List Int,
    allP f (conv A ws xs ys zs) = true → ∀ k < ws.length,
      f (wHat A ws k) (cHat A.p xs ys zs k) (cHat A.q xs ys zs k) (cHat A.r xs ys zs k) = true := by
  intro ws
  induction ws with
  | nil => intro xs ys zs _ k hk; simp at hk
  | cons w ws ih =>
    intro xs ys zs h k hk
    have e : allP f (conv A (w :: ws) xs ys zs) =
      and (f (A.wt w) (A.p.approx (xs.headD 0) (ys.headD 0) (zs.headD 0))
        (A.q.approx (xs.headD 0) (ys.headD 0) (zs.headD 0)) (A.r.approx (xs.headD 0) (ys.headD 0) (zs.headD 0)))
        (allP f (conv A ws xs.tail ys.tail zs.tail)) := rfl
    rw [e, Bool.and_eq_true] at h
    cases k with
    | zero => simpa only [wHat, cHat, headD_getD, List.getD_cons_zero] using h.1
    | succ k =>
      have := ih xs.tail ys.tail zs.tail h.2 k (by simpa using hk)
      simpa only [wHat, cHat, getD_tail, List.getD_cons_succ] using this

theorem near_spec {x y t : Nat} (h : near x y t = true) : |(x : ℝ) - y| ≤ t := by
  rw [near, Bool.and_eq_true] at h
  have h1 : x ≤ y + t := Nat.le_of_ble_eq_true h.1
  have h2 : y ≤ x + t := Nat.le_of_ble_eq_true h.2
  have h1' : (x : ℝ) ≤ y + t := by exact_mod_cast h1
  have h2' : (y : ℝ) ≤ x + t := by exact_mod_cast h2
  rw [abs_le]; constructor <;> linarith

theorem momentTest_spec {D E tn td num den k s : Nat} (hD : 0 < D) (hE : 0 < E) (htd : 0 < td) (hden : 0 < den)
    (h : momentTest D E tn td num den k s = true) :
    |(s : ℝ) / (E * D ^ k) - num / den| ≤ tn / td := by
  have h' := near_spec h
  have e1 : ((Nat.mul td (Nat.mul s den) : Nat) : ℝ) = td * (s * den) := by push_cast [Nat.mul_eq]; ring
  have e2 : ((Nat.mul td (Nat.mul num (Nat.mul E (Nat.pow D k))) : Nat) : ℝ) = td * (num * (E * D ^ k)) := by
    have : Nat.pow D k = D ^ k := rfl
    push_cast [Nat.mul_eq, this]; ring
  have e3 : ((Nat.mul tn (Nat.mul den (Nat.mul E (Nat.pow D k))) : Nat) : ℝ) = tn * (den * (E * D ^ k)) := by
    have : Nat.pow D k = D ^ k := rfl
    push_cast [Nat.mul_eq, this]; ring
  rw [e1, e2, e3] at h'
  have hD' : (0 : ℝ) < D := by exact_mod_cast hD
  have hE' : (0 : ℝ) < E := by exact_mod_cast hE
  have htd' : (0 : ℝ) < td := by exact_mod_cast htd
  have hden' : (0 : ℝ) < den := by exact_mod_cast hden
  have hP : (0 : ℝ) < E * D ^ k := by positivity
  have hM : (0 : ℝ) < td * den * (E * D ^ k) := by positivity
  have e4 : (s : ℝ) / (E * D ^ k) - num / den =
      (td * (s * den) - td * (num * (E * D ^ k))) / (td * den * (E * D ^ k)) := by
    field_simp
  rw [e4, abs_div, abs_of_pos hM, div_le_div_iff₀ hM htd']
  calc _ ≤ (tn : ℝ) * (den * (E * D ^ k)) * td := by gcongr
    _ = _ := by ring

theorem check_spec {num den : Nat → Nat → Nat → Nat} {D E tn td N M : Nat} {l : PL} (hD : 0 < D) (hE : 0 < E)
    (htd : 0 < td) (hden : ∀ a b c, 0 < den a b c) (h : check num den D E tn td N M l = true) (a b c : Nat)
    (habc : a + b + c ≤ N) (hc : c ≤ M) :
    |(sumP l a b c : ℝ) / (E * D ^ (a + (b + c))) - num a b c / den a b c| ≤ tn / td := by
  have h1 := allTo_spec h a (by omega)
  have h2 := allTo_spec h1 b (show b ≤ N - a by omega)
  have h3 := allTo_spec h2 c (show c ≤ min M (N - a - b) by omega)
  exact momentTest_spec hD hE htd (hden a b c) h3

theorem simplexDen_pos (d a b c : Nat) : 0 < simplexDen d a b c := by
  rw [simplexDen, fact_eq]; exact Nat.factorial_pos _

theorem cubeDen_pos (a b c : Nat) : 0 < cubeDen a b c := by
  have : cubeDen a b c = (a + 1) * ((b + 1) * (c + 1)) := rfl
  rw [this]; positivity

/-! ## Perturbations -/

theorem abs_pow_sub_le {x y : ℝ} (hx : 0 ≤ x) (hx1 : x ≤ 1) (hy : 0 ≤ y) (hy1 : y ≤ 1) (a : Nat) :
    |x ^ a - y ^ a| ≤ a * |x - y| := by
  induction a with
  | zero => simp
  | succ a ih =>
    have e : x ^ (a + 1) - y ^ (a + 1) = (x ^ a - y ^ a) * x + y ^ a * (x - y) := by ring
    rw [e]
    calc |(x ^ a - y ^ a) * x + y ^ a * (x - y)| ≤ |x ^ a - y ^ a| * |x| + |y ^ a| * |x - y| := by
          rw [← abs_mul, ← abs_mul]; exact abs_add_le _ _
      _ ≤ (a * |x - y|) * 1 + 1 * |x - y| := by
          gcongr
          · rwa [abs_of_nonneg hx]
          · rw [abs_of_nonneg (pow_nonneg hy a)]; exact pow_le_one₀ hy hy1
      _ = _ := by push_cast; ring

theorem abs_mul_sub_le {x y s t : ℝ} (hs : |s| ≤ 1) (hy : |y| ≤ 1) : |x * s - y * t| ≤ |x - y| + |s - t| := by
  have e : x * s - y * t = (x - y) * s + y * (s - t) := by ring
  rw [e]
  calc _ ≤ |x - y| * |s| + |y| * |s - t| := by rw [← abs_mul, ← abs_mul]; exact abs_add_le _ _
    _ ≤ |x - y| * 1 + 1 * |s - t| := by gcongr
    _ = _ := by ring

structure Unit01 (x : ℝ) : Prop where
  nonneg : 0 ≤ x
  le_one : x ≤ 1

theorem Unit01.pow {x : ℝ} (h : Unit01 x) (a : Nat) : Unit01 (x ^ a) := ⟨pow_nonneg h.1 a, pow_le_one₀ h.1 h.2⟩
theorem Unit01.mul {x y : ℝ} (h : Unit01 x) (h' : Unit01 y) : Unit01 (x * y) :=
  ⟨mul_nonneg h.1 h'.1, by nlinarith [h.1, h.2, h'.1, h'.2]⟩
theorem Unit01.abs {x : ℝ} (h : Unit01 x) : |x| ≤ 1 := by rw [abs_of_nonneg h.1]; exact h.2

/-- Monomials at nearby points of the unit cube. -/
theorem mono_perturb {u v w u' v' w' δ : ℝ} (hu : Unit01 u) (hv : Unit01 v) (hw : Unit01 w) (hu' : Unit01 u')
    (hv' : Unit01 v') (hw' : Unit01 w') (h1 : |u - u'| ≤ δ) (h2 : |v - v'| ≤ δ) (h3 : |w - w'| ≤ δ)
    (a b c : Nat) :
    |u ^ a * (v ^ b * w ^ c) - u' ^ a * (v' ^ b * w' ^ c)| ≤ (a + (b + c)) * δ := by
  have k1 := abs_pow_sub_le hu.1 hu.2 hu'.1 hu'.2 a
  have k2 := abs_pow_sub_le hv.1 hv.2 hv'.1 hv'.2 b
  have k3 := abs_pow_sub_le hw.1 hw.2 hw'.1 hw'.2 c
  have m1 := abs_mul_sub_le (x := v ^ b) (y := v' ^ b) (s := w ^ c) (t := w' ^ c) (hw.pow c).abs (hv'.pow b).abs
  have m2 := abs_mul_sub_le (x := u ^ a) (y := u' ^ a) (s := v ^ b * w ^ c) (t := v' ^ b * w' ^ c)
    ((hv.pow b).mul (hw.pow c)).abs (hu'.pow a).abs
  have n1 : (a : ℝ) * |u - u'| ≤ a * δ := by gcongr
  have n2 : (b : ℝ) * |v - v'| ≤ b * δ := by gcongr
  have n3 : (c : ℝ) * |w - w'| ≤ c * δ := by gcongr
  linarith

/-- Sums over a rule and over a perturbed rule. -/
theorem sum_perturb {n : Nat} {W u v w W' u' v' w' : Nat → ℝ} {δ ε : ℝ} (hW' : ∀ k < n, 0 ≤ W' k)
    (hu : ∀ k < n, Unit01 (u k)) (hv : ∀ k < n, Unit01 (v k)) (hw : ∀ k < n, Unit01 (w k))
    (hu' : ∀ k < n, Unit01 (u' k)) (hv' : ∀ k < n, Unit01 (v' k)) (hw' : ∀ k < n, Unit01 (w' k))
    (h0 : ∀ k < n, |W k - W' k| ≤ ε) (h1 : ∀ k < n, |u k - u' k| ≤ δ) (h2 : ∀ k < n, |v k - v' k| ≤ δ)
    (h3 : ∀ k < n, |w k - w' k| ≤ δ) (a b c : Nat) :
    |∑ k ∈ Finset.range n, W k * (u k ^ a * (v k ^ b * w k ^ c)) -
      ∑ k ∈ Finset.range n, W' k * (u' k ^ a * (v' k ^ b * w' k ^ c))| ≤
      n * ε + (∑ k ∈ Finset.range n, W' k) * ((a + (b + c)) * δ) := by
  rw [← Finset.sum_sub_distrib]
  refine (Finset.abs_sum_le_sum_abs _ _).trans ?_
  have e : (n : ℝ) * ε + (∑ k ∈ Finset.range n, W' k) * ((a + (b + c)) * δ) =
      ∑ k ∈ Finset.range n, (ε + W' k * ((a + (b + c)) * δ)) := by
    rw [Finset.sum_add_distrib, Finset.sum_const, Finset.card_range, nsmul_eq_mul, Finset.sum_mul]
  rw [e]
  refine Finset.sum_le_sum fun k hk => ?_
  have hk := Finset.mem_range.mp hk
  have hp := mono_perturb (hu k hk) (hv k hk) (hw k hk) (hu' k hk) (hv' k hk) (hw' k hk) (h1 k hk) (h2 k hk)
    (h3 k hk) a b c
  have hm : |u k ^ a * (v k ^ b * w k ^ c)| ≤ 1 :=
    (((hu k hk).pow a).mul (((hv k hk).pow b).mul ((hw k hk).pow c))).abs
  set m := u k ^ a * (v k ^ b * w k ^ c)
  set m' := u' k ^ a * (v' k ^ b * w' k ^ c)
  have e2 : W k * m - W' k * m' = (W k - W' k) * m + W' k * (m - m') := by ring
  rw [e2]
  calc _ ≤ |W k - W' k| * |m| + |W' k| * |m - m'| := by rw [← abs_mul, ← abs_mul]; exact abs_add_le _ _
    _ ≤ ε * 1 + W' k * ((a + (b + c)) * δ) := by
        rw [abs_of_nonneg (hW' k hk)]
        have := hW' k hk
        have := h0 k hk
        have he : 0 ≤ ε := (abs_nonneg _).trans this
        gcongr
    _ = _ := by ring

theorem sumP_real (A : Scaling) (hD : 0 < A.D) (hE : 0 < A.E) (a b c : Nat) (ws xs ys zs : List Int) :
    (sumP (conv A ws xs ys zs) a b c : ℝ) / (A.E * A.D ^ (a + (b + c))) =
      ∑ k ∈ Finset.range ws.length, (wHat A ws k : ℝ) / A.E * (((cHat A.p xs ys zs k : ℝ) / A.D) ^ a *
        (((cHat A.q xs ys zs k : ℝ) / A.D) ^ b * ((cHat A.r xs ys zs k : ℝ) / A.D) ^ c)) := by
  rw [sumP_conv]
  push_cast
  rw [Finset.sum_div]
  refine Finset.sum_congr rfl fun k _ => ?_
  have hD' : (A.D : ℝ) ≠ 0 := by exact_mod_cast hD.ne'
  have hE' : (A.E : ℝ) ≠ 0 := by exact_mod_cast hE.ne'
  rw [div_pow, div_pow, div_pow, pow_add, pow_add]
  field_simp

/-- Rounding down loses less than one unit. -/
theorem floor_close (n : Int) (k : Nat) (hk : 0 < k) (h : 0 < (n / (k : Int)).toNat) :
    |(((n / (k : Int)).toNat : Nat) : ℝ) - (n : ℝ) / k| ≤ 1 := by
  have hq : 0 < n / (k : Int) := by omega
  have hk' : (0 : Int) < k := by exact_mod_cast hk
  have e := Int.emod_add_mul_ediv n k
  have h1 := Int.emod_nonneg n hk'.ne'
  have h2 := Int.emod_lt_of_pos n hk'
  set q := n / (k : Int)
  have hz : ((q.toNat : Nat) : ℤ) = q := Int.toNat_of_nonneg hq.le
  have hr : ((q.toNat : Nat) : ℝ) = (q : ℝ) := by exact_mod_cast congrArg (fun z : ℤ => (z : ℝ)) hz
  rw [hr]
  have e' : (n : ℝ) = ((n % (k : Int) : ℤ) : ℝ) + k * q := by exact_mod_cast e.symm
  have h1' : (0 : ℝ) ≤ ((n % (k : Int) : ℤ) : ℝ) := by exact_mod_cast h1
  have h2' : ((n % (k : Int) : ℤ) : ℝ) < k := by exact_mod_cast h2
  have hkr : (0 : ℝ) < k := by exact_mod_cast hk
  rw [e', add_div, mul_div_cancel_left₀ _ hkr.ne']
  have h3 : ((n % (k : Int) : ℤ) : ℝ) / k ≤ 1 := by rw [div_le_one hkr]; exact h2'.le
  have h4 : 0 ≤ ((n % (k : Int) : ℤ) : ℝ) / k := by positivity
  rw [abs_le]; constructor <;> linarith

end
end Modepy.Table

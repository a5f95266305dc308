import Verif.Model.Duck

/-!
# `modepy.modes`: Jacobi polynomials (modes.py 167-285)

Parameters `alpha`, `beta`, constants and `math.sqrt`, `math.gamma` are real numbers (exact
arithmetic, `Real.Gamma`); errors of `math.sqrt`/`math.gamma` for parameters `≤ -1` are not modelled.
-/

namespace Modepy
open Duck

open Classical in
/-- `gamma0` (modes.py 191-195). -/
noncomputable def jacobiGamma0 (α β : ℝ) : ℝ :=
  if |α + β + 1| < 1e-14 then Real.Gamma (α + 1) * Real.Gamma (β + 1)
  else (2 : ℝ) ^ (α + β + 1) / (α + β + 1) * Real.Gamma (α + 1) * Real.Gamma (β + 1)
    / Real.Gamma (α + β + 1)

/-- `gamma1` (modes.py 203). -/
noncomputable def jacobiGamma1 (α β : ℝ) : ℝ :=
  (α + 1) * (β + 1) / (α + β + 3) * jacobiGamma0 α β

/-- `anew` in loop iteration `i` (modes.py 216-219). -/
noncomputable def jacobiANew (α β : ℝ) (i : Nat) : ℝ :=
  let h1 := 2 * (i : ℝ) + α + β
  let foo := (i + 1) * (i + 1 + α + β) * (i + 1 + α) * (i + 1 + β) / (h1 + 1) / (h1 + 3)
  2 / (h1 + 2) * Real.sqrt foo

/-- `aold` at the start of loop iteration `i` (modes.py 212, 225). -/
noncomputable def jacobiAOld (α β : ℝ) (i : Nat) : ℝ :=
  if i = 1 then 2 / (2 + α + β) * Real.sqrt ((α + 1) * (β + 1) / (α + β + 3))
  else jacobiANew α β (i - 1)

/-- `bnew` in loop iteration `i` (modes.py 221). -/
noncomputable def jacobiBNew (α β : ℝ) (i : Nat) : ℝ :=
  let h1 := 2 * (i : ℝ) + α + β
  Neg.neg (α * α - β * β) / (h1 * (h1 + 2))

/-- `jacobi(alpha, beta, n, x)` (modes.py 167-225): `pl[n]`; loop iteration `i` appends
`pl[i+1]`. -/
noncomputable def jacobi {R : Type} [Duck R] (α β : ℝ) : Nat → R → R
  | 0, x => lit (1 / Real.sqrt (jacobiGamma0 α β)) + lit 0 * x
  | 1, x => cse ((lit (α + β + 2) * x / lit 2 + lit ((α - β) / 2)) / lit (Real.sqrt (jacobiGamma1 α β)))
  | i + 2, x =>
      cse ((lit (-jacobiAOld α β (i + 1)) * jacobi α β i x +
        (x - lit (jacobiBNew α β (i + 1))) * jacobi α β (i + 1) x) / lit (jacobiANew α β (i + 1)))

/-- `grad_jacobi(alpha, beta, n, x)` (modes.py 228-235). -/
noncomputable def gradJacobi {R : Type} [Duck R] (α β : ℝ) (n : Nat) (x : R) : R :=
  if n = 0 then lit 0 * x
  else lit (Real.sqrt (n * (n + α + β + 1))) * jacobi (α + 1) (β + 1) (n - 1) x

/-- `binom(x, y)` (modes.py 238-243). -/
noncomputable def binom (x y : ℝ) : ℝ :=
  Real.Gamma (x + 1) / (Real.Gamma (y + 1) * Real.Gamma (x - y + 1))

open Classical in
/-- The scaling in `scaled_jacobi` (modes.py 260-283); `eps` depends on the dtype of `x`. -/
noncomputable def jacobiScaling (eps : ℝ) (α β : ℝ) (n : Nat) : ℝ :=
  if n = 0 ∧ |α + β + 1| < eps then
    Real.Gamma (n + α + 1) * Real.Gamma (n + β + 1) / (n.factorial : ℝ)
  else
    (2 : ℝ) ^ (α + β + 1) / (2 * n + α + β + 1) * Real.Gamma (n + α + 1) * Real.Gamma (n + β + 1)
      / Real.Gamma (n + α + β + 1) / (n.factorial : ℝ)

/-- `scaled_jacobi(alpha, beta, n, x)` (modes.py 246-285). -/
noncomputable def scaledJacobi (eps : ℝ) (α β : ℝ) (n : Nat) (x : ℝ) : ℝ :=
  Real.sqrt (jacobiScaling eps α β n) * jacobi α β n x

end Modepy

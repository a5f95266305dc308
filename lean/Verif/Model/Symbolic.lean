import Verif.Model.Basis

/-!
# `modepy.modes`: symbolic evaluation (modes.py 128-160, 735-770)

`pymbolic` is not in the sandbox.  Expressions and the simplifications of its operators (neutral and absorbing constants) are
modelled from its documented behaviour; n-ary sums and products are binary here.
-/

namespace Modepy

/-- `pymbolic` expressions, as far as they are built by `modes.py`.  `var i` is `r[i]`. -/
inductive Expr where
  | var (i : Nat)
  | const (c : ℝ)
  | sum (a b : Expr)
  | product (a b : Expr)
  | quotient (a b : Expr)
  | power (a : Expr) (n : Nat)
  | absCall (a : Expr)
  /-- `If(Comparison(a, ">=", b), t, e)` -/
  | ifGe (a : Expr) (b : ℝ) (t e : Expr)
  /-- `If(Comparison(a, ">", b), t, e)` -/
  | ifGt (a : Expr) (b : ℝ) (t e : Expr)
  | cse (a : Expr)

open Classical in
/-- `pymbolic.mapper.evaluator.EvaluationMapper` with `r` bound to `env` and `abs` to `abs`; `none` is a division by zero.
The branches of `If` are evaluated on demand. -/
noncomputable def Expr.eval (env : Nat → ℝ) : Expr → Option ℝ
  | .var i => some (env i)
  | .const c => some c
  | .sum a b => (a.eval env).bind fun x => (b.eval env).map fun y => x + y
  | .product a b => (a.eval env).bind fun x => (b.eval env).map fun y => x * y
  | .quotient a b => (a.eval env).bind fun x => (b.eval env).bind fun y => if y = 0 then none else some (x / y)
  | .power a n => (a.eval env).map fun x => x ^ n
  | .absCall a => (a.eval env).map fun x => |x|
  | .ifGe a b t e => (a.eval env).bind fun x => if x ≥ b then t.eval env else e.eval env
  | .ifGt a b t e => (a.eval env).bind fun x => if x > b then t.eval env else e.eval env
  | .cse a => a.eval env

/-- What the mode functions handle when given symbols: Python numbers and expression nodes. -/
inductive Sym where
  | num (c : ℝ)
  | node (e : Expr)

/-- The value as an operand of an expression. -/
def Sym.toExpr : Sym → Expr
  | .num c => .const c
  | .node e => e

/-- Value of the result. -/
noncomputable def Sym.eval (env : Nat → ℝ) (s : Sym) : Option ℝ := s.toExpr.eval env

open Classical in
/-- `a + b`: zero summands are dropped. -/
noncomputable def Sym.add : Sym → Sym → Sym
  | .num a, .num b => .num (a + b)
  | .num a, .node b => if a = 0 then .node b else .node (.sum (.const a) b)
  | .node a, .num b => if b = 0 then .node a else .node (.sum a (.const b))
  | .node a, .node b => .node (.sum a b)

open Classical in
/-- `a * b`: factors 1 are dropped, a factor 0 gives 0. -/
noncomputable def Sym.mul : Sym → Sym → Sym
  | .num a, .num b => .num (a * b)
  | .num a, .node b => if a - 1 = 0 then .node b else if a = 0 then .num 0 else .node (.product (.const a) b)
  | .node a, .num b => if b - 1 = 0 then .node a else if b = 0 then .num 0 else .node (.product a (.const b))
  | .node a, .node b => .node (.product a b)

/-- `-a`. -/
noncomputable def Sym.neg : Sym → Sym
  | .num a => .num (-a)
  | .node a => Sym.mul (.num (-1)) (.node a)

/-- `a - b`, that is `a + (-b)`. -/
noncomputable def Sym.sub (a b : Sym) : Sym := match a, b with
  | .num a, .num b => .num (a - b)
  | a, b => a.add b.neg

open Classical in
/-- `a / b`; a number divided by the number zero raises, which is represented by an expression without a value. -/
noncomputable def Sym.div : Sym → Sym → Sym
  | .num a, .num b => if b = 0 then .node (.quotient (.const a) (.const b)) else .num (a / b)
  | .num a, .node b => .node (.quotient (.const a) b)
  | .node a, .num b => if b - 1 = 0 then .node a else .node (.quotient a (.const b))
  | .node a, .node b => .node (.quotient a b)

/-- `a ** n`. -/
noncomputable def Sym.npow : Sym → Nat → Sym
  | .num a, n => .num (a ^ n)
  | .node a, n => if n = 0 then .num 1 else if n = 1 then .node a else .node (.power a n)

open Classical in
/-- The operations on symbols; `_cse` (modes.py 130-136) wraps expression nodes only, `_where` (modes.py 139-160) builds an
`If` if its first operand is an expression node and compares numbers otherwise. -/
noncomputable instance : Duck Sym where
  add := Sym.add
  sub := Sym.sub
  mul := Sym.mul
  div := Sym.div
  neg := Sym.neg
  lit := .num
  npow := Sym.npow
  abs
    | .num a => .num |a|
    | .node a => .node (.absCall a)
  whereGe a b t e := match a with
    | .num a => if a ≥ b then t else e
    | .node a => .node (.ifGe a b t.toExpr e.toExpr)
  whereGt a b t e := match a with
    | .num a => if a > b then t else e
    | .node a => .node (.ifGt a b t.toExpr e.toExpr)
  cse
    | .num a => .num a
    | .node a => .node (.cse a)

/-- `make_sym_vector(name, dim)`. -/
def symVector (dim : Nat) : List Sym := (List.range dim).map fun i => .node (.var i)

/-- `symbolicize_function(f, dim)` (modes.py 745-767); unwrapping zero-dimensional object arrays does not change values. -/
def symbolicizeFunction {α : Type} (f : List Sym → Py α) (dim : Nat) : Py α := f (symVector dim)

end Modepy

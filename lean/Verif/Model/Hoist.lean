import Verif.Py.Str

/-!
# Helper lines before the statement

Several matchers turn a call into helper lines and an expression that uses a variable which the lines assign, for instance
`AdjointMatcher` (`/repo/paconvert/api_matcher.py` lines 3543-3560: a permutation computed from the argument, then an
expression with the argument and the permutation), `ExpitMatcher` (2714-2736), `SparseSoftmaxMatcher` (1670-1681) and
`NarrowCopyMatcher` (2258-2287). The lines are recorded for the statement that contains the call and inserted directly before it
(`/repo/paconvert/base.py` lines 100-168; the position is the subject of C36 and C38, here it is built in).

The model is a small language: expressions with strict operations, a conditional, an assignment expression and API calls
with one argument, statements with assignment, `if`, `while`, `for`, `break`, `continue`, `return`, `raise`, `try` and `with`, and
functions. What the operations compute is a parameter (`Verif/Spec/Hoist.lean`). Left out: `lambda` and comprehensions; global
variables in functions; kinds of exceptions; `else` of loops and of `try`; imports among the lines; calls with several arguments
(an argument can be a tuple, built by a strict operation).
-/

namespace Verif.Hoist
open Verif

inductive Expr
  | lit (v : Int)
  | var (x : Str)
  /-- `f(a)` -/
  | call (f : Nat) (a : Expr)
  /-- `a op b`, `f(a, b)` -/
  | op (f : Nat) (a b : Expr)
  /-- `a if c else b`; the shape of `and` and `or` as well -/
  | ite (c a b : Expr)
  /-- `(x := a)` -/
  | walrus (x : Str) (a : Expr)
  /-- a call of an API, to be converted -/
  | use (k : Nat) (a : Expr)
  deriving DecidableEq, Repr

inductive Stmt
  | skip
  | assign (x : Str) (e : Expr)
  | seq (s t : Stmt)
  | ite (e : Expr) (s t : Stmt)
  | while (e : Expr) (s : Stmt)
  /-- `for x in e: s` -/
  | forIn (x : Str) (e : Expr) (s : Stmt)
  | brk
  | cont
  /-- `return e` -/
  | ret (e : Expr)
  /-- `raise e` -/
  | raise (e : Expr)
  /-- `try: s except: t` -/
  | tryExc (s t : Stmt)
  /-- `try: s finally: t` -/
  | tryFin (s t : Stmt)
  /-- `with e as x: s` -/
  | withAs (x : Str) (e : Expr) (s : Stmt)
  deriving DecidableEq, Repr

/-- One helper line, `x = e`. -/
abbrev Line := Str × Expr

/-- A line is recorded unless the same line is recorded for this statement already; base.py:128-144, the duplicate check is 131-139. -/
def record (L : List Line) (l : Line) : List Line := if l ∈ L then L else L ++ [l]

/-- Conversion of an expression: the new expression, the lines recorded so far, and how many names were taken. Children come
before the call, in the order of their fields (basic_transformer.py:452-453). `fresh n` is the name of the variable of the
`n`-th converted call: `perm_0`, `perm_1`, ... for a matcher that uses `get_unique_name` (utils.py:35), always the same
for a matcher with a fixed name, such as `tmp_lr` in `LRSchedulerMatcher` (api_matcher.py:4121-4138). -/
def conv (fresh : Nat → Str) : Expr → List Line × Nat → Expr × (List Line × Nat)
  | .lit v, s => (.lit v, s)
  | .var x, s => (.var x, s)
  | .call f a, s => let (a, s) := conv fresh a s; (.call f a, s)
  | .op f a b, s => let (a, s) := conv fresh a s; let (b, s) := conv fresh b s; (.op f a b, s)
  | .ite c a b, s =>
    let (c, s) := conv fresh c s
    let (a, s) := conv fresh a s
    let (b, s) := conv fresh b s
    (.ite c a b, s)
  | .walrus x a, s => let (a, s) := conv fresh a s; (.walrus x a, s)
  | .use k a, s =>
    let (a, L, n) := conv fresh a s
    (.op k a (.var (fresh n)), record L (fresh n, .call k a), n + 1)

/-- The lines directly before the statement; base.py:100-118. -/
def before (L : List Line) (s : Stmt) : Stmt := L.foldr (fun l s => .seq (.assign l.1 l.2) s) s

/-- Conversion of a statement; the lines of the test of an `if` or `while`, and of the head of a `for` or `with`, belong to the block
that contains it (base.py:69-98). -/
def convStmt (fresh : Nat → Str) : Stmt → Nat → Stmt × Nat
  | .skip, n => (.skip, n)
  | .assign x e, n => let (e, L, n) := conv fresh e ([], n); (before L (.assign x e), n)
  | .seq s t, n => let (s, n) := convStmt fresh s n; let (t, n) := convStmt fresh t n; (.seq s t, n)
  | .ite e s t, n =>
    let (e, L, n) := conv fresh e ([], n)
    let (s, n) := convStmt fresh s n
    let (t, n) := convStmt fresh t n
    (before L (.ite e s t), n)
  | .while e s, n =>
    let (e, L, n) := conv fresh e ([], n)
    let (s, n) := convStmt fresh s n
    (before L (.while e s), n)
  | .forIn x e s, n =>
    let (e, L, n) := conv fresh e ([], n)
    let (s, n) := convStmt fresh s n
    (before L (.forIn x e s), n)
  | .brk, n => (.brk, n)
  | .cont, n => (.cont, n)
  | .ret e, n => let (e, L, n) := conv fresh e ([], n); (before L (.ret e), n)
  | .raise e, n => let (e, L, n) := conv fresh e ([], n); (before L (.raise e), n)
  | .tryExc s t, n => let (s, n) := convStmt fresh s n; let (t, n) := convStmt fresh t n; (.tryExc s t, n)
  | .tryFin s t, n => let (s, n) := convStmt fresh s n; let (t, n) := convStmt fresh t n; (.tryFin s t, n)
  | .withAs x e s, n =>
    let (e, L, n) := conv fresh e ([], n)
    let (s, n) := convStmt fresh s n
    (before L (.withAs x e s), n)

/-- The functions of a program: parameter and body, for some of the numbers. -/
abbrev Fns := Nat → Option (Str × Stmt)

/-- Conversion of the functions; `start f` names were taken before the body of `f`. -/
def convFns (fresh : Nat → Str) (start : Nat → Nat) (F : Fns) : Fns := fun f =>
  (F f).map fun d => (d.1, (convStmt fresh d.2 (start f)).1)

end Verif.Hoist

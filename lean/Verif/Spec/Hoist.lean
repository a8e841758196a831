import Verif.Model.Hoist

/-!
# What programs with helper lines mean

A semantics of the small language of `Verif/Model/Hoist.lean`. A failing operation raises an exception.
-/

namespace Verif.Hoist
open Verif

abbrev Env := Str → Option Int

def Env.set (env : Env) (x : Str) (v : Int) : Env := fun y => if y = x then some v else env y

/-- What the operations compute; `none` is an exception. -/
structure Interp where
  call : Nat → Int → Option Int
  op : Nat → Int → Int → Option Int
  /-- what a `for` iterates over -/
  items : Int → List Int

/-- A value and the variables, or an exception and the variables. -/
inductive Out
  | ok (v : Int) (env : Env)
  | raise (env : Env)

def Out.bind : Out → (Int → Env → Out) → Out
  | .ok v env, f => f v env
  | .raise env, _ => .raise env

def Out.of (env : Env) : Option Int → Out
  | some v => .ok v env
  | none => .raise env

/-- Value of an expression and the variables afterwards. The API `k` of `v` is `op k v (call k v)`: what the converted
call computes when nothing comes between (`AdjointMatcher`: `call` computes the permutation, `op` transposes). -/
def eval (I : Interp) : Expr → Env → Out
  | .lit v, env => .ok v env
  | .var x, env => .of env (env x)
  | .call f a, env => (eval I a env).bind fun v env => .of env (I.call f v)
  | .op f a b, env => (eval I a env).bind fun v env => (eval I b env).bind fun w env => .of env (I.op f v w)
  | .ite c a b, env => (eval I c env).bind fun v env => if v ≠ 0 then eval I a env else eval I b env
  | .walrus x a, env => (eval I a env).bind fun v env => .ok v (env.set x v)
  | .use k a, env => (eval I a env).bind fun v env => .of env ((I.call k v).bind (I.op k v))

/-- How a statement ends. -/
inductive Res
  | ok (env : Env)
  | raise (env : Env)
  | brk (env : Env)
  | cont (env : Env)
  | ret (v : Int) (env : Env)
  /-- more rounds of a loop than were allowed -/
  | fuel

def Res.bind : Res → (Env → Res) → Res
  | .ok env, f => f env
  | r, _ => r

/-- After the body of a loop. -/
def Res.next : Res → (Env → Res) → Res
  | .ok env, f | .cont env, f => f env
  | .brk env, _ => .ok env
  | r, _ => r

/-- After the body of a `try` with `except`. -/
def Res.rescue : Res → (Env → Res) → Res
  | .raise env, f => f env
  | r, _ => r

/-- After the body of a `try` with `finally`: it runs in every case, and if it ends normally the result is that of the body. -/
def Res.after : Res → (Env → Res) → Res
  | .ok env, f => f env
  | .raise env, f => (f env).bind .raise
  | .brk env, f => (f env).bind .brk
  | .cont env, f => (f env).bind .cont
  | .ret v env, f => (f env).bind (.ret v)
  | .fuel, _ => .fuel

def Out.andThen : Out → (Int → Env → Res) → Res
  | .ok v env, f => f v env
  | .raise env, _ => .raise env

/-- At most `n` rounds of a loop. -/
def loop (test : Env → Out) (body : Env → Res) : Nat → Env → Res
  | 0, _ => .fuel
  | n + 1, env => (test env).andThen fun v env => if v = 0 then .ok env else (body env).next (loop test body n)

/-- One round for each item. -/
def each (x : Str) (body : Env → Res) : List Int → Env → Res
  | [], env => .ok env
  | v :: l, env => (body (env.set x v)).next (each x body l)

/-- Execution in which each `while` makes fewer than `n` rounds, `fuel` if that is not enough. The end of a `with` is not seen by
the program. -/
def exec (I : Interp) (n : Nat) : Stmt → Env → Res
  | .skip, env => .ok env
  | .assign x e, env => (eval I e env).andThen fun v env => .ok (env.set x v)
  | .seq s t, env => (exec I n s env).bind (exec I n t)
  | .ite e s t, env => (eval I e env).andThen fun v env => if v ≠ 0 then exec I n s env else exec I n t env
  | .while e s, env => loop (eval I e) (exec I n s) n env
  | .forIn x e s, env => (eval I e env).andThen fun v env => each x (exec I n s) (I.items v) env
  | .brk, env => .brk env
  | .cont, env => .cont env
  | .ret e, env => (eval I e env).andThen .ret
  | .raise e, env => (eval I e env).andThen fun _ env => .raise env
  | .tryExc s t, env => (exec I n s env).rescue (exec I n t)
  | .tryFin s t, env => (exec I n s env).after (exec I n t)
  | .withAs x e s, env => (eval I e env).andThen fun v env => exec I n s (env.set x v)

/-- The value of a call of a function: its parameter is its only variable at the start; without `return` the value is that of None,
here 0. A `while` that makes too many rounds counts as a failure as well. -/
def callFn (I : Interp) (n : Nat) (x : Str) (s : Stmt) (v : Int) : Option Int :=
  match exec I n s (Env.set (fun _ => none) x v) with
  | .ret w _ => some w
  | .ok _ => some 0
  | _ => none

/-- The meaning of calls with the functions of the program, which call each other at most `d` deep (an exception beyond). -/
def interp (F : Fns) (I : Interp) (n : Nat) : Nat → Interp
  | 0 => ⟨fun f v => if (F f).isSome then none else I.call f v, I.op, I.items⟩
  | d + 1 => ⟨fun f v =>
    match F f with
    | none => I.call f v
    | some (x, s) => callFn (interp F I n d) n x s v, I.op, I.items⟩

/-- Number of API calls in an expression. -/
def uses : Expr → Nat
  | .lit _ | .var _ => 0
  | .call _ a | .walrus _ a => uses a
  | .op _ a b => uses a + uses b
  | .ite c a b => uses c + uses a + uses b
  | .use _ a => uses a + 1

/-- No assignment expression, and no API call in a branch of a conditional expression. -/
def Strict : Expr → Prop
  | .lit _ | .var _ => True
  | .call _ a | .use _ a => Strict a
  | .op _ a b => Strict a ∧ Strict b
  | .ite c a b => Strict c ∧ Strict a ∧ Strict b ∧ uses a = 0 ∧ uses b = 0
  | .walrus _ _ => False

/-- Every expression of the program with API calls is strict, and no test of a `while` has an API call. -/
def Straight : Stmt → Prop
  | .skip => True
  | .assign _ e => uses e = 0 ∨ Strict e
  | .seq s t => Straight s ∧ Straight t
  | .ite e s t => (uses e = 0 ∨ Strict e) ∧ Straight s ∧ Straight t
  | .while e s => uses e = 0 ∧ Straight s
  | .forIn _ e s | .withAs _ e s => (uses e = 0 ∨ Strict e) ∧ Straight s
  | .brk | .cont => True
  | .ret e | .raise e => uses e = 0 ∨ Strict e
  | .tryExc s t | .tryFin s t => Straight s ∧ Straight t

/-- The variables of an expression. -/
def Expr.Has (x : Str) : Expr → Prop
  | .lit _ => False
  | .var y => x = y
  | .call _ a | .use _ a => a.Has x
  | .op _ a b => a.Has x ∨ b.Has x
  | .ite c a b => c.Has x ∨ a.Has x ∨ b.Has x
  | .walrus y a => x = y ∨ a.Has x

/-- The variables of a program. -/
def Stmt.Has (x : Str) : Stmt → Prop
  | .skip => False
  | .assign y e => x = y ∨ e.Has x
  | .seq s t => s.Has x ∨ t.Has x
  | .ite e s t => e.Has x ∨ s.Has x ∨ t.Has x
  | .while e s => e.Has x ∨ s.Has x
  | .forIn y e s | .withAs y e s => x = y ∨ e.Has x ∨ s.Has x
  | .brk | .cont => False
  | .ret e | .raise e => e.Has x
  | .tryExc s t | .tryFin s t => s.Has x ∨ t.Has x

/-- Number of API calls in a program. -/
def total : Stmt → Nat
  | .skip => 0
  | .assign _ e => uses e
  | .seq s t => total s + total t
  | .ite e s t => uses e + total s + total t
  | .while e s | .forIn _ e s | .withAs _ e s => uses e + total s
  | .brk | .cont => 0
  | .ret e | .raise e => uses e
  | .tryExc s t | .tryFin s t => total s + total t

/-- No statement has more than one API call (the statements inside another one count for themselves). -/
def AtMostOne : Stmt → Prop
  | .skip => True
  | .assign _ e => uses e ≤ 1
  | .seq s t => AtMostOne s ∧ AtMostOne t
  | .ite e s t => uses e ≤ 1 ∧ AtMostOne s ∧ AtMostOne t
  | .while e s | .forIn _ e s | .withAs _ e s => uses e ≤ 1 ∧ AtMostOne s
  | .brk | .cont => True
  | .ret e | .raise e => uses e ≤ 1
  | .tryExc s t | .tryFin s t => AtMostOne s ∧ AtMostOne t

/-- The same outcome, up to the variables of the helper lines. -/
def Same (fresh : Nat → Str) : Res → Res → Prop
  | .ok a, .ok b | .raise a, .raise b | .brk a, .brk b | .cont a, .cont b => ∀ x, (∀ n, fresh n ≠ x) → a x = b x
  | .ret v a, .ret w b => v = w ∧ ∀ x, (∀ n, fresh n ≠ x) → a x = b x
  | .fuel, .fuel => True
  | _, _ => False

end Verif.Hoist

import Verif.Model.Matcher

/-!
# A call that goes through a matcher

Models `BaseMatcher.get_paddle_nodes`, `/repo/paconvert/base.py` lines 565-581, including what it does to the call
that was handed in, and `visit_Call` and `trans_class_method`, `/repo/paconvert/transformer/basic_transformer.py`
lines 476-553 and 655-767.

Left out: the counters (see `Model/Dispatch`), logging, and the lines a matcher wants in front of the statement (see
`Model/Hoist`); `insert_multi_node` is taken to succeed.
-/

namespace Verif.Matcher
open Verif

/-- The parts of an `ast.Call` that the matchers look at. The called function is the same before and after. -/
structure Call where
  args : List Arg := []
  kws : List Kw := []
  deriving DecidableEq, Repr

/-- The keywords of the call after `parse_args_and_kwargs` has gone through them; base.py:356-371. `kwargs` is the
list of the node itself, so `kwargs.remove(node)` also holds when a later keyword makes the function give up. -/
def leftKws (cfg : Cfg) (allowNone : Bool) : List Kw → List Kw
  | [] => []
  | n :: rest =>
    match n.arg with
    | none => n :: rest
    | some k =>
      if k ∈ cfg.unsupport then
        if n.isNone then
          match rest with
          | [] => []
          | m :: rest' => m :: leftKws cfg allowNone rest'
        else n :: rest
      else if k ∉ cfg.argsList ++ cfg.overload then n :: rest
      else n :: leftKws cfg allowNone rest

/-- The call after `parse_args_and_kwargs`; with a starred argument the function gives up before the keywords,
base.py:352-355. -/
def leftCall (cfg : Cfg) (c : Call) : Call :=
  if c.args.any (·.starred) then c else { c with kws := leftKws cfg false c.kws }

/-- The last node of the code that a matcher generates: a call or anything else. -/
inductive Code
  | call (func : Str) (args : List Str)
  | other (src : Str)
  deriving DecidableEq, Repr

/-- What `get_paddle_nodes` returns. `nothing` is `None`. -/
inductive Answer
  | delete
  | misidentify
  | unchange
  | code (c : Code)
  | nothing
  deriving DecidableEq, Repr

/-- `BaseMatcher.get_paddle_nodes`; base.py:565-577. `gen` is `generate_code`. The second part is the call that was
handed in, as it is afterwards. The `IndexError` of base.py:381 is impossible (C40) and counted as `nothing`. -/
def baseNodes (cfg : Cfg) (gen : Kwargs → Answer) (c : Call) : Answer × Call :=
  (match parseArgs cfg c.args c.kws with
    | .ok d => gen d
    | .misidentify => .misidentify
    | .refuse => .nothing
    | .indexError => .nothing, leftCall cfg c)

/-- What becomes of a call. -/
inductive Fate
  | removed
  /-- left in the program, without a report -/
  | kept (c : Call)
  /-- left in the program and reported as not supported -/
  | reported (c : Call)
  | replaced (n : Code)
  deriving DecidableEq, Repr

/-- `visit_Call` for the API of a package; basic_transformer.py:476-553. `m` is the matcher's `get_paddle_nodes`
(`none`: no matcher). The last node is taken to be of an admissible kind (lines 518-532). -/
def transCall (m : Option (Call → Answer × Call)) (inExpr : Bool) (c : Call) : Fate :=
  match m with
  | none => .reported c
  | some m =>
    match (m c).1 with
    | .delete => if inExpr then .removed else .reported (m c).2
    | .misidentify => .kept (m c).2
    | .unchange => .kept (m c).2
    | .code n => .replaced n
    | .nothing => .reported (m c).2

/-- A first argument that is the name `self`. (`self` is the source text of a name and of nothing else.)
basic_transformer.py:661-665. -/
def selfFirst (args : List Arg) : Bool :=
  match args with
  | a :: _ => !a.starred && decide (a.src = py"self")
  | [] => false

/-- `new_node.args.insert(0, ast.Name(id="self"))`, only for a call; basic_transformer.py:735-737. -/
def insertSelf : Code → Code
  | .call f args => .call f (py"self" :: args)
  | .other s => .other s

/-- `trans_class_method`; basic_transformer.py:655-767. `m` is the matcher's `get_paddle_class_nodes` for the called
attribute (`none`: no matcher). `node.args` is not changed by taking `self` away: `node_args[1:]` is a new list. The
last node is taken to be of an admissible kind (lines 721-734). -/
def transMethod (m : Option (Call → Answer × Call)) (inExpr : Bool) (c : Call) : Fate :=
  match m with
  | none => .reported c
  | some m =>
    let self := selfFirst c.args
    let r := m { c with args := if self then c.args.drop 1 else c.args }
    let left : Call := { c with kws := r.2.kws }
    match r.1 with
    | .delete => if inExpr then .removed else .reported left
    | .unchange => .kept left
    | .misidentify => .kept left
    | .code n => .replaced (if self then insertSelf n else n)
    | .nothing => .reported left

end Verif.Matcher

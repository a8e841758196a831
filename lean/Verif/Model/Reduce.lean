import Verif.Py.Str
import Verif.Py.Dict

/-!
# `Tensor.max` and `Tensor.min`

`api_matcher.py` 1324-1445, the code that is written for a call and what it does when it runs. The two matchers differ in the
names of the functions only, so there is one model. The arguments are of any type: for the code that is written they are
texts, for running it they are values.
-/

namespace Verif.Reduce
open Verif

variable {α : Type}

/-- The code that is written; all of it is called with the same arguments. -/
inductive Code (α : Type)
  /-- `x.maximum(…)`; 1359-1362 -/
  | maximum (args : List α) (kws : Dict Str α)
  /-- `(x.max(…), x.argmax(…))`; 1366-1370, 1373-1377 -/
  | pair (args : List α) (kws : Dict Str α)
  /-- `x._max(…)`; 1379-1382 -/
  | helper (args : List α) (kws : Dict Str α)

inductive Answer (α : Type)
  | code (c : Code α)
  | misidentify
  /-- `len(None)` -/
  | typeError

/-- `parse_kwargs`; base.py:413-427. The entries of the two methods list no unsupported arguments. -/
def parseKwargs : List (Option Str × α) → Option (Dict Str α)
  | [] => some []
  | (none, _) :: _ => none
  | (some k, v) :: r => (parseKwargs r).map fun d => (k, v) :: d

/-- `d[new] = d.pop(old)` -/
def rename (d : Dict Str α) (old new : Str) : Dict Str α :=
  match d.get? old with
  | some v => (d.erase old).set new v
  | none => d

/-- `TensorMaxMatcher.get_paddle_class_nodes`, `TensorMinMatcher.get_paddle_class_nodes`; 1350-1382, 1412-1444. -/
def nodes (args : List α) (kws : List (Option Str × α)) : Answer α :=
  match parseKwargs kws with
  | none => .typeError
  | some d =>
    if args.length + d.length > 2 then .misidentify
    else if d.has py"other" then .code (.maximum args (rename d py"other" py"y"))
    else if d.has py"dim" then .code (.pair args (rename d py"dim" py"axis"))
    else if args.length > 1 then .code (.pair args d)
    else .code (.helper args d)

/-! ## Running it -/

/-- A value. -/
inductive Val (τ : Type)
  | tensor (t : τ)
  | int (n : Int)
  | flag (b : Bool)

/-- An argument as it is written, with its values. -/
inductive Arg (τ : Type)
  | one (v : Val τ)
  | star (vs : List (Val τ))

variable {τ : Type}

def Arg.vals : Arg τ → List (Val τ)
  | .one v => [v]
  | .star vs => vs

/-- What a call computes. -/
inductive Res (τ : Type)
  /-- the extremum of all elements -/
  | all
  /-- along an axis, with the indices -/
  | along (axis : Int) (keep : Bool)
  /-- elementwise with another tensor -/
  | with (t : τ)

/-- The parameters of a Python function get their values: positional arguments in order, then keywords. -/
def bind (params : List Str) (pos : List (Val τ)) (kws : Dict Str (Val τ)) : Option (Dict Str (Val τ)) :=
  if pos.length ≤ params.length ∧ ∀ kv ∈ kws, kv.1 ∈ params.drop pos.length then some (params.zip pos ++ kws) else none

/-- `axis` and `keepdim` of `paddle.max(x, axis=None, keepdim=False, name=None)` and of
`paddle.argmax(x, axis=None, keepdim=False, dtype="int64", name=None)`: no axis is all of them. -/
def axisOf (d : Dict Str (Val τ)) : Option (Option Int × Bool) :=
  match d.get? py"axis", (d.get? py"keepdim").getD (.flag false) with
  | none, .flag b => some (none, b)
  | some (.int n), .flag b => some (some n, b)
  | _, _ => none

/-- `paddle.max(self, …), paddle.argmax(self, …)` -/
def runPair (pos : List (Val τ)) (kws : Dict Str (Val τ)) : Option (Res τ) := do
  let (a, k) ← axisOf (← bind [py"axis", py"keepdim", py"name"] pos kws)
  let (a', k') ← axisOf (← bind [py"axis", py"keepdim", py"dtype", py"name"] pos kws)
  if a = a' ∧ k = k' then a.map fun a => .along a k else none

/-- `paddle.max(self, …)` where no axis is given. -/
def runAll (pos : List (Val τ)) (kws : Dict Str (Val τ)) : Option (Res τ) := do
  let (a, k) ← axisOf (← bind [py"axis", py"keepdim", py"name"] pos kws)
  if a = none ∧ k = false then some .all else none

/-- `paddle.maximum(self, …)`, of which the signature is `paddle.maximum(x, y, name=None)`. -/
def runMaximum (pos : List (Val τ)) (kws : Dict Str (Val τ)) : Option (Res τ) := do
  match (← bind [py"y", py"name"] pos kws).get? py"y" with
  | some (.tensor t) => some (.with t)
  | _ => none

/-- The helper `_Tensor_max`; 1328-1343. -/
def runHelper (pos : List (Val τ)) (kws : Dict Str (Val τ)) : Option (Res τ) :=
  if kws.has py"other" then runMaximum pos (rename kws py"other" py"y")
  else
    match pos with
    | [.tensor _] => runMaximum pos kws
    | _ =>
      let kws := rename kws py"dim" py"axis"
      if kws.has py"axis" ∨ pos.length ≥ 1 then runPair pos kws else runAll pos kws

/-- What the code does. A starred keyword does not occur. -/
def run (val : α → Arg τ) (kwVal : α → Val τ) : Code α → Option (Res τ)
  | .maximum args kws => runMaximum (args.flatMap fun a => (val a).vals) (kws.map fun kv => (kv.1, kwVal kv.2))
  | .pair args kws => runPair (args.flatMap fun a => (val a).vals) (kws.map fun kv => (kv.1, kwVal kv.2))
  | .helper args kws => runHelper (args.flatMap fun a => (val a).vals) (kws.map fun kv => (kv.1, kwVal kv.2))

end Verif.Reduce

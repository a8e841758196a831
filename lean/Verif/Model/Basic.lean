import Verif.Model.Pipeline

/-!
# The basic pass over an expression

Models the traversal of `/repo/paconvert/transformer/basic_transformer.py`: `visit_Attribute` lines 67-314, `visit_Call` lines 405-653, `visit_Name` lines
850-880, in default mode, for the APIs of `ChangePrefixMatcher` (`/repo/paconvert/api_matcher.py` lines 366-409), `ChangeAPIMatcher` (lines 413-432) and
`GenericMatcher` (lines 94-166), which are 1628 of the 1911 entries with a matcher. A node for another matcher, a call that is refused, new statements in front, and an exception are
all `none`. Counters are in `Verif.Model.Dispatch`.
-/

namespace Verif.Basic
open Verif Verif.Data
open Verif.Uses (E Es ofText descends)
open Verif.Dispatch
open Verif.Pipeline (toExpr)
open Verif.Matcher (prefixApi prefixDropped renameDropped classPatterns parseArgs genericPieces keyText)

/-- Source text: `astor.to_source(node).strip("\n")` (`text`), `ast.parse` of an expression (`back`), the tag of an `ast.keyword` with a name (`kw`), and which tags are
those of `ast.Starred`. -/
structure Texts where
  text : E → Str
  back : Str → E
  kw : Str → Nat
  star : Nat → Bool

/-- What the pass uses besides the tables: `imports_map[file]`, the `re.match` tests of `get_full_attr_strict` and the source text of an operation (see
`Dispatch.opAttr`), and which nodes are keyword arguments: `key t = some k` for an `ast.keyword` with `arg = k` (`none` for `**x`). The tag of an
`ast.Call` is 0, its children are the function, the arguments and the keywords. -/
structure Env where
  file : File
  hit : Str → Str → Bool
  src : E → Str
  key : Nat → Option (Option Str)
  io : Texts

/-- `get_full_attr_strict`. -/
def Env.strict (B : Env) (e : E) : Str := fullAttrStrict B.file (blackList B.file) B.hit (toExpr B.src e)

/-- `"utils.data" not in full_attr`; basic_transformer.py:102-104. -/
def Env.data (B : Env) (e : E) : Bool := !Str.contains (B.strict e) py"utils.data"

/-- `ast.keyword`. -/
def Env.keyOf (B : Env) : E → Option (Option Str)
  | .other t _ => B.key t
  | _ => none

def Es.toList : Es → List (Bool × E)
  | .nil => []
  | .cons p e rest => (p, e) :: toList rest

def Es.ofList : List (Bool × E) → Es
  | [] => .nil
  | (p, e) :: rest => .cons p e (ofList rest)

/-- The arguments of the new call: `parse_args`, `parse_kwargs` (a dictionary) without the dropped keys, `args_and_kwargs_to_str`;
api_matcher.py:379-390, 400-408, 423-432. An argument that is turned into text and parsed again is taken to be the same node. -/
def Env.newArgs (B : Env) (dropped : List Str) (args : Es) : Es :=
  let l := Es.toList args
  let d : Dict (Option Str) (Bool × E) := (l.filterMap fun a => (B.keyOf a.2).map fun k => (k, a)).foldl (fun d ka => d.set ka.1 ka.2) []
  let d := dropped.foldl (fun d k => d.erase (some k)) d
  Es.ofList (l.filter (fun a => (B.keyOf a.2).isNone) ++ d.map (·.2))

/-- `parse_func` for the text of a receiver `w` and a class API: the class gives way to the receiver; base.py:430-442. What happens to the text is in
`Matcher.parseFunc` and C50; here the result is taken to be the attribute of the receiver. -/
def onReceiver (w : E) (api : Str) : Option E :=
  (classPatterns.find? fun k => Str.startsWith api (k ++ py".")).bind fun k =>
    let m := api.drop (k.length + 1)
    if '.' ∈ m then none else some (.attr w m)

/-- `API_MAPPING[api]` and `ATTRIBUTE_MAPPING[api]`. -/
def cfgOf (table : List Raw) (api : Str) : Option Matcher.Cfg := (table.find? fun r => decide (r.name = api)).map Raw.cfg

/-- A name with dots, as `paddle.nn.Linear`; the texts of some entries are literals, as `'DEFAULT'`. -/
def dotted (s : Str) : Bool := (Str.splitOn '.' s).all fun x => !x.isEmpty && x.all fun c => c.isAlphanum || c == '_'

/-- `ast.parse(paddle_api)`, for names. -/
def named (cfg : Matcher.Cfg) : Option Str := cfg.paddleApi.bind fun p => if dotted p then some p else none

/-- The Paddle name in the three matchers, for an entry `c` of a table; api_matcher.py:95-97, 367-377, 414-419. The assertions on the entries are in C51. -/
def nameOf (table : List Raw) (m c : Str) : Option Str :=
  if m = py"ChangePrefixMatcher" then prefixApi torchPackages c
  else if m = py"ChangeAPIMatcher" ∨ m = py"GenericMatcher" then (cfgOf table c).bind named
  else none

/-- `ast.Starred`. -/
def Env.starred (B : Env) : E → Bool
  | .other t _ => B.io.star t
  | _ => false

/-- A positional argument as `parse_args_and_kwargs` sees it. -/
def Env.posOf (B : Env) (e : E) : Option Matcher.Arg :=
  match B.keyOf e with
  | none => some ⟨B.io.text e, B.starred e⟩
  | some _ => none

/-- A keyword as it sees it. The constant `None` is printed `(None)`. -/
def Env.kwOf (B : Env) : E → Option Matcher.Kw
  | .other t (.cons _ v .nil) => (B.key t).map fun k => ⟨k, B.io.text v, decide (B.io.text v = py"(None)")⟩
  | _ => none

/-- The keywords of the code that `kwargs_to_str` writes, parsed. -/
def Env.kwNodes (B : Env) (d : Matcher.Kwargs) : Es :=
  Es.ofList (d.map fun kv => (false, .other (B.io.kw (keyText kv.1)) (.cons false (B.io.back kv.2) .nil)))

/-- `GenericMatcher.generate_code` and `ast.parse`, for the function `fn`; api_matcher.py:99-166. The code with several statements (`requires_grad`, `out`) is
in `Matcher.genericCode`. -/
def Env.genericCall (B : Env) (cfg : Matcher.Cfg) (fn : E) (args : Es) : Option E :=
  let l := (Es.toList args).map (·.2)
  match parseArgs cfg (l.filterMap B.posOf) (l.filterMap B.kwOf) with
  | .ok d =>
    let p := genericPieces cfg d
    if p.stopGradient = py"None" ∧ p.out = py"None" then
      let v := .op 0 (.cons true fn (B.kwNodes p.call))
      let v := if p.dtype ≠ py"None" then .op 0 (.cons true (.attr v py"astype") (.cons false (B.io.back p.dtype) .nil)) else v
      some (if p.pin ≠ py"(False)" then .op 0 (.cons true (.attr v py"pin_memory") .nil) else v)
    else none
  | _ => none

/-- The call of the new function in the three matchers. -/
def Env.newCall (B : Env) (m c : Str) (fn : E) (args : Es) : Option E :=
  if m = py"ChangePrefixMatcher" then some (.op 0 (.cons true fn (B.newArgs prefixDropped args)))
  else if m = py"ChangeAPIMatcher" then some (.op 0 (.cons true fn (B.newArgs renameDropped args)))
  else (cfgOf apiTable c).bind fun cfg => B.genericCall cfg fn args

/-- A first argument `self`. -/
def onSelf : Es → Bool
  | .cons _ (.name i) _ => i == py"self"
  | _ => false

/-- `visit_Attribute` after the visit of the value, for a node that is not the function of a call; basic_transformer.py:115-314, 317-355. -/
def Env.attrOf (B : Env) (e : E) : Option E :=
  match replaceModule B.file (B.strict e) with
  | .error _ => none
  | .ok full =>
    match decideAttr shipped B.file full with
    | .package api =>
      match getMatcher shipped shipped.attr api, getMatcher shipped shipped.api api with
      | .ok am, .ok cm =>
        match am, cm with
        | some (m, c), none => (nameOf attrTable m c).map ofText
        | none, some (m, c) => (nameOf apiTable m c).map ofText
        | _, _ => none
      | _, _ => none
    | .cls api =>
      match getMatcher shipped shipped.attr api with
      | .ok (some (m, _)) => if m = py"ChangePrefixMatcher" then some e else none
      | _ => none
    | .leave => some e

/-- `visit_Call` after the visit of the children; basic_transformer.py:456-653, 656-749. In `trans_class_method` a first argument `self` is taken away and
put back; for `GenericMatcher` see C67. -/
def Env.callOf (B : Env) (fn : E) (args : Es) : Option E :=
  match replaceModule B.file (B.strict fn) with
  | .error _ => none
  | .ok full =>
    match decideCall shipped B.file full with
    | .package api =>
      match getMatcher shipped shipped.api api with
      | .ok (some (m, c)) => (nameOf apiTable m c).bind fun p => B.newCall m c (ofText p) args
      | _ => none
    | .cls api =>
      match getMatcher shipped shipped.api api with
      | .ok (some (m, c)) =>
        if m = py"GenericMatcher" ∧ onSelf args = true then none
        else
          (nameOf apiTable m c).bind fun p =>
            match fn with
            | .attr w _ => (onReceiver w p).bind fun fn' => B.newCall m c fn' args
            | _ => none
      | _ => none
    | .leave => some (.op 0 (.cons true fn args))

/-- Where a node is: the function of a call, an argument of `setattr` or `hasattr`, or elsewhere. -/
inductive Place | fn | reflect | other
  deriving DecidableEq

/-- `parent_node.func.id in ["setattr", "hasattr"]`; basic_transformer.py:864-872. -/
def argPlace : E → Place
  | .name i => if i = py"setattr" ∨ i = py"hasattr" then .reflect else .other
  | _ => .other

mutual
/-- `visit`. -/
def Env.visit (B : Env) (at_ : Place) : E → Option E
  | .name i =>
    if at_ = .reflect then
      match torchPackages.get? i with
      | some p => some (ofText p)
      | none => some (.name i)
    else some (.name i)
  | .attr w a =>
    match (if descends B.data w then B.visit .other w else some w) with
    | some w' => if at_ = .fn then some (.attr w' a) else B.attrOf (.attr w' a)
    | none => none
  | .op t .nil => some (.op t .nil)
  | .op t (.cons p e rest) =>
    if t = 0 then
      match B.visit .fn e, B.visits (argPlace e) rest with
      | some e', some rest' => B.callOf e' rest'
      | _, _ => none
    else
      match B.visit .other e, B.visits .other rest with
      | some e', some rest' => some (.op t (.cons p e' rest'))
      | _, _ => none
  | .other t ks => (B.visits .other ks).map (.other t)
def Env.visits (B : Env) (at_ : Place) : Es → Option Es
  | .nil => some .nil
  | .cons p e rest =>
    match B.visit at_ e, B.visits at_ rest with
    | some e', some rest' => some (.cons p e' rest')
    | _, _ => none
end

end Verif.Basic

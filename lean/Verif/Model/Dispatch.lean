import Verif.Py.Str
import Verif.Py.Dict

/-!
# Which API is this? Names, tables, counters

Models the name handling of `/repo/paconvert/base.py` lines 170-271 and the decisions and counters of
`/repo/paconvert/transformer/basic_transformer.py` lines 67-839.

Left out: the traversal (each call of a visitor is one step here), logging, and the new syntax nodes themselves; what
a matcher returns is a parameter.
-/

namespace Verif.Dispatch
open Verif

/-- Python exceptions that the modelled code can raise by itself. -/
inductive Err
  | typeError
  | assertionError
  | keyError
  deriving DecidableEq, Repr

/-- Expressions as far as the name functions look at them. -/
inductive Expr
  /-- `value.name` -/
  | attr (value : Expr) (name : Str)
  | name (id : Str)
  /-- `ast.Call`, `ast.Compare`, `ast.BinOp`, `ast.UnaryOp`, `ast.Subscript`, `ast.Assert`, by their source text -/
  | op (src : Str)
  /-- any other expression -/
  | other
  deriving Repr

/-- `imports_map[file]`. The names bound by torch imports and the three sets are kept in one dictionary by the code,
see `reservedKeys`; an import that binds one of these four names is not modelled. -/
structure File where
  names : Dict Str Str := []
  torch : List Str := []
  may : List Str := []
  other : List Str := []

/-- The keys of `imports_map[file]` that hold sets or a dictionary; import_transformer.py:43-46. -/
def reservedKeys : List Str :=
  [py"other_packages", py"torch_packages", py"may_torch_packages", py"api_alias_name_map"]

def nonTorch : Str := py"NonTorchClass"

/-- `get_full_attr`; base.py:170-176. -/
def fullAttr : Expr → Str
  | .attr v a => fullAttr v ++ py"." ++ a
  | .name i => i
  | _ => py"None"

/-- The loop over the black list in the case of an operation; base.py:217-229. `hit item src` stands for the three
`re.match` tests (the items are put into the patterns unescaped). -/
def opAttr (black : List Str) (hit : Str → Str → Bool) (src : Str) : Str :=
  if black.any (fun i => hit i src) then nonTorch else py"TorchClass"

/-- `get_full_attr_strict`; base.py:190-232. `black` is `self.black_list`. -/
def fullAttrStrict (f : File) (black : List Str) (hit : Str → Str → Bool) : Expr → Str
  | .attr v a =>
    if f.torch = [] then nonTorch else
    if a ∈ black then nonTorch else fullAttrStrict f black hit v ++ py"." ++ a
  | .name i =>
    if f.torch = [] then nonTorch else
    if i ∈ black then nonTorch else if i = py"paddle" then nonTorch else i
  | .op src => if f.torch = [] then nonTorch else opAttr black hit src
  | .other => nonTorch

/-- `self.black_list` of the `BasicTransformer`; basic_transformer.py:61-65. -/
def blackList (f : File) : List Str := f.other ++ [py"ndarray", py"args", py"arg"]

/-- `replace_torch_module`, the new `full_attr`; base.py:234-243. The first component is looked up in the dictionary
that also has the reserved keys: their values are no texts and `".".join` raises a `TypeError`. -/
def replaceModule (f : File) (full : Str) : Except Err Str :=
  let parts := Str.splitOn '.' full
  let head := parts.headD []
  if head ∈ reservedKeys then .error .typeError
  else match f.names.get? head with
    | some m => .ok (Str.join py"." (m :: parts.drop 1))
    | none => .ok full

/-- `get_torch_api_from_node`; base.py:178-188. -/
def torchApiOf (f : File) (e : Expr) : Except Err (Option Str) :=
  let parts := Str.splitOn '.' (fullAttr e)
  let head := parts.headD []
  if head ∈ reservedKeys then .error .typeError
  else match f.names.get? head with
    | some m => .ok (some (Str.join py"." (m :: parts.drop 1)))
    | none => .ok none

/-- An entry of one of the mapping tables, as far as the lookup needs it. -/
structure Entry where
  matcher : Option Str := none
  disable : Bool := false
  deriving DecidableEq, Repr

/-- The tables of `GlobalManager`. `wild` pairs an entry with the test `re.match(wildcard_name, ·)`. -/
structure Tables where
  aliases : Dict Str Str
  api : Dict Str Entry
  attr : Dict Str Entry
  wild : List ((Str → Bool) × Entry)

/-- `start_with_torch`; basic_transformer.py:769-774. -/
def startWithTorch (f : File) (api : Str) : Bool := f.torch.any fun p => Str.startsWith api (p ++ py".")

/-- `if torch_api in ALIAS_MAPPING: torch_api = ALIAS_MAPPING[torch_api]`. -/
def canonical (T : Tables) (api : Str) : Str := (T.aliases.get? api).getD api

/-- `in_api_mapping`; basic_transformer.py:776-784. -/
def inApi (T : Tables) (api : Str) : Bool :=
  T.api.has (canonical T api) || T.wild.any (fun w => w.1 (canonical T api))

/-- `in_attribute_mapping`; basic_transformer.py:809-814. -/
def inAttr (T : Tables) (api : Str) : Bool := T.attr.has (canonical T api)

/-- The loop over the wildcards in `get_api_matcher`; it has no `break`, so the last match counts.
basic_transformer.py:796-798. -/
def lastWild (T : Tables) (api : Str) : Option Entry :=
  T.wild.foldl (fun r w => if w.1 api then some w.2 else r) none

/-- `if "disable" in ..: return None; if "Matcher" in ..: return eval(..)(..)`; basic_transformer.py:799-807. -/
def Entry.use (e : Entry) : Option Str := if e.disable then none else e.matcher

/-- `get_api_matcher`, basic_transformer.py:786-807, and `get_attribute_matcher`, 816-839: the name of the matcher
class and the name it is built with. `table` is `T.api` or `T.attr`. -/
def getMatcher (T : Tables) (table : Dict Str Entry) (api : Str) : Except Err (Option (Str × Str)) :=
  if T.aliases.has api && table.has api then .error .assertionError
  else
    let c := canonical T api
    let e := match table.get? c with
      | some e => some e
      | none => lastWild T c
    .ok ((e.bind Entry.use).map fun m => (m, c))

/-! ## Class APIs -/

def tensorClass : Str := py"torch.Tensor"
def moduleClass : Str := py"torch.nn.Module"
def optimClass : Str := py"torch.optim.Optimizer"
def ctxClass : Str := py"torch.autograd.function.FunctionCtx"
def distClass : Str := py"torch.distributions.distribution.Distribution"

/-- `torch_class_apis` of `visit_Call`; basic_transformer.py:558-623. -/
def callCandidates (full : Str) : List Str :=
  let parts := Str.splitOn '.' full
  let m := parts.getLastD []
  let self := Str.contains full py"self."
  let long := decide (parts.length > 2)
  let two := decide (parts.length = 2)
  let isTensor := (long && (self || Str.contains full py".T." || Str.contains full py".weight."
    || Str.contains full py".bias.")) || (two && !self)
  let isModule := (long && self) || two
  let isOptim := (long && self) || two
  let isCtx := two && !self
  let isDist := two && !self
  (if isTensor then [tensorClass ++ py"." ++ m] else []) ++ (if isModule then [moduleClass ++ py"." ++ m] else [])
    ++ (if isOptim then [optimClass ++ py"." ++ m] else []) ++ (if isCtx then [ctxClass ++ py"." ++ m] else [])
    ++ (if isDist then [distClass ++ py"." ++ m] else [])

/-- `torch_class_apis` of `visit_Attribute`; basic_transformer.py:249-292. -/
def attrCandidates (full : Str) : List Str :=
  let parts := Str.splitOn '.' full
  let m := parts.getLastD []
  let self := Str.contains full py"self."
  let long := decide (parts.length > 2)
  let two := decide (parts.length = 2)
  let isTensor := (long && (self || [py".T.", py".data.", py".real.", py".imag.", py".weight.", py".bias."].any
    (fun k => Str.contains full k))) || (two && !self)
  let isCtx := two && !self
  (if isTensor then [tensorClass ++ py"." ++ m] else []) ++ (if isCtx then [ctxClass ++ py"." ++ m] else [])

/-- What a visitor decides to do with a node. -/
inductive Decision
  /-- a name of a torch package -/
  | package (api : Str)
  /-- a member of a torch class -/
  | cls (api : Str)
  | leave
  deriving DecidableEq, Repr

/-- `visit_Call`, the decision; basic_transformer.py:456-653. `full` is the result of `replaceModule`. -/
def decideCall (T : Tables) (f : File) (full : Str) : Decision :=
  if startWithTorch f full || inApi T full then .package full
  else if Str.contains full nonTorch then .leave
  else match (callCandidates full).find? (inApi T) with
    | some a => .cls a
    | none => .leave

/-- `visit_Attribute`, the decision; basic_transformer.py:115-314 (the case that the node is the function of a call,
lines 108-110, is left out: there nothing is done). -/
def decideAttr (T : Tables) (f : File) (full : Str) : Decision :=
  if startWithTorch f full then .package full
  else if Str.contains full nonTorch then .leave
  else match (attrCandidates full).find? (inAttr T) with
    | some a => .cls a
    | none => .leave

/-! ## Counters -/

/-- The counters: of the transformers (summed up in converter.py:458-459) and the two shared tables. The paddle name
in the per-API table is left out. -/
structure Counts where
  torch : Int := 0
  success : Int := 0
  all : Dict Str Int := []
  unsupport : Dict Str Int := []
  deriving DecidableEq, Repr

/-- What a matcher's `get_paddle_nodes` and the like return. For a list of nodes: whether the last one is of an
admissible kind and whether `insert_multi_node` accepts the others. -/
inductive Res
  | delete
  | misidentify
  | unchange
  | nodes (kindOk inserted : Bool)
  /-- `None` or an empty list -/
  | nothing
  deriving DecidableEq, Repr

/-- What a matcher's `get_paddle_api` returns. -/
inductive Api
  | delete
  | misidentify
  | unchange
  | text
  /-- `None` or the empty text -/
  | nothing
  deriving DecidableEq, Repr

/-- What happens to the node. -/
inductive Out
  | removed
  | kept
  | replaced
  /-- kept, and reported as not supported -/
  | unsupported
  deriving DecidableEq, Repr

def bump (d : Dict Str Int) (k : Str) : Dict Str Int := d.set k ((d.get? k).getD 0 + 1)

/-- `self.torch_api_count += 1` and the entry in `all_api_map`; basic_transformer.py:123-127, 296-300, 464-468,
637-641. -/
def Counts.found (s : Counts) (api : Str) : Counts :=
  { s with torch := s.torch + 1, all := bump s.all api }

def Counts.succeed (s : Counts) : Counts := { s with success := s.success + 1 }

/-- `self.torch_api_count -= 1` and `del self.all_api_map[torch_api]`. -/
def Counts.misidentified (s : Counts) (api : Str) : Counts :=
  { s with torch := s.torch - 1, all := s.all.erase api }

def Counts.unsupported (s : Counts) (api : Str) : Counts := { s with unsupport := bump s.unsupport api }

/-- The common part of `visit_Call` (lines 476-553), `trans_class_method` (656-767) and `trans_class_attribute`
(317-401): `r` is the matcher's result (`none`: no matcher), `report` the name in the table of unsupported APIs,
`inExpr` whether the parent is an expression statement. -/
def finish (api report : Str) (r : Option Res) (inExpr : Bool) (s : Counts) : Counts × Out :=
  match r with
  | some .delete => if inExpr then (s.succeed, .removed) else (s.unsupported report, .unsupported)
  | some .misidentify => (s.misidentified api, .kept)
  | some .unchange => (s.succeed, .kept)
  | some (.nodes true true) => (s.succeed, .replaced)
  | _ => (s.unsupported report, .unsupported)

/-- The name under which an unsupported class method is reported: `"*" + api[api.rfind("."):]`;
basic_transformer.py:751. -/
def starName (api : Str) : Str :=
  py"*" ++ (if '.' ∈ api then '.' :: (Str.splitOn '.' api).getLastD [] else api.drop (api.length - 1))

/-- The behaviour of the matchers in one situation. -/
structure Oracle where
  /-- `get_paddle_nodes`, `get_paddle_class_nodes`, `get_paddle_class_attribute_nodes` of a matcher class built for
  an API -/
  nodes : Str × Str → Res
  /-- `get_paddle_api` -/
  api : Str × Str → Api

/-- The parent of the visited node. -/
inductive Parent | expr | decorated | other
  deriving DecidableEq, Repr

/-- `visit_Call` after the traversal of its children; basic_transformer.py:456-653. -/
def visitCall (T : Tables) (f : File) (hit : Str → Str → Bool) (o : Oracle) (func : Expr) (p : Parent) (s : Counts) :
    Except Err (Counts × Out) := do
  let full ← replaceModule f (fullAttrStrict f (blackList f) hit func)
  match decideCall T f full with
  | .package api =>
    let m ← getMatcher T T.api api
    return finish api api (m.map o.nodes) (p == .expr) (s.found api)
  | .cls api =>
    let m ← getMatcher T T.api api
    return finish api (starName api) (m.map o.nodes) (p == .expr) (s.found api)
  | .leave => return (s, .kept)

/-- The name without its last component: `".".join(attr_list[:-1])`. -/
def parentName (full : Str) : Str := Str.join py"." ((Str.splitOn '.' full).dropLast)

/-- The second lookup in `visit_Attribute`, for `torch.nn.Module.add = f`; basic_transformer.py:203-244. A result `None`
or the empty text: `None + "."` is a `TypeError`; the empty text is not distinguished from it. -/
def viaParent (T : Tables) (o : Oracle) (api : Str) (s : Counts) : Except Err (Counts × Out) :=
  if (Str.splitOn '.' api).length ≥ 3 then
    match getMatcher T T.api (parentName api) with
    | .error x => .error x
    | .ok none => .ok (s.unsupported api, .unsupported)
    | .ok (some m) =>
      match o.api m with
      | .unchange => .ok (s.succeed, .kept)
      | .nothing => .error .typeError
      | .delete => .ok (s.succeed, .replaced)
      | .misidentify => .ok (s.succeed, .replaced)
      | .text => .ok (s.succeed, .replaced)
  else .ok (s.unsupported api, .unsupported)

/-- `visit_Attribute` when the node is not the function of a call; basic_transformer.py:115-314. -/
def visitAttr (T : Tables) (f : File) (hit : Str → Str → Bool) (o : Oracle) (node : Expr) (p : Parent) (s : Counts) :
    Except Err (Counts × Out) := do
  let full ← replaceModule f (fullAttrStrict f (blackList f) hit node)
  match decideAttr T f full with
  | .package api =>
    let s := s.found api
    let am ← getMatcher T T.attr api
    let cm ← getMatcher T T.api api
    if am.isSome && cm.isSome then .error .assertionError
    else
      match (am.or cm).map o.api with
      | some .delete => if p == .other then viaParent T o api s else return (s.succeed, .removed)
      | some .misidentify => return (s.misidentified api, .kept)
      | some .unchange => return (s.succeed, .kept)
      | some .text => return (s.succeed, .replaced)
      | some .nothing => viaParent T o api s
      | none => viaParent T o api s
  | .cls api =>
    let m ← getMatcher T T.attr api
    return finish api api (m.map o.nodes) (p == .expr) (s.found api)
  | .leave => return (s, .kept)

/-- `PreCustomOpTransformer.visit_Attribute`: one use of an extension inside an autograd function;
custom_op_transformer.py:93-94, 120-121. -/
def cppUse (s : Counts) : Counts := { s with torch := s.torch + 1, success := s.success + 1 }

/-- `CustomOpTransformer.visit_Attribute`: one use of `F.apply`; custom_op_transformer.py:226, 240. -/
def applyUse (name : Str) (s : Counts) : Counts :=
  { s with torch := s.torch + 1, unsupport := bump s.unsupport (name ++ py".apply") }

/-- One step of one of the passes that can change a counter. Which steps the passes make on a file, and what the
matchers answer, is left open: the theorems are about all sequences of steps. -/
inductive Visit
  /-- `BasicTransformer.visit_Call` with `node.func` -/
  | call (f : File) (func : Expr) (p : Parent) (o : Oracle)
  /-- `BasicTransformer.visit_Attribute` -/
  | attr (f : File) (node : Expr) (p : Parent) (o : Oracle)
  | cpp
  | apply (name : Str)

def step (T : Tables) (hit : Str → Str → Bool) (s : Counts) : Visit → Except Err Counts
  | .call f e p o => (visitCall T f hit o e p s).map Prod.fst
  | .attr f e p o => (visitAttr T f hit o e p s).map Prod.fst
  | .cpp => .ok (cppUse s)
  | .apply n => .ok (applyUse n s)

/-- One pass over one file: its two counters start at zero (base.py:44-45), the tables are shared, and at the end the
counters are added to the converter's; converter.py:436-461. -/
def runPass (T : Tables) (hit : Str → Str → Bool) (s : Counts) (vs : List Visit) : Except Err Counts := do
  let t ← vs.foldlM (step T hit) { s with torch := 0, success := 0 }
  return { t with torch := s.torch + t.torch, success := s.success + t.success }

/-- `transfer_node`: the passes over one file; converter.py:436-461. -/
def runFile (T : Tables) (hit : Str → Str → Bool) (s : Counts) (passes : List (List Visit)) : Except Err Counts :=
  passes.foldlM (runPass T hit) s

/-- The files of a project, one after the other; converter.py:320-356. -/
def runProject (T : Tables) (hit : Str → Str → Bool) (files : List (List (List Visit))) : Except Err Counts :=
  files.foldlM (runFile T hit) {}

end Verif.Dispatch

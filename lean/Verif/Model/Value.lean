import Verif.Model.Tables

/-!
# Uses of an API without a call

Models what `visit_Attribute` of `/repo/paconvert/transformer/basic_transformer.py` lines 67-314 and `trans_class_attribute`, lines 316-401, put in place of
an attribute that is not the function of a call, in default mode, with `get_paddle_api` and `get_paddle_class_attribute_nodes` of all matchers that the tables name.
Counters are in `Verif.Model.Dispatch`. The code does not look at the context of the attribute: it is the same for a target of an assignment.
-/

namespace Verif.Value
open Verif Verif.Data Verif.Dispatch

/-- The classes whose `get_paddle_api` asserts that the entry has the key `paddle_api`: `GenericMatcher` (api_matcher.py:95-97), those that inherit it (3363, 5941), and
`ChangeAPIMatcher` (414-419; its other assertions are C51). -/
def assertive : List Str := [py"GenericMatcher", py"TensorSetMatcher", py"CUDAAndCppExtensionMatcher", py"ChangeAPIMatcher"]

/-- `get_paddle_api`; base.py:538-552, api_matcher.py:95-97, 359-360, 368-377, 414-419, 3869-3871. `name` is `torch_api`. The result `None` is `none`. Not included:
`DeleteMatcher`, `SetTrueMatcher`, `SetFalseMatcher` and `TensorMatcher`, which no entry names, and `TransformersGenericMatcher`, whose entry is disabled. -/
def paddleApi (cls name : Str) (cfg : Matcher.Cfg) : Except Err (Option Str) :=
  if cls ∈ assertive then
    match cfg.paddleApi with
    | some p => .ok (some p)
    | none => .error .assertionError
  else if cls = py"ChangePrefixMatcher" then
    match Matcher.prefixApi torchPackages name with
    | some p => .ok (some p)
    | none => .error .assertionError
  else if cls = py"EinopsTorchMatcher" then .ok (some (Str.replace name py"einops.layers.torch" py"einops.layers.paddle"))
  else if cls = py"FAApplyRotaryEmbFuncMatcher" then .ok (some py"apply_rotary_position_embeddings")
  else .ok cfg.paddleApi

/-- The entry that a matcher is built with. Entries of the wildcard table have no `paddle_api`. -/
def cfgOf (table : List Raw) (name : Str) : Matcher.Cfg :=
  match table.find? fun r => decide (r.name = name) with
  | some r => r.cfg
  | none => {}

/-- What takes the place of the attribute. -/
inductive Value
  /-- the node stays as it is -/
  | keep
  /-- `ast.parse(s).body[0].value` -/
  | code (s : Str)
  deriving DecidableEq, Repr

/-- The second lookup, with the name without its last component; basic_transformer.py:203-244. `None + "."` is a `TypeError`. -/
def viaParent (api : Str) : Except Err Value :=
  if (Str.splitOn '.' api).length ≥ 3 then
    match getMatcher shipped shipped.api (parentName api) with
    | .error x => .error x
    | .ok none => .ok .keep
    | .ok (some (m, c)) =>
      match paddleApi m c (cfgOf apiTable c) with
      | .error x => .error x
      | .ok none => .error .typeError
      | .ok (some p) =>
        if p = py"unchange" then .ok .keep
        else .ok (.code (p ++ py"." ++ (Str.splitOn '.' api).getLastD []))
  else .ok .keep

/-- A name of a torch package; basic_transformer.py:120-244. The empty text and the answer `delete` for a node that is not a statement or a decorator go on to the second
lookup; no entry gives them. -/
def ofPackage (api : Str) : Except Err Value :=
  match getMatcher shipped shipped.attr api, getMatcher shipped shipped.api api with
  | .error x, _ => .error x
  | .ok _, .error x => .error x
  | .ok (some _), .ok (some _) => .error .assertionError
  | .ok none, .ok none => viaParent api
  | .ok (some (m, c)), .ok none => found api m c (cfgOf attrTable c)
  | .ok none, .ok (some (m, c)) => found api m c (cfgOf apiTable c)
where
  found (api m c : Str) (cfg : Matcher.Cfg) : Except Err Value :=
    match paddleApi m c cfg with
    | .error x => .error x
    | .ok none => viaParent api
    | .ok (some p) =>
      if p = [] ∨ p = py"delete" then viaParent api
      else if p = py"misidentify" ∨ p = py"unchange" then .ok .keep
      else .ok (.code p)

/-- An attribute of a class; basic_transformer.py:316-401, base.py:554-557, api_matcher.py:391-392, 4236-4240. `src` is the source text of the node. Without a matcher, and if the
code cannot be used, the node stays. `re.sub` of `None` is a `TypeError`. -/
def ofClass (src api : Str) : Except Err Value :=
  match getMatcher shipped shipped.attr api with
  | .error x => .error x
  | .ok none => .ok .keep
  | .ok (some (m, c)) =>
    match paddleApi m c (cfgOf attrTable c) with
    | .error x => .error x
    | .ok p =>
      if m = py"ChangePrefixMatcher" then .ok .keep
      else match p with
        | none => .error .typeError
        | some p =>
          if m = py"Attribute2Func" then .ok (.code (Matcher.parseFunc src p ++ py"()"))
          else .ok (.code (Matcher.parseFunc src p))

/-- `visit_Attribute` after the traversal of the value, for a node that is not the function of a call; basic_transformer.py:115-314. -/
def visit (f : File) (hit : Str → Str → Bool) (node : Expr) (src : Str) : Except Err Value :=
  match replaceModule f (fullAttrStrict f (blackList f) hit node) with
  | .error x => .error x
  | .ok full =>
    match decideAttr shipped f full with
    | .package api => ofPackage api
    | .cls api => ofClass src api
    | .leave => .ok .keep

end Verif.Value

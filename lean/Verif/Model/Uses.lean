import Verif.Model.Dispatch

/-!
# Uses of imported names in the import pass

Models `visit_Attribute` and `visit_Name` of `/repo/paconvert/transformer/import_transformer.py` lines 339-501 and `in_min_mode` of
`/repo/paconvert/base.py` lines 248-271.
-/

namespace Verif.Uses
open Verif
open Verif.Dispatch (File Tables Entry canonical)

mutual
/-- Expressions (and the statements around them). -/
inductive E
  | name (id : Str)
  | attr (value : E) (name : Str)
  /-- `ast.Call`, `Compare`, `BinOp`, `UnaryOp`, `Subscript`, `Assert`, `IfExp`: the nodes into which `visit_Attribute` goes -/
  | op (tag : Nat) (kids : Es)
  /-- any other node -/
  | other (tag : Nat) (kids : Es)
/-- Children. `pos` tells whether the child, if it is a name, is at one of the places that `visit_Name` handles
(import_transformer.py:414-483): bases, annotations, defaults, values of a dict, the called function, an argument of `isinstance` and some
other functions, a subscript, the right side of an assignment. -/
inductive Es
  | nil
  | cons (pos : Bool) (e : E) (rest : Es)
end

/-- `get_full_attr`; base.py:170-176. -/
def fullText : E → Str
  | .attr v a => fullText v ++ py"." ++ a
  | .name i => i
  | _ => py"None"

/-- `get_torch_api_from_node`; base.py:178-188. The four reserved keys of the dictionary, for which the code raises a `TypeError`, are
left out here (`Dispatch.torchApiOf` has them). -/
def resolve (f : File) (text : Str) : Option Str :=
  let parts := Str.splitOn '.' text
  (f.names.get? (parts.headD [])).map fun m => Str.join py"." (m :: parts.drop 1)

/-- `ast.parse(text).body[0].value` for a dotted name. -/
def ofText (text : Str) : E :=
  match Str.splitOn '.' text with
  | [] => .name []
  | h :: rest => rest.foldl E.attr (.name h)

/-- The attributes after which `visit_Attribute` goes on into the value; import_transformer.py:359-366. -/
def special : List Str := [py"T", py"real", py"weight", py"bias", py"imag"]

/-- Whether `visit_Attribute` visits the value of the node; import_transformer.py:345-371. `data v` stands for the test of line 370 on the
value. -/
def descends (data : E → Bool) : E → Bool
  | .op _ _ => true
  | .attr w b => b ∈ special || (b == py"data" && data (.attr w b))
  | _ => false

/-- What the visitors use: `imports_map[file]`, `in_min_mode`, `get_canonical_torch_api` and the test for `utils.data`. -/
structure Env where
  file : File
  keep : Str → Bool
  canon : Str → Str
  data : E → Bool

/-- The last step of both visitors: the node stays if it is no torch API or is kept in min mode, otherwise the canonical name takes its
place; import_transformer.py:373-380, 486-501. -/
def replace (v : Env) (e : E) : E :=
  match resolve v.file (fullText e) with
  | some api => if v.keep api then e else ofText (v.canon api)
  | none => e

mutual
/-- `visit` of an expression. The names that were assigned a torch API before (`api_alias_name_map`, import_transformer.py:430-441,
488-494) are not modelled. -/
def visitE (v : Env) (pos : Bool) : E → E
  | .name i => if pos then replace v (.name i) else .name i
  | .attr w a => replace v (.attr (if descends v.data w then visitE v false w else w) a)
  | .op t ks => .op t (visitEs v ks)
  | .other t ks => .other t (visitEs v ks)
def visitEs (v : Env) : Es → Es
  | .nil => .nil
  | .cons pos e rest => .cons pos (visitE v pos e) (visitEs v rest)
end

/-- The first wildcard that matches; base.py:255-258, 264-267. -/
def firstWild (T : Tables) (api : Str) : Option Entry := (T.wild.find? fun w => w.1 api).map (·.2)

/-- `in_min_mode` in min mode; base.py:251-271. An entry of the tables is not an empty dictionary, so it is true as a condition. -/
def inMinMode (T : Tables) (api : Str) : Bool :=
  let api := canonical T api
  let usable (o : Option Entry) : Option Entry := o.filter fun e => !e.disable
  match usable ((T.api.get? api).or (firstWild T api)) with
  | some e => e.matcher == some py"ChangePrefixMatcher"
  | none =>
    match usable ((T.attr.get? api).or (firstWild T api)) with
    | some e => e.matcher == some py"ChangePrefixMatcher"
    | none => false

end Verif.Uses

import Verif.Py.Str
import Verif.Py.Dict

/-!
# Bindings of names over a file

Models how the passes keep what a name stands for while they walk through a file:
`/repo/paconvert/transformer/import_transformer.py` lines 50-296 (recording and removing imports), 339-380 and 382-501
(uses, and names assigned a torch API), and `replace_torch_module` of `/repo/paconvert/base.py` lines 234-243, which
the later pass applies to the calls and attributes that are left.

Names of APIs are lists of components. Canonical names and min mode (C34, C57, C59) are left out here, as are the
expressions around a use (C57).
-/

namespace Verif.Bind
open Verif

abbrev Api := List Str

/-- Programs. A use is a name with the attributes after it. -/
inductive S
  | skip
  | seq (a b : S)
  /-- an import statement of a torch package that binds `x` to `api` -/
  | imp (x : Str) (api : Api)
  /-- `x = y.path` -/
  | assign (x y : Str) (path : Api)
  /-- `x = api`, only in converted programs -/
  | assignApi (x : Str) (api : Api)
  /-- any other statement that binds `x` -/
  | bind (x : Str)
  /-- `x.path(...)` -/
  | call (x : Str) (path : Api)
  /-- `api(...)`, only in converted programs -/
  | callApi (api : Api)
  /-- `if` and `try` -/
  | branch (a b : S)
  /-- `while` and `for` -/
  | loop (b : S)
  /-- a function with its parameters -/
  | scope (params : List Str) (body : S)
  deriving Repr, DecidableEq

/-- The entries of `imports_map[file]`: local names of torch imports, and `api_alias_name_map`. -/
structure State where
  names : Dict Str Api := []
  renamed : Dict Str Api := []

/-- The import pass in order of the text. The tables belong to the file: functions neither add a level nor take one
away; import_transformer.py:43-46. -/
def importPass (s : State) : S → State × S
  | .skip => (s, .skip)
  | .seq a b =>
    let (s, a) := importPass s a
    let (s, b) := importPass s b
    (s, .seq a b)
  -- lines 85-99, 241-258: recorded and removed
  | .imp x api => ({ s with names := s.names.set x api }, .skip)
  -- lines 373-379 for a dotted name, 477-500 for a name
  | .assign x y path =>
    match s.names.get? y with
    | some m => (if path = [] then { s with renamed := s.renamed.set x m } else s, .assignApi x (m ++ path))
    | none => (s, .assign x y path)
  | .assignApi x api => (s, .assignApi x api)
  | .bind x => (s, .bind x)
  -- lines 425-441 for a name, then 485-500; 373-379 for a dotted name
  | .call x path =>
    match (if path = [] then s.renamed.get? x else none) with
    | some m => (s, .callApi m)
    | none =>
      match s.names.get? x with
      | some m => (s, .callApi (m ++ path))
      | none => (s, .call x path)
  | .callApi api => (s, .callApi api)
  | .branch a b =>
    let (s, a) := importPass s a
    let (s, b) := importPass s b
    (s, .branch a b)
  | .loop b =>
    let (s, b) := importPass s b
    (s, .loop b)
  | .scope ps b =>
    let (s, b) := importPass s b
    (s, .scope ps b)

/-- What the later pass does to the calls and attributes that are still under a local name, with the complete table;
base.py:234-243. Single names that are not called are not looked at. -/
def laterPass (names : Dict Str Api) : S → S
  | .assign x y path =>
    if path = [] then .assign x y path
    else match names.get? y with
      | some m => .assignApi x (m ++ path)
      | none => .assign x y path
  | .call x path =>
    match names.get? x with
    | some m => .callApi (m ++ path)
    | none => .call x path
  | .seq a b => .seq (laterPass names a) (laterPass names b)
  | .branch a b => .branch (laterPass names a) (laterPass names b)
  | .loop b => .loop (laterPass names b)
  | .scope ps b => .scope ps (laterPass names b)
  | s => s

/-- Both passes on a file. -/
def convert (p : S) : S :=
  let (s, q) := importPass {} p
  laterPass s.names q

end Verif.Bind

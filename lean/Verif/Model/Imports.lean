import Verif.Py.Str
import Verif.Py.Dict
import Verif.Model.Dispatch
import Verif.Model.Scope

/-!
# The import pass

Models the import statements of `/repo/paconvert/transformer/import_transformer.py` lines 43-337 and 503-527.
-/

namespace Verif.Imports
open Verif
open Verif.Dispatch (File)

/-- `ast.alias`: `name as asname`. Python's grammar has no empty `asname`, so `if alias_node.asname` is `asname is not None`. -/
structure Alias where
  name : Str
  asname : Option Str := none
  deriving DecidableEq, Repr

/-- An import statement: `import ..` or `from <level dots><module> import ..`. -/
inductive Imp
  | import_ (names : List Alias)
  | from_ (module : Option Str) (level : Nat) (names : List Alias)
  deriving DecidableEq, Repr

/-- What the pass looks at besides the statement. `isLocal m` is the test whether the module `m` lies in the directory of the file,
`os.path.exists(..) or os.path.exists(.. + ".py")`, import_transformer.py:65-67, 225-227. -/
structure Cfg where
  file : Str
  min : Bool
  isLocal : Str → Bool
  /-- `TORCH_PACKAGE_MAPPING` -/
  torch : Dict Str Str
  /-- `MAY_TORCH_PACKAGE_LIST` -/
  may : List Str
  /-- `IMPORT_PACKAGE_MAPPING` -/
  mapped : Dict Str Str

/-- `set.add`: a set is a list without repetitions, in some order. -/
def add (s : List Str) (x : Str) : List Str := if x ∈ s then s else s ++ [x]

/-- The first package of the two tables that a module name belongs to; import_transformer.py:73-80, 232-236. -/
def packageOf (c : Cfg) (m : Str) : Option Str :=
  (c.torch.keys ++ c.may).find? fun p => Str.startsWith m (p ++ py".") || p == m

/-- The first key of `IMPORT_PACKAGE_MAPPING` for a module name: `f"{pkg_name}." in name or pkg_name == name`, with its value;
import_transformer.py:115-116, 299-300. -/
def mappedOf (c : Cfg) (m : Str) : Option (Str × Str) :=
  c.mapped.find? fun kv => Str.contains m (kv.1 ++ py".") || kv.1 == m

/-- Recording the package; import_transformer.py:81-84, 237-240. -/
def addPackage (c : Cfg) (f : File) (p : Str) : File :=
  if p ∈ c.may then { f with may := add f.may p } else { f with torch := add f.torch p }

/-- `insert_other_packages` for one alias of `import`; import_transformer.py:333-337. -/
def addOther (f : File) (a : Alias) : File := { f with other := add f.other (a.asname.getD a.name) }

/-- `insert_other_packages` for `from .. import`; import_transformer.py:323-332. -/
def addOthers (f : File) (names : List Alias) : File :=
  names.foldl (fun f a =>
    match a.asname with
    | some n => { f with other := add f.other n }
    | none => if a.name ≠ py"*" then { f with other := add f.other a.name } else f) f

/-- The loop over the aliases of `import ..`; import_transformer.py:61-157. The result is `new_node_names`; `break` after an alias of
a module of the project. -/
def importLoop (c : Cfg) : List Alias → File → List Alias × File
  | [], f => ([], f)
  | a :: rest, f =>
    if c.isLocal a.name then ([a], addOther f a)
    else
      match packageOf c a.name with
      | some p =>
        let f := addPackage c f p
        let f := { f with names := f.names.set (a.asname.getD a.name) a.name }
        let r := importLoop c rest f
        (if c.min then a :: r.1 else r.1, r.2)
      | none =>
        match mappedOf c a.name with
        | some (k, v) =>
          let new : Alias :=
            match a.asname with
            | some n => { name := Str.replace a.name k v, asname := some n }
            | none => { name := v, asname := some k }
          let r := importLoop c rest f
          (new :: r.1, r.2)
        | none =>
          let r := importLoop c rest (addOther f a)
          (a :: r.1, r.2)

/-- The relative imports of files with `huggingface_internal` in their path; import_transformer.py:201-218. -/
def hfModule (c : Cfg) (module : Option Str) (level : Nat) : Str :=
  let pre :=
    if Str.contains c.file py"pipeline_" then
      if level = 3 then py"diffusers" else py"diffusers.pipelines"
    else
      if level = 3 then py"transformers" else py"transformers.models"
  match module with
  | some m => if m = [] then pre else pre ++ py"." ++ m
  | none => pre

/-- What happens to an import statement: it is kept (possibly changed) or has to go (`pass` or nothing). -/
inductive Fate
  | keep (s : Imp)
  | gone
  deriving DecidableEq, Repr

/-- Binding the names of `from <torch module> import ..`; import_transformer.py:241-258. -/
def bindNames (module : Str) (names : List Alias) (f : File) : File :=
  names.foldl (fun f a => { f with names := f.names.set (a.asname.getD a.name) (module ++ py"." ++ a.name) }) f

/-- `visit_ImportFrom` from step 2 on; import_transformer.py:231-320. -/
def fromAbsolute (c : Cfg) (module : Str) (level : Nat) (names : List Alias) (f : File) : Fate × File :=
  match packageOf c module with
  | some p =>
    let f := bindNames module names (addPackage c f p)
    (if c.min then .keep (.from_ (some module) level names) else .gone, f)
  | none =>
    match mappedOf c module with
    | some (k, v) => (.keep (.from_ (some (Str.replace module k v)) level names), f)
    | none => (.keep (.from_ (some module) level names), addOthers f names)

/-- `visit_Import` and `visit_ImportFrom` up to the choice between `pass` and nothing; import_transformer.py:50-161, 189-320. A
`from` import without module has a level (Python's grammar), so the last case does not occur. -/
def visitImp (c : Cfg) (s : Imp) (f : File) : Fate × File :=
  match s with
  | .import_ names =>
    let r := importLoop c names f
    (if r.1.isEmpty then .gone else .keep (.import_ r.1), r.2)
  | .from_ module level names =>
    if 0 < level then
      if Str.contains c.file py"huggingface_internal" && (level == 2 || level == 3) then
        fromAbsolute c (hfModule c module level) 0 names f
      else (.keep (.from_ module level names), addOthers f names)
    else
      match module with
      | some m =>
        if c.isLocal m then (.keep (.from_ module level names), addOthers f names)
        else fromAbsolute c m level names f
      | none => (.keep (.from_ module level names), f)

/-! ## The statements of a file -/

mutual
/-- Statements as far as the pass changes them. -/
inductive PStmt
  | imp (s : Imp)
  | pass
  /-- a simple statement that is no import -/
  | plain (id : Nat)
  /-- a node with blocks; `ifTry`: it is an `ast.If` or `ast.Try`. The blocks in the order in which they are visited. An `except` clause is
  such a node too, with `ifTry` false, in the third block of its `try`. -/
  | comp (id : Nat) (ifTry : Bool) (blocks : PBlocks)
inductive PBlock
  | nil
  | cons (s : PStmt) (rest : PBlock)
inductive PBlocks
  | nil
  | cons (b : PBlock) (rest : PBlocks)
end

def PBlock.toList : PBlock → List PStmt
  | .nil => []
  | .cons s rest => s :: rest.toList

def PBlocks.toList : PBlocks → List PBlock
  | .nil => []
  | .cons b rest => b :: rest.toList

/-- `imports_map[file]` and `insert_pass_node`. -/
structure St where
  file : File := {}
  passed : List Nat := []

/-- An import that has to go: `pass` for the first one in an `if` or `try`, nothing otherwise; import_transformer.py:162-187,
272-296. `parent` is the parent node with the test `isinstance(self.parent_node, (ast.If, ast.Try))`. -/
def removed (parent : Nat × Bool) (st : St) : Option PStmt × St :=
  if parent.2 && !(parent.1 ∈ st.passed : Bool) then (some .pass, { st with passed := st.passed ++ [parent.1] }) else (none, st)

mutual
/-- Visiting a statement; `none` if the visitor returns `None`. -/
def visitStmt (c : Cfg) (parent : Nat × Bool) : PStmt → St → Option PStmt × St
  | .imp s, st =>
    match visitImp c s st.file with
    | (.keep s', f) => (some (.imp s'), { st with file := f })
    | (.gone, f) => removed parent { st with file := f }
  | .pass, st => (some .pass, st)
  | .plain i, st => (some (.plain i), st)
  | .comp i k bs, st =>
    let r := visitBlocks c (i, k) bs st
    (some (.comp i k r.1), r.2)
/-- `generic_visit` of a list of statements: those for which the visitor returns `None` disappear. -/
def visitBlock (c : Cfg) (parent : Nat × Bool) : PBlock → St → PBlock × St
  | .nil, st => (.nil, st)
  | .cons s rest, st =>
    let a := visitStmt c parent s st
    let b := visitBlock c parent rest a.2
    (match a.1 with | some s' => .cons s' b.1 | none => b.1, b.2)
def visitBlocks (c : Cfg) (parent : Nat × Bool) : PBlocks → St → PBlocks × St
  | .nil, st => (.nil, st)
  | .cons b rest, st =>
    let x := visitBlock c parent b st
    let y := visitBlocks c parent rest x.2
    (.cons x.1 y.1, y.2)
end

/-! ## The imports added -/

/-- The packages that get an import, in the order in which they are recorded; import_transformer.py:509-516. `torch` and `may` are the two sets
in the order in which Python iterates over them. A torch package that is not in the table would be a `KeyError`; it comes from that table. -/
def paddlePackages (c : Cfg) (torch may : List Str) : List Str :=
  torch.filterMap (fun p => c.torch.get? p) ++ may

/-- The lines recorded at the start of the module; import_transformer.py:518-526: one call of `record_scope` per package, the line is
`import <package>` and is given by the package. -/
def importLines (c : Cfg) (torch may : List Str) : Dict Nat (List Str) :=
  (paddlePackages c torch may).foldl (fun d p => Scope.record (fun x => x) d 0 [p]) []

/-- The module body after the pass: the added imports (by package, `Sum.inl`) and the statements; base.py:55-57, 100-118. -/
def runImports (c : Cfg) (body : PBlock) (torch may : List Str) : List (Str ⊕ PStmt) :=
  Scope.insertScope ((visitBlock c (0, false) body {}).1.toList.map Sum.inr)
    ((importLines c torch may).map fun kv => (kv.1, kv.2.map Sum.inl))

end Verif.Imports

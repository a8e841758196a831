import Verif.Model.Imports

/-!
# What C27-C31 say about import statements
-/

namespace Verif.Imports
open Verif

/-- One name that an import statement brings in: from which module (with the number of leading dots), which member of it (`none` for
`import module`), and the name after `as` or else the name as written. -/
structure Bind where
  module : Option Str
  level : Nat
  member : Option Str
  as_ : Str
  deriving DecidableEq, Repr

/-- What a statement brings in, one item per name in it. -/
def Imp.binds : Imp → List Bind
  | .import_ names => names.map fun a => ⟨some a.name, 0, none, a.asname.getD a.name⟩
  | .from_ module level names => names.map fun a => ⟨module, level, some a.name, a.asname.getD a.name⟩

/-- The full name of what is brought in. -/
def Bind.full (b : Bind) : Str :=
  match b.member with
  | none => b.module.getD []
  | some n => b.module.getD [] ++ py"." ++ n

/-- `m` is the package `p` or one of its modules. -/
def InPackage (m p : Str) : Prop := m = p ∨ ∃ t, m = p ++ '.' :: t

/-- A torch package or a package that may be used with torch. -/
def Listed (c : Cfg) (p : Str) : Prop := p ∈ c.torch.keys ∨ p ∈ c.may

/-- An import from a torch package that is not a module of the project. -/
def Bind.Torch (c : Cfg) (b : Bind) : Prop :=
  b.level = 0 ∧ ∃ m, b.module = some m ∧ c.isLocal m = false ∧ ∃ p, Listed c p ∧ InPackage m p

mutual
/-- All import statements of a program, from top to bottom. -/
def PStmt.imps : PStmt → List Imp
  | .imp s => [s]
  | .pass => []
  | .plain _ => []
  | .comp _ _ bs => bs.imps
def PBlock.imps : PBlock → List Imp
  | .nil => []
  | .cons s rest => s.imps ++ rest.imps
def PBlocks.imps : PBlocks → List Imp
  | .nil => []
  | .cons b rest => b.imps ++ rest.imps
end

/-- All names brought in by a program. -/
def PBlock.binds (b : PBlock) : List Bind := b.imps.flatMap Imp.binds

/-- The package that the import pass takes a torch import to come from: the first one in the two tables. -/
def Bind.package (c : Cfg) (b : Bind) : Option Str := packageOf c (b.module.getD [])

/-- The import statements for which the claims hold: nothing follows a module of the project in the same `import`, no module name matches a
package that is replaced as a whole, `from` imports have names, as the grammar requires, and the special treatment of relative imports does not apply. -/
def Regular (c : Cfg) : Imp → Prop
  | .import_ names => (∀ a ∈ names.dropLast, c.isLocal a.name = false) ∧ ∀ a ∈ names, mappedOf c a.name = none
  | .from_ module level names => names ≠ [] ∧
    (0 < level → ¬ (Str.contains c.file py"huggingface_internal" = true ∧ (level = 2 ∨ level = 3))) ∧
    (level = 0 → ∃ m, module = some m ∧ mappedOf c m = none)

mutual
/-- The identities of the compound statements. -/
def PStmt.ids : PStmt → List Nat
  | .comp i _ bs => i :: bs.ids
  | _ => []
def PBlock.ids : PBlock → List Nat
  | .nil => []
  | .cons s rest => s.ids ++ rest.ids
def PBlocks.ids : PBlocks → List Nat
  | .nil => []
  | .cons b rest => b.ids ++ rest.ids
end

mutual
/-- The body (the first block) of every `if` and `try` in the program has a statement. -/
def PStmt.BodiesFilled : PStmt → Prop
  | .comp _ ifTry bs =>
    (ifTry = true → match bs with | .nil => True | .cons b _ => b.toList ≠ []) ∧ bs.BodiesFilled
  | _ => True
def PBlock.BodiesFilled : PBlock → Prop
  | .nil => True
  | .cons s rest => s.BodiesFilled ∧ rest.BodiesFilled
def PBlocks.BodiesFilled : PBlocks → Prop
  | .nil => True
  | .cons b rest => b.BodiesFilled ∧ rest.BodiesFilled
end

mutual
/-- The program without its import statements and without `pass`. -/
def PStmt.strip : PStmt → Option PStmt
  | .imp _ => none
  | .pass => none
  | .plain i => some (.plain i)
  | .comp i k bs => some (.comp i k bs.strip)
def PBlock.strip : PBlock → PBlock
  | .nil => .nil
  | .cons s rest => match s.strip with | some s' => .cons s' rest.strip | none => rest.strip
def PBlocks.strip : PBlocks → PBlocks
  | .nil => .nil
  | .cons b rest => .cons b.strip rest.strip
end

end Verif.Imports

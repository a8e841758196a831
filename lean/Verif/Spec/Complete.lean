import Verif.Spec.Files
import Verif.Model.Complete

/-!
# What a converted project needs
-/

namespace Verif.Complete
open Verif Verif.Files

/-- A raw string literal of Python behind `r'` (the literal is not `r''`, which could begin three quotes): its value and
what follows the closing quote. A backslash stays and takes the next character with it; a line end or the end of the
text is an error. -/
def readRaw : Str → Option (Str × Str)
  | [] => none
  | '\'' :: rest => some ([], rest)
  | '\n' :: _ => none
  | ['\\'] => none
  | '\\' :: c :: rest => (readRaw rest).map fun p => ('\\' :: c :: p.1, p.2)
  | c :: rest => (readRaw rest).map fun p => (c :: p.1, p.2)

/-- The directory that a line `sys.path.append(r'...')` adds; `none`: it is no such line. -/
def added (line : Str) : Option Str :=
  if Str.startsWith line py"sys.path.append(r'" then
    match readRaw (line.drop 18) with
    | some (d, rest) => if rest = py")" then some d else none
    | none => none
  else none

/-- The file that `import name` reads: the first directory of `sys.path` that has the module, as a file or as a package. -/
def findModule (fs : FS) (name : Str) : List Path → Option Path
  | [] => none
  | d :: ds =>
    if isFile fs (d ++ [name] ++ [py"__init__.py"]) then some (d ++ [name] ++ [py"__init__.py"])
    else if isFile fs (d ++ [name ++ py".py"]) then some (d ++ [name ++ py".py"])
    else findModule fs name ds

/-- The components of a path are not empty and have no slash. -/
def Proper (p : Path) : Prop := ∀ c ∈ p, c ≠ [] ∧ '/' ∉ c

end Verif.Complete

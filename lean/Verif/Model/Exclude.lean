import Verif.Model.Pipeline

/-!
# The option `--exclude_packages`

Models `/repo/paconvert/main.py` lines 137-140 and the effect of the smaller table of packages on
`ChangePrefixMatcher.get_paddle_api`, `/repo/paconvert/api_matcher.py` lines 369-379.
-/

namespace Verif.Exclude
open Verif
open Verif.Dispatch (Err Expr File Tables replaceModule fullAttrStrict blackList decideCall getMatcher)

/-- `for package in exclude_packages: TORCH_PACKAGE_MAPPING.pop(package)`; main.py:139-140. -/
def pops : List Str → Dict Str Str → Except Err (Dict Str Str)
  | [], d => .ok d
  | p :: ps, d => if d.has p then pops ps (d.erase p) else .error .keyError

/-- `if args.exclude_packages: ..`; main.py:137-140. `none`: the option is not given. -/
def exclude (option : Option Str) (d : Dict Str Str) : Except Err (Dict Str Str) :=
  match option with
  | none => .ok d
  | some s => if s = [] then .ok d else pops (Str.splitOn ',' s) d

/-- A call up to `matcher.get_paddle_api()` in default mode; basic_transformer.py:456-480, 555-669: which matcher is asked, and for which API.
The matcher for prefix-only APIs fails if the package is not in the table; api_matcher.py:373-376. -/
def asked (T : Tables) (packages : Dict Str Str) (f : File) (hit : Str → Str → Bool) (func : Expr) :
    Except Err (Option (Str × Str)) := do
  let full ← replaceModule f (fullAttrStrict f (blackList f) hit func)
  let use (api : Str) : Except Err (Option (Str × Str)) := do
    match ← getMatcher T T.api api with
    | some (m, c) =>
      if m = py"ChangePrefixMatcher" ∧ packages.has (Matcher.firstComponent c) = false then .error .assertionError
      else return some (m, c)
    | none => return none
  match decideCall T f full with
  | .package api => use api
  | .cls api => use api
  | .leave => return none

end Verif.Exclude

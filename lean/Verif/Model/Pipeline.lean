import Verif.Model.Imports
import Verif.Model.Uses
import Verif.Model.Tables

/-!
# A call through both passes

`/repo/paconvert/converter.py` lines 436-457 runs the import pass and then the pass of `BasicTransformer` on the same tree and with the
same `imports_map`. Here the two are put together for one call of an API whose matcher is `ChangePrefixMatcher`.
-/

namespace Verif.Pipeline
open Verif
open Verif.Uses (E Env visitE)
open Verif.Dispatch (File Expr Err replaceModule fullAttrStrict blackList decideCall getMatcher)
open Verif.Matcher (Arg Kw plainCall prefixApi prefixDropped)

/-- An expression as the second pass sees it; `src` is the source text of an operation. -/
def toExpr (src : E → Str) : E → Expr
  | .name i => .name i
  | .attr v a => .attr (toExpr src v) a
  | .op t ks => .op (src (.op t ks))
  | .other _ _ => .other

/-- The entry that a matcher built for a name reads: `GlobalManager.API_MAPPING[self.torch_api]`. -/
def entryOf (api : Str) : Option Data.Raw := Data.apiTable.find? fun r => r.name == api

/-- Which matcher gets the call of `func` in default mode, and for which API: the import pass visits the function (`v` is what it knows at that
point, the function of a call is at a place that `visit_Name` handles), then `visit_Call` of the second pass, with what is known at the end
of the file in `f`; basic_transformer.py:456-476. `none`: no matcher, or no call of an API of a package. -/
def dispatchCall (v : Env) (f : File) (hit : Str → Str → Bool) (src : E → Str) (func : E) : Except Err (Option (Str × Str)) := do
  let full ← replaceModule f (fullAttrStrict f (blackList f) hit (toExpr src (visitE v true func)))
  match decideCall Data.shipped f full with
  | .package api => getMatcher Data.shipped Data.shipped.api api
  | _ => return none

/-- `func(args, kws)` through both passes; basic_transformer.py:456-553, api_matcher.py:368-390. The result is the text of the new call; `none`
if the call is not converted or the matcher is another one than `ChangePrefixMatcher`. -/
def convertCall (v : Env) (f : File) (hit : Str → Str → Bool) (src : E → Str) (func : E) (args : List Arg) (kws : List Kw) :
    Except Err (Option Str) := do
  match ← dispatchCall v f hit src func with
  | some (m, c) =>
    if m = py"ChangePrefixMatcher" then
      return (entryOf c).bind fun r => (prefixApi Data.torchPackages c).bind fun p => plainCall r.cfg prefixDropped p args kws
    else return none
  | none => return none

end Verif.Pipeline

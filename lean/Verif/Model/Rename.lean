import Verif.Model.Matcher
import Verif.Model.Dispatch

/-!
# `Tensor.rename`
-/

namespace Verif.Members
open Verif Verif.Matcher

/-- `TensorRenameMatcher.get_paddle_class_nodes`; api_matcher.py:1693-1701. The positional arguments are not looked at. -/
def tensorRename (cfg : Cfg) (kws : List Kw) : Dispatch.Res :=
  match parseKwargs cfg false kws [] with
  | none => .nothing
  | some d => if d.has (some py"columns") then .misidentify else .nothing

end Verif.Members

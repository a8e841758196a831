import Verif.Model.Matcher

/-!
# Matchers that read the arguments themselves

Models the five matchers of `/repo/paconvert/api_matcher.py` that override `get_paddle_nodes` or
`get_paddle_class_nodes` and call neither `parse_args_and_kwargs` nor `generate_code`: `CheckPointMatcher` (435-447),
`HubLoadMatcher` (450-464), `MakeTMatcher` (948-999), `Chain_MatmulMatcher` (3257-3272) and `TensorStftMatcher`
(5551-5563). The final `ast.parse` is left out: the result is the text given to it.
-/

namespace Verif.Matcher
open Verif

/-- What the matcher does: it gives a text, returns `None`, or raises an exception. -/
inductive Direct
  | code (t : Str)
  | refuse
  | error
  deriving DecidableEq, Repr

/-- api_matcher.py:440. -/
def checkpointDropped : List Str := [py"context_fn", py"determinism_check", py"debug"]

/-- `CheckPointMatcher.get_paddle_nodes`; api_matcher.py:435-447. -/
def checkpoint (cfg : Cfg) (api : Str) (args : List Arg) (kws : List Kw) : Direct :=
  match parseKwargs cfg true kws [] with
  | none => .error
  | some d => .code (api ++ py"(" ++ argsAndKwargsToStr (parsePlain args) (dropKeys checkpointDropped d) ++ py")")

/-- api_matcher.py:457. -/
def hubDropped : List Str := [py"trust_repo", py"verbose", py"skip_validation"]

/-- `kwargs["repo_dir"] = kwargs.pop("repo_or_dir")`; api_matcher.py:455-456. -/
def hubRename (d : Kwargs) : Kwargs :=
  match d.get? (some py"repo_or_dir") with
  | none => d
  | some v => (d.erase (some py"repo_or_dir")).set (some py"repo_dir") v

/-- `HubLoadMatcher.get_paddle_nodes`; api_matcher.py:450-464. -/
def hubLoad (cfg : Cfg) (api : Str) (args : List Arg) (kws : List Kw) : Direct :=
  match parseKwargs cfg true kws [] with
  | none => .error
  | some d => .code (api ++ py"(" ++ argsAndKwargsToStr (parsePlain args) (dropKeys hubDropped (hubRename d)) ++ py")")

/-- `TensorStftMatcher.get_paddle_class_nodes`; api_matcher.py:5551-5563. `func` is the text of the called attribute. -/
def tensorStft (cfg : Cfg) (func api : Str) (args : List Arg) (kws : List Kw) : Direct :=
  match parseKwargs cfg true kws [] with
  | none => .error
  | some d =>
    let code := parseFunc func api ++ py"(" ++ argsAndKwargsToStr (parsePlain args) (d.erase (some py"return_complex")) ++ py")"
    .code (if d.get? (some py"return_complex") = some py"(False)" then code ++ py".as_real()" else code)

/-- `Chain_MatmulMatcher.get_paddle_nodes`; api_matcher.py:3257-3272. -/
def chainMatmul (cfg : Cfg) (args : List Arg) (kws : List Kw) : Direct :=
  if args.length = 1 ∧ args.any (·.starred) then .refuse
  else match parseKwargs cfg false kws [] with
    | none => .refuse
    | some d =>
      match parsePlain args with
      | [] => .error
      | a :: rest =>
        let code := rest.foldl (fun code arg => code ++ py" @ " ++ arg) a
        match d.get? (some py"out") with
        | none => .code code
        | some o =>
          if o = py"None" then .code code else .code (py"paddle.assign(" ++ code ++ py", output=" ++ o ++ py")")

/-- One character of `repr` of a text in the quotes `q`. Characters that `str.isprintable` rejects, other than the
three here, are kept as they are. -/
def reprChar (q c : Char) : Str :=
  if c = '\\' then ['\\', '\\']
  else if c = '\n' then ['\\', 'n']
  else if c = '\t' then ['\\', 't']
  else if c = '\r' then ['\\', 'r']
  else if c = q then ['\\', c]
  else [c]

/-- `repr` of a text. -/
def reprText (s : Str) : Str :=
  let q := if '\'' ∈ s ∧ '"' ∉ s then '"' else '\''
  q :: s.flatMap (reprChar q) ++ [q]

/-- `str(l)` of a list of texts. -/
def reprList (l : List Str) : Str := py"[" ++ Str.join py", " (l.map reprText) ++ py"]"

/-- `s.replace("'", "")`. -/
def noQuotes (s : Str) : Str := s.filter (· ≠ '\'')

/-- The shape from the positional arguments; api_matcher.py:952-958. `const`: the first argument is an `ast.Constant`.
The text of a starred argument is a star and the text of its value. `none`: an `IndexError`. -/
def makeShape (const : Bool) : List Arg → Option Str
  | [] => none
  | [a] => some (if const then noQuotes (reprList [a.src]) else if a.starred then noQuotes (a.src.drop 1) else noQuotes a.src)
  | args => some (noQuotes (reprList (parsePlain args)))

/-- The first line of the code; api_matcher.py:971-981, 984-986. -/
def uniformText (shape dtype low high device : Str) : Str :=
  py"paddle.uniform(" ++ shape ++ py", dtype=" ++ dtype ++ py", min=" ++ low ++ py", max=" ++ high ++ py").to(" ++ device ++ py")"

/-- `MakeTMatcher.get_paddle_nodes`; api_matcher.py:948-999. The errors are: `"shape" not in None` for a `**`
argument, `args[0]` of an empty list, and `kwargs["device"]`. -/
def makeTensor (cfg : Cfg) (const : Bool) (args : List Arg) (kws : List Kw) : Direct :=
  match parseKwargs cfg false kws [] with
  | none => .error
  | some d =>
    match (d.get? (some py"shape")).orElse fun _ => makeShape const args, d.get? (some py"device") with
    | some shape, some device =>
      let text := uniformText shape ((d.get? (some py"dtype")).getD py"float32") ((d.get? (some py"low")).getD py"0")
        ((d.get? (some py"high")).getD py"1") device
      match d.get? (some py"requires_grad") with
      | none => .code (py"\n" ++ text ++ py"\n")
      | some g => .code (py"\nout = " ++ text ++ py"\nout.stop_gradient = not " ++ g ++ py"\nout\n")
    | _, _ => .error

end Verif.Matcher

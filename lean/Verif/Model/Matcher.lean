import Verif.Py.Str
import Verif.Py.Dict
import Verif.Py.Sub

/-!
# Argument handling of the matchers

Models `BaseMatcher` of `/repo/paconvert/base.py` lines 328-581 and the generic matchers of
`/repo/paconvert/api_matcher.py` lines 55-166 and 367-432.

Expressions are represented by the text that `astor.to_source(node).strip("\n")` gives, together with the facts
about the node that the code looks at.
-/

namespace Verif.Matcher
open Verif

/-- A positional argument. -/
structure Arg where
  src : Str
  /-- `isinstance(node, ast.Starred)` -/
  starred : Bool := false
  deriving DecidableEq, Repr

/-- A keyword argument; `arg = none` is `**value`. -/
structure Kw where
  arg : Option Str
  src : Str
  /-- the value is the constant `None` -/
  isNone : Bool := false
  deriving DecidableEq, Repr

/-- A value of the `kwargs_change` table: a name (possibly empty) or a list of names. JSON `null` is treated by
the code like an empty name. -/
inductive Change
  | one (s : Str)
  | many (l : List Str)
  deriving DecidableEq, Repr

/-- The names an argument is renamed to; nothing for an empty name or an empty list. base.py:477-482. -/
def Change.targets : Change → List Str
  | .one s => if s = [] then [] else [s]
  | .many l => l

/-- An entry of `api_mapping.json` (the keys that the modelled code reads). -/
structure Cfg where
  argsList : List Str := []
  overload : List Str := []
  minInput : Nat := 0
  unsupport : List Str := []
  change : Dict Str Change := []
  defaults : Dict Str Str := []
  paddleApi : Option Str := none

/-- Dictionary of parsed arguments. The key `none` is Python's `None`. -/
abbrev Kwargs := Dict (Option Str) Str

/-- Pieces of a list between the elements `"*"`. -/
def splitStar : List Str → List (List Str)
  | [] => [[]]
  | x :: xs =>
    if x = py"*" then [] :: splitStar xs
    else match splitStar xs with
      | [] => [[x]]
      | p :: ps => (x :: p) :: ps

/-- `group_list`; base.py:346-348. -/
def groups (l : List Str) : List (List Str) := (splitStar l).filter (fun g => !g.isEmpty)

/-- `posion_args_list` and `force_kwargs_list`; base.py:349-350. -/
def posArgs (cfg : Cfg) : List Str := (groups cfg.argsList).headD []
def forceArgs (cfg : Cfg) : List Str := ((groups cfg.argsList)[1]?).getD []

/-- Result of the loop over the keywords; base.py:356-371. `kept` is the list after the removals. -/
inductive Scan
  | refuse
  | misidentify
  | ok (kept : List Kw) (force : Nat)
  deriving DecidableEq, Repr

def Scan.cons (k : Kw) (f : Nat) : Scan → Scan
  | .ok kept force => .ok (k :: kept) (force + f)
  | r => r

/-- base.py:356-371. The list is changed while it is iterated over: after `kwargs.remove(node)` the iterator
steps over the keyword that follows. -/
def scanKw (cfg : Cfg) (allowNone : Bool) : List Kw → Scan
  | [] => .ok [] 0
  | n :: rest =>
    match n.arg with
    | none => if allowNone then .misidentify else .refuse
    | some k =>
      if k ∈ cfg.unsupport then
        if n.isNone then
          match rest with
          | [] => .ok [] 0
          | m :: rest' => (scanKw cfg allowNone rest').cons m 0
        else .refuse
      else if k ∉ cfg.argsList ++ cfg.overload then .misidentify
      else (scanKw cfg allowNone rest).cons n (if k ∈ forceArgs cfg then 1 else 0)

/-- Result of `parse_args_and_kwargs`: `None`, `"misidentify"`, an `IndexError`, or the dictionary. -/
inductive Parsed
  | refuse
  | misidentify
  | indexError
  | ok (d : Kwargs)
  deriving DecidableEq, Repr

/-- base.py:380-387. -/
def bindPos (cfg : Cfg) : List Str → List Arg → Kwargs → Parsed
  | _, [], d => .ok d
  | [], _ :: _, _ => .indexError
  | k :: ks, a :: as, d =>
    if k ∈ cfg.unsupport then .refuse else bindPos cfg ks as (d.set (some k) a.src)

/-- base.py:389-399. -/
def bindKw (kws : List Kw) (d : Kwargs) : Kwargs := kws.foldl (fun d n => d.set n.arg n.src) d

/-- `parse_args_and_kwargs`; base.py:337-401. -/
def parseArgs (cfg : Cfg) (args : List Arg) (kws : List Kw) (allowStarred : Bool := false)
    (allowNone : Bool := false) : Parsed :=
  if args.any (·.starred) && !allowStarred then .refuse
  else match scanKw cfg allowNone kws with
    | .refuse => .refuse
    | .misidentify => .misidentify
    | .ok kept force =>
      let n : Int := args.length + kept.length - force
      if n < cfg.minInput then .misidentify
      else if n > (posArgs cfg).length then .misidentify
      else match bindPos cfg (posArgs cfg) args [] with
        | .ok d => .ok (bindKw kept d)
        | r => r

/-- `parse_args`; base.py:403-411. -/
def parsePlain (args : List Arg) : List Str := args.map (·.src)

/-- `parse_kwargs`; base.py:413-428. -/
def parseKwargs (cfg : Cfg) (allowNone : Bool) : List Kw → Kwargs → Option Kwargs
  | [], d => some d
  | n :: rest, d =>
    match n.arg with
    | none => if allowNone then parseKwargs cfg allowNone rest (d.set none n.src) else none
    | some k => if k ∈ cfg.unsupport then none else parseKwargs cfg allowNone rest (d.set (some k) n.src)

/-- `"{}".format(k)`. -/
def keyText : Option Str → Str
  | none => py"None"
  | some k => k

/-- `args_to_str`; base.py:444-449. -/
def argsToStr (args : List Str) : Str := Str.join py", " args

/-- `kwargs_to_str`; base.py:451-456. -/
def kwargsToStr (d : Kwargs) : Str := Str.join py", " (d.map fun kv => keyText kv.1 ++ py"=" ++ kv.2)

/-- One keyword as `args_and_kwargs_to_str` writes it; base.py:463-468. -/
def kwText (kv : Option Str × Str) : Str :=
  match kv.1 with
  | none => py"**" ++ kv.2
  | some k => k ++ py"=" ++ kv.2

/-- `args_and_kwargs_to_str`; base.py:458-470. -/
def argsAndKwargsToStr (args : List Str) (d : Kwargs) : Str := Str.join py", " (args ++ d.map kwText)

/-- One round of the loop of `change_kwargs`; base.py:475-486. -/
def changeStep (cfg : Cfg) (unuse : List Str) (new : Kwargs) (kv : Option Str × Str) : Kwargs :=
  match kv.1.bind (fun k => cfg.change.get? k) with
  | some c => c.targets.foldl (fun d t => d.set (some t) kv.2) new
  | none =>
    let new := new.set kv.1 kv.2
    if kv.1.any (fun k => decide (k ∈ unuse)) then new.erase kv.1 else new

/-- `change_kwargs`; base.py:472-487. -/
def changeKwargs (cfg : Cfg) (unuse : List Str) (d : Kwargs) : Kwargs := d.foldl (changeStep cfg unuse) []

/-- `set_paddle_default_kwargs`; base.py:497-508. -/
def setDefaults (cfg : Cfg) (d : Kwargs) : Kwargs :=
  cfg.defaults.foldl (fun d kv => if d.has (some kv.1) then d else d.set (some kv.1) kv.2) d

/-! ## The generic matcher -/

/-- api_matcher.py:101-113. -/
def genericUnuse : List Str :=
  [py"layout", py"device", py"memory_format", py"inplace", py"generator", py"non_blocking", py"async"]

/-- `k in kwargs and k not in kwargs_change_value`. A list value is never equal to the text `k`. -/
def special (cfg : Cfg) (d : Kwargs) (k : Str) : Option Str :=
  if .one k ∈ cfg.change.values then none else d.get? (some k)

/-- `kwargs.pop(k)` under the same condition. -/
def popSpecial (cfg : Cfg) (d : Kwargs) (k : Str) : Kwargs :=
  if .one k ∈ cfg.change.values then d else d.erase (some k)

/-- `s.strip("()")`. -/
def stripParens (s : Str) : Str := Str.stripBy (fun c => c == '(' || c == ')') s

/-- The pieces of the generated code; api_matcher.py:114-134. -/
structure Pieces where
  /-- the keywords of the Paddle call -/
  call : Kwargs
  dtype : Str
  pin : Str
  stopGradient : Str
  out : Str
  deriving DecidableEq, Repr

/-- api_matcher.py:99-132. -/
def genericPieces (cfg : Cfg) (kwargs : Kwargs) : Pieces :=
  let d0 := setDefaults cfg (changeKwargs cfg genericUnuse kwargs)
  let dtype := (special cfg d0 py"dtype").getD py"None"
  let d1 := popSpecial cfg d0 py"dtype"
  let pin := (special cfg d1 py"pin_memory").getD py"(False)"
  let d2 := popSpecial cfg d1 py"pin_memory"
  let sg := match special cfg d2 py"requires_grad" with
    | some v => py"not " ++ stripParens v
    | none => py"None"
  let d3 := popSpecial cfg d2 py"requires_grad"
  let out := (special cfg d3 py"out").getD py"None"
  { call := popSpecial cfg d3 py"out", dtype := dtype, pin := pin, stopGradient := sg, out := out }

/-- The value expression; api_matcher.py:134-140. -/
def genericValue (api : Str) (p : Pieces) : Str :=
  api ++ py"(" ++ kwargsToStr p.call ++ py")"
    ++ (if p.dtype ≠ py"None" then py".astype(" ++ p.dtype ++ py")" else [])
    ++ (if p.pin ≠ py"(False)" then py".pin_memory()" else [])

/-- The whole code; api_matcher.py:134-166. `fresh` is the generated name. -/
def genericCode (api fresh : Str) (p : Pieces) : Str :=
  let code := genericValue api p
  if p.stopGradient ≠ py"None" ∧ p.out ≠ py"None" then
    py"\npaddle.assign(" ++ code ++ py", output=" ++ p.out ++ py")\n" ++ p.out ++ py".stop_gradient = "
      ++ p.stopGradient ++ py"\n" ++ p.out ++ py"\n"
  else if p.stopGradient ≠ py"None" then
    py"\n" ++ fresh ++ py" = " ++ code ++ py"\n" ++ fresh ++ py".stop_gradient = " ++ p.stopGradient ++ py"\n"
      ++ fresh ++ py"\n"
  else if p.out ≠ py"None" then
    py"\npaddle.assign(" ++ code ++ py", output=" ++ p.out ++ py")\n"
  else code

/-! ## `size_average` and `reduce` -/

/-- The text of a flag: api_matcher.py:58-63, 69-74. -/
def flagOf (s : Str) : Option Bool :=
  if Str.contains s py"True" then some true else if Str.contains s py"False" then some false else none

/-- `process_reduce_and_size_average`; api_matcher.py:55-91. -/
def processReduce (d : Kwargs) : Kwargs :=
  let sa := (d.get? (some py"size_average")).bind flagOf
  let d := d.erase (some py"size_average")
  let red := (d.get? (some py"reduce")).bind flagOf
  let d := d.erase (some py"reduce")
  if sa.isSome || red.isSome then
    let sa := sa.getD true
    let red := red.getD true
    d.set (some py"reduction")
      (if sa && red then py"\"\"\"mean\"\"\"" else if red then py"\"\"\"sum\"\"\"" else py"\"\"\"none\"\"\"")
  else d

/-! ## Prefix-only and rename-only matchers -/

/-- `for k in [..]: if k in kwargs: kwargs.pop(k)`. -/
def dropKeys (ks : List Str) (d : Kwargs) : Kwargs := ks.foldl (fun d k => d.erase (some k)) d

/-- api_matcher.py:385 and 428. -/
def prefixDropped : List Str := [py"layout", py"generator", py"memory_format", py"sparse_grad", py"foreach"]
def renameDropped : List Str := [py"layout", py"generator", py"memory_format"]

/-- `ChangePrefixMatcher.get_paddle_nodes` and `ChangeAPIMatcher.get_paddle_nodes` up to `ast.parse`;
api_matcher.py:379-390, 423-432. `none`: a `TypeError`, `parse_kwargs` having returned `None`. -/
def plainCall (cfg : Cfg) (dropped : List Str) (api : Str) (args : List Arg) (kws : List Kw) : Option Str :=
  (parseKwargs cfg true kws []).map fun d =>
    api ++ py"(" ++ argsAndKwargsToStr (parsePlain args) (dropKeys dropped d) ++ py")"

/-- `s.split(".", maxsplit=1)[0]`. -/
def firstComponent (s : Str) : Str := (Str.splitOn '.' s).headD []

/-- `ChangePrefixMatcher.get_paddle_api` in default mode; api_matcher.py:368-377. `none`: failed assertion.
(`str.replace` with an empty old text cannot occur: the empty text is no package.) -/
def prefixApi (packages : Dict Str Str) (torchApi : Str) : Option Str :=
  (packages.get? (firstComponent torchApi)).map fun p => Str.replace torchApi (firstComponent torchApi) p

/-! ## The receiver of a method -/

/-- Text before the last dot: `s[0 : s.rfind(".")]`. Without a dot `rfind` gives -1 and the last character is cut. -/
def beforeLastDot (s : Str) : Str :=
  if '.' ∈ s then ((s.reverse.dropWhile (· != '.')).drop 1).reverse else s.dropLast

/-- `re.escape`. The characters are those of CPython's `_special_chars_map`. -/
def reSpecial : List Char :=
  ['(', ')', '[', ']', '{', '}', '?', '*', '+', '-', '|', '^', '$', '\\', '.', '&', '~', '#', ' ', '\t', '\n',
   '\r', '\x0b', '\x0c']

def reEscape (s : Str) : Str := s.flatMap fun c => if c ∈ reSpecial then ['\\', c] else [c]

/-- Expansion of a replacement template that is the result of `re.escape`: a doubled backslash becomes one, a
backslash before any other (non-alphanumeric) character stays. -/
def expand : Str → Str
  | [] => []
  | '\\' :: '\\' :: s => '\\' :: expand s
  | '\\' :: c :: s => '\\' :: c :: expand s
  | c :: s => c :: expand s

/-- `re.sub(r"\\(.)", r"\1", s)`: a backslash before a character that is not a newline is removed. -/
def unescape : Str → Str
  | [] => []
  | '\\' :: '\n' :: s => '\\' :: '\n' :: unescape s
  | '\\' :: c :: s => c :: unescape s
  | c :: s => c :: unescape s

/-- The alternatives of `class_str`; base.py:433. -/
def classPatterns : List Str :=
  [py"paddle.Tensor", py"paddle.nn.Module", py"paddle.optimizer.Optimizer", py"paddle.optim.Optimizer",
   py"paddle.distribution.Distribution", py"paddle.distributions.distribution.Distribution",
   py"paddle.autograd.function.FunctionCtx", py"paddle.profiler.Profiler"]

/-- A pattern without other metacharacters than `.`, at the beginning of a text. -/
def matchDots : Str → Str → Bool
  | [], _ => true
  | _ :: _, [] => false
  | p :: ps, c :: cs => (if p = '.' then c != '\n' else p == c) && matchDots ps cs

/-- Length of the match of the alternation at the beginning of a text. -/
def classMatch (_ : Option Char) (s : Str) : Nat :=
  match classPatterns.find? (fun p => matchDots p s) with
  | some p => p.length
  | none => 0

/-- The new `paddle_api` of `parse_func`; base.py:430-442, for the source text of the called attribute and the
`paddle_api` of the table. -/
def parseFunc (funcSrc api : Str) : Str :=
  unescape (Str.sub classMatch (fun _ => expand (reEscape (beforeLastDot funcSrc))) api)

end Verif.Matcher

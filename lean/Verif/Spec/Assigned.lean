import Verif.Spec.Template

/-!
# Names that code assigns

A small reader of Python code, for the code that the matchers write: it finds the variables that are assigned. The text of
an argument is taken for one word, that is `#` and the name of the parameter; the receiver is `#`.
-/

namespace Verif.Spec.Assigned
open Verif

/-- A letter, a digit or `_`; `$` is the first character of a new name, `#` the one of a text of the user. -/
def isWord (c : Char) : Bool := c.isAlphanum || c == '_' || c == '$' || c == '#'

/-- The words that are whole expressions: they do not begin with a digit, do not follow a dot and are not followed by a dot
or a bracket. `w` is the word that is being read, the last character first; `dot` tells that it follows a dot. -/
def wordsFrom (w : Str) (dot : Bool) : Str → List Str
  | [] => ended w dot
  | c :: cs =>
    if isWord c then wordsFrom (c :: w) dot cs
    else (if c == '.' || c == '[' || c == '(' then [] else ended w dot) ++ wordsFrom [] (c == '.') cs
where
  ended (w : Str) (dot : Bool) : List Str :=
    match w.getLast? with
    | none => []
    | some d => if dot || d.isDigit then [] else [w.reverse]

def words (t : Str) : List Str := wordsFrom [] false t

/-- What a line without `=` binds: the variables of a loop and the name of an import. -/
def bindings (t : Str) : List Str :=
  match words t with
  | [] => []
  | w :: ws =>
    if w = py"for" then ws.takeWhile (· ≠ py"in")
    else if (w :: ws).contains py"import" then ((w :: ws).getLast?).toList
    else []

structure State where
  /-- inside a string with this quote -/
  quote : Option Char
  /-- the number of open brackets -/
  depth : Nat
  /-- the line up to here, the last character first; `none` after the first call -/
  head : Option Str
  assigned : List Str
  deriving DecidableEq

/-- A bracket after this text is the one of a call. -/
def callee (h : Str) : Bool :=
  match h with
  | [] => false
  | c :: _ => isWord c || c == ')' || c == ']'

/-- The next character. All names before `=` count as assigned, in `a == b` as well. -/
def State.char (s : State) (c : Char) : State :=
  match s.quote with
  | some q => { s with quote := if c == q then none else some q }
  | none =>
    if c == '\'' || c == '"' then { s with quote := some c, head := none }
    else if c == '\n' && s.depth == 0 then
      { s with head := some [], assigned := s.assigned ++ (s.head.map fun h => bindings h.reverse).getD [] }
    else
      let s := { s with depth := if c == '(' || c == '[' || c == '{' then s.depth + 1
                                 else if c == ')' || c == ']' || c == '}' then s.depth - 1 else s.depth }
      match s.head with
      | none => s
      | some h =>
        if c == '=' && s.depth == 0 then { s with head := some [], assigned := s.assigned ++ words h.reverse }
        else if c == '(' && callee h then { s with head := none, assigned := s.assigned ++ bindings h.reverse }
        else { s with head := some (c :: h) }

def State.text (s : State) (t : Str) : State := t.foldl State.char s

/-- A piece as the reader sees it. -/
def seen : Piece → Str
  | .code s => s
  | .name s => '$' :: s
  | .user k | .edited k _ => '#' :: k
  | .recv => py"#"

def first : State := ⟨none, 0, some [], []⟩

/-- The names that the code assigns. -/
def assigned (ps : List Piece) : List Str := (first.text (ps.flatMap seen ++ py"\n")).assigned

example : assigned [.code py"\na, b = f(", .user py"k", .code py", c=1)\nfor i in range(3):\n    x.y= 2\n    z[0] = a\n"] =
    [py"a", py"b", py"i"] := by decide +kernel

example : assigned [.code py"\nimport numpy as np\n", .name py"v", .code py" = (w) = [i for i in 'a=b=']\nf(\n2\n, out=",
    .recv, .code py")\n(p, ", .user py"k", .code py") = ", .name py"v"] =
    [py"np", py"$v", py"w", py"p", py"#k"] := by decide +kernel

/-- The variables that the code of a matcher assigns, apart from generated names; the code of all other matchers assigns
none. -/
def scratch : Dict Str (List Str) :=
  [(py"LuMatcher", [py"tmp_lu", py"tmp_p", py"tmp_info"]),
   (py"SvdMatcher", [py"tmp_u", py"tmp_s", py"tmp_v"]),
   (py"SLogDetMatcher", [py"res"]),
   (py"HistogramMatcher", [py"out1", py"out2"]),
   (py"LinalgLuMatcher", [py"tmp_lu", py"tmp_p", py"P", py"L", py"U"]),
   (py"Lu_unpackMatcher", [py"out1", py"out2", py"out3"]),
   (py"TensorInplaceReserveTypeMatcher", [py"_x_dtype_"]),
   (py"FromBufferMatcher", [py"np", py"buffer", py"dtype"]),
   (py"IndexCopyMatcher", [py"times", py"temp_shape", py"temp_index", py"#input", py"new_t", py"i"]),
   (py"DoubleAssignMatcher", [py"out1", py"out2"]),
   (py"TripleAssignMatcher", [py"out1", py"out2", py"out3"]),
   (py"LinalgInvExMatcher", [py"out1", py"out2"]),
   (py"LinalgCholeskyExMatcher", [py"out1", py"out2"]),
   (py"LRSchedulerMatcher", [py"tmp_lr"]),
   (py"Optim2LrSchedulerMatcher", [py"tmp_lr"]),
   (py"ConstantLRMatcher", [py"tmp_lr"]),
   (py"OneCycleLRMatcher", [py"tmp_lr"]),
   (py"GetNumThreadsMatcher", [py"os"]),
   (py"GetNumInteropThreadsMatcher", [py"os"]),
   (py"MPCpuCountMatcher", [py"os"]),
   (py"MNISTMatcher", [py"os"]),
   (py"CifarMatcher", [py"os"]),
   (py"Flowers102Matcher", [py"os"]),
   (py"GetLoggerMatcher", [py"logging"]),
   (py"FAFlashAttnUnpaddedFuncMatcher", [py"math"])]

/-- A name that `get_unique_name` made. -/
def Generated (w : Str) : Prop := w.head? = some '$'

instance (w : Str) : Decidable (Generated w) := inferInstanceAs (Decidable (_ = _))

end Verif.Spec.Assigned

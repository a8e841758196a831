import Verif.Py.Str
import Verif.Py.Dict
import Verif.Model.Matcher

/-!
# Emitted helper functions, `randint`, names of C++ extensions

Models four small pieces: the helper `dim2perm` (`/repo/paconvert/api_matcher.py` 817-880) and the same swap written
by `AdjointMatcher` (3543-3560), the helper `device2str` and the matcher using it (1047-1065, 4777-4800), the
argument handling of `RandintMatcher` (1621-1635), and the treatment of extension names in
`/repo/paconvert/transformer/custom_op_transformer.py` 78-83, 111-139, 160-212, 229-236.
-/

namespace Verif.Helpers
open Verif

/-! ## Lists indexed as in Python -/

/-- The position that index `i` means in a list of length `n`; `none` is `IndexError`. -/
def pyIndex (n : Nat) (i : Int) : Option Nat :=
  if 0 ≤ i ∧ i < n then some i.toNat
  else if -(n : Int) ≤ i ∧ i < 0 then some (n + i).toNat
  else none

/-- `l[i]`. -/
def pyGet {α : Type} (l : List α) (i : Int) : Option α := (pyIndex l.length i).bind (l[·]?)

/-- `l[i] = v`. -/
def pySet {α : Type} (l : List α) (i : Int) (v : α) : Option (List α) :=
  (pyIndex l.length i).map (l.set · v)

/-- The emitted helper `dim2perm(ndim, dim0, dim1)`; api_matcher.py:822-825. The right-hand side is evaluated first,
then the two assignments are made from left to right. -/
def dim2perm (ndim : Nat) (dim0 dim1 : Int) : Option (List Nat) :=
  let perm := List.range ndim
  match pyGet perm dim1, pyGet perm dim0 with
  | some v0, some v1 => (pySet perm dim0 v0).bind (pySet · dim1 v1)
  | _, _ => none

/-- The statements emitted by `AdjointMatcher`; api_matcher.py:3550-3552. -/
def adjointPerm (ndim : Nat) : Option (List Nat) :=
  let perm := List.range ndim
  match pyGet perm (-2), pyGet perm (-1) with
  | some v0, some v1 => (pySet perm (-1) v0).bind (pySet · (-2) v1)
  | _, _ => none

/-- `paddle.transpose(x, perm)` on the shape of `x`: axis `i` of the result is axis `perm[i]` of `x`. -/
def permuted {α : Type} (shape : List α) (perm : List Nat) : List α := perm.filterMap (shape[·]?)

/-! ## Devices -/

/-- The values `device2str` tells apart. `bool` is a subclass of `int` in Python. `other` is any other object. -/
inductive Dev
  | none
  | bool (b : Bool)
  | int (n : Int)
  | str (s : Str)
  | cpuPlace
  | cudaPlace (id : Nat)
  | other (truthy : Bool)
  deriving DecidableEq, Repr

/-- `bool(v)`. -/
def Dev.truthy : Dev → Bool
  | .none => false
  | .bool b => b
  | .int n => n != 0
  | .str s => !s.isEmpty
  | .cpuPlace => true
  | .cudaPlace _ => true
  | .other t => t

/-- `str(n)` for an integer. -/
def ofInt : Int → Str
  | .ofNat n => Str.ofNat n
  | .negSucc n => '-' :: Str.ofNat (n + 1)

/-- The emitted helper `device2str(type, index, *, device)`; api_matcher.py:1051-1066. `index` is given by the text
`str(index)`. -/
def device2str (type : Dev) (index : Option Str) (device : Dev) : Dev :=
  match (if device.truthy then device else type) with
  | .bool b => .str (py"gpu:" ++ if b then py"True" else py"False")
  | .int n => .str (py"gpu:" ++ ofInt n)
  | .str s =>
    let s := if Str.contains s py"cuda" then Str.replace s py"cuda" py"gpu" else s
    if Str.contains s py"cpu" then .str py"cpu"
    else match index with
      | some i => .str (s ++ py":" ++ i)
      | Option.none => .str s
  | .cpuPlace => .str py"cpu"
  | .none => .str py"cpu"
  | .cudaPlace id => .str (py"gpu:" ++ Str.ofNat id)
  | .other t => .other t

/-- `s.isdigit()`, for ASCII texts. -/
def isDigits (s : Str) : Bool := !s.isEmpty && s.all Char.isDigit

/-- `s.strip("()")`. -/
def stripParens (s : Str) : Str := Str.stripBy (fun c => c == '(' || c == ')') s

/-- The code that `Device2StrMatcher` writes for the text of the argument `device`; api_matcher.py:4779-4799. -/
def deviceCode (src : Str) : Str :=
  if isDigits (stripParens src) then py"'gpu:" ++ stripParens src ++ py"'"
  else if Str.contains src py"cuda" then Str.replace src py"cuda" py"gpu"
  else py"device2str(" ++ src ++ py")"

/-! ## torch.randint -/

/-- `kwargs.pop(k)`; `none` is `KeyError`. -/
def pop (d : Matcher.Kwargs) (k : Str) : Option (Str × Matcher.Kwargs) :=
  (d.get? (some k)).map fun v => (v, d.erase (some k))

/-- The dictionary `new_kwargs` of `RandintMatcher.generate_code`; api_matcher.py:1622-1634. `none` is `KeyError`. The
number 0 is its text. -/
def randint (d : Matcher.Kwargs) : Option Matcher.Kwargs :=
  if d.has (some py"size") = false then do
    let (l, d) ← pop d py"low"
    let (h, d) ← pop d py"high"
    return Dict.update [(some py"low", py"0"), (some py"high", l), (some py"size", h)] d
  else if d.has (some py"high") = false then do
    let (l, d) ← pop d py"low"
    return Dict.update [(some py"low", py"0"), (some py"high", l)] d
  else if d.has (some py"low") = false then
    return Dict.update [(some py"low", py"0")] d
  else return Dict.update [] d

/-! ## C++ extensions -/

/-- An extension, as recorded for a class that uses it: loaded by `load(..)` under a variable, or imported as a module.
custom_op_transformer.py:111 and 137-139. -/
def extTag (jit : Bool) (name : Str) : Str := if jit then py"load_" ++ name else name

/-- `cpp_ext.lstrip("load_")`. The argument is a set of characters. -/
def stripLoad (s : Str) : Str := Str.lstripBy (fun c => (py"load_").contains c) s

/-- State of the inner loop of `visit_ImportFrom`: the name of the alias, the modules to import, whether the alias goes
away, the map from local names to extensions. -/
structure FromState where
  name : Str
  imports : List Str := []
  remove : Bool := false
  known : Dict Str Str := []

/-- The loop over the recorded classes for one alias; custom_op_transformer.py:165-198. The comparison in each turn is
with the current name, which an earlier turn may have changed. -/
def fromLoop (asname : Option Str) : List (Str × Str) → FromState → FromState
  | [], s => s
  | (cls, ext) :: rest, s =>
    if cls = s.name then
      let s := { s with known := s.known.set (asname.getD s.name) ext }
      if Str.startsWith ext py"load_" then fromLoop asname rest { s with name := stripLoad ext }
      else fromLoop asname rest { s with imports := s.imports ++ [ext], remove := true }
    else fromLoop asname rest s

/-- The expression that replaces `Cls.apply`, when the class was recorded with extension `ext`;
custom_op_transformer.py:233-236. -/
def applyCode (ext : Str) : Str :=
  if Str.startsWith ext py"load_" then stripLoad ext else ext ++ py".custom_op_xxx"

end Verif.Helpers

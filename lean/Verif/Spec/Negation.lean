import Verif.Spec.Python
import Verif.Spec.Flags

/-!
# Boolean expressions and their texts
-/

namespace Verif.Spec
open Verif
open Verif.Spec.Python (Tok)

inductive B
  | var (n : Str)
  | lit (b : Bool)
  | neg (a : B)
  | and (a b : B)
  | or (a b : B)
  deriving DecidableEq, Repr

def B.eval (ρ : Str → Bool) : B → Bool
  | .var n => ρ n
  | .lit b => b
  | .neg a => !a.eval ρ
  | .and a b => a.eval ρ && b.eval ρ
  | .or a b => a.eval ρ || b.eval ρ

/-- The binding strength of the operators. -/
inductive Level
  | or | and | not | operand

/-- Reads an expression whose operators bind at least as strongly as the level, and gives the tokens behind it. The first
argument bounds the number of steps. -/
def readB : Nat → Level → List Tok → Option (B × List Tok)
  | 0, _, _ => none
  | f + 1, .or, ts =>
    match readB f .and ts with
    | some (a, .word ['o', 'r'] :: rest) => (readB f .or rest).map fun p => (.or a p.1, p.2)
    | r => r
  | f + 1, .and, ts =>
    match readB f .not ts with
    | some (a, .word ['a', 'n', 'd'] :: rest) => (readB f .and rest).map fun p => (.and a p.1, p.2)
    | r => r
  | f + 1, .not, ts =>
    match ts with
    | .word ['n', 'o', 't'] :: rest => (readB f .not rest).map fun p => (.neg p.1, p.2)
    | ts => readB f .operand ts
  | f + 1, .operand, ts =>
    match ts with
    | .op ['('] :: rest =>
      match readB f .or rest with
      | some (a, .op [')'] :: rest) => some (a, rest)
      | _ => none
    | .word w :: rest =>
      if w = py"True" then some (.lit true, rest) else if w = py"False" then some (.lit false, rest)
      else if Python.name w then some (.var w, rest) else none
    | _ => none

def Level.steps : Level → Nat
  | .or => 7
  | .and => 6
  | .not => 5
  | .operand => 4

/-- The expression that the whole text is. -/
def readAll (l : Level) (t : Str) : Option B :=
  (Python.lex .start t).bind fun ts =>
    match readB (4 * ts.length + l.steps) l ts with
    | some (e, []) => some e
    | _ => none

/-- The text is this boolean expression. -/
def Means (t : Str) (e : B) : Prop := readAll .or t = some e

/-- The text is this boolean expression, and it is one operand: a name, a literal, or in parentheses. That is how the texts
of the arguments of a call are written. -/
def Operand (t : Str) (e : B) : Prop := readAll .operand t = some e

instance (t : Str) (e : B) : Decidable (Means t e) := inferInstanceAs (Decidable (_ = _))
instance (t : Str) (e : B) : Decidable (Operand t e) := inferInstanceAs (Decidable (_ = _))

/-- A boolean parameter of PyTorch that Paddle has with the opposite meaning. -/
structure NegRule where
  /-- the matcher -/
  cls : Str
  flag : Str
  option : Str
  /-- the value of the flag if it is not given -/
  torch : Bool
  /-- the value of the option if it is not given -/
  paddle : Bool
  deriving DecidableEq

/-- From the documentation: `batch_first` and `time_major` of recurrent layers, `sym` and `fftbins` of windows, `async_op` and
`sync_op` of communication, `count_include_pad` and `exclusive` of pooling, `set_to_none` and `set_to_zero` of optimizers. -/
def negRules : List NegRule := [
  ⟨py"RNNMatcher", py"batch_first", py"time_major", false, false⟩,
  ⟨py"RNNBaseMatcher", py"batch_first", py"time_major", false, false⟩,
  ⟨py"SignalWindowsWatcher", py"sym", py"fftbins", true, true⟩,
  ⟨py"ReverseAsyncOpMatcher", py"async_op", py"sync_op", false, true⟩,
  ⟨py"AvgPoolMatcher", py"count_include_pad", py"exclusive", true, true⟩,
  ⟨py"ZeroGradMatcher", py"set_to_none", py"set_to_zero", true, true⟩]

/-- The code has the statement that assigns `v` to the attribute `o`. -/
def Assigns (o : Str) (v : List Piece) (ps : List Piece) : Prop :=
  .code (py"." ++ o ++ py" = ") :: (v ++ [.code py"\n"]) <:+: ps

/-- A name or a literal, which may be in parentheses: the text of the argument, and the word in it. -/
def Bare (t n : Str) : Prop := (t = n ∨ t = py"(" ++ n ++ py")") ∧ ∀ c ∈ n, c ≠ '(' ∧ c ≠ ')'

end Verif.Spec

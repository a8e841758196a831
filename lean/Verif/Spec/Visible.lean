import Verif.Spec.Template

/-!
# Names that code uses and does not bind

A small reader of Python code, for the code that the matchers write. It finds the names that are read and are not bound
before. The texts of arguments and of the receiver are skipped: their names are the user's.
-/

namespace Verif.Spec.Visible
open Verif

/-! ## Words -/

/-- A letter, a digit or `_`; `$` is the first character of a new name. -/
def isWord (c : Char) : Bool := c.isAlphanum || c == '_' || c == '$'

inductive Tok
  /-- a word that does not follow a dot -/
  | word (w : Str)
  /-- a word directly followed by `=`: an assigned name at the beginning of a line, otherwise a keyword of a call -/
  | key (w : Str)
  /-- ` = ` -/
  | assign
  /-- `(` -/
  | paren
  /-- the end of a line -/
  | line

/-- Where the reader is in a line. -/
structure Pos where
  /-- inside a string with this quote -/
  quote : Option Char
  /-- the word that is being read, the last character first -/
  word : Str
  /-- the word, or what comes next, follows a dot -/
  dot : Bool
  /-- 1 after a blank, 2 after a blank and `=` -/
  eq : Nat
  deriving DecidableEq

/-- A word ends before the character `c`. Numbers are no words. -/
def ended (p : Pos) (c : Char) : List Tok :=
  match p.word.getLast? with
  | none => []
  | some d => if p.dot || d.isDigit then [] else if c == '=' then [.key p.word.reverse] else [.word p.word.reverse]

/-- The next character. -/
def next (p : Pos) (c : Char) : Pos × List Tok :=
  match p.quote with
  | some q => ({ p with quote := if c == q then none else some q }, [])
  | none =>
    if isWord c then ({ p with word := c :: p.word, eq := 0 }, [])
    else
      (⟨if c == '\'' || c == '"' then some c else none, [], c == '.',
        if c == ' ' then 1 else if c == '=' && p.eq == 1 then 2 else 0⟩,
       ended p c ++ if c == ' ' && p.eq == 2 then [.assign] else if c == '(' then [.paren] else if c == '\n' then [.line] else [])

/-! ## Names -/

inductive Mode
  /-- at the beginning of a line -/
  | start
  | plain
  /-- after `for`, up to `in` -/
  | loop
  /-- after `import`, with the last word -/
  | imp (w : Str)
  deriving DecidableEq

structure Names where
  /-- the names that are bound -/
  bound : List Str
  /-- names read in this line -/
  reads : List Str
  /-- names assigned in this line -/
  targets : List Str
  mode : Mode
  /-- names that were read and not bound -/
  missing : List Str
  deriving DecidableEq

/-- The next word. The names in `known` are always there. -/
def Names.tok (known : List Str) (s : Names) : Tok → Names
  | .word w =>
    match s.mode with
    | .imp _ => { s with mode := .imp w }
    | .loop => if w = py"in" then { s with mode := .plain } else { s with bound := w :: s.bound }
    | _ =>
      if w = py"for" then { s with mode := .loop }
      else if w = py"import" then { s with mode := .imp [] }
      else if known.contains w || s.bound.contains w then { s with mode := .plain }
      else { s with mode := .plain, reads := w :: s.reads }
  | .key w => if s.mode = .start then { s with targets := w :: s.targets, mode := .plain } else s
  | .paren => if s.mode = .start then { s with mode := .plain } else s
  | .assign => { s with targets := s.reads ++ s.targets, reads := [] }
  | .line =>
    let new := s.targets ++ match s.mode with
      | .imp w => [w]
      | _ => []
    { bound := new ++ s.bound, reads := [], targets := [], mode := .start,
      missing := s.missing ++ s.reads.filter fun w => !s.bound.contains w }

structure State where
  pos : Pos
  names : Names
  deriving DecidableEq

def State.char (known : List Str) (s : State) (c : Char) : State :=
  ⟨(next s.pos c).1, (next s.pos c).2.foldl (Names.tok known) s.names⟩

def State.text (known : List Str) (s : State) (t : Str) : State := t.foldl (State.char known) s

/-- A piece as the reader sees it. -/
def seen : Piece → Str
  | .code s => s
  | .name s => '$' :: s
  | .user _ | .edited _ _ | .recv => py")"

def first : State := ⟨⟨none, [], false, 0⟩, ⟨[], [], [], .start, []⟩⟩

/-- The names that the code reads and that are neither known nor bound before in the code. -/
def unbound (known : List Str) (ps : List Piece) : List Str :=
  (first.text known (ps.flatMap seen ++ py"\n")).names.missing

/-! ## What is always there -/

/-- Words of Python; all others are treated as names. -/
def keywords : List Str :=
  [py"not", py"if", py"else", py"and", py"or", py"is", py"in", py"None", py"True", py"False", py"assert"]

/-- Functions of Python, of which the matchers use some. -/
def builtins : List Str :=
  [py"int", py"float", py"min", py"max", py"len", py"str", py"tuple", py"list", py"range", py"dict", py"bool", py"isinstance"]

/-- The packages whose import PaConvert writes. -/
def packages : List Str := [py"paddle", py"paddleformers"]

def known : List Str := packages ++ keywords ++ builtins

example : unbound known [.code py"\nout1, out2 = f(", .user py"k", .code py")\n(out1, out3.x, y=z, 'a b')\n"] =
    [py"f", py"z", py"out3"] := by decide +kernel

example : unbound known [.code py"\nimport numpy as np\n", .name py"x", .code py" = [np.f(i) for i in ", .user py"k",
    .code py"]\n", .name py"x", .code py" + ", .name py"y", .code py"\n"] = [py"$y"] := by decide +kernel

/-! ## What a file defines -/

/-- The name that a line defines that is not indented: a function, a class, an import or a variable. -/
def opens (l : Str) : Option Str :=
  if Str.startsWith l py"def " then some ((l.drop 4).takeWhile isWord)
  else if Str.startsWith l py"class " then some ((l.drop 6).takeWhile isWord)
  else if Str.startsWith l py"import " || Str.startsWith l py"from " then some (l.reverse.takeWhile isWord).reverse
  else if Str.startsWith (l.dropWhile isWord) py" = " then some (l.takeWhile isWord)
  else none

/-- The line belongs to what was opened before. -/
def continues (l : Str) : Bool :=
  match l with
  | [] => true
  | c :: _ => c == ' ' || c == ')'

/-- The definitions of a file in their order: the name and the lines. -/
def definitions : List Str → List (Str × List Str)
  | [] => []
  | l :: ls =>
    match opens l with
    | some n => (n, l :: (ls.takeWhile continues).filter (!·.isEmpty)) :: definitions ls
    | none => definitions ls

/-- The names that a file defines. -/
def defined (ls : List Str) : List Str := (definitions ls).map Prod.fst

example : definitions [py"import os", py"def f(x):", py"    y = x", py"    return y", [], py"class C:", py"    pass"] =
    [(py"os", [py"import os"]), (py"f", [py"def f(x):", py"    y = x", py"    return y"]),
     (py"C", [py"class C:", py"    pass"])] := by decide +kernel

/-- The first line that is not blank does not belong to what was opened before. -/
def Fresh (ls : List Str) : Prop := ∀ l ∈ ls.takeWhile continues, l = []

/-- The definition of the name that counts in the end: the last one. -/
def lookup (ls : List Str) (n : Str) : Option (List Str) :=
  ((definitions ls).reverse.find? fun d => d.1 == n).map Prod.snd

/-- The names that `from f import *` brings: the ones that begin with `_` are left out. -/
def starNames (ls : List Str) : List Str := (defined ls).filter fun n => !Str.startsWith n py"_"

example : lookup [py"x = 1", py"def f(x):", py"    return x", py"x = 2", py"_y = 3"] py"x" = some [py"x = 2"] ∧
    starNames [py"x = 1", py"def f(x):", py"    return x", py"x = 2", py"_y = 3"] = [py"x", py"f", py"x"] := by
  decide +kernel

end Verif.Spec.Visible

import Verif.Py.Str

/-!
# Specification of the marking of lines

Written without the model's scanning functions: what it means that a line has to be marked.
-/

namespace Verif.Mark.Spec
open Verif

/-- `t` is `s` without its quoted pieces: the leftmost piece `Q w Q` (`Q` = `n` quote characters `q`, `w` not
empty and without `q`) is removed, then the text after it is treated the same way. -/
inductive Unquoted (q : Char) (n : Nat) : Str → Str → Prop
  | done (s : Str)
      (h : ¬ ∃ a w b, s = a ++ List.replicate n q ++ w ++ List.replicate n q ++ b ∧ w ≠ [] ∧ q ∉ w) :
      Unquoted q n s s
  | step (a w b b' : Str) (hw : w ≠ []) (hq : q ∉ w)
      (first : ∀ a' w' c, a ++ List.replicate n q ++ w ++ List.replicate n q ++ b
          = a' ++ List.replicate n q ++ w' ++ List.replicate n q ++ c → w' ≠ [] → q ∉ w' →
          a.length ≤ a'.length)
      (rest : Unquoted q n b b') :
      Unquoted q n (a ++ List.replicate n q ++ w ++ List.replicate n q ++ b) (a ++ b')

/-- The three removals, in order: `"""..."""`, `"..."`, `'...'`. -/
def Bare (s t : Str) : Prop :=
  ∃ u v, Unquoted '"' 3 s u ∧ Unquoted '"' 1 u v ∧ Unquoted '\'' 1 v t

/-- `pkg.` at the start of `s`, or after a character that is neither a word character nor a dot. -/
def Uses (isWord : Char → Bool) (pkg s : Str) : Prop :=
  (∃ b, s = pkg ++ py"." ++ b) ∨
  ∃ a c b, s = a ++ [c] ++ pkg ++ py"." ++ b ∧ isWord c = false ∧ c ≠ '.'

/-- Line `i`. -/
def line (lines : List Str) (i : Nat) : Str := lines.getD i []

/-- The line is one of the notes that the converter puts before unsupported statements. -/
def Note (l : Str) : Prop := ∃ a b, l = a ++ py"Not Support auto convert" ++ b

/-- A note stands before line `i`, with only lines `@` in between. -/
def Pending (lines : List Str) (i : Nat) : Prop :=
  ∃ j, j < i ∧ Note (line lines j) ∧ ∀ k, j < k → k < i → line lines k = py"@"

/-- The line is marked because of a note. -/
def ByNote (lines : List Str) (i : Nat) : Prop :=
  ¬ Note (line lines i) ∧ line lines i ≠ py"@" ∧ Pending lines i

/-- Lines that are inspected for quotes and torch uses. -/
def Scanned (lines : List Str) (i : Nat) : Prop := ¬ Note (line lines i) ∧ ¬ ByNote lines i

/-- Inspected line with an odd number of `"""` (non-overlapping, after removal of complete quoted pieces). -/
def Flips (lines scans : List Str) (i : Nat) : Prop :=
  Scanned lines i ∧ ∃ t, Bare (line scans i) t ∧ Str.count t py"\"\"\"" % 2 = 1

/-- Line `i` starts inside a `"""` block: an odd number of earlier lines flip the state. -/
def Inside (lines scans : List Str) : Nat → Prop
  | 0 => False
  | i + 1 => ¬ (Inside lines scans i ↔ Flips lines scans i)

/-- Line `i` is marked because of a leftover use of a torch package. `skip` are the lines exempted by min
mode. -/
def ByUse (isWord : Char → Bool) (skip : Str → Prop) (pkgs lines scans : List Str) (i : Nat) : Prop :=
  Scanned lines i ∧ ¬ Inside lines scans i ∧ ¬ Inside lines scans (i + 1) ∧
  ∃ t, Bare (line scans i) t ∧ ¬ skip t ∧ ∃ p ∈ pkgs, Uses isWord p t

/-- What is assumed about white space where import lines are concerned: the blank is white space, letters are not. -/
structure Spaces (isSpace : Char → Bool) : Prop where
  blank : isSpace ' ' = true
  letters : ∀ c ∈ py"importfrom", isSpace c = false

/-- An import statement: white space, then `import` or `from`, a blank, and something after it. -/
def ImportLine (isSpace : Char → Bool) (t : Str) : Prop :=
  ∃ a b, (∀ c ∈ a, isSpace c = true) ∧ (t = a ++ py"import " ++ b ∨ t = a ++ py"from " ++ b) ∧
    ∃ c ∈ b, isSpace c = false

/-- `w` is the name `api`, where white space is allowed around each dot. -/
inductive Spelled (isSpace : Char → Bool) : Str → Str → Prop
  | nil : Spelled isSpace [] []
  | dot (sp sp' api w : Str) (h : ∀ c ∈ sp, isSpace c = true) (h' : ∀ c ∈ sp', isSpace c = true)
      (r : Spelled isSpace api w) : Spelled isSpace ('.' :: api) (sp ++ '.' :: sp' ++ w)
  | char (c : Char) (api w : Str) (hc : c ≠ '.') (r : Spelled isSpace api w) :
      Spelled isSpace (c :: api) (c :: w)

/-- Neither a word character nor a dot. -/
def Outer (isWord : Char → Bool) (c : Char) : Prop := isWord c = false ∧ c ≠ '.'

/-- The characters `s`, ..., `e - 1` of the text are the whole name `api`: no word character and no dot stands directly
before or after. -/
def Whole (isWord isSpace : Char → Bool) (api text : Str) (s e : Nat) : Prop :=
  ∃ a w b, text = a ++ w ++ b ∧ a.length = s ∧ s + w.length = e ∧ Spelled isSpace api w ∧
    (∀ c, a.getLast? = some c → Outer isWord c) ∧ (∀ c, b.head? = some c → Outer isWord c)

/-- At position `i` of the text the package `p` is used: `p.`, with neither a word character nor a dot before it. -/
def UsedAt (isWord : Char → Bool) (p text : Str) (i : Nat) : Prop :=
  ∃ a b, text = a ++ p ++ py"." ++ b ∧ a.length = i ∧ ∀ c, a.getLast? = some c → Outer isWord c

/-- What is assumed about the classes of characters `\w` and `\s`. -/
structure Classes (isWord isSpace : Char → Bool) : Prop where
  apart : ∀ c, isWord c = true → isSpace c = false
  under : isWord '_' = true
  dot : isWord '.' = false ∧ isSpace '.' = false
  newline : isSpace '\n' = true

/-- A dotted name: its components consist of word characters, and not of underscores only. -/
def Dotted (isWord : Char → Bool) (cs : List Str) : Prop :=
  cs ≠ [] ∧ ∀ c ∈ cs, (∀ x ∈ c, isWord x = true) ∧ ∃ x ∈ c, x ≠ '_'

/-- Where line `k` starts. -/
def lineStart (text : Str) (k : Nat) : Nat := (((Str.splitOn '\n' text).take k).map (·.length + 1)).sum

end Verif.Mark.Spec

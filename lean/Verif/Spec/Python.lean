import Verif.Py.Str

/-!
# When a text is Python code

A text is split into tokens by an automaton, and the tokens have to follow a grammar. The grammar is a part of that of
Python: it has what the code of the matchers and the usual arguments of calls consist of. Not in it are comments, numbers
other than decimal ones, strings that are written next to each other, starred elements of lists, sets, `await`, `yield`,
`:=` and most statements.
-/

namespace Verif.Spec.Python
open Verif

/-! ## Tokens -/

inductive Tok
  /-- a name or a keyword -/
  | word (s : Str)
  | num
  | str
  | op (s : Str)
  /-- the end of a line, with the indentation of the next one -/
  | nl (indent : Nat)
  deriving DecidableEq, Repr

/-- The part of a number that is read. -/
inductive Part
  | int | frac | e | sign | exp
  deriving DecidableEq, Repr

/-- What is being read. -/
inductive Mode
  | start
  /-- a word, backwards -/
  | word (s : Str)
  | num (p : Part)
  | op (s : Str)
  /-- one quote, two quotes -/
  | quote (q : Char)
  | quote2 (q : Char)
  /-- inside a string; after a backslash -/
  | str (q : Char)
  | esc (q : Char)
  /-- inside a string with three quotes, after `n` quotes; after a backslash -/
  | long (q : Char) (n : Nat)
  | longEsc (q : Char)
  /-- at the beginning of a line, after `n` blanks -/
  | nl (n : Nat)
  deriving DecidableEq, Repr

inductive Kind
  | blank | line | digit | letter | quote | punct | other
  deriving DecidableEq, Repr

/-- `() [] {} . , : ; = + - * / % @ < > & | ^ ~ !` -/
def punct : List Nat := [40, 41, 91, 93, 123, 125, 46, 44, 58, 59, 61, 43, 45, 42, 47, 37, 64, 60, 62, 38, 124, 94, 126, 33]

/-- Names are ASCII. -/
def kindOf (n : Nat) : Kind :=
  if n == 32 then .blank
  else if n == 10 then .line
  else if Nat.ble 97 n && Nat.ble n 122 || Nat.ble 65 n && Nat.ble n 90 || n == 95 then .letter
  else if Nat.ble 48 n && Nat.ble n 57 then .digit
  else if n == 34 || n == 39 then .quote
  else if punct.contains n then .punct
  else .other

def kind (c : Char) : Kind := kindOf c.toNat

/-- The operators of two characters. -/
def longOps : List Str :=
  [py"**", py"//", py"==", py"!=", py"<=", py">=", py"<<", py">>", py":=", py"+=", py"-=", py"*=", py"/=", py"->"]

/-- What may stand in front of a string, backwards. -/
def prefixes : List Str := [py"f", py"r", py"b", py"u", py"F", py"R", py"B", py"rf", py"fr", py"rb", py"br"]

inductive Ext
  /-- the character is part of what is being read -/
  | more (ts : List Tok) (m : Mode)
  /-- something else begins -/
  | stop
  | bad

/-- Inside a string. -/
def inStr (q c : Char) : Ext :=
  if c = q then .more [.str] .start
  else if c.toNat == 92 then .more [] (.esc q)
  else if c.toNat == 10 then .bad
  else .more [] (.str q)

def inNum (p : Part) (c : Char) : Ext :=
  match p, kind c with
  | .int, .digit => .more [] (.num .int)
  | .frac, .digit => .more [] (.num .frac)
  | .e, .digit | .sign, .digit | .exp, .digit => .more [] (.num .exp)
  | .int, .letter | .frac, .letter => if c.toNat == 101 then .more [] (.num .e) else .bad
  | .int, .punct => if c.toNat == 46 then .more [] (.num .frac) else .stop
  | .frac, .punct | .exp, .punct => if c.toNat == 46 then .bad else .stop
  | .e, .punct => if c.toNat == 43 || c.toNat == 45 then .more [] (.num .sign) else .bad
  | .e, _ | .sign, _ | .exp, .letter | _, .quote => .bad
  | _, _ => .stop

def ext (m : Mode) (c : Char) : Ext :=
  match m with
  | .start => .stop
  | .nl n => match kind c with
    | .blank => .more [] (.nl (n + 1))
    | .line => .more [] (.nl 0)
    | _ => .stop
  | .word s => match kind c with
    | .letter | .digit => .more [] (.word (c :: s))
    | .quote => if prefixes.contains s then .more [] (.quote c) else .bad
    | _ => .stop
  | .num p => inNum p c
  | .op s => if longOps.contains (s ++ [c]) then .more [] (.op (s ++ [c])) else .stop
  | .quote q => if c = q then .more [] (.quote2 q) else inStr q c
  | .quote2 q => if kind c = .quote then (if c = q then .more [] (.long q 0) else .bad) else .stop
  | .str q => inStr q c
  | .esc q => .more [] (.str q)
  | .long q n =>
    if c = q then (if n = 2 then .more [.str] .start else .more [] (.long q (n + 1)))
    else if c.toNat == 92 then .more [] (.longEsc q)
    else .more [] (.long q 0)
  | .longEsc q => .more [] (.long q 0)

/-- A character at which something begins. -/
def begins (c : Char) : Option Mode :=
  match kind c with
  | .blank => some .start
  | .line => some (.nl 0)
  | .digit => some (.num .int)
  | .letter => some (.word [c])
  | .quote => some (.quote c)
  | .punct => some (.op [c])
  | .other => none

/-- What has been read is complete. -/
def flush : Mode → Option (List Tok)
  | .start => some []
  | .word s => some [.word s.reverse]
  | .num .int | .num .frac | .num .exp => some [.num]
  | .op s => some [.op s]
  | .quote2 _ => some [.str]
  | .nl n => some [.nl n]
  | _ => none

def step (m : Mode) (c : Char) : Option (List Tok × Mode) :=
  match ext m c with
  | .more ts m' => some (ts, m')
  | .bad => none
  | .stop =>
    match flush m, begins c with
    | some ts, some m' => some (ts, m')
    | _, _ => none

/-- The tokens of a text, read from this point on. -/
def lex (m : Mode) : Str → Option (List Tok)
  | [] => flush m
  | c :: cs =>
    match step m c with
    | none => none
    | some (ts, m') => (lex m' cs).map (ts ++ ·)

def opening : List Str := [py"(", py"[", py"{"]
def closing : List Str := [py")", py"]", py"}"]

/-- The number of open brackets after a token. -/
def depth (d : Nat) : Tok → Nat
  | .op s => if opening.contains s then d + 1 else if closing.contains s then d - 1 else d
  | _ => d

/-- Inside brackets the end of a line does not count. `d` brackets are open. -/
def joinLines : Nat → List Tok → List Tok
  | _, [] => []
  | d, t :: ts =>
    match t with
    | .nl n => if d = 0 then .nl n :: joinLines d ts else joinLines d ts
    | t => t :: joinLines (depth d t) ts

/-! ## Grammar -/

def keywords : List Str :=
  [py"and", py"as", py"assert", py"async", py"await", py"break", py"class", py"continue", py"def", py"del", py"elif",
   py"else", py"except", py"finally", py"for", py"from", py"global", py"if", py"import", py"in", py"is", py"lambda",
   py"nonlocal", py"not", py"or", py"pass", py"raise", py"return", py"try", py"while", py"with", py"yield"]

/-- A word that can be a value. -/
def value (w : Str) : Bool := !keywords.contains w

/-- A word that can be a name. -/
def name (w : Str) : Bool := value w && ![py"True", py"False", py"None"].contains w

/-- The binary operators that bind at a level. -/
def binary : List (List Tok × Nat) :=
  [([.word py"or"], 1), ([.word py"and"], 2), ([.op py"<"], 4), ([.op py">"], 4), ([.op py"<="], 4), ([.op py">="], 4),
   ([.op py"=="], 4), ([.op py"!="], 4), ([.word py"in"], 4), ([.word py"not", .word py"in"], 4), ([.word py"is"], 4),
   ([.word py"is", .word py"not"], 4), ([.op py"|"], 5), ([.op py"^"], 6), ([.op py"&"], 7), ([.op py"<<"], 8),
   ([.op py">>"], 8), ([.op py"+"], 9), ([.op py"-"], 9), ([.op py"*"], 10), ([.op py"/"], 10), ([.op py"//"], 10),
   ([.op py"%"], 10), ([.op py"@"], 10)]

inductive Cat
  /-- Expressions by the level at which they bind: 0 conditional, `lambda`; 1 `or`; 2 `and`; 3 `not`; 4 comparison; 5 `|`;
  6 `^`; 7 `&`; 8 shift; 9 sum; 10 product; 11 sign; 12 power; 13 number; 14 name, string, bracket, attribute, call,
  subscript. -/
  | expr (n : Nat)
  /-- expressions with commas between them -/
  | items
  /-- the same, at least one -/
  | exprs
  /-- the entries of a dictionary -/
  | entries
  /-- the parameters of a `lambda` -/
  | params
  /-- keyword arguments -/
  | kwargs
  /-- arguments of a call -/
  | args
  /-- an expression or nothing -/
  | opt
  /-- an index or a slice; several of them -/
  | slice
  | slices
  /-- what can be assigned to; several of them -/
  | target
  | targets
  /-- the name of a module -/
  | path
  /-- a statement on a line -/
  | simple
  /-- what comes before the colon of a block -/
  | header
  /-- lines of statements, of which the last is an expression -/
  | code

/-- The tokens have this form. -/
inductive G : Cat → List Tok → Prop
  | val {w : Str} (h : value w = true) : G (.expr 14) [.word w]
  | str : G (.expr 14) [.str]
  | paren {a : List Tok} (h : G .items a) : G (.expr 14) (.op py"(" :: (a ++ [.op py")"]))
  | list {a : List Tok} (h : G .items a) : G (.expr 14) (.op py"[" :: (a ++ [.op py"]"]))
  | each {a b : List Tok} {w : Str} (ha : G (.expr 0) a) (hw : name w = true) (hb : G (.expr 1) b) :
      G (.expr 14) (.op py"[" :: (a ++ .word py"for" :: .word w :: .word py"in" :: (b ++ [.op py"]"])))
  | dict {a : List Tok} (h : G .entries a) : G (.expr 14) (.op py"{" :: (a ++ [.op py"}"]))
  | attr {a : List Tok} {w : Str} (h : G (.expr 14) a) (hw : name w = true) : G (.expr 14) (a ++ [.op py".", .word w])
  | call {a b : List Tok} (h : G (.expr 14) a) (hb : G .args b) : G (.expr 14) (a ++ .op py"(" :: (b ++ [.op py")"]))
  | sub {a b : List Tok} (h : G (.expr 14) a) (hb : G .slices b) : G (.expr 14) (a ++ .op py"[" :: (b ++ [.op py"]"]))
  | num : G (.expr 13) [.num]
  | up {n : Nat} {a : List Tok} (h : G (.expr (n + 1)) a) : G (.expr n) a
  | pow {a b : List Tok} (ha : G (.expr 13) a) (hb : G (.expr 11) b) : G (.expr 12) (a ++ .op py"**" :: b)
  | neg {a : List Tok} (h : G (.expr 11) a) : G (.expr 11) (.op py"-" :: a)
  | bin {n : Nat} {o a b : List Tok} (ho : (o, n) ∈ binary) (ha : G (.expr n) a) (hb : G (.expr (n + 1)) b) :
      G (.expr n) (a ++ (o ++ b))
  | not {a : List Tok} (h : G (.expr 3) a) : G (.expr 3) (.word py"not" :: a)
  | cond {a b c : List Tok} (ha : G (.expr 1) a) (hb : G (.expr 1) b) (hc : G (.expr 0) c) :
      G (.expr 0) (a ++ .word py"if" :: (b ++ .word py"else" :: c))
  | fn {a b : List Tok} (ha : G .params a) (hb : G (.expr 0) b) :
      G (.expr 0) (.word py"lambda" :: (a ++ .op py":" :: b))
  | noParam : G .params []
  | oneParam {w : Str} (h : name w = true) : G .params [.word w]
  | moreParams {w : Str} {a : List Tok} (h : name w = true) (ha : G .params a) : G .params (.word w :: .op py"," :: a)
  | noItem : G .items []
  | oneItem {a : List Tok} (h : G (.expr 0) a) : G .items a
  | moreItems {a b : List Tok} (ha : G (.expr 0) a) (hb : G .items b) : G .items (a ++ .op py"," :: b)
  | oneExpr {a : List Tok} (h : G (.expr 0) a) : G .exprs a
  | moreExprs {a b : List Tok} (ha : G (.expr 0) a) (hb : G .items b) : G .exprs (a ++ .op py"," :: b)
  | noEntry : G .entries []
  | oneEntry {a b : List Tok} (ha : G (.expr 0) a) (hb : G (.expr 0) b) : G .entries (a ++ .op py":" :: b)
  | moreEntries {a b c : List Tok} (ha : G (.expr 0) a) (hb : G (.expr 0) b) (hc : G .entries c) :
      G .entries (a ++ .op py":" :: (b ++ .op py"," :: c))
  | noKw : G .kwargs []
  | oneKw {w : Str} {a : List Tok} (hw : name w = true) (ha : G (.expr 0) a) : G .kwargs (.word w :: .op py"=" :: a)
  | moreKws {w : Str} {a b : List Tok} (hw : name w = true) (ha : G (.expr 0) a) (hb : G .kwargs b) :
      G .kwargs (.word w :: .op py"=" :: (a ++ .op py"," :: b))
  | oneDict {a : List Tok} (ha : G (.expr 0) a) : G .kwargs (.op py"**" :: a)
  | moreDicts {a b : List Tok} (ha : G (.expr 0) a) (hb : G .kwargs b) : G .kwargs (.op py"**" :: (a ++ .op py"," :: b))
  | onlyKws {a : List Tok} (h : G .kwargs a) : G .args a
  | oneArg {a : List Tok} (h : G (.expr 0) a) : G .args a
  | moreArgs {a b : List Tok} (ha : G (.expr 0) a) (hb : G .args b) : G .args (a ++ .op py"," :: b)
  | oneStar {a : List Tok} (h : G (.expr 0) a) : G .args (.op py"*" :: a)
  | moreStars {a b : List Tok} (ha : G (.expr 0) a) (hb : G .args b) : G .args (.op py"*" :: (a ++ .op py"," :: b))
  | none : G .opt []
  | some {a : List Tok} (h : G (.expr 0) a) : G .opt a
  | index {a : List Tok} (h : G (.expr 0) a) : G .slice a
  | range {a b : List Tok} (ha : G .opt a) (hb : G .opt b) : G .slice (a ++ .op py":" :: b)
  | stride {a b c : List Tok} (ha : G .opt a) (hb : G .opt b) (hc : G .opt c) :
      G .slice (a ++ .op py":" :: (b ++ .op py":" :: c))
  | oneSlice {a : List Tok} (h : G .slice a) : G .slices a
  | moreSlices {a b : List Tok} (ha : G .slice a) (hb : G .slices b) : G .slices (a ++ .op py"," :: b)
  | nameTarget {w : Str} (h : name w = true) : G .target [.word w]
  | attrTarget {a : List Tok} {w : Str} (h : G (.expr 14) a) (hw : name w = true) : G .target (a ++ [.op py".", .word w])
  | subTarget {a b : List Tok} (h : G (.expr 14) a) (hb : G .slices b) : G .target (a ++ .op py"[" :: (b ++ [.op py"]"]))
  | oneTarget {a : List Tok} (h : G .target a) : G .targets a
  | moreTargets {a b : List Tok} (ha : G .target a) (hb : G .targets b) : G .targets (a ++ .op py"," :: b)
  | onePath {w : Str} (h : name w = true) : G .path [.word w]
  | morePath {w : Str} {a : List Tok} (h : name w = true) (ha : G .path a) : G .path (.word w :: .op py"." :: a)
  | value {a : List Tok} (h : G .exprs a) : G .simple a
  | assign {a b : List Tok} (ha : G .targets a) (hb : G .exprs b) : G .simple (a ++ .op py"=" :: b)
  | imports {a : List Tok} (h : G .path a) : G .simple (.word py"import" :: a)
  | importAs {a : List Tok} {w : Str} (h : G .path a) (hw : name w = true) :
      G .simple (.word py"import" :: (a ++ [.word py"as", .word w]))
  | check {a : List Tok} (h : G (.expr 0) a) : G .simple (.word py"assert" :: a)
  | checkSay {a b : List Tok} (h : G (.expr 0) a) (hb : G (.expr 0) b) :
      G .simple (.word py"assert" :: (a ++ .op py"," :: b))
  | when {a : List Tok} (h : G (.expr 0) a) : G .header (.word py"if" :: a)
  | loop {w : Str} {a : List Tok} (hw : name w = true) (h : G .exprs a) :
      G .header (.word py"for" :: .word w :: .word py"in" :: a)
  | last {a : List Tok} (h : G .exprs a) : G .code (.nl 0 :: a)
  | lastLine {a : List Tok} {n : Nat} (h : G .exprs a) : G .code (.nl 0 :: (a ++ [.nl n]))
  | line {a b : List Tok} (ha : G .simple a) (hb : G .code b) : G .code (.nl 0 :: (a ++ b))
  | block {a b c : List Tok} {n : Nat} (ha : G .header a) (hn : 0 < n) (hb : G .simple b) (hc : G .code c) :
      G .code (.nl 0 :: (a ++ .op py":" :: .nl n :: (b ++ c)))

/-! ## Texts -/

/-- A text with an expression that binds at this level, without a blank in front. -/
def Expr (n : Nat) (t : Str) : Prop :=
  (∀ c u, t = c :: u → kind c ≠ .blank ∧ kind c ≠ .line) ∧ ∃ ts, lex .start t = some ts ∧ G (.expr n) (joinLines 0 ts)

/-- A text with something that can be assigned to, without a blank in front. -/
def Target (t : Str) : Prop :=
  (∀ c u, t = c :: u → kind c ≠ .blank ∧ kind c ≠ .line) ∧ ∃ ts, lex .start t = some ts ∧ G .target (joinLines 0 ts)

/-- The text of a name. -/
def Name (t : Str) : Prop :=
  name t = true ∧ ∃ c u, t = c :: u ∧ kind c = .letter ∧ ∀ d ∈ u, kind d = .letter ∨ kind d = .digit

/-- A text with lines of Python, of which the last is an expression. -/
def Code (t : Str) : Prop := ∃ ts, lex (.nl 0) t = some ts ∧ G .code (joinLines 0 ts)

end Verif.Spec.Python

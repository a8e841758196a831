import Verif.Spec.Template

/-!
# Arithmetic expressions in code

A reader for the formulas that matchers write. The texts of arguments, of the receiver and the generated names are single
operands: arguments are names, literals, calls, or in parentheses.
-/

namespace Verif.Spec.Formula
open Verif

inductive Tok
  /-- an inserted text -/
  | leaf (p : Piece)
  /-- a name, with dots -/
  | word (s : Str)
  /-- a decimal number without a fraction, such as `2`, `2.` or `2.0` -/
  | num (n : Nat)
  | str (s : Str)
  | op (c : Char)
  /-- `**` -/
  | pow
  | line
  deriving DecidableEq

/-! ## Tokens -/

/-- Characters and inserted texts. -/
inductive Item
  | ch (c : Char)
  | leaf (p : Piece)

def items : List Piece → List Item
  | [] => []
  | .code s :: ps => s.map .ch ++ items ps
  | p :: ps => .leaf p :: items ps

inductive Mode
  | start
  /-- a word, the last character first -/
  | word (s : Str)
  /-- a number; behind the point -/
  | num (n : Nat)
  | frac (n : Nat)
  | str (s : Str)
  /-- after one `*` -/
  | star

def letter (c : Char) : Bool := c.isAlpha || c == '_'

def Mode.flush : Mode → List Tok
  | .word s => [.word s.reverse]
  | .num n | .frac n => [.num n]
  | .star => [.op '*']
  | _ => []

/-- Something begins with the character. -/
def begins (c : Char) : Option (List Tok × Mode) :=
  if c == ' ' then some ([], .start)
  else if c == '\n' then some ([.line], .start)
  else if c.isDigit then some ([], .num (c.toNat - 48))
  else if letter c then some ([], .word [c])
  else if c == '"' then some ([], .str [])
  else if c == '*' then some ([], .star)
  else if py"()+-/=,.".contains c then some ([.op c], .start)
  else none

/-- The character ends what is being read. -/
def Mode.next (m : Mode) (c : Char) : Option (List Tok × Mode) := (begins c).map fun (ts, m') => (m.flush ++ ts, m')

def step : Mode → Item → Option (List Tok × Mode)
  | .str _, .leaf _ => none
  | m, .leaf p => some (m.flush ++ [.leaf p], .start)
  | .str s, .ch c => if c == '"' then some ([.str s.reverse], .start) else some ([], .str (c :: s))
  | .word s, .ch c => if letter c || c.isDigit || c == '.' then some ([], .word (c :: s)) else Mode.next (.word s) c
  | .num n, .ch c =>
    if c.isDigit then some ([], .num (10 * n + (c.toNat - 48)))
    else if c == '.' then some ([], .frac n) else Mode.next (.num n) c
  | .frac n, .ch c => if c == '0' then some ([], .frac n) else if c.isDigit then none else Mode.next (.frac n) c
  | .star, .ch c => if c == '*' then some ([.pow], .start) else Mode.next .star c
  | .start, .ch c => Mode.next .start c

/-- The tokens; `none` for what is not understood. -/
def lex : Mode → List Item → Option (List Tok)
  | .str _, [] => none
  | m, [] => some m.flush
  | m, i :: is =>
    match step m i with
    | some (ts, m') => (lex m' is).map (ts ++ ·)
    | none => none

/-- Line ends inside of parentheses do not count. -/
def joined : Nat → List Tok → List Tok
  | _, [] => []
  | d, .op '(' :: ts => .op '(' :: joined (d + 1) ts
  | d, .op ')' :: ts => .op ')' :: joined (d - 1) ts
  | d, .line :: ts => if d = 0 then .line :: joined d ts else joined d ts
  | d, t :: ts => t :: joined d ts

/-! ## Expressions -/

inductive E
  | leaf (p : Piece)
  | lit (n : Nat)
  /-- `float("inf")` -/
  | infinity
  | neg (a : E)
  | add (a b : E)
  | sub (a b : E)
  | mul (a b : E)
  | div (a b : E)
  | pow (a b : E)
  /-- an attribute -/
  | attr (a : E) (f : Str)
  | call (f : Str) (a : E)
  /-- a call with two arguments; `key` is the keyword of the second one, or empty -/
  | call2 (f : Str) (a : E) (key : Str) (b : E)
  | method (a : E) (f : Str) (b : E)
  deriving DecidableEq

inductive Level
  | sum | product | sign | power | postfix | atom
  /-- what follows a first operand -/
  | sumWith (a : E) | productWith (a : E) | postfixWith (a : E)

abbrev Reader := List Tok → Option (E × List Tok)

/-- An expression and the tokens behind it. The variables of the code stand for expressions. The first argument bounds the
number of steps. -/
def read (vars : Dict Str E) : Nat → Level → Reader
  | 0, _, _ => none
  | f + 1, .sum, ts => (read vars f .product ts).bind fun (a, ts) => read vars f (.sumWith a) ts
  | f + 1, .sumWith a, .op '+' :: ts => (read vars f .product ts).bind fun (b, ts) => read vars f (.sumWith (.add a b)) ts
  | f + 1, .sumWith a, .op '-' :: ts => (read vars f .product ts).bind fun (b, ts) => read vars f (.sumWith (.sub a b)) ts
  | _ + 1, .sumWith a, ts => some (a, ts)
  | f + 1, .product, ts => (read vars f .sign ts).bind fun (a, ts) => read vars f (.productWith a) ts
  | f + 1, .productWith a, .op '*' :: ts =>
    (read vars f .sign ts).bind fun (b, ts) => read vars f (.productWith (.mul a b)) ts
  | f + 1, .productWith a, .op '/' :: ts =>
    (read vars f .sign ts).bind fun (b, ts) => read vars f (.productWith (.div a b)) ts
  | _ + 1, .productWith a, ts => some (a, ts)
  | f + 1, .sign, .op '-' :: ts => (read vars f .sign ts).map fun (a, ts) => (.neg a, ts)
  | f + 1, .sign, ts => read vars f .power ts
  | f + 1, .power, ts => (read vars f .postfix ts).bind fun
    | (a, .pow :: ts) => (read vars f .sign ts).map fun (b, ts) => (.pow a b, ts)
    | (a, ts) => some (a, ts)
  | f + 1, .postfix, ts => (read vars f .atom ts).bind fun (a, ts) => read vars f (.postfixWith a) ts
  | f + 1, .postfixWith a, .op '.' :: .word m :: .op '(' :: ts => (read vars f .sum ts).bind fun
    | (b, .op ')' :: ts) => read vars f (.postfixWith (.method a m b)) ts
    | _ => none
  | f + 1, .postfixWith a, .op '.' :: .word m :: ts => read vars f (.postfixWith (.attr a m)) ts
  | _ + 1, .postfixWith a, ts => some (a, ts)
  | f + 1, .atom, .op '(' :: ts => (read vars f .sum ts).bind fun
    | (a, .op ')' :: ts) => some (a, ts)
    | _ => none
  | _ + 1, .atom, .num n :: ts => some (.lit n, ts)
  | _ + 1, .atom, .word ['f', 'l', 'o', 'a', 't'] :: .op '(' :: .str ['i', 'n', 'f'] :: .op ')' :: ts => some (.infinity, ts)
  | f + 1, .atom, .word g :: .op '(' :: ts => (read vars f .sum ts).bind fun
    | (a, .op ')' :: ts) => some (.call g a, ts)
    | (a, .op ',' :: .word k :: .op '=' :: ts) => (read vars f .sum ts).bind fun
      | (b, .op ')' :: ts) => some (.call2 g a k b, ts)
      | _ => none
    | (a, .op ',' :: ts) => (read vars f .sum ts).bind fun
      | (b, .op ')' :: ts) => some (.call2 g a [] b, ts)
      | _ => none
    | _ => none
  | _ + 1, .atom, .leaf (.name s) :: ts => (vars.get? s).map fun a => (a, ts)
  | _ + 1, .atom, .leaf p :: ts => some (.leaf p, ts)
  | _ + 1, .atom, _ => none

/-- The lines of the code; the last one that is not empty is the value. -/
def lines (vars : Dict Str E) : Nat → List Tok → Option E
  | 0, _ => none
  | f + 1, .line :: ts => lines vars f ts
  | f + 1, .leaf (.name s) :: .op '=' :: ts => (read vars (8 * ts.length + 8) .sum ts).bind fun
    | (a, .line :: ts) => lines (vars.set s a) f ts
    | _ => none
  | _ + 1, ts => (read vars (8 * ts.length + 8) .sum ts).bind fun
    | (a, []) | (a, [.line]) => some a
    | _ => none

/-- The expression whose value is the value of the code. -/
def expr (ps : List Piece) : Option E :=
  (lex .start (items ps)).bind fun ts => lines [] (ts.length + 1) (joined 0 ts)

example : expr [.code py"\n", .name py"v", .code py" = paddle.exp(", .user py"x", .code py")\n", .name py"v",
    .code py" / (1 + ", .name py"v", .code py" ** 2)\n"] =
    some (.div (.call py"paddle.exp" (.leaf (.user py"x")))
      (.add (.lit 1) (.pow (.call py"paddle.exp" (.leaf (.user py"x"))) (.lit 2)))) := by decide +kernel

end Verif.Spec.Formula

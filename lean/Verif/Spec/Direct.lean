import Verif.Spec.Args
import Verif.Model.Matcher

/-!
# What a reader sees in the code of C101
-/

namespace Verif.Spec
open Verif

/-- Split at the characters `@` outside brackets and quotes. -/
def Lexer.factors (L : Lexer) : L.σ → Str → List Str
  | _, [] => [[]]
  | s, c :: cs =>
    if s = L.top ∧ c = '@' then [] :: L.factors s cs
    else match L.factors (L.step s c) cs with
      | [] => [[c]]
      | p :: ps => (c :: p) :: ps

/-- The operands of a product: the pieces without the blanks around them. -/
def Lexer.operands (L : Lexer) (t : Str) : List Str := (L.factors L.top t).map (Str.stripBy (· == ' '))

/-- A text that is one operand: brackets and quotes are closed, no `@` outside them, no blank at either end. -/
structure Factor (L : Lexer) (t : Str) : Prop where
  strip : Str.stripBy (· == ' ') t = t
  ends : L.run L.top t = L.top
  noAt : ∀ u v, t = u ++ '@' :: v → L.run L.top u ≠ L.top

/-- The values that a product of several factors can have, whatever the order in which the products are formed. -/
inductive Bracketed {M : Type} (mul : M → M → M) : List M → M → Prop
  | one (a : M) : Bracketed mul [a] a
  | mul {l r : List M} {a b : M} : Bracketed mul l a → Bracketed mul r b → Bracketed mul (l ++ r) (mul a b)

/-- The value of a product as Python evaluates it, from left to right. -/
def leftToRight {M : Type} (mul : M → M → M) : List M → Option M
  | [] => none
  | a :: l => some (l.foldl mul a)

/-- The keyword `k` is given with this text. -/
def Gives (kws : List Matcher.Kw) (k : Str) (t : Str) : Prop := ∃ n ∈ kws, n.arg = some k ∧ n.src = t

/-- The keyword is not given. -/
def Omits (kws : List Matcher.Kw) (k : Str) : Prop := ∀ n ∈ kws, n.arg ≠ some k

/-- The shape that the user wrote in a call of `make_tensor`: the keyword, the value of a starred argument, a single argument
that is not a constant, or else the list of the arguments. -/
def ShapeIs (const : Bool) (args : List Matcher.Arg) (kws : List Matcher.Kw) (s : Str) : Prop :=
  Gives kws py"shape" s ∨ (Omits kws py"shape" ∧
    ((∃ a, args = [a] ∧ const = false ∧ a.starred = true ∧ a.src = '*' :: s) ∨
     (∃ a, args = [a] ∧ const = false ∧ a.starred = false ∧ a.src = s) ∨
     ((args.length ≥ 2 ∨ (args.length = 1 ∧ const = true)) ∧ s = py"[" ++ Str.join py", " (args.map (·.src)) ++ py"]")))

/-- Characters that `str` and `replace` leave alone. -/
def PlainText (t : Str) : Prop := ∀ c ∈ t, c ≠ '\'' ∧ c ≠ '\\' ∧ c ≠ '\n' ∧ c ≠ '\t' ∧ c ≠ '\r'

end Verif.Spec

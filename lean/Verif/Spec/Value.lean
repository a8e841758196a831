import Verif.Model.Value
import Verif.Spec.Dispatch
import Verif.Lemmas.Tables

/-!
# Specification of uses without a call
-/

namespace Verif.Value
open Verif Verif.Data Verif.Dispatch

/-- The words of Python that cannot be names. -/
def keywords : List Str :=
  [py"False", py"None", py"True", py"and", py"as", py"assert", py"async", py"await", py"break", py"class", py"continue", py"def", py"del", py"elif", py"else",
   py"except", py"finally", py"for", py"from", py"global", py"if", py"import", py"in", py"is", py"lambda", py"nonlocal", py"not", py"or", py"pass", py"raise",
   py"return", py"try", py"while", py"with", py"yield"]

/-- A character of a name: an ASCII letter or digit, an underscore, or one outside ASCII. -/
def letter (c : Char) : Bool := c.isAlphanum || c == '_' || decide (128 ≤ c.toNat)

/-- An identifier. -/
def Ident (s : Str) : Prop := s ≠ [] ∧ (∀ c ∈ s, letter c = true) ∧ (∀ c ∈ s.head?, c.isDigit = false) ∧ s ∉ keywords

instance (s : Str) : Decidable (Ident s) := by unfold Ident; infer_instance

/-- A text that can stand on the left of `=` (and in `del`, and after `for`): a name, or something with an attribute at the end. -/
def Assignable (s : Str) : Prop := ∃ a, Ident a ∧ (s = a ∨ ∃ w, s = w ++ py"." ++ a)

/-- The node can still be assigned to. -/
def Value.Target : Value → Prop
  | .keep => True
  | .code s => Assignable s

/-- An entry for which the tables have no name in Paddle (only code for a call). -/
def Nameless (k : Str) : Prop := ∃ r ∈ apiTable, r.name = k ∧ r.matcher ≠ 0 ∧ r.class ≠ py"ChangePrefixMatcher" ∧
  r.class ≠ py"FAApplyRotaryEmbFuncMatcher" ∧ r.cfg.paddleApi = none

/-- An entry whose text in Paddle is a string. -/
def Literal (k : Str) : Prop := ∃ r ∈ entries, r.name = k ∧ ∃ p, r.cfg.paddleApi = some ('\'' :: p)

/-- The full name under which a node is looked up, when there is one. -/
def LookedUp (f : File) (hit : Str → Str → Bool) (node : Expr) (n : Str) : Prop :=
  replaceModule f (fullAttrStrict f (blackList f) hit node) = .ok n

end Verif.Value

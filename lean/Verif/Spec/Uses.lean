import Verif.Model.Uses

/-!
# What C57 means: every use of an imported name is replaced by its full name
-/

namespace Verif.Uses
open Verif

/-- The components of a dotted name. -/
def chain : E → Option (List Str)
  | .name i => some [i]
  | .attr v a => (chain v).map (· ++ [a])
  | _ => none

/-- The replacement of a dotted name with components `h :: rest`: if `h` was imported, the canonical form of its full name, unless that API is
to be kept as it is. -/
def expandName (v : Env) (e : E) (h : Str) (rest : List Str) : E :=
  match v.file.names.get? h with
  | some m => if v.keep (Str.join py"." (m :: rest)) then e else ofText (v.canon (Str.join py"." (m :: rest)))
  | none => e

mutual
/-- The expression with each dotted name, wherever it is, replaced. -/
def expand (v : Env) : E → E
  | .name i => expandName v (.name i) i []
  | .attr w a =>
    match chain (.attr w a) with
    | some (h :: rest) => expandName v (.attr w a) h rest
    | _ => .attr (expand v w) a
  | .op t ks => .op t (expands v ks)
  | .other t ks => .other t (expands v ks)
def expands (v : Env) : Es → Es
  | .nil => .nil
  | .cons pos e rest => .cons pos (expand v e) (expands v rest)
end

/-- The attributes the import pass looks through. -/
def through : List Str := [py"T", py"real", py"weight", py"bias", py"imag"]

/-- Places where the import pass goes on below an attribute: an operation, one of the attributes above, or `data` where it is not the
module `utils.data`. -/
def goesOn (data : E → Bool) : E → Bool
  | .op _ _ => true
  | .attr w b => b ∈ through || (b == py"data" && data (.attr w b))
  | _ => false

mutual
/-- All uses of imported names in the expression are at places the import pass goes to: single names at one of the places it knows; dotted names
without one of the special attributes in the middle; attributes of anything else only of an operation, or after a special attribute. -/
def Seen (v : Env) (pos : Bool) : E → Prop
  | .name i => pos = true ∨ v.file.names.get? i = none
  | .attr w a =>
    match chain (.attr w a) with
    | some (h :: rest) => v.file.names.get? h = none ∨ ∀ b ∈ rest.dropLast, b ∉ through ∧ b ≠ py"data"
    | _ => goesOn v.data w = true ∧ Seen v false w
  | .op _ ks => SeenAll v ks
  | .other _ ks => SeenAll v ks
def SeenAll (v : Env) : Es → Prop
  | .nil => True
  | .cons pos e rest => Seen v pos e ∧ SeenAll v rest
end

mutual
/-- Names are identifiers: they contain no dot. -/
def Proper : E → Prop
  | .name i => '.' ∉ i
  | .attr w a => Proper w ∧ '.' ∉ a
  | .op _ ks => ProperAll ks
  | .other _ ks => ProperAll ks
def ProperAll : Es → Prop
  | .nil => True
  | .cons _ e rest => Proper e ∧ ProperAll rest
end

end Verif.Uses

import Verif.Model.Bind

/-!
# What names stand for when a program runs
-/

namespace Verif.Spec
open Verif Verif.Bind

/-- Values: an API (a module, class or function of a torch package), or something else with attributes taken from it. -/
inductive Val
  | api (name : Api)
  | obj (id : Nat) (path : Api)
  deriving DecidableEq, Repr

/-- Attributes of a value. -/
def Val.attr : Val → Api → Val
  | .api m, p => .api (m ++ p)
  | .obj i q, p => .obj i (q ++ p)

abbrev Names := Str → Option Val

def Names.put (e : Names) (x : Str) (v : Val) : Names := fun y => if y = x then some v else e y

/-- `Run p e t e'`: started with the names `e`, the program `p` can run to its end, calling the values `t` in this
order, and leaves the names `e'`. Conditions are left open, other values are arbitrary. A function is run where it is
defined (or not at all: write it in a branch), with arbitrary arguments, and its names are gone afterwards. A name that
is not bound cannot be used. -/
inductive Run : S → Names → List Val → Names → Prop
  | skip {e} : Run .skip e [] e
  | seq {a b e t e' t' e''} : Run a e t e' → Run b e' t' e'' → Run (.seq a b) e (t ++ t') e''
  | imp {x m e} : Run (.imp x m) e [] (Names.put e x (.api m))
  | assign {x y p e v} : e y = some v → Run (.assign x y p) e [] (Names.put e x (v.attr p))
  | assignApi {x m e} : Run (.assignApi x m) e [] (Names.put e x (.api m))
  | bind {x e} (v : Val) : Run (.bind x) e [] (Names.put e x v)
  | call {x p e v} : e x = some v → Run (.call x p) e [v.attr p] e
  | callApi {m e} : Run (.callApi m) e [.api m] e
  | left {a b e t e'} : Run a e t e' → Run (.branch a b) e t e'
  | right {a b e t e'} : Run b e t e' → Run (.branch a b) e t e'
  | done {b e} : Run (.loop b) e [] e
  | again {b e t e' t' e''} : Run b e t e' → Run (.loop b) e' t' e'' → Run (.loop b) e (t ++ t') e''
  | scope {ps b e t e'} (args : Str → Val) :
      Run b (fun x => if x ∈ ps then some (args x) else e x) t e' → Run (.scope ps b) e t e

/-- Every name has one meaning in the whole file: `imported` gives the names bound by imports, `renamed` the names that
are assigned such a name. No name of the first kind is bound in another way, and no name of the second kind is bound
in another way or to another API. -/
def OneMeaning (imported renamed : Str → Option Api) : S → Prop
  | .skip => True
  | .seq a b | .branch a b => OneMeaning imported renamed a ∧ OneMeaning imported renamed b
  | .imp x m => imported x = some m ∧ renamed x = none
  | .assign x y p => imported x = none ∧
      match imported y with
      | some m => if p = [] then renamed x = some m else renamed x = none
      | none => renamed x = none
  | .assignApi x _ => imported x = none ∧ renamed x = none
  | .bind x => imported x = none ∧ renamed x = none
  | .call _ _ | .callApi _ => True
  | .loop b => OneMeaning imported renamed b
  | .scope ps b => (∀ x ∈ ps, imported x = none ∧ renamed x = none) ∧ OneMeaning imported renamed b

/-- The names that a program part imports. -/
def imports : S → List Str
  | .imp x _ => [x]
  | .seq a b | .branch a b => imports a ++ imports b
  | .loop b | .scope _ b => imports b
  | _ => []

/-- Every assignment of an imported name comes after an import of this name in the text; `seen` are the names imported
so far. -/
def AfterImport (imported : Str → Option Api) (seen : List Str) : S → Prop
  | .seq a b | .branch a b => AfterImport imported seen a ∧ AfterImport imported (seen ++ imports a) b
  | .assign _ y p => p = [] → imported y ≠ none → y ∈ seen
  | .loop b | .scope _ b => AfterImport imported seen b
  | _ => True

end Verif.Spec

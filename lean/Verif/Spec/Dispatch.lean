import Verif.Model.Dispatch

/-!
# Specification of name recognition
-/

namespace Verif.Dispatch
open Verif

/-- The expression `a.b.c` for `a` and `[b, c]`. -/
def dotted (a : Str) (rest : List Str) : Expr := rest.foldl Expr.attr (.name a)

/-- The text `a.b.c`. -/
def dottedText (a : Str) (rest : List Str) : Str := Str.join py"." (a :: rest)

/-- Identifiers have no dot. -/
def Ident (s : Str) : Prop := '.' ∉ s

/-- The classes whose members are looked for, in the order in which they are tried. -/
inductive Cls | tensor | module | optimizer | ctx | distribution
  deriving DecidableEq

def Cls.order : List Cls := [.tensor, .module, .optimizer, .ctx, .distribution]

def Cls.name : Cls → Str
  | .tensor => py"torch.Tensor"
  | .module => py"torch.nn.Module"
  | .optimizer => py"torch.optim.Optimizer"
  | .ctx => py"torch.autograd.function.FunctionCtx"
  | .distribution => py"torch.distributions.distribution.Distribution"

/-- `s` occurs in the text of the name. -/
def Occurs (s full : Str) : Prop := ∃ a b, full = a ++ s ++ b

/-- For which classes a call `full(..)` can be a method, judged by the shape of its name: `x.m` any; `self.m` a module's
or an optimizer's; longer names with `self.` a tensor's, a module's or an optimizer's; longer names with `.T.`, `.weight.`
or `.bias.` a tensor's. `n` is the number of components. -/
def Admissible (full : Str) (n : Nat) (c : Cls) : Prop :=
  (n = 2 ∧ ¬ Occurs py"self." full) ∨
  (n = 2 ∧ Occurs py"self." full ∧ (c = .module ∨ c = .optimizer)) ∨
  (2 < n ∧ Occurs py"self." full ∧ (c = .tensor ∨ c = .module ∨ c = .optimizer)) ∨
  (2 < n ∧ c = .tensor ∧ (Occurs py".T." full ∨ Occurs py".weight." full ∨ Occurs py".bias." full))

/-- A name is in the call table: itself or what it is an alias of is an entry or fits a wildcard. -/
def Listed (T : Tables) (api : Str) : Prop :=
  ∃ c, (T.aliases.get? api = some c ∨ (T.aliases.get? api = none ∧ c = api)) ∧
    (c ∈ T.api.keys ∨ ∃ w ∈ T.wild, w.1 c = true)

/-- For which of the classes `torch.Tensor` and `FunctionCtx` an attribute `full` can be one, judged by the shape of its name: `x.a` any;
longer names with `self.`, `.T.`, `.data.`, `.real.`, `.imag.`, `.weight.` or `.bias.` a tensor's. `n` is the number of components. -/
def AdmissibleAttr (full : Str) (n : Nat) (c : Cls) : Prop :=
  (n = 2 ∧ ¬ Occurs py"self." full ∧ (c = .tensor ∨ c = .ctx)) ∨
  (2 < n ∧ c = .tensor ∧ (Occurs py"self." full ∨ Occurs py".T." full ∨ Occurs py".data." full ∨ Occurs py".real." full ∨
    Occurs py".imag." full ∨ Occurs py".weight." full ∨ Occurs py".bias." full))

/-- A name is in the attribute table: itself or what it is an alias of is an entry. -/
def ListedAttr (T : Tables) (api : Str) : Prop :=
  ∃ c, (T.aliases.get? api = some c ∨ (T.aliases.get? api = none ∧ c = api)) ∧ c ∈ T.attr.keys

/-- The counters change in accordance with what happens to the node. -/
def Consistent (s s' : Counts) : Out → Prop
  | .removed | .replaced => s'.torch = s.torch + 1 ∧ s'.success = s.success + 1 ∧ s'.unsupport = s.unsupport
  | .unsupported => s'.torch = s.torch + 1 ∧ s'.success = s.success ∧
      s'.unsupport.values.sum = s.unsupport.values.sum + 1
  | .kept => s'.torch - s.torch = s'.success - s.success ∧ s'.unsupport = s.unsupport

/-- What may happen to a call for each answer of its matcher (`none`: it has no matcher), and when this is a success:
only a removed statement, a call that needs no change, and a replacement whose nodes could all be used. -/
def Deserved (answer : Option Res) (statement : Prop) (s s' : Counts) (out : Out) : Prop :=
  (out = .removed ↔ answer = some .delete ∧ statement) ∧
  (out = .replaced ↔ answer = some (.nodes true true)) ∧
  (out = .kept ↔ answer = some .unchange ∨ answer = some .misidentify) ∧
  (s'.success = s.success + 1 ↔ out = .removed ∨ out = .replaced ∨ answer = some .unchange) ∧
  (s'.success = s.success ∨ s'.success = s.success + 1) ∧
  (s'.torch = s.torch ∨ s'.torch = s.torch + 1) ∧
  (s'.torch = s.torch ↔ answer = some .misidentify)

/-- One more use is listed under this name, and nothing else changes in the table of unsupported APIs. -/
def Reported (s s' : Counts) (name : Str) : Prop :=
  s'.unsupport.get? name = some ((s.unsupport.get? name).getD 0 + 1) ∧
  ∀ other, other ≠ name → s'.unsupport.get? other = s.unsupport.get? other

/-- A name of a torch package that the file imports. -/
def OfPackage (f : File) (full : Str) : Prop := ∃ p ∈ f.torch, ∃ rest, full = p ++ py"." ++ rest

end Verif.Dispatch

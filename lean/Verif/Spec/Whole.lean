import Mathlib.Data.List.Forall2
import Verif.Model.Basic
import Verif.Spec.Args
import Verif.Spec.Uses
import Verif.Spec.Imports
import Verif.Spec.Dispatch
import Verif.Lemmas.Tables

/-!
# What C85 means: the meaning of a program

A program is given a meaning in any domain, as long as the meaning of a node is determined by the meanings of its parts and that of a dotted name that begins
with an imported name by its full name.
-/

namespace Verif.Whole
open Verif Verif.Data
open Verif.Uses (E Es chain through)
open Verif.Dispatch (canonical)
open Verif.Matcher (prefixApi)
open Verif.Basic (Texts)

/-- A semantics with values in `M`: of the full names of libraries, of the other names, of attributes, and of the other nodes; and which values are objects
of which class. -/
structure Sem (M : Type) where
  lib : Str → M
  var : Str → M
  attr : M → Str → M
  op : Nat → List M → M
  other : Nat → List M → M
  isA : Str → M → Prop

/-- The full name of a dotted name, if it begins with an imported one. `imp x = some m`: the name `x` stands for the module or member `m`. -/
def fullName (imp : Str → Option Str) (e : E) : Option Str :=
  match chain e with
  | some (h :: rest) => (imp h).map fun m => Str.join py"." (m :: rest)
  | _ => none

mutual
/-- The meaning of an expression (or of statements) under imports. -/
def meaning {M : Type} (D : Sem M) (imp : Str → Option Str) : E → M
  | .name i =>
    match fullName imp (.name i) with
    | some n => D.lib n
    | none => D.var i
  | .attr w a =>
    match fullName imp (.attr w a) with
    | some n => D.lib n
    | none => D.attr (meaning D imp w) a
  | .op t ks => D.op t (meanings D imp ks)
  | .other t ks => D.other t (meanings D imp ks)
def meanings {M : Type} (D : Sem M) (imp : Str → Option Str) : Es → List M
  | .nil => []
  | .cons _ e rest => meaning D imp e :: meanings D imp rest
end

/-- The classes whose methods are looked up. -/
def classes : List Str :=
  [py"torch.Tensor", py"torch.nn.Module", py"torch.optim.Optimizer", py"torch.autograd.function.FunctionCtx",
   py"torch.distributions.distribution.Distribution"]

/-- The classes of Paddle for which a method is called on the receiver. -/
def paddleClasses : List Str :=
  [py"paddle.Tensor", py"paddle.nn.Module", py"paddle.optimizer.Optimizer", py"paddle.optim.Optimizer",
   py"paddle.distribution.Distribution", py"paddle.distributions.distribution.Distribution",
   py"paddle.autograd.function.FunctionCtx", py"paddle.profiler.Profiler"]

/-! ## What the tables say about a call -/

/-- A name or a text that is not a literal: `paddle.nn.Linear`. -/
def Dotted (s : Str) : Prop := ∀ x ∈ Str.splitOn '.' s, x ≠ [] ∧ ∀ c ∈ x, c.isAlphanum = true ∨ c = '_'

/-- The entry names `p`. -/
def Names (r : Raw) (p : Str) : Prop := r.cfg.paddleApi = some p ∧ Dotted p

/-- The parameters after `*`. -/
def keywordOnly (params : List Str) : List Str := (params.dropWhile (· ≠ py"*")).drop 1

/-- Arguments that are dropped. -/
def unused : List Str := [py"layout", py"device", py"memory_format", py"inplace", py"generator", py"non_blocking", py"async"]

/-- The names under which an argument is passed on. -/
def newName (cfg : Matcher.Cfg) (k : Str) : List Str :=
  match cfg.change.get? k with
  | some c => c.targets
  | none => if k ∈ unused then [] else [k]

/-- The arguments of the new call: those of the old one under their new names, and the defaults that are not given. -/
def passed {β : Type} (cfg : Matcher.Cfg) (bound : List (Str × β)) : List (Str × β) := bound.flatMap fun kv => (newName cfg kv.1).map (·, kv.2)
def missing (cfg : Matcher.Cfg) (names : List Str) : List (Str × Str) := cfg.defaults.filter fun kv => kv.1 ∉ names
def filled {β : Type} (cfg : Matcher.Cfg) (val : Str → β) (l : List (Str × β)) : List (Str × β) :=
  l ++ (missing cfg (l.map (·.1))).map fun kv => (kv.1, val kv.2)

/-- Not the new name of an argument. -/
def Kept (cfg : Matcher.Cfg) (k : Str) : Prop := .one k ∉ cfg.change.values

instance (cfg : Matcher.Cfg) (k : Str) : Decidable (Kept cfg k) := by unfold Kept; infer_instance

/-- A call with `n` positional arguments and the keywords `ks` that fits the parameters of the entry: every argument has one parameter and none is unsupported. The
result needs no more than one expression: no `pin_memory`, `requires_grad` or `out` is passed on, unless as the new name of an argument. -/
structure Fits (cfg : Matcher.Cfg) (n : Nat) (ks : List Str) : Prop where
  first : cfg.argsList.head? ≠ some py"*"
  one : py"*" ∉ keywordOnly cfg.argsList
  count : n ≤ (Spec.positional cfg.argsList).length
  nodup : ((Spec.positional cfg.argsList).take n ++ ks).Nodup
  known : ∀ k ∈ ks, k ∈ cfg.argsList ++ cfg.overload
  supported : ∀ k ∈ (Spec.positional cfg.argsList).take n ++ ks, k ∉ cfg.unsupport
  enough : cfg.minInput ≤ n + (ks.filter fun k => k ∉ keywordOnly cfg.argsList).length
  room : n + (ks.filter fun k => k ∉ keywordOnly cfg.argsList).length ≤ (Spec.positional cfg.argsList).length
  split : ¬ (py"indices" ∈ (Spec.positional cfg.argsList).take n ++ ks ∧ py"sections" ∈ (Spec.positional cfg.argsList).take n ++ ks)
  simple : ∀ k ∈ [py"pin_memory", py"requires_grad", py"out"], Kept cfg k →
    (∀ a ∈ (Spec.positional cfg.argsList).take n ++ ks, k ∉ newName cfg a) ∧ k ∉ cfg.defaults.map (·.1)
  dtype : Kept cfg py"dtype" → py"dtype" ∉ cfg.defaults.map (·.1)

/-- The data types. -/
def dtypes : List Str :=
  [py"torch.float32", py"torch.float64", py"torch.float16", py"torch.bfloat16", py"torch.float", py"torch.double", py"torch.half",
   py"torch.uint8", py"torch.int8", py"torch.int16", py"torch.int32", py"torch.int64", py"torch.short", py"torch.int", py"torch.long",
   py"torch.bool", py"torch.complex64", py"torch.complex128", py"torch.cfloat", py"torch.cdouble"]

/-- What the tables say that a call means in Paddle, for the function `g`: the arguments are passed by keyword; a data type is given by a conversion of the result. -/
def paddleCall {M : Type} (D : Sem M) (T : Texts) (cfg : Matcher.Cfg) (g : M) (bound : List (Str × M)) : M :=
  let all := filled cfg (fun s => meaning D (fun _ => none) (T.back s)) (passed cfg bound)
  let call := D.op 0 (g :: (all.filter fun kv => ¬ (kv.1 = py"dtype" ∧ Kept cfg py"dtype")).map fun kv => D.other (T.kw kv.1) [kv.2])
  match Dict.get? all py"dtype" with
  | some v => if Kept cfg py"dtype" then D.op 0 [D.attr call py"astype", v] else call
  | none => call

/-- Calling `f` with any arguments that fit means what the tables say. -/
def AgreeCall {M : Type} (D : Sem M) (T : Texts) (cfg : Matcher.Cfg) (f g : M) : Prop :=
  ∀ (pos : List M) (kws : List (Str × M)), Fits cfg pos.length (kws.map (·.1)) →
    (∀ kv ∈ (Spec.positional cfg.argsList).zip pos ++ kws, py"dtype" ∈ newName cfg kv.1 → Kept cfg py"dtype" → ∃ n ∈ dtypes, kv.2 = D.lib n) →
    D.op 0 (f :: (pos ++ kws.map fun kv => D.other (T.kw kv.1) [kv.2])) =
      paddleCall D T cfg g ((Spec.positional cfg.argsList).zip pos ++ kws)

/-- The two libraries agree as the tables say, also for the aliases:
* where only the package changes, an API means the same under its Paddle name (`api`), a method under the name of which it is an alias (`method`);
* where only the name changes, it means the same under that name (`rename`, `renameMethod`);
* where names of arguments change, a call means what the tables say (`generic`, `genericMethod`). -/
structure Agree {M : Type} (D : Sem M) (T : Texts) : Prop where
  api : ∀ r ∈ entries, r.class = py"ChangePrefixMatcher" → ∀ n, canonical shipped n = r.name → ∀ p, prefixApi torchPackages r.name = some p →
    D.lib n = D.lib p
  method : ∀ C ∈ classes, ∀ a b, canonical shipped (C ++ py"." ++ a) = C ++ py"." ++ b → ∀ x, D.isA C x → D.attr x a = D.attr x b
  rename : ∀ r ∈ entries, r.class = py"ChangeAPIMatcher" → ∀ n, canonical shipped n = r.name → ∀ p, Names r p → D.lib n = D.lib p
  renameMethod : ∀ r ∈ apiTable, r.class = py"ChangeAPIMatcher" → ∀ C ∈ classes, ∀ a, canonical shipped (C ++ py"." ++ a) = r.name →
    ∀ P ∈ paddleClasses, ∀ b, '.' ∉ b → Names r (P ++ py"." ++ b) → ∀ x, D.isA C x → D.attr x a = D.attr x b
  generic : ∀ r ∈ apiTable, r.class = py"GenericMatcher" → ∀ n, canonical shipped n = r.name → ∀ p, Names r p → AgreeCall D T r.cfg (D.lib n) (D.lib p)
  genericMethod : ∀ r ∈ apiTable, r.class = py"GenericMatcher" → ∀ C ∈ classes, ∀ a, canonical shipped (C ++ py"." ++ a) = r.name →
    ∀ P ∈ paddleClasses, ∀ b, '.' ∉ b → Names r (P ++ py"." ++ b) → ∀ x, D.isA C x → AgreeCall D T r.cfg (D.attr x a) (D.attr x b)

/-- Printing and parsing: the text of an expression, parsed, is the expression; it is never the bare word `None` (the printer puts parentheses around the constant); and
`kw k` is the tag of the keyword `k`. -/
structure Faithful (key : Nat → Option (Option Str)) (T : Texts) : Prop where
  back : ∀ e, T.back (T.text e) = e
  none : ∀ e, T.text e ≠ py"None"
  key : ∀ k, key (T.kw k) = some (some k)

/-! ## Imports -/

/-- The name that an import binds in Python: the first component of `a.b.c` for `import a.b.c`. -/
def bound (b : Imports.Bind) : Str := (Str.splitOn '.' b.as_).headD []

/-- What it stands for. -/
def stands (b : Imports.Bind) : Str := if '.' ∈ b.as_ then bound b else b.full

/-- `imp` is what the torch imports of the program bind; no name is bound to two things. As the grammar has it, dots are only in `import a.b`. -/
def Binds (c : Imports.Cfg) (body : Imports.PBlock) (imp : Str → Option Str) : Prop :=
  (∀ x m, imp x = some m ↔ ∃ b ∈ body.binds, b.Torch c ∧ bound b = x ∧ stands b = m) ∧
  (∀ b ∈ body.binds, ¬ b.Torch c → imp (bound b) = none) ∧
  ∀ b ∈ body.binds, '.' ∈ b.as_ → b.member = none ∧ b.module = some b.as_

/-- What `import p` for all `p` of a list binds. -/
def ownNames (added : List Str) (x : Str) : Option Str := if x ∈ added then some x else none

/-! ## The programs -/

/-- None of the names that the passes look through: `x.T.y`. -/
def Clear (l : List Str) : Prop := ∀ b ∈ l.dropLast, b ∉ through ∧ b ≠ py"data"

instance (l : List Str) : Decidable (Clear l) := inferInstanceAs (Decidable (∀ b ∈ l.dropLast, b ∉ through ∧ b ≠ py"data"))

/-- The same, but for the module `torch.utils.data`. -/
def Still : List Str → Prop
  | [] => True
  | h :: rest => Clear rest ∨ ∃ more, h :: rest = py"torch" :: py"utils" :: py"data" :: more ∧ Clear more

/-- No component is a name from another package or one of three names that are taken to have nothing to do with torch. -/
def Unhidden (c : Imports.Cfg) (body : Imports.PBlock) (l : List Str) : Prop :=
  ∀ b ∈ l, b ≠ py"*" ∧ (∀ b' ∈ body.binds, ¬ b'.Torch c → b'.as_ ≠ b) ∧ b ≠ py"ndarray" ∧ b ≠ py"args" ∧ b ≠ py"arg"

/-- A full name that the basic pass sees as it is: the package is imported, and its name is not taken by another import. -/
structure Visible (c : Imports.Cfg) (body : Imports.PBlock) (imp : Str → Option Str) (n : Str) : Prop where
  still : Still (Str.splitOn '.' n)
  unhidden : Unhidden c body (Str.splitOn '.' n)
  own : ∀ m, imp ((Str.splitOn '.' n).headD []) = some m → m = (Str.splitOn '.' n).headD []
  package : ∃ b ∈ body.binds, b.Torch c ∧ ∃ p, b.package c = some p ∧ p ∉ c.may ∧ ∃ t, n = p ++ py"." ++ t

/-- The keywords of a call as the grammar has them, after the other arguments; none twice, none of those that the converter drops. -/
def GoodArgs (key : Nat → Option (Option Str)) (dropped : List Str) (args : Es) : Prop :=
  ∃ pos kws, Basic.Es.toList args = pos ++ kws ∧ (∀ a ∈ pos, ∀ t ks, a.2 = .other t ks → key t = none) ∧
    ∃ ks : List (Option Str), kws.map (fun a => match a.2 with | .other t _ => key t | _ => none) = ks.map some ∧ ks.Nodup ∧
      ∀ k ∈ dropped, some k ∉ ks

/-- The arguments are the positional ones `pos`, none starred, and the keywords `kws`. -/
def Written (key : Nat → Option (Option Str)) (T : Texts) (args : Es) (pos : List E) (kws : List (Str × E)) : Prop :=
  ∃ kwn : List E, (Basic.Es.toList args).map (·.2) = pos ++ kwn ∧ (∀ a ∈ pos, ∀ t ks, a = .other t ks → key t = none ∧ T.star t = false) ∧
    List.Forall₂ (fun n kv => ∃ b, n = .other (T.kw kv.1) (.cons b kv.2 .nil)) kwn kws

mutual
/-- No name occurs. -/
def Nameless : E → Prop
  | .name _ => False
  | .attr w _ => Nameless w
  | .op _ ks => NamelessAll ks
  | .other _ ks => NamelessAll ks
def NamelessAll : Es → Prop
  | .nil => True
  | .cons _ e rest => Nameless e ∧ NamelessAll rest
end

/-- The arguments fit. A data type is named; the defaults that are used are literals. -/
def FittingArgs (imp : Str → Option Str) (key : Nat → Option (Option Str)) (T : Texts) (cfg : Matcher.Cfg) (args : Es) : Prop :=
  ∃ pos kws, Written key T args pos kws ∧ Fits cfg pos.length (kws.map (·.1)) ∧
    (∀ kv ∈ (Spec.positional cfg.argsList).zip pos ++ kws, py"dtype" ∈ newName cfg kv.1 → Kept cfg py"dtype" → ∃ n ∈ dtypes, fullName imp kv.2 = some n) ∧
    ∀ kv ∈ missing cfg ((passed cfg ((Spec.positional cfg.argsList).zip pos ++ kws)).map (·.1)), Nameless (T.back kv.2)

/-- A call of the entry with these arguments is one that the claim is about. -/
def Accepts (imp : Str → Option Str) (key : Nat → Option (Option Str)) (T : Texts) (r : Raw) (args : Es) : Prop :=
  (r.class = py"ChangePrefixMatcher" ∧ GoodArgs key [py"layout", py"generator", py"memory_format", py"sparse_grad", py"foreach"] args) ∨
  (r.class = py"ChangeAPIMatcher" ∧ GoodArgs key [py"layout", py"generator", py"memory_format"] args) ∨
  (r.class = py"GenericMatcher" ∧ FittingArgs imp key T r.cfg args)

/-- The Paddle name of an API: with another package, or the one of the table, in the package that takes the place. -/
def NewApi (r : Raw) (p : Str) : Prop :=
  (r.class = py"ChangePrefixMatcher" ∧ prefixApi torchPackages r.name = some p ∧ r.name ≠ py"torch.torch.int32") ∨
  (r.class ≠ py"ChangePrefixMatcher" ∧ Names r p ∧ torchPackages.get? ((Str.splitOn '.' r.name).headD []) = some ((Str.splitOn '.' p).headD []))

/-- An API of the tables, under its name or an alias, as a value (of the first two kinds) or called (`use = some args`). The entry `torch.torch.int32` and an
alias that is also an entry are left out (C47, C34). -/
structure KnownApi (c : Imports.Cfg) (body : Imports.PBlock) (imp : Str → Option Str) (key : Nat → Option (Option Str)) (T : Texts) (use : Option Es)
    (n : Str) : Prop where
  entry : match use with
    | none => ∃ r ∈ entries, canonical shipped n = r.name ∧ (r.class = py"ChangePrefixMatcher" ∨ r.class = py"ChangeAPIMatcher") ∧ ∃ p, NewApi r p
    | some args => ∃ r ∈ apiTable, canonical shipped n = r.name ∧ Accepts imp key T r args ∧ ∃ p, NewApi r p
  loader : n ≠ py"torch.utils.data.dataloader.DataLoader"
  visible : Visible c body imp n
  visible' : Visible c body imp (canonical shipped n)

/-- An attribute that the tables do not know or for which they say that nothing changes. -/
def PlainAttr (a : Str) : Prop :=
  ∀ C ∈ [py"torch.Tensor", py"torch.autograd.function.FunctionCtx"], Dispatch.ListedAttr shipped (C ++ py"." ++ a) →
    ∃ r ∈ attrTable, r.class = py"ChangePrefixMatcher" ∧ canonical shipped (C ++ py"." ++ a) = r.name

/-- The Paddle name `b` of a method of the class `C`. -/
def NewMethod (C : Str) (r : Raw) (b : Str) : Prop :=
  '.' ∉ b ∧ ((r.class = py"ChangePrefixMatcher" ∧ r.name = C ++ py"." ++ b) ∨
    (r.class ≠ py"ChangePrefixMatcher" ∧ ∃ P ∈ paddleClasses, Names r (P ++ py"." ++ b)))

/-- `f(self, ...)`. -/
def FirstSelf (args : Es) : Prop := ∃ b rest, args = .cons b (.name py"self") rest

/-- The call of a method that the tables do not know or whose call they accept. -/
def PlainMethod (imp : Str → Option Str) (key : Nat → Option (Option Str)) (T : Texts) (args : Es) (a : Str) : Prop :=
  ∀ C ∈ classes, Dispatch.Listed shipped (C ++ py"." ++ a) → ∃ r ∈ apiTable, canonical shipped (C ++ py"." ++ a) = r.name ∧ Accepts imp key T r args ∧
    (r.class = py"GenericMatcher" → ¬ FirstSelf args) ∧ ∃ b, NewMethod C r b

def PlainMember (imp : Str → Option Str) (key : Nat → Option (Option Str)) (T : Texts) : Option Es → Str → Prop
  | none, a => PlainAttr a
  | some args, a => PlainMethod imp key T args a

/-- A package that may be used with torch or something in it, not known to the tables, also not as a method, unless nothing changes. -/
structure MayApi (c : Imports.Cfg) (imp : Str → Option Str) (key : Nat → Option (Option Str)) (use : Option Es) (n : Str) : Prop where
  head : (Str.splitOn '.' n).headD [] ∈ c.may
  unlisted : ¬ Dispatch.Listed shipped n
  still : Clear ((Str.splitOn '.' n).drop 1)
  own : ∀ m, imp ((Str.splitOn '.' n).headD []) = some m → m = (Str.splitOn '.' n).headD []
  member : match use with
    | none => PlainAttr ((Str.splitOn '.' n).getLastD [])
    | some args => ∀ C ∈ classes, Dispatch.Listed shipped (C ++ py"." ++ (Str.splitOn '.' n).getLastD []) →
      ∃ r ∈ apiTable, r.class = py"ChangePrefixMatcher" ∧ canonical shipped (C ++ py"." ++ (Str.splitOn '.' n).getLastD []) = r.name ∧
        r.name = C ++ py"." ++ (Str.splitOn '.' n).getLastD [] ∧
        GoodArgs key [py"layout", py"generator", py"memory_format", py"sparse_grad", py"foreach"] args

/-- A name of the program itself. It is no package name, not one of the converter's own keys, and does not begin with a package name for which the tables have a
wildcard. -/
structure OwnName (i : Str) : Prop where
  package : i ∉ torchPackages.keys ∧ i ∉ mayPackages ∧ i ∉ [py"paddle", py"paddlespeech", py"paddleformers"]
  key : i ∉ [py"other_packages", py"torch_packages", py"may_torch_packages", py"api_alias_name_map"]
  wild : ¬ (∃ t, i = py"einops" ++ t) ∧ ¬ ∃ t, i = py"transformers" ++ t

mutual
/-- No imported name occurs. -/
def Local (imp : Str → Option Str) : E → Prop
  | .name i => imp i = none ∧ OwnName i
  | .attr w _ => Local imp w
  | .op _ ks => LocalAll imp ks
  | .other _ ks => LocalAll imp ks
def LocalAll (imp : Str → Option Str) : Es → Prop
  | .nil => True
  | .cons _ e rest => Local imp e ∧ LocalAll imp rest
end

/-- Values into which the passes go when they visit an attribute of it; for `data` only if it is an attribute of an operation. -/
def looked : E → Bool
  | .op _ _ => true
  | .attr (.op _ _) b => b ∈ through || b == py"data"
  | .attr _ b => b ∈ through
  | _ => false

/-- The last attribute is `data`. -/
def endsInData : E → Bool
  | .attr _ b => b == py"data"
  | _ => false

mutual
/-- The program uses of the libraries only APIs of the three kinds (and members of the other packages that the tables do not know), in calls that fit, at places to which
the passes go. `use = some args`: the expression is the function of a call; `pos`: see `Uses.Es`. -/
def Fine (c : Imports.Cfg) (body : Imports.PBlock) (imp : Str → Option Str) (key : Nat → Option (Option Str)) (T : Texts) (use : Option Es) (pos : Bool) : E → Prop
  | .name i =>
    match imp i with
    | some n => (pos = true ∨ n = i) ∧ (KnownApi c body imp key T use n ∨ MayApi c imp key use n)
    | none => OwnName i
  | .attr w a =>
    match chain (.attr w a) with
    | some (h :: rest) =>
      match imp h with
      | some m =>
        Still (h :: rest) ∧ (KnownApi c body imp key T use (Str.join py"." (m :: rest)) ∨ MayApi c imp key use (Str.join py"." (m :: rest)))
      | none => OwnName h ∧ PlainMember imp key T use a ∧ ∀ b ∈ rest.dropLast, PlainAttr b
    | _ => PlainMember imp key T use a ∧ if looked w then Fine c body imp key T none false w else Local imp w ∧ endsInData w = false
  | .op _ .nil => True
  | .op t (.cons pos e rest) =>
    if t = 0 then Fine c body imp key T (some rest) pos e ∧ e ≠ .name py"setattr" ∧ e ≠ .name py"hasattr" ∧ FineAll c body imp key T rest
    else Fine c body imp key T none pos e ∧ FineAll c body imp key T rest
  | .other _ ks => FineAll c body imp key T ks
def FineAll (c : Imports.Cfg) (body : Imports.PBlock) (imp : Str → Option Str) (key : Nat → Option (Option Str)) (T : Texts) : Es → Prop
  | .nil => True
  | .cons pos e rest => Fine c body imp key T none pos e ∧ FineAll c body imp key T rest
end

/-- A method whose call changes in more than its receiver is one of an object of the class. -/
def Receiver {M : Type} (D : Sem M) (imp : Str → Option Str) : E → Prop
  | .attr w a => fullName imp (.attr w a) = none → ∀ C ∈ classes, ∀ r ∈ apiTable, canonical shipped (C ++ py"." ++ a) = r.name →
      (r.class = py"ChangePrefixMatcher" ∧ r.name = C ++ py"." ++ a) ∨ D.isA C (meaning D imp w)
  | _ => True

mutual
/-- This holds for all calls of the program. -/
def Typed {M : Type} (D : Sem M) (imp : Str → Option Str) : E → Prop
  | .name _ => True
  | .attr w _ => Typed D imp w
  | .op _ .nil => True
  | .op t (.cons _ e rest) => (t = 0 → Receiver D imp e) ∧ Typed D imp e ∧ TypedAll D imp rest
  | .other _ ks => TypedAll D imp ks
def TypedAll {M : Type} (D : Sem M) (imp : Str → Option Str) : Es → Prop
  | .nil => True
  | .cons _ e rest => Typed D imp e ∧ TypedAll D imp rest
end

end Verif.Whole

import Verif.Model.Helpers

/-!
# The passes for C++ extensions

Models `/repo/paconvert/transformer/custom_op_transformer.py` on files of a project that are converted one after the
other. The two lists at the top of that file live as long as the process; api_matcher.py:4724-4725 adds to the first
during the pass before. The counters and the annotations are in `Model/Dispatch` and `Model/Scope`.
-/

namespace Verif.Custom
open Verif
open Verif.Helpers (FromState fromLoop applyCode extTag)

/-- The parts of a file that the passes look at, in the order in which they are visited. -/
inductive Item
  /-- `setup(name=.., cmdclass={..BuildExtension..})` -/
  | declare (name : Str)
  /-- `import a, b as c` -/
  | imp (names : List (Str × Option Str))
  /-- `x = torch.utils.cpp_extension.load(..)` -/
  | load (x : Str)
  /-- a class: its identity (it is a key of `AUTOGRAD_FUNC_NODES` as an object), its name, whether
  `torch.autograd.Function` is a base, and the names `h` of all `h.attr` in its body -/
  | cls (id : Nat) (name : Str) (layer : Bool) (heads : List Str)
  /-- `from module import a, b as c` -/
  | from_ (module : Str) (names : List (Str × Option Str))
  /-- `f.apply` -/
  | apply (f : Str)
  /-- the expression that takes its place -/
  | code (text : Str)
  /-- anything else -/
  | other (n : Nat)
  deriving DecidableEq, Repr

/-- `CPP_EXTENSION_LIST` and `AUTOGRAD_FUNC_NODES` (identity, then name of the class and extension). -/
structure Global where
  exts : List Str := []
  wrappers : Dict Nat (Str × Str) := []
  deriving DecidableEq, Repr

/-- State of `PreCustomOpTransformer`; custom_op_transformer.py:44-45. -/
structure Pre where
  g : Global
  imported : Dict Str Str := []
  loaded : List Str := []

/-- `visit_Attribute` for one `h.attr` in a class; custom_op_transformer.py:86-140. -/
def recordHead (id : Nat) (name : Str) (p : Pre) (h : Str) : Pre :=
  let w := p.imported.foldl (fun w (a : Str × Str) => if a.1 = h then w.set id (name, extTag false a.2) else w) p.g.wrappers
  let w := p.loaded.foldl (fun w l => if l = h then w.set id (name, extTag true l) else w) w
  { p with g := { p.g with wrappers := w } }

/-- The first pass; custom_op_transformer.py:47-142. -/
def preItem (p : Pre) : Item → Pre × List Item
  | .imp names =>
    let gone := names.filter fun n => n.1 ∈ p.g.exts
    let kept := names.filter fun n => n.1 ∉ p.g.exts
    ({ p with imported := gone.foldl (fun d n => d.set (n.2.getD n.1) n.1) p.imported },
      if kept = [] then [] else [.imp kept])
  | .load x => ({ p with loaded := p.loaded ++ [x] }, [.load x])
  | .cls id name layer heads =>
    (if layer then heads.foldl (recordHead id name) p else p, [.cls id name layer heads])
  | i => (p, [i])

def preItems (p : Pre) : List Item → Pre × List Item
  | [] => (p, [])
  | i :: l =>
    let (p, a) := preItem p i
    let (p, b) := preItems p l
    (p, a ++ b)

/-- State of `CustomOpTransformer`: `autograd_func_import_names` and the imports to put at the top. -/
structure Post where
  known : Dict Str Str := []
  top : List (List Str) := []

/-- The loop over the names of a `from` import; custom_op_transformer.py:168-198. -/
def fromNames (w : List (Str × Str)) (p : Dict Str Str) : List (Str × Option Str) → Dict Str Str × List Str × List (Str × Option Str)
  | [] => (p, [], [])
  | (n, as_) :: l =>
    let s := fromLoop as_ w { name := n, known := p }
    let (p, imps, kept) := fromNames w s.known l
    (p, s.imports ++ imps, if s.remove then kept else (s.name, as_) :: kept)

/-- The second pass; custom_op_transformer.py:167-253. -/
def postItem (g : Global) (p : Post) : Item → Post × List Item
  | .from_ m names =>
    let (known, imps, kept) := fromNames (g.wrappers.map (·.2)) p.known names
    ({ known := known, top := if imps = [] then p.top else p.top ++ [imps] }, if kept = [] then [] else [.from_ m kept])
  | .cls id name layer heads => (p, if g.wrappers.has id then [] else [.cls id name layer heads])
  | .apply f =>
    match p.known.get? f with
    | some ext => (p, [.code (applyCode ext)])
    | none => (p, [.apply f])
  | i => (p, [i])

def postItems (g : Global) (p : Post) : List Item → Post × List Item
  | [] => (p, [])
  | i :: l =>
    let (p, a) := postItem g p i
    let (p, b) := postItems g p l
    (p, a ++ b)

def declared : List Item → List Str
  | [] => []
  | .declare n :: l => n :: declared l
  | _ :: l => declared l

/-- One file: `SetUpMatcher` in the pass before, then both passes; converter.py:436-457. The imports at the top are
merged if they are equal (C37), which is left out. -/
def convertFile (g : Global) (items : List Item) : Global × List Item :=
  let (p, items) := preItems { g := { g with exts := g.exts ++ declared items } } items
  let (q, items) := postItems p.g {} items
  (p.g, q.top.map (fun l => .imp (l.map fun m => (m, none))) ++ items)

/-- The files of a project, in the order in which the directory lists them. -/
def convertFiles (g : Global) : List (List Item) → Global × List (List Item)
  | [] => (g, [])
  | f :: l =>
    let (g, a) := convertFile g f
    let (g, b) := convertFiles g l
    (g, a :: b)

end Verif.Custom

import Verif.Py.Str
import Verif.Py.Dict

/-!
# Traversal, scopes and inserted lines

Models the stacks, the recording and the insertion of helper lines of `/repo/paconvert/base.py` lines 55-168 and
270-325.
-/

namespace Verif.Scope
open Verif

/-! ## Syntax trees -/

/-- Kinds of syntax nodes as far as the traversal distinguishes them. The first eight are those with a visitor that
pushes a scope (base.py:272-325; `visit_TryFinally` is never called in Python 3). `stmt` stands for every other node that is a
statement or contains statements (`ast.ClassDef`, `ast.AsyncFunctionDef`, `ast.Match`, `ast.match_case`, `ast.TryStar`, simple
statements, ..), `expr` for expressions and their parts (`ast.arguments`, `ast.keyword`, `ast.withitem`, ..). -/
inductive Kind
  | module | function | while_ | if_ | try_ | for_ | with_ | handler | stmt | expr
  deriving DecidableEq, Repr

/-- A visitor of this kind pushes a scope; base.py:272-325. -/
def Kind.isScope : Kind → Bool
  | .stmt => false
  | .expr => false
  | _ => true

/-- The fields that `scope_body_index` looks at, the handlers of `try`, and the other ones. -/
inductive Field | body | orelse | decorators | finalbody | handlers | other
  deriving DecidableEq, Repr

mutual
/-- A syntax node. `id` is the identity of the node object: nodes are compared with `==`, which is identity for
`ast` nodes. -/
inductive Tree
  | node (id : Nat) (kind : Kind) (kids : Kids)
/-- The children of a node, with the field they are in. -/
inductive Kids
  | nil
  | cons (f : Field) (t : Tree) (rest : Kids)
end

def Tree.id : Tree → Nat
  | .node i _ _ => i
def Tree.kind : Tree → Kind
  | .node _ k _ => k
def Tree.kids : Tree → Kids
  | .node _ _ c => c

def Kids.toList : Kids → List (Field × Tree)
  | .nil => []
  | .cons f t rest => (f, t) :: rest.toList

/-- The nodes in a field. -/
def Tree.field (t : Tree) (f : Field) : List Tree := (t.kids.toList.filter fun c => c.1 == f).map (·.2)

/-! ## The traversal -/

/-- `node_stack` and `scope_stack`, the top first (the code has it last). -/
structure Stacks where
  nodes : List Tree := []
  scopes : List Tree := []

/-- `scope_stack.append(node)` in the visitors that have it; base.py:274, 280, 286, 292, 304, 310, 316, 322. -/
def enterScope (t : Tree) (s : Stacks) : Stacks :=
  if t.kind.isScope then { s with scopes := t :: s.scopes } else s

/-- `scope_stack.pop()` in these visitors; base.py:276, 282, 288, 294, 306, 312, 318, 324. -/
def leaveScope (t : Tree) (s : Stacks) : Stacks :=
  if t.kind.isScope then { s with scopes := s.scopes.tail } else s

mutual
/-- `visit` of a node; base.py:59-63 with the visitors of base.py:273-325 and `generic_visit`. `deep` tells whether the
visitor of a node visits its children: some visitors of the transformers do so only in some cases. The second component lists
each visited node with the stacks as they are when the body of its visitor runs, once before and once after its children. What
the visitors return is not modelled here. -/
def visit (deep : Tree → Bool) : Tree → Stacks → Stacks × List (Tree × Stacks)
  | .node i k kids, s =>
    let t := Tree.node i k kids
    let s1 := enterScope t { s with nodes := t :: s.nodes }
    let r := if deep t then visitKids deep kids s1 else (s1, [])
    let s2 := leaveScope t r.1
    ({ s2 with nodes := s2.nodes.tail }, (t, s1) :: r.2 ++ [(t, r.1)])
/-- `generic_visit`: the children one after the other. -/
def visitKids (deep : Tree → Bool) : Kids → Stacks → Stacks × List (Tree × Stacks)
  | .nil, s => (s, [])
  | .cons _ t rest, s =>
    let a := visit deep t s
    let b := visitKids deep rest a.1
    (b.1, a.2 ++ b.2)
end

/-- `parent_node`; base.py:65-67. -/
def Stacks.parent (s : Stacks) : Option Tree := s.nodes[1]?

/-! ## Where the helper lines of a use go -/

/-- A position for helper lines: the node, the field and the index in it; the value of `scope_body_index`. -/
structure Pos where
  scope : Nat
  field : Field
  index : Nat
  deriving DecidableEq, Repr

/-- The search for `c` in one field; the loops base.py:76-78, 82-84, 88-90, 94-96. -/
def indexIn (s : Tree) (f : Field) (c : Tree) : Option Pos :=
  ((s.field f).findIdx? fun x => x.id == c.id).map fun i => ⟨s.id, f, i⟩

/-- The four searches; base.py:76-96. -/
def locate (s c : Tree) : Option Pos :=
  ((indexIn s .body c).or (indexIn s .orelse c)).or ((indexIn s .decorators c).or (indexIn s .finalbody c))

/-- The loop over the node stack for a scope; base.py:73-96. `below` is the entry visited before, `self.node_stack[i + 1]`;
for the top of the stack `i + 1` is 0, so it is the bottom of the stack. -/
def search (s : Tree) : Tree → List Tree → Option Pos
  | _, [] => none
  | below, n :: rest => if n.id == s.id then (locate s below).or (search s n rest) else search s n rest

/-- What `scope_body_index()` does. -/
inductive Found
  | at (p : Pos)
  /-- `IndexError` of `self.scope_stack[level]` -/
  | indexError
  /-- the call `self.scope_body_index(-2)` repeats itself: `RecursionError` -/
  | recursion
  deriving DecidableEq, Repr

/-- One level of the search. -/
def searchLevel (s : Stacks) (scope : Tree) : Option Pos :=
  search scope (s.nodes.getLastD scope) s.nodes

/-- `scope_body_index`; base.py:69-98. The level is -1 at first and -2 in every further call, so the third call is the same
as the second one. -/
def scopeBodyIndex (s : Stacks) : Found :=
  match s.scopes with
  | [] => .indexError
  | a :: rest =>
    match searchLevel s a with
    | some p => .at p
    | none =>
      match rest with
      | [] => .indexError
      | b :: _ =>
        match searchLevel s b with
        | some p => .at p
        | none => .recursion

/-! ## Recording and inserting lines -/

section
variable {κ ι α δ : Type} [DecidableEq κ] [DecidableEq δ]

/-- `record_scope`; base.py:120-144. `κ` are the positions: the three nested dictionaries (scope, field, index) are taken as
one keyed by the triple. `dump` is `ast.dump`. The duplicates are searched in the lines recorded before this call only. -/
def record (dump : α → δ) (d : Dict κ (List α)) (pos : κ) (lines : List α) : Dict κ (List α) :=
  if lines.isEmpty then d else
  match d.get? pos with
  | some old => d.set pos (old ++ lines.filter fun n => !(old.any fun e => decide (dump n = dump e)))
  | none => d.set pos lines

/-- `list.insert(index, x)` for an index that is not negative: past the end it appends. -/
def insertAt (l : List α) (i : Nat) (x : α) : List α := l.take i ++ x :: l.drop i

/-- `for line in lines[::-1]: body.insert(index, line)`; base.py:114-118. `list.insert` does not raise, so the `except` branch
is dead. -/
def insertLines (body : List α) (i : Nat) (lines : List α) : List α :=
  lines.reverse.foldl (fun b x => insertAt b i x) body

/-- `insert_scope` for one field of one scope; base.py:105-118: the recorded lines by descending index. -/
def insertScope (body : List α) (d : Dict Nat (List α)) : List α :=
  (d.mergeSort fun a b => decide (b.1 ≤ a.1)).foldl (fun b kv => insertLines b kv.1 kv.2) body

/-- `insert_multi_node`; base.py:146-168. `isImport` is the test of lines 153 and 155, `root` is `(self.root, "body", 0)`, `here`
the value of `self.scope_body_index()` (`none`: it raises), `inComp` the test of line 164. The result is the return value, or `none`
if it raises; the dictionary is the one at that moment. -/
def insertMulti (dump : α → δ) (isImport : α → Bool) (root : κ) (here : Option κ) (inComp : Bool)
    (d : Dict κ (List α)) (nodes : List α) : Option Bool × Dict κ (List α) :=
  if nodes.isEmpty then (some true, d) else
  let imports := nodes.filter isImport
  let others := nodes.filter fun n => !isImport n
  let d := if imports.isEmpty then d else record dump d root imports
  if others.isEmpty then (some true, d)
  else if inComp then (some false, d)
  else
    match here with
    | none => (none, d)
    | some p => (some true, record dump d p others)

/-- What visiting one statement of a block gives: the statements that replace it (`generic_visit` of `NodeTransformer`: none if
the visitor returned `None`, several if a list) and the lines that were recorded for it during the visit. -/
structure Visited (α : Type) where
  old : α
  new : List α
  lines : List α

/-- A block after the visit and `insert_scope`: `generic_visit` replaces the statements of the block, the recorded lines are keyed
by the index in the block as it was before. -/
def passBlock (b : List (Visited α)) : List α :=
  insertScope (b.flatMap (·.new))
    ((b.zipIdx.filter fun v => !v.1.lines.isEmpty).map fun v => (v.2, v.1.lines))

end

end Verif.Scope

import Verif.Model.Scope

/-!
# What C36-C39 mean

Vocabulary of the statements about the traversal and the inserted lines. Of the model only the syntax trees are used.
-/

namespace Verif.Scope
open Verif

/-- `Path root p`: `p` is the chain of nodes from `root` (last) to a node of the tree (first), each a child of the next one. -/
inductive Path (root : Tree) : List Tree → Prop
  | root : Path root [root]
  | step {p c f ps} : Path root (p :: ps) → (f, c) ∈ p.kids.toList → Path root (c :: p :: ps)

mutual
/-- The identities of all nodes of a tree. -/
def Tree.ids : Tree → List Nat
  | .node i _ kids => i :: kids.ids
def Kids.ids : Kids → List Nat
  | .nil => []
  | .cons _ t rest => t.ids ++ rest.ids
end

/-- The fields that hold lists of statements. -/
def Field.isBlock : Field → Bool
  | .body | .orelse | .finalbody => true
  | _ => false

/-- A child of a node as the grammar of Python has it:
* expressions contain expressions only, and the only block they are in is none;
* the body of a module consists of statements;
* the statements of a scope are in its blocks and its decorators and other expressions are not;
* an `except` clause is in the handlers of a `try`. -/
structure ChildOk (p : Tree) (f : Field) (c : Tree) : Prop where
  expr : p.kind = .expr → c.kind = .expr
  module : p.kind = .module → f = .body ∧ c.kind ≠ .expr ∧ c.kind ≠ .handler
  block : p.kind.isScope = true → c.kind ≠ .expr → c.kind ≠ .handler → f.isBlock = true
  root : c.kind ≠ .module

/-- A syntax tree of a Python module. -/
structure Program (root : Tree) : Prop where
  module : root.kind = .module
  unique : root.ids.Nodup
  grammar : ∀ p ps f c, Path root (p :: ps) → (f, c) ∈ p.kids.toList → ChildOk p f c

/-- `Block p n s f i`: on the path `p` lies the scope `s`, the node below it on the path is the `i`-th of its field `f`, which is a
block or the decorators; `n` nodes of the path are below `s`. -/
def Block (p : List Tree) (n : Nat) (s : Tree) (f : Field) (i : Nat) : Prop :=
  p[n]? = some s ∧ s.kind.isScope = true ∧ (f.isBlock = true ∨ f = .decorators) ∧
    ∃ c m, n = m + 1 ∧ p[m]? = some c ∧ (s.field f)[i]? = some c

/-- The innermost such position. -/
def Innermost (p : List Tree) (s : Tree) (f : Field) (i : Nat) : Prop :=
  ∃ n, Block p n s f i ∧ ∀ m s' f' i', Block p m s' f' i' → n ≤ m

/-- The first node of the path is in the exception type of an `except` clause: the innermost scope is a handler and the way
goes through neither of its blocks. -/
def InHandlerType (p : List Tree) : Prop :=
  ∃ n h c, p[n + 1]? = some h ∧ h.kind = .handler ∧ p[n]? = some c ∧ c.kind = .expr ∧
    ∀ m, m ≤ n → ∀ t, p[m]? = some t → t.kind.isScope = false

/-- A block with lines before its statements: the lines for the statement with index `k + i` directly before statement `i`. -/
def spliced {α : Type} : List α → (Nat → List α) → Nat → List α
  | [], _, _ => []
  | s :: b, lines, k => lines k ++ s :: spliced b lines (k + 1)

end Verif.Scope

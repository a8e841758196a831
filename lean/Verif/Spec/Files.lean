import Verif.Model.Files

/-!
# Specification of the file tree conversion
-/

namespace Verif.Files
open Verif

/-- `os.listdir` gives each name in the directory once. -/
def Listing (env : Env) : Prop :=
  ∀ fs p, (env.ls fs p).Nodup ∧ ∀ n, n ∈ env.ls fs p ↔ (fs.get? (p ++ [n])).isSome = true

/-- Relative to `inP`, no component of `r` is hidden and no path on the way is excluded. -/
def Visible (env : Env) (pats : List Str) (inP : Path) (r : List Str) : Prop :=
  (∀ c ∈ r, Str.startsWith c py"." = false) ∧
  ∀ k, k < r.length → excluded env pats (inP ++ r.take (k + 1)) = false

/-- The paths of the input and output trees are apart. -/
def Apart (a b : Path) : Prop := ¬ a <+: b ∧ ¬ b <+: a

/-- Below `inP` only directories have children. -/
def TreeBelow (fs : FS) (inP : Path) : Prop :=
  ∀ r c, (fs.get? (inP ++ r ++ [c])).isSome = true → r = [] ∨ fs.get? (inP ++ r) = some .dir

/-- What the output has at `outP ++ r` after the run: the image of the input entry if that is visible, and what
was there before otherwise. -/
def Mirrors (env : Env) (pats : List Str) (fs fs' : FS) (inP outP : Path) (r : List Str) : Prop :=
  (Visible env pats inP r → fs.get? (inP ++ r) = some .dir → fs'.get? (outP ++ r) = some .dir) ∧
  (Visible env pats inP r → ∀ c, fs.get? (inP ++ r) = some (.file c) →
    ∃ c', newContent env (inP ++ r) c = some c' ∧ fs'.get? (outP ++ r) = some (.file c')) ∧
  ((¬ Visible env pats inP r ∨ fs.get? (inP ++ r) = none ∨ fs.get? (inP ++ r) = some .deadLink) →
    fs'.get? (outP ++ r) = fs.get? (outP ++ r))

/-- Nothing in the output is in the way: where a directory has to go there is nothing or a directory, where a
file has to go there is nothing or a file. -/
def Compatible (env : Env) (pats : List Str) (fs : FS) (inP outP : Path) : Prop :=
  ∀ r, r ≠ [] → Visible env pats inP r →
    (fs.get? (inP ++ r) = some .dir → fs.get? (outP ++ r) = none ∨ fs.get? (outP ++ r) = some .dir) ∧
    (∀ c, fs.get? (inP ++ r) = some (.file c) →
      fs.get? (outP ++ r) = none ∨ ∃ c', fs.get? (outP ++ r) = some (.file c'))

/-- The way to `outP` is free: each path on it is a directory or does not exist. -/
def Reachable (fs : FS) (outP : Path) : Prop :=
  ∀ q, q ≠ [] → q <+: outP → fs.get? q = none ∨ fs.get? q = some .dir

/-- Every visible file of the input can be converted. -/
def Convertible (env : Env) (pats : List Str) (fs : FS) (inP : Path) : Prop :=
  ∀ r c, r ≠ [] → Visible env pats inP r → fs.get? (inP ++ r) = some (.file c) →
    (newContent env (inP ++ r) c).isSome = true

/-- The input tree has at most `n` levels below `inP`. -/
def DepthLe (fs : FS) (inP : Path) (n : Nat) : Prop :=
  ∀ r, (fs.get? (inP ++ r)).isSome = true → r.length ≤ n

/-- The hypotheses under which a directory is mirrored: the two trees are apart, the input is a tree of depth at
most `n`, nothing in the output is in the way and every visible file can be converted. -/
structure Ready (env : Env) (pats : List Str) (fs : FS) (inP outP : Path) (n : Nat) : Prop where
  apart : Apart inP outP
  tree : TreeBelow fs inP
  compat : Compatible env pats fs inP outP
  reach : Reachable fs outP
  conv : Convertible env pats fs inP
  depth : DepthLe fs inP n

/-- The trees `fs` and `fs'` differ only below `out` and on the way to it. -/
def FrameEq (fs fs' : FS) (out : Path) : Prop :=
  ∀ p, ¬ out <+: p → ¬ p <+: out → fs'.get? p = fs.get? p

/-- The first `k` names of the path `s/s/s/...`. -/
def echo (s : List Str) (k : Nat) : List Str := (List.range k).map fun i => s.getD (i % s.length) []

end Verif.Files

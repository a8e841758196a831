import Verif.Spec.Files
import Verif.Model.Complete

/-!
# What the projects of one run become
-/

namespace Verif.Separate
open Verif Verif.Files

/-- `e` is what the entry `r` of the project `name` becomes, a directory or a converted file. -/
def Image (env : Env) (pats : List Str) (fs : FS) (inP : Path) (name : Str) (r : List Str) (e : Entry) : Prop :=
  Visible env pats (inP ++ [name]) r ∧
    ((fs.get? (inP ++ [name] ++ r) = some .dir ∧ e = .dir) ∨
      ∃ c c', fs.get? (inP ++ [name] ++ r) = some (.file c) ∧ newContent env (inP ++ [name] ++ r) c = some c' ∧ e = .file c')

/-- The project has something to convert at `r`. -/
def Has (env : Env) (pats : List Str) (fs : FS) (inP : Path) (name : Str) (r : List Str) : Prop :=
  ∃ e, Image env pats fs inP name r e

/-- Directories that can be converted one after the other: each could be converted alone (C13), where one has a directory
no other has a file, and none has a file `paddle_utils.py` of its own (C97). -/
structure Projects (env : Env) (pats : List Str) (fs : FS) (inP outP : Path) (n : Nat) (names : List Str) : Prop where
  apart : Apart inP outP
  dirs : ∀ p ∈ names, fs.get? (inP ++ [p]) = some .dir
  ready : ∀ p ∈ names, Ready env pats fs (inP ++ [p]) outP n
  agree : ∀ p ∈ names, ∀ q ∈ names, ∀ r, r ≠ [] → Visible env pats (inP ++ [p]) r → Visible env pats (inP ++ [q]) r →
    fs.get? (inP ++ [p] ++ r) = some .dir → ∀ c, fs.get? (inP ++ [q] ++ r) ≠ some (.file c)
  own : ∀ p ∈ names, fs.get? (inP ++ [p] ++ [py"paddle_utils.py"]) = none
  free : fs.get? (outP ++ [py"paddle_utils.py"]) ≠ some .dir

end Verif.Separate

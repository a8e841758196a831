import Verif.Model.Foreach

/-!
# What `torch._foreach_f` does with a list of tensors

The names without `_` at the end give a new tensor for each one of the list; those with `_` change the tensors of the list.
-/

namespace Verif.Foreach
open Verif

/-- The function gives a new tensor with the value `f` of the value of its argument and changes no existing tensor. -/
def MakesNew {V : Type} (f : V → V) (func : Fn V) : Prop :=
  ∀ x h, x < h.next → let (y, h') := func x h
    h.next ≤ y ∧ y < h'.next ∧ h'.val y = f (h.val x) ∧ ∀ r < h.next, h'.val r = h.val r

/-- The function replaces the value of its argument by `f` of it, changes no other tensor, and returns the argument. -/
def Changes {V : Type} (f : V → V) (func : Fn V) : Prop :=
  ∀ x h, x < h.next → let (y, h') := func x h
    y = x ∧ h.next ≤ h'.next ∧ h'.val x = f (h.val x) ∧ ∀ r < h.next, r ≠ x → h'.val r = h.val r

/-- A list operation that gives a new list: the results are new tensors, the i-th one has the value `f` of the i-th tensor,
and no existing tensor has changed. -/
def EachNew {V : Type} (f : V → V) (op : List Nat → Heap V → List Nat × Heap V) : Prop :=
  ∀ xs h, (∀ x ∈ xs, x < h.next) → let (ys, h') := op xs h
    (∀ y ∈ ys, h.next ≤ y) ∧ ys.Nodup ∧ ys.map h'.val = xs.map (fun x => f (h.val x)) ∧ ∀ r < h.next, h'.val r = h.val r

/-- A list operation in place: it returns a list of the same tensors; a tensor has had `f` applied to it as often as it is in the list. -/
def EachChanged {V : Type} (f : V → V) (op : List Nat → Heap V → List Nat × Heap V) : Prop :=
  ∀ xs h, (∀ x ∈ xs, x < h.next) → let (ys, h') := op xs h
    ys = xs ∧ ∀ r < h.next, h'.val r = Nat.repeat f (xs.count r) (h.val r)

end Verif.Foreach

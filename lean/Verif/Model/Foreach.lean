import Verif.Py.Str

/-!
# Operations on lists of tensors

Run-time behaviour of the four helpers that `ForeachMatcher`, `ForeachTensorMatcher`, `ForeachErfcMatcher` and
`ForeachErfc_Matcher` of `/repo/paconvert/api_matcher.py` write (5713-5787, 5880-5898); their texts are in
`Model/HelperText`. Tensors are references into a store of values, so that in-place operations can be told from others.
-/

namespace Verif.Foreach
open Verif

/-- The store: the value of each tensor; the next tensor gets the number `next`. -/
structure Heap (V : Type) where
  next : Nat
  val : Nat → V

/-- A new tensor. -/
def Heap.alloc {V : Type} (h : Heap V) (v : V) : Nat × Heap V :=
  (h.next, { next := h.next + 1, val := fun r => if r = h.next then v else h.val r })

/-- A new value for a tensor. -/
def Heap.write {V : Type} (h : Heap V) (x : Nat) (v : V) : Heap V :=
  { h with val := fun r => if r = x then v else h.val r }

/-- A function from a tensor to a tensor that may change the store. -/
abbrev Fn (V : Type) := Nat → Heap V → Nat × Heap V

/-- `[func(x) for x in tensors]`. -/
def comprehension {V : Type} (func : Fn V) : List Nat → Heap V → List Nat × Heap V
  | [], h => ([], h)
  | x :: xs, h =>
    let (y, h1) := func x h
    let (ys, h2) := comprehension func xs h1
    (y :: ys, h2)

/-- `foreach_operator(func, tensors)`; 5717-5718. -/
def foreachOperator {V : Type} (func : Fn V) (tensors : List Nat) : Heap V → List Nat × Heap V := comprehension func tensors

/-- `s.rpartition('.')[-1]`: what follows the last dot; 5885. -/
def lastPart (s : Str) : Str := (s.reverse.takeWhile (· ≠ '.')).reverse

/-- `foreach_Tensor_(tensors, method_name)`; 5884-5886. `method` is `getattr(x, name)()`. -/
def foreachTensor {V : Type} (method : Str → Fn V) (tensors : List Nat) (name : Str) : Heap V → List Nat × Heap V :=
  comprehension (method (lastPart name)) tensors

/-- `foreach_erfc(tensors)`; 5751-5752. Both `paddle.erf(x)` and the difference are new tensors. -/
def foreachErfc {V : Type} (erf oneMinus : V → V) (tensors : List Nat) : Heap V → List Nat × Heap V :=
  comprehension (fun x h =>
    let (e, h1) := h.alloc (erf (h.val x))
    h1.alloc (oneMinus (h1.val e))) tensors

/-- `foreach_erfc_(tensors)`; 5773-5774. `paddle.assign(v, x)` writes the value of `v` into `x` and returns `x`. -/
def foreachErfc_ {V : Type} (erf oneMinus : V → V) (tensors : List Nat) : Heap V → List Nat × Heap V :=
  comprehension (fun x h =>
    let (e, h1) := h.alloc (erf (h.val x))
    let (d, h2) := h1.alloc (oneMinus (h1.val e))
    (x, h2.write x (h2.val d))) tensors

end Verif.Foreach

import Mathlib.Data.List.Basic

/-!
# `reduce_scatter_tensor`

Models the run-time behaviour of the helper of `ReduceScatterTensorMatcher`, `/repo/paconvert/api_matcher.py` lines 5794-5803. A
tensor is the list of its rows; a part that `paddle.unstack` gives is a list of one row. Operations of Paddle that are used are
modelled as far as they are needed: `paddle.split`, `paddle.distributed.reduce_scatter`. Not modelled: processes that call
different functions, the kinds of operations, the shape of `output`.
-/

namespace Verif.Scatter

variable {α : Type}

/-- `paddle.split(input, num_or_sections=k, axis=0)`; an exception unless `k` divides the number of rows. -/
def split (k : Nat) (l : List α) : Option (List (List α)) :=
  if k = 0 ∨ l.length % k ≠ 0 then none
  else some ((List.range k).map fun i => (l.drop (i * (l.length / k))).take (l.length / k))

/-- The list of parts of one process; `world` is the number of all processes; api_matcher.py:5797-5802. -/
def parts (world : Nat) (l : List α) : Option (List (List α)) :=
  if l.length = world then some (l.map fun x => [x]) else split world l

/-- Rows are combined one by one. -/
def combine (f : α → α → α) : List (List α) → List α
  | [] => []
  | x :: l => l.foldl (List.zipWith f) x

/-- `paddle.distributed.reduce_scatter` in a group whose processes give these lists: an exception without an operation or if the
lists do not have one part for each process of the group; process `r` gets the parts `r` of all. -/
def paddleReduceScatter (op : Option (α → α → α)) (lists : List (List (List α))) : Option (List (List α)) :=
  match op with
  | none => none
  | some f =>
    if lists.all fun l => l.length == lists.length then
      some ((List.range lists.length).map fun r => combine f (lists.map fun l => l.getD r []))
    else none

/-- What the call does: the outputs of the processes of the group, whether it waits for them, whether it gives a handle to wait
for them later. -/
structure Effect (α : Type) where
  outputs : List (List α)
  waits : Bool
  handle : Bool

/-- `async_op = not async_op` unless it is None, taken as a condition; api_matcher.py:5795-5796. -/
def syncOp : Option Bool → Bool
  | none => false
  | some b => !b

/-- `reduce_scatter_tensor(output, input, op, group, async_op)` in each process of a group, with the inputs of its processes;
api_matcher.py:5794-5803. There is no `return`. -/
def reduceScatter (world : Nat) (inputs : List (List α)) (op : Option (α → α → α)) (asyncOp : Option Bool) : Option (Effect α) :=
  (inputs.mapM (parts world)).bind fun lists => (paddleReduceScatter op lists).map fun o => ⟨o, syncOp asyncOp, false⟩

end Verif.Scatter

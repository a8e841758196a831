import Mathlib.Algebra.Field.Basic
import Mathlib.Algebra.Order.Ring.Defs

/-!
# Learning-rate schedulers

The arguments with which the code makes a scheduler of Paddle, for a call that makes one of PyTorch. Numbers are those
of an ordered field. Not modelled: `last_epoch`, `verbose`, a list of functions as `lr_lambda`, and several groups of parameters.
-/

namespace Verif.Schedule

variable {F : Type} [Field F]

/-- How to get from one learning rate to another: `'cos'` or `'linear'`. -/
abbrev Anneal (F : Type) := F → F → F → F

/-- The arguments of `torch.optim.lr_scheduler.OneCycleLR`; api_mapping.json, `"args_list"`. -/
structure Cycle (F : Type) where
  maxLr : F
  total : Option ℕ
  epochs : Option ℕ
  perEpoch : Option ℕ
  pct : Option F
  div : Option F
  final : Option F
  three : Option Bool
  anneal : Anneal F

/-- A call that makes a scheduler, without the optimizer. `none` is an argument that is not given. -/
inductive Call (F : Type)
  | constant (factor : Option F) (total : Option ℕ)
  | linear (start stop : Option F) (total : Option ℕ)
  | multiplicative (f : ℕ → F)
  | oneCycle (c : Cycle F)

/-- A scheduler of Paddle, with the arguments that are given. -/
inductive Obj (F : Type)
  | piecewise (boundaries : List ℕ) (values : List F)
  | linear (lr : F) (start stop : Option F) (total : ℕ)
  | multiplicative (lr : F) (f : ℕ → F)
  | oneCycle (maxLr : F) (total : ℕ) (div stop pct : Option F) (three : Option Bool) (anneal : Anneal F)

/-- `OneCycleLRMatcher`: `total_steps`; api_matcher.py:4169-4174. `none` is the `KeyError`. -/
def totalSteps (c : Cycle F) : Option ℕ :=
  match c.total with
  | some n => some n
  | none => match c.perEpoch, c.epochs with
    | some s, some e => some (s * e)
    | _, _ => none

/-- `OneCycleLRMatcher`: `end_learning_rate`; 4176-4182. The outer `none` is the `KeyError`. -/
def endLr (c : Cycle F) : Option (Option F) :=
  match c.final with
  | none => some none
  | some f => match c.div with
    | none => none
    | some d => some (some (c.maxLr * 1 / (d * f)))

/-- The scheduler that the code makes, if `optimizer.get_lr()` is `lr`: `ConstantLRMatcher`, 4148-4164,
`Optim2LrSchedulerMatcher`, 4141-4145, with the default 5 for `total_steps` in api_mapping.json, and `OneCycleLRMatcher`,
4167-4184. `none` if the matcher raises an exception. -/
def convert (lr : F) : Call F → Option (Obj F)
  | .constant factor total =>
    let values := match factor with
      | some f => [f * lr, lr]
      | none => [lr / 3, lr]
    some (.piecewise [total.getD 5] values)
  | .linear start stop total => some (.linear lr start stop (total.getD 5))
  | .multiplicative f => some (.multiplicative lr f)
  | .oneCycle c => match totalSteps c, endLr c with
    | some n, some e => some (.oneCycle c.maxLr n c.div e c.pct c.three c.anneal)
    | _, _ => none

/-- What a program does with the schedulers of an optimizer. Schedulers are numbered in the order in which they are made. -/
inductive Event (F : Type)
  | make (c : Call F)
  | step (i : ℕ)

end Verif.Schedule

import Verif.Model.Schedule
import Verif.Spec.Flags

/-!
# What the schedulers do

`torch.optim.lr_scheduler` and `paddle.optimizer.lr`, after their documentation and source. A scheduler counts its steps; it
has made the step 0 when it is made.
-/

namespace Verif.Schedule

variable {F : Type} [Field F] [LinearOrder F]

/-! ## One cycle -/

/-- The learning rate at the step `t`, in phases that are given by their last step and the learning rates at their ends. -/
def phases (anneal : Anneal F) (t : F) : F → List (F × F × F) → F
  | _, [] => 0
  | start, [(stop, a, b)] => anneal a b ((t - start) / (stop - start))
  | start, (stop, a, b) :: rest => if t ≤ stop then anneal a b ((t - start) / (stop - start)) else phases anneal t stop rest

def cycle (anneal : Anneal F) (three : Bool) (total pct first top last t : F) : F :=
  phases anneal t 0 (if three
    then [(pct * total - 1, first, top), (2 * pct * total - 2, top, first), (total - 1, first, last)]
    else [(pct * total - 1, first, top), (total - 1, top, last)])

/-! ## PyTorch -/

/-- The learning rate of the optimizer after the step `t` of a scheduler, if it was `lr` before. -/
def Call.next : Call F → ℕ → F → F
  | .constant factor total, t, lr =>
    if t = 0 then lr * factor.getD (1 / 3) else if t = total.getD 5 then lr * (1 / factor.getD (1 / 3)) else lr
  | .linear start stop total, t, lr =>
    let s := start.getD (1 / 3); let e := stop.getD 1; let n := total.getD 5
    if t = 0 then lr * s else if t > n then lr else lr * (1 + (e - s) / (n * s + (t - 1) * (e - s)))
  | .multiplicative f, t, lr => if t = 0 then lr else lr * f t
  | .oneCycle c, t, _ =>
    let total := match c.total with | some n => n | none => c.epochs.getD 0 * c.perEpoch.getD 0
    let first := c.maxLr / c.div.getD 25
    cycle c.anneal (c.three.getD false) total (c.pct.getD (3 / 10)) first c.maxLr (first / c.final.getD 10000) t

/-- The optimizer and its schedulers, each with the number of its last step. -/
structure Torch (F : Type) where
  lr : F
  scheds : List (Call F × ℕ)

def Torch.event (s : Torch F) : Event F → Torch F
  | .make c => ⟨c.next 0 s.lr, s.scheds ++ [(c, 0)]⟩
  | .step i => match s.scheds[i]? with
    | some (c, t) => ⟨c.next (t + 1) s.lr, s.scheds.set i (c, t + 1)⟩
    | none => s

/-! ## Paddle -/

/-- `PiecewiseDecay`: the value of the first boundary above the step, or the last value. -/
def decay (t : ℕ) : List ℕ → List F → F
  | b :: bs, v :: vs => if t < b then v else decay t bs vs
  | _, vs => vs.getLast?.getD 0

/-- The learning rate of a scheduler after the step `t`. -/
def Obj.value : Obj F → ℕ → F
  | .piecewise bs vs, t => decay t bs vs
  | .linear lr start _ _, 0 => lr * start.getD (1 / 3)
  | .linear lr start stop total, t + 1 =>
    let s := start.getD (1 / 3); let e := stop.getD 1
    if t + 1 > total then Obj.value (.linear lr start stop total) t
    else Obj.value (.linear lr start stop total) t * (1 + (e - s) / (total * s + ((t + 1 : ℕ) - 1) * (e - s)))
  | .multiplicative lr f, t => (List.range t).foldl (fun v i => v * f (i + 1)) lr
  | .oneCycle maxLr total div stop pct three anneal, t =>
    cycle anneal (three.getD false) total (pct.getD (3 / 10)) (maxLr / div.getD 25) maxLr (stop.getD (1 / 10000)) t

/-- The optimizer with a fixed learning rate, which is used until it gets a scheduler; and all schedulers. The one that was
set last with `set_lr_scheduler` is used. -/
structure Paddle (F : Type) where
  base : F
  objs : List (Obj F × ℕ)

/-- `optimizer.get_lr()` -/
def Paddle.lr (s : Paddle F) : F :=
  match s.objs.getLast? with
  | some (o, t) => o.value t
  | none => s.base

/-- The converted event. -/
def Paddle.event (s : Paddle F) : Event F → Option (Paddle F)
  | .make c => (convert s.lr c).map fun o => ⟨s.base, s.objs ++ [(o, 0)]⟩
  | .step i => match s.objs[i]? with
    | some (o, t) => some ⟨s.base, s.objs.set i (o, t + 1)⟩
    | none => some s

/-! ## Programs -/

/-- The learning rates after the events of a program. -/
def Torch.trace : Torch F → List (Event F) → List F
  | _, [] => []
  | s, e :: es => (s.event e).lr :: (s.event e).trace es

def Paddle.trace : Paddle F → List (Event F) → Option (List F)
  | _, [] => some []
  | s, e :: es => (s.event e).bind fun s' => (s'.trace es).map (s'.lr :: ·)

/-- Only the scheduler that was made last makes steps. `n` have been made. -/
def Latest : ℕ → List (Event F) → Prop
  | _, [] => True
  | n, .make _ :: es => Latest (n + 1) es
  | n, .step i :: es => i + 1 = n ∧ Latest n es

/-- The arguments of a scheduler for which the conversion is right. -/
def Call.Fit : Call F → Prop
  | .constant factor total => factor ≠ some 0 ∧ total ≠ some 0
  | .linear _ _ _ => True
  | .multiplicative _ => True
  | .oneCycle c => (c.total.isSome ∨ c.perEpoch.isSome ∧ c.epochs.isSome) ∧ c.div.isSome ∧ c.final.isSome

/-! ## The texts of the arguments -/

open Verif.Spec in
/-- `optimizer.get_lr()`, with the text of the optimizer, and what follows it. -/
def getLr (rest : Str) : List Piece := [.user py"optimizer", .code (py".get_lr()" ++ rest)]

open Verif.Spec in
/-- `[factor*optimizer.get_lr(), optimizer.get_lr()]`, or `[optimizer.get_lr()/3, optimizer.get_lr()]` -/
def valuesText (factor : Bool) : List Piece :=
  (if factor then [.code py"[", .user py"factor", .code py"*"] ++ getLr py", " else [.code py"["] ++ getLr py"/3, ") ++ getLr py"]"

open Verif.Spec in
/-- `[total_iters]`, or `[5]` -/
def boundariesText (total : Bool) : List Piece :=
  if total then [.code py"[", .user py"total_iters", .code py"]"] else [.code py"[5]"]

open Verif.Spec in
/-- `(max_lr) * 1. /((div_factor) * final_div_factor)` -/
def endText : List Piece :=
  [.code py"(", .user py"max_lr", .code py") * 1. /((", .user py"div_factor", .code py") * ", .user py"final_div_factor",
   .code py")"]

end Verif.Schedule

import Verif.Lemmas.Template
import Verif.Spec.Arguments

/-! The check of C76 and C77 on the shipped table. -/

namespace Verif.Template
open Verif
open Verif.Spec
open Verif.Matcher (Cfg)

/-- Where the matcher returns code: no argument and no receiver is written twice, and the receiver of a method is written. -/
def onceFin (name : Str) (cfg : Cfg) (a : A) (qs : List Q) : Bool :=
  let api := apiVal name cfg
  qs.all (Q.known api a) &&
    ((params cfg).all fun k => repeated.contains (name, k) || decide ((qs.map (Q.hi (.arg k) api a)).sum ≤ 1)) &&
    (repeatedRecv.contains name || decide ((qs.map (Q.hi .recv api a)).sum ≤ 1)) &&
    (!isMethod name || decide (1 ≤ (qs.map (Q.lo .recv api a)).sum))

def onceOk (name : Str) (cfg : Cfg) (g : K) : Bool :=
  decide (params cfg).Nodup &&
    g.checkAll ⟨apiVal name cfg, !failing.contains name, none, onceFin name cfg⟩ (required name) (exclusive name)
      (A.start (params cfg) (required name))

set_option maxRecDepth 100000 in
theorem once_0 : onEntries onceOk (part 0) = true := by decide +kernel
set_option maxRecDepth 100000 in
theorem once_1 : onEntries onceOk (part 1) = true := by decide +kernel
set_option maxRecDepth 100000 in
theorem once_2 : onEntries onceOk (part 2) = true := by decide +kernel
set_option maxRecDepth 100000 in
theorem once_3 : onEntries onceOk (part 3) = true := by decide +kernel
set_option maxRecDepth 100000 in
theorem once_4 : onEntries onceOk (part 4) = true := by decide +kernel
set_option maxRecDepth 100000 in
theorem once_5 : onEntries onceOk (part 5) = true := by decide +kernel
set_option maxRecDepth 100000 in
theorem once_6 : onEntries onceOk (part 6) = true := by decide +kernel
set_option maxRecDepth 100000 in
theorem once_7 : onEntries onceOk (part 7) = true := by decide +kernel
set_option maxRecDepth 100000 in
theorem once_8 : onEntries onceOk (part 8) = true := by decide +kernel
set_option maxRecDepth 100000 in
theorem once_9 : onEntries onceOk (part 9) = true := by decide +kernel
set_option maxRecDepth 100000 in
theorem once_10 : onEntries onceOk (part 10) = true := by decide +kernel
set_option maxRecDepth 100000 in
theorem once_11 : onEntries onceOk (part 11) = true := by decide +kernel
set_option maxRecDepth 100000 in
theorem once_12 : onEntries onceOk (part 12) = true := by decide +kernel
set_option maxRecDepth 100000 in
theorem once_13 : onEntries onceOk (part 13) = true := by decide +kernel
set_option maxRecDepth 100000 in
theorem once_14 : onEntries onceOk (part 14) = true := by decide +kernel
set_option maxRecDepth 100000 in
theorem once_15 : onEntries onceOk (part 15) = true := by decide +kernel
set_option maxRecDepth 100000 in
theorem once_16 : onEntries onceOk (part 16) = true := by decide +kernel
set_option maxRecDepth 100000 in
theorem once_17 : onEntries onceOk (part 17) = true := by decide +kernel
set_option maxRecDepth 100000 in
theorem once_18 : onEntries onceOk (part 18) = true := by decide +kernel
set_option maxRecDepth 100000 in
theorem once_19 : onEntries onceOk (part 19) = true := by decide +kernel
set_option maxRecDepth 100000 in
theorem once_20 : onEntries onceOk (part 20) = true := by decide +kernel

theorem once_table : onEntries onceOk Data.apiTable = true := onEntries_parts fun i hi =>
  match i, hi with
  | 0, _ => once_0
  | 1, _ => once_1
  | 2, _ => once_2
  | 3, _ => once_3
  | 4, _ => once_4
  | 5, _ => once_5
  | 6, _ => once_6
  | 7, _ => once_7
  | 8, _ => once_8
  | 9, _ => once_9
  | 10, _ => once_10
  | 11, _ => once_11
  | 12, _ => once_12
  | 13, _ => once_13
  | 14, _ => once_14
  | 15, _ => once_15
  | 16, _ => once_16
  | 17, _ => once_17
  | 18, _ => once_18
  | 19, _ => once_19
  | 20, _ => once_20
  | n + 21, h => absurd h (by omega)

end Verif.Template

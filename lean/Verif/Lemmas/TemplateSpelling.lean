import Verif.Lemmas.TemplateParse
import Verif.Lemmas.TemplateSame

/-! The check of C80 on the shipped table. -/

namespace Verif.Template
open Verif
open Verif.Spec
open Verif.Matcher (Cfg)

def sameOk (name : Str) (cfg : Cfg) (g : K) : Bool :=
  g.sameAll (apiVal name cfg) (fun k => textTable.contains (name, k)) (literal name) (required name) (exclusive name)
    (A.start (params cfg) (required name))

set_option maxRecDepth 100000 in
theorem same_0 : onEntries sameOk (part 0) = true := by decide +kernel
set_option maxRecDepth 100000 in
theorem same_1 : onEntries sameOk (part 1) = true := by decide +kernel
set_option maxRecDepth 100000 in
theorem same_2 : onEntries sameOk (part 2) = true := by decide +kernel
set_option maxRecDepth 100000 in
theorem same_3 : onEntries sameOk (part 3) = true := by decide +kernel
set_option maxRecDepth 100000 in
theorem same_4 : onEntries sameOk (part 4) = true := by decide +kernel
set_option maxRecDepth 100000 in
theorem same_5 : onEntries sameOk (part 5) = true := by decide +kernel
set_option maxRecDepth 100000 in
theorem same_6 : onEntries sameOk (part 6) = true := by decide +kernel
set_option maxRecDepth 100000 in
theorem same_7 : onEntries sameOk (part 7) = true := by decide +kernel
set_option maxRecDepth 100000 in
theorem same_8 : onEntries sameOk (part 8) = true := by decide +kernel
set_option maxRecDepth 100000 in
theorem same_9 : onEntries sameOk (part 9) = true := by decide +kernel
set_option maxRecDepth 100000 in
theorem same_10 : onEntries sameOk (part 10) = true := by decide +kernel
set_option maxRecDepth 100000 in
theorem same_11 : onEntries sameOk (part 11) = true := by decide +kernel
set_option maxRecDepth 100000 in
theorem same_12 : onEntries sameOk (part 12) = true := by decide +kernel
set_option maxRecDepth 100000 in
theorem same_13 : onEntries sameOk (part 13) = true := by decide +kernel
set_option maxRecDepth 100000 in
theorem same_14 : onEntries sameOk (part 14) = true := by decide +kernel
set_option maxRecDepth 100000 in
theorem same_15 : onEntries sameOk (part 15) = true := by decide +kernel
set_option maxRecDepth 100000 in
theorem same_16 : onEntries sameOk (part 16) = true := by decide +kernel
set_option maxRecDepth 100000 in
theorem same_17 : onEntries sameOk (part 17) = true := by decide +kernel
set_option maxRecDepth 100000 in
theorem same_18 : onEntries sameOk (part 18) = true := by decide +kernel
set_option maxRecDepth 100000 in
theorem same_19 : onEntries sameOk (part 19) = true := by decide +kernel
set_option maxRecDepth 100000 in
theorem same_20 : onEntries sameOk (part 20) = true := by decide +kernel

theorem same_table : onEntries sameOk Data.apiTable = true := onEntries_parts fun i hi =>
  match i, hi with
  | 0, _ => same_0
  | 1, _ => same_1
  | 2, _ => same_2
  | 3, _ => same_3
  | 4, _ => same_4
  | 5, _ => same_5
  | 6, _ => same_6
  | 7, _ => same_7
  | 8, _ => same_8
  | 9, _ => same_9
  | 10, _ => same_10
  | 11, _ => same_11
  | 12, _ => same_12
  | 13, _ => same_13
  | 14, _ => same_14
  | 15, _ => same_15
  | 16, _ => same_16
  | 17, _ => same_17
  | 18, _ => same_18
  | 19, _ => same_19
  | 20, _ => same_20
  | n + 21, h => absurd h (by omega)

end Verif.Template

import Verif.Lemmas.TemplateOnce
import Verif.Lemmas.Template
import Verif.Spec.Arguments

/-! The check of C75 on the shipped table. -/

namespace Verif.Template
open Verif
open Verif.Spec
open Verif.Matcher (Cfg)

def keptFin (k : Str) (api : Val) (a : A) (qs : List Q) : Bool :=
  qs.all (Q.known api a) && decide (1 ≤ (qs.map (Q.lo (.arg k) api a)).sum)

/-- Every argument is kept. -/
def keptOk (name : Str) (cfg : Cfg) (g : K) : Bool :=
  (params cfg).all fun k => dropped cfg k || lost name k ||
    g.checkAll ⟨apiVal name cfg, false, some k, keptFin k (apiVal name cfg)⟩ (k :: required name) (exclusive name)
      (A.start (params cfg) (k :: required name))

set_option maxRecDepth 100000 in
theorem kept_0 : onEntries keptOk (part 0) = true := by decide +kernel
set_option maxRecDepth 100000 in
theorem kept_1 : onEntries keptOk (part 1) = true := by decide +kernel
set_option maxRecDepth 100000 in
theorem kept_2 : onEntries keptOk (part 2) = true := by decide +kernel
set_option maxRecDepth 100000 in
theorem kept_3 : onEntries keptOk (part 3) = true := by decide +kernel
set_option maxRecDepth 100000 in
theorem kept_4 : onEntries keptOk (part 4) = true := by decide +kernel
set_option maxRecDepth 100000 in
theorem kept_5 : onEntries keptOk (part 5) = true := by decide +kernel
set_option maxRecDepth 100000 in
theorem kept_6 : onEntries keptOk (part 6) = true := by decide +kernel
set_option maxRecDepth 100000 in
theorem kept_7 : onEntries keptOk (part 7) = true := by decide +kernel
set_option maxRecDepth 100000 in
theorem kept_8 : onEntries keptOk (part 8) = true := by decide +kernel
set_option maxRecDepth 100000 in
theorem kept_9 : onEntries keptOk (part 9) = true := by decide +kernel
set_option maxRecDepth 100000 in
theorem kept_10 : onEntries keptOk (part 10) = true := by decide +kernel
set_option maxRecDepth 100000 in
theorem kept_11 : onEntries keptOk (part 11) = true := by decide +kernel
set_option maxRecDepth 100000 in
theorem kept_12 : onEntries keptOk (part 12) = true := by decide +kernel
set_option maxRecDepth 100000 in
theorem kept_13 : onEntries keptOk (part 13) = true := by decide +kernel
set_option maxRecDepth 100000 in
theorem kept_14 : onEntries keptOk (part 14) = true := by decide +kernel
set_option maxRecDepth 100000 in
theorem kept_15 : onEntries keptOk (part 15) = true := by decide +kernel
set_option maxRecDepth 100000 in
theorem kept_16 : onEntries keptOk (part 16) = true := by decide +kernel
set_option maxRecDepth 100000 in
theorem kept_17 : onEntries keptOk (part 17) = true := by decide +kernel
set_option maxRecDepth 100000 in
theorem kept_18 : onEntries keptOk (part 18) = true := by decide +kernel
set_option maxRecDepth 100000 in
theorem kept_19 : onEntries keptOk (part 19) = true := by decide +kernel
set_option maxRecDepth 100000 in
theorem kept_20 : onEntries keptOk (part 20) = true := by decide +kernel

theorem kept_table : onEntries keptOk Data.apiTable = true := onEntries_parts fun i hi =>
  match i, hi with
  | 0, _ => kept_0
  | 1, _ => kept_1
  | 2, _ => kept_2
  | 3, _ => kept_3
  | 4, _ => kept_4
  | 5, _ => kept_5
  | 6, _ => kept_6
  | 7, _ => kept_7
  | 8, _ => kept_8
  | 9, _ => kept_9
  | 10, _ => kept_10
  | 11, _ => kept_11
  | 12, _ => kept_12
  | 13, _ => kept_13
  | 14, _ => kept_14
  | 15, _ => kept_15
  | 16, _ => kept_16
  | 17, _ => kept_17
  | 18, _ => kept_18
  | 19, _ => kept_19
  | 20, _ => kept_20
  | n + 21, h => absurd h (by omega)

end Verif.Template

import Verif.Lemmas.Visible

/-! The check of C89 on the table. -/

namespace Verif.Template

set_option maxRecDepth 100000 in
theorem names_0 : namesOn (part 0) = true := by decide +kernel
set_option maxRecDepth 100000 in
theorem names_1 : namesOn (part 1) = true := by decide +kernel
set_option maxRecDepth 100000 in
theorem names_2 : namesOn (part 2) = true := by decide +kernel
set_option maxRecDepth 100000 in
theorem names_3 : namesOn (part 3) = true := by decide +kernel
set_option maxRecDepth 100000 in
theorem names_4 : namesOn (part 4) = true := by decide +kernel
set_option maxRecDepth 100000 in
theorem names_5 : namesOn (part 5) = true := by decide +kernel
set_option maxRecDepth 100000 in
theorem names_6 : namesOn (part 6) = true := by decide +kernel
set_option maxRecDepth 100000 in
theorem names_7 : namesOn (part 7) = true := by decide +kernel
set_option maxRecDepth 100000 in
theorem names_8 : namesOn (part 8) = true := by decide +kernel
set_option maxRecDepth 100000 in
theorem names_9 : namesOn (part 9) = true := by decide +kernel
set_option maxRecDepth 100000 in
theorem names_10 : namesOn (part 10) = true := by decide +kernel
set_option maxRecDepth 100000 in
theorem names_11 : namesOn (part 11) = true := by decide +kernel
set_option maxRecDepth 100000 in
theorem names_12 : namesOn (part 12) = true := by decide +kernel
set_option maxRecDepth 100000 in
theorem names_13 : namesOn (part 13) = true := by decide +kernel
set_option maxRecDepth 100000 in
theorem names_14 : namesOn (part 14) = true := by decide +kernel
set_option maxRecDepth 100000 in
theorem names_15 : namesOn (part 15) = true := by decide +kernel
set_option maxRecDepth 100000 in
theorem names_16 : namesOn (part 16) = true := by decide +kernel
set_option maxRecDepth 100000 in
theorem names_17 : namesOn (part 17) = true := by decide +kernel
set_option maxRecDepth 100000 in
theorem names_18 : namesOn (part 18) = true := by decide +kernel
set_option maxRecDepth 100000 in
theorem names_19 : namesOn (part 19) = true := by decide +kernel
set_option maxRecDepth 100000 in
theorem names_20 : namesOn (part 20) = true := by decide +kernel

theorem names_table : ∀ i < 21, namesOn (part i) = true := fun i hi =>
  match i, hi with
  | 0, _ => names_0
  | 1, _ => names_1
  | 2, _ => names_2
  | 3, _ => names_3
  | 4, _ => names_4
  | 5, _ => names_5
  | 6, _ => names_6
  | 7, _ => names_7
  | 8, _ => names_8
  | 9, _ => names_9
  | 10, _ => names_10
  | 11, _ => names_11
  | 12, _ => names_12
  | 13, _ => names_13
  | 14, _ => names_14
  | 15, _ => names_15
  | 16, _ => names_16
  | 17, _ => names_17
  | 18, _ => names_18
  | 19, _ => names_19
  | 20, _ => names_20
  | n + 21, h => absurd h (by omega)

end Verif.Template

import Verif.Lemmas.TemplateKept
import Verif.Lemmas.TemplateCode

/-! The check of C78 on the shipped table. -/

namespace Verif.Template
open Verif
open Verif.Spec
open Verif.Matcher (Cfg)

/-- Its matcher writes the text of an argument on the left of `=`. -/
def indexCopyApi : Str := py"torch.index_copy"

/-- Its matcher writes the text of an argument inside a string. -/
def setDeviceApi : Str := py"torch.cpu.set_device"

/-- `device2Str` for devices that are not numbers. -/
def device2StrText (cfg : Cfg) : K :=
  .has py"device"
    (.pop py"device" py"d"
      (.ask (.var py"d") .digits .left
        (.ask (.var py"d") (.contains py"cuda") (.set py"device" [.edit .gpu py"d"] (generic cfg))
          (.set py"device" [.lit py"device2str(", .var py"d", .lit py")"] (generic cfg)))))
    (generic cfg)

/-- Where the matcher returns code: no text without its parentheses. -/
def plainFin (a : A) (qs : List Q) : Bool :=
  qs.all Q.noEdit && a.ents.all (fun e => e.val.all fun p => !Python.stripped p) &&
    a.loc.all fun kv => kv.2.all fun p => !Python.stripped p

def deviceOk (name : Str) (cfg : Cfg) (g : K) : Bool :=
  decide (params cfg = [py"device"]) && decide (g = device2Str cfg) &&
    (device2StrText cfg).checkAll ⟨apiVal name cfg, false, none, plainFin⟩ (required name) (exclusive name)
      (A.start (params cfg) (required name))

/-- What is special about the code for this API. -/
def specialOf (name : Str) : Python.Special :=
  if name == indexCopyApi then .assigned py"input" else if name == setDeviceApi then .quoted else .no

def codeOk (name : Str) (cfg : Cfg) (g : K) : Bool :=
  (!(name == setDeviceApi) || deviceOk name cfg g) &&
    g.checkAll ⟨apiVal name cfg, false, none, codeFin (specialOf name) (apiVal name cfg)⟩ (required name) (exclusive name)
      (A.start (params cfg) (required name))

set_option maxRecDepth 100000 in
theorem code_0 : onEntries codeOk (part 0) = true := by decide +kernel
set_option maxRecDepth 100000 in
theorem code_1 : onEntries codeOk (part 1) = true := by decide +kernel
set_option maxRecDepth 100000 in
theorem code_2 : onEntries codeOk (part 2) = true := by decide +kernel
set_option maxRecDepth 100000 in
theorem code_3 : onEntries codeOk (part 3) = true := by decide +kernel
set_option maxRecDepth 100000 in
theorem code_4 : onEntries codeOk (part 4) = true := by decide +kernel
set_option maxRecDepth 100000 in
theorem code_5 : onEntries codeOk (part 5) = true := by decide +kernel
set_option maxRecDepth 100000 in
theorem code_6 : onEntries codeOk (part 6) = true := by decide +kernel
set_option maxRecDepth 100000 in
theorem code_7 : onEntries codeOk (part 7) = true := by decide +kernel
set_option maxRecDepth 100000 in
theorem code_8 : onEntries codeOk (part 8) = true := by decide +kernel
set_option maxRecDepth 100000 in
theorem code_9 : onEntries codeOk (part 9) = true := by decide +kernel
set_option maxRecDepth 100000 in
theorem code_10 : onEntries codeOk (part 10) = true := by decide +kernel
set_option maxRecDepth 100000 in
theorem code_11 : onEntries codeOk (part 11) = true := by decide +kernel
set_option maxRecDepth 100000 in
theorem code_12 : onEntries codeOk (part 12) = true := by decide +kernel
set_option maxRecDepth 100000 in
theorem code_13 : onEntries codeOk (part 13) = true := by decide +kernel
set_option maxRecDepth 100000 in
theorem code_14 : onEntries codeOk (part 14) = true := by decide +kernel
set_option maxRecDepth 100000 in
theorem code_15 : onEntries codeOk (part 15) = true := by decide +kernel
set_option maxRecDepth 100000 in
theorem code_16 : onEntries codeOk (part 16) = true := by decide +kernel
set_option maxRecDepth 100000 in
theorem code_17 : onEntries codeOk (part 17) = true := by decide +kernel
set_option maxRecDepth 100000 in
theorem code_18 : onEntries codeOk (part 18) = true := by decide +kernel
set_option maxRecDepth 100000 in
theorem code_19 : onEntries codeOk (part 19) = true := by decide +kernel
set_option maxRecDepth 100000 in
theorem code_20 : onEntries codeOk (part 20) = true := by decide +kernel

theorem code_table : onEntries codeOk Data.apiTable = true := onEntries_parts fun i hi =>
  match i, hi with
  | 0, _ => code_0
  | 1, _ => code_1
  | 2, _ => code_2
  | 3, _ => code_3
  | 4, _ => code_4
  | 5, _ => code_5
  | 6, _ => code_6
  | 7, _ => code_7
  | 8, _ => code_8
  | 9, _ => code_9
  | 10, _ => code_10
  | 11, _ => code_11
  | 12, _ => code_12
  | 13, _ => code_13
  | 14, _ => code_14
  | 15, _ => code_15
  | 16, _ => code_16
  | 17, _ => code_17
  | 18, _ => code_18
  | 19, _ => code_19
  | 20, _ => code_20
  | n + 21, h => absurd h (by omega)

end Verif.Template

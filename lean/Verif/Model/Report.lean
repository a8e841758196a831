import Verif.Model.Dispatch
import Mathlib.Algebra.Order.Field.Rat
import Mathlib.Data.Rat.Cast.Order

/-!
# Reports

Models the end of `Converter.run`, `/repo/paconvert/converter.py` lines 132-304, and the statistics of
`/repo/paconvert/main.py` lines 142-195. Left out: formatting, logging, the spreadsheets. Numbers are exact here; the
code divides in floating point.
-/

namespace Verif.Dispatch
open Verif

/-- `return self.success_api_count, faild_api_count`; converter.py:230, 304. -/
def Counts.returned (s : Counts) : Int × Int := (s.success, s.torch - s.success)

/-- `self.convert_rate`; converter.py:82, 249-250, 269-270. -/
def Counts.rate (s : Counts) : ℚ := if s.torch > 0 then (s.success : ℚ) / (s.torch : ℚ) else 0

/-- `d.pop(k)`. -/
def pop {β : Type} (d : Dict Str β) (k : Str) : Except Err (Dict Str β) :=
  if d.has k then .ok (d.erase k) else .error .keyError

/-- `unalign_api_map`; converter.py:165-170. `prefixOnly` is membership in `GlobalManager.CHANGE_PREFIX_API`. -/
def unaligned {β : Type} (prefixOnly : Str → Bool) (all : Dict Str β) : Except Err (Dict Str β) :=
  all.foldlM (fun m kv => do
    let m ← if Str.startsWith kv.1 py"torch." then pure m else pop m kv.1
    if prefixOnly kv.1 then pop m kv.1 else pure m) all

/-- `sorted(items, key=count, reverse=True)`: a stable sort, largest first; items with equal keys keep their order even
though `reverse=True`. converter.py:142-144, 182-184, 217-219. -/
def sortReport {α : Type} (key : α → Int) (items : List α) : List α :=
  items.mergeSort fun a b => decide (key b ≤ key a)

/-- The statistics over the projects of `--separate_convert`. -/
structure Stats where
  n100 : Nat := 0
  n95 : Nat := 0
  n90 : Nat := 0
  deriving DecidableEq, Repr

/-- The body of the loop; main.py:165-170. -/
def Stats.add (s : Stats) (rate : ℚ) : Stats where
  n100 := if rate = 1 then s.n100 + 1 else s.n100
  n95 := if rate ≥ 95 / 100 then s.n95 + 1 else s.n95
  n90 := if rate ≥ 90 / 100 then s.n90 + 1 else s.n90

def stats (rates : List ℚ) : Stats := rates.foldl Stats.add {}

/-- `project_num_100 / project_num` and so on; main.py:173, 183-191. `none` is a `ZeroDivisionError`. `projectNum` is
the length of a second listing of the input directory. -/
def percentages (s : Stats) (projectNum : Nat) : Option (ℚ × ℚ × ℚ) :=
  if projectNum = 0 then none
  else some (s.n100 / projectNum, s.n95 / projectNum, s.n90 / projectNum)

end Verif.Dispatch

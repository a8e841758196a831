import Verif.Py.Str
import Verif.Py.Dict

/-!
# Generated temporary names

Models `/repo/paconvert/utils.py` lines 22-35 (`UniqueNameGenerator`, `Generator`, `get_unique_name`).
-/

namespace Verif.Names
open Verif

/-- The generator object: `self.ids`, a `defaultdict(int)`; utils.py:23-24. -/
abbrev Gen := Dict Str Nat

/-- `self.ids[key]` on a `defaultdict(int)`; utils.py:27. -/
def counter (g : Gen) (key : Str) : Nat := (g.get? key).getD 0

/-- `UniqueNameGenerator.__call__`; utils.py:26-29. Returns the name and the new state. -/
def call (g : Gen) (key : Str) : Str × Gen :=
  let c := counter g key
  (Str.join py"_" [key, Str.ofNat c], g.set key (c + 1))

/-- A process that makes the calls `get_unique_name(k)` for `k` in `keys` (utils.py:32-36), starting from
state `g`: the list of all names returned, in order. -/
def names (g : Gen) : List Str → List Str
  | [] => []
  | k :: ks => let r := call g k; r.1 :: names r.2 ks

end Verif.Names

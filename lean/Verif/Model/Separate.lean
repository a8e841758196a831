import Verif.Model.Complete

/-!
# Several projects in one run

Models `/repo/paconvert/main.py` lines 148-171, the loop of `--separate_convert`. Every entry of the input directory is
converted as a project. The one helper object of the process is made for the first project; since all projects have the same
output path, it has the file name and the mode that each of them would give it if all are directories, and its table
is empty after each of them (C06). So the model is that of directories.
-/

namespace Verif.Separate
open Verif Verif.Files Verif.Complete

/-- main.py:148-164. `codes` are the helpers that a project requests. -/
def separate (env : Env) (fmt : Fmt) (hash : Str → Int) (fuel : Nat) (fs : FS) (inP outP : Path) (exclude : Str)
    (codes : Str → List Str) : Res :=
  forEach (fun name fs => runAll env fmt hash fuel fs (inP ++ [name]) outP exclude (codes name)) (env.ls fs inP) fs

end Verif.Separate

import Verif.Model.Files
import Verif.Model.Utils

/-!
# A whole run with its helper functions

Models `/repo/paconvert/converter.py` lines 114-129 (`run` from the choice of the helper file to `write_code`),
`/repo/paconvert/utils.py` lines 134-186 (`write_code`) on the file tree, and `/repo/paconvert/base.py` lines 513-536
(the lines by which a converted file of a directory imports the helpers). The run is the first one of its process
(see C06 for others). The texts that the matchers request during the run are a parameter (`codes`); so are the
formatter `isort` and the decoding of a file with the default encoding.
-/

namespace Verif.Complete
open Verif Verif.Files

/-- converter.py:125. -/
def helperName : Str := py"paddle_utils.py"

/-- What `write_code` needs from outside. -/
structure Fmt where
  /-- `isort.code`, or its argument if that raises an exception; utils.py:175-181. -/
  isort : Str → Str
  /-- `open(f, "r").read()` with the default encoding; utils.py:155-156. `none`: an exception. -/
  read : Bytes → Option Str
  /-- The line boundaries of `str.splitlines`, and `str.isspace`. -/
  isBreak : Char → Bool
  isSpace : Char → Bool

/-- `write_code` in directory mode; utils.py:138-151, 171-186. -/
def writeDir (env : Env) (fmt : Fmt) (fs : FS) (outP : Path) (m : Utils.CodeMap) : Res :=
  if m = [] then .ok fs
  else (makedirs fs outP).bind fun fs =>
    if isDir fs (outP ++ [helperName]) then .error fs
    else .ok (fs.set (outP ++ [helperName]) (.file (env.encode (fmt.isort (Utils.insertCode true m)))))

/-- `write_code` in single-file mode; utils.py:138-170, 173-186. -/
def writeFile (env : Env) (fmt : Fmt) (fs : FS) (f : Path) (m : Utils.CodeMap) : Res :=
  if m = [] then .ok fs
  else match fs.get? f with
    | some (.file c) =>
      match fmt.read c with
      | none => .error fs
      | some s => .ok (fs.set f (.file (env.encode (fmt.isort (Utils.newContent fmt.isBreak fmt.isSpace m s)))))
    | _ => .error fs

/-- `run`; converter.py:98-129. A request for a helper that does not return (C03) is `fuel`. -/
def runAll (env : Env) (fmt : Fmt) (hash : Str → Int) (fuel : Nat) (fs : FS) (inP outP : Path) (exclude : Str)
    (codes : List Str) : Res :=
  (run env fuel fs inP outP exclude).bind fun fs' =>
    match Utils.addAll hash [] codes with
    | none => .fuel
    | some m =>
      if isFile fs inP then writeFile env fmt fs' (target fs inP outP) m
      else writeDir env fmt fs' outP m

/-- `os.path.dirname` (posixpath). -/
def dirname (p : Str) : Str :=
  let head := (p.reverse.dropWhile (· != '/')).reverse
  if head.all (· == '/') then head else Str.rstripBy (· == '/') head

/-- The line that adds the directory of the helper file; base.py:524-533. -/
def pathLine (fileName : Str) : Str := py"sys.path.append(r'" ++ dirname fileName ++ py"')"

end Verif.Complete

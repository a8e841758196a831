import Verif.Py.Str
import Verif.Py.Dict

/-!
# The file tree

Models `/repo/paconvert/converter.py` lines 43-46 (`listdir_nohidden`), 92-129 (the part of `run` that deals
with paths), 321-362 (`transfer_dir`) and 364-434 (`transfer_file`, with the conversion of one Python file as a
parameter).

A file system is a finite map from absolute paths (component lists) to entries.  Symbolic links to existing
files or directories are not modelled (they would be read through), only dangling links.
-/

namespace Verif.Files
open Verif

abbrev Path := List Str

/-- File contents are byte strings. -/
abbrev Bytes := List UInt8

inductive Entry
  | file (content : Bytes)
  | dir
  | deadLink
  deriving DecidableEq, Repr

abbrev FS := Dict Path Entry

/-- The text of an absolute path. -/
def pathStr (p : Path) : Str := py"/" ++ Str.join py"/" p

/-- `os.path.isfile`, `os.path.isdir`, `os.path.exists` (false for dangling links), `os.path.islink`. -/
def isFile (fs : FS) (p : Path) : Bool := match fs.get? p with | some (.file _) => true | _ => false
def isDir (fs : FS) (p : Path) : Bool := p == [] || (match fs.get? p with | some .dir => true | _ => false)
def exists_ (fs : FS) (p : Path) : Bool := isFile fs p || isDir fs p
def isLink (fs : FS) (p : Path) : Bool := match fs.get? p with | some .deadLink => true | _ => false

/-- Result of an operation: new state, an exception (with the state at that moment), or out of fuel. -/
inductive Res
  | ok (fs : FS)
  | error (fs : FS)
  | fuel
  deriving DecidableEq, Repr

def Res.bind (r : Res) (f : FS → Res) : Res :=
  match r with
  | .ok fs => f fs
  | .error fs => .error fs
  | .fuel => .fuel

/-- `os.makedirs(p)` for a path that does not exist: creates the missing directories from the root down; an
ancestor that is no directory is an error. `pre` is the part already handled. -/
def makedirsGo (fs : FS) (pre : Path) : List Str → Res
  | [] => .ok fs
  | c :: cs =>
    let q := pre ++ [c]
    match fs.get? q with
    | some .dir => makedirsGo fs q cs
    | some _ => .error fs
    | none => makedirsGo (fs.set q .dir) q cs

def makedirs (fs : FS) (p : Path) : Res := makedirsGo fs [] p

/-- What the conversion needs from outside: reading and writing text (UTF-8, universal newlines), and the
conversion of one Python file by the transformers and formatters (`none`: an exception such as a syntax
error). -/
structure Env where
  /-- `open(p, "r", encoding="UTF-8").read()`; `none`: `UnicodeDecodeError`. -/
  decode : Bytes → Option Str
  /-- `open(p, "w", encoding="UTF-8").write(s)`. -/
  encode : Str → Bytes
  /-- converter.py:369-411: from the text read to the text written. -/
  convert : Path → Str → Option Str
  /-- `re.search(pattern, path)` is not `None`. -/
  search : Str → Str → Bool
  /-- `os.listdir`, in the order in which the operating system gives the names. -/
  ls : FS → Path → List Str

/-- `requirements.txt`; converter.py:423. -/
def convertRequirements (s : Str) : Str := Str.replace s py"torch" py"paddlepaddle-gpu"

/-- New contents of a file; converter.py:364-434. `none`: exception. -/
def newContent (env : Env) (old : Path) (c : Bytes) : Option Bytes :=
  if Str.endsWith (pathStr old) py".py" then
    (env.decode c).bind fun s => (env.convert old s).map env.encode
  else if Str.endsWith (pathStr old) py"requirements.txt" then
    (env.decode c).map fun s => env.encode (convertRequirements s)
  else some c

/-- `transfer_file`; converter.py:364-434. Writing to a directory is an exception, copying a file onto itself too
(`shutil.SameFileError`). -/
def transferFile (env : Env) (fs : FS) (old new : Path) : Res :=
  match fs.get? old with
  | some (.file c) =>
    match newContent env old c with
    | none => .error fs
    | some c' =>
      if isDir fs new then .error fs
      else if old = new ∧ ¬ (Str.endsWith (pathStr old) py".py" = true)
          ∧ ¬ (Str.endsWith (pathStr old) py"requirements.txt" = true) then .error fs
      else .ok (fs.set new (.file c'))
  | _ => .error fs

/-- Some exclude pattern is found in the path; converter.py:324-327, 345-349. -/
def excluded (env : Env) (pats : List Str) (p : Path) : Bool := pats.any (fun q => env.search q (pathStr p))

/-- `listdir_nohidden`; converter.py:43-46. -/
def listNoHidden (env : Env) (fs : FS) (p : Path) : List Str :=
  (env.ls fs p).filter (fun f => !Str.startsWith f py".")

/-- The target of a file; converter.py:329-332. -/
def target (fs : FS) (old out : Path) : Path := if isDir fs out then out ++ [old.getLastD []] else out

/-- converter.py:333-337: make the parent of the target a directory. -/
def prepareParent (fs : FS) (new : Path) : Res :=
  let d := new.dropLast
  (if exists_ fs d then Res.ok fs else makedirs fs d).bind fun fs =>
    if isDir fs d then .ok fs
    else makedirs (fs.erase d) d

/-- One entry of the directory loop up to the recursive call; converter.py:353-355. -/
def prepareDir (fs : FS) (old new : Path) : Res :=
  if isDir fs old && !exists_ fs new then makedirs fs new else .ok fs

/-- The `for` loop of converter.py:341-357: an exception ends it. -/
def forEach (step : Str → FS → Res) : List Str → FS → Res
  | [], fs => .ok fs
  | x :: xs, fs => (step x fs).bind (forEach step xs)

/-- `transfer_dir`; converter.py:321-362. The fuel bounds the recursion depth. -/
def transferDir (env : Env) (pats : List Str) : Nat → FS → Path → Path → Res
  | 0, _, _, _ => .fuel
  | n + 1, fs, inP, outP =>
    if isFile fs inP then
      if excluded env pats inP then .ok fs
      else
        let new := target fs inP outP
        (prepareParent fs new).bind fun fs => transferFile env fs inP new
    else if isDir fs inP then
      forEach
        (fun item fs =>
          if excluded env pats (inP ++ [item]) then .ok fs
          else (prepareDir fs (inP ++ [item]) (outP ++ [item])).bind fun fs =>
            transferDir env pats n fs (inP ++ [item]) (outP ++ [item]))
        (listNoHidden env fs inP) fs
    else if isLink fs inP then .ok fs
    else .error fs

/-- `exclude.split(",")` and the extra pattern; converter.py:108-112. -/
def patterns (exclude : Str) : List Str :=
  (if exclude = [] then [] else Str.splitOn ',' exclude) ++ [py"__pycache__"]

/-- The beginning of `run`; converter.py:98-128 with an explicit output path (paths are absolute already).
The helper file is not part of this model. A dangling link as input path ends in an `UnboundLocalError`
(line 129) after a `transfer_dir` that did nothing. -/
def run (env : Env) (fuel : Nat) (fs : FS) (inP outP : Path) (exclude : Str) : Res :=
  if outP = inP then .error fs
  else
    (transferDir env (patterns exclude) fuel fs inP outP).bind fun fs' =>
      if isFile fs inP || isDir fs inP then .ok fs' else .error fs'

end Verif.Files

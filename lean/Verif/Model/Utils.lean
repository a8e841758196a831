import Verif.Py.Str
import Verif.Py.Dict

/-!
# Helper code

Models `/repo/paconvert/utils.py` lines 39-186 (`UtilsFileHelper`).  `hash : Str → Int` is Python's `hash` on
strings, which differs from process to process; it is a parameter.  `isSpace` is `str.isspace`.
-/

namespace Verif.Utils
open Verif

/-- `code_map`, utils.py:58. -/
abbrev CodeMap := Dict Int Str

/-- `code.rstrip("\n")`; utils.py:82. -/
def rstripNl (code : Str) : Str := Str.rstripBy (· == '\n') code

/-- The loop condition of utils.py:71: the slot is taken by other code. -/
def taken (m : CodeMap) (h : Int) (code : Str) : Bool :=
  match m.get? h with
  | none => false
  | some c => c != code

/-- The loop of `_get_code_hash`, utils.py:69-73, for at most `fuel` rounds; `none`: still looping. -/
def hashLoop (hash : Str → Int) (m : CodeMap) (code : Str) : Nat → Int → Option Int
  | 0, _ => none
  | fuel + 1, h =>
    if taken m h code then
      hashLoop hash m code fuel (hash (code ++ py"_" ++ Str.ofNat m.length))
    else some h

/-- `_get_code_hash`, utils.py:69-73.  The loop body does not change the map, so its second round repeats for
ever (see `hashLoop_diverges`): three rounds decide, `none` means that the loop never ends. -/
def codeHash (hash : Str → Int) (m : CodeMap) (code : Str) : Option Int :=
  hashLoop hash m code 3 (hash code)

/-- `add_code`, utils.py:75-86, when a file name is set. `none`: does not return. -/
def addCode (hash : Str → Int) (m : CodeMap) (code : Str) : Option CodeMap :=
  let code := rstripNl code
  match codeHash hash m code with
  | none => none
  | some h => some (if m.has h then m else m.set h code)

/-- A sequence of requests. -/
def addAll (hash : Str → Int) : CodeMap → List Str → Option CodeMap
  | m, [] => some m
  | m, c :: cs =>
    match addCode hash m c with
    | none => none
    | some m' => addAll hash m' cs

/-- `s.splitlines()`. `isBreak` are the line boundaries of `str.splitlines` (`\n`, `\r`, `\v`, `\f`, `\x1c`...).
Simplification: the pair `\r\n` is not treated as one boundary; the text comes from a file opened in text
mode (utils.py:155), which contains no `\r`. -/
def splitLines (isBreak : Char → Bool) : Str → List Str
  | [] => []
  | c :: cs =>
    if isBreak c then [] :: splitLines isBreak cs
    else match splitLines isBreak cs with
      | [] => [[c]]
      | p :: ps => (c :: p) :: ps

/-- `line.rstrip().endswith("\\")`; utils.py:104, 117. -/
def endsBackslash (isSpace : Char → Bool) (line : Str) : Bool :=
  Str.endsWith (Str.rstripBy isSpace line) py"\\"

/-- Number of continuation lines of an `import` statement, utils.py:104-106. -/
def importCont (isSpace : Char → Bool) : Str → List Str → Nat
  | _, [] => 0
  | prev, x :: xs => if endsBackslash isSpace prev then importCont isSpace x xs + 1 else 0

/-- `line.count("(") - line.count(")")`; utils.py:111, 123. -/
def parenDelta (line : Str) : Int := (List.count '(' line : Int) - (List.count ')' line : Int)

/-- `("(" in line) or (")" in line)`; utils.py:112, 125. -/
def hasParen (line : Str) : Bool := decide ('(' ∈ line) || decide (')' ∈ line)

/-- Number of continuation lines of a `from` statement, utils.py:114-128. -/
def fromCont (isSpace : Char → Bool) : Int → Bool → Str → List Str → Nat
  | _, _, _, [] => 0
  | depth, saw, prev, x :: xs =>
    if endsBackslash isSpace prev || (saw && decide (0 < depth)) then
      fromCont isSpace (depth + parenDelta x) (saw || hasParen x) x xs + 1
    else 0

/-- The main loop of `_find_import_insert_idx`, utils.py:93-131: `skip` lines were already consumed by the
statement before, `i` is the current line number, `idx` is `insert_idx`. -/
def findGo (isSpace : Char → Bool) : Nat → Nat → Nat → List Str → Nat
  | _, _, idx, [] => idx
  | skip + 1, i, idx, _ :: ls => findGo isSpace skip (i + 1) idx ls
  | 0, i, idx, l :: ls =>
    let stripped := Str.stripBy isSpace l
    if stripped = [] ∨ Str.startsWith stripped py"#" then findGo isSpace 0 (i + 1) idx ls
    else if Str.startsWith stripped py"import " then
      let k := importCont isSpace l ls
      findGo isSpace k (i + 1) (i + 1 + k) ls
    else if Str.startsWith stripped py"from " then
      let k := fromCont isSpace (parenDelta l) (hasParen l) l ls
      findGo isSpace k (i + 1) (i + 1 + k) ls
    else idx

/-- `_find_import_insert_idx`, utils.py:88-132. -/
def findIdx (isSpace : Char → Bool) (lines : List Str) : Nat := findGo isSpace 0 0 0 lines

/-- utils.py:43-53. -/
def startContent : Str :=
  py"\n############################## 相关utils函数，如下 ##############################"
def initContent : Str :=
  py"############################ PaConvert 自动生成的代码 ###########################"
def endContent : Str :=
  py"############################## 相关utils函数，如上 ##############################\n\n"

/-- `insert_code`, utils.py:144-151. -/
def insertCode (isDir : Bool) (m : CodeMap) : Str :=
  Str.join py"\n"
    ((if isDir then [py"\nimport paddle\n", startContent, initContent] else [startContent])
      ++ m.values ++ [endContent])

/-- The new text of the file in single-file mode, utils.py:154-170, before `isort` (which is not modelled). -/
def newContent (isBreak isSpace : Char → Bool) (m : CodeMap) (existing : Str) : Str :=
  let lines := splitLines isBreak existing
  let idx := findIdx isSpace lines
  Str.join py"\n" (lines.take idx) ++ insertCode false m ++ Str.join py"\n" (lines.drop idx)

/-- The singleton instance, utils.py:55-67. -/
structure Helper where
  fileName : Option Str
  isDir : Bool
  codeMap : CodeMap
  deriving DecidableEq

/-- `UtilsFileHelper(fileName, is_dir_mode)`, utils.py:55-67: the first call of the process makes the
instance, later calls return it as it is. -/
def construct (inst : Option Helper) (fileName : Option Str) (isDir : Bool) : Helper :=
  match inst with
  | none => ⟨fileName, isDir, []⟩
  | some h => h

/-- A file system, for the part used here. -/
abbrev Files := Dict Str Str

/-- The helper requests and the final write of one conversion run: converter.py:114-129 (construction and
`write_code`), base.py:513-536 (`UtilsFileHelper().add_code`). Only directory mode writes here, and the
formatter is not modelled. `none`: `add_code` does not return. An empty file name does not occur
(converter.py:115-126). -/
def runDir (hash : Str → Int) (inst : Option Helper) (fs : Files) (outDir : Str) (codes : List Str) :
    Option (Helper × Files) :=
  let h := construct inst (some (outDir ++ py"/paddle_utils.py")) true
  match h.fileName with
  | none => some (h, fs)
  | some f =>
    match addAll hash h.codeMap codes with
    | none => none
    | some m =>
      if m = [] then some ({ h with codeMap := m }, fs)
      else some ({ h with codeMap := [] }, fs.set f (insertCode h.isDir m))

end Verif.Utils

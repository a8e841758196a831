import Verif.Py.Str
import Verif.Py.Sub

/-!
# Marking of unsupported lines

Models `/repo/paconvert/converter.py` lines 463-546 (`mask_change_prefix_apis`, `mark_unsupport`).

`isWord` is the class `\w`, `isSpace` is `str.isspace` (= `\s`); both are parameters, so that the theorems hold
for every classification of the Unicode characters.
-/

namespace Verif.Mark
open Verif

/-- The conversion mode, converter.py:63; only the test `self.mode == "min"` matters. -/
inductive Mode | default | min
  deriving DecidableEq, Repr

/-- Length of the match of the regular expression `q{n}[^q]+q{n}` at the start of `s` (0: no match); the
patterns of converter.py:512-514 with `q` a quote and `n` = 3 or 1.  `[^q]+` has to take the whole run of
non-`q` characters, because a `q` must follow, so there is nothing to backtrack over. -/
def quotedLen (q : Char) (n : Nat) (s : Str) : Nat :=
  if (List.replicate n q).isPrefixOf s then
    let run := (s.drop n).takeWhile (· != q)
    if run ≠ [] ∧ (List.replicate n q).isPrefixOf (s.drop (n + run.length)) then n + run.length + n
    else 0
  else 0

/-- `re.sub(r"[q]{n}[^q]+[q]{n}", "", s)`; converter.py:512-514. -/
def rmQuoted (q : Char) (n : Nat) (s : Str) : Str := Str.sub (fun _ => quotedLen q n) (fun _ => []) s

/-- `rm_str_line`; converter.py:512-514. -/
def rmStr (s : Str) : Str := rmQuoted '\'' 1 (rmQuoted '"' 1 (rmQuoted '"' 3 s))

/-- `re.match(r".*[^\w\.]{1}%s\." % pkg, s)`; converter.py:542.  `.` does not match a newline. The package
name is taken literally: no name of `TORCH_PACKAGE_MAPPING` (global_var.py:43-68) has a character special in
a regular expression. -/
def midMatch (isWord : Char → Bool) (pkg : Str) : Str → Bool
  | [] => false
  | c :: cs =>
    (!isWord c && c != '.' && (pkg ++ py".").isPrefixOf cs) || (c != '\n' && midMatch isWord pkg cs)

/-- The test for one package, converter.py:534 and 542. -/
def usesPkg (isWord : Char → Bool) (pkg s : Str) : Bool :=
  Str.startsWith s (pkg ++ py".") || midMatch isWord pkg s

/-- `"Not Support auto convert" in line`; converter.py:495. -/
def isNote (line : Str) : Bool := Str.contains line py"Not Support auto convert"

/-- The statements of min mode that are skipped, converter.py:526-531. -/
def isImportLine (isSpace : Char → Bool) (s : Str) : Bool :=
  let t := Str.stripBy isSpace s
  Str.startsWith t py"import " || Str.startsWith t py"from "

/-- `">>>>>>" + line`. -/
def marked (line : Str) : Str := py">>>>>>" ++ line

/-- The loop of converter.py:494-544: `mark_next_line`, `in_str`, the remaining lines and the remaining scan
lines.  `none` is the `IndexError` of `scan_lines[i]` (line 511). -/
def markGo (isWord isSpace : Char → Bool) (mode : Mode) (pkgs : List Str) :
    Bool → Bool → List Str → List Str → Option (List Str)
  | _, _, [], _ => some []
  | mn, ins, line :: lines, scans =>
    if isNote line then
      (markGo isWord isSpace mode pkgs true ins lines scans.tail).map (line :: ·)
    else if mn && line != py"@" then
      (markGo isWord isSpace mode pkgs false ins lines scans.tail).map (marked line :: ·)
    else
      match scans with
      | [] => none
      | scan :: scans =>
        let rm := rmStr scan
        let ins' := if Str.count rm py"\"\"\"" % 2 != 0 then !ins else ins
        let rest := markGo isWord isSpace mode pkgs mn ins' lines scans
        if ins || ins' then rest.map (line :: ·)
        else if mode = .min && isImportLine isSpace rm then rest.map (line :: ·)
        else if pkgs.any (fun p => usesPkg isWord p rm) then rest.map (marked line :: ·)
        else rest.map (line :: ·)

/-- Length of the match of `api_pattern` at the start of the text: the API name with every `.` read as
`\s*\.\s*`; converter.py:479.  The components of an API name contain no white space, so the greedy `\s*` has
nothing to backtrack over (simplification: exact for such names only). -/
def apiLen (isSpace : Char → Bool) : Str → Str → Option Nat
  | [], _ => some 0
  | c :: api, s =>
    if c = '.' then
      let a := (s.takeWhile isSpace).length
      match s.drop a with
      | [] => none
      | x :: r =>
        if x = '.' then
          let b := (r.takeWhile isSpace).length
          (apiLen isSpace api (r.drop b)).map (a + 1 + b + ·)
        else none
    else
      match s with
      | [] => none
      | x :: r => if x = c then (apiLen isSpace api r).map (1 + ·) else none

/-- A character of the class `[\w\.]`. -/
def wordOrDot (isWord : Char → Bool) (c : Char) : Bool := isWord c || c == '.'

/-- The compiled pattern `(?<![\w\.])api_pattern(?![\w\.])`; converter.py:480. -/
def apiMatch (isWord isSpace : Char → Bool) (api : Str) (prev : Option Char) (s : Str) : Nat :=
  match apiLen isSpace api s with
  | none => 0
  | some n =>
    if prev.any (wordOrDot isWord) then 0
    else if (s.drop n).head?.any (wordOrDot isWord) then 0
    else n

/-- One character of `_mask_match`; converter.py:466-476. -/
def maskChar (isSpace : Char → Bool) (c : Char) : Char :=
  if c = '\n' then '\n' else if isSpace c then c else '_'

/-- One round of the loop converter.py:478-481. -/
def maskOne (isWord isSpace : Char → Bool) (text api : Str) : Str :=
  Str.sub (apiMatch isWord isSpace api) (List.map (maskChar isSpace)) text

/-- `mask_change_prefix_apis`; converter.py:463-482. `keep` is the list `keep_apis`, in whatever order
`sorted(.., key=len)` leaves names of equal length. -/
def mask (isWord isSpace : Char → Bool) (keep : List Str) (text : Str) : Str :=
  keep.foldl (maskOne isWord isSpace) text

/-- `mark_unsupport`; converter.py:484-546. `pkgs` is `self.imports_map[file]["torch_packages"]` in its
iteration order, `keep` the kept prefix-only APIs. -/
def markUnsupport (isWord isSpace : Char → Bool) (mode : Mode) (pkgs keep : List Str) (code : Str) :
    Option Str :=
  let scan := if mode = .min then mask isWord isSpace keep code else code
  (markGo isWord isSpace mode pkgs false false (Str.splitOn '\n' code) (Str.splitOn '\n' scan)).map
    (Str.join py"\n")

end Verif.Mark

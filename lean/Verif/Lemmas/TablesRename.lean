import Verif.Lemmas.Tables

/-!
# Going through the shipped tables: renaming
-/

namespace Verif.Data
open Verif Verif.Dispatch Verif.Matcher

set_option maxRecDepth 100000

/-- The codes of the names that the generic matcher drops. -/
def unuseCodes : List Nat :=
  [0x6c61796f7574, 0x646576696365, 0x6d656d6f72795f666f726d6174, 0x696e706c616365, 0x67656e657261746f72,
   0x6e6f6e5f626c6f636b696e67, 0x6173796e63]

/-- The codes of the targets of a renaming. -/
def targetCodes (b : Bool × List Nat) : List Nat :=
  if b.1 then b.2 else if (b.2.headD 0).beq 0 then [] else [b.2.headD 0]

/-- The codes of the new names of an argument. -/
def newCodes (r : Raw) (a : Nat) : List Nat :=
  match r.change.find? (fun c => c.1.beq a) with
  | some c => targetCodes c.2
  | none => if unuseCodes.any (fun u => u.beq a) then [] else [a]

def indicesCode : Nat := 0x696e6469636573
def sectionsCode : Nat := 0x73656374696f6e73

theorem indices_code : py"indices" = decode indicesCode := by decide
theorem sections_code : py"sections" = decode sectionsCode := by decide

/-- The check of one entry: no two arguments have a new name in common, none has a name twice, and no dropped argument has the name of a
new one. -/
def clean (r : Raw) : Bool :=
  (r.args ++ r.overload).all fun a =>
    decide (newCodes r a).Nodup &&
    ((r.args ++ r.overload).all fun b =>
      a.beq b || (a.beq indicesCode && b.beq sectionsCode) || (b.beq indicesCode && a.beq sectionsCode) ||
      (newCodes r a).all fun x => (newCodes r b).all fun y => !(x.beq y)) &&
    (!(newCodes r a).isEmpty || (r.args ++ r.overload).all fun b => (newCodes r b).all fun y => !(y.beq a))

theorem clean_api : apiTable.all clean = true := by decide +kernel
theorem clean_attr : attrTable.all clean = true := by decide +kernel

end Verif.Data

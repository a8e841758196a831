import Verif.Lemmas.Template
import Verif.Lemmas.Tables
import Verif.Spec.Arguments

namespace Verif.Template
open Verif
open Verif.Spec
open Verif.Matcher (Cfg)

/-! ## From the table to the calls -/

set_option maxRecDepth 100000 in
theorem class_table : (matchers.all fun m => Data.decode (Data.encode m.1) == m.1) = true := by decide +kernel

theorem on_entry {f : Str → Cfg → K → Bool} (ht : onEntries f Data.apiTable = true) {r : Data.Raw} (hr : r ∈ Data.apiTable)
    {m : Str × (Str → Cfg → K)} (hm : m ∈ matchers) (hc : m.1 = r.class) : f r.name r.cfg (m.2 r.name r.cfg) = true := by
  have h := List.all_eq_true.1 (List.all_eq_true.1 ht r hr) m hm
  rw [Bool.or_eq_true] at h
  refine h.resolve_left ?_
  have hd := List.all_eq_true.1 class_table m hm
  have : r.matcher = Data.encode m.1 := (Data.decode_eq_iff (by simpa using hd)).1 hc.symm
  simp [this]

/-- A call with these arguments. -/
def callOf (r : Data.Raw) (args : Dict Str Str) : Call := ⟨args, py"r", apiVal r.name r.cfg, fun s => s ++ py"_0"⟩

/-- The matcher replaces the call by code with this property. -/
def codeWith (r : Data.Raw) (c : Call) (f : List Piece → Bool) : Bool :=
  matchers.any fun m => Nat.beq (Data.encode m.1) r.matcher && match (m.2 r.name r.cfg).out c with
    | .code ps => f ps
    | _ => false

theorem converts_of {r : Data.Raw} {c : Call} {f : List Piece → Bool} (h : codeWith r c f = true) :
    ∃ ps, Converts r c (.code ps) ∧ f ps = true := by
  obtain ⟨m, hm, h⟩ := List.any_eq_true.1 h
  rw [Bool.and_eq_true] at h
  have hd := List.all_eq_true.1 class_table m hm
  have hc : r.class = m.1 := (Data.decode_eq_iff (by simpa using hd)).2 (Nat.beq_eq.mp h.1).symm
  split at h
  · next ps hps => exact ⟨ps, ⟨m, hm, hc.symm, hps⟩, h.2⟩
  · simp at h

/-- An entry of this name with this property. -/
def someEntry (a : Str) (f : Data.Raw → Bool) : Bool := Data.apiTable.any fun r => Nat.beq r.key (Data.encode a) && f r

theorem someEntry_sound {a : Str} (ha : Data.decode (Data.encode a) = a) {f : Data.Raw → Bool} (h : someEntry a f = true) :
    ∃ r ∈ Data.apiTable, r.name = a ∧ f r = true := by
  obtain ⟨r, hr, h⟩ := List.any_eq_true.1 h
  rw [Bool.and_eq_true] at h
  exact ⟨r, hr, (Data.decode_eq_iff ha).2 (Nat.beq_eq.mp h.1), h.2⟩

def coded (a : Str) : Bool := Data.decode (Data.encode a) == a

end Verif.Template

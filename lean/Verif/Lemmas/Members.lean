import Verif.Props.Whole
import Verif.Spec.Members
import Verif.Model.Rename

/-!
# The names under which functions of `os` are looked up
-/

namespace Verif.Members
open Verif Verif.Data Verif.Dispatch


/-! ## The tables -/

def same : Str → Str → Bool
  | [], [] => true
  | c :: s, d :: t => c.toNat.beq d.toNat && same s t
  | _, _ => false

theorem same_refl : ∀ s : Str, same s s = true
  | [] => rfl
  | c :: s => by simp [same, same_refl s]

/-- What comes after a prefix. -/
def after : Str → Str → Option Str
  | [], s => some s
  | c :: p, d :: s => if c.toNat.beq d.toNat then after p s else none
  | _ :: _, [] => none

theorem after_append : ∀ p s : Str, after p (p ++ s) = some s
  | [], s => rfl
  | c :: p, s => by simp [after, after_append p s]

/-- Under which the members of `os` are looked up. -/
def heads : List Str := py"os." :: Whole.classes.map (· ++ py".")

/-- A head and one of the functions. -/
def clash (k : Str) : Bool := heads.any fun p =>
  match after p k with
  | some a => otherFunctions.any (same a)
  | none => false

theorem clash_of {p a : Str} (hp : p ∈ heads) (ha : a ∈ otherFunctions) : clash (p ++ a) = true := by
  refine List.any_eq_true.2 ⟨p, hp, ?_⟩
  rw [after_append]
  exact List.any_eq_true.2 ⟨a, ha, same_refl a⟩

theorem no_clash0 : (apiTable0 ++ apiTable1 ++ apiTable2 ++ apiTable3 ++ apiTable4 ++ apiTable5 ++ apiTable6 ++ apiTable7 ++ apiTable8).all (fun r => !clash (decode r.key)) = true := by decide +kernel
theorem no_clash1 : (apiTable9 ++ apiTable10 ++ apiTable11 ++ apiTable12 ++ apiTable13 ++ apiTable14 ++ apiTable15 ++ apiTable16 ++ apiTable17).all (fun r => !clash (decode r.key)) = true := by decide +kernel
theorem no_clash2 : (apiTable18 ++ apiTable19 ++ apiTable20 ++ apiTable21 ++ apiTable22 ++ apiTable23 ++ apiTable24 ++ apiTable25 ++ apiTable26).all (fun r => !clash (decode r.key)) = true := by decide +kernel
theorem no_clash3 : (apiTable27 ++ apiTable28 ++ apiTable29 ++ apiTable30 ++ apiTable31 ++ apiTable32 ++ apiTable33).all (fun r => !clash (decode r.key)) = true := by decide +kernel

/-- In parts: one check of the whole table needs too much memory. -/
theorem no_clash : apiTable.all (fun r => !clash (decode r.key)) = true := by
  have h0 := no_clash0
  have h1 := no_clash1
  have h2 := no_clash2
  have h3 := no_clash3
  simp only [List.all_append, Bool.and_eq_true] at h0 h1 h2 h3
  simp only [apiTable, List.all_append, Bool.and_eq_true, h0, h1, h2, h3, and_self]

theorem no_alias_clash : aliasTable.all (fun a => !clash (decode a.1)) = true := by decide +kernel

theorem no_wild : heads.all (fun p => otherFunctions.all fun a => !wildcards.any fun w => w.1 (p ++ a)) = true := by decide +kernel

theorem unlisted {p a : Str} (hp : p ∈ heads) (ha : a ∈ otherFunctions) : inApi shipped (p ++ a) = false := by
  have h1 : shipped.aliases.get? (p ++ a) = none := by
    rw [Dict.get?_eq_none_iff, alias_keys]
    intro h
    obtain ⟨x, hx, e⟩ := List.mem_map.1 h
    have := List.all_eq_true.1 no_alias_clash x hx
    rw [e, clash_of hp ha] at this
    simp at this
  have h2 : p ++ a ∉ shipped.api.keys := by
    rw [api_keys]
    intro h
    obtain ⟨x, hx, e⟩ := List.mem_map.1 h
    have := List.all_eq_true.1 no_clash x hx
    rw [e, clash_of hp ha] at this
    simp at this
  have h3 := List.all_eq_true.1 (List.all_eq_true.1 no_wild p hp) a ha
  unfold inApi canonical
  rw [h1, Option.getD_none, Bool.eq_false_iff.2 (fun h => h2 (Dict.has_iff.1 h))]
  simpa [shipped] using h3

theorem candidates : otherFunctions.all (fun a => (callCandidates (py"os." ++ a)).all fun k => heads.any fun p => same k (p ++ a)) = true := by decide +kernel

end Verif.Members

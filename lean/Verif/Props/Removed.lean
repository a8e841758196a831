import Verif.Props.Call
import Verif.Lemmas.Tables

/-! # Calls that are taken out of the program (C66) -/

namespace Verif.Matcher
open Verif

/-- **C66, what is taken out.** A call of a package function disappears only if it is a statement of its own, so that nobody
uses its value, and its matcher wants it. -/
theorem C66_removed_statement (m : Option (Call → Answer × Call)) (inExpr : Bool) (c : Call)
    (h : transCall m inExpr c = .removed) : inExpr = true ∧ ∃ m', m = some m' ∧ (m' c).1 = .delete := by
  cases m with
  | none => simp [transCall] at h
  | some m =>
    simp only [transCall] at h
    split at h
    · next hd =>
      split at h
      · next hi => exact ⟨hi, m, rfl, hd⟩
      · simp at h
    all_goals simp at h

/-- **C66, what is taken out.** The same for method calls. -/
theorem C66_removed_statement_method (m : Option (Call → Answer × Call)) (inExpr : Bool) (c : Call)
    (h : transMethod m inExpr c = .removed) : inExpr = true ∧ ∃ m' c', m = some m' ∧ (m' c').1 = .delete := by
  cases m with
  | none => simp [transMethod] at h
  | some m =>
    simp only [transMethod] at h
    split at h
    · next hd =>
      split at h
      · next hi => exact ⟨hi, m, _, rfl, hd⟩
      · simp at h
    all_goals simp at h

/-- **C66, silence.** A call stays in the program without a report only if its matcher says that it is no use of the API after all
or that Paddle has the same API. In particular a call without a matcher or with a matcher that has no answer is reported. -/
theorem C66_silent (m : Option (Call → Answer × Call)) (inExpr : Bool) (c c' : Call) :
    (transCall m inExpr c = .kept c' → ∃ m', m = some m' ∧ ((m' c).1 = .misidentify ∨ (m' c).1 = .unchange)) ∧
    (transMethod m inExpr c = .kept c' → ∃ m' d, m = some m' ∧ ((m' d).1 = .misidentify ∨ (m' d).1 = .unchange)) := by
  constructor
  · intro h
    cases m with
    | none => simp [transCall] at h
    | some m =>
      simp only [transCall] at h
      split at h
      · split at h <;> simp at h
      · next hd => exact ⟨m, rfl, .inl hd⟩
      · next hd => exact ⟨m, rfl, .inr hd⟩
      · simp at h
      · simp at h
  · intro h
    cases m with
    | none => simp [transMethod] at h
    | some m =>
      simp only [transMethod] at h
      split at h
      · split at h <;> simp at h
      · next hd => exact ⟨m, _, rfl, .inr hd⟩
      · next hd => exact ⟨m, _, rfl, .inl hd⟩
      · simp at h
      · simp at h

example : transCall (some fun c => (.misidentify, c)) true { args := [{ src := py"x" }] } = .kept { args := [{ src := py"x" }] } := by decide

/-- A matcher that removes, in both places. -/
example : transCall (some fun c => (.delete, c)) true { args := [{ src := py"x" }] } = .removed ∧
    transCall (some fun c => (.delete, c)) false { args := [{ src := py"x" }] } = .reported { args := [{ src := py"x" }] } ∧
    transMethod (some fun c => (.delete, c)) true { args := [{ src := py"x" }] } = .removed := by decide

set_option maxRecDepth 100000 in
theorem delete_table : (Data.apiTable.all fun r => !(Nat.beq r.matcher (Data.encode py"DeleteMatcher"))) = true ∧
    (Data.attrTable.all fun r => !(Nat.beq r.matcher (Data.encode py"DeleteMatcher"))) = true := by
  decide +kernel

/-- **C66, shipped tables.** `DeleteMatcher` (api_matcher.py:260-271) is the only class that answers `"delete"`, and no entry
of the shipped tables uses it. -/
theorem C66_no_delete_shipped : ∀ r ∈ Data.apiTable ++ Data.attrTable, r.class ≠ py"DeleteMatcher" := by
  intro r hr hc
  have he : r.matcher = Data.encode py"DeleteMatcher" := (Data.decode_eq_iff (by decide +kernel)).1 hc
  rcases List.mem_append.1 hr with hr | hr
  · have := List.all_eq_true.1 delete_table.1 r hr
    simp [he] at this
  · have := List.all_eq_true.1 delete_table.2 r hr
    simp [he] at this

example : ∃ r ∈ Data.apiTable ++ Data.attrTable, r.class = py"ChangePrefixMatcher" := by
  have : (Data.apiTable.any fun r => Nat.beq r.matcher (Data.encode py"ChangePrefixMatcher")) = true := by decide +kernel
  obtain ⟨r, hr, h⟩ := List.any_eq_true.1 this
  exact ⟨r, List.mem_append_left _ hr, (Data.decode_eq_iff (by decide +kernel)).2 (Nat.beq_eq.mp h)⟩

end Verif.Matcher

import Verif.Spec.Whole
import Verif.Props.Again

/-!
# Names that have nothing to do with the tables
-/

namespace Verif.Whole
open Verif Verif.Data
open Verif.Dispatch
open Verif.Uses (E Es chain through Proper ProperAll visitE visitEs ofText descends)
open Verif.Basic (Place argPlace)
open Verif.Imports hiding Listed
open Verif.Matcher (prefixApi prefixDropped classPatterns matchDots)

/-! ## Names of the program itself -/

def packs : List Str :=
  [py"torch.", py"torchvision.", py"transformers.", py"fairscale.", py"flash_attn.", py"os.", py"setuptools.", py"timm."]

set_option maxRecDepth 100000 in
theorem api_heads : apiTable.all (fun r => packs.any fun p => p.isPrefixOf (decode r.key)) = true := by decide +kernel
set_option maxRecDepth 100000 in
theorem alias_heads : aliasTable.all (fun a => packs.any fun p => p.isPrefixOf (decode a.1)) = true := by decide +kernel

theorem packs_known : ∀ p ∈ packs, ∃ q, p = q ++ py"." ∧ '.' ∉ q ∧ (q ∈ torchPackages.keys ∨ q ∈ mayPackages) := by
  intro p hp
  simp only [packs, List.mem_cons, List.not_mem_nil, or_false] at hp
  rcases hp with rfl | rfl | rfl | rfl | rfl | rfl | rfl | rfl
  · exact ⟨py"torch", by decide⟩
  · exact ⟨py"torchvision", by decide⟩
  · exact ⟨py"transformers", by decide⟩
  · exact ⟨py"fairscale", by decide⟩
  · exact ⟨py"flash_attn", by decide⟩
  · exact ⟨py"os", by decide⟩
  · exact ⟨py"setuptools", by decide⟩
  · exact ⟨py"timm", by decide⟩

/-- A first component that has nothing to do with the tables. -/
structure Free (f : File) (X : Str) : Prop where
  dot : '.' ∉ X
  names : f.names.get? X = none
  key : X ∉ reservedKeys
  torch : X ∉ torchPackages.keys
  may : X ∉ mayPackages
  einops : ¬ ∃ t, X = py"einops" ++ t
  transformers : ¬ ∃ t, X = py"transformers" ++ t

/-- What can follow a first component. -/
def Tail (t : Str) : Prop := t = [] ∨ ∃ r, t = '.' :: r

theorem head_unique {X q t r : Str} (hX : '.' ∉ X) (hq : '.' ∉ q) (ht : Tail t) (h : X ++ t = q ++ '.' :: r) : X = q := by
  rcases ht with rfl | ⟨s, rfl⟩
  · rw [List.append_nil] at h
    rw [h] at hX
    simp at hX
  · have h1 : Str.splitOn '.' (X ++ '.' :: s) = X :: Str.splitOn '.' s := Str.splitOn_append_cons hX
    have h2 : Str.splitOn '.' (q ++ '.' :: r) = q :: Str.splitOn '.' r := Str.splitOn_append_cons hq
    rw [h, h2] at h1
    simp at h1
    exact h1.1.symm

theorem splitOn_head {X t : Str} (hX : '.' ∉ X) (ht : Tail t) : (Str.splitOn '.' (X ++ t)).headD [] = X := by
  rcases ht with rfl | ⟨s, rfl⟩
  · rw [List.append_nil, Str.splitOn_of_not_mem hX]; rfl
  · rw [Str.splitOn_append_cons hX]; rfl

theorem Free.not_key {f : File} {X t : Str} (h : Free f X) (ht : Tail t) {n : Nat}
    (hn : (packs.any fun p => p.isPrefixOf (decode n)) = true) : X ++ t ≠ decode n := by
  intro e
  obtain ⟨p, hp, hpre⟩ := List.any_eq_true.1 hn
  obtain ⟨q, rfl, hq, hk⟩ := packs_known p hp
  obtain ⟨r, hr⟩ := List.isPrefixOf_iff_prefix.1 hpre
  have := head_unique h.dot hq ht (r := r) (by rw [e, ← hr]; simp)
  subst this
  rcases hk with hk | hk
  · exact h.torch hk
  · exact h.may hk

/-- A pattern without dots matches the beginning of a text. -/
theorem matchDots_prefix : ∀ (p s : Str), '.' ∉ p → matchDots p s = true → ∃ t, s = p ++ t
  | [], s, _, _ => ⟨s, rfl⟩
  | a :: p, [], _, h => by simp [matchDots] at h
  | a :: p, b :: s, hp, h => by
    have ha : a ≠ '.' := fun e => hp (by simp [e])
    simp only [matchDots, if_neg ha, Bool.and_eq_true, beq_iff_eq] at h
    obtain ⟨t, ht⟩ := matchDots_prefix p s (fun hm => hp (by simp [hm])) h.2
    exact ⟨t, by rw [← h.1, ht]; rfl⟩

theorem matchDots_append : ∀ (p q s : Str), matchDots (p ++ q) s = true → matchDots p s = true
  | [], _, _, _ => rfl
  | _ :: _, _, [], h => by simp [matchDots] at h
  | a :: p, q, b :: s, h => by
    simp only [List.cons_append, matchDots, Bool.and_eq_true] at h ⊢
    exact ⟨h.1, matchDots_append p q s h.2⟩

theorem starts {X t p s : Str} (ht : Tail t) (hp : '.' ∉ p) (h : X ++ t = p ++ s) : ∃ s', X = p ++ s' := by
  rcases List.append_eq_append_iff.1 h with ⟨a, rfl, h2⟩ | ⟨a, rfl, h2⟩
  · rcases ht with rfl | ⟨r, rfl⟩
    · simp only [List.nil_eq, List.append_eq_nil_iff] at h2
      exact ⟨[], by simp [h2.1]⟩
    · cases a with
      | nil => exact ⟨[], by simp⟩
      | cons x a => simp at h2; exact absurd (by simp [← h2.1]) hp
  · exact ⟨a, rfl⟩

theorem Free.not_wild {f : File} {X t : Str} (h : Free f X) (ht : Tail t) : (wildcards.any fun w => w.1 (X ++ t)) = false := by
  rw [Bool.eq_false_iff]
  intro hw
  simp only [wildcards, List.any_cons, List.any_nil, Bool.or_false, Bool.or_eq_true] at hw
  rcases hw with hw | hw
  · obtain ⟨s, hs⟩ := matchDots_prefix py"einops" _ (by decide) (matchDots_append py"einops" py".layers.torch" _ hw)
    exact h.einops (starts ht (by decide) hs)
  · obtain ⟨s, hs⟩ := matchDots_prefix py"transformers" _ (by decide) hw
    exact h.transformers (starts ht (by decide) hs)

theorem Free.canonical {f : File} {X t : Str} (h : Free f X) (ht : Tail t) : canonical shipped (X ++ t) = X ++ t := by
  unfold Dispatch.canonical
  rw [Dict.get?_eq_none_iff.2]
  · rfl
  · rw [alias_keys]
    intro hm
    obtain ⟨a, ha, e⟩ := List.mem_map.1 hm
    exact h.not_key ht (List.all_eq_true.1 alias_heads a ha) e.symm

theorem Free.api {f : File} {X t : Str} (h : Free f X) (ht : Tail t) : inApi shipped (X ++ t) = false := by
  unfold inApi
  rw [h.canonical ht, show shipped.wild = wildcards from rfl, h.not_wild ht, Bool.or_false, Bool.eq_false_iff]
  intro hk
  rw [Dict.has_iff, api_keys] at hk
  obtain ⟨r, hr, e⟩ := List.mem_map.1 hk
  exact h.not_key ht (List.all_eq_true.1 api_heads r hr) e.symm

theorem Free.startWith {f : File} (hf : ∀ p ∈ f.torch, p ∈ torchPackages.keys) {X t : Str} (h : Free f X) (ht : Tail t) :
    startWithTorch f (X ++ t) = false := by
  rw [Bool.eq_false_iff]
  intro hs
  unfold startWithTorch at hs
  obtain ⟨p, hp, hs⟩ := List.any_eq_true.1 hs
  obtain ⟨r, hr⟩ := Str.startsWith_iff.1 hs
  have := head_unique h.dot (Exclude.no_dot (hf p hp)) ht (r := r) (by rw [hr]; simp)
  exact h.torch (this ▸ hf p hp)

theorem Free.replace {f : File} {X t : Str} (h : Free f X) (ht : Tail t) : replaceModule f (X ++ t) = .ok (X ++ t) := by
  unfold replaceModule
  dsimp only
  rw [splitOn_head h.dot ht, if_neg h.key, h.names]

end Verif.Whole

import Verif.Model.Mark
import Verif.Spec.Mark

namespace Verif.Mark
open Verif Spec

/-! ## Quote removal -/

theorem takeWhile_ne {q : Char} {w b : Str} (hq : q ∉ w) :
    (w ++ q :: b).takeWhile (· != q) = w := by
  induction w with
  | nil => simp
  | cons x w ih =>
    simp at hq
    have hx : (x != q) = true := by simp; exact fun e => hq.1 e.symm
    simp only [List.cons_append, List.takeWhile_cons, hx, if_true]
    rw [ih hq.2]

theorem quotedLen_of {q : Char} {n : Nat} (hn : 0 < n) {w b : Str} (hw : w ≠ []) (hq : q ∉ w) :
    quotedLen q n (List.replicate n q ++ w ++ List.replicate n q ++ b) = n + w.length + n := by
  have hrun : ((List.replicate n q ++ w ++ List.replicate n q ++ b).drop n).takeWhile (· != q) = w := by
    have h1 : (List.replicate n q ++ w ++ List.replicate n q ++ b).drop n
        = w ++ (List.replicate n q ++ b) := by
      have : n = (List.replicate n q).length := by simp
      rw [List.append_assoc, List.append_assoc]
      conv => lhs; arg 1; rw [this]
      rw [List.drop_left]
    rw [h1]
    obtain ⟨k, rfl⟩ : ∃ k, n = k + 1 := ⟨n - 1, by omega⟩
    rw [List.replicate_succ, List.cons_append]
    exact takeWhile_ne hq
  have hp : (List.replicate n q).isPrefixOf (List.replicate n q ++ w ++ List.replicate n q ++ b) = true := by
    rw [List.isPrefixOf_iff_prefix]; exact ⟨w ++ List.replicate n q ++ b, by simp⟩
  have hd : (List.replicate n q ++ w ++ List.replicate n q ++ b).drop (n + w.length)
      = List.replicate n q ++ b := by
    have : n + w.length = (List.replicate n q ++ w).length := by simp
    rw [List.append_assoc, this, List.drop_left]
  simp only [quotedLen, hp, if_true, hrun, hd]
  have hp2 : (List.replicate n q).isPrefixOf (List.replicate n q ++ b) = true := by
    rw [List.isPrefixOf_iff_prefix]; exact ⟨b, rfl⟩
  simp [hw, hp2]

theorem of_quotedLen {q : Char} {n : Nat} (_hn : 0 < n) {s : Str} (h : quotedLen q n s ≠ 0) :
    ∃ w b, s = List.replicate n q ++ w ++ List.replicate n q ++ b ∧ w ≠ [] ∧ q ∉ w := by
  unfold quotedLen at h
  split at h
  · next hp =>
    simp only [] at h
    split at h
    · next hc =>
      obtain ⟨hw, hp2⟩ := hc
      rw [List.isPrefixOf_iff_prefix] at hp hp2
      obtain ⟨r, hr⟩ := hp
      subst hr
      have e1 : (List.replicate n q ++ r).drop n = r := by
        have : n = (List.replicate n q).length := by simp
        conv => lhs; arg 1; rw [this]
        rw [List.drop_left]
      rw [e1] at hw hp2
      obtain ⟨b, hb⟩ := hp2
      rw [← List.drop_drop, e1] at hb
      refine ⟨r.takeWhile (· != q), b, ?_, hw, ?_⟩
      · rw [List.append_assoc, List.append_assoc, hb]
        congr 1
        conv => lhs; rw [← List.takeWhile_append_dropWhile (p := (· != q)) (l := r)]
        congr 1
        have := List.drop_append_of_le_length (l₁ := r.takeWhile (· != q))
          (l₂ := r.dropWhile (· != q)) (i := (r.takeWhile (· != q)).length) (Nat.le_refl _)
        rw [List.takeWhile_append_dropWhile] at this
        rw [this]; simp
      · intro hmem
        have := List.all_takeWhile (l := r) (p := (· != q))
        rw [List.all_eq_true] at this
        simpa using this q hmem
    · exact absurd rfl h
  · exact absurd rfl h

theorem quotedLen_bounded (q : Char) {n : Nat} (hn : 0 < n) :
    Str.Bounded (fun _ => quotedLen q n) := by
  intro _ s
  show quotedLen q n s ≤ s.length
  by_cases h : quotedLen q n s = 0
  · omega
  · obtain ⟨w, b, e, hw, hq⟩ := of_quotedLen hn h
    subst e
    rw [quotedLen_of hn hw hq]
    simp; omega

theorem unquoted_of_subAll {q : Char} {n : Nat} (hn : 0 < n) {p : Option Char} {s t : Str}
    (h : Str.SubAll (fun _ => quotedLen q n) (fun _ => []) p s t) : Unquoted q n s t := by
  induction h with
  | done p s h =>
    refine .done s ?_
    rintro ⟨a, w, b, e, hw, hq⟩
    have := h a (List.replicate n q ++ w ++ List.replicate n q ++ b) (by rw [e]; simp) (by
      simp [hw])
    rw [quotedLen_of hn hw hq] at this
    omega
  | step p a w b b' hm hw first rest ih =>
    have hne : quotedLen q n (w ++ b) ≠ 0 := by
      rw [hm]; exact fun e => hw (List.eq_nil_of_length_eq_zero e)
    obtain ⟨w', c, e, hw', hq'⟩ := of_quotedLen hn hne
    rw [e, quotedLen_of hn hw' hq'] at hm
    have hwe : w = List.replicate n q ++ w' ++ List.replicate n q := by
      have := congrArg (List.take w.length) e
      rw [List.take_left] at this
      rw [this]
      apply List.take_left'
      simp; omega
    have hbe : b = c := by
      rw [hwe] at e; exact List.append_cancel_left e
    subst hbe
    subst hwe
    have key := Unquoted.step (q := q) (n := n) a w' b b' hw' hq' ?_ ih
    · simpa using key
    · intro a' w2 c e2 hw2 hq2
      apply Nat.le_of_not_lt
      intro hlt
      have ha : a = a' ++ a.drop a'.length := by
        have := congrArg (List.take a'.length) e2
        have h1 : a' = List.take a'.length a := by
          have h2 : List.take a'.length (a' ++ List.replicate n q ++ w2 ++ List.replicate n q ++ c) = a' := by
            simp only [List.append_assoc]; exact List.take_left
          rw [h2] at this
          simp only [List.append_assoc] at this
          rw [List.take_append_of_le_length (by omega)] at this
          exact this.symm
        conv => lhs; rw [← List.take_append_drop a'.length a, ← h1]
      have hr : a.drop a'.length ≠ [] := by
        intro e3
        have := congrArg List.length e3
        simp at this; omega
      have h0 := first a' (a.drop a'.length) ha hr
      have hs : a.drop a'.length ++ (List.replicate n q ++ w' ++ List.replicate n q) ++ b
          = List.replicate n q ++ w2 ++ List.replicate n q ++ c := by
        apply List.append_cancel_left (as := a')
        rw [← List.append_assoc, ← List.append_assoc, ← ha]
        simpa using e2
      rw [hs, quotedLen_of hn hw2 hq2] at h0
      omega

theorem rmQuoted_spec (q : Char) {n : Nat} (hn : 0 < n) (s : Str) : Unquoted q n s (rmQuoted q n s) :=
  unquoted_of_subAll hn (Str.sub_spec (quotedLen_bounded q hn) _ s)

theorem Spec.Unquoted.functional {q : Char} {n : Nat} {s t t' : Str} (hn : 0 < n)
    (h : Unquoted q n s t) (h' : Unquoted q n s t') : t = t' := by
  induction h generalizing t' with
  | done s hs =>
    cases h' with
    | done => rfl
    | step a w b b' hw hq => exact absurd ⟨a, w, b, rfl, hw, hq⟩ hs
  | step a w b b' hw hq first rest ih =>
    generalize hs : a ++ List.replicate n q ++ w ++ List.replicate n q ++ b = s at h'
    cases h' with
    | done _ hx => exact absurd ⟨a, w, b, hs.symm, hw, hq⟩ hx
    | step a2 w2 b2 b2' hw2 hq2 first2 rest2 =>
      have l1 := first a2 w2 b2 hs hw2 hq2
      have l2 := first2 a w b hs.symm hw hq
      have hl : a.length = a2.length := by omega
      simp only [List.append_assoc] at hs
      have ⟨e1, e2⟩ := List.append_inj hs hl
      have e3 := List.append_cancel_left e2
      have e4 : w = w2 := by
        obtain ⟨k, rfl⟩ : ∃ k, n = k + 1 := ⟨n - 1, by omega⟩
        rw [List.replicate_succ, List.cons_append, List.cons_append] at e3
        have := congrArg (List.takeWhile (· != q)) e3
        rwa [takeWhile_ne hq, takeWhile_ne hq2] at this
      subst e1 e4
      have e5 := List.append_cancel_left (List.append_cancel_left e3)
      subst e5
      rw [ih rest2]

theorem rmStr_spec (s : Str) : Bare s (rmStr s) :=
  ⟨_, _, rmQuoted_spec '"' (by decide) s, rmQuoted_spec '"' (by decide) _, rmQuoted_spec '\'' (by decide) _⟩

theorem bare_iff {s t : Str} : Bare s t ↔ t = rmStr s := by
  constructor
  · rintro ⟨u, v, h1, h2, h3⟩
    have e1 := h1.functional (by decide) (rmQuoted_spec '"' (n := 3) (by decide) s)
    subst e1
    have e2 := h2.functional (by decide) (rmQuoted_spec '"' (n := 1) (by decide) _)
    subst e2
    exact h3.functional (by decide) (rmQuoted_spec '\'' (n := 1) (by decide) _)
  · rintro rfl; exact rmStr_spec s

theorem Spec.Unquoted.sublist {q : Char} {n : Nat} {s t : Str} (h : Unquoted q n s t) : t.Sublist s := by
  induction h with
  | done => exact List.Sublist.refl _
  | step a w b b' hw hq first rest ih =>
    simp only [List.append_assoc]
    refine List.Sublist.append_left ?_ a
    refine List.Sublist.trans ih ?_
    exact (List.sublist_append_right _ _).trans
      ((List.sublist_append_right _ _).trans (List.sublist_append_right _ _))

theorem rmStr_sublist (s : Str) : (rmStr s).Sublist s := by
  obtain ⟨u, v, h1, h2, h3⟩ := rmStr_spec s
  exact h3.sublist.trans (h2.sublist.trans h1.sublist)

theorem Spec.Unquoted.self {q : Char} {n : Nat} (hn : 0 < n) {s : Str} (h : q ∉ s) : Unquoted q n s s := by
  refine .done s ?_
  rintro ⟨a, w, b, e, _, _⟩
  apply h
  rw [e]
  obtain ⟨k, rfl⟩ : ∃ k, n = k + 1 := ⟨n - 1, by omega⟩
  simp [List.replicate_succ]

theorem bare_self {s : Str} (h1 : '"' ∉ s) (h2 : '\'' ∉ s) : Bare s s :=
  ⟨s, s, Unquoted.self (by decide) h1, Unquoted.self (by decide) h1, Unquoted.self (by decide) h2⟩

theorem countGo_zero_of_not_mem {q : Char} {p : Str} {k : Nat} {s : Str} (h : q ∉ s) :
    Str.countGo (q :: p) k s = 0 := by
  induction s generalizing k with
  | nil => cases k <;> rfl
  | cons c cs ih =>
    simp at h
    cases k with
    | succ k => exact ih h.2
    | zero =>
      have : (q :: p).isPrefixOf (c :: cs) = false := by
        simp only [List.isPrefixOf, Bool.and_eq_false_iff]; left; simpa using h.1
      simp only [Str.countGo, this]
      exact ih h.2

/-! ## Package uses -/

theorem midMatch_iff {isWord : Char → Bool} {pkg s : Str} (hs : '\n' ∉ s) :
    midMatch isWord pkg s = true ↔
      ∃ a c b, s = a ++ [c] ++ pkg ++ py"." ++ b ∧ isWord c = false ∧ c ≠ '.' := by
  induction s with
  | nil => simp [midMatch]
  | cons x xs ih =>
    simp at hs
    simp only [midMatch, Bool.or_eq_true, Bool.and_eq_true, ih hs.2, List.isPrefixOf_iff_prefix]
    constructor
    · rintro (⟨⟨h1, h2⟩, b, hb⟩ | ⟨_, a, c, b, e, h1, h2⟩)
      · exact ⟨[], x, b, by simp [← hb], by simpa using h1, by simpa using h2⟩
      · exact ⟨x :: a, c, b, by simp [e], h1, h2⟩
    · rintro ⟨a, c, b, e, h1, h2⟩
      cases a with
      | nil =>
        simp at e
        left
        exact ⟨⟨by simp [e.1, h1], by simp [e.1, h2]⟩, b, by simp [e.2]⟩
      | cons y a =>
        simp at e
        right
        exact ⟨by simp; exact fun e => hs.1 e.symm, a, c, b, by simp [e.2], h1, h2⟩

theorem usesPkg_iff {isWord : Char → Bool} {pkg s : Str} (hs : '\n' ∉ s) :
    usesPkg isWord pkg s = true ↔ Uses isWord pkg s := by
  simp only [usesPkg, Bool.or_eq_true, midMatch_iff hs, Str.startsWith_iff, Uses]

theorem isNote_iff {l : Str} : isNote l = true ↔ Note l := Str.contains_iff

theorem isNote_false_iff {l : Str} : isNote l = false ↔ ¬ Note l := by
  rw [← isNote_iff]; simp

theorem not_note_at : ¬ Note py"@" := by rw [← isNote_iff]; decide

/-! ## The loop -/

theorem pending_zero (lines : List Str) : ¬ Pending lines 0 := by
  rintro ⟨j, h, _⟩; omega

theorem pending_succ (lines : List Str) (i : Nat) :
    Pending lines (i + 1) ↔ Note (line lines i) ∨ (line lines i = py"@" ∧ Pending lines i) := by
  constructor
  · rintro ⟨j, h1, h2, h3⟩
    by_cases hj : j = i
    · left; exact hj ▸ h2
    · right
      exact ⟨h3 i (by omega) (by omega), j, by omega, h2, fun k hk1 hk2 => h3 k hk1 (by omega)⟩
  · rintro (h | ⟨h1, j, h2, h3, h4⟩)
    · exact ⟨i, by omega, h, fun k _ _ => by omega⟩
    · refine ⟨j, by omega, h3, fun k hk1 hk2 => ?_⟩
      by_cases hk : k = i
      · exact hk ▸ h1
      · exact h4 k hk1 (by omega)

variable (isWord isSpace : Char → Bool) (mode : Mode) (pkgs : List Str)

/-- The lines that min mode exempts, as a proposition on the bare line. -/
def Skip (t : Str) : Prop := mode = .min ∧ isImportLine isSpace t = true

theorem drop_eq_cons {α : Type} {l : List α} {i : Nat} {x : α} {xs : List α} (h : l.drop i = x :: xs) :
    l[i]? = some x ∧ l.drop (i + 1) = xs ∧ i < l.length := by
  have hi : i < l.length := by
    apply Nat.lt_of_not_le
    intro hle
    rw [List.drop_eq_nil_of_le hle] at h
    exact absurd h (by simp)
  rw [List.drop_eq_getElem_cons hi, List.cons.injEq] at h
  exact ⟨by rw [List.getElem?_eq_getElem hi, h.1], h.2, hi⟩

theorem line_of_drop {l : List Str} {i : Nat} {x : Str} {xs : List Str} (h : l.drop i = x :: xs) :
    line l i = x := by
  simp [line, List.getD, (drop_eq_cons h).1]

theorem markGo_spec (lines scans : List Str) (hnl : ∀ s ∈ scans, '\n' ∉ s)
    (i : Nat) (mn ins : Bool) (ls ss : List Str)
    (hls : lines.drop i = ls) (hss : scans.drop i = ss) (hlen : ls.length = ss.length)
    (hmn : mn = true ↔ Pending lines i) (hins : ins = true ↔ Inside lines scans i) :
    ∃ out, markGo isWord isSpace mode pkgs mn ins ls ss = some out ∧ out.length = ls.length ∧
      ∀ k, k < ls.length →
        ((ByNote lines (i + k) ∨ ByUse isWord (Skip isSpace mode) pkgs lines scans (i + k)) →
          line out k = marked (line lines (i + k))) ∧
        (¬ (ByNote lines (i + k) ∨ ByUse isWord (Skip isSpace mode) pkgs lines scans (i + k)) →
          line out k = line lines (i + k)) := by
  induction ls generalizing i mn ins ss with
  | nil => exact ⟨[], rfl, rfl, by simp⟩
  | cons l ls ih =>
    have hl := line_of_drop hls
    have ⟨_, hdl, _⟩ := drop_eq_cons hls
    obtain ⟨s, ss', rfl⟩ : ∃ s ss', ss = s :: ss' := by
      cases ss with
      | nil => simp at hlen
      | cons s ss' => exact ⟨s, ss', rfl⟩
    have hs := line_of_drop hss
    have ⟨hs?, hds, _⟩ := drop_eq_cons hss
    have hlen' : ls.length = ss'.length := by simpa using hlen
    -- glue: extend a result for the tail by a head
    have glue : ∀ (mn' ins' : Bool) (h : Str),
        (mn' = true ↔ Pending lines (i + 1)) → (ins' = true ↔ Inside lines scans (i + 1)) →
        ((ByNote lines i ∨ ByUse isWord (Skip isSpace mode) pkgs lines scans i) → h = marked l) →
        (¬ (ByNote lines i ∨ ByUse isWord (Skip isSpace mode) pkgs lines scans i) → h = l) →
        ∃ out, (markGo isWord isSpace mode pkgs mn' ins' ls ss').map (h :: ·) = some out ∧
          out.length = (l :: ls).length ∧ ∀ k, k < (l :: ls).length →
            ((ByNote lines (i + k) ∨ ByUse isWord (Skip isSpace mode) pkgs lines scans (i + k)) →
              line out k = marked (line lines (i + k))) ∧
            (¬ (ByNote lines (i + k) ∨ ByUse isWord (Skip isSpace mode) pkgs lines scans (i + k)) →
              line out k = line lines (i + k)) := by
      intro mn' ins' h hm hi h1 h2
      obtain ⟨out, e, e2, e3⟩ := ih (i + 1) mn' ins' ss' hdl hds hlen' hm hi
      refine ⟨h :: out, by rw [e]; rfl, by simp [e2], ?_⟩
      intro k hk
      cases k with
      | zero =>
        simp only [Nat.add_zero, hl]
        exact ⟨fun hx => by simpa [line] using h1 hx, fun hx => by simpa [line] using h2 hx⟩
      | succ k =>
        have := e3 k (by simpa using hk)
        have ek : i + 1 + k = i + (k + 1) := by omega
        rw [ek] at this
        simpa [line] using this
    unfold markGo
    by_cases hnote : Note l
    · -- a note line
      have hnb : isNote l = true := isNote_iff.2 hnote
      rw [if_pos hnb]
      refine glue true ins l ?_ ?_ ?_ ?_
      · simp [pending_succ, hl, hnote]
      · have : ¬ Flips lines scans i := fun hf => hf.1.1 (hl ▸ hnote)
        simp only [Inside, this, iff_false, Classical.not_not]; exact hins
      · rintro (h | h)
        · exact absurd (hl ▸ hnote) h.1
        · exact absurd (hl ▸ hnote) h.1.1
      · intro _; rfl
    · have hnb : isNote l = false := isNote_false_iff.2 hnote
      rw [if_neg (by simp [hnb])]
      by_cases hby : mn = true ∧ l ≠ py"@"
      · -- marked by a note
        have hB : ByNote lines i := ⟨hl ▸ hnote, hl ▸ hby.2, hmn.1 hby.1⟩
        rw [if_pos (by simp [hby.1, hby.2])]
        refine glue false ins (marked l) ?_ ?_ (fun _ => rfl) (fun h => absurd (Or.inl hB) h)
        · rw [pending_succ, hl]
          simp [hnote, hby.2]
        · have : ¬ Flips lines scans i := fun hf => hf.1.2 hB
          simp only [Inside, this, iff_false, Classical.not_not]; exact hins
      · -- inspected line
        have hnB : ¬ ByNote lines i := by
          rintro ⟨_, h1, h2⟩
          exact hby ⟨hmn.2 h2, hl ▸ h1⟩
        have hsc : Scanned lines i := ⟨hl ▸ hnote, hnB⟩
        rw [if_neg (by
          intro h
          simp at h
          exact hby ⟨h.1, h.2⟩)]
        simp only []
        have hmn' : mn = true ↔ Pending lines (i + 1) := by
          rw [pending_succ, hl]
          simp only [hnote, false_or]
          constructor
          · intro h
            refine ⟨?_, hmn.1 h⟩
            apply Classical.byContradiction
            intro h2; exact hby ⟨h, h2⟩
          · intro h; exact hmn.2 h.2
        have hflip : Flips lines scans i ↔ Str.count (rmStr s) py"\"\"\"" % 2 = 1 := by
          constructor
          · rintro ⟨_, t, ht, hc⟩
            rw [hs, bare_iff] at ht
            rw [ht] at hc; exact hc
          · intro h
            exact ⟨hsc, rmStr s, by rw [hs]; exact rmStr_spec s, h⟩
        have hins' : (if Str.count (rmStr s) py"\"\"\"" % 2 != 0 then !ins else ins) = true
            ↔ Inside lines scans (i + 1) := by
          simp only [Inside, hflip, ← hins]
          rcases Nat.mod_two_eq_zero_or_one (Str.count (rmStr s) py"\"\"\"") with h | h
          · simp [h]
          · simp [h]
        generalize (if Str.count (rmStr s) py"\"\"\"" % 2 != 0 then !ins else ins) = ins' at hins' ⊢
        have hnlrm : '\n' ∉ rmStr s := by
          intro hm
          exact hnl s (List.mem_of_getElem? hs?) ((rmStr_sublist s).subset hm)
        by_cases hin : (ins || ins') = true
        · rw [if_pos hin]
          refine glue mn ins' l hmn' hins' ?_ (fun _ => rfl)
          rintro (h | h)
          · exact absurd h hnB
          · obtain ⟨_, h2, h3, _⟩ := h
            rw [← hins] at h2; rw [← hins'] at h3
            simp [h2, h3] at hin
        · rw [if_neg hin]
          have hin1 : ¬ Inside lines scans i := by rw [← hins]; simp at hin; simp [hin.1]
          have hin2 : ¬ Inside lines scans (i + 1) := by rw [← hins']; simp at hin; simp [hin.2]
          by_cases hsk : Skip isSpace mode (rmStr s)
          · rw [if_pos (by simp [hsk.1, hsk.2])]
            refine glue mn ins' l hmn' hins' ?_ (fun _ => rfl)
            rintro (h | ⟨_, _, _, t, ht, hns, _⟩)
            · exact absurd h hnB
            · rw [hs, bare_iff] at ht
              exact absurd (ht ▸ hsk) hns
          · rw [if_neg (by
              intro h
              simp at h
              exact hsk h)]
            by_cases hu : pkgs.any (fun p => usesPkg isWord p (rmStr s)) = true
            · rw [if_pos hu]
              refine glue mn ins' (marked l) hmn' hins' (fun _ => rfl) (fun h => absurd (Or.inr ?_) h)
              rw [List.any_eq_true] at hu
              obtain ⟨p, hp, hup⟩ := hu
              exact ⟨hsc, hin1, hin2, rmStr s, by rw [hs]; exact rmStr_spec s, hsk, p, hp,
                (usesPkg_iff hnlrm).1 hup⟩
            · rw [if_neg hu]
              refine glue mn ins' l hmn' hins' ?_ (fun _ => rfl)
              rintro (h | ⟨_, _, _, t, ht, _, p, hp, hup⟩)
              · exact absurd h hnB
              · rw [hs, bare_iff] at ht
                exfalso; apply hu
                rw [List.any_eq_true]
                exact ⟨p, hp, (usesPkg_iff hnlrm).2 (ht ▸ hup)⟩

end Verif.Mark

import Verif.Props.Mark

/-!
# C11, C62: what min mode hides from the search for leftover torch uses
-/

namespace Verif.Mark
open Verif Spec

variable {isWord isSpace : Char → Bool}

/-! ## Components of a spelled name -/

theorem spelled_word {c w : Str} (hc : '.' ∉ c) (h : Spelled isSpace c w) : w = c := by
  induction c generalizing w with
  | nil => cases h; rfl
  | cons x c ih =>
    cases h with
    | dot => simp at hc
    | char _ _ w h1 r => rw [ih (by simp at hc; exact hc.2) r]

theorem spelled_append {c api w : Str} (hc : '.' ∉ c) (h : Spelled isSpace (c ++ api) w) :
    ∃ w', w = c ++ w' ∧ Spelled isSpace api w' := by
  induction c generalizing w with
  | nil => exact ⟨w, rfl, h⟩
  | cons x c ih =>
    simp at hc
    cases h with
    | dot => simp at hc
    | char _ _ w h1 r =>
      obtain ⟨w', e, h'⟩ := ih hc.2 r
      exact ⟨w', by rw [e]; rfl, h'⟩

theorem not_dot_of_words (hd : isWord '.' = false) {c : Str} (h : ∀ x ∈ c, isWord x = true) : '.' ∉ c := by
  intro hm; rw [h _ hm] at hd; exact absurd hd (by simp)

/-- A spelled dotted name: the first component, then white space, a dot, white space and the rest. -/
theorem spelled_join {c : Str} {cs : List Str} {w : Str} (hc : '.' ∉ c)
    (h : Spelled isSpace (Str.join py"." (c :: cs)) w) :
    (cs = [] ∧ w = c) ∨ (cs ≠ [] ∧ ∃ sp sp' w', w = c ++ (sp ++ '.' :: sp' ++ w') ∧ (∀ x ∈ sp, isSpace x = true) ∧
      (∀ x ∈ sp', isSpace x = true) ∧ Spelled isSpace (Str.join py"." cs) w') := by
  cases cs with
  | nil => left; exact ⟨rfl, spelled_word hc (by simpa using h)⟩
  | cons d ds =>
    right
    refine ⟨by simp, ?_⟩
    rw [Str.join_cons_cons, List.append_assoc] at h
    obtain ⟨w1, e, h1⟩ := spelled_append hc h
    cases h1 with
    | dot sp sp' _ w' h2 h3 r => exact ⟨sp, sp', w', e, h2, h3, r⟩
    | char _ _ _ h2 => exact absurd rfl h2

theorem spelled_filter (hd : isSpace '.' = false) {api w : Str} (ha : ∀ x ∈ api, isSpace x = false)
    (h : Spelled isSpace api w) : w.filter (fun x => !isSpace x) = api := by
  induction h with
  | nil => rfl
  | dot sp sp' api w h h' r ih =>
    have e1 : sp.filter (fun x => !isSpace x) = [] := by
      rw [List.filter_eq_nil_iff]; intro x hx; simp [h x hx]
    have e2 : sp'.filter (fun x => !isSpace x) = [] := by
      rw [List.filter_eq_nil_iff]; intro x hx; simp [h' x hx]
    simp only [List.filter_append, e1, List.filter_cons, hd, Bool.not_false, if_true, e2, List.nil_append]
    rw [ih (fun x hx => ha x (by simp [hx]))]; rfl
  | char c api w hc r ih =>
    simp only [List.filter_cons, ha c (by simp), Bool.not_false, if_true]
    rw [ih (fun x hx => ha x (by simp [hx]))]

/-- A word character of a spelled name belongs to a component; in the text the component is a maximal run of word
characters. -/
theorem spelled_component (hcl : Classes isWord isSpace) {cs : List Str} (hcs : Dotted isWord cs) {w : Str}
    (h : Spelled isSpace (Str.join py"." cs) w) {i : Nat} {x : Char} (hx : w[i]? = some x) (hw : isWord x = true) :
    ∃ lo c, c ∈ cs ∧ lo ≤ i ∧ i < lo + c.length ∧ (∀ j, j < c.length → w[lo + j]? = c[j]?) ∧
      (∀ y, w[lo + c.length]? = some y → isWord y = false) ∧
      (lo = 0 ∨ c ∈ cs.tail ∧ ∀ y, w[lo - 1]? = some y → isWord y = false) := by
  induction cs generalizing w i with
  | nil => exact absurd rfl hcs.1
  | cons c cs ih =>
    have hc := hcs.2 c (by simp)
    have hdot := not_dot_of_words hcl.dot.1 hc.1
    rcases spelled_join hdot h with ⟨e, e'⟩ | ⟨hne, sp, sp', w', e, h1, h2, h3⟩
    · subst e'
      have hi : i < w.length := (List.getElem?_eq_some_iff.1 hx).1
      exact ⟨0, w, by simp, by omega, by omega, by simp, by simp, Or.inl rfl⟩
    · subst e
      have hns : ∀ y, isSpace y = true → isWord y = false := by
        intro y hy
        cases hh : isWord y with
        | false => rfl
        | true => rw [hcl.apart y hh] at hy; simp at hy
      have hmid : ∀ y ∈ sp ++ '.' :: sp', isWord y = false := by
        intro y hy
        simp at hy
        rcases hy with hy | hy | hy
        · exact hns _ (h1 _ hy)
        · rw [hy]; exact hcl.dot.1
        · exact hns _ (h2 _ hy)
      by_cases l1 : i < c.length
      · refine ⟨0, c, by simp, by omega, by omega, ?_, ?_, Or.inl rfl⟩
        · intro j hj; rw [Nat.zero_add, List.getElem?_append_left hj]
        · intro y hy
          apply hmid
          rw [Nat.zero_add, List.getElem?_append_right (by omega), Nat.sub_self,
            List.getElem?_append_left (by rw [List.length_append, List.length_cons]; omega)] at hy
          exact List.mem_of_getElem? hy
      · rw [List.getElem?_append_right (by omega)] at hx
        by_cases l2 : i - c.length < (sp ++ '.' :: sp').length
        · rw [List.getElem?_append_left l2] at hx
          rw [hmid x (List.mem_of_getElem? hx)] at hw; simp at hw
        · rw [List.getElem?_append_right (by omega)] at hx
          obtain ⟨lo, d, hd, k1, k2, k3, k4, k5⟩ := ih ⟨hne, fun d hd => hcs.2 d (by simp [hd])⟩ h3 hx
          generalize hn : c.length + (sp ++ '.' :: sp').length = n at *
          have hnpos : 0 < n := by simp at hn; omega
          have hget : ∀ j, (c ++ (sp ++ '.' :: sp' ++ w'))[n + j]? = w'[j]? := by
            intro j
            rw [← List.append_assoc, List.getElem?_append_right (by simp at hn ⊢; omega)]
            congr 1; simp at hn ⊢; omega
          refine ⟨n + lo, d, by simp [hd], by omega, by omega, ?_, ?_, Or.inr ⟨by simpa using hd, ?_⟩⟩
          · intro j hj; rw [Nat.add_assoc, hget, k3 j hj]
          · intro y hy; rw [Nat.add_assoc, hget] at hy; exact k4 y hy
          · intro y hy
            rcases Nat.eq_zero_or_pos lo with e0 | e0
            · subst e0
              apply hmid
              rw [Nat.add_zero, List.getElem?_append_right (by simp at hn; omega),
                List.getElem?_append_left (by simp at hn ⊢; omega)] at hy
              exact List.mem_of_getElem? hy
            · rcases k5 with k5 | ⟨_, k5⟩
              · omega
              · have : n + lo - 1 = n + (lo - 1) := by omega
                rw [this, hget] at hy
                exact k5 y hy

/-! ## Occurrences by position -/

theorem whole_iff {api text : Str} {s e : Nat} : Whole isWord isSpace api text s e ↔
    ∃ w, Spelled isSpace api w ∧ s + w.length = e ∧ e ≤ text.length ∧ (∀ j, j < w.length → text[s + j]? = w[j]?) ∧
      (∀ i c, s = i + 1 → text[i]? = some c → Outer isWord c) ∧ (∀ c, text[e]? = some c → Outer isWord c) := by
  constructor
  · rintro ⟨a, w, b, rfl, rfl, rfl, h, h1, h2⟩
    refine ⟨w, h, rfl, by simp, ?_, ?_, ?_⟩
    · intro j hj
      rw [List.append_assoc, List.getElem?_append_right (by omega), List.getElem?_append_left (by omega)]
      congr 1; omega
    · intro i c hi hc
      apply h1
      rw [List.append_assoc, List.getElem?_append_left (by omega)] at hc
      rw [List.getLast?_eq_getElem?, hi]; exact hc
    · intro c hc
      apply h2
      rw [List.getElem?_append_right (by simp)] at hc
      rw [List.head?_eq_getElem?, ← hc]; congr 1; simp
  · rintro ⟨w, h, he, hl, h1, h2, h3⟩
    refine ⟨text.take s, w, text.drop e, ?_, by simp; omega, he, h, ?_, ?_⟩
    · apply List.ext_getElem?
      intro i
      by_cases l1 : i < s
      · rw [List.append_assoc, List.getElem?_append_left (by simp; omega), List.getElem?_take_of_lt l1]
      · by_cases l2 : i < e
        · rw [List.append_assoc, List.getElem?_append_right (by simp; omega),
            List.getElem?_append_left (by simp; omega)]
          have := h1 (i - s) (by omega)
          rw [show s + (i - s) = i by omega] at this
          rw [this]; congr 1; simp; omega
        · rw [List.getElem?_append_right (by simp; omega), List.getElem?_drop]
          congr 1; simp; omega
    · intro c hc
      rw [List.getLast?_eq_getElem?, List.length_take, Nat.min_eq_left (by omega)] at hc
      cases s with
      | zero => simp at hc
      | succ i =>
        rw [Nat.add_sub_cancel, List.getElem?_take_of_lt (by omega)] at hc
        exact h2 i c rfl hc
    · intro c hc
      rw [List.head?_eq_getElem?, List.getElem?_drop, Nat.add_zero] at hc
      exact h3 c hc

/-- The pattern matches every spelled dotted name. -/
theorem apiLen_word {c : Str} (hc : '.' ∉ c) (api s : Str) :
    apiLen isSpace (c ++ api) (c ++ s) = (apiLen isSpace api s).map (c.length + ·) := by
  induction c with
  | nil => simp
  | cons x c ih =>
    simp at hc
    rw [List.cons_append, List.cons_append, apiLen, if_neg (Ne.symm hc.1)]
    simp only [if_true]
    rw [ih hc.2, Option.map_map]
    congr 1; funext n; simp; omega

theorem apiLen_dot {sp sp' api s : Str} (hd : isSpace '.' = false) (h : ∀ x ∈ sp, isSpace x = true)
    (h' : ∀ x ∈ sp', isSpace x = true) (hs : ∀ x, s.head? = some x → isSpace x = false) :
    apiLen isSpace ('.' :: api) (sp ++ '.' :: sp' ++ s)
      = (apiLen isSpace api s).map (sp.length + 1 + sp'.length + ·) := by
  have e1 : ((sp ++ '.' :: sp' ++ s).takeWhile isSpace).length = sp.length := by
    rw [List.append_assoc, List.takeWhile_append_of_pos h]
    simp [hd]
  have e2 : ((sp' ++ s).takeWhile isSpace).length = sp'.length := by
    rw [List.takeWhile_append_of_pos h']
    cases s with
    | nil => simp
    | cons x s => simp [hs x rfl]
  have e3 : (sp ++ '.' :: sp' ++ s).drop sp.length = '.' :: (sp' ++ s) := by
    rw [List.append_assoc, List.drop_left]; rfl
  simp only [apiLen, if_true, e1, e3, e2, List.drop_left]

theorem spelled_head {c : Str} {cs : List Str} {w : Str} (hcl : Classes isWord isSpace)
    (hcs : Dotted isWord (c :: cs)) (h : Spelled isSpace (Str.join py"." (c :: cs)) w) :
    ∃ x w', w = x :: w' ∧ x ∈ c ∧ isWord x = true := by
  have hc := hcs.2 c (by simp)
  have hdot := not_dot_of_words hcl.dot.1 hc.1
  obtain ⟨x, c', hx⟩ : ∃ x c', c = x :: c' := by
    obtain ⟨y, hy, _⟩ := hc.2
    exact List.exists_cons_of_ne_nil (List.ne_nil_of_mem hy)
  rcases spelled_join hdot h with ⟨_, e'⟩ | ⟨_, sp, sp', w', e, _⟩
  · exact ⟨x, c', by rw [e', hx], by simp [hx], hc.1 x (by simp [hx])⟩
  · exact ⟨x, _, by rw [e, hx]; rfl, by simp [hx], hc.1 x (by simp [hx])⟩

theorem apiLen_of_spelled (hcl : Classes isWord isSpace) {cs : List Str} (hcs : Dotted isWord cs) {w : Str}
    (h : Spelled isSpace (Str.join py"." cs) w) (b : Str) :
    apiLen isSpace (Str.join py"." cs) (w ++ b) = some w.length := by
  induction cs generalizing w with
  | nil => exact absurd rfl hcs.1
  | cons c cs ih =>
    have hc := hcs.2 c (by simp)
    have hdot := not_dot_of_words hcl.dot.1 hc.1
    rcases spelled_join hdot h with ⟨e, e'⟩ | ⟨hne, sp, sp', w', e, h1, h2, h3⟩
    · subst e; subst e'
      have := apiLen_word (isSpace := isSpace) hdot [] b
      simpa [apiLen] using this
    · have hcs' : Dotted isWord cs := ⟨hne, fun d hd => hcs.2 d (by simp [hd])⟩
      obtain ⟨d, ds, rfl⟩ := List.exists_cons_of_ne_nil hne
      rw [Str.join_cons_cons, List.append_assoc, e, List.append_assoc, apiLen_word hdot]
      have e3 : sp ++ '.' :: sp' ++ w' ++ b = sp ++ '.' :: sp' ++ (w' ++ b) := by simp
      rw [e3]
      show (apiLen isSpace ('.' :: Str.join py"." (d :: ds)) _).map _ = _
      rw [apiLen_dot hcl.dot.2 h1 h2, ih hcs' h3]
      · simp; omega
      · intro x hx
        obtain ⟨y, w2, e4, _, hy⟩ := spelled_head hcl hcs' h3
        rw [e4] at hx; simp at hx; subst hx
        exact hcl.apart _ hy

theorem prevChar_none (a : Str) : Str.prevChar none a = a.getLast? := by simp [Str.prevChar]

theorem outer_iff {c : Char} : Outer isWord c ↔ wordOrDot isWord c = false := by simp [Outer, wordOrDot]

theorem apiMatch_of_whole (hcl : Classes isWord isSpace) {cs : List Str} (hcs : Dotted isWord cs) {a w b : Str}
    (h : Spelled isSpace (Str.join py"." cs) w) (h1 : ∀ c, a.getLast? = some c → Outer isWord c)
    (h2 : ∀ c, b.head? = some c → Outer isWord c) :
    apiMatch isWord isSpace (Str.join py"." cs) (Str.prevChar none a) (w ++ b) = w.length := by
  rw [apiMatch, apiLen_of_spelled hcl hcs h b]
  simp only [prevChar_none, List.drop_left]
  rw [if_neg, if_neg]
  · cases hb : b.head? with
    | none => simp
    | some c => simp [outer_iff.1 (h2 c hb)]
  · cases ha : a.getLast? with
    | none => simp
    | some c => simp [outer_iff.1 (h1 c ha)]

theorem whole_of_apiMatch {api a w b : Str} (hw : w ≠ [])
    (e2 : apiMatch isWord isSpace api (Str.prevChar none a) (w ++ b) = w.length) :
    Whole isWord isSpace api (a ++ w ++ b) a.length (a.length + w.length) := by
  have hne0 : w.length ≠ 0 := by intro h; exact hw (List.eq_nil_of_length_eq_zero h)
  unfold apiMatch at e2
  split at e2
  · exact absurd e2.symm hne0
  · next n h =>
    obtain ⟨w', b', f1, f2, f3⟩ := apiLen_spelled h
    split at e2
    · exact absurd e2.symm hne0
    · next h2 =>
      split at e2
      · exact absurd e2.symm hne0
      · next h3 =>
        have hw : w = w' := List.append_inj_left f1 (by omega)
        subst hw
        have hdrop : (w ++ b).drop n = b := by rw [← f2, List.drop_left]
        rw [hdrop] at h3
        refine ⟨a, w, b, rfl, rfl, rfl, f3, ?_, ?_⟩
        · intro c hc
          rw [prevChar_none, hc] at h2
          rw [outer_iff]; simpa using h2
        · intro c hc
          rw [hc] at h3
          rw [outer_iff]; simpa using h3

/-! ## One round of masking -/

theorem maskOne_cases (text api : Str) (i : Nat) (x y : Char) (hx : text[i]? = some x)
    (hy : (maskOne isWord isSpace text api)[i]? = some y) : y = x ∨ y = maskChar isSpace x := by
  have := (Str.sub_spec (apiMatch_bounded isWord isSpace api) (List.map (maskChar isSpace)) text).pointwise
    i x y hx hy
  rcases this with e | ⟨e, _⟩
  · exact .inl e
  · exact .inr e

theorem maskOne_changed (text api : Str) (i : Nat) (x y : Char) (hx : text[i]? = some x)
    (hy : (maskOne isWord isSpace text api)[i]? = some y) (hne : y ≠ x) :
    ∃ s e, Whole isWord isSpace api text s e ∧ s ≤ i ∧ i < e ∧
      ∀ j, s ≤ j → j < e → (maskOne isWord isSpace text api)[j]? = text[j]?.map (maskChar isSpace) := by
  obtain ⟨a, w, b, e, hw, hm, l1, l2, l3⟩ :=
    (Str.sub_spec (apiMatch_bounded isWord isSpace api) (List.map (maskChar isSpace)) text).changed i x y hx hy hne
  exact ⟨_, _, e ▸ whole_of_apiMatch hw hm, l1, l2, l3⟩

theorem whole_ne_nil (hcl : Classes isWord isSpace) {cs : List Str} (hcs : Dotted isWord cs) {w : Str}
    (h : Spelled isSpace (Str.join py"." cs) w) : w ≠ [] := by
  obtain ⟨c, cs', rfl⟩ := List.exists_cons_of_ne_nil hcs.1
  obtain ⟨x, w', e, _⟩ := spelled_head hcl hcs h
  rw [e]; simp

theorem maskOne_covers (hcl : Classes isWord isSpace) {cs : List Str} (hcs : Dotted isWord cs) {text : Str}
    {s e : Nat} (h : Whole isWord isSpace (Str.join py"." cs) text s e) :
    (∀ j, s ≤ j → j < e → (maskOne isWord isSpace text (Str.join py"." cs))[j]? = text[j]?.map (maskChar isSpace)) ∨
    ∃ s' e', Whole isWord isSpace (Str.join py"." cs) text s' e' ∧ s' < s ∧ s < e' := by
  obtain ⟨a, w, b, e1, e2, e3, h1, h2, h3⟩ := h
  subst e2; subst e3
  rcases (Str.sub_spec (apiMatch_bounded isWord isSpace _) (List.map (maskChar isSpace)) text).covers a w b e1
    (whole_ne_nil hcl hcs h1) (apiMatch_of_whole hcl hcs h1 h2 h3) with h | ⟨a', w', b', k1, k2, k3, k4⟩
  · exact .inl h
  · right
    have hw' : w' ≠ [] := by intro hh; rw [hh] at k4; simp at k4; omega
    exact ⟨_, _, k1 ▸ whole_of_apiMatch hw' k2, k3, k4⟩

/-! ## All rounds -/

theorem maskChar_idem (hcl : Classes isWord isSpace) (c : Char) :
    maskChar isSpace (maskChar isSpace c) = maskChar isSpace c := by
  have hu := hcl.apart _ hcl.under
  unfold maskChar
  by_cases h1 : c = '\n'
  · simp [h1]
  · by_cases h2 : isSpace c = true
    · simp [h1, h2]
    · simp [h1, h2, hu]

theorem spelled_chars {api w : Str} (ha : ∀ x ∈ api, isWord x = true ∨ x = '.') (h : Spelled isSpace api w) :
    ∀ x ∈ w, isSpace x = true ∨ isWord x = true ∨ x = '.' := by
  induction h with
  | nil => simp
  | dot sp sp' api w h h' r ih =>
    intro x hx
    simp at hx
    rcases hx with hx | hx | hx | hx
    · exact .inl (h x hx)
    · exact .inr (.inr hx)
    · exact .inl (h' x hx)
    · exact ih (fun y hy => ha y (by simp [hy])) x hx
  | char c api w hc r ih =>
    intro x hx
    simp at hx
    rcases hx with hx | hx
    · exact .inr (hx ▸ ha c (by simp))
    · exact ih (fun y hy => ha y (by simp [hy])) x hx

theorem join_chars {cs : List Str} (hcs : Dotted isWord cs) : ∀ x ∈ Str.join py"." cs, isWord x = true ∨ x = '.' := by
  obtain ⟨hne, h⟩ := hcs
  induction cs with
  | nil => simp
  | cons c cs ih =>
    cases cs with
    | nil => intro x hx; exact .inl ((h c (by simp)).1 x (by simpa using hx))
    | cons d ds =>
      intro x hx
      rw [Str.join_cons_cons] at hx
      simp only [List.mem_append, List.mem_singleton] at hx
      rcases hx with (hx | hx) | hx
      · exact .inl ((h c (by simp)).1 x hx)
      · exact .inr hx
      · exact ih (by simp) (fun c hc => h c (by simp at hc ⊢; exact .inr hc)) x hx

/-- How a partly masked text relates to the code: a changed character lies in a whole occurrence, in the code, of one of the
names that were masked, and all of this occurrence is masked. -/
structure Inv (isWord isSpace : Char → Bool) (done : List (List Str)) (code text : Str) : Prop where
  len : text.length = code.length
  diff : ∀ (i : Nat) (x y : Char), code[i]? = some x → text[i]? = some y → y ≠ x →
    y = '_' ∧ ¬ Outer isWord x ∧ ∃ cs ∈ done, ∃ s e, Whole isWord isSpace (Str.join py"." cs) code s e ∧ s ≤ i ∧ i < e ∧
      ∀ j, s ≤ j → j < e → text[j]? = code[j]?.map (maskChar isSpace)

theorem Inv.refl (code : Str) : Inv isWord isSpace [] code code :=
  ⟨rfl, fun i x y hx hy hne => by rw [hx] at hy; exact absurd (Option.some.inj hy).symm hne⟩

/-- A character that is neither a word character nor a dot, in the code or in the text, is the same in both. -/
theorem Inv.outer {done : List (List Str)} {code text : Str} (hcl : Classes isWord isSpace)
    (hi : Inv isWord isSpace done code text) {i : Nat} {c : Char} (h : Outer isWord c) :
    text[i]? = some c ↔ code[i]? = some c := by
  constructor
  · intro ht
    have hl : i < code.length := by rw [← hi.len]; exact (List.getElem?_eq_some_iff.1 ht).1
    have hc := List.getElem?_eq_getElem hl
    by_cases e : c = code[i]
    · rw [hc, e]
    · have := (hi.diff i _ _ hc ht e).1
      rw [this, Outer, hcl.under] at h; simp at h
  · intro hc
    have hl : i < text.length := by rw [hi.len]; exact (List.getElem?_eq_some_iff.1 hc).1
    have ht := List.getElem?_eq_getElem hl
    by_cases e : text[i] = c
    · rw [ht, e]
    · exact absurd h (hi.diff i _ _ hc ht e).2.1

theorem Inv.boundary {done : List (List Str)} {code text : Str} (hcl : Classes isWord isSpace)
    (hi : Inv isWord isSpace done code text) {i : Nat} :
    (∀ c, text[i]? = some c → Outer isWord c) ↔ ∀ c, code[i]? = some c → Outer isWord c := by
  constructor
  · intro h c hc
    have hl : i < text.length := by rw [hi.len]; exact (List.getElem?_eq_some_iff.1 hc).1
    have ht := List.getElem?_eq_getElem hl
    have := (hi.outer hcl (h _ ht)).1 ht
    rw [hc] at this
    rw [Option.some.inj this]; exact h _ ht
  · intro h c hc
    have hl : i < code.length := by rw [← hi.len]; exact (List.getElem?_eq_some_iff.1 hc).1
    have ht := List.getElem?_eq_getElem hl
    have := (hi.outer hcl (h _ ht)).2 ht
    rw [hc] at this
    rw [Option.some.inj this]; exact h _ ht

/-- A changed character has word characters (or a dot) all around it in the text up to the end of its occurrence: a run of
word characters of the text that is cut by the end of a masked occurrence does not exist. -/
theorem Inv.run {done : List (List Str)} {code text : Str} (hcl : Classes isWord isSpace)
    (hi : Inv isWord isSpace done code text) {i k : Nat} {x y : Char} (hx : code[i]? = some x) (hy : text[i]? = some y)
    (hne : y ≠ x) (hrun : ∀ j, (i ≤ j ∧ j ≤ k ∨ k ≤ j ∧ j ≤ i) → ∃ z, text[j]? = some z ∧ ¬ Outer isWord z) :
    text[k]? = some '_' ∨ ∃ z, text[k]? = some z ∧ isSpace z = true := by
  obtain ⟨_, _, cs, _, s, e, hwh, l1, l2, hm⟩ := hi.diff i x y hx hy hne
  obtain ⟨w, _, h2, h3, _, h5, h6⟩ := whole_iff.1 hwh
  have hk : s ≤ k ∧ k < e := by
    constructor
    · apply Classical.byContradiction
      intro hlt
      obtain ⟨z, hz, ho⟩ := hrun (s - 1) (.inr (by omega))
      exact ho ((hi.boundary hcl).2 (fun c hc => h5 (s - 1) c (by omega) hc) z hz)
    · apply Classical.byContradiction
      intro hlt
      obtain ⟨z, hz, ho⟩ := hrun e (.inl (by omega))
      exact ho ((hi.boundary hcl).2 h6 z hz)
  have := hm k hk.1 hk.2
  rw [List.getElem?_eq_getElem (show k < code.length by omega)] at this
  simp only [Option.map_some, maskChar] at this
  split at this
  · right; exact ⟨_, this, hcl.newline⟩
  · split at this
    · next hs => right; exact ⟨_, this, hs⟩
    · left; exact this

/-- A whole occurrence in the partly masked text is one in the code. -/
theorem Inv.whole {done : List (List Str)} {code text : Str} (hcl : Classes isWord isSpace)
    (hi : Inv isWord isSpace done code text) {cs : List Str} (hcs : Dotted isWord cs) {s e : Nat}
    (h : Whole isWord isSpace (Str.join py"." cs) text s e) :
    (∀ j, s ≤ j → j < e → text[j]? = code[j]?) ∧ Whole isWord isSpace (Str.join py"." cs) code s e := by
  obtain ⟨w, h1, h2, h3, h4, h5, h6⟩ := whole_iff.1 h
  have hsame : ∀ j, s ≤ j → j < e → text[j]? = code[j]? := by
    intro j j1 j2
    have hlt : j < text.length := by omega
    have hlc : j < code.length := by rw [← hi.len]; omega
    have ht := List.getElem?_eq_getElem hlt
    have hc := List.getElem?_eq_getElem hlc
    by_cases e' : text[j] = code[j]
    · rw [ht, hc, e']
    · exfalso
      have hu := (hi.diff j _ _ hc ht e').1
      have hwj := h4 (j - s) (by omega)
      rw [show s + (j - s) = j by omega, ht, hu] at hwj
      obtain ⟨lo, c, hcm, k1, k2, k3, _⟩ := spelled_component hcl hcs h1 hwj.symm hcl.under
      obtain ⟨z, hz, hzu⟩ := (hcs.2 c hcm).2
      obtain ⟨k, hk, hkz⟩ := List.mem_iff_getElem.1 hz
      have hword : ∀ n, n < c.length → ∃ z, text[s + lo + n]? = some z ∧ isWord z = true := by
        intro n hn
        have e1 := k3 n hn
        have hlw : lo + n < w.length := by
          have := List.getElem?_eq_getElem hn
          rw [← e1] at this
          exact (List.getElem?_eq_some_iff.1 this).1
        have e2 := h4 (lo + n) hlw
        rw [e1, List.getElem?_eq_getElem hn, ← Nat.add_assoc] at e2
        exact ⟨_, e2, (hcs.2 c hcm).1 _ (List.getElem_mem hn)⟩
      have hrun := hi.run hcl hc ht e' (k := s + lo + k) (by
        intro m hm
        have hm2 : s + lo ≤ m ∧ m < s + lo + c.length := by omega
        obtain ⟨z, hz1, hz2⟩ := hword (m - (s + lo)) (by omega)
        rw [show s + lo + (m - (s + lo)) = m by omega] at hz1
        exact ⟨z, hz1, fun ho => by rw [ho.1] at hz2; simp at hz2⟩)
      have e1 := k3 k hk
      have hlw : lo + k < w.length := by
        have := List.getElem?_eq_getElem hk
        rw [← e1] at this
        exact (List.getElem?_eq_some_iff.1 this).1
      have e2 := h4 (lo + k) hlw
      rw [e1, List.getElem?_eq_getElem hk, ← Nat.add_assoc, hkz] at e2
      rw [e2] at hrun
      rcases hrun with hrun | ⟨z', hz', hsp⟩
      · exact hzu (Option.some.inj hrun)
      · rw [← Option.some.inj hz', hcl.apart z ((hcs.2 c hcm).1 z hz)] at hsp; simp at hsp
  refine ⟨hsame, whole_iff.2 ⟨w, h1, h2, by rw [← hi.len]; exact h3, ?_, ?_, ?_⟩⟩
  · intro j hj
    rw [← hsame _ (by omega) (by omega)]; exact h4 j hj
  · intro i c hi' hc
    exact (hi.boundary hcl (i := i)).1 (fun c hc => h5 i c hi' hc) c hc
  · exact (hi.boundary hcl).1 h6

theorem Inv.step {done : List (List Str)} {code text : Str} (hcl : Classes isWord isSpace)
    (hi : Inv isWord isSpace done code text) {cs : List Str} (hcs : Dotted isWord cs) :
    Inv isWord isSpace (done ++ [cs]) code (maskOne isWord isSpace text (Str.join py"." cs)) := by
  refine ⟨by rw [maskOne_length, hi.len], ?_⟩
  intro i x y hx hy hne
  have hlt : i < text.length := by rw [hi.len]; exact (List.getElem?_eq_some_iff.1 hx).1
  have ht := List.getElem?_eq_getElem hlt
  by_cases h1 : y = text[i]
  · rw [← h1] at ht
    obtain ⟨d1, d2, cs', d3, s, e, d4, d5, d6, d7⟩ := hi.diff i x y hx ht hne
    refine ⟨d1, d2, cs', by simp [d3], s, e, d4, d5, d6, ?_⟩
    intro j j1 j2
    have := d7 j j1 j2
    have hle : e ≤ code.length := by obtain ⟨w, _, _, h3, _⟩ := whole_iff.1 d4; exact h3
    have hj : j < text.length := by rw [hi.len]; omega
    have hj' : j < (maskOne isWord isSpace text (Str.join py"." cs)).length := by rw [maskOne_length]; exact hj
    have htj := List.getElem?_eq_getElem hj
    have htj' := List.getElem?_eq_getElem hj'
    rcases maskOne_cases text _ j _ _ htj htj' with h | h
    · rw [htj', h, ← htj]; exact this
    · rw [htj', h]
      rw [htj, List.getElem?_eq_getElem (show j < code.length by omega)] at this
      simp only [Option.map_some, Option.some.injEq] at this
      rw [this, maskChar_idem hcl, List.getElem?_eq_getElem (show j < code.length by omega)]
      rfl
  · obtain ⟨s, e, w1, w2, w3, w4⟩ := maskOne_changed text _ i _ _ ht hy h1
    obtain ⟨hsame, w5⟩ := hi.whole hcl hcs w1
    have hm : ∀ j, s ≤ j → j < e → (maskOne isWord isSpace text (Str.join py"." cs))[j]?
        = code[j]?.map (maskChar isSpace) := by
      intro j j1 j2; rw [w4 j j1 j2, hsame j j1 j2]
    have hyx := hm i w2 w3
    rw [hy, hx] at hyx
    simp only [Option.map_some, Option.some.injEq] at hyx
    have hcx : x ≠ '\n' ∧ isSpace x = false ∧ y = '_' := by
      rw [hyx] at hne ⊢
      unfold maskChar at hne ⊢
      by_cases g1 : x = '\n'
      · simp [g1] at hne
      · by_cases g2 : isSpace x = true
        · simp [g1, g2] at hne
        · simp [g1, g2]
    refine ⟨hcx.2.2, ?_, cs, by simp, s, e, w5, w2, w3, hm⟩
    obtain ⟨w, h1', h2', h3', h4', _⟩ := whole_iff.1 w5
    have := h4' (i - s) (by omega)
    rw [show s + (i - s) = i by omega, hx] at this
    have hmem := List.mem_of_getElem? this.symm
    rcases spelled_chars (join_chars hcs) h1' x hmem with h | h | h
    · rw [hcx.2.1] at h; simp at h
    · intro ho; rw [ho.1] at h; simp at h
    · intro ho; exact ho.2 h

theorem mask_concat (keep : List Str) (api code : Str) :
    mask isWord isSpace (keep ++ [api]) code = maskOne isWord isSpace (mask isWord isSpace keep code) api := by
  simp [mask]

theorem Inv.mask (hcl : Classes isWord isSpace) (keep : List (List Str)) (hk : ∀ cs ∈ keep, Dotted isWord cs)
    (code : Str) : Inv isWord isSpace keep code (mask isWord isSpace (keep.map (Str.join py".")) code) := by
  generalize hn : keep.length = n
  induction n generalizing keep with
  | zero => rw [List.eq_nil_of_length_eq_zero hn]; exact Inv.refl code
  | succ n ih =>
    rcases List.eq_nil_or_concat keep with rfl | ⟨l, x, rfl⟩
    · simp at hn
    · rw [List.concat_eq_append] at hn hk ⊢
      rw [List.map_append, List.map_singleton, mask_concat]
      exact (ih l (fun cs h => hk cs (by simp [h])) (by simpa using hn)).step hcl (hk x (by simp))

/-- **C11, all rounds.** Compared with the code, the searched text of min mode differs only inside whole occurrences of kept
APIs; a changed character becomes `_`, and is a word character or a dot. -/
theorem C11_only_kept_apis_change (hcl : Classes isWord isSpace) (keep : List (List Str))
    (hk : ∀ cs ∈ keep, Dotted isWord cs) (code : Str) (i : Nat) (x y : Char) (hx : code[i]? = some x)
    (hy : (mask isWord isSpace (keep.map (Str.join py".")) code)[i]? = some y) (hne : y ≠ x) :
    y = '_' ∧ (isWord x = true ∨ x = '.') ∧
      ∃ cs ∈ keep, ∃ s e, Whole isWord isSpace (Str.join py"." cs) code s e ∧ s ≤ i ∧ i < e := by
  obtain ⟨h1, h2, cs, h3, s, e, h4, h5, h6, _⟩ := (Inv.mask hcl keep hk code).diff i x y hx hy hne
  refine ⟨h1, ?_, cs, h3, s, e, h4, h5, h6⟩
  apply Classical.byContradiction
  intro hn
  rw [not_or] at hn
  exact h2 ⟨by simpa using hn.1, hn.2⟩

/-! ## Every occurrence of a kept API is masked -/

/-- The first component of a whole occurrence is a run of word characters. -/
theorem whole_first (hcl : Classes isWord isSpace) {c : Str} {cs : List Str} (hcs : Dotted isWord (c :: cs))
    {text : Str} {s e : Nat} (h : Whole isWord isSpace (Str.join py"." (c :: cs)) text s e) :
    (∀ j, j < c.length → text[s + j]? = c[j]?) ∧ (∀ y, text[s + c.length]? = some y → isWord y = false) := by
  obtain ⟨w, h1, h2, h3, h4, h5, h6⟩ := whole_iff.1 h
  have hdot := not_dot_of_words hcl.dot.1 (hcs.2 c (by simp)).1
  rcases spelled_join hdot h1 with ⟨_, e'⟩ | ⟨_, sp, sp', w', e', g1, g2, _⟩
  · subst e'
    exact ⟨h4, fun y hy => (h6 y (by rw [← h2]; exact hy)).1⟩
  · refine ⟨?_, ?_⟩
    · intro j hj
      rw [h4 j (by rw [e']; simp; omega), e', List.getElem?_append_left hj]
    · intro y hy
      rw [h4 c.length (by rw [e']; simp; omega), e', List.getElem?_append_right (by omega), Nat.sub_self] at hy
      cases sp with
      | nil => simp at hy; rw [← hy]; exact hcl.dot.1
      | cons z sp =>
        simp at hy
        have := g1 z (by simp)
        rw [← hy]
        cases hh : isWord z with
        | false => rfl
        | true => rw [hcl.apart z hh] at this; simp at this

theorem run_unique {text : Str} {p : Nat} {c d : Str} (hc : ∀ x ∈ c, isWord x = true) (hd : ∀ x ∈ d, isWord x = true)
    (c1 : ∀ j, j < c.length → text[p + j]? = c[j]?) (c2 : ∀ y, text[p + c.length]? = some y → isWord y = false)
    (d1 : ∀ j, j < d.length → text[p + j]? = d[j]?) (d2 : ∀ y, text[p + d.length]? = some y → isWord y = false) :
    c = d := by
  have hlen : c.length = d.length := by
    rcases Nat.lt_trichotomy c.length d.length with l | l | l
    · have := d1 _ l
      rw [List.getElem?_eq_getElem l] at this
      have h := c2 _ this
      rw [hd _ (List.getElem_mem l)] at h; simp at h
    · exact l
    · have := c1 _ l
      rw [List.getElem?_eq_getElem l] at this
      have h := d2 _ this
      rw [hc _ (List.getElem_mem l)] at h; simp at h
  apply List.ext_getElem?
  intro j
  by_cases hj : j < c.length
  · rw [← c1 j hj, d1 j (by omega)]
  · rw [List.getElem?_eq_none (by omega), List.getElem?_eq_none (by omega)]

/-- An occurrence that starts inside another one starts with a component that is not the first of the other. -/
theorem whole_overlap (hcl : Classes isWord isSpace) {cs ds : List Str} (hcs : Dotted isWord cs) (hds : Dotted isWord ds)
    {text : Str} {s e s' e' : Nat} (h : Whole isWord isSpace (Str.join py"." cs) text s e)
    (h' : Whole isWord isSpace (Str.join py"." ds) text s' e') (l1 : s < s') (l2 : s' < e) :
    ∃ c, ds.head? = some c ∧ c ∈ cs.tail := by
  obtain ⟨d, ds, rfl⟩ := List.exists_cons_of_ne_nil hds.1
  obtain ⟨g1, g2⟩ := whole_first hcl hds h'
  obtain ⟨w', _, _, _, _, b1, _⟩ := whole_iff.1 h'
  obtain ⟨w, h1, h2, h3, h4, h5, h6⟩ := whole_iff.1 h
  have hd := hds.2 d (by simp)
  have hdne : 0 < d.length := by
    obtain ⟨z, hz, _⟩ := hd.2
    exact List.length_pos_of_mem hz
  have hx := g1 0 hdne
  rw [List.getElem?_eq_getElem hdne, Nat.add_zero] at hx
  have hwx := h4 (s' - s) (by omega)
  rw [show s + (s' - s) = s' by omega, hx] at hwx
  obtain ⟨lo, c, k0, k1, k2, k3, k4, k5⟩ := spelled_component hcl hcs h1 hwx.symm (hd.1 _ (List.getElem_mem hdne))
  have hprev := h4 (s' - s - 1) (by omega)
  have hlt : s + (s' - s - 1) < text.length := by omega
  have hout := b1 (s + (s' - s - 1)) text[s + (s' - s - 1)] (by omega) (List.getElem?_eq_getElem hlt)
  rw [List.getElem?_eq_getElem hlt] at hprev
  have hlo : lo = s' - s := by
    apply Classical.byContradiction
    intro hne
    have hj : s' - s - 1 - lo < c.length := by omega
    have := k3 _ hj
    rw [show lo + (s' - s - 1 - lo) = s' - s - 1 by omega, ← hprev, List.getElem?_eq_getElem hj] at this
    have hw := (hcs.2 c k0).1 _ (List.getElem_mem hj)
    rw [← Option.some.inj this, hout.1] at hw; simp at hw
  refine ⟨d, rfl, ?_⟩
  rcases k5 with k5 | ⟨k5, _⟩
  · omega
  have hcw : lo + c.length ≤ w.length := by
    have hcl' : c.length - 1 < c.length := by omega
    have := k3 _ hcl'
    rw [List.getElem?_eq_getElem hcl'] at this
    have := (List.getElem?_eq_some_iff.1 this).1
    omega
  have : c = d := by
    refine run_unique (text := text) (p := s') (hcs.2 c k0).1 hd.1 ?_ ?_ g1 g2
    · intro j hj
      rw [← k3 j hj, ← h4 (lo + j) (by omega)]; congr 1; omega
    · intro y hy
      by_cases hl : lo + c.length < w.length
      · have := h4 _ hl
        rw [show s + (lo + c.length) = s' + c.length by omega, hy] at this
        exact k4 y this.symm
      · rw [show s' + c.length = e by omega] at hy
        exact (h6 y hy).1
  exact this ▸ k5

theorem join_no_space (hcl : Classes isWord isSpace) {cs : List Str} (hcs : Dotted isWord cs) :
    ∀ x ∈ Str.join py"." cs, isSpace x = false := by
  intro x hx
  rcases join_chars hcs x hx with h | h
  · exact hcl.apart x h
  · rw [h]; exact hcl.dot.2

/-- Of two occurrences with the same start, that of the longer name is longer. -/
theorem whole_longer (hcl : Classes isWord isSpace) {cs ds : List Str} (hcs : Dotted isWord cs) (hds : Dotted isWord ds)
    {text : Str} {s e e' : Nat} (h : Whole isWord isSpace (Str.join py"." cs) text s e)
    (h' : Whole isWord isSpace (Str.join py"." ds) text s e')
    (hl : (Str.join py"." cs).length ≤ (Str.join py"." ds).length) : e ≤ e' := by
  apply Classical.byContradiction
  intro hlt
  obtain ⟨w, h1, h2, h3, h4, h5, h6⟩ := whole_iff.1 h
  obtain ⟨w', g1, g2, g3, g4, g5, g6⟩ := whole_iff.1 h'
  have hpre : w = w' ++ w.drop w'.length := by
    apply List.ext_getElem?
    intro j
    by_cases hj : j < w'.length
    · rw [List.getElem?_append_left hj, ← g4 j hj, h4 j (by omega)]
    · rw [List.getElem?_append_right (by omega), List.getElem?_drop]; congr 1; omega
  have e1 := spelled_filter hcl.dot.2 (join_no_space hcl hcs) h1
  have e2 := spelled_filter hcl.dot.2 (join_no_space hcl hds) g1
  rw [hpre, List.filter_append, e2] at e1
  have hnil : (w.drop w'.length).filter (fun x => !isSpace x) = [] := by
    have := congrArg List.length e1
    simp only [List.length_append] at this
    exact List.eq_nil_of_length_eq_zero (by omega)
  -- the last character of a spelled name is a word character
  have hlast : ∀ (cs : List Str) (w : Str), Dotted isWord cs → Spelled isSpace (Str.join py"." cs) w →
      ∃ x, w.getLast? = some x ∧ isWord x = true := by
    intro cs
    induction cs with
    | nil => intro w h; exact absurd rfl h.1
    | cons c cs ih =>
      intro w hcs hw
      have hc := hcs.2 c (by simp)
      rcases spelled_join (not_dot_of_words hcl.dot.1 hc.1) hw with ⟨_, e'⟩ | ⟨hne, sp, sp', w', e', _, _, r⟩
      · subst e'
        obtain ⟨z, hz, _⟩ := hc.2
        have hne := List.ne_nil_of_mem hz
        exact ⟨_, List.getLast?_eq_some_getLast hne, hc.1 _ (List.getLast_mem hne)⟩
      · obtain ⟨x, hx, hx2⟩ := ih w' ⟨hne, fun d hd => hcs.2 d (by simp [hd])⟩ r
        refine ⟨x, ?_, hx2⟩
        rw [e', ← List.append_assoc, List.getLast?_append, hx]; rfl
  obtain ⟨x, hx, hxw⟩ := hlast cs w hcs h1
  have hmem : x ∈ w.drop w'.length := by
    rw [List.getLast?_eq_getElem?] at hx
    have : (w.drop w'.length)[w.length - 1 - w'.length]? = some x := by
      rw [List.getElem?_drop, ← hx]; congr 1; omega
    exact List.mem_of_getElem? this
  have := List.filter_eq_nil_iff.1 hnil x hmem
  rw [hcl.apart x hxw] at this; simp at this

/-- No first component of a kept API is a later component of one (all start with the name of a torch package). -/
def HeadsApart (keep : List (List Str)) : Prop :=
  ∀ cs ∈ keep, ∀ ds ∈ keep, ∀ c, ds.head? = some c → c ∉ cs.tail

/-- Longer names come first, as `sorted(.., key=len, reverse=True)` (converter.py:464) has them. -/
def LongerFirst (keep : List (List Str)) : Prop :=
  keep.Pairwise (fun a b => (Str.join py"." b).length ≤ (Str.join py"." a).length)

theorem mask_covers (hcl : Classes isWord isSpace) (keep : List (List Str)) (hk : ∀ cs ∈ keep, Dotted isWord cs)
    (hh : HeadsApart keep) (ho : LongerFirst keep) (code : Str) :
    ∀ cs ∈ keep, ∀ s e, Whole isWord isSpace (Str.join py"." cs) code s e → ∀ j, s ≤ j → j < e →
      (mask isWord isSpace (keep.map (Str.join py".")) code)[j]? = code[j]?.map (maskChar isSpace) := by
  generalize hn : keep.length = n
  induction n generalizing keep with
  | zero => rw [List.eq_nil_of_length_eq_zero hn]; simp
  | succ n ih =>
    rcases List.eq_nil_or_concat keep with rfl | ⟨l, x, rfl⟩
    · simp at hn
    rw [List.concat_eq_append] at hn hk hh ho ⊢
    rw [List.map_append, List.map_singleton, mask_concat]
    have hkl : ∀ cs ∈ l, Dotted isWord cs := fun cs h => hk cs (by simp [h])
    have hkx : Dotted isWord x := hk x (by simp)
    have ho' := List.pairwise_append.1 ho
    have ih := ih l hkl (fun cs h ds h' => hh cs (by simp [h]) ds (by simp [h'])) ho'.1 (by simpa using hn)
    have inv := Inv.mask hcl l hkl code
    generalize ht : mask isWord isSpace (l.map (Str.join py".")) code = text at *
    -- what is masked stays masked
    have stay : ∀ j, j < code.length → text[j]? = code[j]?.map (maskChar isSpace) →
        (maskOne isWord isSpace text (Str.join py"." x))[j]? = code[j]?.map (maskChar isSpace) := by
      intro j hj h
      have hj1 : j < text.length := by rw [inv.len]; exact hj
      have hj2 : j < (maskOne isWord isSpace text (Str.join py"." x)).length := by rw [maskOne_length]; exact hj1
      have a1 := List.getElem?_eq_getElem hj1
      have a2 := List.getElem?_eq_getElem hj2
      have a3 := List.getElem?_eq_getElem hj
      rcases maskOne_cases text _ j _ _ a1 a2 with g | g
      · rw [a2, g, ← a1, h]
      · rw [a2, g]
        rw [a1, a3] at h
        simp only [Option.map_some, Option.some.injEq] at h
        rw [h, maskChar_idem hcl, a3]; rfl
    intro cs hcs s e hw j j1 j2
    have hle : e ≤ code.length := by obtain ⟨w, _, _, h3, _⟩ := whole_iff.1 hw; exact h3
    simp only [List.mem_append, List.mem_singleton] at hcs
    rcases hcs with hcs | hcs
    · exact stay j (by omega) (ih cs hcs s e hw j j1 j2)
    · subst hcs
      by_cases hint : ∀ i, s ≤ i → i < e → text[i]? = code[i]?
      · -- intact: it is found now
        have hwt : Whole isWord isSpace (Str.join py"." cs) text s e := by
          obtain ⟨w, h1, h2, h3, h4, h5, h6⟩ := whole_iff.1 hw
          refine whole_iff.2 ⟨w, h1, h2, by rw [inv.len]; exact h3, ?_, ?_, (inv.boundary hcl).2 h6⟩
          · intro i hi; rw [hint _ (by omega) (by omega)]; exact h4 i hi
          · intro i c hi hc
            exact (inv.boundary hcl (i := i)).2 (fun c hc => h5 i c hi hc) c hc
        rcases maskOne_covers hcl hkx hwt with h | ⟨s', e', h1, h2, h3⟩
        · rw [h j j1 j2, hint j j1 j2]
        · exfalso
          obtain ⟨c, g1, g2⟩ := whole_overlap hcl hkx hkx h1 hwt h2 h3
          exact hh cs (by simp) cs (by simp) c g1 g2
      · -- some character is masked already: by an occurrence with the same start and a longer name
        simp only [Classical.not_forall] at hint
        obtain ⟨i, i1, i2, hne⟩ := hint
        have hi1 : i < code.length := by omega
        have hi2 : i < text.length := by rw [inv.len]; exact hi1
        have a1 := List.getElem?_eq_getElem hi1
        have a2 := List.getElem?_eq_getElem hi2
        obtain ⟨_, _, ds, hds, s', e', w1, w2, w3, w4⟩ := inv.diff i _ _ a1 a2 (by
          intro h; apply hne; rw [a1, a2, h])
        have hss : s' = s := by
          rcases Nat.lt_trichotomy s' s with l | l | l
          · obtain ⟨c, g1, g2⟩ := whole_overlap hcl (hkl ds hds) hkx w1 hw l (by omega)
            exact absurd g2 (hh ds (by simp [hds]) cs (by simp) c g1)
          · exact l
          · obtain ⟨c, g1, g2⟩ := whole_overlap hcl hkx (hkl ds hds) hw w1 l (by omega)
            exact absurd g2 (hh cs (by simp) ds (by simp [hds]) c g1)
        subst hss
        have hee := whole_longer hcl hkx (hkl ds hds) hw w1 (ho'.2.2 ds hds cs (by simp))
        exact stay j (by omega) (w4 j j1 (by omega))

/-! ## C62 -/

theorem usedAt_iff {p text : Str} {i : Nat} : UsedAt isWord p text i ↔
    (∀ j, j < p.length → text[i + j]? = p[j]?) ∧ text[i + p.length]? = some '.' ∧
      (∀ k c, i = k + 1 → text[k]? = some c → Outer isWord c) := by
  constructor
  · rintro ⟨a, b, rfl, rfl, h⟩
    refine ⟨?_, ?_, ?_⟩
    · intro j hj
      rw [List.append_assoc, List.append_assoc, List.getElem?_append_right (by omega),
        List.getElem?_append_left (by omega)]
      congr 1; omega
    · rw [List.append_assoc, List.append_assoc, List.getElem?_append_right (by omega),
        List.getElem?_append_right (by omega)]
      simp
    · intro k c hk hc
      apply h
      rw [List.append_assoc, List.append_assoc, List.getElem?_append_left (by omega)] at hc
      rw [List.getLast?_eq_getElem?, hk]; exact hc
  · rintro ⟨h1, h2, h3⟩
    have hl := (List.getElem?_eq_some_iff.1 h2).1
    refine ⟨text.take i, text.drop (i + p.length + 1), ?_, by simp; omega, ?_⟩
    · apply List.ext_getElem?
      intro j
      by_cases l1 : j < i
      · rw [List.append_assoc, List.append_assoc, List.getElem?_append_left (by simp; omega),
          List.getElem?_take_of_lt l1]
      · by_cases l2 : j < i + p.length
        · rw [List.append_assoc, List.append_assoc, List.getElem?_append_right (by simp; omega),
            List.getElem?_append_left (by simp; omega)]
          have := h1 (j - i) (by omega)
          rw [show i + (j - i) = j by omega] at this
          rw [this]; congr 1; simp; omega
        · rw [List.append_assoc, List.getElem?_append_right (by simp; omega)]
          by_cases l3 : j = i + p.length
          · subst l3
            rw [h2]; simp [Nat.min_eq_left (show i ≤ text.length by omega)]
          · rw [List.getElem?_append_right (by simp; omega), List.getElem?_drop]
            congr 1; simp; omega
    · intro c hc
      rw [List.getLast?_eq_getElem?, List.length_take, Nat.min_eq_left (by omega)] at hc
      cases i with
      | zero => simp at hc
      | succ k =>
        rw [Nat.add_sub_cancel, List.getElem?_take_of_lt (by omega)] at hc
        exact h3 k c rfl hc

/-- **C62, nothing is hidden.** In min mode a use of a torch package whose dot is not inside a whole kept API is still there
in the searched text. -/
theorem C62_other_uses_visible (hcl : Classes isWord isSpace) (keep : List (List Str))
    (hk : ∀ cs ∈ keep, Dotted isWord cs) (code p : Str) (hp : ∀ x ∈ p, isWord x = true) (i : Nat)
    (hu : UsedAt isWord p code i)
    (hn : ¬ ∃ cs ∈ keep, ∃ s e, Whole isWord isSpace (Str.join py"." cs) code s e ∧ s ≤ i + p.length ∧ i + p.length < e) :
    UsedAt isWord p (mask isWord isSpace (keep.map (Str.join py".")) code) i := by
  have inv := Inv.mask hcl keep hk code
  generalize mask isWord isSpace (keep.map (Str.join py".")) code = text at *
  obtain ⟨h1, h2, h3⟩ := usedAt_iff.1 hu
  have hl := (List.getElem?_eq_some_iff.1 h2).1
  -- all characters from `i` to the dot are word characters or the dot
  have hword : ∀ j, i ≤ j → j ≤ i + p.length → ∃ z, code[j]? = some z ∧ ¬ Outer isWord z := by
    intro j j1 j2
    by_cases hj : j = i + p.length
    · subst hj; exact ⟨_, h2, fun ho => ho.2 rfl⟩
    · have hlt : j - i < p.length := by omega
      have := h1 (j - i) hlt
      rw [show i + (j - i) = j by omega, List.getElem?_eq_getElem hlt] at this
      exact ⟨_, this, fun ho => by
        have := hp _ (List.getElem_mem hlt); rw [ho.1] at this; simp at this⟩
  have hsame : ∀ j, i ≤ j → j ≤ i + p.length → text[j]? = code[j]? := by
    intro j j1 j2
    have hj1 : j < code.length := by omega
    have hj2 : j < text.length := by rw [inv.len]; exact hj1
    have a1 := List.getElem?_eq_getElem hj1
    have a2 := List.getElem?_eq_getElem hj2
    by_cases e' : text[j] = code[j]
    · rw [a1, a2, e']
    · exfalso
      obtain ⟨_, _, cs, hcs, s, e, w1, w2, w3, _⟩ := inv.diff j _ _ a1 a2 e'
      apply hn
      refine ⟨cs, hcs, s, e, w1, by omega, ?_⟩
      apply Classical.byContradiction
      intro hlt
      obtain ⟨_, _, _, _, _, _, h6⟩ := whole_iff.1 w1
      obtain ⟨z, hz, ho⟩ := hword e (by omega) (by omega)
      exact ho (h6 z hz)
  refine usedAt_iff.2 ⟨?_, ?_, ?_⟩
  · intro j hj; rw [hsame _ (by omega) (by omega)]; exact h1 j hj
  · rw [hsame _ (by omega) (by omega)]; exact h2
  · intro k c hk' hc
    exact (inv.boundary hcl (i := k)).2 (fun c hc => h3 k c hk' hc) c hc

/-- **C62, only kept uses are hidden.** In min mode the uses of torch packages in the searched text are exactly the uses in the
code whose dot is not inside a whole kept API. -/
theorem C62_uses_in_min_mode (hcl : Classes isWord isSpace) (keep : List (List Str))
    (hk : ∀ cs ∈ keep, Dotted isWord cs) (hh : HeadsApart keep) (ho : LongerFirst keep)
    (code p : Str) (hp : ∀ x ∈ p, isWord x = true) (i : Nat) :
    UsedAt isWord p (mask isWord isSpace (keep.map (Str.join py".")) code) i ↔
      UsedAt isWord p code i ∧
      ¬ ∃ cs ∈ keep, ∃ s e, Whole isWord isSpace (Str.join py"." cs) code s e ∧ s ≤ i + p.length ∧ i + p.length < e := by
  constructor
  · intro hu
    have inv := Inv.mask hcl keep hk code
    have hcov := mask_covers hcl keep hk hh ho code
    generalize mask isWord isSpace (keep.map (Str.join py".")) code = text at *
    obtain ⟨h1, h2, h3⟩ := usedAt_iff.1 hu
    have hl := (List.getElem?_eq_some_iff.1 h2).1
    have hdot : '.' ≠ '_' := by decide
    have hlc : i + p.length < code.length := by rw [← inv.len]; exact hl
    have hcd : code[i + p.length]? = some '.' := by
      have a1 := List.getElem?_eq_getElem hlc
      by_cases e' : '.' = code[i + p.length]
      · rw [a1, ← e']
      · exact absurd (inv.diff _ _ _ a1 h2 e').1 hdot
    have hword : ∀ j, i ≤ j → j ≤ i + p.length → ∃ z, text[j]? = some z ∧ ¬ Outer isWord z := by
      intro j j1 j2
      by_cases hj : j = i + p.length
      · subst hj; exact ⟨_, h2, fun ho => ho.2 rfl⟩
      · have hlt : j - i < p.length := by omega
        have := h1 (j - i) hlt
        rw [show i + (j - i) = j by omega, List.getElem?_eq_getElem hlt] at this
        exact ⟨_, this, fun ho => by
          have := hp _ (List.getElem_mem hlt); rw [ho.1] at this; simp at this⟩
    have hsame : ∀ j, i ≤ j → j ≤ i + p.length → text[j]? = code[j]? := by
      intro j j1 j2
      have hj1 : j < code.length := by omega
      have hj2 : j < text.length := by omega
      have a1 := List.getElem?_eq_getElem hj1
      have a2 := List.getElem?_eq_getElem hj2
      by_cases e' : text[j] = code[j]
      · rw [a1, a2, e']
      · exfalso
        have := inv.run hcl a1 a2 e' (k := i + p.length) (fun m hm => hword m (by omega) (by omega))
        rw [h2] at this
        rcases this with h | ⟨z, hz, hs⟩
        · exact hdot (Option.some.inj h)
        · rw [← Option.some.inj hz, hcl.dot.2] at hs; simp at hs
    refine ⟨usedAt_iff.2 ⟨?_, hcd, ?_⟩, ?_⟩
    · intro j hj; rw [← hsame _ (by omega) (by omega)]; exact h1 j hj
    · intro k c hk' hc
      exact (inv.boundary hcl (i := k)).1 (fun c hc => h3 k c hk' hc) c hc
    · rintro ⟨cs, hcs, s, e, w1, w2, w3⟩
      have := hcov cs hcs s e w1 _ w2 w3
      have hnl : ('.' : Char) ≠ '\n' := by decide
      rw [h2, hcd] at this
      simp [maskChar, hcl.dot.2] at this
  · rintro ⟨hu, hn⟩
    exact C62_other_uses_visible hcl keep hk code p hp i hu hn

/-! ### Lines -/

theorem lineStart_spec (text : Str) (k : Nat) (hk : k < (Str.splitOn '\n' text).length) :
    ∃ a b, text = a ++ line (Str.splitOn '\n' text) k ++ b ∧ a.length = lineStart text k ∧
      (a = [] ∨ a.getLast? = some '\n') ∧ (b = [] ∨ b.head? = some '\n') := by
  have gen : ∀ (L : List Str) (k : Nat), k < L.length → ∃ a b, Str.join py"\n" L = a ++ line L k ++ b ∧
      a.length = ((L.take k).map (·.length + 1)).sum ∧
      (a = [] ∨ a.getLast? = some '\n') ∧ (b = [] ∨ b.head? = some '\n') := by
    intro L
    induction L with
    | nil => intro k hk; simp at hk
    | cons l L ih =>
      intro k hk
      cases k with
      | zero =>
        cases L with
        | nil => exact ⟨[], [], by simp [line], by simp, .inl rfl, .inl rfl⟩
        | cons m L =>
          refine ⟨[], '\n' :: Str.join py"\n" (m :: L), ?_, by simp, .inl rfl, .inr rfl⟩
          rw [Str.join_cons_cons]; simp [line]
      | succ k =>
        cases L with
        | nil => simp at hk
        | cons m L =>
          obtain ⟨a, b, e1, e2, e3, e4⟩ := ih k (by simpa using hk)
          refine ⟨l ++ '\n' :: a, b, ?_, ?_, ?_, e4⟩
          · rw [Str.join_cons_cons, e1]; simp [line]
          · simp [e2]; omega
          · right
            rcases e3 with e3 | e3
            · subst e3; simp
            · rw [List.getLast?_append]
              cases a with
              | nil => simp at e3
              | cons x a => rw [List.getLast?_cons_cons, e3]; rfl
  obtain ⟨a, b, e1, e2, e3, e4⟩ := gen (Str.splitOn '\n' text) k hk
  rw [Str.join_splitOn] at e1
  exact ⟨a, b, e1, e2, e3, e4⟩

/-- A line uses a package iff the text uses it at a place in the line. -/
theorem uses_line_iff (hnl : Outer isWord '\n') (text p : Str) (k : Nat) (hk : k < (Str.splitOn '\n' text).length) :
    Uses isWord p (line (Str.splitOn '\n' text) k) ↔
      ∃ i, lineStart text k ≤ i ∧ i + p.length < lineStart text k + (line (Str.splitOn '\n' text) k).length ∧
        UsedAt isWord p text i := by
  obtain ⟨a, b, e1, e2, e3, e4⟩ := lineStart_spec text k hk
  generalize hL : line (Str.splitOn '\n' text) k = L at *
  have hget : ∀ j, j < L.length → text[lineStart text k + j]? = L[j]? := by
    intro j hj
    rw [← e2]
    conv => lhs; rw [e1]
    rw [Str.getElem?_mid ⟨by omega, by omega⟩]; congr 1; omega
  have hU : Uses isWord p L ↔ ∃ i, UsedAt isWord p L i := by
    constructor
    · rintro (⟨b, e⟩ | ⟨u, c, b, e, h1, h2⟩)
      · exact ⟨0, [], b, by simpa using e, rfl, by simp⟩
      · exact ⟨u.length + 1, u ++ [c], b, by rw [e], by simp, by intro d hd; simp at hd; exact hd ▸ ⟨h1, h2⟩⟩
    · rintro ⟨i, u, b, e, _, h⟩
      rcases List.eq_nil_or_concat u with rfl | ⟨u', c, rfl⟩
      · exact .inl ⟨b, by simpa using e⟩
      · rw [List.concat_eq_append] at e h
        have := h c (by simp)
        exact .inr ⟨u', c, b, by rw [e], this.1, this.2⟩
  rw [hU]
  constructor
  · rintro ⟨i, hu⟩
    obtain ⟨h1, h2, h3⟩ := usedAt_iff.1 hu
    have hl := (List.getElem?_eq_some_iff.1 h2).1
    refine ⟨lineStart text k + i, by omega, by omega, usedAt_iff.2 ⟨?_, ?_, ?_⟩⟩
    · intro j hj; rw [Nat.add_assoc, hget _ (by omega)]; exact h1 j hj
    · rw [Nat.add_assoc, hget _ (by omega)]; exact h2
    · intro m c hm hc
      cases i with
      | zero =>
        have hne : a ≠ [] := by intro h; rw [h] at e2; simp at e2; omega
        have hla := e3.resolve_left hne
        rw [List.getLast?_eq_getElem?, show a.length - 1 = m by omega] at hla
        rw [e1, List.append_assoc, List.getElem?_append_left (by omega), hla] at hc
        exact Option.some.inj hc ▸ hnl
      | succ i =>
        have : m = lineStart text k + i := by omega
        rw [this, hget _ (by omega)] at hc
        exact h3 i c rfl hc
  · rintro ⟨i, l1, l2, hu⟩
    obtain ⟨h1, h2, h3⟩ := usedAt_iff.1 hu
    refine ⟨i - lineStart text k, usedAt_iff.2 ⟨?_, ?_, ?_⟩⟩
    · intro j hj
      rw [← hget _ (by omega), ← h1 j hj]; congr 1; omega
    · rw [← hget _ (by omega), ← h2]; congr 1; omega
    · intro m c hm hc
      rw [← hget _ (by omega)] at hc
      exact h3 _ c (by omega) hc

theorem lineStart_mask (keep : List Str) (code : Str) (k : Nat) :
    lineStart (mask isWord isSpace keep code) k = lineStart code k ∧
    (line (Str.splitOn '\n' (mask isWord isSpace keep code)) k).length = (line (Str.splitOn '\n' code) k).length := by
  have h := (C11_mask_keeps_layout isWord isSpace .min keep code).2.2
  simp only [scanText, if_true] at h
  constructor
  · have : ∀ L : List Str, ((L.take k).map (·.length + 1)).sum = (((L.map List.length).take k).map (· + 1)).sum := by
      intro L; rw [← List.map_take, List.map_map]; rfl
    unfold lineStart
    rw [this, this, h]
  · have : ∀ L : List Str, (line L k).length = (L.map List.length).getD k 0 := by
      intro L
      unfold line
      rw [List.getD_eq_getElem?_getD, List.getD_eq_getElem?_getD, List.getElem?_map]
      cases L[k]? <;> rfl
    rw [this, this, h]

theorem line_getElem (text : Str) (k : Nat) (hk : k < (Str.splitOn '\n' text).length) (j : Nat)
    (hj : j < (line (Str.splitOn '\n' text) k).length) :
    text[lineStart text k + j]? = (line (Str.splitOn '\n' text) k)[j]? := by
  obtain ⟨a, b, e1, e2, _⟩ := lineStart_spec text k hk
  generalize line (Str.splitOn '\n' text) k = L at *
  rw [← e2]
  conv => lhs; rw [e1]
  rw [Str.getElem?_mid ⟨by omega, by omega⟩]; congr 1; omega

/-- The characters of a line of the searched text. -/
theorem mask_line_chars (hcl : Classes isWord isSpace) (keep : List (List Str)) (hk : ∀ cs ∈ keep, Dotted isWord cs)
    (code : Str) (k : Nat) (hlt : k < (Str.splitOn '\n' code).length) (j : Nat) (y : Char)
    (hy : (line (Str.splitOn '\n' (mask isWord isSpace (keep.map (Str.join py".")) code)) k)[j]? = some y) :
    ∃ x, (line (Str.splitOn '\n' code) k)[j]? = some x ∧ (y = x ∨ y = '_' ∧ isSpace x = false) := by
  have inv := Inv.mask hcl keep hk code
  obtain ⟨hls, hll⟩ := lineStart_mask (isWord := isWord) (isSpace := isSpace) (keep.map (Str.join py".")) code k
  have hlen : k < (Str.splitOn '\n' (mask isWord isSpace (keep.map (Str.join py".")) code)).length := by
    have h := congrArg List.length (C11_mask_keeps_layout isWord isSpace .min (keep.map (Str.join py".")) code).2.2
    simp only [scanText, if_true, List.length_map] at h
    omega
  have hj := (List.getElem?_eq_some_iff.1 hy).1
  rw [← line_getElem _ k hlen j hj, hls] at hy
  have hj' : j < (line (Str.splitOn '\n' code) k).length := by omega
  have hx := line_getElem code k hlt j hj'
  rw [List.getElem?_eq_getElem hj'] at hx ⊢
  refine ⟨_, rfl, ?_⟩
  by_cases e : y = (line (Str.splitOn '\n' code) k)[j]
  · exact .inl e
  · obtain ⟨h1, h2, _⟩ := inv.diff _ _ _ hx hy e
    refine .inr ⟨h1, ?_⟩
    cases hs : isSpace (line (Str.splitOn '\n' code) k)[j] with
    | false => rfl
    | true =>
      exfalso
      apply h2
      constructor
      · cases hw : isWord (line (Str.splitOn '\n' code) k)[j] with
        | false => rfl
        | true => rw [hcl.apart _ hw] at hs; simp at hs
      · intro hd; rw [hd, hcl.dot.2] at hs; simp at hs

/-- What the search takes for an import statement is one. -/
theorem importLine_of_mask (hcl : Classes isWord isSpace) {l l' : Str}
    (hch : ∀ (j : Nat) (y : Char), l'[j]? = some y → ∃ x, l[j]? = some x ∧ (y = x ∨ y = '_' ∧ isSpace x = false))
    (h : ImportLine isSpace l') : ImportLine isSpace l := by
  have hus : isSpace '_' = false := hcl.apart _ hcl.under
  obtain ⟨a, b, ha, hab, c, hc, hcs⟩ := h
  have key : ∀ w : Str, '_' ∉ w → l' = a ++ w ++ b → l = a ++ w ++ l.drop (a ++ w).length := by
    intro w hw e
    apply List.ext_getElem?
    intro j
    by_cases hj : j < (a ++ w).length
    · rw [List.getElem?_append_left hj]
      have h1 : l'[j]? = (a ++ w)[j]? := by rw [e, List.getElem?_append_left hj]
      rw [List.getElem?_eq_getElem hj] at h1 ⊢
      obtain ⟨x, hx, hxy⟩ := hch j _ h1
      have hmem := List.getElem_mem hj
      rcases hxy with hxy | ⟨hxy, _⟩
      · rw [hx, hxy]
      · exfalso
        rw [hxy] at hmem
        rcases List.mem_append.1 hmem with hm | hm
        · rw [ha _ hm] at hus; simp at hus
        · exact hw hm
    · rw [List.getElem?_append_right (by omega), List.getElem?_drop]; congr 1; omega
  have hb : ∀ w : Str, l' = a ++ w ++ b → ∃ c ∈ l.drop (a ++ w).length, isSpace c = false := by
    intro w e
    obtain ⟨n, hn, hnc⟩ := List.mem_iff_getElem.1 hc
    have h1 : l'[(a ++ w).length + n]? = some c := by
      rw [e, List.getElem?_append_right (by omega), Nat.add_sub_cancel_left, List.getElem?_eq_getElem hn, hnc]
    obtain ⟨x, hx, hxy⟩ := hch _ _ h1
    refine ⟨x, List.mem_of_getElem? (i := n) (by rw [List.getElem?_drop]; exact hx), ?_⟩
    rcases hxy with hxy | ⟨_, hxy⟩
    · exact hxy ▸ hcs
    · exact hxy
  rcases hab with e | e
  · exact ⟨a, _, ha, .inl (key _ (by decide) e), hb _ e⟩
  · exact ⟨a, _, ha, .inr (key _ (by decide) e), hb _ e⟩

/-- **C62.** Min mode: a line without quotes that is outside of `"""` blocks, neither a note nor marked by one and not an
import statement, is marked iff it uses an imported torch package at a place that is not part of a kept API. -/
theorem C62_min_marks (hcl : Classes isWord isSpace) (hnl : isWord '\n' = false) (hs : Spaces isSpace)
    (keep : List (List Str)) (hk : ∀ cs ∈ keep, Dotted isWord cs) (hh : HeadsApart keep) (ho : LongerFirst keep)
    (pkgs : List Str) (hp : ∀ p ∈ pkgs, ∀ x ∈ p, isWord x = true) (code : Str) (k : Nat)
    (hlt : k < (Str.splitOn '\n' code).length)
    (hq : '"' ∉ line (Str.splitOn '\n' code) k) (hq' : '\'' ∉ line (Str.splitOn '\n' code) k)
    (hn : ¬ Note (line (Str.splitOn '\n' code) k)) (hbn : ¬ ByNote (Str.splitOn '\n' code) k)
    (hi : ¬ ImportLine isSpace (line (Str.splitOn '\n' code) k))
    (hin : ¬ Inside (Str.splitOn '\n' code)
      (Str.splitOn '\n' (scanText isWord isSpace .min (keep.map (Str.join py".")) code)) k) :
    IsMarked isWord isSpace .min pkgs (keep.map (Str.join py".")) code k ↔
      ∃ p ∈ pkgs, ∃ i, lineStart code k ≤ i ∧ i + p.length < lineStart code k + (line (Str.splitOn '\n' code) k).length ∧
        UsedAt isWord p code i ∧
        ¬ ∃ cs ∈ keep, ∃ s e, Whole isWord isSpace (Str.join py"." cs) code s e ∧ s ≤ i + p.length ∧ i + p.length < e := by
  rw [C09_marks_exactly isWord isSpace hs .min pkgs _ code k hlt]
  have hch := mask_line_chars hcl keep hk code k hlt
  obtain ⟨hls, hll⟩ := lineStart_mask (isWord := isWord) (isSpace := isSpace) (keep.map (Str.join py".")) code k
  have hlt' : k < (Str.splitOn '\n' (mask isWord isSpace (keep.map (Str.join py".")) code)).length := by
    have h := congrArg List.length (C11_mask_keeps_layout isWord isSpace .min (keep.map (Str.join py".")) code).2.2
    simp only [scanText, if_true, List.length_map] at h
    omega
  have hsc : scanText isWord isSpace .min (keep.map (Str.join py".")) code
      = mask isWord isSpace (keep.map (Str.join py".")) code := by simp [scanText]
  rw [hsc] at hin ⊢
  have hline := uses_line_iff (isWord := isWord) ⟨hnl, by decide⟩ (mask isWord isSpace (keep.map (Str.join py".")) code)
  have hnq : ∀ q : Char, q ≠ '_' → q ∉ line (Str.splitOn '\n' code) k →
      q ∉ line (Str.splitOn '\n' (mask isWord isSpace (keep.map (Str.join py".")) code)) k := by
    intro q hqu hql hm
    obtain ⟨n, hn, hnc⟩ := List.mem_iff_getElem.1 hm
    obtain ⟨x, hx, hxy⟩ := hch n q (by rw [List.getElem?_eq_getElem hn, hnc])
    rcases hxy with h | ⟨h, _⟩
    · exact hql (h ▸ List.mem_of_getElem? hx)
    · exact hqu h
  have hq1 := hnq '"' (by decide) hq
  have hq2 := hnq '\'' (by decide) hq'
  have hb := bare_self hq1 hq2
  constructor
  · rintro (h | ⟨_, _, _, t, ht, _, p, hpp, hu⟩)
    · exact absurd h hbn
    · rw [bare_iff] at ht
      rw [← bare_iff.1 hb] at ht
      subst ht
      obtain ⟨i, i1, i2, i3⟩ := (hline p k hlt').1 hu
      rw [hls] at i1 i2
      rw [hll] at i2
      have := (C62_uses_in_min_mode hcl keep hk hh ho code p (hp p hpp) i).1 i3
      exact ⟨p, hpp, i, i1, i2, this⟩
  · rintro ⟨p, hpp, i, i1, i2, i3⟩
    right
    have hu := (hline p k hlt').2 ⟨i, by omega, by omega,
      (C62_uses_in_min_mode hcl keep hk hh ho code p (hp p hpp) i).2 i3⟩
    refine ⟨⟨hn, hbn⟩, hin, ?_, _, hb, ?_, p, hpp, hu⟩
    · simp only [Inside, Classical.not_not]
      have : ¬ Flips (Str.splitOn '\n' code)
          (Str.splitOn '\n' (mask isWord isSpace (keep.map (Str.join py".")) code)) k := by
        rintro ⟨_, t, ht, hc⟩
        have e := bare_iff.1 ht
        rw [← bare_iff.1 hb] at e
        subst e
        have h0 := countGo_zero_of_not_mem (p := ['"', '"']) (k := 0) hq1
        simp only [Str.count] at hc
        rw [h0] at hc
        simp at hc
      simp [this, hin]
    · rintro ⟨_, himp⟩
      exact hi (importLine_of_mask hcl hch himp)

/-- The character classes of ASCII texts. -/
def asciiSpace (c : Char) : Bool := c = ' ' || c = '\n' || c = '\t' || c = '\r'

theorem ascii_classes : Classes asciiWord asciiSpace := by
  refine ⟨?_, by decide, by decide, by decide⟩
  intro c hc
  cases h : asciiSpace c with
  | false => rfl
  | true =>
    exfalso
    simp only [asciiSpace, Bool.or_eq_true, decide_eq_true_eq] at h
    rcases h with ((h | h) | h) | h <;> subst h <;> exact absurd hc (by decide)

/-- The hypotheses are met by real APIs, longest first. -/
example : (∀ cs ∈ [[py"torch", py"nn", py"functional", py"relu"], [py"torch", py"nn", py"Linear"]], Dotted asciiWord cs) ∧
    HeadsApart [[py"torch", py"nn", py"functional", py"relu"], [py"torch", py"nn", py"Linear"]] ∧
    LongerFirst [[py"torch", py"nn", py"functional", py"relu"], [py"torch", py"nn", py"Linear"]] := by
  refine ⟨?_, ?_, ?_⟩
  · intro cs hcs
    simp only [List.mem_cons, List.not_mem_nil, or_false] at hcs
    rcases hcs with rfl | rfl <;> exact ⟨by simp, by decide⟩
  · intro cs hcs ds hds c hc
    simp only [List.mem_cons, List.not_mem_nil, or_false] at hcs hds
    rcases hds with rfl | rfl <;> (simp at hc; subst hc; rcases hcs with rfl | rfl <;> decide)
  · simp [LongerFirst]; decide

/-- A kept use and a leftover use on one line: the line is marked because of the second; the next line is not. -/
example : markUnsupport asciiWord asciiSpace .min [py"torch"] [py"torch.nn.Linear"]
    py"f(torch.nn.Linear, torch.nn.LinearX)\ng(torch.nn . Linear)"
    = some py">>>>>>f(torch.nn.Linear, torch.nn.LinearX)\ng(torch.nn . Linear)" := by decide

/-- Without the order by length a kept API may be reported: the shorter name is masked first and cuts the longer one. -/
theorem C62_order_matters : ∃ code : Str,
    markUnsupport asciiWord asciiSpace .min [py"a", py"b"] [py"x.a", py"x.a.b.c"] code ≠
    markUnsupport asciiWord asciiSpace .min [py"a", py"b"] [py"x.a.b.c", py"x.a"] code :=
  ⟨py"x.a . b.c", by decide⟩

end Verif.Mark

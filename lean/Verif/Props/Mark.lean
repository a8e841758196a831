import Verif.Lemmas.Mark

/-!
# C07-C10, C12: marking of unsupported lines
-/

namespace Verif.Mark
open Verif Spec

/-- The text that is searched for torch uses (converter.py:485-487). -/
def scanText (isWord isSpace : Char → Bool) (mode : Mode) (keep : List Str) (code : Str) : Str :=
  if mode = .min then mask isWord isSpace keep code else code

/-! ## Lemmas -/

theorem maskChar_newline {isSpace : Char → Bool} {c : Char} : maskChar isSpace c = '\n' ↔ c = '\n' := by
  unfold maskChar
  split
  · next h => simp [h]
  · split
    · simp
    · next h _ => simp [h]

theorem apiLen_le (isSpace : Char → Bool) (api s : Str) (n : Nat) (h : apiLen isSpace api s = some n) :
    n ≤ s.length := by
  induction api generalizing s n with
  | nil => simp [apiLen] at h; omega
  | cons c api ih =>
    simp only [apiLen] at h
    split at h
    · split at h
      · simp at h
      · next x r hd =>
        split at h
        · rw [Option.map_eq_some_iff] at h
          obtain ⟨m, hm, e⟩ := h
          have h1 := ih _ _ hm
          have h2 := congrArg List.length hd
          have h3 := (List.takeWhile_sublist isSpace (l := r)).length_le
          simp at h1 h2
          omega
        · simp at h
    · split at h
      · simp at h
      · split at h
        · rw [Option.map_eq_some_iff] at h
          obtain ⟨m, hm, e⟩ := h
          have := ih _ _ hm
          simp; omega
        · simp at h

theorem apiMatch_bounded (isWord isSpace : Char → Bool) (api : Str) :
    Str.Bounded (apiMatch isWord isSpace api) := by
  intro p s
  unfold apiMatch
  split
  · omega
  · next n h =>
    split
    · omega
    · split
      · omega
      · exact apiLen_le _ _ _ _ h

theorem maskOne_length (isWord isSpace : Char → Bool) (text api : Str) :
    (maskOne isWord isSpace text api).length = text.length :=
  (Str.sub_spec (apiMatch_bounded isWord isSpace api) _ text).length_eq (by simp)

theorem maskOne_newline (isWord isSpace : Char → Bool) (text api : Str) (i : Nat) :
    (maskOne isWord isSpace text api)[i]? = some '\n' ↔ text[i]? = some '\n' := by
  have hp := (Str.sub_spec (apiMatch_bounded isWord isSpace api) (List.map (maskChar isSpace)) text).pointwise i
  have hl := maskOne_length isWord isSpace text api
  by_cases h : i < text.length
  · have h' : i < (maskOne isWord isSpace text api).length := by omega
    have := hp _ _ (List.getElem?_eq_getElem h) (List.getElem?_eq_getElem h')
    rw [List.getElem?_eq_getElem h, List.getElem?_eq_getElem h']
    simp only [Option.some.injEq]
    rcases this with e | ⟨e, _⟩
    · change (maskOne isWord isSpace text api)[i] = text[i] at e; rw [e]
    · change (maskOne isWord isSpace text api)[i] = _ at e; rw [e, maskChar_newline]
  · rw [List.getElem?_eq_none (by omega), List.getElem?_eq_none (by omega)]

/-- Two texts of the same length with newlines at the same places have line lists of the same shape. -/
theorem splitOn_shape {c : Char} {s t : Str} (hl : s.length = t.length)
    (h : ∀ i : Nat, s[i]? = some c ↔ t[i]? = some c) :
    (Str.splitOn c s).map List.length = (Str.splitOn c t).map List.length := by
  induction s generalizing t with
  | nil =>
    cases t with
    | nil => rfl
    | cons y t => simp at hl
  | cons x s ih =>
    cases t with
    | nil => simp at hl
    | cons y t =>
      have h0 := h 0
      simp at h0
      have hrec := ih (t := t) (by simpa using hl) (fun i => by simpa using h (i + 1))
      simp only [Str.splitOn]
      by_cases hx : x = c
      · have hy : y = c := h0.1 hx
        simp [hx, hy, hrec]
      · have hy : y ≠ c := fun e => hx (h0.2 e)
        simp only [if_neg hx, if_neg hy]
        split
        · next e => exact absurd e (Str.splitOn_ne_nil _ _)
        · next p ps e =>
          split
          · next e2 => exact absurd e2 (Str.splitOn_ne_nil _ _)
          · next q qs e2 =>
            rw [e, e2] at hrec
            simp at hrec ⊢
            exact hrec

/-! ## C11 -/

/-- **C11 (layout).** The text that is searched has the length of the code and its newlines at the same
places, and its lines correspond one to one, each of the same length; in both modes, for every list of kept
APIs. -/
theorem C11_mask_keeps_layout (isWord isSpace : Char → Bool) (mode : Mode) (keep : List Str) (code : Str) :
    (scanText isWord isSpace mode keep code).length = code.length ∧
    (∀ i : Nat, (scanText isWord isSpace mode keep code)[i]? = some '\n' ↔ code[i]? = some '\n') ∧
    (Str.splitOn '\n' (scanText isWord isSpace mode keep code)).map List.length
      = (Str.splitOn '\n' code).map List.length := by
  have key : ∀ (keep : List Str) (text : Str), (mask isWord isSpace keep text).length = text.length ∧
      ∀ i : Nat, (mask isWord isSpace keep text)[i]? = some '\n' ↔ text[i]? = some '\n' := by
    intro keep
    induction keep with
    | nil => intro text; simp [mask]
    | cons a keep ih =>
      intro text
      have := ih (maskOne isWord isSpace text a)
      simp only [mask, List.foldl_cons] at this ⊢
      refine ⟨by rw [this.1, maskOne_length], fun i => ?_⟩
      rw [this.2, maskOne_newline]
  have h2 : (scanText isWord isSpace mode keep code).length = code.length ∧
      ∀ i : Nat, (scanText isWord isSpace mode keep code)[i]? = some '\n' ↔ code[i]? = some '\n' := by
    unfold scanText
    split
    · exact key keep code
    · simp
  exact ⟨h2.1, h2.2, splitOn_shape h2.1 h2.2⟩

theorem apiLen_spelled {isSpace : Char → Bool} {api s : Str} {n : Nat}
    (h : apiLen isSpace api s = some n) : ∃ w b, s = w ++ b ∧ w.length = n ∧ Spelled isSpace api w := by
  induction api generalizing s n with
  | nil => simp [apiLen] at h; exact ⟨[], s, rfl, by simpa using h, .nil⟩
  | cons c api ih =>
    simp only [apiLen] at h
    split at h
    · next hc =>
      subst hc
      split at h
      · simp at h
      · next x r hd =>
        split at h
        · next hx =>
          subst hx
          rw [Option.map_eq_some_iff] at h
          obtain ⟨m, hm, e⟩ := h
          obtain ⟨w, b, e1, e2, e3⟩ := ih hm
          have hs : s = s.takeWhile isSpace ++ '.' :: (r.takeWhile isSpace ++ (w ++ b)) := by
            rw [← e1]
            have h1 : r = r.takeWhile isSpace ++ r.drop (r.takeWhile isSpace).length := by
              conv => lhs; rw [← List.takeWhile_append_dropWhile (p := isSpace) (l := r)]
              congr 1
              have := List.drop_left (l₁ := r.takeWhile isSpace) (l₂ := r.dropWhile isSpace)
              rw [List.takeWhile_append_dropWhile] at this
              exact this.symm
            rw [← h1, ← hd]
            conv => lhs; rw [← List.takeWhile_append_dropWhile (p := isSpace) (l := s)]
            congr 1
            have := List.drop_left (l₁ := s.takeWhile isSpace) (l₂ := s.dropWhile isSpace)
            rw [List.takeWhile_append_dropWhile] at this
            exact this.symm
          have sp : ∀ (l : Str), ∀ c ∈ l.takeWhile isSpace, isSpace c = true := by
            intro l c hc
            have := List.all_takeWhile (l := l) (p := isSpace)
            rw [List.all_eq_true] at this
            exact this c hc
          refine ⟨s.takeWhile isSpace ++ '.' :: r.takeWhile isSpace ++ w, b, ?_, ?_, ?_⟩
          · conv => lhs; rw [hs]
            simp
          · rw [← e, ← e2]; simp; omega
          · exact .dot _ _ _ _ (sp s) (sp r) e3
        · simp at h
    · next hc =>
      split at h
      · simp at h
      · next x r =>
        split at h
        · next hx =>
          subst hx
          rw [Option.map_eq_some_iff] at h
          obtain ⟨m, hm, e⟩ := h
          obtain ⟨w, b, e1, e2, e3⟩ := ih hm
          exact ⟨x :: w, b, by simp [e1], by simp [e2]; omega, .char _ _ _ hc e3⟩
        · simp at h

/-- **C11 (only kept APIs change).** Masking one kept API replaces a character at position `i` only if `i`
lies inside a whole occurrence of that API (white space allowed around dots, not preceded or followed by a
word character or a dot); the character becomes `_`, and white space never changes. -/
theorem C11_mask_changes_only_kept_apis (isWord isSpace : Char → Bool) (text api : Str) (i : Nat) (x y : Char)
    (hx : text[i]? = some x) (hy : (maskOne isWord isSpace text api)[i]? = some y) (hne : y ≠ x) :
    y = '_' ∧ isSpace x = false ∧ ∃ a w b, text = a ++ w ++ b ∧ Spelled isSpace api w ∧
      a.length ≤ i ∧ i < a.length + w.length ∧
      (∀ c, a.getLast? = some c → isWord c = false ∧ c ≠ '.') ∧
      (∀ c, b.head? = some c → isWord c = false ∧ c ≠ '.') := by
  have hp := (Str.sub_spec (apiMatch_bounded isWord isSpace api) (List.map (maskChar isSpace)) text).pointwise
    i x y hx hy
  rcases hp with e | ⟨e, a, w, b, e1, e2, l1, l2⟩
  · exact absurd e hne
  · have hy2 : y = '_' ∧ isSpace x = false := by
      rw [e] at hne ⊢
      unfold maskChar at hne ⊢
      split at hne
      · next h => exact absurd h.symm hne
      · next h1 =>
        split at hne
        · exact absurd rfl hne
        · next h2 => simp [h1, h2]
    refine ⟨hy2.1, hy2.2, a, w, b, e1, ?_⟩
    have hne0 : apiMatch isWord isSpace api (Str.prevChar none a) (w ++ b) ≠ 0 := by
      rw [e2]; omega
    unfold apiMatch at e2 hne0
    split at e2
    · next h => simp [h] at hne0
    · next n h =>
      obtain ⟨w', b', f1, f2, f3⟩ := apiLen_spelled h
      simp only [h] at hne0
      split at e2
      · next h2 => simp [h2] at hne0
      · next h2 =>
        split at e2
        · next h3 => rw [if_neg h2, if_pos h3] at hne0; exact absurd rfl hne0
        · next h3 =>
          have hw : w = w' := List.append_inj_left f1 (by omega)
          subst hw
          have hb : b = b' := List.append_cancel_left f1
          subst hb
          have hdrop : (w ++ b).drop n = b := by rw [← f2, List.drop_left]
          rw [hdrop] at h3
          refine ⟨f3, l1, l2, ?_, ?_⟩
          · intro c hc
            simp [Str.prevChar, hc, wordOrDot] at h2
            exact h2
          · intro c hc
            simp [hc, wordOrDot] at h3
            exact h3

/-- Whole occurrences are masked, also across white space; longer names are not. -/
example : maskOne asciiWord Char.isWhitespace
    py"a=torch. nn\n.Linear(torch.nn.LinearX)" py"torch.nn.Linear"
    = py"a=______ __\n_______(torch.nn.LinearX)" := by decide

/-! ## The marks, exactly -/

theorem markUnsupport_eq (isWord isSpace : Char → Bool) (mode : Mode) (pkgs keep : List Str) (code : Str) :
    ∃ out : List Str, markUnsupport isWord isSpace mode pkgs keep code = some (Str.join py"\n" out) ∧
      out.length = (Str.splitOn '\n' code).length ∧
      ∀ k, k < out.length →
        ((ByNote (Str.splitOn '\n' code) k ∨ ByUse isWord (Skip isSpace mode) pkgs (Str.splitOn '\n' code)
            (Str.splitOn '\n' (scanText isWord isSpace mode keep code)) k) →
          line out k = marked (line (Str.splitOn '\n' code) k)) ∧
        (¬ (ByNote (Str.splitOn '\n' code) k ∨ ByUse isWord (Skip isSpace mode) pkgs (Str.splitOn '\n' code)
            (Str.splitOn '\n' (scanText isWord isSpace mode keep code)) k) →
          line out k = line (Str.splitOn '\n' code) k) := by
  have hsh := (C11_mask_keeps_layout isWord isSpace mode keep code).2.2
  have hlen : (Str.splitOn '\n' code).length
      = (Str.splitOn '\n' (scanText isWord isSpace mode keep code)).length := by
    have := congrArg List.length hsh
    simpa using this.symm
  obtain ⟨out, h1, h2, h3⟩ := markGo_spec isWord isSpace mode pkgs (Str.splitOn '\n' code)
    (Str.splitOn '\n' (scanText isWord isSpace mode keep code))
    (fun s hs => Str.not_mem_of_mem_splitOn hs) 0 false false _ _ (by simp) (by simp) hlen
    (by simp [pending_zero]) (by simp [Inside])
  refine ⟨out, ?_, h2, ?_⟩
  · simp only [markUnsupport]
    unfold scanText at h1
    rw [h1]; rfl
  · intro k hk
    have := h3 k (by omega)
    simpa using this

/-- **C07.** Marking never fails; the result has as many lines as the code, line `k` of it is line `k` of the
code or `>>>>>>` followed by it, and so removing those prefixes gives the code back. -/
theorem C07_marking_keeps_code (isWord isSpace : Char → Bool) (mode : Mode) (pkgs keep : List Str)
    (code : Str) :
    ∃ (res : Str) (lines : List Str) (marks : List Bool),
      markUnsupport isWord isSpace mode pkgs keep code = some res ∧
      code = Str.join py"\n" lines ∧ (∀ l ∈ lines, '\n' ∉ l) ∧ marks.length = lines.length ∧
      Str.splitOn '\n' res = List.zipWith (fun m l => if m then py">>>>>>" ++ l else l) marks lines := by
  obtain ⟨out, h1, h2, h3⟩ := markUnsupport_eq isWord isSpace mode pkgs keep code
  generalize hL : Str.splitOn '\n' code = L at *
  have hLnl : ∀ l ∈ L, '\n' ∉ l := fun l hl => Str.not_mem_of_mem_splitOn (hL ▸ hl)
  have hne : L ≠ [] := hL ▸ Str.splitOn_ne_nil _ _
  have hcases : ∀ k, k < out.length → ∃ m : Bool, line out k = if m then py">>>>>>" ++ line L k else line L k := by
    intro k hk
    by_cases hm : ByNote L k ∨ ByUse isWord (Skip isSpace mode) pkgs L
        (Str.splitOn '\n' (scanText isWord isSpace mode keep code)) k
    · exact ⟨true, by simpa [marked] using (h3 k hk).1 hm⟩
    · exact ⟨false, by simpa using (h3 k hk).2 hm⟩
  have hex : ∃ marks : List Bool, marks.length = L.length ∧
      out = List.zipWith (fun m l => if m then py">>>>>>" ++ l else l) marks L := by
    clear h1 h3 hL hLnl hne
    induction L generalizing out with
    | nil => exact ⟨[], rfl, by simpa using h2⟩
    | cons l L ih =>
      cases out with
      | nil => simp at h2
      | cons o out =>
        obtain ⟨marks, e1, e2⟩ := ih out (by simpa using h2)
          (fun k hk => by simpa [line] using hcases (k + 1) (by simpa using hk))
        obtain ⟨m, hm⟩ := hcases 0 (by simp)
        exact ⟨m :: marks, by simp [e1], by
          simp [line] at hm
          simp [e2, hm]⟩
  obtain ⟨marks, e1, e2⟩ := hex
  refine ⟨_, L, marks, h1, ?_, hLnl, e1, ?_⟩
  · rw [← hL, Str.join_splitOn]
  · rw [Str.splitOn_join, e2]
    · intro e; rw [e] at h2; exact hne (List.eq_nil_of_length_eq_zero h2.symm)
    · intro p hp
      rw [e2] at hp
      obtain ⟨k, hk, e⟩ := List.mem_iff_getElem.1 hp
      rw [List.getElem_zipWith] at e
      have hk2 : k < L.length := by
        simp at hk; omega
      have hl := hLnl _ (List.getElem_mem hk2)
      rw [← e]
      split
      · simp; exact hl
      · exact hl

/-- A note marks the next line, a leftover use marks its own line, quoted and unrelated names do not. -/
example : markUnsupport asciiWord Char.isWhitespace .default [py"torch"] []
      py"# Not Support auto convert a\nx.a()\ny = torch.b(1)\nprint('torch.c')\nmytorch.d()"
    = some py"# Not Support auto convert a\n>>>>>>x.a()\n>>>>>>y = torch.b(1)\nprint('torch.c')\nmytorch.d()" := by
  decide

/-- The result line `k` carries a mark. -/
def IsMarked (isWord isSpace : Char → Bool) (mode : Mode) (pkgs keep : List Str) (code : Str) (k : Nat) : Prop :=
  ∃ res, markUnsupport isWord isSpace mode pkgs keep code = some res ∧
    line (Str.splitOn '\n' res) k ≠ line (Str.splitOn '\n' code) k

theorem isMarked_iff (isWord isSpace : Char → Bool) (mode : Mode) (pkgs keep : List Str) (code : Str)
    (k : Nat) (hk : k < (Str.splitOn '\n' code).length) :
    IsMarked isWord isSpace mode pkgs keep code k ↔
      ByNote (Str.splitOn '\n' code) k ∨ ByUse isWord (Skip isSpace mode) pkgs (Str.splitOn '\n' code)
        (Str.splitOn '\n' (scanText isWord isSpace mode keep code)) k := by
  obtain ⟨out, h1, h2, h3⟩ := markUnsupport_eq isWord isSpace mode pkgs keep code
  have hout : Str.splitOn '\n' (Str.join py"\n" out) = out := by
    apply Str.splitOn_join
    · intro e; rw [e] at h2; simp at h2; omega
    · intro p hp
      obtain ⟨j, hj, e⟩ := List.mem_iff_getElem.1 hp
      have hj2 : j < (Str.splitOn '\n' code).length := by omega
      have hnl := Str.not_mem_of_mem_splitOn (List.getElem_mem hj2)
      have hlo : line out j = p := by simp [line, hj, e]
      have hlc : line (Str.splitOn '\n' code) j = (Str.splitOn '\n' code)[j] := by simp [line, hj2]
      by_cases hm : ByNote (Str.splitOn '\n' code) j ∨ ByUse isWord (Skip isSpace mode) pkgs
          (Str.splitOn '\n' code) (Str.splitOn '\n' (scanText isWord isSpace mode keep code)) j
      · have := (h3 j hj).1 hm
        rw [hlo, hlc] at this
        rw [this]; simp [marked]; exact hnl
      · have := (h3 j hj).2 hm
        rw [hlo, hlc] at this
        rw [this]; exact hnl
  constructor
  · rintro ⟨res, hr, hne⟩
    rw [h1] at hr
    rw [← Option.some.inj hr, hout] at hne
    apply Classical.byContradiction
    intro hm
    exact hne ((h3 k (by omega)).2 hm)
  · intro hm
    refine ⟨_, h1, ?_⟩
    rw [hout, (h3 k (by omega)).1 hm]
    intro e
    have := congrArg List.length e
    simp [marked] at this
    omega

/-- **C08.** A line carries a mark only if (a) a note `Not Support auto convert` stands before it with only
lines `@` in between, and the line is neither a note nor `@`; or (b) the line of the searched text, after its
quoted pieces are removed, uses an imported torch package, and the line neither starts nor ends inside a
`"""` block. -/
theorem C08_marks_have_a_cause (isWord isSpace : Char → Bool) (mode : Mode) (pkgs keep : List Str)
    (code : Str) (k : Nat) (hk : k < (Str.splitOn '\n' code).length)
    (h : IsMarked isWord isSpace mode pkgs keep code k) :
    (¬ Note (line (Str.splitOn '\n' code) k) ∧ line (Str.splitOn '\n' code) k ≠ py"@" ∧
      Pending (Str.splitOn '\n' code) k) ∨
    (∃ t, Bare (line (Str.splitOn '\n' (scanText isWord isSpace mode keep code)) k) t ∧
      (∃ p ∈ pkgs, Uses isWord p t)) ∧
      ¬ Inside (Str.splitOn '\n' code) (Str.splitOn '\n' (scanText isWord isSpace mode keep code)) k ∧
      ¬ Inside (Str.splitOn '\n' code) (Str.splitOn '\n' (scanText isWord isSpace mode keep code)) (k + 1) := by
  rcases (isMarked_iff isWord isSpace mode pkgs keep code k hk).1 h with h | ⟨_, h2, h3, t, h4, _, h6⟩
  · exact Or.inl h
  · exact Or.inr ⟨⟨t, h4, h6⟩, h2, h3⟩

/-- A marked line, by a note two lines above (the line `@` in between is passed over). -/
example : IsMarked asciiWord Char.isWhitespace .default [] [] py"#Not Support auto convert\n@\nf()" 2 :=
  ⟨py"#Not Support auto convert\n@\n>>>>>>f()", by decide, by decide⟩

/-- **C09 (partial).** In default mode a line without quotes that uses an imported torch package is marked,
unless it is a note or inside a `"""` block. Here "inside" is the converter's own count, which skips the lines
already marked by a note; see `C09_inside_negative` for what is missing: with the true nesting the statement
is false. -/
theorem C09_leftover_uses_marked_partial (isWord isSpace : Char → Bool) (pkgs keep : List Str) (code : Str)
    (k : Nat) (hk : k < (Str.splitOn '\n' code).length)
    (hq : '"' ∉ line (Str.splitOn '\n' code) k) (hq' : '\'' ∉ line (Str.splitOn '\n' code) k)
    (hu : ∃ p ∈ pkgs, Uses isWord p (line (Str.splitOn '\n' code) k))
    (hn : ¬ Note (line (Str.splitOn '\n' code) k))
    (hin : ¬ Inside (Str.splitOn '\n' code) (Str.splitOn '\n' code) k) :
    IsMarked isWord isSpace .default pkgs keep code k := by
  rw [isMarked_iff isWord isSpace .default pkgs keep code k hk]
  have hsc : scanText isWord isSpace .default keep code = code := by simp [scanText]
  rw [hsc]
  by_cases hB : ByNote (Str.splitOn '\n' code) k
  · exact Or.inl hB
  · right
    have hb := bare_self hq hq'
    refine ⟨⟨hn, hB⟩, hin, ?_, _, hb, by simp [Skip], hu⟩
    simp only [Inside, Classical.not_not]
    have : ¬ Flips (Str.splitOn '\n' code) (Str.splitOn '\n' code) k := by
      rintro ⟨_, t, ht, hc⟩
      have e := bare_iff.1 ht
      rw [← bare_iff.1 hb] at e
      subst e
      have h0 := countGo_zero_of_not_mem (p := ['"', '"']) (k := 0) hq
      simp only [Str.count] at hc
      rw [h0] at hc
      simp at hc
    simp [this, hin]

/-- The hypotheses hold for the first line of a small file. -/
example : ∃ p ∈ [py"torch"], Uses asciiWord p (line (Str.splitOn '\n' py"x = (torch.a)\ny") 0) :=
  ⟨py"torch", by decide, Or.inr ⟨py"x = ", '(', py"a)", by decide, by decide, by decide⟩⟩

/-- The true state: line `i` starts inside a `"""` block when the earlier lines have, together, an odd number
of `"""` after removal of complete quoted pieces. -/
def TrulyInside (lines : List Str) (i : Nat) : Bool :=
  ((lines.take i).map (fun l => Str.count (rmStr l) py"\"\"\"")).sum % 2 = 1

/-- **C09 is false for the true nesting.** A line marked by a note is not searched for quotes. When it opens a
`"""` string, the closing quotes are taken as opening ones, and a leftover torch use after them is not
marked. -/
theorem C09_inside_negative : ∃ (code : Str) (k : Nat),
    line (Str.splitOn '\n' code) k = py"torch.b()" ∧ TrulyInside (Str.splitOn '\n' code) k = false ∧
    markUnsupport asciiWord Char.isWhitespace .default [py"torch"] [] code
      = some py"# Not Support auto convert\n>>>>>>torch.a(\"\"\"\n\"\"\")\ntorch.b()" :=
  ⟨py"# Not Support auto convert\ntorch.a(\"\"\"\n\"\"\")\ntorch.b()", 3, by decide, by decide, by decide⟩

/-- **C10.** The result is the same for any two lists of packages with the same members, so it does not
depend on the iteration order of the set of imported packages. -/
theorem C10_package_order (isWord isSpace : Char → Bool) (mode : Mode) (pkgs pkgs' keep : List Str)
    (code : Str) (h : ∀ p, p ∈ pkgs ↔ p ∈ pkgs') :
    markUnsupport isWord isSpace mode pkgs keep code = markUnsupport isWord isSpace mode pkgs' keep code := by
  have hany : ∀ s, pkgs.any (fun p => usesPkg isWord p s) = pkgs'.any (fun p => usesPkg isWord p s) := by
    intro s
    rw [Bool.eq_iff_iff, List.any_eq_true, List.any_eq_true]
    exact ⟨fun ⟨p, a, b⟩ => ⟨p, (h p).1 a, b⟩, fun ⟨p, a, b⟩ => ⟨p, (h p).2 a, b⟩⟩
  have hgo : ∀ (ls ss : List Str) (mn ins : Bool), markGo isWord isSpace mode pkgs mn ins ls ss
      = markGo isWord isSpace mode pkgs' mn ins ls ss := by
    intro ls
    induction ls with
    | nil => intros; rfl
    | cons l ls ih =>
      intro ss mn ins
      cases ss with
      | nil => simp only [markGo, ih]
      | cons s ss => simp only [markGo, ih, hany]
  simp only [markUnsupport, hgo]

example : markUnsupport asciiWord Char.isWhitespace .default [py"timm", py"torch"] []
      py"a = torch.f(timm.g)\nmodel_torch.npy\n'torch.x'"
    = some py">>>>>>a = torch.f(timm.g)\nmodel_torch.npy\n'torch.x'" := by decide

/-- **C12.** A file that imports no torch package and has no note line is returned unchanged. -/
theorem C12_no_torch_unmarked (isWord isSpace : Char → Bool) (mode : Mode) (keep : List Str) (code : Str)
    (h : ∀ l ∈ Str.splitOn '\n' code, ¬ Note l) :
    markUnsupport isWord isSpace mode [] keep code = some code := by
  obtain ⟨out, h1, h2, h3⟩ := markUnsupport_eq isWord isSpace mode [] keep code
  rw [h1]
  congr 1
  have : out = Str.splitOn '\n' code := by
    apply List.ext_getElem h2
    intro k hk hk'
    have hno : ¬ (ByNote (Str.splitOn '\n' code) k ∨ ByUse isWord (Skip isSpace mode) []
        (Str.splitOn '\n' code) (Str.splitOn '\n' (scanText isWord isSpace mode keep code)) k) := by
      rintro (⟨_, _, j, hj, hn, _⟩ | ⟨_, _, _, t, _, _, p, hp, _⟩)
      · refine h (line (Str.splitOn '\n' code) j) ?_ hn
        have hj2 : j < (Str.splitOn '\n' code).length := by omega
        simp [line, hj2]
      · simp at hp
    have := (h3 k hk).2 hno
    simpa [line, hk, hk'] using this
  rw [this, Str.join_splitOn]

example : ∀ l ∈ Str.splitOn '\n' py"import os\n\nx = torch.y", ¬ Note l := by
  intro l hl
  rw [← isNote_iff]
  revert l
  decide

/-! ## Import lines in min mode -/

theorem dropWhile_spec (f : Char → Bool) (l : List Char) :
    ∃ a, l = a ++ l.dropWhile f ∧ (∀ c ∈ a, f c = true) ∧ ∀ c t, l.dropWhile f = c :: t → f c = false := by
  induction l with
  | nil => exact ⟨[], by simp⟩
  | cons x l ih =>
    cases hx : f x with
    | true =>
      obtain ⟨a, h1, h2, h3⟩ := ih
      rw [List.dropWhile_cons_of_pos hx]
      refine ⟨x :: a, by rw [List.cons_append, ← h1], ?_, h3⟩
      intro c hc
      rcases List.mem_cons.1 hc with e | hc
      · rw [e, hx]
      · exact h2 c hc
    | false =>
      rw [List.dropWhile_cons_of_neg (by simp [hx])]
      refine ⟨[], rfl, by simp, ?_⟩
      intro c t h; cases h; exact hx

theorem dropWhile_append_of_mem (f : Char → Bool) (b w : List Char) (h : ∃ c ∈ b, f c = false) :
    (b ++ w).dropWhile f = b.dropWhile f ++ w := by
  induction b with
  | nil => obtain ⟨c, hc, _⟩ := h; simp at hc
  | cons x b ih =>
    cases hx : f x with
    | true =>
      rw [List.cons_append, List.dropWhile_cons_of_pos hx, List.dropWhile_cons_of_pos hx]
      apply ih
      obtain ⟨c, hc, hf⟩ := h
      rcases List.mem_cons.1 hc with e | hc
      · subst e; rw [hx] at hf; cases hf
      · exact ⟨c, hc, hf⟩
    | false =>
      rw [List.cons_append, List.dropWhile_cons_of_neg (by simp [hx]), List.dropWhile_cons_of_neg (by simp [hx])]
      rfl

/-- A stripped text begins with a word that ends in white space iff the text is white space, the word, and something
else. -/
theorem strip_startsWith (f : Char → Bool) (x : Char) (w : Str) (hx : f x = false) (hlast : f ' ' = true) (t : Str) :
    Str.startsWith (Str.stripBy f t) (x :: w ++ py" ") = true ↔
      ∃ a b, (∀ c ∈ a, f c = true) ∧ t = a ++ (x :: w ++ py" ") ++ b ∧ ∃ c ∈ b, f c = false := by
  rw [Str.startsWith_iff]
  simp only [Str.stripBy, Str.rstripBy, Str.lstripBy]
  constructor
  · rintro ⟨b, hb⟩
    obtain ⟨a, h1, h2, _⟩ := dropWhile_spec f t
    obtain ⟨z, g1, g2, g3⟩ := dropWhile_spec f (t.dropWhile f).reverse
    have e : t.dropWhile f = (x :: w ++ py" ") ++ b ++ z.reverse := by
      have := congrArg List.reverse g1
      rw [List.reverse_reverse, List.reverse_append] at this
      rw [this, hb]
    refine ⟨a, b ++ z.reverse, h2, by rw [List.append_assoc, ← List.append_assoc _ b, ← e]; exact h1, ?_⟩
    have hr : ((t.dropWhile f).reverse.dropWhile f) = b.reverse ++ ' ' :: (x :: w).reverse := by
      have := congrArg List.reverse hb
      simpa using this
    cases hbr : b.reverse with
    | nil =>
      rw [hbr] at hr
      have := g3 ' ' _ hr
      rw [hlast] at this; cases this
    | cons c u =>
      rw [hbr] at hr
      refine ⟨c, ?_, g3 c _ hr⟩
      have : c ∈ b.reverse := by rw [hbr]; simp
      simp at this; simp [this]
  · rintro ⟨a, b, ha, rfl, hb⟩
    have e1 : (a ++ (x :: w ++ py" ") ++ b).dropWhile f = (x :: w ++ py" ") ++ b := by
      rw [List.append_assoc]
      have : ∀ a : List Char, (∀ c ∈ a, f c = true) → (a ++ ((x :: w ++ py" ") ++ b)).dropWhile f
          = (x :: w ++ py" ") ++ b := by
        intro a ha
        induction a with
        | nil => simp [hx]
        | cons y a ih =>
          rw [List.cons_append, List.dropWhile_cons_of_pos (ha y (by simp))]
          exact ih (fun c hc => ha c (by simp [hc]))
      exact this a ha
    rw [e1, List.reverse_append, dropWhile_append_of_mem f b.reverse _ (by simpa using hb), List.reverse_append,
      List.reverse_reverse]
    exact ⟨_, rfl⟩

theorem isImportLine_iff {isSpace : Char → Bool} (hs : Spaces isSpace) (t : Str) :
    isImportLine isSpace t = true ↔ ImportLine isSpace t := by
  have h1 := strip_startsWith isSpace 'i' py"mport" (hs.letters 'i' (by decide)) hs.blank t
  have h2 := strip_startsWith isSpace 'f' py"rom" (hs.letters 'f' (by decide)) hs.blank t
  simp only [List.cons_append, List.nil_append] at h1 h2
  simp only [isImportLine, Bool.or_eq_true, h1, h2, ImportLine]
  constructor
  · rintro (⟨a, b, h, e, hb⟩ | ⟨a, b, h, e, hb⟩)
    · exact ⟨a, b, h, .inl e, hb⟩
    · exact ⟨a, b, h, .inr e, hb⟩
  · rintro ⟨a, b, h, e | e, hb⟩
    · exact .inl ⟨a, b, h, e, hb⟩
    · exact .inr ⟨a, b, h, e, hb⟩

/-- **C08/C09, both directions.** Line `k` carries a mark iff a note marks it or it has a leftover use of a torch
package; the only exemption is that of import statements in min mode. -/
theorem C09_marks_exactly (isWord isSpace : Char → Bool) (hs : Spaces isSpace) (mode : Mode) (pkgs keep : List Str)
    (code : Str) (k : Nat) (hk : k < (Str.splitOn '\n' code).length) :
    IsMarked isWord isSpace mode pkgs keep code k ↔
      ByNote (Str.splitOn '\n' code) k ∨
      ByUse isWord (fun t => mode = .min ∧ ImportLine isSpace t) pkgs (Str.splitOn '\n' code)
        (Str.splitOn '\n' (scanText isWord isSpace mode keep code)) k := by
  rw [isMarked_iff isWord isSpace mode pkgs keep code k hk]
  have : Skip isSpace mode = fun t => mode = .min ∧ ImportLine isSpace t := by
    funext t
    simp only [Skip, isImportLine_iff hs]
  rw [this]

example : Spaces Char.isWhitespace := ⟨by decide, by decide⟩

/-- In min mode import statements are exempt: they carry a mark only because of a note. -/
theorem C08_min_imports_exempt (isWord isSpace : Char → Bool) (hs : Spaces isSpace) (pkgs keep : List Str)
    (code t : Str) (k : Nat) (hk : k < (Str.splitOn '\n' code).length)
    (ht : Bare (line (Str.splitOn '\n' (scanText isWord isSpace .min keep code)) k) t)
    (himp : ImportLine isSpace t)
    (h : IsMarked isWord isSpace .min pkgs keep code k) :
    Pending (Str.splitOn '\n' code) k := by
  rcases (isMarked_iff isWord isSpace .min pkgs keep code k hk).1 h with h | ⟨_, _, _, t', h4, h5, _⟩
  · exact h.2.2
  · rw [bare_iff] at h4 ht
    subst h4; subst ht
    exact absurd ⟨rfl, (isImportLine_iff hs _).2 himp⟩ h5

/-- An import statement of min mode, with white space in front. -/
example : ImportLine Char.isWhitespace py"  from torch.nn import Linear" :=
  ⟨py"  ", py"torch.nn import Linear", by decide, .inr rfl, 't', by decide, by decide⟩

end Verif.Mark

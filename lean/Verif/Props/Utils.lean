import Verif.Model.Utils

/-!
# C03-C06: helper code
-/

namespace Verif.Utils
open Verif

/-! ## C03: the helper table -/

/-- If the second probe collides too, the loop of `_get_code_hash` never ends: no number of rounds returns. -/
theorem hashLoop_diverges (hash : Str → Int) (m : CodeMap) (code : Str)
    (h1 : taken m (hash code) code = true)
    (h2 : taken m (hash (code ++ py"_" ++ Str.ofNat m.length)) code = true) (fuel : Nat) :
    hashLoop hash m code fuel (hash code) = none := by
  have aux : ∀ fuel, hashLoop hash m code fuel (hash (code ++ py"_" ++ Str.ofNat m.length)) = none := by
    intro fuel
    induction fuel with
    | zero => rfl
    | succ n ih => rw [hashLoop, if_pos h2]; exact ih
  cases fuel with
  | zero => rfl
  | succ n => rw [hashLoop, if_pos h1]; exact aux n

theorem hashLoop_not_taken {hash : Str → Int} {m : CodeMap} {code : Str} {fuel : Nat} {h r : Int}
    (e : hashLoop hash m code fuel h = some r) : taken m r code = false := by
  induction fuel generalizing h with
  | zero => simp [hashLoop] at e
  | succ n ih =>
    simp only [hashLoop] at e
    split at e
    · exact ih e
    · next ht => rw [← Option.some.inj e]; simpa using ht

theorem addCode_cases {hash : Str → Int} {m m' : CodeMap} {c : Str} (h : addCode hash m c = some m') :
    (m' = m ∧ rstripNl c ∈ m.values) ∨ (∃ k, k ∉ m.keys ∧ m' = m ++ [(k, rstripNl c)]) := by
  simp only [addCode] at h
  split at h
  · simp at h
  · next k hk =>
    have ht := hashLoop_not_taken hk
    rw [← Option.some.inj h]
    unfold taken at ht
    split at ht
    · next hg =>
      have hn : k ∉ m.keys := Dict.get?_eq_none_iff.1 hg
      have : m.has k = false := by simp [Dict.has, hg]
      right
      exact ⟨k, hn, by rw [if_neg (by simp [this]), Dict.set_of_not_mem hn]⟩
    · next v hg =>
      have : m.has k = true := by simp [Dict.has, hg]
      left
      refine ⟨by simp [this], ?_⟩
      have e : v = rstripNl c := by simpa using ht
      exact List.mem_map.2 ⟨(k, v), Dict.mem_of_get? hg, e⟩

/-- **C03 (any hash).** Whatever the string hash of the process is: when all requests return, every requested
helper (without trailing newlines) is in the block, and the block has nothing else. -/
theorem C03_helpers_complete (hash : Str → Int) (reqs : List Str) (m : CodeMap)
    (h : addAll hash [] reqs = some m) (code : Str) :
    code ∈ m.values ↔ ∃ r ∈ reqs, code = rstripNl r := by
  have gen : ∀ (reqs : List Str) (m0 m : CodeMap), addAll hash m0 reqs = some m →
      (code ∈ m.values ↔ code ∈ m0.values ∨ ∃ r ∈ reqs, code = rstripNl r) := by
    intro reqs
    induction reqs with
    | nil => intro m0 m h; simp [addAll] at h; simp [h]
    | cons c cs ih =>
      intro m0 m h
      simp only [addAll] at h
      split at h
      · simp at h
      · next m1 h1 =>
        rw [ih m1 m h]
        rcases addCode_cases h1 with ⟨e, hm⟩ | ⟨k, _, e⟩
        · subst e
          constructor
          · rintro (h | ⟨r, hr, e⟩)
            · exact Or.inl h
            · exact Or.inr ⟨r, by simp [hr], e⟩
          · rintro (h | ⟨r, hr, e⟩)
            · exact Or.inl h
            · rcases List.mem_cons.1 hr with hr | hr
              · left; rw [e, hr]; exact hm
              · exact Or.inr ⟨r, hr, e⟩
        · subst e
          simp only [Dict.values, List.map_append, List.mem_append, List.map_cons, List.map_nil,
            List.mem_cons, List.not_mem_nil, or_false]
          constructor
          · rintro ((h | h) | ⟨r, hr, e⟩)
            · exact Or.inl h
            · exact Or.inr ⟨c, Or.inl rfl, h⟩
            · exact Or.inr ⟨r, Or.inr hr, e⟩
          · rintro (h | ⟨r, hr | hr, e⟩)
            · exact Or.inl (Or.inl h)
            · exact Or.inl (Or.inr (hr ▸ e))
            · exact Or.inr ⟨r, hr, e⟩
  simpa [Dict.values] using gen reqs [] m h

theorem nodup_eraseDups (l : List Str) : l.eraseDups.Nodup := by
  generalize hn : l.length = n
  induction n using Nat.strongRecOn generalizing l with
  | ind n ih =>
    cases l with
    | nil => simp
    | cons a as =>
      rw [List.eraseDups_cons, List.nodup_cons]
      refine ⟨?_, ih _ ?_ _ rfl⟩
      · rw [List.mem_eraseDups]; simp
      · have := List.length_filter_le (fun b => !b == a) as
        simp at hn
        omega

/-- **C03 (partial).** If the hash does not collide on the requested helpers, all requests return and the block
lists each distinct helper exactly once, in order of first request. Missing: without that hypothesis the
claim is false (`C03_once_negative`). -/
theorem C03_helpers_once_partial (hash : Str → Int) (reqs : List Str)
    (hinj : ∀ a ∈ reqs, ∀ b ∈ reqs, hash (rstripNl a) = hash (rstripNl b) → rstripNl a = rstripNl b) :
    ∃ m, addAll hash [] reqs = some m ∧ m.values = (reqs.map rstripNl).eraseDups ∧ m.values.Nodup := by
  have hadd : ∀ (cs : List Str) (c : Str) (m0 : CodeMap),
      addAll hash m0 (cs ++ [c]) = (addAll hash m0 cs).bind (fun m => addCode hash m c) := by
    intro cs
    induction cs with
    | nil => intro c m0; simp only [List.nil_append, addAll, Option.bind]; cases addCode hash m0 c <;> rfl
    | cons x cs ih =>
      intro c m0
      simp only [List.cons_append, addAll]
      cases addCode hash m0 x with
      | none => rfl
      | some m1 => exact ih c m1
  have hmain : ∀ (n : Nat), n ≤ reqs.length →
      ∃ m, addAll hash [] (reqs.take n) = some m ∧
        m = ((reqs.take n).map rstripNl).eraseDups.map (fun c => (hash c, c)) := by
    intro n
    induction n with
    | zero => intro _; exact ⟨[], by simp [addAll], by simp⟩
    | succ n ih =>
      intro hn
      obtain ⟨m, h1, h2⟩ := ih (by omega)
      have hlt : n < reqs.length := hn
      have htake : reqs.take (n + 1) = reqs.take n ++ [reqs[n]] := by
        rw [List.take_add_one, List.getElem?_eq_getElem hlt]; rfl
      rw [htake, hadd, h1]
      simp only [Option.bind_some, List.map_append, List.map_cons, List.map_nil]
      rw [List.eraseDups_append]
      generalize hc : rstripNl reqs[n] = c
      generalize hE : ((reqs.take n).map rstripNl) = P at h2
      have hget : ∀ (l : List Str) (v : Str), (∀ x ∈ l, hash x = hash c → x = c) →
          Dict.get? (l.map (fun c => (hash c, c))) (hash c) = if c ∈ l then some c else none := by
        intro l v hl
        induction l with
        | nil => rfl
        | cons x l ihl =>
          simp only [List.map_cons, Dict.get?]
          have := ihl (fun y hy => hl y (by simp [hy]))
          by_cases hx : hash x = hash c
          · have := hl x (by simp) hx
            subst this; simp
          · rw [if_neg hx, this]
            have : c ≠ x := fun e => hx (by rw [e])
            simp [this]
      have hcol : ∀ x ∈ P.eraseDups, hash x = hash c → x = c := by
        intro x hx e
        rw [List.mem_eraseDups, ← hE] at hx
        obtain ⟨r, hr, e2⟩ := List.mem_map.1 hx
        rw [← e2, ← hc]
        exact hinj r (List.mem_of_mem_take hr) _ (List.getElem_mem hlt) (by rw [e2, hc]; exact e)
      have hg := hget P.eraseDups c hcol
      rw [← h2] at hg
      by_cases hmem : c ∈ P.eraseDups
      · rw [if_pos hmem] at hg
        refine ⟨m, ?_, ?_⟩
        · simp only [addCode, hc, codeHash, hashLoop, taken, hg, bne_self_eq_false, Dict.has,
            Option.isSome_some, if_true, Bool.false_eq_true, if_false]
        · have hP : c ∈ P := List.mem_eraseDups.1 hmem
          have : ([c] : List Str).removeAll P = [] := by simp [List.removeAll, hP]
          rw [this]; simp [h2]
      · rw [if_neg hmem] at hg
        refine ⟨m ++ [(hash c, c)], ?_, ?_⟩
        · simp only [addCode, hc, codeHash, hashLoop, taken, hg, Dict.has, Option.isSome_none,
            Bool.false_eq_true, if_false]
          rw [Dict.set_of_not_mem (Dict.get?_eq_none_iff.1 hg)]
        · have hP : c ∉ P := fun h => hmem (List.mem_eraseDups.2 h)
          have : ([c] : List Str).removeAll P = [c] := by simp [List.removeAll, hP]
          rw [this, h2]; simp [List.eraseDups_cons]
  obtain ⟨m, h1, h2⟩ := hmain reqs.length (Nat.le_refl _)
  rw [List.take_length] at h1 h2
  have hv : m.values = (reqs.map rstripNl).eraseDups := by
    rw [h2]; simp [Dict.values, List.map_map, Function.comp_def]
  exact ⟨m, h1, hv, by rw [hv]; exact nodup_eraseDups _⟩

example : (([py"def f(): pass\n\n", py"def g(): pass", py"def f(): pass"].map rstripNl).eraseDups)
    = [py"def f(): pass", py"def g(): pass"] := by decide

/-- **C03 with collisions is false.** A hash of colliding values exists for which the block repeats a helper:
the probe after a collision depends on the size of the table, so a second request of the same helper may look
at a different slot. -/
theorem C03_once_negative : ∃ (hash : Str → Int) (reqs : List Str) (m : CodeMap),
    addAll hash [] reqs = some m ∧ m.values = [py"a", py"b", py"b"] :=
  ⟨fun s => if s = py"b_1" then 1 else if s = py"b_2" then 2 else 0, [py"a", py"b", py"b"],
    [(0, py"a"), (1, py"b"), (2, py"b")], by decide, by decide⟩

/-- A request may never return: two collisions in a row. -/
theorem C03_hang_negative : ∃ (hash : Str → Int) (m : CodeMap) (code : Str),
    addAll hash [] [py"a"] = some m ∧ ∀ rounds, hashLoop hash m code rounds (hash code) = none :=
  ⟨fun _ => 0, [(0, py"a")], py"b", by decide,
    hashLoop_diverges _ _ _ (by decide) (by decide)⟩

/-! ## C04: insertion -/

theorem splitLines_noBreak {isBreak : Char → Bool} {s l : Str} (h : l ∈ splitLines isBreak s) :
    ∀ c ∈ l, isBreak c = false := by
  induction s generalizing l with
  | nil => simp [splitLines] at h
  | cons x s ih =>
    simp only [splitLines] at h
    split at h
    · rcases List.mem_cons.1 h with h | h
      · simp [h]
      · exact ih h
    · next hx =>
      split at h
      · next e => simp at h; subst h; simpa using hx
      · next p ps e =>
        rcases List.mem_cons.1 h with h | h
        · subst h
          intro c hc
          rcases List.mem_cons.1 hc with hc | hc
          · subst hc; simpa using hx
          · exact ih (l := p) (by simp [e]) c hc
        · exact ih (by simp [e, h])

theorem splitLines_append {isBreak : Char → Bool} (hb : isBreak '\n' = true) (a b : Str) :
    splitLines isBreak (a ++ '\n' :: b) = splitLines isBreak (a ++ ['\n']) ++ splitLines isBreak b := by
  induction a with
  | nil => simp [splitLines, hb]
  | cons x a ih =>
    simp only [List.cons_append, splitLines]
    split
    · rw [ih]; simp
    · rw [ih]
      cases h : splitLines isBreak (a ++ ['\n']) with
      | nil =>
        exfalso
        cases a with
        | nil => simp [splitLines, hb] at h
        | cons y a =>
          simp only [List.cons_append, splitLines] at h
          split at h
          · simp at h
          · split at h <;> simp at h
      | cons p ps => simp

theorem splitLines_line {isBreak : Char → Bool} (hb : isBreak '\n' = true) {l : Str}
    (h : ∀ c ∈ l, isBreak c = false) : splitLines isBreak (l ++ ['\n']) = [l] := by
  induction l with
  | nil => simp [splitLines, hb]
  | cons x l ih =>
    have hx := h x (by simp)
    simp only [List.cons_append, splitLines, hx]
    rw [ih (fun c hc => h c (by simp [hc]))]
    simp

theorem splitLines_join_nl {isBreak : Char → Bool} (hb : isBreak '\n' = true) {ls : List Str}
    (hne : ls ≠ []) (h : ∀ l ∈ ls, ∀ c ∈ l, isBreak c = false) :
    splitLines isBreak (Str.join py"\n" ls ++ ['\n']) = ls := by
  induction ls with
  | nil => exact absurd rfl hne
  | cons l ls ih =>
    cases ls with
    | nil => simpa using splitLines_line hb (h l (by simp))
    | cons q qs =>
      rw [Str.join_cons_cons]
      simp only [List.append_assoc, List.cons_append, List.nil_append]
      rw [splitLines_append hb, splitLines_line hb (h l (by simp))]
      rw [ih (by simp) (fun r hr => h r (by simp [hr]))]
      rfl

/-- The `splitlines` of a text whose last line is not empty and has no newline at its end. -/
theorem splitLines_join {isBreak : Char → Bool} (hb : isBreak '\n' = true) {ls : List Str}
    (h : ∀ l ∈ ls, ∀ c ∈ l, isBreak c = false) (hlast : ∀ l, ls.getLast? = some l → l ≠ []) :
    splitLines isBreak (Str.join py"\n" ls) = ls := by
  induction ls with
  | nil => rfl
  | cons l ls ih =>
    cases ls with
    | nil =>
      have hne := hlast l (by simp)
      have hl := h l (by simp)
      simp only [Str.join_single]
      clear ih h hlast
      induction l with
      | nil => exact absurd rfl hne
      | cons x l ihl =>
        have hx := hl x (by simp)
        simp only [splitLines, hx]
        cases l with
        | nil => simp [splitLines]
        | cons y l =>
          rw [ihl (by simp) (fun c hc => hl c (by simp [hc]))]
          simp
    | cons q qs =>
      rw [Str.join_cons_cons]
      simp only [List.append_assoc, List.cons_append, List.nil_append]
      rw [splitLines_append hb, splitLines_line hb (h l (by simp))]
      rw [ih (fun r hr => h r (by simp [hr])) (fun r hr => hlast r (by
        rw [List.getLast?_cons_cons]; exact hr))]
      rfl

/-- The helper block as text between two newlines: everything of `insert_code` but its first newline. -/
def blockText (m : CodeMap) : Str := (insertCode false m).tail

theorem insertCode_eq (m : CodeMap) : insertCode false m = '\n' :: blockText m := by
  have : ∃ r, insertCode false m = '\n' :: r := by
    have hne : m.values ++ [endContent] ≠ [] := by simp
    · simp only [insertCode, Bool.false_eq_true, if_false, List.cons_append, List.nil_append]
      rw [Str.join_cons _ _ _ hne]
      unfold startContent
      exact ⟨_, rfl⟩
  obtain ⟨r, hr⟩ := this
  rw [blockText, hr]; rfl

theorem blockText_ends (m : CodeMap) : ∃ r, blockText m = r ++ ['\n'] := by
  have hends : ∃ r, insertCode false m = r ++ py"\n\n" := by
    simp only [insertCode, Bool.false_eq_true, if_false, List.cons_append, List.nil_append]
    have aux : ∀ ls : List Str, ∃ r, Str.join py"\n" (ls ++ [endContent]) = r ++ py"\n\n" := by
      intro ls
      induction ls with
      | nil => exact ⟨py"############################## 相关utils函数，如上 ##############################", rfl⟩
      | cons l ls ih =>
        obtain ⟨r, hr⟩ := ih
        exact ⟨l ++ py"\n" ++ r, by rw [List.cons_append, Str.join_cons _ _ _ (by simp), hr]; simp⟩
    exact aux (startContent :: m.values)
  obtain ⟨r, hr⟩ := hends
  rw [insertCode_eq] at hr
  cases r with
  | nil =>
    simp only [List.nil_append, List.cons.injEq] at hr
    exact ⟨[], hr.2⟩
  | cons x r =>
    simp only [List.cons_append, List.cons.injEq] at hr
    exact ⟨r ++ ['\n'], by rw [hr.2]; simp⟩

/-- **C04.** In single-file mode (before the formatter) the lines of the new file are the old lines, in order,
with one contiguous block put between them; the block does not depend on the file (except for an empty first
line when it is put before the first line).  `lines` of a text are its `splitlines()`. The only condition is
that the file does not end with an empty line, which the file written by the converter never does (its text
ends with at most one newline after the last statement). -/
theorem C04_insertion_keeps_file (isBreak isSpace : Char → Bool) (hb : isBreak '\n' = true) (m : CodeMap)
    (existing : Str) (hlast : ∀ l, (splitLines isBreak existing).getLast? = some l → l ≠ []) :
    ∃ pre post : List Str, splitLines isBreak existing = pre ++ post ∧
      splitLines isBreak (newContent isBreak isSpace m existing)
        = pre ++ ((if pre = [] then [[]] else []) ++ splitLines isBreak (blockText m)) ++ post := by
  generalize hL : splitLines isBreak existing = L at *
  have hnb : ∀ l ∈ L, ∀ c ∈ l, isBreak c = false := fun l hl => splitLines_noBreak (hL ▸ hl)
  refine ⟨L.take (findIdx isSpace L), L.drop (findIdx isSpace L), (List.take_append_drop _ _).symm, ?_⟩
  simp only [newContent, hL]
  generalize findIdx isSpace L = idx
  obtain ⟨r, hr⟩ := blockText_ends m
  have hpost : splitLines isBreak (blockText m ++ Str.join py"\n" (L.drop idx))
      = splitLines isBreak (blockText m) ++ L.drop idx := by
    rw [hr]
    simp only [List.append_assoc, List.cons_append, List.nil_append]
    rw [splitLines_append hb]
    rw [splitLines_join hb (fun l hl => hnb l (List.mem_of_mem_drop hl))]
    intro l hl
    apply hlast l
    rw [List.getLast?_drop] at hl
    split at hl
    · simp at hl
    · exact hl
  rw [insertCode_eq]
  simp only [List.append_assoc, List.cons_append]
  rw [splitLines_append hb, hpost]
  by_cases hpre : L.take idx = []
  · simp [hpre, splitLines, hb]
  · rw [if_neg hpre, splitLines_join_nl hb hpre (fun l hl => hnb l (List.mem_of_mem_take hl))]
    simp

/-- A file to which the theorem applies: the block goes after the import. -/
example : newContent (· == '\n') Char.isWhitespace [(0, py"def f(): pass")] py"import a\nx = f()\n"
    = py"import a" ++ py"\n############################## 相关utils函数，如下 ##############################\ndef f(): pass\n############################## 相关utils函数，如上 ##############################\n\n" ++ py"x = f()" := by
  rfl

/-- Other line boundaries are not kept: a form feed in the converted file becomes a newline, because the text is
cut with `splitlines` and glued with `"\n"`. -/
theorem C04_separator_negative : ∃ (existing : Str),
    Str.contains existing ['\x0c'] = true ∧
    Str.contains (newContent (fun c => c == '\n' || c == '\x0c') Char.isWhitespace [(0, py"f")] existing) ['\x0c']
      = false :=
  ⟨py"import a\nx = 'p\x0cq'\n", by decide, by decide⟩

/-! ## C05: the insertion point -/

/-- Blank line or comment. -/
def Passive (isSpace : Char → Bool) (l : Str) : Prop :=
  Str.stripBy isSpace l = [] ∨ Str.startsWith (Str.stripBy isSpace l) py"#" = true

/-- First line of an `import` statement. -/
def ImportHead (isSpace : Char → Bool) (l : Str) : Prop :=
  Str.startsWith (Str.stripBy isSpace l) py"import " = true

/-- First line of a `from` statement. -/
def FromHead (isSpace : Char → Bool) (l : Str) : Prop :=
  Str.startsWith (Str.stripBy isSpace l) py"from " = true

/-- Open parentheses minus closed ones over a list of lines. -/
def depth (ls : List Str) : Int := (ls.map (fun l => parenDelta l)).sum

/-- The lines `ls` of a statement are continued on the next line: the last one ends with a backslash, or (for
`from` statements) more parentheses were opened than closed. -/
def Continued (isSpace : Char → Bool) (isFrom : Bool) (ls : List Str) : Prop :=
  (∃ l, ls.getLast? = some l ∧ endsBackslash isSpace l = true) ∨ (isFrom = true ∧ 0 < depth ls)

/-- A sequence of blank lines, comments and import statements (before the lines `post`). In a statement each
proper initial part is continued and the whole is not, unless the file ends with it. -/
inductive Header (isSpace : Char → Bool) : List Str → List Str → Prop
  | nil (post : List Str) : Header isSpace [] post
  | passive (l : Str) (ls post : List Str) (h : Passive isSpace l) (r : Header isSpace ls post) :
      Header isSpace (l :: ls) post
  | stmt (isFrom : Bool) (h : Str) (t ls post : List Str)
      (head : if isFrom then FromHead isSpace h else ImportHead isSpace h)
      (cont : ∀ k, k < t.length → Continued isSpace isFrom (h :: t.take k))
      (complete : ¬ Continued isSpace isFrom (h :: t) ∨ (ls = [] ∧ post = []))
      (r : Header isSpace ls post) : Header isSpace (h :: t ++ ls) post

/-- After the header: blank lines and comments, then the end or a line that starts no import. -/
inductive Rest (isSpace : Char → Bool) : List Str → Prop
  | nil : Rest isSpace []
  | passive (l : Str) (ls : List Str) (h : Passive isSpace l) (r : Rest isSpace ls) : Rest isSpace (l :: ls)
  | code (l : Str) (ls : List Str) (h1 : ¬ Passive isSpace l) (h2 : ¬ ImportHead isSpace l)
      (h3 : ¬ FromHead isSpace l) : Rest isSpace (l :: ls)

theorem getLast?_append_cons {α : Type} (a : List α) (x : α) : (a ++ [x]).getLast? = some x := by simp

theorem importCont_spec (isSpace : Char → Bool) (acc : List Str) (prev : Str) (ls : List Str) :
    importCont isSpace prev ls ≤ ls.length ∧
    (∀ j, j < importCont isSpace prev ls → Continued isSpace false (acc ++ prev :: ls.take j)) ∧
    (importCont isSpace prev ls = ls.length ∨
      ¬ Continued isSpace false (acc ++ prev :: ls.take (importCont isSpace prev ls))) := by
  induction ls generalizing acc prev with
  | nil => simp [importCont]
  | cons x xs ih =>
    simp only [importCont]
    split
    · next hb =>
      obtain ⟨h1, h2, h3⟩ := ih (acc ++ [prev]) x
      refine ⟨by simpa using h1, ?_, ?_⟩
      · intro j hj
        cases j with
        | zero => left; exact ⟨prev, by simp, hb⟩
        | succ j => simpa using h2 j (by omega)
      · rcases h3 with h3 | h3
        · left; simp [h3]
        · right; simpa using h3
    · next hb =>
      refine ⟨by simp, by simp, Or.inr ?_⟩
      rintro (⟨l, hl, hl2⟩ | ⟨h, _⟩)
      · simp at hl; subst hl; exact hb hl2
      · simp at h

theorem depth_append (a b : List Str) : depth (a ++ b) = depth a + depth b := by
  simp [depth, List.sum_append]

theorem depth_single (l : Str) : depth [l] = parenDelta l := by simp [depth]

theorem saw_of_depth {ls : List Str} (h : 0 < depth ls) : ls.any hasParen = true := by
  induction ls with
  | nil => simp [depth] at h
  | cons l ls ih =>
    simp only [List.any_cons, Bool.or_eq_true]
    by_cases hd : 0 < depth ls
    · exact Or.inr (ih hd)
    · left
      have : depth (l :: ls) = parenDelta l + depth ls := by simp [depth]
      rw [this] at h
      have hp : 0 < parenDelta l := by omega
      unfold parenDelta at hp
      have : 0 < List.count '(' l := by omega
      rw [List.count_pos_iff] at this
      simp [hasParen, this]

theorem fromCont_spec (isSpace : Char → Bool) (acc : List Str) (d : Int) (saw : Bool) (prev : Str)
    (ls : List Str) (hd : d = depth (acc ++ [prev])) (hs : saw = (acc ++ [prev]).any hasParen) :
    fromCont isSpace d saw prev ls ≤ ls.length ∧
    (∀ j, j < fromCont isSpace d saw prev ls → Continued isSpace true (acc ++ prev :: ls.take j)) ∧
    (fromCont isSpace d saw prev ls = ls.length ∨
      ¬ Continued isSpace true (acc ++ prev :: ls.take (fromCont isSpace d saw prev ls))) := by
  induction ls generalizing acc d saw prev with
  | nil => simp [fromCont]
  | cons x xs ih =>
    simp only [fromCont]
    split
    · next hb =>
      obtain ⟨h1, h2, h3⟩ := ih (acc ++ [prev]) (d + parenDelta x) (saw || hasParen x) x
        (by rw [hd, depth_append (acc ++ [prev]), depth_single]) (by rw [hs]; simp [Bool.or_assoc])
      refine ⟨by simpa using h1, ?_, ?_⟩
      · intro j hj
        cases j with
        | zero =>
          simp only [Bool.or_eq_true, Bool.and_eq_true, decide_eq_true_eq] at hb
          rcases hb with hb | hb
          · left; exact ⟨prev, by simp, hb⟩
          · right; refine ⟨rfl, ?_⟩
            simp only [List.take_zero]; rw [← hd]; exact hb.2
        | succ j => simpa using h2 j (by omega)
      · rcases h3 with h3 | h3
        · left; simp [h3]
        · right; simpa using h3
    · next hb =>
      refine ⟨by simp, by simp, Or.inr ?_⟩
      simp only [Bool.or_eq_true, Bool.and_eq_true, decide_eq_true_eq, not_or] at hb
      rintro (⟨l, hl, hl2⟩ | ⟨_, h⟩)
      · simp at hl; subst hl; exact hb.1 hl2
      · simp only [List.take_zero] at h
        exact hb.2 ⟨by rw [hs]; exact saw_of_depth h, by rw [hd]; exact h⟩

theorem findGo_skip (isSpace : Char → Bool) (k i idx : Nat) (ls : List Str) (h : k ≤ ls.length) :
    findGo isSpace k i idx ls = findGo isSpace 0 (i + k) idx (ls.drop k) := by
  induction k generalizing i ls with
  | zero => simp
  | succ k ih =>
    cases ls with
    | nil => simp at h
    | cons l ls =>
      simp only [findGo, List.drop_succ_cons]
      rw [ih _ _ (by simpa using h)]
      congr 1; omega

theorem passive_not_head {isSpace : Char → Bool} {l : Str} (h : Passive isSpace l) :
    ¬ ImportHead isSpace l ∧ ¬ FromHead isSpace l := by
  unfold Passive ImportHead FromHead at *
  generalize Str.stripBy isSpace l = t at *
  cases t with
  | nil => simp [Str.startsWith]
  | cons c t =>
    simp [Str.startsWith] at h
    subst h
    simp [Str.startsWith]

theorem findGo_spec (isSpace : Char → Bool) (ls : List Str) (i idx : Nat) :
    ∃ n, n ≤ ls.length ∧ Header isSpace (ls.take n) (ls.drop n) ∧ Rest isSpace (ls.drop n) ∧
      ((n = 0 ∧ findGo isSpace 0 i idx ls = idx) ∨ (0 < n ∧ findGo isSpace 0 i idx ls = i + n)) := by
  generalize hn : ls.length = n
  induction n using Nat.strongRecOn generalizing ls i idx with
  | ind n ih =>
    cases ls with
    | nil => exact ⟨0, by simp, .nil _, .nil, Or.inl ⟨rfl, rfl⟩⟩
    | cons l ls =>
      simp at hn
      have stmtCase : ∀ (isFrom : Bool) (k : Nat), k ≤ ls.length →
          (if isFrom then FromHead isSpace l else ImportHead isSpace l) →
          (∀ j, j < k → Continued isSpace isFrom (l :: ls.take j)) →
          (k = ls.length ∨ ¬ Continued isSpace isFrom (l :: ls.take k)) →
          ∃ m, m ≤ n ∧ Header isSpace ((l :: ls).take m) ((l :: ls).drop m) ∧
            Rest isSpace ((l :: ls).drop m) ∧
            ((m = 0 ∧ findGo isSpace k (i + 1) (i + 1 + k) ls = idx) ∨
              (0 < m ∧ findGo isSpace k (i + 1) (i + 1 + k) ls = i + m)) := by
        intro isFrom k hk hhead hcont hcomp
        obtain ⟨m, h1, h2, h3, h4⟩ := ih (ls.length - k) (by omega) (ls.drop k) (i + 1 + k) (i + 1 + k)
          (by simp)
        have hm : m + k ≤ ls.length := by omega
        refine ⟨1 + k + m, by omega, ?_, ?_, Or.inr ⟨by omega, ?_⟩⟩
        · have e1 : (l :: ls).take (1 + k + m) = l :: ls.take k ++ (ls.drop k).take m := by
            have : 1 + k + m = (k + m) + 1 := by omega
            rw [this, List.take_succ_cons, List.take_add]; rfl
          have e2 : (l :: ls).drop (1 + k + m) = (ls.drop k).drop m := by
            have : 1 + k + m = (k + m) + 1 := by omega
            rw [this, List.drop_succ_cons, List.drop_drop]
          rw [e1, e2]
          refine .stmt isFrom l _ _ _ hhead ?_ ?_ h2
          · intro j hj
            simp at hj
            have : (ls.take k).take j = ls.take j := by
              rw [List.take_take]; congr 1; omega
            rw [this]; exact hcont j (by omega)
          · rcases hcomp with e | hnc
            · right; rw [e]; simp
            · exact Or.inl hnc
        · have e2 : (l :: ls).drop (1 + k + m) = (ls.drop k).drop m := by
            have : 1 + k + m = (k + m) + 1 := by omega
            rw [this, List.drop_succ_cons, List.drop_drop]
          rw [e2]; exact h3
        · rw [findGo_skip _ _ _ _ _ hk]
          rcases h4 with ⟨e, h4⟩ | ⟨_, h4⟩ <;> rw [h4] <;> omega
      simp only [findGo]
      by_cases hp : Passive isSpace l
      · rw [if_pos (by unfold Passive at hp; exact hp)]
        obtain ⟨m, h1, h2, h3, h4⟩ := ih ls.length (by omega) ls (i + 1) idx rfl
        rcases h4 with ⟨e, h4⟩ | ⟨hm, h4⟩
        · subst e
          exact ⟨0, by omega, .nil _, .passive l ls hp (by simpa using h3), Or.inl ⟨rfl, h4⟩⟩
        · refine ⟨m + 1, by omega, ?_, by simpa using h3, Or.inr ⟨by omega, by rw [h4]; omega⟩⟩
          simpa using Header.passive l _ _ hp h2
      · rw [if_neg (by unfold Passive at hp; exact hp)]
        by_cases hi : ImportHead isSpace l
        · rw [if_pos (by unfold ImportHead at hi; exact hi)]
          obtain ⟨h1, h2, h3⟩ := importCont_spec isSpace [] l ls
          exact stmtCase false _ h1 (by simpa using hi) h2 h3
        · rw [if_neg (by unfold ImportHead at hi; exact hi)]
          by_cases hf : FromHead isSpace l
          · rw [if_pos (by unfold FromHead at hf; exact hf)]
            obtain ⟨h1, h2, h3⟩ := fromCont_spec isSpace [] (parenDelta l) (hasParen l) l ls
              (by simp [depth]) (by simp)
            exact stmtCase true _ h1 (by simpa using hf) h2 h3
          · rw [if_neg (by unfold FromHead at hf; exact hf)]
            exact ⟨0, by omega, .nil _, .code l ls hp hi hf, Or.inl ⟨rfl, rfl⟩⟩

/-- **C05.** The insertion point cuts the lines of the file in two: before it there are only blank lines,
comments and whole import statements (each statement runs exactly as long as backslashes and open parentheses
continue it), after it come no further imports before the first line of code. -/
theorem C05_insertion_point_partial (isSpace : Char → Bool) (lines : List Str) :
    findIdx isSpace lines ≤ lines.length ∧
    Header isSpace (lines.take (findIdx isSpace lines)) (lines.drop (findIdx isSpace lines)) ∧
    Rest isSpace (lines.drop (findIdx isSpace lines)) := by
  obtain ⟨n, h1, h2, h3, h4⟩ := findGo_spec isSpace lines 0 0
  have : findIdx isSpace lines = n := by
    unfold findIdx
    rcases h4 with ⟨e, h4⟩ | ⟨_, h4⟩ <;> rw [h4] <;> omega
  rw [this]
  exact ⟨h1, h2, h3⟩

/-- Parenthesised and backslash-continued imports are passed over as a whole. -/
example : findIdx Char.isWhitespace
    [py"# c", py"from a import (b,", py"   c)", py"import d, \\", py"  e", py"", py"x = 1", py"import f"] = 5 := by
  decide

/-- The parentheses are counted in the text of the line, comments and strings included: a `)` in a comment makes
the insertion point fall inside a parenthesised import. -/
theorem C05_comment_negative : findIdx Char.isWhitespace
    [py"from a import (b,  # :)", py"    c)", py"x = 1"] = 1 := by decide

/-- A module docstring ends the header at once, so the block is put before a `from __future__` import that
follows the docstring (which Python then rejects). -/
theorem C05_future_negative : findIdx Char.isWhitespace
    [py"\"Doc.\"", py"from __future__ import annotations", py"x = 1"] = 0 := by decide

/-! ## C61: the text of the helper block -/

theorem splitOn_append_nl (a b : Str) : Str.splitOn '\n' (a ++ '\n' :: b) = Str.splitOn '\n' a ++ Str.splitOn '\n' b := by
  induction a with
  | nil => simp [Str.splitOn]
  | cons x a ih =>
    simp only [List.cons_append, Str.splitOn]
    split
    · rw [ih]; rfl
    · rw [ih]
      cases h : Str.splitOn '\n' a with
      | nil => exact absurd h (Str.splitOn_ne_nil _ _)
      | cons p ps => rfl

theorem splitOn_join_nl (ps : List Str) (h : ps ≠ []) :
    Str.splitOn '\n' (Str.join py"\n" ps) = ps.flatMap (Str.splitOn '\n') := by
  induction ps with
  | nil => exact absurd rfl h
  | cons p ps ih =>
    cases ps with
    | nil => simp
    | cons q qs =>
      rw [Str.join_cons_cons, List.append_assoc, List.cons_append, List.nil_append, splitOn_append_nl,
        ih (by simp)]
      simp

/-- **C61.** The lines of the helper text: the helpers stand between two comment lines, each with all its lines and in
order, and nothing else is there; in the helper file of directory mode `import paddle` comes first. -/
theorem C61_block_lines (m : CodeMap) :
    Str.splitOn '\n' (insertCode false m) =
      [[], py"############################## 相关utils函数，如下 ##############################"]
        ++ m.values.flatMap (Str.splitOn '\n')
        ++ [py"############################## 相关utils函数，如上 ##############################", [], []] ∧
    Str.splitOn '\n' (insertCode true m) =
      [[], py"import paddle", [], [],
        py"############################## 相关utils函数，如下 ##############################",
        py"############################ PaConvert 自动生成的代码 ###########################"]
        ++ m.values.flatMap (Str.splitOn '\n')
        ++ [py"############################## 相关utils函数，如上 ##############################", [], []] := by
  have e1 : Str.splitOn '\n' startContent =
      [[], py"############################## 相关utils函数，如下 ##############################"] := by decide
  have e2 : Str.splitOn '\n' endContent =
      [py"############################## 相关utils函数，如上 ##############################", [], []] := by decide
  have e3 : Str.splitOn '\n' initContent =
      [py"############################ PaConvert 自动生成的代码 ###########################"] := by decide
  have e4 : Str.splitOn '\n' py"\nimport paddle\n" = [[], py"import paddle", []] := by decide
  constructor
  · rw [insertCode, splitOn_join_nl _ (by simp)]
    simp only [Bool.false_eq_true, if_false, List.flatMap_append, List.flatMap_cons, List.flatMap_nil, e1, e2,
      List.append_nil]
  · rw [insertCode, splitOn_join_nl _ (by simp)]
    simp only [if_true, List.flatMap_append, List.flatMap_cons, List.flatMap_nil, e1, e2, e3, e4, List.append_nil,
      List.append_assoc, List.cons_append, List.nil_append]

example : Str.splitOn '\n' (insertCode false [(0, py"def f():\n    pass")]) =
    [[], py"############################## 相关utils函数，如下 ##############################", py"def f():", py"    pass",
     py"############################## 相关utils函数，如上 ##############################", [], []] := by decide

/-! ## C06: one helper object per process -/

/-- **C06 (partial).** The first run of a process writes its helpers, and nothing else, into its own output
directory. Missing: later runs of the same process, for which the claim is false (`C06_negative`). -/
theorem C06_first_run_partial (hash : Str → Int) (fs : Files) (outDir : Str) (codes : List Str)
    (h : Helper) (fs' : Files) (hr : runDir hash none fs outDir codes = some (h, fs')) :
    (∀ f, f ≠ outDir ++ py"/paddle_utils.py" → fs'.get? f = fs.get? f) ∧
    (codes ≠ [] → ∃ m, addAll hash [] codes = some m ∧
      fs'.get? (outDir ++ py"/paddle_utils.py") = some (insertCode true m)) ∧
    (codes = [] → fs' = fs) := by
  simp only [runDir, construct] at hr
  split at hr
  · simp at hr
  · next m hm =>
    have hne : codes ≠ [] → m ≠ [] := by
      intro hc e
      obtain ⟨c, cs, rfl⟩ := List.exists_cons_of_ne_nil hc
      have := (C03_helpers_complete hash (c :: cs) m hm (rstripNl c)).2 ⟨c, by simp, rfl⟩
      rw [e] at this; simp [Dict.values] at this
    split at hr
    · next e =>
      have e2 := Prod.mk.inj (Option.some.inj hr)
      rw [← e2.2]
      exact ⟨fun _ _ => rfl, fun hc => absurd e (hne hc), fun _ => rfl⟩
    · next e =>
      have e2 := Prod.mk.inj (Option.some.inj hr)
      rw [← e2.2]
      refine ⟨fun f hf => Dict.get?_set_ne _ (Ne.symm hf) _, fun _ => ⟨m, hm, by simp⟩, ?_⟩
      intro hc
      subst hc
      simp [addAll] at hm
      exact absurd hm e

example : runDir (fun _ => 0) none [] py"/o" [py"def f(): pass"]
    = some (⟨some py"/o/paddle_utils.py", true, []⟩,
        [(py"/o/paddle_utils.py", insertCode true [(0, py"def f(): pass")])]) := by rfl

/-- **C06 is false** for a second run in the same process: its helpers are written into the output directory of
the first run, where they replace the first run's helper file. -/
theorem C06_negative : ∃ (h1 h2 : Helper) (fs1 fs2 : Files),
    runDir (fun _ => 0) none [] py"/o1" [py"def f(): pass"] = some (h1, fs1) ∧
    runDir (fun _ => 0) (some h1) fs1 py"/o2" [py"def g(): pass"] = some (h2, fs2) ∧
    fs2.get? py"/o2/paddle_utils.py" = none ∧
    fs1.get? py"/o1/paddle_utils.py" = some (insertCode true [(0, py"def f(): pass")]) ∧
    fs2.get? py"/o1/paddle_utils.py" = some (insertCode true [(0, py"def g(): pass")]) :=
  ⟨_, _, _, _, rfl, rfl, by rfl, by rfl, by rfl⟩

/-- **C06, what a later run inherits.** After a run that returns, no helper is left over in the helper object: a later
run of the process writes exactly the helpers requested by it, although (`C06_negative`) into the directory of the first
run. -/
theorem C06_no_leftovers (hash : Str → Int) (fs fs' fs'' : Files) (outDir outDir' : Str) (codes codes' : List Str)
    (h h' : Helper) (hr : runDir hash none fs outDir codes = some (h, fs'))
    (hr' : runDir hash (some h) fs' outDir' codes' = some (h', fs'')) (hne : codes' ≠ []) :
    ∃ m, addAll hash [] codes' = some m ∧ fs''.get? (outDir ++ py"/paddle_utils.py") = some (insertCode true m) ∧
      ∀ f, f ≠ outDir ++ py"/paddle_utils.py" → fs''.get? f = fs'.get? f := by
  have hh : h = ⟨some (outDir ++ py"/paddle_utils.py"), true, []⟩ := by
    simp only [runDir, construct] at hr
    split at hr
    · simp at hr
    · next m hm =>
      split at hr
      · next e => simp at hr; rw [← hr.1, e]
      · simp at hr; exact hr.1.symm
  subst hh
  simp only [runDir, construct] at hr'
  split at hr'
  · simp at hr'
  · next m hm =>
    have : m ≠ [] := by
      intro e
      obtain ⟨c, cs, rfl⟩ := List.exists_cons_of_ne_nil hne
      have := (C03_helpers_complete hash (c :: cs) m hm (rstripNl c)).2 ⟨c, by simp, rfl⟩
      rw [e] at this; simp [Dict.values] at this
    rw [if_neg this] at hr'
    simp at hr'
    refine ⟨m, hm, by rw [← hr'.2]; simp, ?_⟩
    intro f hf
    rw [← hr'.2, Dict.get?_set_ne _ (Ne.symm hf)]

end Verif.Utils

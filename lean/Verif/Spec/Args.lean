import Verif.Py.Str

/-!
# Reading an argument list back

A reader of Python code splits an argument list at the commas that are outside brackets and quotes. The reader is
described by a small automaton (`Lexer`); the theorems hold for every automaton that, outside brackets and quotes,
ignores the characters that open neither.
-/

namespace Verif.Spec
open Verif

/-- The parameters that can be given by position: those before the marker `*`, as in a Python signature. -/
def positional (params : List Str) : List Str := params.takeWhile (· ≠ py"*")

/-- Characters that may change the state of a reader that is outside brackets and quotes. -/
def structural : List Char := ['(', ')', '[', ']', '{', '}', '"', '\'', '#', '\\']

structure Lexer where
  σ : Type
  [dec : DecidableEq σ]
  /-- the state outside brackets and quotes -/
  top : σ
  step : σ → Char → σ
  plain : ∀ c, c ∉ structural → step top c = top

attribute [instance] Lexer.dec

/-- State after reading a text. -/
def Lexer.run (L : Lexer) (s : L.σ) (t : Str) : L.σ := t.foldl L.step s

/-- Split at the top-level commas. -/
def Lexer.pieces (L : Lexer) : L.σ → Str → List Str
  | _, [] => [[]]
  | s, c :: cs =>
    if s = L.top ∧ c = ',' then [] :: L.pieces s cs
    else match L.pieces (L.step s c) cs with
      | [] => [[c]]
      | p :: ps => (c :: p) :: ps

/-- The arguments written in an argument list: split at top-level commas, remove blanks in front. -/
def Lexer.splitArgs (L : Lexer) (t : Str) : List Str :=
  if t = [] then [] else (L.pieces L.top t).map (fun p => p.dropWhile (· == ' '))

/-- A text that is one argument: brackets and quotes are closed, no comma outside them, not empty, no blank in
front. -/
structure Closed (L : Lexer) (t : Str) : Prop where
  ne : t ≠ []
  noBlank : ∀ c u, t = c :: u → c ≠ ' '
  ends : L.run L.top t = L.top
  noComma : ∀ u v, t = u ++ ',' :: v → L.run L.top u ≠ L.top

/-- A simple reader: brackets nest, quotes hide everything up to the same quote. The state is the list of open
brackets and quotes. -/
def simpleLexer : Lexer where
  σ := List Char
  top := []
  step s c :=
    match s with
    | '"' :: s' => if c = '"' then s' else s
    | '\'' :: s' => if c = '\'' then s' else s
    | s => if c ∈ ['(', '[', '{', '"', '\''] then c :: s else if c ∈ [')', ']', '}'] then s.tail else s
  plain := by
    intro c h
    have h1 : c ∉ ['(', '[', '{', '"', '\''] := by
      intro hm; apply h; simp [structural] at hm ⊢; grind
    have h2 : c ∉ [')', ']', '}'] := by
      intro hm; apply h; simp [structural] at hm ⊢; grind
    simp only [if_neg h1, if_neg h2]

/-! ## The reader inverts `", ".join` -/

theorem pieces_append_comma (L : Lexer) (s : L.σ) (t rest : Str) (he : L.run s t = L.top)
    (hc : ∀ u v, t = u ++ ',' :: v → L.run s u ≠ L.top) :
    L.pieces s (t ++ ',' :: rest) = t :: L.pieces L.top rest := by
  induction t generalizing s with
  | nil =>
    have : s = L.top := by simpa [Lexer.run] using he
    subst this
    simp [Lexer.pieces]
  | cons c cs ih =>
    have hn : ¬ (s = L.top ∧ c = ',') := by
      rintro ⟨e1, e2⟩
      exact hc [] cs (by simp [e2]) (by simpa [Lexer.run] using e1)
    simp only [List.cons_append, Lexer.pieces, if_neg hn]
    rw [ih (L.step s c) he (fun u v e => by
      have := hc (c :: u) v (by simp [e])
      simpa [Lexer.run] using this)]

theorem pieces_closed (L : Lexer) (s : L.σ) (t : Str)
    (hc : ∀ u v, t = u ++ ',' :: v → L.run s u ≠ L.top) : L.pieces s t = [t] := by
  induction t generalizing s with
  | nil => simp [Lexer.pieces]
  | cons c cs ih =>
    have hn : ¬ (s = L.top ∧ c = ',') := by
      rintro ⟨e1, e2⟩
      exact hc [] cs (by simp [e2]) (by simpa [Lexer.run] using e1)
    simp only [Lexer.pieces, if_neg hn]
    rw [ih (L.step s c) (fun u v e => by
      have := hc (c :: u) v (by simp [e])
      simpa [Lexer.run] using this)]

theorem dropWhile_closed {L : Lexer} {t : Str} (h : Closed L t) : t.dropWhile (· == ' ') = t := by
  cases t with
  | nil => rfl
  | cons c u =>
    have := h.noBlank c u rfl
    simp [this]

/-- Splitting inverts joining. -/
theorem splitArgs_join (L : Lexer) (ps : List Str) (h : ∀ p ∈ ps, Closed L p) :
    L.splitArgs (Str.join py", " ps) = ps := by
  have hcomma : L.step L.top ' ' = L.top := L.plain ' ' (by decide)
  have gen : ∀ ps : List Str, ps ≠ [] → (∀ p ∈ ps, Closed L p) →
      ((L.pieces L.top (Str.join py", " ps)).map (fun p => p.dropWhile (· == ' ')) = ps ∧
       (L.pieces L.top (' ' :: Str.join py", " ps)).map (fun p => p.dropWhile (· == ' ')) = ps) := by
    intro ps
    induction ps with
    | nil => intro h; exact absurd rfl h
    | cons p ps ih =>
      intro _ h
      have hp := h p (by simp)
      have e1 : (L.pieces L.top (Str.join py", " (p :: ps))).map (fun p => p.dropWhile (· == ' ')) = p :: ps := by
        cases ps with
        | nil =>
          simp only [Str.join_single]
          rw [pieces_closed L L.top p hp.noComma]
          simp [dropWhile_closed hp]
        | cons q qs =>
          rw [Str.join_cons_cons]
          have : p ++ py", " ++ Str.join py", " (q :: qs) = p ++ ',' :: (' ' :: Str.join py", " (q :: qs)) := by simp
          rw [this, pieces_append_comma L L.top p _ hp.ends hp.noComma]
          simp only [List.map_cons, dropWhile_closed hp]
          rw [(ih (by simp) (fun r hr => h r (by simp [hr]))).2]
      refine ⟨e1, ?_⟩
      have hn : ¬ (L.top = L.top ∧ ' ' = ',') := by rintro ⟨_, e⟩; exact absurd e (by decide)
      rw [Lexer.pieces, if_neg hn, hcomma]
      cases hpc : L.pieces L.top (Str.join py", " (p :: ps)) with
      | nil => rw [hpc] at e1; simp at e1
      | cons a as => rw [hpc] at e1; simpa using e1
  cases ps with
  | nil => simp [Lexer.splitArgs]
  | cons p ps =>
    have hp := h p (by simp)
    have hne : Str.join py", " (p :: ps) ≠ [] := by
      cases ps with
      | nil => simpa using hp.ne
      | cons q qs => rw [Str.join_cons_cons]; simp
    rw [Lexer.splitArgs, if_neg hne]
    exact (gen (p :: ps) (by simp) h).1

theorem run_plain (L : Lexer) (k : Str) (hk : ∀ c ∈ k, c ∉ structural) : L.run L.top k = L.top := by
  induction k with
  | nil => rfl
  | cons c cs ih =>
    simp only [Lexer.run, List.foldl_cons]
    rw [L.plain c (hk c (by simp))]
    exact ih (fun d hd => hk d (by simp [hd]))

/-- A plain beginning without commas (such as `name=` or `**`) keeps a text one argument. -/
theorem Closed.prepend {L : Lexer} {k t : Str} (hk : ∀ c ∈ k, c ∉ structural ∧ c ≠ ',' ∧ c ≠ ' ')
    (h : Closed L t) : Closed L (k ++ t) := by
  have hrun := run_plain L k (fun c hc => (hk c hc).1)
  refine ⟨by simp [h.ne], ?_, ?_, ?_⟩
  · intro c u e
    cases k with
    | nil => exact h.noBlank c u (by simpa using e)
    | cons d k =>
      simp at e
      exact e.1 ▸ (hk d (by simp)).2.2
  · simp only [Lexer.run, List.foldl_append]
    have := h.ends
    simp only [Lexer.run] at this hrun
    rw [hrun, this]
  · intro u v e
    rcases List.append_eq_append_iff.1 e with ⟨w, h1, h2⟩ | ⟨w, h1, h2⟩
    · subst h1
      have := h.noComma w v h2
      simp only [Lexer.run, List.foldl_append] at this hrun ⊢
      rw [hrun]; exact this
    · cases w with
      | nil =>
        simp at h1 h2
        subst h1
        have := h.noComma [] v (by simp [← h2])
        exact absurd (by simp [Lexer.run]) this
      | cons d w =>
        simp at h2
        have : ',' ∈ k := by rw [h1, h2.1]; simp
        exact absurd rfl (hk ',' this).2.1

end Verif.Spec

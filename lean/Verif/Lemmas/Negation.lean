import Verif.Spec.Negation

namespace Verif.Spec
open Verif
open Verif.Spec.Python (Tok)

theorem readB_succ (f : Nat) : ∀ (l : Level) (ts : List Tok) {p : B × List Tok}, readB f l ts = some p →
    readB (f + 1) l ts = some p := by
  induction f with
  | zero => intro l ts p h; simp [readB] at h
  | succ f ih =>
    intro l ts p h
    cases l with
    | or =>
      rw [readB] at h ⊢
      split at h
      · next a rest ha =>
        rw [ih _ _ ha]
        obtain ⟨q, hq, rfl⟩ := Option.map_eq_some_iff.1 h
        simp [ih _ _ hq]
      · next r hr =>
        rw [ih _ _ h]
        split
        · next a rest heq =>
          exact absurd (h.trans heq) (hr a rest)
        · rfl
    | and =>
      rw [readB] at h ⊢
      split at h
      · next a rest ha =>
        rw [ih _ _ ha]
        obtain ⟨q, hq, rfl⟩ := Option.map_eq_some_iff.1 h
        simp [ih _ _ hq]
      · next r hr =>
        rw [ih _ _ h]
        split
        · next a rest heq =>
          exact absurd (h.trans heq) (hr a rest)
        · rfl
    | not =>
      unfold readB at h ⊢
      split at h
      · next rest =>
        obtain ⟨q, hq, rfl⟩ := Option.map_eq_some_iff.1 h
        simp [ih _ _ hq]
      · exact ih _ _ h
    | operand =>
      unfold readB at h ⊢
      split at h
      · next rest =>
        split at h
        · next a rest' ha => rw [ih _ _ ha]; exact h
        · simp at h
      · exact h
      · simp at h

theorem readB_le {f g : Nat} (hfg : f ≤ g) {l : Level} {ts : List Tok} {p : B × List Tok} (h : readB f l ts = some p) :
    readB g l ts = some p := by
  induction hfg with
  | refl => exact h
  | step _ ih => exact readB_succ _ _ _ ih

theorem lex_not (t : Str) : Python.lex .start (py"not " ++ t) = (Python.lex .start t).map ([.word py"not"] ++ ·) := by
  show Python.lex .start ('n' :: 'o' :: 't' :: ' ' :: t) = _
  simp only [Python.lex]
  have h1 : Python.step .start 'n' = some ([], .word ['n']) := by decide
  have h2 : Python.step (.word ['n']) 'o' = some ([], .word ['o', 'n']) := by decide
  have h3 : Python.step (.word ['o', 'n']) 't' = some ([], .word ['t', 'o', 'n']) := by decide
  have h4 : Python.step (.word ['t', 'o', 'n']) ' ' = some ([.word py"not"], .start) := by decide
  simp only [h1, h2, h3, h4, List.nil_append, Option.map_map]
  rfl

/-- `not` in front of an operand negates it. -/
theorem means_not {t : Str} {e : B} (h : Operand t e) : Means (py"not " ++ t) (.neg e) := by
  unfold Operand readAll at h
  simp only [Level.steps] at h
  obtain ⟨ts, hl, h⟩ := Option.bind_eq_some_iff.1 h
  split at h
  · next x hx =>
    simp only [Option.some.injEq] at h
    subst h
    unfold Means readAll
    simp only [Level.steps]
    rw [lex_not, hl]
    simp only [Option.map_some, Option.bind_some, List.singleton_append, List.length_cons]
    have hnot : readB (4 * ts.length + 5) .not ts = some (x, []) := by
      unfold readB
      split
      · next rest => simp [readB, Python.name, Python.value, Python.keywords] at hx
      · exact hx
    have h3 : readB (4 * ts.length + 6) .not (.word py"not" :: ts) = some (.neg x, []) := by
      rw [readB]; simp [hnot]
    have h2 : readB (4 * ts.length + 7) .and (.word py"not" :: ts) = some (.neg x, []) := by
      rw [readB, h3]
    have h1 : readB (4 * ts.length + 8) .or (.word py"not" :: ts) = some (.neg x, []) := by
      rw [readB, h2]
    rw [readB_le (show 4 * ts.length + 8 ≤ 4 * (ts.length + 1) + 7 by omega) h1]
  · simp at h

theorem stop_paren {m : Python.Mode} {ts : List Tok} (h : Python.flush m = some ts) : Python.ext m ')' = .stop := by
  cases m with
  | start => rfl
  | word s => rfl
  | num p => cases p <;> first | rfl | simp [Python.flush] at h
  | op s =>
    have : ∀ t ∈ Python.longOps, t.getLast? ≠ some ')' := by decide
    simp only [Python.ext]
    rw [if_neg]
    intro hc
    exact this _ (List.contains_iff_mem.1 hc) (by simp)
  | quote q => simp [Python.flush] at h
  | quote2 q => rfl
  | str q => simp [Python.flush] at h
  | esc q => simp [Python.flush] at h
  | long q n => simp [Python.flush] at h
  | longEsc q => simp [Python.flush] at h
  | nl n => rfl

theorem lex_paren (t : Str) : ∀ {m : Python.Mode} {ts : List Tok}, Python.lex m t = some ts →
    Python.lex m (t ++ py")") = some (ts ++ [.op py")"]) := by
  induction t with
  | nil =>
    intro m ts h
    simp only [Python.lex] at h
    have hb : Python.begins ')' = some (.op [')']) := by decide
    show (match Python.step m ')' with
      | none => none
      | some (us, m') => (Python.lex m' []).map (us ++ ·)) = _
    have hs : Python.step m ')' = some (ts, .op [')']) := by simp only [Python.step, stop_paren h, h, hb]
    rw [hs]
    simp [Python.lex, Python.flush]
  | cons c t ih =>
    intro m ts h
    simp only [Python.lex, List.cons_append] at h ⊢
    split at h
    · simp at h
    · next us m' hs =>
      obtain ⟨vs, hv, rfl⟩ := Option.map_eq_some_iff.1 h
      simp [ih hv]

theorem readB_paren (f : Nat) : ∀ (l : Level) (ts : List Tok) {a : B} {r : List Tok}, readB f l ts = some (a, r) →
    readB f l (ts ++ [.op py")"]) = some (a, r ++ [.op py")"]) := by
  induction f with
  | zero => intro l ts a r h; simp [readB] at h
  | succ f ih =>
    intro l ts a r h
    cases l with
    | or =>
      unfold readB at h ⊢
      split at h
      · next b rest hb =>
        obtain ⟨q, hq, hp⟩ := Option.map_eq_some_iff.1 h
        simp only [Prod.mk.injEq] at hp
        obtain ⟨rfl, rfl⟩ := hp
        simp [ih _ _ hb, ih _ _ hq]
      · next hr =>
        rw [ih _ _ h]
        split
        · next b rest heq =>
          simp only [Option.some.injEq, Prod.mk.injEq] at heq
          cases r with
          | nil => simp at heq
          | cons x r =>
            simp only [List.cons_append, List.cons.injEq] at heq
            exact absurd h (by rw [heq.2.1]; exact hr a r)
        · rfl
    | and =>
      unfold readB at h ⊢
      split at h
      · next b rest hb =>
        obtain ⟨q, hq, hp⟩ := Option.map_eq_some_iff.1 h
        simp only [Prod.mk.injEq] at hp
        obtain ⟨rfl, rfl⟩ := hp
        simp [ih _ _ hb, ih _ _ hq]
      · next hr =>
        rw [ih _ _ h]
        split
        · next b rest heq =>
          simp only [Option.some.injEq, Prod.mk.injEq] at heq
          cases r with
          | nil => simp at heq
          | cons x r =>
            simp only [List.cons_append, List.cons.injEq] at heq
            exact absurd h (by rw [heq.2.1]; exact hr a r)
        · rfl
    | not =>
      unfold readB at h
      split at h
      · next rest =>
        obtain ⟨q, hq, hp⟩ := Option.map_eq_some_iff.1 h
        simp only [Prod.mk.injEq] at hp
        obtain ⟨rfl, rfl⟩ := hp
        simp [readB, ih _ _ hq]
      · next hn =>
        unfold readB
        split
        · next rest heq =>
          cases ts with
          | nil => simp at heq
          | cons x ts =>
            simp only [List.cons_append, List.cons.injEq] at heq
            exact (hn ts (by rw [heq.1])).elim
        · exact ih _ _ h
    | operand =>
      unfold readB at h
      split at h
      · next rest =>
        split at h
        · next b rest' hb =>
          simp only [Option.some.injEq, Prod.mk.injEq] at h
          obtain ⟨rfl, rfl⟩ := h
          simp [readB, ih _ _ hb]
        · simp at h
      · next w rest =>
        unfold readB
        simp only [List.cons_append]
        split at h
        · next hw => simp only [Option.some.injEq, Prod.mk.injEq] at h; simp [hw, ← h.1, ← h.2]
        · next hw =>
          split at h
          · next hw2 => simp only [Option.some.injEq, Prod.mk.injEq] at h; simp [hw2, ← h.1, ← h.2]
          · next hw2 =>
            split at h
            · next hw3 => simp only [Option.some.injEq, Prod.mk.injEq] at h; simp_all
            · simp at h
      · simp at h

theorem lex_open (u : Str) : Python.lex (.op ['(']) u = (Python.lex .start u).map ([.op py"("] ++ ·) := by
  cases u with
  | nil => rfl
  | cons c u =>
    have hs : Python.ext (.op ['(']) c = .stop := by
      have : ∀ t ∈ Python.longOps, t.head? ≠ some '(' := by decide
      simp only [Python.ext]
      rw [if_neg]
      intro hc
      exact this _ (List.contains_iff_mem.1 hc) (by simp)
    have hs2 : Python.ext .start c = .stop := rfl
    simp only [Python.lex, Python.step, hs, hs2, Python.flush]
    cases Python.begins c with
    | none => rfl
    | some m => simp

/-- Parentheses around an expression make an operand of it. -/
theorem operand_paren {t : Str} {e : B} (h : Means t e) : Operand (py"(" ++ t ++ py")") e := by
  unfold Means readAll at h
  simp only [Level.steps] at h
  obtain ⟨ts, hl, h⟩ := Option.bind_eq_some_iff.1 h
  split at h
  · next x hx =>
    simp only [Option.some.injEq] at h
    subst h
    unfold Operand readAll
    simp only [Level.steps]
    have hlex : Python.lex .start (py"(" ++ t ++ py")") = some (.op py"(" :: (ts ++ [.op py")"])) := by
      have hp := lex_paren t hl
      show Python.lex .start ('(' :: (t ++ py")")) = _
      have hs : Python.step .start '(' = some ([], .op ['(']) := by decide
      simp only [Python.lex, hs, lex_open, hp]
      simp
    rw [hlex]
    have hor := readB_le (show 4 * ts.length + 7 ≤ 4 * ts.length + 11 by omega) (readB_paren _ _ _ hx)
    simp only [Option.bind_some, List.length_cons, List.length_append, List.length_nil]
    rw [show 4 * (ts.length + (0 + 1) + 1) + 4 = (4 * ts.length + 11) + 1 by omega]
    unfold readB
    simp [hor]
  · simp at h

theorem means_operand {t : Str} {e : B} (h : Operand t e) : Means t e := by
  unfold Operand readAll at h
  simp only [Level.steps] at h
  obtain ⟨ts, hl, h⟩ := Option.bind_eq_some_iff.1 h
  split at h
  · next x hx =>
    simp only [Option.some.injEq] at h
    subst h
    unfold Means readAll
    simp only [Level.steps]
    rw [hl]
    simp only [Option.bind_some]
    have h3 : readB (4 * ts.length + 5) .not ts = some (x, []) := by
      unfold readB
      split
      · next rest => simp [readB, Python.name, Python.value, Python.keywords] at hx
      · exact hx
    have h2 : readB (4 * ts.length + 6) .and ts = some (x, []) := by rw [readB, h3]
    have h1 : readB (4 * ts.length + 7) .or ts = some (x, []) := by rw [readB, h2]
    rw [h1]
  · simp at h

end Verif.Spec

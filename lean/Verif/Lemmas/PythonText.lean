import Verif.Lemmas.Python

/-! # Expressions inside a text -/

namespace Verif.Spec.Python
open Verif

/-- A character that can follow an expression of this level. -/
def okNext (n : Nat) (c : Char) : Bool :=
  match kind c with
  | .letter | .digit | .quote => false
  | _ => Nat.ble 14 n || !(c.toNat == 46)

/-- An expression can begin here. -/
def ready : Mode → Bool
  | .start | .nl _ | .op _ => true
  | _ => false

theorem longOps_last {s : Str} {c : Char} (h : longOps.contains (s ++ [c]) = true) : c ∈ ['*', '/', '=', '<', '>'] := by
  have hl : ∀ t ∈ longOps, ∃ c, t.getLast? = some c ∧ c ∈ ['*', '/', '=', '<', '>'] := by decide
  obtain ⟨d, hd, hm⟩ := hl _ (List.contains_iff_mem.1 h)
  simp at hd
  subst hd
  simpa using hm

theorem longOps_first {s : Str} {c : Char} (h : longOps.contains (s ++ [c]) = true) (hs : closing.contains s = true) : False := by
  have : ∀ t ∈ longOps, t.dropLast ∉ closing := by decide
  have := this _ (List.contains_iff_mem.1 h)
  simp at this
  exact this (List.contains_iff_mem.1 hs)

theorem first_stop {n : Nat} {c : Char} {t : Str} (he : Expr n (c :: t)) {m : Mode} (hm : ready m = true) : ext m c = .stop := by
  obtain ⟨hb, ts, hl, hg⟩ := he
  have hb := hb c t rfl
  cases m with
  | start => rfl
  | nl k => unfold ext; simp only; cases hk : kind c <;> simp_all
  | op s =>
    unfold ext
    simp only
    split
    · next hc =>
      exfalso
      have hmem := longOps_last hc
      have hkind : kind c = .punct := by
        simp only [List.mem_cons, List.not_mem_nil, or_false] at hmem
        rcases hmem with rfl | rfl | rfl | rfl | rfl <;> rfl
      have h0 : ext .start c = .stop := rfl
      have hbeg : begins c = some (.op [c]) := by simp [begins, hkind]
      simp only [lex, step, h0, flush, hbeg, Option.map_eq_some_iff, List.nil_append, exists_eq_right] at hl
      obtain ⟨s', r, rfl⟩ := lex_op hl
      obtain ⟨⟨x, r', hx, hf⟩, -⟩ := ends hg rfl
      simp only [joinLines, List.cons.injEq] at hx
      obtain ⟨rfl, -⟩ := hx
      simp only [First, reduceCtorEq, exists_false, false_or, Tok.op.injEq, List.cons_append, List.nil_append,
        List.cons.injEq] at hf
      simp only [List.mem_cons, List.not_mem_nil, or_false] at hmem
      rcases hmem with rfl | rfl | rfl | rfl | rfl <;> simp_all
    · rfl
  | _ => simp [ready] at hm

theorem last_stop {n : Nat} {t : Str} (he : Expr n t) {us r : List Tok} {m : Mode} (hr : run .start t = some (us, m))
    (hf : flush m = some r) {c : Char} (hc : okNext n c = true) : ext m c = .stop := by
  obtain ⟨-, ts, hl, hg⟩ := he
  have hts : ts = us ++ r := by
    have := lex_append (s := t) (t := []) hr (by simpa [lex] using hf)
    simp only [List.append_nil, hl, Option.some.injEq] at this
    exact this
  subst hts
  obtain ⟨-, x, y, hxy, hlast⟩ := ends hg rfl
  rw [joinLines_append] at hxy
  cases m with
  | start => rfl
  | word s => unfold ext; unfold okNext at hc; simp only; cases hk : kind c <;> simp_all
  | num p =>
    have hr1 : r = [.num] := by cases p <;> simp_all [flush]
    subst hr1
    simp only [joinLines] at hxy
    have := List.append_inj_right' hxy rfl
    simp only [List.cons.injEq, and_true] at this
    subst this
    have hn : n < 14 := by simpa [Last] using hlast
    have hdot : (c.toNat == 46) = false := by
      unfold okNext at hc
      have : Nat.ble 14 n = false := by
        rw [← Bool.not_eq_true, Nat.ble_eq]; omega
      rw [this] at hc
      cases hk : kind c <;> simp_all
    unfold ext inNum
    unfold okNext at hc
    cases p <;> cases hk : kind c <;> simp_all [flush]
  | op s =>
    simp only [flush, Option.some.injEq] at hf
    subst hf
    simp only [joinLines] at hxy
    have := List.append_inj_right' hxy rfl
    simp only [List.cons.injEq, and_true] at this
    subst this
    have hcl : closing.contains s = true := by
      simp only [Last, reduceCtorEq, exists_false, false_and, false_or, Tok.op.injEq] at hlast
      rcases hlast with rfl | rfl | rfl <;> rfl
    unfold ext
    simp only
    split
    · next h => exact (longOps_first h hcl).elim
    · rfl
  | quote2 q =>
    unfold ext
    unfold okNext at hc
    simp only
    cases hk : kind c <;> simp_all
  | nl k =>
    exfalso
    simp only [flush, Option.some.injEq] at hf
    subst hf
    have hno := noLine hg (by simp)
    have hb := balanced hg
    rw [joinLines_append] at hno hb
    by_cases hd : depthAfter 0 us = 0
    · simp only [joinLines, hd, if_true] at hno
      exact hno k (by simp)
    · simp only [joinLines, hd, if_false, List.append_nil] at hno hb
      have := (join_inside hb hno 0).2
      simp at this
      exact hd this
  | _ => simp [flush] at hf

theorem Expr.ne {n : Nat} {t : Str} (h : Expr n t) : t ≠ [] := by
  rintro rfl
  obtain ⟨-, ts, hl, hg⟩ := h
  simp only [lex, flush, Option.some.injEq] at hl
  subst hl
  obtain ⟨⟨x, y, hx, -⟩, -⟩ := ends hg rfl
  simp [joinLines] at hx

/-- An expression is read as such inside a text. -/
theorem lex_inside {n : Nat} {t u : Str} {m : Mode} (he : Expr n t) (hm : ready m = true) {fs us : List Tok}
    (hf : flush m = some fs) (hu : lex .start u = some us) (hn : ∀ c v, u = c :: v → okNext n c = true) :
    ∃ ts, lex m (t ++ u) = some (fs ++ (ts ++ us)) ∧ lex .start t = some ts := by
  have he' := he
  obtain ⟨-, ts, hl, hg⟩ := he'
  refine ⟨ts, ?_, hl⟩
  obtain ⟨vs, m', r, h1, h2, rfl⟩ := lex_run hl
  have h3 : lex m' u = some (r ++ us) := by
    cases u with
    | nil => simp only [lex, flush, Option.some.injEq] at hu; subst hu; simpa [lex] using h2
    | cons c v => exact lex_stop (last_stop he h1 h2 (hn c v rfl)) h2 hu
  have h4 : lex .start (t ++ u) = some (vs ++ r ++ us) := by
    rw [List.append_assoc]; exact lex_append h1 h3
  cases t with
  | nil => exact absurd rfl he.ne
  | cons c t => exact lex_stop (first_stop he hm) hf h4

theorem lex_hole {n : Nat} {t u : Str} {m : Mode} (he : Expr n t) (hm : ready m = true) {fs us : List Tok}
    (hf : flush m = some fs) (hu : lex .start u = some us) (hn : ∀ c v, u = c :: v → okNext n c = true) :
    ∃ ts, lex m (t ++ u) = some (fs ++ (ts ++ us)) ∧ G (.expr n) (joinLines 0 ts) := by
  obtain ⟨ts, h, hl⟩ := lex_inside he hm hf hu hn
  obtain ⟨-, ts', hl', hg⟩ := he
  rw [hl, Option.some.injEq] at hl'
  exact ⟨ts, h, hl' ▸ hg⟩

end Verif.Spec.Python

import Verif.Spec.Python

/-! # Facts about tokens and the grammar -/

namespace Verif.Spec.Python
open Verif

/-! ## Reading -/

theorem lex_stop {m : Mode} {c : Char} {cs : Str} (h : ext m c = .stop) {ts us : List Tok} (hf : flush m = some ts)
    (hl : lex .start (c :: cs) = some us) : lex m (c :: cs) = some (ts ++ us) := by
  have h0 : ext .start c = .stop := rfl
  simp only [lex, step, h0, flush] at hl
  simp only [lex, step, h, hf]
  cases hb : begins c with
  | none => rw [hb] at hl; simp at hl
  | some m' =>
    rw [hb] at hl
    simp only [List.nil_append] at hl ⊢
    cases hc : lex m' cs with
    | none => rw [hc] at hl; simp at hl
    | some vs => rw [hc] at hl; simp at hl; simp [hl]

/-- The tokens that are complete after a text, and what is being read then. -/
def run (m : Mode) : Str → Option (List Tok × Mode)
  | [] => some ([], m)
  | c :: cs =>
    match step m c with
    | none => none
    | some (ts, m') => (run m' cs).map fun r => (ts ++ r.1, r.2)

theorem lex_append {m m' : Mode} {s t : Str} {ts us : List Tok} (hr : run m s = some (ts, m')) (hl : lex m' t = some us) :
    lex m (s ++ t) = some (ts ++ us) := by
  induction s generalizing m ts with
  | nil => simp [run] at hr; obtain ⟨rfl, rfl⟩ := hr; simpa using hl
  | cons c cs ih =>
    simp only [run] at hr
    simp only [List.cons_append, lex]
    cases hs : step m c with
    | none => rw [hs] at hr; simp at hr
    | some x =>
      obtain ⟨us', m1⟩ := x
      rw [hs] at hr
      simp only [Option.map_eq_some_iff] at hr
      obtain ⟨⟨vs, m2⟩, hr, he⟩ := hr
      simp at he
      obtain ⟨rfl, rfl⟩ := he
      simp [ih hr]

theorem lex_run {m : Mode} {t : Str} {ts : List Tok} (h : lex m t = some ts) :
    ∃ us m' r, run m t = some (us, m') ∧ flush m' = some r ∧ ts = us ++ r := by
  induction t generalizing m ts with
  | nil => exact ⟨[], m, ts, rfl, h, rfl⟩
  | cons c cs ih =>
    simp only [lex] at h
    cases hs : step m c with
    | none => rw [hs] at h; simp at h
    | some x =>
      obtain ⟨us', m1⟩ := x
      rw [hs] at h
      simp only [Option.map_eq_some_iff] at h
      obtain ⟨vs, h, rfl⟩ := h
      obtain ⟨us, m', r, h1, h2, rfl⟩ := ih h
      exact ⟨us' ++ us, m', r, by simp [run, hs, h1], h2, by simp⟩

theorem run_append {m m' : Mode} {s t : Str} {ts : List Tok} (hr : run m s = some (ts, m')) :
    run m (s ++ t) = (run m' t).map fun r => (ts ++ r.1, r.2) := by
  induction s generalizing m ts with
  | nil =>
    simp [run] at hr; obtain ⟨rfl, rfl⟩ := hr
    cases h : run m t <;> simp [h]
  | cons c cs ih =>
    simp only [run] at hr
    simp only [List.cons_append, run]
    cases hs : step m c with
    | none => rw [hs] at hr; simp at hr
    | some x =>
      obtain ⟨us', m1⟩ := x
      rw [hs] at hr
      simp only [Option.map_eq_some_iff] at hr
      obtain ⟨⟨vs, m2⟩, hr, he⟩ := hr
      simp at he
      obtain ⟨rfl, rfl⟩ := he
      simp [ih hr, Function.comp_def]

/-- An operator is read as a whole. -/
theorem lex_op {s : Str} {cs : Str} {ts : List Tok} (h : lex (.op s) cs = some ts) : ∃ s' r, ts = .op (s ++ s') :: r := by
  induction cs generalizing s ts with
  | nil => exact ⟨[], [], by simpa [lex, flush] using h.symm⟩
  | cons c cs ih =>
    simp only [lex, step, ext] at h
    split at h
    · simp at h
    · next x us m' hs =>
      split at hs
      · next heq =>
        split at heq
        · simp only [Ext.more.injEq] at heq
          obtain ⟨rfl, rfl⟩ := heq
          simp only [Option.some.injEq, Prod.mk.injEq] at hs
          obtain ⟨rfl, rfl⟩ := hs
          simp only [Option.map_eq_some_iff] at h
          obtain ⟨vs, h, rfl⟩ := h
          obtain ⟨s', r, rfl⟩ := ih h
          exact ⟨c :: s', r, by simp⟩
        · simp at heq
      · simp at hs
      · split at hs
        · next heq _ =>
          simp only [flush, Option.some.injEq] at heq
          subst heq
          simp only [Option.some.injEq, Prod.mk.injEq] at hs
          obtain ⟨rfl, rfl⟩ := hs
          simp only [Option.map_eq_some_iff] at h
          obtain ⟨vs, h, rfl⟩ := h
          exact ⟨[], vs, by simp⟩
        · simp at hs

/-! ## Brackets -/

def depthAfter (d : Nat) (ts : List Tok) : Nat := ts.foldl depth d

theorem joinLines_append (d : Nat) (a b : List Tok) : joinLines d (a ++ b) = joinLines d a ++ joinLines (depthAfter d a) b := by
  induction a generalizing d with
  | nil => rfl
  | cons t a ih =>
    cases t with
    | nl n =>
      simp only [List.cons_append, joinLines, depthAfter, List.foldl_cons, depth]
      split
      · rw [ih]; rfl
      · rw [ih]; rfl
    | _ =>
      simp only [List.cons_append, joinLines, depthAfter, List.foldl_cons]
      rw [ih]; rfl

/-- The number of open brackets, if no bracket is closed that is not open. -/
def walk : Nat → List Tok → Option Nat
  | d, [] => some d
  | d, t :: ts =>
    match t with
    | .op s =>
      if opening.contains s then walk (d + 1) ts
      else if closing.contains s then (if d = 0 then none else walk (d - 1) ts)
      else walk d ts
    | _ => walk d ts

theorem walk_append (d : Nat) (a b : List Tok) : walk d (a ++ b) = (walk d a).bind fun e => walk e b := by
  induction a generalizing d with
  | nil => rfl
  | cons t a ih =>
    cases t with
    | op s =>
      simp only [List.cons_append, walk]
      split
      · exact ih _
      · split
        · split
          · rfl
          · exact ih _
        · exact ih _
    | _ => simp only [List.cons_append, walk]; exact ih _

theorem walk_shift {d e k : Nat} {ts : List Tok} (h : walk d ts = some e) : walk (d + k) ts = some (e + k) := by
  induction ts generalizing d with
  | nil => simp only [walk, Option.some.injEq] at h; simp [walk, h]
  | cons t a ih =>
    cases t with
    | op s =>
      simp only [walk] at h ⊢
      split at h
      · next h1 => rw [if_pos h1]; have := ih h; rw [show d + 1 + k = d + k + 1 by omega] at this; exact this
      · next h1 =>
        rw [if_neg h1]
        split at h
        · next h2 =>
          rw [if_pos h2]
          split at h
          · simp at h
          · next h3 =>
            rw [if_neg (by omega)]
            have := ih h
            rw [show d - 1 + k = d + k - 1 by omega] at this
            exact this
        · next h2 => rw [if_neg h2]; exact ih h
    | _ => simp only [walk] at h ⊢; exact ih h

def NoLine (ts : List Tok) : Prop := ∀ n, .nl n ∉ ts

/-- A text without an end of line outside brackets is read in the same way inside brackets. -/
theorem join_inside {k e : Nat} {ts : List Tok} (hw : walk k (joinLines k ts) = some e) (hn : NoLine (joinLines k ts)) (d : Nat) :
    joinLines (k + d) ts = joinLines k ts ∧ depthAfter (k + d) ts = e + d := by
  induction ts generalizing k with
  | nil => simp only [joinLines, walk, Option.some.injEq] at hw; simp [joinLines, depthAfter, hw]
  | cons t ts ih =>
    cases t with
    | nl n =>
      simp only [joinLines] at hw hn ⊢
      by_cases hk : k = 0
      · rw [if_pos hk] at hn; exact absurd (List.mem_cons_self ..) (hn n)
      · rw [if_neg hk] at hw hn ⊢
        rw [if_neg (by omega)]
        exact ih hw hn
    | op s =>
      have hn' : NoLine (joinLines (depth k (.op s)) ts) := fun n hm => hn n (List.mem_cons_of_mem _ hm)
      simp only [joinLines, walk] at hw
      have key : walk (depth k (.op s)) (joinLines (depth k (.op s)) ts) = some e ∧ depth (k + d) (.op s) = depth k (.op s) + d := by
        simp only [depth] at hw ⊢
        split at hw
        · next h1 =>
          simp only [if_pos h1] at hw ⊢
          exact ⟨hw, Nat.add_right_comm k d 1⟩
        · next h1 =>
          simp only [if_neg h1] at hw ⊢
          split at hw
          · next h2 =>
            simp only [if_pos h2] at hw ⊢
            split at hw
            · simp at hw
            · exact ⟨hw, by omega⟩
          · next h2 => simp only [if_neg h2] at hw ⊢; exact ⟨hw, trivial⟩
      have := ih key.1 hn'
      rw [← key.2] at this
      exact ⟨by simp only [joinLines]; rw [this.1], by simp only [depthAfter, List.foldl_cons]; exact this.2⟩
    | _ =>
      have hn' : NoLine (joinLines k ts) := fun n hm => hn n (List.mem_cons_of_mem _ hm)
      simp only [joinLines, walk, depth] at hw ⊢
      have := ih hw hn'
      exact ⟨by rw [this.1], by simp only [depthAfter, List.foldl_cons, depth]; exact this.2⟩

/-! ## The grammar -/

theorem binary_plain : ∀ p ∈ binary, (∀ d, walk d p.1 = some d) ∧ NoLine p.1 := by
  have hw : ∀ p ∈ binary, p.1.all (fun t => match t with
      | .op s => !opening.contains s && !closing.contains s
      | .nl _ => false
      | _ => true) = true := by decide
  intro p hp
  have h := List.all_eq_true.1 (hw p hp)
  constructor
  · generalize p.1 = ts at h
    induction ts with
    | nil => intro d; rfl
    | cons t ts ih =>
      intro d
      have ht := h t (List.mem_cons_self ..)
      have ih := ih fun x hx => h x (List.mem_cons_of_mem _ hx)
      cases t with
      | op s =>
        simp only [Bool.and_eq_true, Bool.not_eq_true'] at ht
        simp only [walk, ht.1, ht.2, Bool.false_eq_true, if_false]
        exact ih d
      | _ => exact ih d
  · intro n hm
    have := h _ hm
    simp at this

set_option linter.unusedSimpArgs false in
theorem balanced {c : Cat} {ts : List Tok} (h : G c ts) : walk 0 ts = some 0 := by
  have sh : ∀ {ts : List Tok} (d : Nat), walk 0 ts = some 0 → walk d ts = some d := fun d h => by
    simpa using walk_shift (k := d) h
  have o1 : opening.contains py"(" = true := by decide
  have o2 : opening.contains py"[" = true := by decide
  have o3 : opening.contains py"{" = true := by decide
  have c1 : opening.contains py")" = false ∧ closing.contains py")" = true := by decide
  have c2 : opening.contains py"]" = false ∧ closing.contains py"]" = true := by decide
  have c3 : opening.contains py"}" = false ∧ closing.contains py"}" = true := by decide
  have p1 : opening.contains py"." = false ∧ closing.contains py"." = false := by decide
  have p2 : opening.contains py"," = false ∧ closing.contains py"," = false := by decide
  have p3 : opening.contains py":" = false ∧ closing.contains py":" = false := by decide
  have p4 : opening.contains py"=" = false ∧ closing.contains py"=" = false := by decide
  have p5 : opening.contains py"*" = false ∧ closing.contains py"*" = false := by decide
  have p6 : opening.contains py"**" = false ∧ closing.contains py"**" = false := by decide
  have p7 : opening.contains py"-" = false ∧ closing.contains py"-" = false := by decide
  induction h with
  | bin ho _ _ iha ihb =>
    rw [walk_append, iha, Option.bind_some, walk_append, (binary_plain _ ho).1, Option.bind_some, ihb]
  | up _ ih => exact ih
  | oneItem _ ih => exact ih
  | oneExpr _ ih => exact ih
  | onlyKws _ ih => exact ih
  | oneArg _ ih => exact ih
  | some _ ih => exact ih
  | index _ ih => exact ih
  | oneSlice _ ih => exact ih
  | oneTarget _ ih => exact ih
  | value _ ih => exact ih
  | _ => simp only [walk, walk_append, Option.bind_some, o1, o2, o3, c1, c2, c3, p1, p2, p3, p4, p5, p6, p7, if_true,
      Bool.false_eq_true, if_false, sh, *] <;> rfl

theorem noLine {c : Cat} {ts : List Tok} (h : G c ts) (hc : c ≠ .code) : NoLine ts := by
  have key : ∀ {c : Cat} {ts : List Tok}, G c ts → c = .code ∨ NoLine ts := by
    intro c ts h
    induction h with
    | bin ho _ _ iha ihb =>
      right
      intro n hm
      have h0 := (binary_plain _ ho).2 n
      simp only [List.mem_append, NoLine] at *
      grind
    | last => left; rfl
    | lastLine => left; rfl
    | line => left; rfl
    | block => left; rfl
    | _ => right; simp_all [NoLine]
  exact (key h).resolve_left hc

/-- What an expression begins with. -/
def First (t : Tok) : Prop :=
  (∃ w, t = .word w) ∨ t = .num ∨ t = .str ∨ t = .op py"(" ∨ t = .op py"[" ∨ t = .op py"{" ∨ t = .op py"-"

/-- What it ends with. -/
def Last (n : Nat) (t : Tok) : Prop :=
  (∃ w, t = .word w) ∨ (t = .num ∧ n < 14) ∨ t = .str ∨ t = .op py")" ∨ t = .op py"]" ∨ t = .op py"}"

theorem ends {c : Cat} {ts : List Tok} (h : G c ts) {n : Nat} (hc : c = .expr n) :
    (∃ t r, ts = t :: r ∧ First t) ∧ ∃ r t, ts = r ++ [t] ∧ Last n t := by
  have app : ∀ {a b : List Tok}, (∃ t r, a = t :: r ∧ First t) → ∃ t r, a ++ b = t :: r ∧ First t := by
    rintro _ b ⟨t, r, rfl, h⟩; exact ⟨t, r ++ b, rfl, h⟩
  have pre : ∀ {m : Nat} {a b : List Tok}, (∃ r t, b = r ++ [t] ∧ Last m t) → ∃ r t, a ++ b = r ++ [t] ∧ Last m t := by
    rintro m a _ ⟨r, t, rfl, h⟩; exact ⟨a ++ r, t, by simp, h⟩
  have pre1 : ∀ {m : Nat} {x : Tok} {b : List Tok}, (∃ r t, b = r ++ [t] ∧ Last m t) → ∃ r t, x :: b = r ++ [t] ∧ Last m t := by
    rintro m x _ ⟨r, t, rfl, h⟩; exact ⟨x :: r, t, by simp, h⟩
  have mono : ∀ {m k : Nat} {b : List Tok}, (k < 14) → (∃ r t, b = r ++ [t] ∧ Last m t) → ∃ r t, b = r ++ [t] ∧ Last k t := by
    rintro m k _ hk ⟨r, t, rfl, h⟩
    refine ⟨r, t, rfl, ?_⟩
    unfold Last at h ⊢
    rcases h with h | h | h
    · exact .inl h
    · exact .inr (.inl ⟨h.1, hk⟩)
    · exact .inr (.inr h)
  have close : ∀ {b : List Tok} {m : Nat} {s : Str}, Last m (.op s) → ∃ r t, b ++ [.op s] = r ++ [t] ∧ Last m t :=
    fun h => ⟨_, _, rfl, h⟩
  have l1 : ∀ m, Last m (.op py")") := fun m => by simp [Last]
  have l2 : ∀ m, Last m (.op py"]") := fun m => by simp [Last]
  have l3 : ∀ m, Last m (.op py"}") := fun m => by simp [Last]
  have lw : ∀ m w, Last m (.word w) := fun m w => by simp [Last]
  induction h generalizing n with
  | val => cases hc; exact ⟨⟨_, _, rfl, by simp [First]⟩, ⟨[], _, rfl, lw _ _⟩⟩
  | str => exact ⟨⟨_, _, rfl, by simp [First]⟩, ⟨[], _, rfl, by simp [Last]⟩⟩
  | paren => exact ⟨⟨_, _, rfl, by simp [First]⟩, pre1 (close (l1 _))⟩
  | list => exact ⟨⟨_, _, rfl, by simp [First]⟩, pre1 (close (l2 _))⟩
  | each => exact ⟨⟨_, _, rfl, by simp [First]⟩, pre1 (pre (pre1 (pre1 (pre1 (close (l2 _))))))⟩
  | dict => exact ⟨⟨_, _, rfl, by simp [First]⟩, pre1 (close (l3 _))⟩
  | attr _ _ ih => exact ⟨app (ih rfl).1, pre (pre1 ⟨[], _, rfl, lw _ _⟩)⟩
  | call _ _ ih => exact ⟨app (ih rfl).1, pre (pre1 (close (l1 _)))⟩
  | sub _ _ ih => exact ⟨app (ih rfl).1, pre (pre1 (close (l2 _)))⟩
  | num =>
    cases hc
    exact ⟨⟨_, _, rfl, by simp [First]⟩, ⟨[], _, rfl, by simp [Last]⟩⟩
  | @up k a h ih =>
    cases hc
    refine ⟨(ih rfl).1, ?_⟩
    obtain ⟨r, t, rfl, hl⟩ := (ih rfl).2
    refine ⟨r, t, rfl, ?_⟩
    unfold Last at hl ⊢
    rcases hl with hl | hl | hl
    · exact .inl hl
    · exact .inr (.inl ⟨hl.1, by omega⟩)
    · exact .inr (.inr hl)
  | pow _ _ iha ihb => cases hc; exact ⟨app (iha rfl).1, pre (pre1 (mono (by omega) (ihb rfl).2))⟩
  | neg _ ih => cases hc; exact ⟨⟨_, _, rfl, by simp [First]⟩, pre1 (ih rfl).2⟩
  | @bin k o a b ho _ _ iha ihb =>
    cases hc
    have hk : k < 14 := by
      have : ∀ p ∈ binary, p.2 < 14 := by decide
      exact this _ ho
    exact ⟨app (iha rfl).1, pre (pre (mono hk (ihb rfl).2))⟩
  | not _ ih => cases hc; exact ⟨⟨_, _, rfl, by simp [First]⟩, pre1 (ih rfl).2⟩
  | cond _ _ _ iha _ ihc => cases hc; exact ⟨app (iha rfl).1, pre (pre1 (pre (pre1 (ihc rfl).2)))⟩
  | fn _ _ _ ihb => cases hc; exact ⟨⟨_, _, rfl, by simp [First]⟩, pre1 (pre (pre1 (ihb rfl).2))⟩
  | _ => cases hc

theorem G.weaken {n m : Nat} {ts : List Tok} (h : G (.expr m) ts) (hn : n ≤ m) : G (.expr n) ts := by
  induction m with
  | zero => have : n = 0 := by omega
            subst this; exact h
  | succ m ih =>
    by_cases he : n = m + 1
    · subst he; exact h
    · exact ih (.up h) (by omega)

end Verif.Spec.Python

import Verif.Lemmas.TemplateCalls
import Verif.Spec.Assigned

/-! The check of C91. -/

namespace Verif.Spec.Assigned
open Verif
open Verif.Template (Val kwsVal)

/-! ## The reader on `k=v, ...` in a call -/

theorem text_append (s : State) (t u : Str) : s.text (t ++ u) = (s.text t).text u := by simp [State.text]

theorem text_cons (s : State) (c : Char) (u : Str) : s.text (c :: u) = (s.char c).text u := rfl

theorem text_nil (s : State) : s.text [] = s := rfl

/-- A character that changes nothing after the first call of a line. -/
def dull (c : Char) : Bool :=
  !(c == '\'' || c == '"' || c == '\n' || c == '(' || c == '[' || c == '{' || c == ')' || c == ']' || c == '}')

theorem char_dull {s : State} (hq : s.quote = none) (hh : s.head = none) {c : Char} (hc : dull c = true) : s.char c = s := by
  obtain ⟨q, d, h, a⟩ := s
  simp only at hq hh; subst hq; subst hh
  simp only [dull, Bool.not_eq_true', Bool.or_eq_false_iff] at hc
  obtain ⟨⟨⟨⟨⟨⟨⟨⟨h1, h2⟩, h3⟩, h4⟩, h5⟩, h6⟩, h7⟩, h8⟩, h9⟩ := hc
  simp [State.char, h1, h2, h3, h4, h5, h6, h7, h8, h9]

theorem text_dull {s : State} (hq : s.quote = none) (hh : s.head = none) {t : Str} (ht : t.all dull = true) : s.text t = s := by
  induction t with
  | nil => rfl
  | cons c t ih =>
    simp only [List.all_cons, Bool.and_eq_true] at ht
    rw [text_cons, char_dull hq hh ht.1, ih ht.2]

theorem text_kws {s : State} (hq : s.quote = none) (hh : s.head = none) : ∀ d : Dict Str Val,
    (∀ kv ∈ d, kv.1.all dull = true ∧ s.text (kv.2.flatMap seen) = s) → s.text ((kwsVal d).flatMap seen) = s
  | [], _ => rfl
  | [(k, v)], h => by
    obtain ⟨h1, h2⟩ := h (k, v) (by simp)
    simp only [kwsVal, List.flatMap_cons, seen]
    rw [text_append, text_append, text_dull hq hh h1, text_dull hq hh (by decide), h2]
  | (k, v) :: x :: d, h => by
    obtain ⟨h1, h2⟩ := h (k, v) (by simp)
    have ih := text_kws hq hh (x :: d) fun kv hkv => h kv (List.mem_cons_of_mem _ hkv)
    show s.text ((.code (k ++ py"=") :: (v ++ .code py", " :: kwsVal (x :: d)) : List Piece).flatMap seen) = s
    simp only [List.flatMap_cons, List.flatMap_append, seen]
    have hk : s.text (k ++ py"=") = s := by rw [text_append, text_dull hq hh h1, text_dull hq hh (by decide)]
    have hv : s.text (v.flatMap seen) = s := h2
    rw [text_append, hk, text_append, hv, text_append, text_dull hq hh (by decide), ih]

end Verif.Spec.Assigned

/-! ## The check -/

namespace Verif.Template
open Verif
open Verif.Spec
open Verif.Spec.Assigned
open Verif.Matcher (Cfg)

/-- There is no end of a line in the rest of the code. -/
def restFlat (api : Val) (a : A) : List Q → Bool
  | [] => true
  | .kws ex :: qs =>
    a.ents.all (fun e => ex.contains e.key || e.key.all (· != '\n') && (e.val.flatMap Assigned.seen).all (· != '\n')) &&
      restFlat api a qs
  | q :: qs =>
    match q.val api a with
    | some v => (v.flatMap Assigned.seen).all (· != '\n') && restFlat api a qs
    | none => false

def targetsQ (api : Val) (a : A) (s : Assigned.State) : List Q → Option (List Str)
  | [] => some (s.text py"\n").assigned
  | .kws ex :: qs =>
    if s.head.isNone && restFlat api a (.kws ex :: qs) then some s.assigned
    else if s.quote.isNone && s.head.isNone &&
        a.ents.all (fun e => ex.contains e.key || e.key.all dull && decide (s.text (e.val.flatMap Assigned.seen) = s)) then
      targetsQ api a s qs
    else none
  | q :: qs =>
    match q.val api a with
    | some v => targetsQ api a (s.text (v.flatMap Assigned.seen)) qs
    | none => none

/-- All names that are assigned are generated or in the list. -/
def targetsFin (ws : List Str) (api : Val) (a : A) (qs : List Q) : Bool :=
  match targetsQ api a Assigned.first qs with
  | some l => l.all fun w => decide (Generated w) || ws.contains w
  | none => false

theorem flat_kws : ∀ d : Dict Str Val, (∀ kv ∈ d, kv.1.all (· != '\n') = true ∧ (kv.2.flatMap Assigned.seen).all (· != '\n') = true) →
    ((kwsVal d).flatMap Assigned.seen).all (· != '\n') = true
  | [], _ => rfl
  | [(k, v)], h => by
    obtain ⟨h1, h2⟩ := h (k, v) (by simp)
    simp only [kwsVal, List.flatMap_cons, Assigned.seen, List.all_append, h1, Bool.true_and]
    rw [h2]; decide
  | (k, v) :: x :: d, h => by
    obtain ⟨h1, h2⟩ := h (k, v) (by simp)
    have ih := flat_kws (x :: d) fun kv hkv => h kv (List.mem_cons_of_mem _ hkv)
    show ((.code (k ++ py"=") :: (v ++ .code py", " :: kwsVal (x :: d)) : List Piece).flatMap Assigned.seen).all (· != '\n') = true
    simp only [List.flatMap_cons, List.flatMap_append, Assigned.seen, List.all_append, h1, ih, Bool.true_and, Bool.and_true]
    rw [h2]; decide

theorem restFlat_sound {c : Call} {a : A} {s : St} (hrel : Rel c a s) (qs : List Q) (h : restFlat c.api a qs = true) {v : Val}
    (hv : evalAll c s qs = some v) : (v.flatMap Assigned.seen).all (· != '\n') = true := by
  fun_induction restFlat c.api a qs generalizing v with
  | case1 =>
    simp only [evalAll, Option.some.injEq] at hv
    subst hv; rfl
  | case2 ex qs ih =>
    rw [Bool.and_eq_true] at h
    simp only [evalAll, Q.eval] at hv
    split at hv
    · next w x h1 h2 =>
      simp only [Option.some.injEq] at h1 hv
      subst h1; subst hv
      rw [List.flatMap_append, List.all_append, ih h.2 h2, Bool.and_true]
      refine flat_kws _ fun kv hkv => ?_
      obtain ⟨hmem, hex⟩ := List.mem_filter.1 hkv
      obtain ⟨e, he, rfl⟩ := List.mem_map.1 (hrel.perm.mem_iff.1 hmem)
      have := List.all_eq_true.1 h.1 e (List.mem_filter.1 he).1
      rw [Bool.or_eq_true, Bool.and_eq_true] at this
      exact this.resolve_left (by simpa using hex)
    · simp at hv
  | case3 q qs hn w hw ih =>
    rw [Bool.and_eq_true] at h
    simp only [evalAll] at hv
    rw [val_eval hrel hw] at hv
    split at hv
    · next x y h1 h2 =>
      simp only [Option.some.injEq] at h1 hv
      subst h1; subst hv
      rw [List.flatMap_append, List.all_append, h.1, ih h.2 h2]; rfl
    · simp at hv
  | case4 => simp at h

theorem text_flat {t : Str} : ∀ {s : Assigned.State}, s.head = none → t.all (· != '\n') = true →
    (s.text t).head = none ∧ (s.text t).assigned = s.assigned := by
  induction t with
  | nil => exact fun h _ => ⟨h, rfl⟩
  | cons ch t ih =>
    intro s hh ht
    simp only [List.all_cons, Bool.and_eq_true, bne_iff_ne, ne_eq] at ht
    have hs : (s.char ch).head = none ∧ (s.char ch).assigned = s.assigned := by
      obtain ⟨q, d, hd, as⟩ := s
      simp only at hh; subst hh
      have : (ch == '\n') = false := by simpa using ht.1
      unfold Assigned.State.char
      split
      · exact ⟨rfl, rfl⟩
      · simp only [this, Bool.false_and]
        split
        · exact ⟨rfl, rfl⟩
        · exact ⟨rfl, rfl⟩
    rw [text_cons]
    have := ih hs.1 (by simpa using ht.2)
    exact ⟨this.1, this.2.trans hs.2⟩

theorem line_flat {s : Assigned.State} (hh : s.head = none) : (s.text py"\n").assigned = s.assigned := by
  obtain ⟨q, d, hd, as⟩ := s
  simp only at hh; subst hh
  simp only [text_cons, text_nil, Assigned.State.char]
  split
  · rfl
  · by_cases h : d = 0 <;> simp [h]

theorem targetsQ_sound {c : Call} {a : A} {s : St} (hrel : Rel c a s) (qs : List Q) (st : Assigned.State) {l : List Str}
    (h : targetsQ c.api a st qs = some l) {v : Val} (hv : evalAll c s qs = some v) :
    (st.text (v.flatMap Assigned.seen ++ py"\n")).assigned = l := by
  fun_induction targetsQ c.api a st qs generalizing v with
  | case1 s =>
    simp only [Option.some.injEq] at h
    simp only [evalAll, Option.some.injEq] at hv
    subst h; subst hv; rfl
  | case2 st ex qs hok =>
    simp only [Option.some.injEq] at h
    subst h
    rw [Bool.and_eq_true, Option.isNone_iff_eq_none] at hok
    have := text_flat hok.1 (restFlat_sound hrel _ hok.2 hv)
    rw [text_append, line_flat this.1, this.2]
  | case3 st ex qs hnot hok ih =>
    simp only [evalAll, Q.eval] at hv
    split at hv
    · next w x h1 h2 =>
      simp only [Option.some.injEq] at h1 hv
      subst h1; subst hv
      rw [← ih h h2]
      simp only [Bool.and_eq_true, Option.isNone_iff_eq_none] at hok
      obtain ⟨⟨hq, hh⟩, hall⟩ := hok
      rw [List.flatMap_append, List.append_assoc, text_append]
      congr 2
      refine text_kws hq hh _ fun kv hkv => ?_
      obtain ⟨hmem, hex⟩ := List.mem_filter.1 hkv
      obtain ⟨e, he, rfl⟩ := List.mem_map.1 (hrel.perm.mem_iff.1 hmem)
      have := List.all_eq_true.1 hall e (List.mem_filter.1 he).1
      simp only [Bool.or_eq_true, Bool.and_eq_true, decide_eq_true_eq] at this
      exact this.resolve_left (by simpa using hex)
    · simp at hv
  | case4 => simp at h
  | case5 st q qs hn w hw ih =>
    simp only [evalAll] at hv
    rw [val_eval hrel hw] at hv
    split at hv
    · next x y h1 h2 =>
      simp only [Option.some.injEq] at h1 hv
      subst h1; subst hv
      rw [List.flatMap_append, List.append_assoc, text_append]
      exact ih h h2
    · simp at hv
  | case6 => simp at h

theorem targetsFin_sound {ws : List Str} {c : Call} {a : A} {s : St} (hrel : Rel c a s) {qs : List Q}
    (h : targetsFin ws c.api a qs = true) {v : Val} (hv : evalAll c s qs = some v) :
    ∀ w ∈ assigned v, Generated w ∨ w ∈ ws := by
  unfold targetsFin at h
  split at h
  · next l hl =>
    unfold assigned
    rw [targetsQ_sound hrel qs Assigned.first hl hv]
    intro w hw
    simpa using List.all_eq_true.1 h w hw
  · simp at h

end Verif.Template

import Verif.Py.Str

/-!
# `re.sub` for patterns that never match the empty string

A compiled pattern is a function `m` that gets the character before the position (for look-behind) and the
rest of the text and returns the length of the match there, `0` meaning no match.  `sub m f` replaces the
non-overlapping matches, leftmost first, by `f matched`, like `re.sub(pattern, f, text)`.
-/

namespace Verif.Str

/-- Worker of `sub`: `prev` is the character before the position, `k` characters still belong to the last
match. -/
def subGo (m : Option Char → Str → Nat) (f : Str → Str) : Option Char → Nat → Str → Str
  | _, _, [] => []
  | _, k + 1, c :: cs => subGo m f (some c) k cs
  | prev, 0, c :: cs =>
    if m prev (c :: cs) = 0 then c :: subGo m f (some c) 0 cs
    else f ((c :: cs).take (m prev (c :: cs))) ++ subGo m f (some c) (m prev (c :: cs) - 1) cs

/-- `re.sub(pattern, f, s)`. -/
def sub (m : Option Char → Str → Nat) (f : Str → Str) (s : Str) : Str := subGo m f none 0 s

/-- The character before position `a.length` of `a ++ ..`, when `prev` stands before the whole text. -/
def prevChar (prev : Option Char) (a : Str) : Option Char := a.getLast?.or prev

/-- Specification of `re.sub`: the leftmost match is replaced, then the text after it is treated. -/
inductive SubAll (m : Option Char → Str → Nat) (f : Str → Str) : Option Char → Str → Str → Prop
  | done (prev : Option Char) (s : Str)
      (h : ∀ a b, s = a ++ b → b ≠ [] → m (prevChar prev a) b = 0) : SubAll m f prev s s
  | step (prev : Option Char) (a w b b' : Str)
      (hm : m (prevChar prev a) (w ++ b) = w.length) (hw : w ≠ [])
      (first : ∀ a' r, a = a' ++ r → r ≠ [] → m (prevChar prev a') (r ++ w ++ b) = 0)
      (rest : SubAll m f (prevChar prev (a ++ w)) b b') : SubAll m f prev (a ++ w ++ b) (a ++ f w ++ b')

/-- A match never reaches past the end of the text. -/
def Bounded (m : Option Char → Str → Nat) : Prop := ∀ p s, m p s ≤ s.length

@[simp] theorem prevChar_nil (p : Option Char) : prevChar p [] = p := by simp [prevChar]

theorem prevChar_cons (p : Option Char) (c : Char) (a : Str) :
    prevChar p (c :: a) = prevChar (some c) a := by
  cases a with
  | nil => simp [prevChar]
  | cons x a => simp [prevChar, List.getLast?_cons]

theorem prevChar_append (p : Option Char) (a b : Str) :
    prevChar p (a ++ b) = prevChar (prevChar p a) b := by
  induction a generalizing p with
  | nil => simp
  | cons c a ih => rw [List.cons_append, prevChar_cons, ih, prevChar_cons]

theorem subGo_drop (m : Option Char → Str → Nat) (f : Str → Str) (p : Option Char) (k : Nat) (s : Str)
    (h : k ≤ s.length) : subGo m f p k s = subGo m f (prevChar p (s.take k)) 0 (s.drop k) := by
  induction k generalizing p s with
  | zero => simp
  | succ k ih =>
    cases s with
    | nil => simp at h
    | cons c cs =>
      simp only [subGo, List.take_succ_cons, List.drop_succ_cons, prevChar_cons]
      exact ih _ _ (by simpa using h)

theorem SubAll.cons {m : Option Char → Str → Nat} {f : Str → Str} {p : Option Char} {c : Char} {s t : Str}
    (h : SubAll m f (some c) s t) (h0 : m p (c :: s) = 0) : SubAll m f p (c :: s) (c :: t) := by
  cases h with
  | done _ _ h =>
    refine .done _ _ ?_
    intro a b e hb
    cases a with
    | nil => simp at e; rw [← e]; simpa using h0
    | cons x a =>
      simp at e
      rw [← e.1, prevChar_cons]
      exact h a b e.2 hb
  | step _ a w b b' hm hw first rest =>
    refine SubAll.step p (c :: a) w b b' (by rw [prevChar_cons]; exact hm) hw ?_
      (by rw [List.cons_append, prevChar_cons]; exact rest)
    intro a' r e hr
    cases a' with
    | nil => simp at e; rw [← e]; simpa using h0
    | cons x a' =>
      simp at e
      rw [← e.1, prevChar_cons]
      exact first a' r e.2 hr

theorem subGo_spec {m : Option Char → Str → Nat} (hb : Bounded m) (f : Str → Str) (p : Option Char)
    (s : Str) : SubAll m f p s (subGo m f p 0 s) := by
  generalize hn : s.length = n
  induction n using Nat.strongRecOn generalizing s p with
  | ind n ih =>
    cases s with
    | nil =>
      refine .done _ _ ?_
      intro a b e hb; simp at e; exact absurd e.2 hb
    | cons c cs =>
      simp only [subGo]
      by_cases h0 : m p (c :: cs) = 0
      · rw [if_pos h0]
        exact (ih cs.length (by simp at hn; omega) (some c) cs rfl).cons h0
      · rw [if_neg h0]
        have hle := hb p (c :: cs)
        generalize hk : m p (c :: cs) = k at *
        cases k with
        | zero => exact absurd rfl h0
        | succ k =>
          simp at hle
          rw [Nat.add_sub_cancel, subGo_drop _ _ _ _ _ hle]
          have := ih (cs.drop k).length (by simp at hn ⊢; omega)
            (prevChar (some c) (cs.take k)) (cs.drop k) rfl
          have key := SubAll.step (m := m) (f := f) p [] (c :: cs.take k) (cs.drop k) _
            (by simp [hk, hle]) (by simp)
            (by intro a' r e hr; simp at e; exact absurd e.2 hr)
            (by simpa [prevChar_cons] using this)
          simpa using key

theorem sub_spec {m : Option Char → Str → Nat} (hb : Bounded m) (f : Str → Str) (s : Str) :
    SubAll m f none s (sub m f s) := subGo_spec hb f none s

/-- A substitution that has no match anywhere changes nothing. -/
theorem subGo_of_no_match {m : Option Char → Str → Nat} {f : Str → Str} {p : Option Char} {s : Str}
    (h : ∀ a b, s = a ++ b → b ≠ [] → m (prevChar p a) b = 0) : subGo m f p 0 s = s := by
  induction s generalizing p with
  | nil => rfl
  | cons c cs ih =>
    have h0 := h [] (c :: cs) rfl (by simp)
    simp only [prevChar_nil] at h0
    simp only [subGo, h0, if_true]
    rw [ih]
    intro a b e hb
    have := h (c :: a) b (by simp [e]) hb
    rwa [prevChar_cons] at this

/-- If `f` keeps the length of what it replaces, the substitution keeps the length. -/
theorem SubAll.length_eq {m : Option Char → Str → Nat} {f : Str → Str} (hf : ∀ w, (f w).length = w.length)
    {p : Option Char} {s t : Str} (h : SubAll m f p s t) : t.length = s.length := by
  induction h with
  | done => rfl
  | step p a w b b' hm hw first rest ih => simp [hf, ih]

/-- If `f` works character by character with `g`, then so does the substitution: each character stays or
becomes its image under `g`, and a changed character lies inside a match of the pattern. -/
theorem SubAll.pointwise {m : Option Char → Str → Nat} {g : Char → Char} {p : Option Char} {s t : Str}
    (h : SubAll m (List.map g) p s t) :
    ∀ (i : Nat) (x y : Char), s[i]? = some x → t[i]? = some y →
      y = x ∨ (y = g x ∧ ∃ a w b, s = a ++ w ++ b ∧ m (prevChar p a) (w ++ b) = w.length ∧
        a.length ≤ i ∧ i < a.length + w.length) := by
  induction h with
  | done =>
    intro i x y hx hy; rw [hx] at hy; left; exact (Option.some.inj hy).symm
  | step p a w b b' hm hw first rest ih =>
    intro i x y hx hy
    by_cases h1 : i < a.length
    · left
      rw [List.append_assoc, List.getElem?_append_left h1] at hx hy
      rw [hx] at hy; exact (Option.some.inj hy).symm
    · by_cases h2 : i < a.length + w.length
      · right
        rw [List.append_assoc, List.getElem?_append_right (by omega)] at hx hy
        rw [List.getElem?_append_left (by omega)] at hx
        rw [List.getElem?_append_left (by simp; omega)] at hy
        rw [List.getElem?_map, hx] at hy
        exact ⟨(Option.some.inj hy).symm, a, w, b, rfl, hm, by omega, h2⟩
      · rw [List.getElem?_append_right (by simp; omega)] at hx hy
        simp only [List.length_append, List.length_map] at hx hy
        rcases ih _ x y hx hy with h | ⟨h, a', w', b2, e, hm', l1, l2⟩
        · exact Or.inl h
        · right
          refine ⟨h, a ++ w ++ a', w', b2, by rw [e]; simp, ?_, ?_, ?_⟩
          · rw [prevChar_append]; exact hm'
          · simp; omega
          · simp; omega

theorem getElem?_mid {α : Type} {a w b : List α} {j : Nat} (h : a.length ≤ j ∧ j < a.length + w.length) :
    (a ++ w ++ b)[j]? = w[j - a.length]? := by
  rw [List.append_assoc, List.getElem?_append_right h.1, List.getElem?_append_left (by omega)]

/-- A changed character lies inside a match all of whose characters are replaced. -/
theorem SubAll.changed {m : Option Char → Str → Nat} {g : Char → Char} {p : Option Char} {s t : Str}
    (h : SubAll m (List.map g) p s t) :
    ∀ (i : Nat) (x y : Char), s[i]? = some x → t[i]? = some y → y ≠ x →
      ∃ a w b, s = a ++ w ++ b ∧ w ≠ [] ∧ m (prevChar p a) (w ++ b) = w.length ∧
        a.length ≤ i ∧ i < a.length + w.length ∧
        ∀ j, a.length ≤ j → j < a.length + w.length → t[j]? = s[j]?.map g := by
  induction h with
  | done =>
    intro i x y hx hy hne; rw [hx] at hy; exact absurd (Option.some.inj hy).symm hne
  | step p a w b b' hm hw first rest ih =>
    intro i x y hx hy hne
    by_cases h1 : i < a.length
    · rw [List.append_assoc, List.getElem?_append_left h1] at hx hy
      rw [hx] at hy; exact absurd (Option.some.inj hy).symm hne
    · by_cases h2 : i < a.length + w.length
      · refine ⟨a, w, b, rfl, hw, hm, by omega, h2, ?_⟩
        intro j j1 j2
        rw [getElem?_mid (by simpa using ⟨j1, j2⟩), getElem?_mid ⟨j1, j2⟩, List.getElem?_map]
      · rw [List.getElem?_append_right (by simp; omega)] at hx hy
        simp only [List.length_append, List.length_map] at hx hy
        obtain ⟨a', w', b2, e, hw', hm', l1, l2, l3⟩ := ih _ x y hx hy hne
        refine ⟨a ++ w ++ a', w', b2, by rw [e]; simp, hw', ?_, ?_, ?_, ?_⟩
        · rw [prevChar_append]; exact hm'
        · simp; omega
        · simp; omega
        · intro j j1 j2
          simp only [List.length_append] at j1 j2
          rw [List.getElem?_append_right (by simp; omega), List.getElem?_append_right (by simp; omega)]
          simp only [List.length_append, List.length_map]
          exact l3 _ (by omega) (by omega)

/-- A match is replaced, unless another match starts before it and reaches into it. -/
theorem SubAll.covers {m : Option Char → Str → Nat} {g : Char → Char} {p : Option Char} {s t : Str}
    (h : SubAll m (List.map g) p s t) :
    ∀ a w b, s = a ++ w ++ b → w ≠ [] → m (prevChar p a) (w ++ b) = w.length →
      (∀ j, a.length ≤ j → j < a.length + w.length → t[j]? = s[j]?.map g) ∨
      ∃ a' w' b', s = a' ++ w' ++ b' ∧ m (prevChar p a') (w' ++ b') = w'.length ∧
        a'.length < a.length ∧ a.length < a'.length + w'.length := by
  induction h with
  | done p s h =>
    intro a w b e hw hm
    have := h a (w ++ b) (by simp [e]) (by simp [hw])
    rw [this] at hm
    exact absurd (List.eq_nil_of_length_eq_zero hm.symm) hw
  | step p a w b b' hm hw first rest ih =>
    intro a1 w1 b1 e hw1 hm1
    rcases Nat.lt_trichotomy a1.length a.length with l | l | l
    · exfalso
      rw [List.append_assoc, List.append_assoc] at e
      rcases List.append_eq_append_iff.1 e with ⟨r, e1, e2⟩ | ⟨r, e1, e2⟩
      · rw [e1] at l; simp at l; omega
      · have hr : r ≠ [] := by
          intro h; rw [h] at e1; simp at e1; rw [e1] at l; omega
        have := first a1 r e1 hr
        rw [List.append_assoc, ← e2, hm1] at this
        exact hw1 (List.eq_nil_of_length_eq_zero this)
    · left
      rw [List.append_assoc, List.append_assoc] at e
      have e1 := List.append_inj_left e l.symm
      subst e1
      have e2 := List.append_cancel_left e
      rw [← e2, hm] at hm1
      intro j j1 j2
      have j3 : j < a.length + w.length := by omega
      rw [getElem?_mid (by simpa using ⟨j1, j3⟩), getElem?_mid ⟨j1, j3⟩, List.getElem?_map]
    · by_cases l2 : a1.length < a.length + w.length
      · right; exact ⟨a, w, b, rfl, hm, l, l2⟩
      · have e' : (a ++ w) ++ b = a1 ++ (w1 ++ b1) := by rw [e]; simp
        rcases List.append_eq_append_iff.1 e' with ⟨r, e1, e2⟩ | ⟨r, e1, e2⟩
        · have key := ih r w1 b1 (by rw [e2]; simp) hw1 (by rw [e1, prevChar_append] at hm1; exact hm1)
          have hl : a1.length = a.length + w.length + r.length := by rw [e1]; simp; omega
          rcases key with key | ⟨a', w', b2, k1, k2, k3, k4⟩
          · left
            intro j j1 j2
            rw [List.getElem?_append_right (by simp; omega), List.getElem?_append_right (by simp; omega)]
            simp only [List.length_append, List.length_map]
            exact key _ (by omega) (by omega)
          · right
            refine ⟨a ++ w ++ a', w', b2, by rw [k1]; simp, by rw [prevChar_append]; exact k2, ?_, ?_⟩
            · simp; omega
            · simp; omega
        · have hr : r = [] := by
            have := congrArg List.length e1
            simp at this
            exact List.eq_nil_of_length_eq_zero (by omega)
          subst hr
          simp at e1 e2
          have key := ih [] w1 b1 (by rw [← e2]; simp) hw1 (by rw [← e1] at hm1; simpa using hm1)
          have hl : a1.length = a.length + w.length := by rw [← e1]; simp
          rcases key with key | ⟨a', w', b2, k1, k2, k3, k4⟩
          · left
            intro j j1 j2
            rw [List.getElem?_append_right (by simp; omega), List.getElem?_append_right (by simp; omega)]
            simp only [List.length_append, List.length_map]
            exact key _ (by simp) (by simp; omega)
          · simp at k3

/-- Every occurrence that is found is replaced: after `SubAll` a position of a match chosen by the leftmost
rule carries its image. Used through `SubAll.pointwise`; here the converse direction for full coverage: if
the text has a match, then some character range was replaced. -/
theorem SubAll.eq_or_step {m : Option Char → Str → Nat} {f : Str → Str} {p : Option Char} {s t : Str}
    (h : SubAll m f p s t) :
    (t = s ∧ ∀ a b, s = a ++ b → b ≠ [] → m (prevChar p a) b = 0) ∨
    ∃ a w b b', s = a ++ w ++ b ∧ t = a ++ f w ++ b' ∧ w ≠ [] ∧
      m (prevChar p a) (w ++ b) = w.length := by
  cases h with
  | done _ _ h => exact Or.inl ⟨rfl, h⟩
  | step _ a w b b' hm hw first rest => exact Or.inr ⟨a, w, b, b', rfl, rfl, hw, hm⟩

end Verif.Str

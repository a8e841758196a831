import Verif.Py.Str

/-!
# What `str.replace` computes

`ReplacedAll old new s t` is the specification: find the leftmost occurrence of `old`, replace it, go on with
what follows it; stop when there is none.
-/

namespace Verif.Str

/-- `t` is `s` with every non-overlapping occurrence of `old`, leftmost first, replaced by `new`. -/
inductive ReplacedAll (old new : Str) : Str → Str → Prop
  | done (s : Str) (h : ¬ ∃ a b, s = a ++ old ++ b) : ReplacedAll old new s s
  | step (a b b' : Str)
      (first : ∀ a' c, a ++ old ++ b = a' ++ old ++ c → a.length ≤ a'.length)
      (rest : ReplacedAll old new b b') : ReplacedAll old new (a ++ old ++ b) (a ++ new ++ b')

theorem replaceGo_drop (old new : Str) (k : Nat) (s : Str) :
    replaceGo old new k s = replaceGo old new 0 (s.drop k) := by
  induction k generalizing s with
  | zero => simp
  | succ k ih =>
    cases s with
    | nil => simp [replaceGo]
    | cons c cs => simp [replaceGo, ih cs]

theorem replace_nil (old new : Str) : replace [] old new = [] := rfl

theorem replace_of_prefix {old new : Str} (hold : old ≠ []) (b : Str) :
    replace (old ++ b) old new = new ++ replace b old new := by
  cases old with
  | nil => exact absurd rfl hold
  | cons x xs =>
    have : (x :: xs).isPrefixOf (x :: (xs ++ b)) = true := by
      rw [List.isPrefixOf_iff_prefix]; exact ⟨b, by simp⟩
    simp only [replace, List.cons_append, replaceGo, this, if_true]
    rw [replaceGo_drop]
    simp

theorem replace_cons_of_not_prefix {old new : Str} {c : Char} {cs : Str}
    (h : ¬ old <+: c :: cs) : replace (c :: cs) old new = c :: replace cs old new := by
  have : old.isPrefixOf (c :: cs) = false := by
    cases hh : old.isPrefixOf (c :: cs)
    · rfl
    · exact absurd (List.isPrefixOf_iff_prefix.1 hh) h
  simp [replace, replaceGo, this]

theorem ReplacedAll.cons {old new s t : Str} {c : Char} (h : ReplacedAll old new s t)
    (hp : ¬ old <+: c :: s) : ReplacedAll old new (c :: s) (c :: t) := by
  cases h with
  | done _ h =>
    refine .done _ ?_
    rintro ⟨a, b, e⟩
    cases a with
    | nil => exact hp ⟨b, by simpa using e.symm⟩
    | cons x a => simp at e; exact h ⟨a, b, by simp [e.2]⟩
  | step a b b' first rest =>
    refine .step (c :: a) b b' ?_ rest
    intro a' d e
    cases a' with
    | nil => exact absurd ⟨d, by simpa using e.symm⟩ hp
    | cons y a' =>
      simp at e
      have := first a' d (by simp [e.2])
      simpa using this

/-- `replace` meets its specification. -/
theorem replace_spec {old : Str} (hold : old ≠ []) (new s : Str) :
    ReplacedAll old new s (replace s old new) := by
  generalize hn : s.length = n
  induction n using Nat.strongRecOn generalizing s with
  | ind n ih =>
    cases s with
    | nil =>
      rw [replace_nil]
      refine .done _ ?_
      rintro ⟨a, b, e⟩
      simp at e
      exact hold e.2.1
    | cons c cs =>
      by_cases hp : old <+: c :: cs
      · obtain ⟨b, e⟩ := hp
        rw [← e, replace_of_prefix hold]
        have hb : b.length < n := by
          have := congrArg List.length e
          have h0 : 0 < old.length := List.length_pos_iff.2 hold
          simp at this hn
          omega
        exact .step [] b _ (by simp) (ih _ hb b rfl)
      · rw [replace_cons_of_not_prefix hp]
        exact (ih cs.length (by simp at hn; omega) cs rfl).cons hp

/-- The specification determines the result. -/
theorem ReplacedAll.functional {old new s t t' : Str} (hold : old ≠ []) (h : ReplacedAll old new s t)
    (h' : ReplacedAll old new s t') : t = t' := by
  induction h generalizing t' with
  | done s hs =>
    cases h' with
    | done => rfl
    | step a b b' => exact absurd ⟨a, b, rfl⟩ hs
  | step a b b' first rest ih =>
    generalize hs : a ++ old ++ b = s at h'
    cases h' with
    | done _ hn => exact absurd ⟨a, b, hs.symm⟩ hn
    | step a2 b2 b2' first2 rest2 =>
      have l1 := first a2 b2 hs
      have l2 := first2 a b hs.symm
      have e1 : a = a2 := by
        have := congrArg (List.take a.length) hs
        have hl : a.length = a2.length := by omega
        rw [hl] at this
        have h3 : List.take a2.length (a ++ old ++ b) = a := by
          rw [← hl, List.append_assoc, List.take_left]
        rw [h3, List.append_assoc, List.take_left] at this
        exact this
      subst e1
      have e2 : b = b2 := by simpa using hs
      subst e2
      rw [ih rest2]

theorem replace_eq_of_spec {old new s t : Str} (hold : old ≠ []) (h : ReplacedAll old new s t) :
    t = replace s old new := h.functional hold (replace_spec hold new s)

theorem replace_of_not_contains {old new s : Str} (h : contains s old = false) :
    replace s old new = s := by
  have hold : old ≠ [] := by
    intro e; subst e
    cases s <;> simp [contains] at h
  refine (replace_eq_of_spec hold (.done s ?_)).symm
  rw [← contains_iff, h]; simp

/-- If a word `q` does not contain the first character of the replacement, a `q` at the front of the output was
already at the front of the input. -/
theorem prefix_of_prefix_replace {old new q : Str} (hold : old ≠ []) (hnew : new ≠ [])
    (hd : ∀ c ∈ q, new.head? ≠ some c) (s : Str) (h : q <+: replace s old new) : q <+: s := by
  induction q generalizing s with
  | nil => simp
  | cons x q ih =>
    cases s with
    | nil => rw [replace_nil] at h; exact h
    | cons c cs =>
      by_cases hp : old <+: c :: cs
      · obtain ⟨b, e⟩ := hp
        rw [← e, replace_of_prefix hold] at h
        cases new with
        | nil => exact absurd rfl hnew
        | cons y new =>
          obtain ⟨r, hr⟩ := h
          simp at hr
          exact absurd (by simp [hr.1]) (hd x (by simp))
      · rw [replace_cons_of_not_prefix hp] at h
        obtain ⟨r, hr⟩ := h
        simp at hr
        have := ih (fun c hc => hd c (by simp [hc])) cs ⟨r, hr.2⟩
        obtain ⟨r', hr'⟩ := this
        exact ⟨r', by simp [hr.1, hr']⟩

/-- If the replacement is non-empty, does not contain the first character of `old`, and its own first character is not
in `old`, then no occurrence of `old` is left. -/
theorem not_contains_replace' {old new : Str} (hold : old ≠ []) (hnew : new ≠ [])
    (hd : ∀ c ∈ old, new.head? ≠ some c) (hh : ∀ x, old.head? = some x → x ∉ new) (s : Str) : contains (replace s old new) old = false := by
  generalize hn : s.length = n
  induction n using Nat.strongRecOn generalizing s with
  | ind n ih =>
    cases s with
    | nil =>
      rw [replace_nil]; simp only [contains]
      cases old <;> simp_all
    | cons c cs =>
      by_cases hp : old <+: c :: cs
      · obtain ⟨b, e⟩ := hp
        rw [← e, replace_of_prefix hold]
        have hb : b.length < n := by
          have := congrArg List.length e
          have h0 : 0 < old.length := List.length_pos_iff.2 hold
          simp at this hn
          omega
        have hrec := ih _ hb b rfl
        cases hc : contains (new ++ replace b old new) old
        · rfl
        · rw [contains_iff] at hc
          obtain ⟨u, v, huv⟩ := hc
          -- the occurrence starts inside `new` or after it
          by_cases hu : new.length ≤ u.length
          · have hpre : new <+: u := by
              have := congrArg (List.take new.length) huv
              rw [List.take_left, List.append_assoc, List.take_append_of_le_length hu] at this
              rw [this]; exact List.take_prefix _ _
            obtain ⟨w, hw⟩ := hpre
            rw [← hw] at huv
            simp at huv
            have : contains (replace b old new) old = true :=
              contains_iff.2 ⟨w, v, by simp [huv]⟩
            rw [hrec] at this; exact absurd this (by simp)
          · have hlt : u.length < new.length := by omega
            cases old with
            | nil => exact absurd rfl hold
            | cons x xs =>
              have h1 : (new ++ replace b (x :: xs) new)[u.length]? = some x := by
                rw [huv]; simp
              rw [List.getElem?_append_left hlt] at h1
              exact absurd (List.mem_of_getElem? h1) (hh x (by simp))
      · rw [replace_cons_of_not_prefix hp]
        simp only [contains, Bool.or_eq_false_iff]
        refine ⟨?_, ih cs.length (by simp at hn; omega) cs rfl⟩
        cases hq : old.isPrefixOf (c :: replace cs old new)
        · rfl
        · rw [List.isPrefixOf_iff_prefix, ← replace_cons_of_not_prefix hp] at hq
          exact absurd (prefix_of_prefix_replace hold hnew hd _ hq) hp

/-- If the replacement is non-empty and shares no character with `old`, no occurrence of `old` is left. -/
theorem not_contains_replace {old new : Str} (hold : old ≠ []) (hnew : new ≠ [])
    (hd : ∀ c ∈ old, c ∉ new) (s : Str) : contains (replace s old new) old = false :=
  not_contains_replace' hold hnew (fun c hc e => hd c hc (List.mem_of_mem_head? e))
    (fun x hx => hd x (List.mem_of_mem_head? hx)) s

end Verif.Str

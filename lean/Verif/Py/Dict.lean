/-!
# Python dictionaries

Insertion-ordered association lists.  `set` keeps the position of an existing key and appends a new one, which
is Python's behaviour since 3.7.
-/

namespace Verif

abbrev Dict (κ : Type) (β : Type) := List (κ × β)

namespace Dict
variable {κ β : Type} [DecidableEq κ]

/-- `d.get(k)`. -/
def get? (d : Dict κ β) (k : κ) : Option β :=
  match d with
  | [] => none
  | (k', v) :: d => if k' = k then some v else get? d k

/-- `k in d`. -/
def has (d : Dict κ β) (k : κ) : Bool := (d.get? k).isSome

/-- `d[k] = v`. -/
def set (d : Dict κ β) (k : κ) (v : β) : Dict κ β :=
  match d with
  | [] => [(k, v)]
  | (k', v') :: d => if k' = k then (k', v) :: d else (k', v') :: set d k v

/-- `del d[k]` / `d.pop(k)` when present, unchanged otherwise. -/
def erase (d : Dict κ β) (k : κ) : Dict κ β :=
  match d with
  | [] => []
  | (k', v') :: d => if k' = k then d else (k', v') :: erase d k

def keys (d : Dict κ β) : List κ := d.map Prod.fst
def values (d : Dict κ β) : List β := d.map Prod.snd

/-- A Python dictionary has each key once. -/
def WF (d : Dict κ β) : Prop := d.keys.Nodup

/-- `a.update(b)`. -/
def update (a b : Dict κ β) : Dict κ β := b.foldl (fun d kv => d.set kv.1 kv.2) a

@[simp] theorem get?_nil (k : κ) : get? ([] : Dict κ β) k = none := rfl

theorem get?_set (d : Dict κ β) (k k' : κ) (v : β) :
    (d.set k v).get? k' = if k = k' then some v else d.get? k' := by
  induction d with
  | nil => simp only [set, get?]
  | cons a d ih =>
    obtain ⟨a, w⟩ := a
    simp only [set]
    by_cases h1 : a = k
    · subst h1; simp only [if_pos, get?]; split <;> simp_all
    · simp only [if_neg h1, get?, ih]
      by_cases h2 : a = k'
      · subst h2; simp [Ne.symm h1]
      · simp [h2]

@[simp] theorem get?_set_self (d : Dict κ β) (k : κ) (v : β) : (d.set k v).get? k = some v := by
  simp [get?_set]

theorem get?_set_ne (d : Dict κ β) {k k' : κ} (h : k ≠ k') (v : β) :
    (d.set k v).get? k' = d.get? k' := by simp [get?_set, h]

theorem get?_eq_none_iff {d : Dict κ β} {k : κ} : d.get? k = none ↔ k ∉ d.keys := by
  induction d with
  | nil => simp [keys]
  | cons a d ih =>
    obtain ⟨a, w⟩ := a
    simp only [get?, keys, List.map_cons, List.mem_cons, not_or]
    by_cases h : a = k
    · simp [h]
    · simp only [if_neg h, ih, keys]
      exact ⟨fun h2 => ⟨Ne.symm h, h2⟩, fun h2 => h2.2⟩

theorem has_iff {d : Dict κ β} {k : κ} : d.has k = true ↔ k ∈ d.keys := by
  unfold has
  by_cases h : k ∈ d.keys
  · simp only [h, iff_true]
    cases hg : d.get? k with
    | none => exact absurd h (get?_eq_none_iff.1 hg)
    | some v => rfl
  · simp [h, get?_eq_none_iff.2 h]

theorem keys_set (d : Dict κ β) (k : κ) (v : β) :
    (d.set k v).keys = if k ∈ d.keys then d.keys else d.keys ++ [k] := by
  induction d with
  | nil => simp [set, keys]
  | cons a d ih =>
    obtain ⟨a, w⟩ := a
    simp only [set]
    by_cases h : a = k
    · subst h; simp [keys]
    · simp only [if_neg h, keys, List.map_cons, List.mem_cons] at ih ⊢
      rw [ih]
      have : k ≠ a := Ne.symm h
      by_cases h2 : k ∈ List.map Prod.fst d
      · simp [h2]
      · simp [h2, this]

theorem WF.set {d : Dict κ β} (h : d.WF) (k : κ) (v : β) : (d.set k v).WF := by
  unfold WF at *
  rw [keys_set]
  split
  · exact h
  · next hk =>
    rw [List.nodup_append]
    exact ⟨h, by simp, by simp; intro a ha e; exact hk (e ▸ ha)⟩

omit [DecidableEq κ] in
theorem WF_nil : WF ([] : Dict κ β) := by simp [WF, keys]

theorem mem_of_get? {d : Dict κ β} {k : κ} {v : β} (h : d.get? k = some v) : (k, v) ∈ d := by
  induction d with
  | nil => simp at h
  | cons a d ih =>
    obtain ⟨a, w⟩ := a
    simp only [get?] at h
    split at h
    · next e => simp at h; simp [e, h]
    · exact List.mem_cons_of_mem _ (ih h)

theorem get?_of_mem {d : Dict κ β} (hd : d.WF) {k : κ} {v : β} (h : (k, v) ∈ d) :
    d.get? k = some v := by
  induction d with
  | nil => simp at h
  | cons a d ih =>
    obtain ⟨a, w⟩ := a
    simp only [WF, keys, List.map_cons, List.nodup_cons] at hd
    simp only [get?]
    rcases List.mem_cons.1 h with h | h
    · cases h; simp
    · have : a ≠ k := by
        intro e; subst e
        exact hd.1 (List.mem_map.2 ⟨_, h, rfl⟩)
      simp [this, ih hd.2 h]

theorem set_of_not_mem {d : Dict κ β} {k : κ} (h : k ∉ d.keys) (v : β) :
    d.set k v = d ++ [(k, v)] := by
  induction d with
  | nil => rfl
  | cons a d ih =>
    obtain ⟨a, w⟩ := a
    simp [keys] at h
    simp only [set, if_neg (Ne.symm h.1)]
    rw [ih (by simpa [keys] using h.2)]; rfl

theorem get?_erase_self {d : Dict κ β} (hd : d.WF) (k : κ) : (d.erase k).get? k = none := by
  induction d with
  | nil => rfl
  | cons a d ih =>
    obtain ⟨a, w⟩ := a
    simp only [WF, keys, List.map_cons, List.nodup_cons] at hd
    simp only [erase]
    split
    · next e => subst e; exact get?_eq_none_iff.2 hd.1
    · next e => simp [get?, e, ih hd.2]

theorem get?_erase_ne (d : Dict κ β) {k k' : κ} (h : k ≠ k') :
    (d.erase k).get? k' = d.get? k' := by
  induction d with
  | nil => rfl
  | cons a d ih =>
    obtain ⟨a, w⟩ := a
    simp only [erase]
    split
    · next e => subst e; simp [get?, h]
    · simp only [get?, ih]

theorem keys_erase_sublist (d : Dict κ β) (k : κ) : (d.erase k).keys.Sublist d.keys := by
  induction d with
  | nil => simp [erase]
  | cons a d ih =>
    obtain ⟨a, w⟩ := a
    simp only [erase]
    split
    · exact List.sublist_cons_self _ _
    · simpa [keys] using ih

theorem WF.erase {d : Dict κ β} (h : d.WF) (k : κ) : (d.erase k).WF :=
  List.Nodup.sublist (keys_erase_sublist d k) h

theorem erase_of_not_mem {d : Dict κ β} {k : κ} (h : k ∉ d.keys) : d.erase k = d := by
  induction d with
  | nil => rfl
  | cons a d ih =>
    obtain ⟨a, w⟩ := a
    simp [keys] at h
    simp only [Dict.erase, if_neg (Ne.symm h.1)]
    rw [ih (by simpa [keys] using h.2)]

theorem mem_keys_erase {d : Dict κ β} (hd : d.WF) {k k' : κ} :
    k' ∈ (d.erase k).keys ↔ k' ∈ d.keys ∧ k' ≠ k := by
  by_cases h : k' = k
  · subst h
    have := get?_erase_self hd k'
    simp [get?_eq_none_iff.1 this]
  · have h1 := get?_erase_ne d (Ne.symm h)
    have h2 : (k' ∈ (d.erase k).keys) ↔ k' ∈ d.keys := by
      rw [← has_iff, ← has_iff]; simp [has, h1]
    simp [h2, h]

theorem mem_keys_set {d : Dict κ β} {k k' : κ} {v : β} :
    k' ∈ (d.set k v).keys ↔ k' = k ∨ k' ∈ d.keys := by
  rw [keys_set]; split
  · next h =>
    constructor
    · exact Or.inr
    · rintro (e | e)
      · exact e ▸ h
      · exact e
  · simp; exact Or.comm

/-! ### Several assignments in a row -/

/-- The value of the last pair with key `k`. -/
def last? (l : List (κ × β)) (k : κ) : Option β := (l.reverse.find? (fun kv => kv.1 = k)).map Prod.snd

theorem last?_append_single (l : List (κ × β)) (k' : κ) (v : β) (k : κ) :
    last? (l ++ [(k', v)]) k = if k' = k then some v else last? l k := by
  simp only [last?, List.reverse_append, List.reverse_cons, List.reverse_nil, List.nil_append,
    List.cons_append, List.find?_cons]
  by_cases h : k' = k <;> simp [h]

theorem update_append (d : Dict κ β) (a b : List (κ × β)) : d.update (a ++ b) = (d.update a).update b := by
  simp [update, List.foldl_append]

theorem get?_update (d : Dict κ β) (l : List (κ × β)) (k : κ) :
    (d.update l).get? k = (last? l k).or (d.get? k) := by
  generalize hn : l.length = n
  induction n generalizing l with
  | zero => rw [List.eq_nil_of_length_eq_zero hn]; simp [update, last?]
  | succ n ih =>
    rcases List.eq_nil_or_concat l with rfl | ⟨l', x, rfl⟩
    · simp at hn
    · rw [List.concat_eq_append] at hn ⊢
      rw [update_append, last?_append_single]
      show ((d.update l').set x.1 x.2).get? k = _
      rw [get?_set, ih l' (by simpa using hn)]
      split <;> simp

theorem WF.update {d : Dict κ β} (h : d.WF) (l : List (κ × β)) : (d.update l).WF := by
  induction l generalizing d with
  | nil => exact h
  | cons x l ih => exact ih (h.set _ _)

omit [DecidableEq κ] in
theorem keys_append (a b : Dict κ β) : keys (a ++ b) = a.keys ++ b.keys := by simp [keys]

/-- Assigning fresh keys appends them in order. -/
theorem update_fresh (d : Dict κ β) (l : List (κ × β)) (h : (d.keys ++ l.map Prod.fst).Nodup) :
    d.update l = d ++ l := by
  induction l generalizing d with
  | nil => simp [update]
  | cons x l ih =>
    have hx : x.1 ∉ d.keys := by
      rw [List.nodup_append] at h
      intro hm
      exact h.2.2 _ hm _ (by simp) rfl
    show (d.set x.1 x.2).update l = _
    rw [set_of_not_mem hx, ih]
    · simp
    · rw [keys_append]
      simpa [keys] using h

theorem last?_isSome {l : List (κ × β)} {k : κ} : (last? l k).isSome = true ↔ k ∈ l.map Prod.fst := by
  simp [last?]

theorem last?_mem {l : List (κ × β)} {k : κ} {v : β} (h : last? l k = some v) : (k, v) ∈ l := by
  simp only [last?, Option.map_eq_some_iff] at h
  obtain ⟨⟨a, b⟩, h1, h2⟩ := h
  have h3 := List.find?_some h1
  have h4 := List.mem_of_find?_eq_some h1
  simp at h2 h3 h4
  rw [← h3, ← h2]; exact h4

end Dict
end Verif

/-!
# Python strings as lists of characters

`Str` is the model of Python's `str`: a list of Unicode scalar values.  Every function below is the model of
one `str` operation that the modelled code uses; nothing here models a line of `/repo` by itself, the model
files cite the lines that call these operations.
-/

namespace Verif

/-- Python `str`. (Lean `Char` excludes lone surrogates, which Python allows; simplification.) -/
abbrev Str := List Char

/-- `py"abc"` is the character list `['a','b','c']`, so that the kernel computes with it directly. -/
syntax:max (name := pyStr) "py" noWs str : term

open Lean in
macro_rules
  | `(py$s:str) => do
    let cs := s.getString.toList.map (fun c => Syntax.mkCharLit c)
    let nil ← `(([] : List Char))
    let r : TSyntax `term ← cs.foldrM (fun (c : CharLit) (r : TSyntax `term) => `(List.cons $c $r)) nil
    return r

/-- A concrete `\w` for the examples: ASCII letters, digits and underscore. -/
def asciiWord (c : Char) : Bool := c.isAlphanum || c == '_'

namespace Str

/-- `s.startswith(p)`. -/
def startsWith (s p : Str) : Bool := p.isPrefixOf s

/-- `s.endswith(p)`. -/
def endsWith (s p : Str) : Bool := p.isSuffixOf s

/-- `p in s` (substring test). -/
def contains (s p : Str) : Bool :=
  match s with
  | [] => p.isPrefixOf []
  | c :: cs => p.isPrefixOf (c :: cs) || contains cs p

/-- Worker of `count`: `k` characters still belong to the last occurrence found. -/
def countGo (p : Str) : Nat → Str → Nat
  | _, [] => 0
  | k + 1, _ :: cs => countGo p k cs
  | 0, c :: cs =>
    if p.isPrefixOf (c :: cs) then countGo p (p.length - 1) cs + 1 else countGo p 0 cs

/-- `s.count(p)` for non-empty `p`: non-overlapping occurrences from the left. -/
def count (s p : Str) : Nat := countGo p 0 s

/-- Worker of `replace`: `k` characters still belong to the occurrence replaced last. -/
def replaceGo (old new : Str) : Nat → Str → Str
  | _, [] => []
  | k + 1, _ :: cs => replaceGo old new k cs
  | 0, c :: cs =>
    if old.isPrefixOf (c :: cs) then new ++ replaceGo old new (old.length - 1) cs
    else c :: replaceGo old new 0 cs

/-- `s.replace(old, new)` for non-empty `old`: left to right, non-overlapping. -/
def replace (s old new : Str) : Str := replaceGo old new 0 s

/-- `s.split(c)` for a one-character separator. Always at least one piece. -/
def splitOn (c : Char) : Str → List Str
  | [] => [[]]
  | x :: xs =>
    if x = c then [] :: splitOn c xs
    else match splitOn c xs with
      | [] => [[x]]
      | p :: ps => (x :: p) :: ps

/-- `sep.join(parts)`. -/
def join (sep : Str) : List Str → Str
  | [] => []
  | [p] => p
  | p :: q :: ps => p ++ sep ++ join sep (q :: ps)

/-- `s.lstrip(..)`, `s.rstrip(..)`, `s.strip(..)` where the stripped characters are those satisfying `f`. -/
def lstripBy (f : Char → Bool) (s : Str) : Str := s.dropWhile f
def rstripBy (f : Char → Bool) (s : Str) : Str := (s.reverse.dropWhile f).reverse
def stripBy (f : Char → Bool) (s : Str) : Str := rstripBy f (lstripBy f s)

/-- `str(n)` for a non-negative integer. -/
def ofNat (n : Nat) : Str := Nat.toDigits 10 n

/-! ## Basic facts -/

theorem contains_iff {s p : Str} : contains s p = true ↔ ∃ a b, s = a ++ p ++ b := by
  induction s with
  | nil =>
    simp only [contains]
    constructor
    · intro h
      have : p = [] := by cases p <;> simp_all
      exact ⟨[], [], by simp [this]⟩
    · rintro ⟨a, b, h⟩
      have : p = [] := by
        cases p with
        | nil => rfl
        | cons x xs => simp at h
      simp [this]
  | cons c cs ih =>
    simp only [contains, Bool.or_eq_true, ih, List.isPrefixOf_iff_prefix]
    constructor
    · rintro (⟨b, h⟩ | ⟨a, b, h⟩)
      · exact ⟨[], b, by simp [h]⟩
      · exact ⟨c :: a, b, by simp [h]⟩
    · rintro ⟨a, b, h⟩
      cases a with
      | nil => exact Or.inl ⟨b, by simpa using h.symm⟩
      | cons x xs =>
        simp at h
        exact Or.inr ⟨xs, b, by simp [h.2]⟩

theorem startsWith_iff {s p : Str} : startsWith s p = true ↔ ∃ b, s = p ++ b := by
  simp only [startsWith, List.isPrefixOf_iff_prefix]
  exact ⟨fun ⟨b, h⟩ => ⟨b, h.symm⟩, fun ⟨b, h⟩ => ⟨b, h.symm⟩⟩

theorem endsWith_iff {s p : Str} : endsWith s p = true ↔ ∃ a, s = a ++ p := by
  simp only [endsWith, List.isSuffixOf_iff_suffix]
  exact ⟨fun ⟨b, h⟩ => ⟨b, h.symm⟩, fun ⟨b, h⟩ => ⟨b, h.symm⟩⟩

@[simp] theorem join_nil (sep : Str) : join sep [] = [] := rfl
@[simp] theorem join_single (sep p : Str) : join sep [p] = p := rfl
theorem join_cons_cons (sep p q : Str) (ps : List Str) :
    join sep (p :: q :: ps) = p ++ sep ++ join sep (q :: ps) := rfl
theorem join_cons (sep p : Str) (ps : List Str) (h : ps ≠ []) :
    join sep (p :: ps) = p ++ sep ++ join sep ps := by
  cases ps with
  | nil => exact absurd rfl h
  | cons q ps => rfl

theorem splitOn_ne_nil (c : Char) (s : Str) : splitOn c s ≠ [] := by
  induction s with
  | nil => simp [splitOn]
  | cons x xs ih =>
    simp only [splitOn]
    split
    · simp
    · split <;> simp_all

/-- `c.join(s.split(c)) == s`. -/
theorem join_splitOn (c : Char) (s : Str) : join [c] (splitOn c s) = s := by
  induction s with
  | nil => rfl
  | cons x xs ih =>
    simp only [splitOn]
    split
    · next h => subst h; rw [join_cons _ _ _ (splitOn_ne_nil _ _), ih]; simp
    · next h =>
      split
      · next h2 => exact absurd h2 (splitOn_ne_nil _ _)
      · next p ps h2 =>
        rw [h2] at ih
        cases ps with
        | nil => simp at ih ⊢; exact ih
        | cons q qs =>
          rw [join_cons_cons] at ih ⊢
          rw [← ih]; simp

/-- No piece of a split contains the separator. -/
theorem not_mem_of_mem_splitOn {c : Char} {s p : Str} (h : p ∈ splitOn c s) : c ∉ p := by
  induction s generalizing p with
  | nil => simp [splitOn] at h; simp [h]
  | cons x xs ih =>
    simp only [splitOn] at h
    split at h
    · rcases List.mem_cons.1 h with h | h
      · simp [h]
      · exact ih h
    · next hx =>
      split at h
      · next h2 => exact absurd h2 (splitOn_ne_nil _ _)
      · next q ps h2 =>
        rcases List.mem_cons.1 h with h | h
        · subst h
          have := ih (p := q) (by simp [h2])
          simp [this]; exact fun e => hx e.symm
        · exact ih (by simp [h2, h])

theorem splitOn_of_not_mem {c : Char} {s : Str} (h : c ∉ s) : splitOn c s = [s] := by
  induction s with
  | nil => rfl
  | cons x xs ih =>
    simp at h
    have hx : x ≠ c := fun e => h.1 e.symm
    simp [splitOn, hx, ih h.2]

theorem splitOn_append_cons {c : Char} {p s : Str} (h : c ∉ p) :
    splitOn c (p ++ c :: s) = p :: splitOn c s := by
  induction p with
  | nil => simp [splitOn]
  | cons x xs ih =>
    simp at h
    have hx : x ≠ c := fun e => h.1 e.symm
    simp [splitOn, hx, ih h.2]

/-- `c.join(parts).split(c) == parts` when no part contains `c` (and there is at least one part). -/
theorem splitOn_join {c : Char} {ps : List Str} (hne : ps ≠ []) (h : ∀ p ∈ ps, c ∉ p) :
    splitOn c (join [c] ps) = ps := by
  induction ps with
  | nil => exact absurd rfl hne
  | cons p ps ih =>
    cases ps with
    | nil => simp [splitOn_of_not_mem (h p (by simp))]
    | cons q qs =>
      rw [join_cons_cons, List.append_assoc, List.singleton_append,
        splitOn_append_cons (h p (by simp))]
      rw [ih (by simp) (fun r hr => h r (by simp [hr]))]

theorem length_splitOn (c : Char) (s : Str) : (splitOn c s).length = List.count c s + 1 := by
  induction s with
  | nil => rfl
  | cons x xs ih =>
    simp only [splitOn]
    split
    · next h => subst h; simp [ih]
    · next h =>
      split
      · next h2 => exact absurd h2 (splitOn_ne_nil _ _)
      · next p ps h2 =>
        rw [h2] at ih
        simp at ih
        simp [h, ih]

/-- `str` is injective on non-negative integers. -/
theorem ofNat_injective {m n : Nat} (h : ofNat m = ofNat n) : m = n := by
  have := congrArg (fun l => Nat.ofDigitChars 10 l 0) h
  simpa [ofNat, Nat.ofDigitChars_ten_toDigits] using this

theorem underscore_not_mem_ofNat (n : Nat) : '_' ∉ ofNat n := Nat.underscore_not_in_toDigits

end Str
end Verif

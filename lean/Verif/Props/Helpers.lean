import Verif.Model.Helpers
import Verif.Spec.Helpers
import Verif.Lemmas.Replace
import Verif.Props.Args

/-!
# C52, C53, C54, C55: emitted helpers, `randint`, names of C++ extensions
-/

namespace Verif.Helpers
open Verif Verif.Spec Verif.Matcher

/-! ## C52: swapping two axes -/

theorem pyIndex_eq_some {n : Nat} {i : Int} {a : Nat} : pyIndex n i = some a ↔ IsAxis n i a := by
  unfold pyIndex IsAxis
  split
  · simp; omega
  · split
    · simp; omega
    · simp; omega

theorem pyIndex_eq_none {n : Nat} {i : Int} : pyIndex n i = none ↔ ¬ ∃ a, IsAxis n i a := by
  cases h : pyIndex n i with
  | none =>
    simp only [true_iff]
    rintro ⟨a, ha⟩
    rw [pyIndex_eq_some.2 ha] at h; simp at h
  | some a => simp only [reduceCtorEq, false_iff]; exact fun hn => hn ⟨a, pyIndex_eq_some.1 h⟩

/-- The permutation that the assignment of two entries makes. -/
theorem swap_list {n a b : Nat} (ha : a < n) (hb : b < n) (i : Nat) (hi : i < n) :
    (((List.range n).set a b).set b a)[i]? = some (if i = a then b else if i = b then a else i) := by
  simp only [List.getElem?_set, List.length_set, List.length_range]
  by_cases h1 : b = i
  · subst h1; simp [hb]; intro h; exact h.symm
  · by_cases h2 : a = i
    · subst h2; simp [ha, h1]
    · simp [h1, h2, hi, Ne.symm h1, Ne.symm h2]

theorem dim2perm_eq {n : Nat} {d0 d1 : Int} {a b : Nat} (ha : IsAxis n d0 a) (hb : IsAxis n d1 b) :
    dim2perm n d0 d1 = some (((List.range n).set a b).set b a) := by
  have h0 := pyIndex_eq_some.2 ha
  have h1 := pyIndex_eq_some.2 hb
  simp [dim2perm, pyGet, pySet, h0, h1, ha.1, hb.1]

/-- **C52.** For axes `d0` and `d1` of a tensor with `n` axes, counted from either end, the helper returns the list
that exchanges these two axes and leaves the others in place. -/
theorem C52_dim2perm (n : Nat) (d0 d1 : Int) (a b : Nat) (ha : IsAxis n d0 a) (hb : IsAxis n d1 b) :
    ∃ p, dim2perm n d0 d1 = some p ∧ p.length = n ∧
      p[a]? = some b ∧ p[b]? = some a ∧ ∀ i, i < n → i ≠ a → i ≠ b → p[i]? = some i := by
  refine ⟨_, dim2perm_eq ha hb, by simp, ?_, ?_, ?_⟩
  · rw [swap_list ha.1 hb.1 a ha.1]; simp
  · rw [swap_list ha.1 hb.1 b hb.1]; simp
  · intro i hi h1 h2
    rw [swap_list ha.1 hb.1 i hi]; simp [h1, h2]

/-- The helper fails (`IndexError`) exactly when one of the two numbers is not an axis. -/
theorem C52_fails_iff (n : Nat) (d0 d1 : Int) :
    dim2perm n d0 d1 = none ↔ ¬ ((∃ a, IsAxis n d0 a) ∧ ∃ b, IsAxis n d1 b) := by
  constructor
  · rintro h ⟨⟨a, ha⟩, b, hb⟩
    rw [dim2perm_eq ha hb] at h; simp at h
  · intro h
    by_cases h0 : ∃ a, IsAxis n d0 a
    · have h1 : ¬ ∃ b, IsAxis n d1 b := fun h1 => h ⟨h0, h1⟩
      have := pyIndex_eq_none.2 h1
      simp [dim2perm, pyGet, this]
    · have := pyIndex_eq_none.2 h0
      simp only [dim2perm, pyGet, List.length_range, this, Option.bind_none]
      split
      · next h => simp at h
      · rfl

/-- The shape of the transposed tensor is the shape with the two entries exchanged. -/
theorem C52_shape {α : Type} (shape : List α) (d0 d1 : Int) (a b : Nat) (ha : IsAxis shape.length d0 a)
    (hb : IsAxis shape.length d1 b) :
    ∃ p, dim2perm shape.length d0 d1 = some p ∧ (permuted shape p).length = shape.length ∧
      (permuted shape p)[a]? = shape[b]? ∧ (permuted shape p)[b]? = shape[a]? ∧
      ∀ i, i ≠ a → i ≠ b → (permuted shape p)[i]? = shape[i]? := by
  have key : ∀ (p : List Nat), (∀ x ∈ p, x < shape.length) →
      (permuted shape p).length = p.length ∧ ∀ i : Nat, (permuted shape p)[i]? = (p[i]?).bind (shape[·]?) := by
    intro p hp
    induction p with
    | nil => simp [permuted]
    | cons x p ih =>
      have hx := hp x (by simp)
      obtain ⟨h1, h2⟩ := ih (fun y hy => hp y (by simp [hy]))
      have e : permuted shape (x :: p) = shape[x] :: permuted shape p := by
        simp [permuted, List.filterMap_cons, hx]
      rw [e]
      refine ⟨by simp [h1], ?_⟩
      intro i
      cases i with
      | zero => simp [hx]
      | succ i => simpa using h2 i
  obtain ⟨p, hp, hl, h1, h2, h3⟩ := C52_dim2perm _ d0 d1 a b ha hb
  have hlt : ∀ x ∈ p, x < shape.length := by
    intro x hx
    obtain ⟨i, hi, e⟩ := List.mem_iff_getElem.1 hx
    have hi' : p[i]? = some x := by rw [List.getElem?_eq_getElem hi, e]
    by_cases e1 : i = a
    · subst e1; rw [h1] at hi'; cases hi'; exact hb.1
    · by_cases e2 : i = b
      · subst e2; rw [h2] at hi'; cases hi'; exact ha.1
      · rw [h3 i (by omega) e1 e2] at hi'; cases hi'; omega
  obtain ⟨k1, k2⟩ := key p hlt
  refine ⟨p, hp, by omega, by simp [k2, h1], by simp [k2, h2], ?_⟩
  intro i e1 e2
  rw [k2]
  by_cases hi : i < shape.length
  · simp [h3 i hi e1 e2]
  · rw [List.getElem?_eq_none (by omega), List.getElem?_eq_none (by omega)]; rfl

/-- The statements written for `torch.adjoint` exchange the last two axes, for every tensor with at least two axes. -/
theorem C52_adjoint (n : Nat) :
    ∃ p, adjointPerm (n + 2) = some p ∧ p.length = n + 2 ∧ p[n + 1]? = some n ∧ p[n]? = some (n + 1) ∧
      ∀ i, i < n → p[i]? = some i := by
  have e : adjointPerm (n + 2) = dim2perm (n + 2) (-1) (-2) := rfl
  obtain ⟨p, h1, h2, h3, h4, h5⟩ := C52_dim2perm (n + 2) (-1) (-2) (n + 1) n
    ⟨by omega, by omega⟩ ⟨by omega, by omega⟩
  exact ⟨p, e ▸ h1, h2, h3, h4, fun i hi => h5 i (by omega) (by omega) (by omega)⟩

/-- A tensor with four axes: axis 1 and the last axis. -/
example : dim2perm 4 1 (-1) = some [0, 3, 2, 1] ∧ IsAxis 4 1 1 ∧ IsAxis 4 (-1) 3 :=
  ⟨by decide, ⟨by decide, by decide⟩, ⟨by decide, by decide⟩⟩

/-! ## C53: devices -/

theorem not_contains_of_head {s p : Str} {c : Char} (hp : c ∈ p) (hs : c ∉ s) : Str.contains s p = false := by
  cases h : Str.contains s p with
  | false => rfl
  | true =>
    obtain ⟨a, b, e⟩ := Str.contains_iff.1 h
    exact absurd (by rw [e]; simp [hp]) hs

theorem mem_ofNat_isDigit {n : Nat} {c : Char} (h : c ∈ Str.ofNat n) : c.isDigit = true :=
  Nat.isDigit_of_mem_toDigits (by decide) (by decide) h

theorem not_mem_ofNat {c : Char} (hc : c.isDigit = false) (n : Nat) : c ∉ Str.ofNat n := by
  intro h; rw [mem_ofNat_isDigit h] at hc; cases hc

/-- A character that is not in `p` separates the places where `p` can occur. -/
theorem contains_around {a b p : Str} {c : Char} (hc : c ∉ p) (ha : Str.contains a p = false)
    (hb : Str.contains b p = false) : Str.contains (a ++ c :: b) p = false := by
  cases h : Str.contains (a ++ c :: b) p with
  | false => rfl
  | true =>
    exfalso
    obtain ⟨u, v, e⟩ := Str.contains_iff.1 h
    rw [List.append_assoc] at e
    rcases List.append_eq_append_iff.1 e with ⟨w, h1, h2⟩ | ⟨w, h1, h2⟩
    · -- `p` starts after `a`
      cases w with
      | nil =>
        cases p with
        | nil => cases a <;> simp [Str.contains] at ha
        | cons x p => simp at h2; exact hc (by simp [h2.1])
      | cons x w =>
        simp at h2
        have : Str.contains b p = true := Str.contains_iff.2 ⟨w, v, by simp [h2.2]⟩
        rw [this] at hb; cases hb
    · -- `p` starts inside `a`
      rcases List.append_eq_append_iff.1 h2 with ⟨z, h3, h4⟩ | ⟨z, h3, h4⟩
      · have : Str.contains a p = true := Str.contains_iff.2 ⟨u, z, by rw [h1, h3]; simp⟩
        rw [this] at ha; cases ha
      · cases z with
        | nil =>
          have : Str.contains a p = true := Str.contains_iff.2 ⟨u, [], by rw [h1]; simp [h3]⟩
          rw [this] at ha; cases ha
        | cons x z => simp at h4; exact hc (by rw [h3, ← h4.1]; simp)

/-- A result of the helper: neither `cuda` nor (except as a whole) `cpu` occurs in it. -/
def Normal (s : Str) : Prop := Str.contains s py"cuda" = false ∧ (Str.contains s py"cpu" = false ∨ s = py"cpu")

theorem normal_fixed {s : Str} (h : Normal s) : device2str (.str s) none .none = .str s := by
  obtain ⟨h1, h2⟩ := h
  simp only [device2str, Dev.truthy, h1, Bool.false_eq_true, if_false]
  rcases h2 with h2 | h2
  · simp [h2]
  · subst h2; decide

theorem gpu_normal {t : Str} (h : 'c' ∉ t) : Normal (py"gpu:" ++ t) :=
  ⟨not_contains_of_head (c := 'c') (by decide) (by simp [h]),
    .inl (not_contains_of_head (c := 'c') (by decide) (by simp [h]))⟩

theorem c_not_mem_ofInt (n : Int) : 'c' ∉ ofInt n := by
  cases n with
  | ofNat n => exact not_mem_ofNat (by decide) n
  | negSucc n => simp [ofInt]; exact not_mem_ofNat (by decide) _

/-- **C53, idempotence.** Whatever the three arguments are (the index being one whose text contains neither `cuda` nor
`cpu`, such as a number), the result is the string of a device in normal form, or an object that is none of the known
kinds; and the helper maps the result to itself. -/
theorem C53_idempotent (type device : Dev) (index : Option Str)
    (hi : ∀ i, index = some i → Str.contains i py"cuda" = false ∧ Str.contains i py"cpu" = false) :
    device2str (device2str type index device) none .none = device2str type index device := by
  have key : ∀ d : Dev, (∃ s, d = .str s ∧ Normal s) ∨ (∃ t, d = .other t) → device2str d none .none = d := by
    rintro d (⟨s, rfl, h⟩ | ⟨t, rfl⟩)
    · exact normal_fixed h
    · rfl
  apply key
  unfold device2str
  split
  · refine .inl ⟨_, rfl, gpu_normal ?_⟩
    split <;> decide
  · exact .inl ⟨_, rfl, gpu_normal (c_not_mem_ofInt _)⟩
  · next s _ =>
    have hs : Str.contains (if Str.contains s py"cuda" then Str.replace s py"cuda" py"gpu" else s) py"cuda"
        = false := by
      split
      · exact Str.not_contains_replace' (by decide) (by decide) (by decide) (by simp) s
      · next h => simpa using h
    dsimp only
    generalize (if Str.contains s py"cuda" then Str.replace s py"cuda" py"gpu" else s) = s' at hs
    split
    · exact .inl ⟨_, rfl, by decide, .inr rfl⟩
    · next hc =>
      have hc : Str.contains s' py"cpu" = false := by simpa using hc
      split
      · next i =>
        obtain ⟨h1, h2⟩ := hi i rfl
        refine .inl ⟨_, rfl, ?_, .inl ?_⟩
        · rw [List.append_assoc]; exact contains_around (by decide) hs h1
        · rw [List.append_assoc]; exact contains_around (by decide) hc h2
      · exact .inl ⟨_, rfl, hs, .inl hc⟩
  · exact .inl ⟨_, rfl, by decide, .inr rfl⟩
  · exact .inl ⟨_, rfl, by decide, .inr rfl⟩
  · exact .inl ⟨_, rfl, gpu_normal (not_mem_ofNat (by decide) _)⟩
  · exact .inr ⟨_, rfl⟩

theorem replace_cuda_colon (n : Nat) :
    Str.replace (py"cuda:" ++ Str.ofNat n) py"cuda" py"gpu" = py"gpu:" ++ Str.ofNat n := by
  have h : Str.replace (py"cuda" ++ ':' :: Str.ofNat n) py"cuda" py"gpu" = _ :=
    Str.replace_of_prefix (by decide) (':' :: Str.ofNat n)
  have hc : 'c' ∉ Str.ofNat n := not_mem_ofNat (by decide) n
  rw [Str.replace_of_not_contains (s := ':' :: Str.ofNat n)
    (not_contains_of_head (c := 'c') (by decide) (by simp [hc]))] at h
  exact h

/-- **C53, the device descriptions of PyTorch.** The strings `'cuda'`, `'cuda:n'`, `'cpu'`, `'cpu:n'`, the pairs
`('cuda', n)` and `('cpu', n)`, a device number, and the device objects of Paddle each give the Paddle string for the
same device, for every number `n`. -/
theorem C53_maps (n : Nat) :
    device2str (.str py"cuda") none .none = .str py"gpu" ∧
    device2str (.str (py"cuda:" ++ Str.ofNat n)) none .none = .str (py"gpu:" ++ Str.ofNat n) ∧
    device2str (.str py"cpu") none .none = .str py"cpu" ∧
    device2str (.str (py"cpu:" ++ Str.ofNat n)) none .none = .str py"cpu" ∧
    device2str (.str py"cuda") (some (Str.ofNat n)) .none = .str (py"gpu:" ++ Str.ofNat n) ∧
    device2str (.str py"cpu") (some (Str.ofNat n)) .none = .str py"cpu" ∧
    device2str (.int n) none .none = .str (py"gpu:" ++ Str.ofNat n) ∧
    device2str .cpuPlace none .none = .str py"cpu" ∧
    device2str (.cudaPlace n) none .none = .str (py"gpu:" ++ Str.ofNat n) ∧
    device2str .none none .none = .str py"cpu" := by
  have hc : 'c' ∉ Str.ofNat n := not_mem_ofNat (by decide) n
  have h1 : Str.contains (py"cuda:" ++ Str.ofNat n) py"cuda" = true :=
    Str.contains_iff.2 ⟨[], ':' :: Str.ofNat n, by simp⟩
  have h2 : Str.contains (py"gpu:" ++ Str.ofNat n) py"cpu" = false :=
    not_contains_of_head (c := 'c') (by decide) (by simp [hc])
  have h3 : Str.contains (py"cpu:" ++ Str.ofNat n) py"cuda" = false :=
    not_contains_of_head (c := 'd') (by decide) (by simp; exact not_mem_ofNat (by decide) n)
  have h4 : Str.contains (py"cpu:" ++ Str.ofNat n) py"cpu" = true :=
    Str.contains_iff.2 ⟨[], ':' :: Str.ofNat n, by simp⟩
  have h5 : Str.contains py"cuda" py"cuda" = true := by decide
  have h6 : Str.replace py"cuda" py"cuda" py"gpu" = py"gpu" := by decide
  have h7 : Str.contains py"gpu" py"cpu" = false := by decide
  refine ⟨by decide, ?_, by decide, ?_, ?_, ?_, rfl, rfl, rfl, rfl⟩
  · simp only [device2str, Dev.truthy, Bool.false_eq_true, if_false, h1, if_true, replace_cuda_colon, h2]
  · simp only [device2str, Dev.truthy, Bool.false_eq_true, if_false, h3, h4, if_true]
  · simp only [device2str, Dev.truthy, Bool.false_eq_true, if_false, h5, h6, h7, if_true]
    rfl
  · have h8 : Str.contains py"cpu" py"cuda" = false := by decide
    have h9 : Str.contains py"cpu" py"cpu" = true := by decide
    simp only [device2str, Dev.truthy, Bool.false_eq_true, if_false, h8, h9, if_true]

/-- A device given by the keyword `device` is treated like a first argument, unless it is falsy. -/
theorem C53_keyword (type d : Dev) (index : Option Str) (hd : d.truthy = true) :
    device2str type index d = device2str d index .none := by
  have h : Dev.none.truthy = false := rfl
  simp only [device2str, hd, h, if_true, Bool.false_eq_true, if_false]

/-- **C53 fails for the keyword.** `device2str(device=0)` is `'cpu'`, although `device2str(0)` is `'gpu:0'`: the number 0
is falsy. -/
theorem C53_keyword_negative :
    device2str .none none (.int 0) = .str py"cpu" ∧ device2str (.int 0) none .none = .str py"gpu:0" := by decide

/-- **C53, the code written for an argument.** For the number `n` the string of device `n` is written, which is what the
helper would return at run time. -/
theorem C53_code_number (n : Nat) :
    deviceCode (py"(" ++ Str.ofNat n ++ py")") = py"'" ++ (py"gpu:" ++ Str.ofNat n) ++ py"'" := by
  have hne : Str.ofNat n ≠ [] := by
    intro h
    have := Nat.toDigits_ne_nil (n := n) (b := 10)
    exact this h
  have hp : ∀ c ∈ Str.ofNat n, (c == '(' || c == ')') = false := by
    intro c hc
    have := mem_ofNat_isDigit hc
    by_cases h1 : c = '('
    · subst h1; exact absurd this (by decide)
    · by_cases h2 : c = ')'
      · subst h2; exact absurd this (by decide)
      · simp [h1, h2]
  have dw : ∀ (l t : List Char), l ≠ [] → (∀ c ∈ l, (c == '(' || c == ')') = false) →
      (l ++ t).dropWhile (fun c => c == '(' || c == ')') = l ++ t := by
    intro l t hl h
    cases l with
    | nil => exact absurd rfl hl
    | cons x l => rw [List.cons_append, List.dropWhile_cons_of_neg (by simp [h x (by simp)])]
  have hs : stripParens (py"(" ++ Str.ofNat n ++ py")") = Str.ofNat n := by
    simp only [stripParens, Str.stripBy, Str.rstripBy, Str.lstripBy]
    have e1 : (py"(" ++ Str.ofNat n ++ py")").dropWhile (fun c => c == '(' || c == ')')
        = Str.ofNat n ++ py")" := by
      show (('(' :: (Str.ofNat n ++ py")")).dropWhile _) = _
      rw [List.dropWhile_cons_of_pos (by decide)]
      exact dw _ _ hne hp
    rw [e1, List.reverse_append]
    show ((')' :: (Str.ofNat n).reverse).dropWhile _).reverse = _
    rw [List.dropWhile_cons_of_pos (by decide)]
    have := dw (Str.ofNat n).reverse [] (by simpa using hne) (by simpa using hp)
    rw [List.append_nil] at this
    rw [this, List.reverse_reverse]
  have hd : isDigits (Str.ofNat n) = true := by
    simp only [isDigits, Bool.and_eq_true, Bool.not_eq_true', List.isEmpty_eq_false_iff]
    exact ⟨hne, List.all_eq_true.2 fun c hc => mem_ofNat_isDigit hc⟩
  unfold deviceCode
  rw [hs, if_pos hd]
  simp

/-- **C53 fails for variables.** The word `cuda` is also replaced inside a variable name, so that the generated code
refers to a name that the program does not define. -/
theorem C53_variable_negative : deviceCode py"cuda_device" = py"gpu_device" := by decide

/-- Any text without `cuda` that is not a number is passed to the helper unchanged. -/
theorem C53_code_other (src : Str) (h1 : isDigits (stripParens src) = false)
    (h2 : Str.contains src py"cuda" = false) : deviceCode src = py"device2str(" ++ src ++ py")" := by
  simp [deviceCode, h1, h2]

example : deviceCode py"\"\"\"cuda:0\"\"\"" = py"\"\"\"gpu:0\"\"\"" := by decide
example : device2str (.str py"cuda:3") none .none = .str py"gpu:3" := by decide

/-! ## C54: the overloads of randint -/

/-- The value of keyword `k` of a call. -/
def kwValue (kws : List Kw) (k : Str) : Option Str := Dict.last? (kwBindings kws) (some k)

theorem last?_cons (x : Option Str × Str) (l : List (Option Str × Str)) (k : Option Str) :
    Dict.last? (x :: l) k = (Dict.last? l k).or (if x.1 = k then some x.2 else none) := by
  simp only [Dict.last?, List.reverse_cons, List.find?_append]
  cases (List.find? (fun kv => decide (kv.1 = k)) l.reverse) with
  | some v => simp
  | none => by_cases h : x.1 = k <;> simp [h]

theorem has_eq (d : Kwargs) (k : Option Str) : d.has k = (d.get? k).isSome := rfl

theorem last?_eq_get? {d : Kwargs} (hd : d.WF) (k : Option Str) : Dict.last? d k = d.get? k := by
  have h := Dict.get?_update [] d k
  have h2 : Dict.update [] d = d := by
    have := Dict.update_fresh ([] : Kwargs) d (by simpa [Dict.keys, Dict.WF] using hd)
    simpa using this
  rw [h2] at h
  simpa using h.symm

/-- **C54.** Let the parameters be declared as `low, high, size` and let a call be read by the common argument handling.
If PyTorch gives the call the lower bound `l`, the upper bound `h` and the shape `s` (by either overload, the arguments
being mixed in any way between positional and keyword form), then the generated call has exactly these. -/
theorem C54_randint (cfg : Cfg) (args : List Arg) (kws : List Kw) (as an : Bool) (d : Kwargs) (l h s : Str)
    (hcfg : posArgs cfg = [py"low", py"high", py"size"]) (hun : cfg.unsupport = [])
    (hparse : parseArgs cfg args kws as an = .ok d)
    (hm : RandintMeans (args.map (·.src)) (kwValue kws) l h s) :
    ∃ r, randint d = some r ∧ r.get? (some py"low") = some l ∧ r.get? (some py"high") = some h ∧
      r.get? (some py"size") = some s ∧
      ∀ k, k ≠ py"low" → k ≠ py"high" → k ≠ py"size" → r.get? (some k) = kwValue kws k := by
  obtain ⟨hlen, kept, hr, hget⟩ := bound_each cfg args kws as an d hparse
  have hk : kept = kws := by
    clear hget hparse hm
    induction hr with
    | nil => rfl
    | keep n _ ih => rw [ih]
    | drop n hn _ _ => obtain ⟨⟨k, _, hu⟩, _⟩ := hn; rw [hun] at hu; simp at hu
  subst hk
  rw [hcfg] at hget hlen
  have hwf : d.WF := by
    obtain ⟨_, _, _, _, _, _, h3, _⟩ := parse_ok hparse
    rw [h3]; exact Dict.WF.update Dict.WF_nil _
  have hupd : ∀ (base e : Kwargs), e.WF → ∀ k, (Dict.update base e).get? k = (e.get? k).or (base.get? k) := by
    intro base e he k
    rw [Dict.get?_update, last?_eq_get? he]
  have hgk : ∀ k, k ≠ py"low" → k ≠ py"high" → k ≠ py"size" → d.get? (some k) = kwValue kept k := by
    intro k h1 h2 h3
    rw [hget, kwValue]
    rcases args with _ | ⟨a, _ | ⟨b, _ | ⟨c, rest⟩⟩⟩ <;>
      simp [posBindings, last?_cons, Ne.symm h1, Ne.symm h2, Ne.symm h3]
  have nlh : (some py"low" : Option Str) ≠ some py"high" := by decide
  have nls : (some py"low" : Option Str) ≠ some py"size" := by decide
  have nhs : (some py"high" : Option Str) ≠ some py"size" := by decide
  have base : ∀ vl vh vs : Option Str, d.get? (some py"low") = vl → d.get? (some py"high") = vh →
      d.get? (some py"size") = vs →
      ((vl = some l ∧ vh = some h ∧ vs = some s) ∨ (l = py"0" ∧ vl = some h ∧ vh = some s ∧ vs = none) ∨
        (l = py"0" ∧ vl = some h ∧ vh = none ∧ vs = some s) ∨
        (l = py"0" ∧ vl = none ∧ vh = some h ∧ vs = some s)) →
      ∃ r, randint d = some r ∧ r.get? (some py"low") = some l ∧ r.get? (some py"high") = some h ∧
        r.get? (some py"size") = some s ∧
        ∀ k, k ≠ py"low" → k ≠ py"high" → k ≠ py"size" → r.get? (some k) = kwValue kept k := by
    intro vl vh vs el eh es hcase
    have we1 := hwf.erase (some py"low")
    have we2 := we1.erase (some py"high")
    rcases hcase with ⟨rfl, rfl, rfl⟩ | ⟨rfl, rfl, rfl, rfl⟩ | ⟨rfl, rfl, rfl, rfl⟩ | ⟨rfl, rfl, rfl, rfl⟩
    · refine ⟨_, by simp only [randint, has_eq, es, eh, el]; rfl, ?_, ?_, ?_, ?_⟩
      · rw [hupd _ _ hwf, el]; rfl
      · rw [hupd _ _ hwf, eh]; rfl
      · rw [hupd _ _ hwf, es]; rfl
      · intro k h1 h2 h3; rw [hupd _ _ hwf, hgk k h1 h2 h3]; simp
    · have e2 : (d.erase (some py"low")).get? (some py"high") = some s := by
        rw [Dict.get?_erase_ne _ nlh, eh]
      refine ⟨_, by simp only [randint, has_eq, es, pop, el]; simp only [Option.isSome_none, if_true, Option.map_some,
        Option.bind_eq_bind, Option.bind_some, e2]; rfl, ?_, ?_, ?_, ?_⟩
      · rw [hupd _ _ we2, Dict.get?_erase_ne _ nlh.symm, Dict.get?_erase_self hwf]; rfl
      · rw [hupd _ _ we2, Dict.get?_erase_self we1]; rfl
      · rw [hupd _ _ we2, Dict.get?_erase_ne _ nhs, Dict.get?_erase_ne _ nls, es]; rfl
      · intro k h1 h2 h3
        rw [hupd _ _ we2, Dict.get?_erase_ne _ (by simpa using Ne.symm h2),
          Dict.get?_erase_ne _ (by simpa using Ne.symm h1), hgk k h1 h2 h3]
        simp [Dict.get?, Ne.symm h1, Ne.symm h2, Ne.symm h3]
    · refine ⟨_, by simp only [randint, has_eq, es, eh, pop, el]; rfl, ?_, ?_, ?_, ?_⟩
      · rw [hupd _ _ we1, Dict.get?_erase_self hwf]; rfl
      · rw [hupd _ _ we1, Dict.get?_erase_ne _ nlh, eh]; rfl
      · rw [hupd _ _ we1, Dict.get?_erase_ne _ nls, es]; rfl
      · intro k h1 h2 h3
        rw [hupd _ _ we1, Dict.get?_erase_ne _ (by simpa using Ne.symm h1), hgk k h1 h2 h3]
        simp [Dict.get?, Ne.symm h1, Ne.symm h2]
    · refine ⟨_, by simp only [randint, has_eq, es, eh, el]; rfl, ?_, ?_, ?_, ?_⟩
      · rw [hupd _ _ hwf, el]; rfl
      · rw [hupd _ _ hwf, eh]; rfl
      · rw [hupd _ _ hwf, es]; rfl
      · intro k h1 h2 h3; rw [hupd _ _ hwf, hgk k h1 h2 h3]; simp [Dict.get?, Ne.symm h1]
  apply base _ _ _ (hget _) (hget _) (hget _)
  have kl : Dict.last? (kwBindings kept) (some py"low") = kwValue kept py"low" := rfl
  have kh : Dict.last? (kwBindings kept) (some py"high") = kwValue kept py"high" := rfl
  have ks : Dict.last? (kwBindings kept) (some py"size") = kwValue kept py"size" := rfl
  rcases args with _ | ⟨a, _ | ⟨b, _ | ⟨c, _ | ⟨e, rest⟩⟩⟩⟩
  · cases hm with
    | three hb =>
      obtain ⟨h1, h2, h3, _⟩ := hb
      simp [posBindings, kl, kh, ks, h1, h2, h3]
    | two h0 hb =>
      obtain ⟨h1, h2, _⟩ := hb
      simp [posBindings, kl, kh, ks, h0, h1, h2]
  · cases hm with
    | three hb =>
      obtain ⟨rfl, h1, h2, h3, _⟩ := hb
      simp [posBindings, last?_cons, kl, kh, ks, h1, h2, h3]
    | two h0 hb =>
      obtain ⟨rfl, h1, h2, _⟩ := hb
      simp [posBindings, last?_cons, kl, kh, ks, h0, h1, h2]
  · cases hm with
    | three hb =>
      obtain ⟨rfl, h1, rfl, h2, h3, _⟩ := hb
      simp [posBindings, last?_cons, kl, kh, ks, h1, h2, h3]
    | two h0 hb =>
      obtain ⟨rfl, h1, rfl, h2, _⟩ := hb
      simp [posBindings, last?_cons, kl, kh, ks, h0, h1, h2]
  · cases hm with
    | three hb =>
      obtain ⟨rfl, h1, rfl, h2, rfl, h3, _⟩ := hb
      simp [posBindings, last?_cons, kl, kh, ks, h1, h2, h3]
    | two h0 hb => simp [Bound] at hb
  · simp at hlen

/-- `torch.randint(10, size=(2, 3), dtype=d)`. -/
def randintCfg : Cfg := { argsList := [py"low", py"high", py"size", py"*", py"dtype"], minInput := 2 }

example : posArgs randintCfg = [py"low", py"high", py"size"] ∧
    RandintMeans [py"(10)"] (kwValue [⟨some py"size", py"(2, 3)", false⟩, ⟨some py"dtype", py"d", false⟩])
      py"0" py"(10)" py"(2, 3)" ∧
    parseArgs randintCfg [⟨py"(10)", false⟩]
      [⟨some py"size", py"(2, 3)", false⟩, ⟨some py"dtype", py"d", false⟩] false false =
      .ok [(some py"low", py"(10)"), (some py"size", py"(2, 3)"), (some py"dtype", py"d")] :=
  ⟨by decide, .two (by decide) ⟨rfl, by decide, by decide, trivial⟩, by decide⟩

/-! ## C55: names of C++ extensions -/

/-- Which names survive `("load_" + name).lstrip("load_")`. -/
theorem stripLoad_tag (name : Str) :
    stripLoad (extTag true name) = name ↔ name = [] ∨ ∃ c t, name = c :: t ∧ c ∉ py"load_" := by
  have e : stripLoad (extTag true name) = name.dropWhile (fun c => (py"load_").contains c) := by
    simp only [stripLoad, extTag, if_true, Str.lstripBy]
    simp only [List.cons_append, List.nil_append]
    rw [List.dropWhile_cons_of_pos (by decide), List.dropWhile_cons_of_pos (by decide),
      List.dropWhile_cons_of_pos (by decide), List.dropWhile_cons_of_pos (by decide),
      List.dropWhile_cons_of_pos (by decide)]
  rw [e]
  cases name with
  | nil => simp
  | cons c t =>
    by_cases hc : (py"load_").contains c = true
    · rw [List.dropWhile_cons_of_pos hc]
      constructor
      · intro h
        have h1 := (List.dropWhile_sublist (fun c => (py"load_").contains c) (l := t)).length_le
        rw [h] at h1; simp only [List.length_cons] at h1; omega
      · rintro (h | ⟨c', t', h, h2⟩)
        · simp at h
        · cases h; exact absurd (List.contains_iff_mem.1 hc) h2
    · rw [List.dropWhile_cons_of_neg hc]
      simp only [true_iff]
      exact .inr ⟨c, t, rfl, fun h => hc (List.contains_iff_mem.2 h)⟩

theorem fromLoop_skip (asname : Option Str) (nodes : List (Str × Str)) (s : FromState)
    (h : ∀ p ∈ nodes, p.1 ≠ s.name) : fromLoop asname nodes s = s := by
  induction nodes with
  | nil => rfl
  | cons p nodes ih =>
    obtain ⟨cls, ext⟩ := p
    rw [fromLoop, if_neg (h (cls, ext) (by simp))]
    exact ih (fun q hq => h q (by simp [hq]))

/-- **C55 (partly).** Let class `cls` be recorded, once, with an extension that was loaded by `load(..)` under the
variable `name`, and let no recorded class be called `name`. Then `from m import cls` becomes `from m import name`,
and `cls.apply` becomes `name`, provided `name` does not begin with one of the characters `l`, `o`, `a`, `d`, `_`.
The full claim has no such condition; `C55_negative` shows that it is false without it. -/
theorem C55_loaded_partial (before after : List (Str × Str)) (cls name : Str) (asname : Option Str)
    (hb : ∀ p ∈ before, p.1 ≠ cls) (ha : ∀ p ∈ after, p.1 ≠ name) (hne : name ≠ [])
    (hname : ∀ c t, name = c :: t → c ∉ py"load_") :
    let s := fromLoop asname (before ++ (cls, extTag true name) :: after) { name := cls }
    s.name = name ∧ s.remove = false ∧ s.imports = [] ∧
      (s.known.get? (asname.getD cls)).map applyCode = some name := by
  have hs : Str.startsWith (extTag true name) py"load_" = true :=
    Str.startsWith_iff.2 ⟨name, by simp [extTag]⟩
  have hst : stripLoad (extTag true name) = name := by
    rw [stripLoad_tag]
    cases name with
    | nil => exact absurd rfl hne
    | cons c t => exact .inr ⟨c, t, rfl, hname c t rfl⟩
  have key : fromLoop asname (before ++ (cls, extTag true name) :: after) { name := cls } =
      { name := name, known := [(asname.getD cls, extTag true name)] } := by
    induction before with
    | nil =>
      rw [List.nil_append, fromLoop, if_pos rfl]
      simp only [hs, if_true]
      rw [fromLoop_skip _ _ _ (by simpa [hst] using ha), hst]
      rfl
    | cons p before ih =>
      obtain ⟨c', e'⟩ := p
      rw [List.cons_append, fromLoop, if_neg (hb (c', e') (by simp))]
      exact ih (fun q hq => hb q (by simp [hq]))
  simp only [key]
  refine ⟨trivial, trivial, trivial, ?_⟩
  simp [Dict.get?, applyCode, hs, hst]

/-- **C55 (partly), imported extensions.** For an extension module `name` that does not begin with `load_`, the class
import is removed and the module is imported instead. -/
theorem C55_imported_partial (before after : List (Str × Str)) (cls name : Str) (asname : Option Str)
    (hb : ∀ p ∈ before, p.1 ≠ cls) (ha : ∀ p ∈ after, p.1 ≠ cls)
    (hname : Str.startsWith name py"load_" = false) :
    let s := fromLoop asname (before ++ (cls, extTag false name) :: after) { name := cls }
    s.remove = true ∧ s.imports = [name] ∧
      (s.known.get? (asname.getD cls)).map applyCode = some (name ++ py".custom_op_xxx") := by
  have key : fromLoop asname (before ++ (cls, extTag false name) :: after) { name := cls } =
      { name := cls, imports := [name], remove := true, known := [(asname.getD cls, name)] } := by
    induction before with
    | nil =>
      rw [List.nil_append, fromLoop, if_pos rfl]
      simp only [extTag, Bool.false_eq_true, if_false, hname]
      rw [fromLoop_skip _ _ _ (by simpa using ha)]
      rfl
    | cons p before ih =>
      obtain ⟨c', e'⟩ := p
      rw [List.cons_append, fromLoop, if_neg (hb (c', e') (by simp))]
      exact ih (fun q hq => hb q (by simp [hq]))
  simp only [key]
  refine ⟨trivial, trivial, ?_⟩
  simp [Dict.get?, applyCode, hname]

/-- **C55 is false for some names**, and these are exactly the ones beginning with a character of `load_`: the extension
`lltm_cpp` becomes `tm_cpp`, and `load_adam` disappears up to its last character. -/
theorem C55_negative :
    (fromLoop none [(py"LLTM", extTag true py"lltm_cpp")] { name := py"LLTM" }).name = py"tm_cpp" ∧
    applyCode (extTag true py"load_adam") = py"m" := by decide

/-- An imported module whose name begins with `load_` is taken for a loaded one: nothing is imported, and the name is
cut. -/
theorem C55_imported_negative :
    let s := fromLoop none [(py"Op", extTag false py"load_balancer")] { name := py"Op" }
    s.imports = [] ∧ s.name = py"balancer" := by decide

theorem C55_loaded_iff (name : Str) (hne : name ≠ []) :
    applyCode (extTag true name) = name ↔ ∀ c t, name = c :: t → c ∉ py"load_" := by
  have hs : Str.startsWith (extTag true name) py"load_" = true :=
    Str.startsWith_iff.2 ⟨name, by simp [extTag]⟩
  rw [applyCode, if_pos hs, stripLoad_tag]
  constructor
  · rintro (h | ⟨c, t, h, hc⟩) c' t' h'
    · exact absurd h hne
    · rw [h] at h'; cases h'; exact hc
  · intro h
    cases name with
    | nil => exact .inl rfl
    | cons c t => exact .inr ⟨c, t, rfl, h c t rfl⟩

example : (fromLoop none [(py"A", extTag false py"x"), (py"MyOp", extTag true py"my_ext")] { name := py"MyOp" }).name
    = py"my_ext" := by decide

end Verif.Helpers

import Verif.Model.Names

/-!
# C01, C02: generated names
-/

namespace Verif.Names
open Verif

/-! ## Lemmas -/

theorem call_name (g : Gen) (k : Str) : (call g k).1 = k ++ '_' :: Str.ofNat (counter g k) := by
  simp [call, Str.join]

theorem counter_call (g : Gen) (k k' : Str) :
    counter (call g k).2 k' = counter g k' + (if k = k' then 1 else 0) := by
  simp only [call, counter, Dict.get?_set]
  split
  · next h => subst h; simp
  · simp

theorem names_length (g : Gen) (ks : List Str) : (names g ks).length = ks.length := by
  induction ks generalizing g with
  | nil => rfl
  | cons k ks ih => simp [names, ih]

theorem names_get (g : Gen) (ks : List Str) (i : Nat) (h : i < ks.length) :
    (names g ks)[i]'(by rw [names_length]; exact h)
      = ks[i] ++ '_' :: Str.ofNat (counter g ks[i] + (ks.take i).count ks[i]) := by
  induction ks generalizing g i with
  | nil => simp at h
  | cons k ks ih =>
    cases i with
    | zero => simp [names, call_name]
    | succ i =>
      simp only [List.length_cons, Nat.add_lt_add_iff_right] at h
      simp only [names, List.getElem_cons_succ, List.take_succ_cons]
      rw [ih _ _ h, counter_call, List.count_cons]
      congr 3
      simp only [beq_iff_eq]
      omega

/-- The key and the number can be read back from a generated name, because the decimal digits contain no
underscore: the last underscore is the one the generator put there. -/
theorem name_inj {k k' : Str} {m n : Nat}
    (h : k ++ '_' :: Str.ofNat m = k' ++ '_' :: Str.ofNat n) : k = k' ∧ m = n := by
  have aux : ∀ (a b : Str) (c d : Str), '_' ∉ c → '_' ∉ d → a ++ '_' :: c = b ++ '_' :: d →
      a = b ∧ c = d := by
    intro a
    induction a with
    | nil =>
      intro b c d hc hd e
      cases b with
      | nil => simp at e; exact ⟨rfl, e⟩
      | cons x b => simp at e; exact absurd (e.2 ▸ (by simp : '_' ∈ b ++ '_' :: d)) hc
    | cons x a ih =>
      intro b c d hc hd e
      cases b with
      | nil => simp at e; exact absurd (e.2 ▸ (by simp : '_' ∈ a ++ '_' :: c)) hd
      | cons y b =>
        simp at e
        have := ih b c d hc hd e.2
        exact ⟨by rw [e.1, this.1], this.2⟩
  have := aux _ _ _ _ (Str.underscore_not_mem_ofNat m) (Str.underscore_not_mem_ofNat n) h
  exact ⟨this.1, Str.ofNat_injective this.2⟩

theorem count_take_lt (ks : List Str) {i j : Nat} (hij : i < j) (hj : j < ks.length)
    (e : ks[i]'(by omega) = ks[j]) : (ks.take i).count ks[i] < (ks.take j).count ks[j] := by
  have h1 : ks.take j = ks.take i ++ (ks.drop i).take (j - i) := by
    have : j = i + (j - i) := by omega
    conv => lhs; rw [this, List.take_add]
  rw [h1, List.count_append, e]
  have : ks[j] ∈ (ks.drop i).take (j - i) := by
    rw [← e]
    rw [List.mem_iff_getElem]
    exact ⟨0, by simp; omega, by simp⟩
  have := List.count_pos_iff.2 this
  omega

/-! ## Properties -/

/-- **C01.** However a process asks for generated names (any keys, in any order, equal, or ending in `_<n>`
themselves), the names returned are pairwise different. -/
theorem C01_names_never_repeat (keys : List Str) : (names [] keys).Nodup := by
  rw [List.nodup_iff_pairwise_ne, List.pairwise_iff_getElem]
  intro i j hi hj hij
  rw [names_length] at hi hj
  rw [names_get [] keys i hi, names_get [] keys j hj]
  intro e
  have ⟨e1, e2⟩ := name_inj e
  rw [e1] at e2
  have := count_take_lt keys hij hj e1
  rw [e1] at this
  omega

/-- Keys that look like generated names: the second call for `x` and the first for `x_0` stay apart. -/
example : names [] [py"x", py"x_1", py"x", py"x_1", py"x"]
    = [py"x_0", py"x_1_0", py"x_1", py"x_1_1", py"x_2"] := by decide

/-- **C02.** The answer to the request number `i` is the key, an underscore and, in decimal, the number of
earlier requests for the same key. -/
theorem C02_names_count_up (keys : List Str) (i : Nat) (h : i < keys.length) :
    (names [] keys)[i]? = some (keys[i] ++ py"_" ++ Str.ofNat ((keys.take i).count keys[i])) := by
  have hl : i < (names [] keys).length := by rw [names_length]; exact h
  rw [List.getElem?_eq_getElem hl, names_get [] keys i h]
  simp [counter]

example : ([py"x", py"y", py"x"].take 2).count py"x" = 1 := by decide

end Verif.Names

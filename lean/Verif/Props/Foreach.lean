import Verif.Model.Foreach
import Verif.Spec.Foreach
import Verif.Props.TemplateNegative
import Verif.Props.Flags

/-!
# C102: operations on lists of tensors
-/

namespace Verif.Foreach
open Verif

theorem comprehension_new {V : Type} {f : V → V} {func : Fn V} (hf : MakesNew f func) : ∀ xs h, (∀ x ∈ xs, x < h.next) →
    h.next ≤ (comprehension func xs h).2.next ∧ (∀ y ∈ (comprehension func xs h).1, h.next ≤ y ∧ y < (comprehension func xs h).2.next) ∧
    (comprehension func xs h).1.Nodup ∧
    (comprehension func xs h).1.map (comprehension func xs h).2.val = xs.map (fun x => f (h.val x)) ∧
    ∀ r < h.next, (comprehension func xs h).2.val r = h.val r := by
  intro xs
  induction xs with
  | nil => intro h _; simp [comprehension]
  | cons x xs ih =>
    intro h hx
    obtain ⟨h1, h2, h3, h4⟩ := hf x h (hx x (by simp))
    have hle : h.next ≤ (func x h).2.next := by omega
    obtain ⟨i0, i1, i2, i3, i4⟩ := ih (func x h).2 (fun z hz => Nat.lt_of_lt_of_le (hx z (by simp [hz])) hle)
    simp only [comprehension]
    refine ⟨by omega, ?_, ?_, ?_, ?_⟩
    · intro y hy
      rcases List.mem_cons.1 hy with rfl | hy
      · exact ⟨h1, by omega⟩
      · have := i1 y hy
        exact ⟨by omega, this.2⟩
    · rw [List.nodup_cons]
      refine ⟨fun hm => ?_, i2⟩
      have := (i1 _ hm).1
      omega
    · rw [List.map_cons, List.map_cons, i3, i4 _ h2, h3]
      congr 1
      apply List.map_congr_left
      intro z hz
      rw [h4 z (hx z (by simp [hz]))]
    · intro r hr
      rw [i4 r (by omega), h4 r hr]

theorem comprehension_changed {V : Type} {f : V → V} {func : Fn V} (hf : Changes f func) : ∀ xs h, (∀ x ∈ xs, x < h.next) →
    (comprehension func xs h).1 = xs ∧
    ∀ r < h.next, (comprehension func xs h).2.val r = Nat.repeat f (xs.count r) (h.val r) := by
  have swap : ∀ n v, Nat.repeat f n (f v) = Nat.repeat f (n + 1) v := by
    intro n v
    induction n with
    | zero => rfl
    | succ n ih => rw [Nat.repeat, ih]; rfl
  intro xs
  induction xs with
  | nil => intro h _; simp [comprehension, Nat.repeat]
  | cons x xs ih =>
    intro h hx
    obtain ⟨h1, h2, h3, h4⟩ := hf x h (hx x (by simp))
    obtain ⟨i1, i2⟩ := ih (func x h).2 (fun z hz => Nat.lt_of_lt_of_le (hx z (by simp [hz])) h2)
    simp only [comprehension]
    refine ⟨by rw [i1, h1], ?_⟩
    intro r hr
    rw [i2 r (by omega)]
    by_cases e : r = x
    · subst e
      rw [h3, List.count_cons_self, swap]
    · rw [h4 r hr e, List.count_cons_of_ne (Ne.symm e)]

/-- **C102, functions.** The helper for functions of one tensor does with a list what PyTorch does, if the function does
with each tensor what PyTorch's function does. Missing: that the functions of Paddle meet the hypothesis. -/
theorem C102_operator_partial {V : Type} (f : V → V) (func : Fn V) :
    (MakesNew f func → EachNew f (foreachOperator func)) ∧ (Changes f func → EachChanged f (foreachOperator func)) := by
  constructor
  · intro hf xs h hx
    obtain ⟨_, h1, h2, h3, h4⟩ := comprehension_new hf xs h hx
    exact ⟨fun y hy => (h1 y hy).1, h2, h3, h4⟩
  · intro hf xs h hx
    exact comprehension_changed hf xs h hx

/-- What follows the last dot. -/
theorem lastPart_append (s m : Str) (hm : '.' ∉ m) : lastPart (s ++ '.' :: m) = m := by
  have h : ∀ (m' t : Str), '.' ∉ m' → (m' ++ '.' :: t).takeWhile (· ≠ '.') = m' := by
    intro m' t hm'
    induction m' with
    | nil => simp
    | cons c m' ih =>
      rw [List.mem_cons, not_or] at hm'
      have hc : c ≠ '.' := fun e => hm'.1 e.symm
      rw [List.cons_append, List.takeWhile_cons_of_pos (by simpa using hc), ih hm'.2]
  rw [lastPart, List.reverse_append, List.reverse_cons, List.append_assoc, List.singleton_append, h _ _ (by simpa using hm),
    List.reverse_reverse]

/-- **C102, methods.** The helper for methods calls the method after the last dot of the name it gets, for each tensor of the
list. Missing as above. -/
theorem C102_method_partial {V : Type} (f : V → V) (method : Str → Fn V) (m : Str) (hm : '.' ∉ m) :
    (MakesNew f (method m) → EachNew f fun xs => foreachTensor method xs (py"paddle.Tensor." ++ m)) ∧
    (Changes f (method m) → EachChanged f fun xs => foreachTensor method xs (py"paddle.Tensor." ++ m)) := by
  have e : lastPart (py"paddle.Tensor." ++ m) = m := lastPart_append py"paddle.Tensor" m hm
  have e2 : (fun xs => foreachTensor method xs (py"paddle.Tensor." ++ m)) = foreachOperator (method m) := by
    funext xs
    rw [foreachTensor, e]
    rfl
  rw [e2]
  exact C102_operator_partial f (method m)

/-- **C102, `erfc`.** The two helpers for `erfc` compute `1 - erf` of each tensor, in new tensors and in place. -/
theorem C102_erfc {V : Type} (erf oneMinus : V → V) :
    EachNew (fun v => oneMinus (erf v)) (foreachErfc erf oneMinus) ∧
    EachChanged (fun v => oneMinus (erf v)) (foreachErfc_ erf oneMinus) := by
  constructor
  · apply (C102_operator_partial _ _).1
    intro x h hx
    simp only [Heap.alloc]
    refine ⟨by omega, by omega, by simp, ?_⟩
    intro r hr
    rw [if_neg (by omega), if_neg (by omega)]
  · apply (C102_operator_partial _ _).2
    intro x h hx
    simp only [Heap.alloc, Heap.write]
    refine ⟨trivial, by omega, by simp, ?_⟩
    intro r hr hne
    rw [if_neg hne, if_neg (by omega), if_neg (by omega)]

/-- The hypotheses of `C102_operator_partial` are met by a function with a new result and by one in place. -/
example : MakesNew (V := Nat) (· + 1) (fun x h => h.alloc (h.val x + 1)) ∧
    Changes (V := Nat) (· + 1) (fun x h => (x, h.write x (h.val x + 1))) := by
  constructor
  · intro x h hx
    simp only [Heap.alloc]
    exact ⟨Nat.le_refl _, by omega, by simp, fun r hr => by rw [if_neg (by omega)]⟩
  · intro x h hx
    simp only [Heap.write]
    exact ⟨trivial, Nat.le_refl _, by simp, fun r _ hne => by rw [if_neg hne]⟩

example : (foreachOperator (V := Nat) (fun x h => (x, h.write x (h.val x * 2))) [0, 1, 0] ⟨2, fun r => r + 3⟩).2.val 0 = 12 ∧
    (foreachErfc (V := Nat) (· + 10) (100 - ·) [1, 0] ⟨2, fun r => r⟩).1 = [3, 5] ∧
    lastPart py"paddle.Tensor.exp_" = py"exp_" := by decide

end Verif.Foreach

namespace Verif.Template
open Verif

/-- The entry and its matcher fit to the name behind `torch._foreach_`. -/
def foreachOk (name : Str) (cfg : Matcher.Cfg) (g : K) : Bool :=
  !Str.startsWith name py"torch._foreach_" ||
    (!(name.drop 15).contains '.' &&
    ((decide (g = foreach) && decide (apiVal name cfg = [.code (py"paddle." ++ name.drop 15)])) ||
     (decide (g = foreachTensor) && decide (apiVal name cfg = [.code (py"paddle.Tensor." ++ name.drop 15)])) ||
     (decide (g = foreachErfc) && decide (name.drop 15 = py"erfc")) ||
     (decide (g = foreachErfc_) && decide (name.drop 15 = py"erfc_"))))

set_option maxRecDepth 100000 in
theorem foreach_table : onEntries foreachOk Data.apiTable = true := by decide +kernel

/-- **C102, the code.** For every entry `torch._foreach_f` of the shipped table, the code applies the function of Paddle or
the method with the same name `f` to the list that the user wrote, through the helper of C102_operator_partial or C102_method_partial; for
`erfc` and `erfc_` it is the helper of C102_erfc. -/
theorem C102_code {r : Data.Raw} (hr : r ∈ Data.apiTable) {f : Str} (hn : r.name = py"torch._foreach_" ++ f) {c : Call}
    (v : Valid r c) {t : Str} (ht : c.args.get? py"self" = some t) {ps : List Spec.Piece} (hc : Converts r c (.code ps)) :
    '.' ∉ f ∧
    (c.text ps = py"\nforeach_operator(paddle." ++ f ++ py", " ++ t ++ py")\n" ∨
     c.text ps = py"\nforeach_Tensor_(" ++ t ++ py",\"paddle.Tensor." ++ f ++ py"\")\n" ∨
     (f = py"erfc" ∧ c.text ps = py"\nforeach_erfc(" ++ t ++ py")\n") ∨
     (f = py"erfc_" ∧ c.text ps = py"\nforeach_erfc_(" ++ t ++ py")\n")) := by
  obtain ⟨m, hm, hcls, ho⟩ := hc
  have h := on_entry foreach_table hr hm hcls
  have hd : r.name.drop 15 = f := by rw [hn]; rfl
  have hp : Str.startsWith r.name py"torch._foreach_" = true := by
    rw [hn]
    simp [Str.startsWith]
  simp only [foreachOk, hd, hp, Bool.not_true, Bool.false_or, Bool.and_eq_true, Bool.or_eq_true, decide_eq_true_eq,
    Bool.not_eq_true', ← v.api] at h
  have hself : ∀ d : Dict Str Str, d.get? py"self" = some t →
      Dict.get? (d.map fun kv => (kv.1, ([Spec.Piece.user kv.1] : Val))) py"self" = some [.user py"self"] := by
    intro d
    induction d with
    | nil => intro h; simp at h
    | cons kv d ih =>
      intro h
      obtain ⟨k, w⟩ := kv
      simp only [Dict.get?] at h
      rw [List.map_cons, Dict.get?]
      by_cases e : k = py"self"
      · rw [if_pos e, e]
      · rw [if_neg e] at h
        rw [if_neg e]
        exact ih h
  have hs := hself c.args ht
  refine ⟨by simpa using h.1, ?_⟩
  rcases h.2 with ((⟨hg, ha⟩ | ⟨hg, ha⟩) | ⟨hg, hf⟩) | ⟨hg, hf⟩
  · left
    rw [hg] at ho
    simp only [K.out, foreach, K.run, evalAll, Q.eval, Call.start, hs, ha] at ho
    cases ho
    simp [Call.text, Spec.print, Spec.Piece.text, ht]
  · right; left
    rw [hg] at ho
    simp only [K.out, foreachTensor, K.run, evalAll, Q.eval, Call.start, hs, ha] at ho
    cases ho
    simp [Call.text, Spec.print, Spec.Piece.text, ht]
  · right; right; left
    rw [hg] at ho
    simp only [K.out, foreachErfc, K.run, evalAll, Q.eval, Call.start, hs] at ho
    cases ho
    exact ⟨hf, by simp [Call.text, Spec.print, Spec.Piece.text, ht]⟩
  · right; right; right
    rw [hg] at ho
    simp only [K.out, foreachErfc_, K.run, evalAll, Q.eval, Call.start, hs] at ho
    cases ho
    exact ⟨hf, by simp [Call.text, Spec.print, Spec.Piece.text, ht]⟩

set_option maxRecDepth 100000 in
example : ∃ r ∈ Data.apiTable, r.name = py"torch._foreach_" ++ py"exp" ∧ ∃ c ps, c.args = [(py"self", py"params")] ∧ Valid r c ∧
    Converts r c (.code ps) ∧ Spec.print c.args c.recv c.fresh ps = py"\nforeach_operator(paddle.exp, params)\n" :=
  becomes_sound (by decide +kernel)

set_option maxRecDepth 100000 in
example : ∃ r ∈ Data.apiTable, r.name = py"torch._foreach_" ++ py"zero_" ∧ ∃ c ps, c.args = [(py"self", py"grads")] ∧ Valid r c ∧
    Converts r c (.code ps) ∧ Spec.print c.args c.recv c.fresh ps = py"\nforeach_Tensor_(grads,\"paddle.Tensor.zero_\")\n" :=
  becomes_sound (by decide +kernel)

end Verif.Template

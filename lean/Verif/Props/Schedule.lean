import Verif.Spec.Schedule
import Verif.Props.Options
import Verif.Lemmas.Formula
import Mathlib.Tactic.Ring
import Mathlib.Tactic.FieldSimp
import Mathlib.Tactic.NormNum
import Mathlib.Tactic.Linarith
import Mathlib.Tactic.Positivity

namespace Verif.Schedule

variable {F : Type} [Field F] [LinearOrder F] [IsStrictOrderedRing F]

/-! ## C99: schedules of the learning rate -/

omit [LinearOrder F] [IsStrictOrderedRing F] in
theorem decay_two (t b : ℕ) (v w : F) : decay t [b] [v, w] = if t < b then v else w := by
  simp [decay]

/-- The values of a scheduler that the code makes follow those of PyTorch step by step. -/
theorem right {c : Call F} (h : c.Fit) (lr : F) : ∃ o, convert lr c = some o ∧ o.value 0 = c.next 0 lr ∧
    ∀ t, o.value (t + 1) = c.next (t + 1) (o.value t) := by
  cases c with
  | constant factor total =>
    obtain ⟨hf, ht⟩ := h
    have h0 : total.getD 5 ≠ 0 := by cases total <;> simp_all
    have hfv : ∃ f : F, factor.getD (1 / 3) = f ∧ f ≠ 0 ∧ convert lr (.constant factor total) =
        some (.piecewise [total.getD 5] [f * lr, lr]) := by
      cases factor with
      | none => exact ⟨1 / 3, rfl, by norm_num, by simp [convert]; ring⟩
      | some f => exact ⟨f, rfl, by simpa using hf, rfl⟩
    obtain ⟨f, hf, hne, hc⟩ := hfv
    refine ⟨_, hc, ?_, fun t => ?_⟩
    · simp only [Obj.value, decay_two, Call.next, hf, if_pos (Nat.pos_of_ne_zero h0), if_true, mul_comm]
    · simp only [Obj.value, decay_two, Call.next, hf, Nat.add_eq_zero_iff, one_ne_zero, and_false, if_false]
      by_cases h1 : t + 1 < total.getD 5
      · rw [if_pos h1, if_neg (by omega), if_pos (by omega)]
      · by_cases h2 : t + 1 = total.getD 5
        · rw [if_neg h1, if_pos h2, if_pos (by omega)]
          field_simp
        · rw [if_neg h1, if_neg h2, if_neg (by omega)]
  | linear s e n =>
    refine ⟨_, rfl, by simp [Obj.value, Call.next], fun t => ?_⟩
    simp [Obj.value, Call.next]
  | multiplicative f =>
    refine ⟨_, rfl, by simp [Obj.value, Call.next], fun t => ?_⟩
    simp [Obj.value, Call.next, List.range_succ]
  | oneCycle c =>
    obtain ⟨h1, h2, h3⟩ := h
    obtain ⟨maxLr, total, epochs, perEpoch, pct, div, final, three, anneal⟩ := c
    obtain ⟨d, rfl⟩ := Option.isSome_iff_exists.1 h2
    obtain ⟨f, rfl⟩ := Option.isSome_iff_exists.1 h3
    have key : maxLr * 1 / (d * f) = maxLr / d / f := by rw [mul_one, div_div]
    cases total with
    | some n =>
      refine ⟨_, rfl, ?_, fun t => ?_⟩ <;> simp [Obj.value, Call.next, div_div]
    | none =>
      simp only [Option.isSome_none, Bool.false_eq_true, false_or] at h1
      obtain ⟨p, rfl⟩ := Option.isSome_iff_exists.1 h1.1
      obtain ⟨e, rfl⟩ := Option.isSome_iff_exists.1 h1.2
      refine ⟨_, rfl, ?_, fun t => ?_⟩ <;> simp [Obj.value, Call.next, div_div, mul_comm]

/-- The schedulers of the two programs belong to each other. -/
structure Sim (s : Torch F) (p : Paddle F) : Prop where
  lr : p.lr = s.lr
  len : p.objs.length = s.scheds.length
  /-- the last scheduler follows that of PyTorch -/
  last : ∀ o t, p.objs.getLast? = some (o, t) → ∃ c, s.scheds.getLast? = some (c, t) ∧
    ∀ n, o.value (n + 1) = c.next (n + 1) (o.value n)

theorem sim_trace : ∀ (es : List (Event F)) {s : Torch F} {p : Paddle F}, Sim s p → Latest s.scheds.length es →
    (∀ c, Event.make c ∈ es → c.Fit) → p.trace es = some (s.trace es)
  | [], s, p, _, _, _ => rfl
  | .make c :: es, s, p, h, hl, hf => by
    obtain ⟨o, ho, h0, hn⟩ := right (hf c (List.mem_cons_self ..)) p.lr
    have hs : Sim (s.event (.make c)) ⟨p.base, p.objs ++ [(o, 0)]⟩ := by
      refine ⟨?_, by simp [Torch.event, h.len], fun o' t ht => ?_⟩
      · simp [Paddle.lr, Torch.event, h0, ← h.lr]
      · simp only [List.getLast?_append, List.getLast?_singleton, Option.some_or, Option.some.injEq, Prod.mk.injEq] at ht
        obtain ⟨rfl, rfl⟩ := ht
        exact ⟨c, by simp [Torch.event], hn⟩
    have ih := sim_trace es hs (by simpa [Torch.event, Latest] using hl) fun c hc => hf c (List.mem_cons_of_mem _ hc)
    simp [Paddle.trace, Torch.trace, Paddle.event, ho, ih, hs.lr]
  | .step i :: es, s, p, h, hl, hf => by
    obtain ⟨hi, hl⟩ := hl
    have hp : ∃ q o t, p.objs = q ++ [(o, t)] := by
      rcases List.eq_nil_or_concat p.objs with h0 | ⟨q, x, hq⟩
      · have := h.len
        rw [h0] at this
        simp at this
        omega
      · exact ⟨q, x.1, x.2, by simpa using hq⟩
    obtain ⟨q, o, t, hq⟩ := hp
    obtain ⟨c, hc, hn⟩ := h.last o t (by simp [hq])
    obtain ⟨u, hu⟩ := List.getLast?_eq_some_iff.1 hc
    have hlen := h.len
    rw [hq, hu] at hlen
    have hiu : i = u.length := by rw [hu] at hi; simp at hi; omega
    have hiq : i = q.length := by simp at hlen; omega
    have hlr : p.lr = o.value t := by simp [Paddle.lr, hq]
    have hpe : p.event (.step i) = some ⟨p.base, q ++ [(o, t + 1)]⟩ := by
      simp [Paddle.event, hq, hiq]
    have hse : s.event (.step i) = ⟨c.next (t + 1) s.lr, u ++ [(c, t + 1)]⟩ := by
      simp [Torch.event, hu, hiu]
    have hs : Sim (s.event (.step i)) ⟨p.base, q ++ [(o, t + 1)]⟩ := by
      rw [hse]
      refine ⟨?_, by simpa using hlen, fun o' t' ht => ?_⟩
      · have : Paddle.lr ⟨p.base, q ++ [(o, t + 1)]⟩ = o.value (t + 1) := by simp [Paddle.lr]
        change Paddle.lr _ = c.next (t + 1) s.lr
        rw [this, hn, ← hlr, h.lr]
      · simp only [List.getLast?_append, List.getLast?_singleton, Option.some_or, Option.some.injEq, Prod.mk.injEq] at ht
        obtain ⟨rfl, rfl⟩ := ht
        exact ⟨c, by simp, hn⟩
    have hl' : Latest (s.event (.step i)).scheds.length es := by
      rw [hse]
      rw [hu] at hl
      simpa using hl
    have ih := sim_trace es hs hl' fun c hc => hf c (List.mem_cons_of_mem _ hc)
    simp [Paddle.trace, Torch.trace, hpe, ih, hs.lr]

/-- **C99.** In a program that makes schedulers one after the other and lets only the newest one make steps, the learning
rate is after every step the one of PyTorch, for every start value and all arguments that fit. -/
theorem C99_trace_partial (lr : F) {es : List (Event F)} (hl : Latest 0 es) (hf : ∀ c, Event.make c ∈ es → c.Fit) :
    Paddle.trace ⟨lr, []⟩ es = some (Torch.trace ⟨lr, []⟩ es) :=
  sim_trace es ⟨rfl, rfl, fun o t h => by simp at h⟩ hl hf

/-! ## What the schedule of `LinearLR` is -/

theorem linear_value (lr s e : F) {n : ℕ} (hs : 0 < s) (he : 0 ≤ e) (hn : n ≠ 0) : ∀ t ≤ n,
    Obj.value (.linear lr (some s) (some e) n) t = lr * (s + (e - s) * (t / n))
  | 0, _ => by simp [Obj.value]
  | t + 1, ht => by
    have hn' : (0 : F) < n := by exact_mod_cast Nat.pos_of_ne_zero hn
    have htn : (t : F) + 1 ≤ n := by exact_mod_cast ht
    have ht0 : (0 : F) ≤ t := Nat.cast_nonneg t
    have hd : (n : F) * s + t * (e - s) ≠ 0 := by
      have : (n : F) * s + t * (e - s) = (n - t) * s + t * e := by ring
      rw [this]
      have h1 : 0 < ((n : F) - t) * s := mul_pos (by linarith) hs
      have h2 : 0 ≤ (t : F) * e := mul_nonneg ht0 he
      linarith
    rw [Obj.value, if_neg (by omega), linear_value lr s e hs he hn t (by omega)]
    simp only [Option.getD_some, Nat.cast_add, Nat.cast_one, add_sub_cancel_right]
    have h1 : s + (e - s) * ((t : F) / n) = ((n : F) * s + t * (e - s)) / n := by field_simp
    have h2 : s + (e - s) * (((t : F) + 1) / n) = ((n : F) * s + t * (e - s) + (e - s)) / n := by field_simp; ring
    rw [h1, h2, mul_assoc, div_mul_eq_mul_div, mul_add, mul_one, mul_div_cancel₀ _ hd]

/-- **C99.** The learning rate of `LinearLR` goes in a straight line from `lr * start_factor` to `lr * end_factor`, in
PyTorch and in the converted program. -/
theorem C99_linear (lr s e : F) {n : ℕ} (hs : 0 < s) (he : 0 ≤ e) (hn : n ≠ 0) (t : ℕ) :
    ∃ o, convert lr (.linear (some s) (some e) (some n)) = some o ∧ o.value t = lr * (s + (e - s) * (min t n / n)) := by
  refine ⟨_, rfl, ?_⟩
  simp only [Option.getD_some]
  have hn' : (n : F) ≠ 0 := by exact_mod_cast hn
  by_cases h : t ≤ n
  · rw [linear_value lr s e hs he hn t h, min_eq_left (by exact_mod_cast h)]
  · rw [min_eq_right (by exact_mod_cast (by omega : n ≤ t))]
    obtain ⟨k, rfl⟩ : ∃ k, t = n + k := ⟨t - n, by omega⟩
    clear h
    induction k with
    | zero => rw [Nat.add_zero, linear_value lr s e hs he hn n le_rfl]
    | succ k ih => rw [← Nat.add_assoc, Obj.value, if_pos (by omega), ih]

/-! ## Where it fails -/

omit [IsStrictOrderedRing F] in
/-- **C99 fails** if an older scheduler makes a step: the converted program goes on with the same learning rate, whatever the
schedulers are. -/
theorem C99_older_negative (p : Paddle F) {i : ℕ} (hi : i + 1 < p.objs.length) :
    ∃ p', p.event (.step i) = some p' ∧ p'.lr = p.lr := by
  have h : p.objs[i]? = some p.objs[i] := List.getElem?_eq_getElem (by omega)
  refine ⟨⟨p.base, p.objs.set i (p.objs[i].1, p.objs[i].2 + 1)⟩, by simp [Paddle.event, h], ?_⟩
  unfold Paddle.lr
  have : (p.objs.set i (p.objs[i].1, p.objs[i].2 + 1)).getLast? = p.objs.getLast? := by
    rw [List.getLast?_eq_getElem?, List.getLast?_eq_getElem?, List.length_set, List.getElem?_set_ne (by omega)]
  rw [this]

/-- A program in which two schedulers make steps, as PyTorch allows. -/
def twice : List (Event ℚ) :=
  [.make (.multiplicative fun _ => 1 / 2), .make (.constant (some (1 / 2)) (some 2)), .step 0, .step 1, .step 0, .step 1]

/-- The learning rates that it has in PyTorch and after the conversion. -/
theorem C99_two_negative : (∀ c, Event.make c ∈ twice → c.Fit) ∧
    Torch.trace ⟨1, []⟩ twice = [1, 1 / 2, 1 / 4, 1 / 4, 1 / 8, 1 / 4] ∧
    Paddle.trace ⟨1, []⟩ twice = some [1, 1 / 2, 1 / 2, 1 / 2, 1 / 2, 1] := by
  refine ⟨fun c hc => ?_, by decide +kernel, by decide +kernel⟩
  simp only [twice, List.mem_cons, Event.make.injEq, reduceCtorEq, List.not_mem_nil, or_false] at hc
  rcases hc with rfl | rfl <;> simp [Call.Fit]

omit [IsStrictOrderedRing F] in
/-- **C99 fails** for `ConstantLR` with `total_iters=0`: PyTorch keeps the reduced learning rate for ever, the converted
program has the full one from the start. -/
theorem C99_constant_zero_negative (lr : F) {f : F} (t : ℕ) :
    (Torch.trace ⟨lr, []⟩ (.make (.constant (some f) (some 0)) :: List.replicate t (.step 0))) = List.replicate (t + 1) (lr * f) ∧
    Paddle.trace ⟨lr, []⟩ (.make (.constant (some f) (some 0)) :: List.replicate t (.step 0)) =
      some (List.replicate (t + 1) lr) := by
  constructor
  · have : ∀ k (n : ℕ), Torch.trace ⟨lr * f, [(.constant (some f) (some 0), n)]⟩ (List.replicate k (.step 0)) =
        List.replicate k (lr * f) := by
      intro k
      induction k with
      | zero => intro n; rfl
      | succ k ih =>
        intro n
        simp only [List.replicate_succ, Torch.trace, Torch.event, List.getElem?_cons_zero, List.set_cons_zero]
        simp [Call.next, ih]
    simp [Torch.trace, Torch.event, Call.next, this, List.replicate_succ]
  · have : ∀ k (n : ℕ), Paddle.trace ⟨lr, [(.piecewise [0] [f * lr, lr], n)]⟩ (List.replicate k (.step 0)) =
        some (List.replicate k lr) := by
      intro k
      induction k with
      | zero => intro n; rfl
      | succ k ih =>
        intro n
        simp [List.replicate_succ, Paddle.trace, Paddle.event, ih, Paddle.lr, Obj.value, decay_two]
    simp [Paddle.trace, Paddle.event, convert, this, Paddle.lr, Obj.value, decay_two, List.replicate_succ]

/-- **C99 fails** for `OneCycleLR` without `final_div_factor`: at the last step PyTorch has `max_lr / div_factor / 10000`,
the converted program 0.0001. -/
theorem C99_one_cycle_negative (lr : F) (c : Cycle F) {n : ℕ} (hn : c.total = some n) (h2 : n ≠ 0) {p : F}
    (hp : c.pct.getD (3 / 10) = p) (hp1 : p < 1) (hf : c.final = none) (h3 : c.three = none)
    (ha : ∀ a b, c.anneal a b 1 = b) (hd : c.maxLr ≠ c.div.getD 25) (hd0 : c.div.getD 25 ≠ 0) :
    ∃ o, convert lr (.oneCycle c) = some o ∧ o.value (n - 1) = 1 / 10000 ∧
      (Call.oneCycle c).next (n - 1) lr = c.maxLr / c.div.getD 25 / 10000 ∧
      o.value (n - 1) ≠ (Call.oneCycle c).next (n - 1) lr := by
  have hn0 : (0 : F) < n := by exact_mod_cast Nat.pos_of_ne_zero h2
  have hlast : ((n - 1 : ℕ) : F) = n - 1 := by rw [Nat.cast_sub (Nat.pos_of_ne_zero h2)]; simp
  have hgt : ¬((n : F) - 1 ≤ p * n - 1) := by
    have : p * (n : F) < 1 * n := mul_lt_mul_of_pos_right hp1 hn0
    rw [one_mul] at this
    intro h
    linarith
  have hne : (n : F) - 1 - (p * n - 1) ≠ 0 := fun h => hgt (by linarith)
  have h1 : Obj.value (.oneCycle c.maxLr n c.div none c.pct c.three c.anneal) (n - 1) = 1 / 10000 := by
    simp only [Obj.value, cycle, h3, Option.getD_none, hp, hlast, Bool.false_eq_true, if_false, phases, if_neg hgt,
      div_self hne, ha]
  have h4 : (Call.oneCycle c).next (n - 1) lr = c.maxLr / c.div.getD 25 / 10000 := by
    simp only [Call.next, cycle, hn, h3, hf, Option.getD_none, hp, hlast, Bool.false_eq_true, if_false, phases, if_neg hgt,
      div_self hne, ha]
  refine ⟨_, by simp only [convert, totalSteps, endLr, hn, hf], h1, h4, ?_⟩
  rw [h1, h4]
  intro h
  rw [div_left_inj' (by norm_num), eq_div_iff hd0, one_mul] at h
  exact hd h.symm

omit [LinearOrder F] [IsStrictOrderedRing F] in
/-- **C99 fails** for `OneCycleLR` with `final_div_factor` and without `div_factor`: the matcher raises an exception. -/
theorem C99_key_negative (lr : F) (c : Cycle F) (hd : c.div = none) (hf : c.final.isSome) :
    convert lr (.oneCycle c) = none := by
  obtain ⟨f, hf⟩ := Option.isSome_iff_exists.1 hf
  simp only [convert, endLr, hf, hd]
  cases totalSteps c <;> rfl

/-! ## The code -/

open Verif.Template Verif.Spec
open Verif.Matcher (Cfg)

/-- The check of `fin` for calls with some arguments and without others. -/
def callOk (yes no : List Str) (fin : A → List Q → Bool) (name : Str) (cfg : Cfg) (g : K) : Bool :=
  g.check ⟨apiVal name cfg, false, none, fin⟩ (no.foldl (fun a k => a.deny k) (A.start (params cfg) (yes ++ required name)))

theorem call_sound {a : Str} {yes no : List Str} {fin : A → List Q → Bool} (h : onApi a (callOk yes no fin) = true)
    {r : Data.Raw} (hr : r ∈ Data.apiTable) (hn : r.name = a) {c : Template.Call} (v : Valid r c) {ps : List Piece}
    (hc : Converts r c (.code ps)) (hy : ∀ k ∈ yes, k ∈ c.args.keys) (hno : ∀ k ∈ no, k ∉ c.args.keys)
    {P : List Piece → Prop} (hP : ∀ a s qs, Rel c a s → fin a qs = true → ∀ w, evalAll c s qs = some w → P w) : P ps := by
  obtain ⟨m, hm, hcl, ho⟩ := hc
  have hk := onApi_sound h hr hn hm hcl
  have hs : ∀ k ∈ yes ++ required r.name, k ∈ c.args.keys := fun k hk =>
    (List.mem_append.1 hk).elim (hy k) (v.complete k)
  have := check_sound (P := fun o => ∀ ps, o = .code ps → P ps) (c := c) v.api (fun k hk => by simp at hk) (by simp) (by simp)
    (fun a s qs hrel hfin w hw => by
      unfold emitOut at hw
      split at hw
      · next x hx =>
        simp only [Out.code.injEq] at hw
        subst hw
        exact hP a s qs hrel hfin x hx
      · simp at hw)
    (m.2 r.name r.cfg)
    (Rel.denyAll (fun k hk => by rw [← Bool.not_eq_true, Dict.has_iff]; exact hno k hk)
      (Rel.start v.wf (params_nodup hr hm hcl) v.known hs)) hk
  exact this ps ho

/-- The parameters among these that are given, or that are not. -/
def pick (b : Bool) (l : List (Bool × Str)) : List Str := (l.filter (·.1 == b)).map (·.2)

set_option maxRecDepth 100000 in
theorem constant_rule : ([true, false].all fun f => [true, false].all fun t =>
    onApi py"torch.optim.lr_scheduler.ConstantLR" (callOk (pick true [(f, py"factor"), (t, py"total_iters")])
      (pick false [(f, py"factor"), (t, py"total_iters")]) fun a qs =>
        setsFin py"values" (valuesText f) a qs && setsFin py"boundaries" (boundariesText t) a qs)) = true := by decide +kernel

/-- **C99.** The code for `ConstantLR` gives the two values and the boundary that `convert` says. -/
theorem C99_constant_code {r : Data.Raw} (hr : r ∈ Data.apiTable)
    (hn : r.name = py"torch.optim.lr_scheduler.ConstantLR") {c : Template.Call} (v : Valid r c) {ps : List Piece}
    (hc : Converts r c (.code ps)) :
    Sets py"values" (valuesText (decide (py"factor" ∈ c.args.keys))) ps ∧
      Sets py"boundaries" (boundariesText (decide (py"total_iters" ∈ c.args.keys))) ps := by
  have h := fun f t => List.all_eq_true.1 (List.all_eq_true.1 constant_rule f (by cases f <;> simp)) t (by cases t <;> simp)
  refine call_sound (P := fun ps => Sets py"values" (valuesText (decide (py"factor" ∈ c.args.keys))) ps ∧
      Sets py"boundaries" (boundariesText (decide (py"total_iters" ∈ c.args.keys))) ps) (h (decide (py"factor" ∈ c.args.keys)) (decide (py"total_iters" ∈ c.args.keys))) hr hn v hc ?_ ?_
    fun a s qs hrel hf w hw => ?_
  · intro k hk
    by_cases h1 : py"factor" ∈ c.args.keys <;> by_cases h2 : py"total_iters" ∈ c.args.keys <;> simp [pick, h1, h2] at hk
    · rcases hk with rfl | rfl <;> assumption
    · exact hk ▸ h1
    · exact hk ▸ h2
  · intro k hk
    by_cases h1 : py"factor" ∈ c.args.keys <;> by_cases h2 : py"total_iters" ∈ c.args.keys <;> simp [pick, h1, h2] at hk
    · exact hk ▸ h2
    · exact hk ▸ h1
    · rcases hk with rfl | rfl <;> assumption
  · rw [Bool.and_eq_true] at hf
    exact ⟨setsFin_sound hrel hf.1 hw, setsFin_sound hrel hf.2 hw⟩

set_option maxRecDepth 100000 in
theorem learning_rule : ([py"torch.optim.lr_scheduler.LinearLR", py"torch.optim.lr_scheduler.MultiplicativeLR"].all fun a =>
    onApi a (callOk [] [] (setsFin py"learning_rate" (getLr [])))) = true := by decide +kernel

/-- **C99.** The code for `LinearLR` and `MultiplicativeLR` starts from the learning rate of the optimizer. -/
theorem C99_learning_rate_code {a : Str}
    (ha : a ∈ [py"torch.optim.lr_scheduler.LinearLR", py"torch.optim.lr_scheduler.MultiplicativeLR"]) {r : Data.Raw}
    (hr : r ∈ Data.apiTable) (hn : r.name = a) {c : Template.Call} (v : Valid r c) {ps : List Piece}
    (hc : Converts r c (.code ps)) : Sets py"learning_rate" (getLr []) ps :=
  call_sound (List.all_eq_true.1 learning_rule a ha) hr hn v hc (by simp) (by simp)
    fun a s qs hrel hf w hw => setsFin_sound hrel hf hw

set_option maxRecDepth 100000 in
theorem cycle_rule : onApi py"torch.optim.lr_scheduler.OneCycleLR" (callOk [py"div_factor", py"final_div_factor"] []
    (setsFin py"end_learning_rate" endText)) = true := by decide +kernel

set_option maxRecDepth 100000 in
theorem cycle_absent : onApi py"torch.optim.lr_scheduler.OneCycleLR" (fun name cfg g => callOk [] [py"final_div_factor"]
    (absent py"end_learning_rate" (apiVal name cfg)) name cfg g) = true := by decide +kernel

/-- **C99.** The code for `OneCycleLR` gives the end of the cycle that `convert` says. -/
theorem C99_one_cycle_code {r : Data.Raw} (hr : r ∈ Data.apiTable)
    (hn : r.name = py"torch.optim.lr_scheduler.OneCycleLR") {c : Template.Call} (v : Valid r c) {ps : List Piece}
    (hc : Converts r c (.code ps)) :
    (py"final_div_factor" ∈ c.args.keys → py"div_factor" ∈ c.args.keys → Sets py"end_learning_rate" endText ps) ∧
      (py"final_div_factor" ∉ c.args.keys → .code py"end_learning_rate=" ∉ ps) := by
  refine ⟨fun h1 h2 => ?_, fun h => ?_⟩
  · exact call_sound cycle_rule hr hn v hc (by simp [h1, h2]) (by simp)
      fun a s qs hrel hf w hw => setsFin_sound hrel hf hw
  · exact flag_absent (fin := absent py"end_learning_rate") cycle_absent hr hn v hc h
      fun a s qs hrel hf w hw => absent_sound hrel hf hw

/-! ## Programs that meet the hypotheses -/

/-- Two schedulers one after the other. -/
def program : List (Event ℚ) :=
  [.make (.linear (some (1 / 2)) none (some 2)), .step 0, .step 0, .make (.constant none (some 2)), .step 1, .step 1,
   .make (.multiplicative fun t => 1 / (t + 1))] ++ [.step 2, .step 2]

example : Latest 0 program ∧ (∀ c, Event.make c ∈ program → c.Fit) ∧
    Torch.trace ⟨1, []⟩ program = [1 / 2, 3 / 4, 1, 1 / 3, 1 / 3, 1, 1, 1 / 2, 1 / 6] := by
  refine ⟨by simp [program, Latest], fun c hc => ?_, by decide +kernel⟩
  simp only [program, List.cons_append, List.nil_append, List.mem_cons, Event.make.injEq, reduceCtorEq, List.not_mem_nil, or_false,
    false_or] at hc
  rcases hc with rfl | rfl | rfl <;> simp [Call.Fit]

/-- `OneCycleLR(optimizer, 0.1, total_steps=10, anneal_strategy='linear')` -/
def tenSteps : Cycle ℚ := ⟨1 / 10, some 10, none, none, none, none, none, none, fun a b x => a + (b - a) * x⟩

example : tenSteps.total = some 10 ∧ (3 / 10 : ℚ) < 1 ∧ tenSteps.final = none ∧ (∀ a b, tenSteps.anneal a b 1 = b) ∧
    tenSteps.maxLr ≠ tenSteps.div.getD 25 := by
  refine ⟨rfl, by norm_num, rfl, fun a b => by simp [tenSteps], by norm_num [tenSteps]⟩

example : (Call.oneCycle { tenSteps with div := some 25, final := some 100 }).Fit ∧
    (Call.oneCycle { tenSteps with div := some 25, final := some 100 }).next 9 0 = 1 / 25000 := by
  constructor
  · simp [Call.Fit, tenSteps]
  · decide +kernel

set_option maxRecDepth 100000 in
example : ∃ r ∈ Data.apiTable, r.name = py"torch.optim.lr_scheduler.ConstantLR" ∧ r.class = py"ConstantLRMatcher" ∧ ∃ c ps,
    c.args = [(py"optimizer", py"sgd"), (py"factor", py"(0.05)")] ∧ Valid r c ∧ Converts r c (.code ps) ∧
    Spec.print c.args c.recv c.fresh ps =
      py"\ntmp_lr = paddle.optimizer.lr.PiecewiseDecay(values=[(0.05)*sgd.get_lr(), sgd.get_lr()], boundaries=[5])\nsgd.set_lr_scheduler(tmp_lr)\ntmp_lr\n" :=
  becomesBy_sound (by decide +kernel)

set_option maxRecDepth 100000 in
example : ∃ r ∈ Data.apiTable, r.name = py"torch.optim.lr_scheduler.OneCycleLR" ∧ r.class = py"OneCycleLRMatcher" ∧ ∃ c ps,
    c.args = [(py"optimizer", py"sgd"), (py"max_lr", py"(0.1)"), (py"total_steps", py"n"), (py"div_factor", py"(10)"),
      (py"final_div_factor", py"f")] ∧ Valid r c ∧ Converts r c (.code ps) ∧
    Spec.print c.args c.recv c.fresh ps =
      py"\ntmp_lr = paddle.optimizer.lr.OneCycleLR(max_learning_rate=(0.1), total_steps=n, divide_factor=(10), end_learning_rate=((0.1)) * 1. /(((10)) * f))\nsgd.set_lr_scheduler(tmp_lr)\ntmp_lr\n" :=
  becomesBy_sound (by decide +kernel)

end Verif.Schedule

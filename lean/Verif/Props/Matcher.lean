import Verif.Model.Matcher
import Verif.Spec.Args
import Verif.Lemmas.Replace
import Verif.Props.Args

/-!
# C45-C50: the text that the matchers generate
-/

namespace Verif.Matcher
open Verif Verif.Spec

/-! ## C45 -/

/-- A keyword name: no brackets, quotes, commas or blanks. -/
def NameLike (k : Str) : Prop := ∀ c ∈ k, c ∉ structural ∧ c ≠ ',' ∧ c ≠ ' '

theorem closed_kwText {L : Lexer} {kv : Option Str × Str} (h : Closed L kv.2)
    (hk : ∀ k, kv.1 = some k → NameLike k) : Closed L (kwText kv) := by
  obtain ⟨k, v⟩ := kv
  cases k with
  | none =>
    exact Closed.prepend (k := py"**") (by intro c hc; revert c; decide) h
  | some k =>
    show Closed L (k ++ py"=" ++ v)
    apply Closed.prepend _ h
    intro c hc
    rcases List.mem_append.1 hc with hc | hc
    · exact hk k rfl c hc
    · simp at hc; subst hc; decide

/-- **C45.** Reading the emitted argument list back gives all positional arguments in order, then all keywords in
order (`name=value`, or `**value`), and nothing else. -/
theorem C45_arguments_emitted (L : Lexer) (args : List Str) (d : Kwargs) (ha : ∀ a ∈ args, Closed L a)
    (hd : ∀ kv ∈ d, Closed L kv.2 ∧ ∀ k, kv.1 = some k → NameLike k) :
    L.splitArgs (argsAndKwargsToStr args d) = args ++ d.map fun kv =>
      (match kv.1 with | some k => k ++ py"=" | none => py"**") ++ kv.2 := by
  have : (d.map fun kv => (match kv.1 with | some k => k ++ py"=" | none => py"**") ++ kv.2) = d.map kwText := by
    apply List.map_congr_left
    rintro ⟨k, v⟩ _
    cases k <;> rfl
  rw [this, argsAndKwargsToStr]
  apply splitArgs_join
  intro p hp
  rcases List.mem_append.1 hp with hp | hp
  · exact ha p hp
  · obtain ⟨kv, hkv, rfl⟩ := List.mem_map.1 hp
    exact closed_kwText (hd kv hkv).1 (hd kv hkv).2

/-- **C45, positional arguments only.** -/
theorem C45_args_emitted (L : Lexer) (args : List Str) (ha : ∀ a ∈ args, Closed L a) :
    L.splitArgs (argsToStr args) = args := splitArgs_join L args ha

/-- **C45, keywords only.** -/
theorem C45_kwargs_emitted (L : Lexer) (d : Dict Str Str) (hd : ∀ kv ∈ d, Closed L kv.2 ∧ NameLike kv.1) :
    L.splitArgs (kwargsToStr (d.map fun kv => (some kv.1, kv.2))) = d.map fun kv => kv.1 ++ py"=" ++ kv.2 := by
  have e : kwargsToStr (d.map fun kv => (some kv.1, kv.2)) = Str.join py", " (d.map fun kv => kv.1 ++ py"=" ++ kv.2) := by
    simp [kwargsToStr, keyText, Function.comp_def]
  rw [e]
  apply splitArgs_join
  intro p hp
  obtain ⟨kv, hkv, rfl⟩ := List.mem_map.1 hp
  exact closed_kwText (kv := (some kv.1, kv.2)) (hd kv hkv).1 (fun k e => by cases e; exact (hd kv hkv).2)

example : simpleLexer.splitArgs (argsAndKwargsToStr [py"f(a, b)", py"*c"]
    [(some py"k", py"','"), (none, py"kw"), (some py"m", py"[1, 2]")])
    = [py"f(a, b)", py"*c", py"k=','", py"**kw", py"m=[1, 2]"] := by decide

theorem closed_simple {t : Str} (h1 : t ≠ []) (h2 : t.head? ≠ some ' ') (h3 : simpleLexer.run simpleLexer.top t = simpleLexer.top)
    (h4 : ∀ i < t.length, t[i]? = some ',' → simpleLexer.run simpleLexer.top (t.take i) ≠ simpleLexer.top) : Closed simpleLexer t := by
  refine ⟨h1, ?_, h3, ?_⟩
  · intro c u e; subst e; simpa using h2
  · intro u v e
    have := h4 u.length (by rw [e]; simp) (by rw [e]; simp)
    rw [e] at this
    simpa using this

example : Closed simpleLexer py"f(a, b)" :=
  closed_simple (by decide) (by decide) (by decide) (by decide)

/-! ## C46 -/

/-- One keyword as the user wrote it. -/
def kwWritten (n : Kw) : Str := (match n.arg with | some k => k ++ py"=" | none => py"**") ++ n.src

theorem parseKwargs_eq {cfg : Cfg} {kws : List Kw} {d : Kwargs}
    (hu : ∀ n ∈ kws, ∀ k, n.arg = some k → k ∉ cfg.unsupport) :
    parseKwargs cfg true kws d = some (d.update (kwBindings kws)) := by
  induction kws generalizing d with
  | nil => simp [parseKwargs, kwBindings, Dict.update]
  | cons n rest ih =>
    have ih' := fun d => ih (d := d) (fun m hm => hu m (by simp [hm]))
    unfold parseKwargs
    cases hn : n.arg with
    | none => simp only [if_true]; rw [ih']; simp [kwBindings, Dict.update, hn]
    | some k =>
      simp only []
      rw [if_neg (hu n (by simp) k hn), ih']
      simp [kwBindings, Dict.update, hn]

theorem erase_eq_filter {κ β : Type} [DecidableEq κ] {d : Dict κ β} (h : d.WF) (k : κ) :
    d.erase k = d.filter (fun kv => decide (kv.1 ≠ k)) := by
  induction d with
  | nil => rfl
  | cons a d ih =>
    obtain ⟨a, v⟩ := a
    have h' : a ∉ Dict.keys d ∧ Dict.WF d := by simpa [Dict.WF, Dict.keys, List.nodup_cons] using h
    simp only [Dict.erase]
    by_cases e : a = k
    · subst e
      rw [if_pos rfl]
      simp only [List.filter_cons]
      simp only [ne_eq, not_true, decide_false, Bool.false_eq_true, if_false]
      symm
      rw [List.filter_eq_self]
      rintro ⟨b, w⟩ hb
      simp
      intro e
      subst e
      exact h'.1 (List.mem_map.2 ⟨_, hb, rfl⟩)
    · rw [if_neg e, ih h'.2]
      simp [e]

theorem dropKeys_eq (ks : List Str) {d : Kwargs} (h : d.WF) :
    dropKeys ks d = d.filter (fun kv => decide (∀ k ∈ ks, kv.1 ≠ some k)) := by
  induction ks generalizing d with
  | nil => show d = _; symm; rw [List.filter_eq_self]; simp
  | cons k ks ih =>
    show dropKeys ks (d.erase (some k)) = _
    rw [ih (h.erase _), erase_eq_filter h, List.filter_filter]
    apply List.filter_congr
    intro kv _
    by_cases e : kv.1 = some k <;> simp [e]

/-- **C46.** A prefix-only or rename-only API: if no keyword is listed as unsupported (the tables list none for
these APIs, see `C51_plain_entries`) and no keyword is repeated, the converted call is the new name applied to
exactly the arguments of the source call, in order, without the dropped keywords. -/
theorem C46_plain_call_keeps_arguments_partial (L : Lexer) (cfg : Cfg) (dropped : List Str) (api : Str)
    (args : List Arg) (kws : List Kw) (hu : ∀ n ∈ kws, ∀ k, n.arg = some k → k ∉ cfg.unsupport)
    (hnd : (kws.map (·.arg)).Nodup) (ha : ∀ a ∈ args, Closed L a.src)
    (hk : ∀ n ∈ kws, Closed L n.src ∧ ∀ k, n.arg = some k → NameLike k) :
    ∃ inside, plainCall cfg dropped api args kws = some (api ++ py"(" ++ inside ++ py")") ∧
      L.splitArgs inside = args.map (·.src)
        ++ (kws.filter fun n => decide (∀ k ∈ dropped, n.arg ≠ some k)).map kwWritten := by
  have hd : Dict.update [] (kwBindings kws) = kwBindings kws := by
    have hm : (kwBindings kws).map Prod.fst = kws.map (·.arg) := by simp [kwBindings]
    rw [Dict.update_fresh]
    · simp
    · simpa [Dict.keys, hm] using hnd
  have hwf : Dict.WF (kwBindings kws) := by
    have hm : (kwBindings kws).map Prod.fst = kws.map (·.arg) := by simp [kwBindings]
    simpa [Dict.WF, Dict.keys, hm] using hnd
  refine ⟨argsAndKwargsToStr (parsePlain args) (dropKeys dropped (kwBindings kws)), ?_, ?_⟩
  · rw [plainCall, parseKwargs_eq hu, hd]; rfl
  · rw [dropKeys_eq _ hwf, C45_arguments_emitted]
    · congr 1
      simp only [kwBindings, List.filter_map, List.map_map]
      rfl
    · intro a h
      obtain ⟨x, hx, rfl⟩ := List.mem_map.1 h
      exact ha x hx
    · intro kv h
      obtain ⟨n, hn, rfl⟩ := List.mem_map.1 (List.mem_filter.1 h).1
      exact hk n hn

/-- **C46 is false for two `**` arguments:** `torch.f(**a, **b)` becomes a call with `**b` only. -/
theorem C46_double_star_negative : plainCall {} prefixDropped py"paddle.f" []
    [⟨none, py"a", false⟩, ⟨none, py"b", false⟩] = some py"paddle.f(**b)" := by decide

/-- A keyword listed as unsupported makes the conversion fail with a `TypeError` (`None` is searched for a key). -/
theorem C46_unsupported_crash (cfg : Cfg) (dropped : List Str) (api : Str) (args : List Arg) (kws : List Kw)
    (h : ∃ n ∈ kws, ∃ k, n.arg = some k ∧ k ∈ cfg.unsupport) : plainCall cfg dropped api args kws = none := by
  have gen : ∀ d, parseKwargs cfg true kws d = none := by
    induction kws with
    | nil => obtain ⟨n, hn, _⟩ := h; simp at hn
    | cons x rest ih =>
      intro d
      obtain ⟨n, hn, k, h1, h2⟩ := h
      unfold parseKwargs
      cases hx : x.arg with
      | none =>
        rcases List.mem_cons.1 hn with e | e
        · subst e; rw [hx] at h1; simp at h1
        · simp only [if_true]; exact ih ⟨n, e, k, h1, h2⟩ _
      | some k' =>
        simp only []
        split
        · rfl
        · next hk' =>
          rcases List.mem_cons.1 hn with e | e
          · subst e; rw [hx] at h1; cases h1; exact absurd h2 hk'
          · exact ih ⟨n, e, k, h1, h2⟩ _
  simp [plainCall, gen]

example : plainCall {} prefixDropped py"paddle.zeros" [⟨py"*shape", true⟩]
    [⟨some py"dtype", py"t", false⟩, ⟨some py"layout", py"l", false⟩, ⟨none, py"kw", false⟩]
    = some py"paddle.zeros(*shape, dtype=t, **kw)" := by decide

/-! ## C47 -/

/-- **C47 (partial).** If the first component of the name is a torch package whose text does not occur again, the
new name has the Paddle package as first component and the rest unchanged. Missing: names in which the package
text occurs again, see `C47_again_negative`. -/
theorem C47_prefix_replaced_partial (packages : Dict Str Str) (pkg new rest : Str) (hp : packages.get? pkg = some new)
    (hne : pkg ≠ []) (hdot : '.' ∉ pkg) (honce : ¬ ∃ a b, rest = a ++ pkg ++ b) (hrest : rest = [] ∨ ∃ r, rest = '.' :: r) :
    prefixApi packages (pkg ++ rest) = some (new ++ rest) := by
  have hf : firstComponent (pkg ++ rest) = pkg := by
    rcases hrest with rfl | ⟨r, rfl⟩
    · simp [firstComponent, Str.splitOn_of_not_mem hdot]
    · simp [firstComponent, Str.splitOn_append_cons hdot]
  have hc : Str.contains rest pkg = false := by
    cases h : Str.contains rest pkg with
    | false => rfl
    | true => exact absurd (Str.contains_iff.1 h) honce
  rw [prefixApi, hf, hp]
  simp only [Option.map_some]
  rw [Str.replace_of_prefix hne, Str.replace_of_not_contains hc]

/-- **C47 is false** for names that repeat the package: later components change as well. -/
theorem C47_again_negative : ∃ (packages : Dict Str Str) (pkg new rest : Str), packages.get? pkg = some new ∧
    '.' ∉ pkg ∧ prefixApi packages (pkg ++ py"." ++ rest) ≠ some (new ++ py"." ++ rest) :=
  ⟨[(py"torch", py"paddle")], py"torch", py"paddle", py"torch_version.TorchVersion", rfl, by decide, by decide⟩

example : prefixApi [(py"torch", py"paddle")] py"torch.nn.functional.relu" = some py"paddle.nn.functional.relu" := by
  decide

/-! ## C48 -/

/-- Keywords that the generic matcher takes out of the call. -/
def reserved : List Str := [py"dtype", py"pin_memory", py"requires_grad", py"out"]

/-- The keyword is taken out: it is one of the four and not the target of a renaming. -/
def TakenOut (cfg : Cfg) (k : Option Str) : Prop := ∃ r ∈ reserved, k = some r ∧ .one r ∉ cfg.change.values

instance (cfg : Cfg) (k : Option Str) : Decidable (TakenOut cfg k) := by unfold TakenOut; infer_instance

theorem changeKwargs_wf (cfg : Cfg) (unuse : List Str) (d : Kwargs) : (changeKwargs cfg unuse d).WF := by
  have step : ∀ (new : Kwargs) kv, new.WF → (changeStep cfg unuse new kv).WF := by
    intro new kv h
    unfold changeStep
    split
    · next c _ =>
      have : ∀ (l : List Str) (d : Kwargs), d.WF → (l.foldl (fun d t => d.set (some t) kv.2) d).WF := by
        intro l
        induction l with
        | nil => intro d h; exact h
        | cons a l ih => intro d h; exact ih _ (h.set _ _)
      exact this _ _ h
    · simp only
      split
      · exact (h.set _ _).erase _
      · exact h.set _ _
  have : ∀ (d new : Kwargs), new.WF → (d.foldl (changeStep cfg unuse) new).WF := by
    intro d
    induction d with
    | nil => intro new h; exact h
    | cons a d ih => intro new h; exact ih _ (step _ _ h)
  exact this d [] Dict.WF_nil

theorem setDefaults_wf (cfg : Cfg) {d : Kwargs} (h : d.WF) : (setDefaults cfg d).WF := by
  unfold setDefaults
  have : ∀ (l : Dict Str Str) (d : Kwargs), d.WF →
      (l.foldl (fun d kv => if d.has (some kv.1) then d else d.set (some kv.1) kv.2) d).WF := by
    intro l
    induction l with
    | nil => intro d h; exact h
    | cons a l ih =>
      intro d h
      simp only [List.foldl_cons]
      split
      · exact ih _ h
      · exact ih _ (h.set _ _)
  exact this _ _ h

theorem popSpecial_eq {cfg : Cfg} {d : Kwargs} (h : d.WF) (k : Str) :
    popSpecial cfg d k = d.filter (fun kv => decide (¬ (kv.1 = some k ∧ .one k ∉ cfg.change.values))) := by
  unfold popSpecial
  split
  · next hm => symm; rw [List.filter_eq_self]; simp [hm]
  · next hm => rw [erase_eq_filter h]; simp [hm]

theorem popSpecial_wf {cfg : Cfg} {d : Kwargs} (h : d.WF) (k : Str) : (popSpecial cfg d k).WF := by
  unfold popSpecial; split
  · exact h
  · exact h.erase _

theorem special_pop {cfg : Cfg} {d : Kwargs} {k k' : Str} (h : k' ≠ k) :
    special cfg (popSpecial cfg d k') k = special cfg d k := by
  unfold special popSpecial
  split
  · rfl
  · split
    · rfl
    · rw [Dict.get?_erase_ne]; simpa using h

/-- **C48, the call.** The keywords of the generated call are the renamed user keywords and the defaults (in that
order) without the four keywords that are handled outside of the call. -/
theorem C48_call_keywords (cfg : Cfg) (d : Kwargs) :
    (genericPieces cfg d).call
      = (setDefaults cfg (changeKwargs cfg genericUnuse d)).filter fun kv => decide (¬ TakenOut cfg kv.1) := by
  have h0 := setDefaults_wf cfg (changeKwargs_wf cfg genericUnuse d)
  simp only [genericPieces]
  generalize setDefaults cfg (changeKwargs cfg genericUnuse d) = d0 at h0
  have h1 := popSpecial_wf (cfg := cfg) h0 py"dtype"
  have h2 := popSpecial_wf (cfg := cfg) h1 py"pin_memory"
  have h3 := popSpecial_wf (cfg := cfg) h2 py"requires_grad"
  rw [popSpecial_eq h3, popSpecial_eq h2, popSpecial_eq h1, popSpecial_eq h0]
  simp only [List.filter_filter]
  apply List.filter_congr
  intro kv _
  rw [Bool.eq_iff_iff]
  simp only [Bool.and_eq_true]
  rw [decide_eq_true_iff, decide_eq_true_iff, decide_eq_true_iff, decide_eq_true_iff, decide_eq_true_iff]
  unfold TakenOut reserved
  constructor
  · rintro ⟨a, b, c, e⟩ ⟨r, hr, h⟩
    simp only [List.mem_cons, List.not_mem_nil, or_false] at hr
    rcases hr with rfl | rfl | rfl | rfl
    · exact e h
    · exact c h
    · exact b h
    · exact a h
  · intro h
    exact ⟨fun e => h ⟨_, by simp, e⟩, fun e => h ⟨_, by simp, e⟩, fun e => h ⟨_, by simp, e⟩,
      fun e => h ⟨_, by simp, e⟩⟩

/-- What the user (or a default) gives for one of the four keywords. -/
def given (cfg : Cfg) (d : Kwargs) (k : Str) : Option Str :=
  if .one k ∈ cfg.change.values then none
  else (setDefaults cfg (changeKwargs cfg genericUnuse d)).get? (some k)

/-- **C48, the value.** `.astype(t)` is added exactly when a dtype `t` other than `None` is given, `.pin_memory()`
exactly when a `pin_memory` other than the literal `False` is given. -/
theorem C48_value (cfg : Cfg) (api : Str) (d : Kwargs) :
    genericValue api (genericPieces cfg d)
      = api ++ py"(" ++ kwargsToStr (genericPieces cfg d).call ++ py")"
        ++ (match given cfg d py"dtype" with
            | some t => if t = py"None" then [] else py".astype(" ++ t ++ py")"
            | none => [])
        ++ (match given cfg d py"pin_memory" with
            | some t => if t = py"(False)" then [] else py".pin_memory()"
            | none => []) := by
  have e1 : special cfg (popSpecial cfg (setDefaults cfg (changeKwargs cfg genericUnuse d)) py"dtype") py"pin_memory"
      = given cfg d py"pin_memory" := special_pop (by decide)
  have hd : (genericPieces cfg d).dtype = (given cfg d py"dtype").getD py"None" := rfl
  have hp : (genericPieces cfg d).pin = (given cfg d py"pin_memory").getD py"(False)" := by rw [← e1]; rfl
  unfold genericValue
  rw [hd, hp]
  congr 1
  · congr 1
    cases given cfg d py"dtype" with
    | none => simp
    | some t => by_cases h : t = py"None" <;> simp [h]
  · cases given cfg d py"pin_memory" with
    | none => simp
    | some t => by_cases h : t = py"(False)" <;> simp [h]

theorem stopGradient_eq (cfg : Cfg) (d : Kwargs) : (genericPieces cfg d).stopGradient
    = match given cfg d py"requires_grad" with
      | some v => py"not " ++ stripParens v
      | none => py"None" := by
  have e : special cfg (popSpecial cfg (popSpecial cfg (setDefaults cfg (changeKwargs cfg genericUnuse d)) py"dtype")
      py"pin_memory") py"requires_grad" = given cfg d py"requires_grad" := by
    rw [special_pop (by decide), special_pop (by decide)]; rfl
  rw [← e]; rfl

theorem out_eq (cfg : Cfg) (d : Kwargs) : (genericPieces cfg d).out = (given cfg d py"out").getD py"None" := by
  have e : special cfg (popSpecial cfg (popSpecial cfg (popSpecial cfg (setDefaults cfg
      (changeKwargs cfg genericUnuse d)) py"dtype") py"pin_memory") py"requires_grad") py"out" = given cfg d py"out" := by
    rw [special_pop (by decide), special_pop (by decide), special_pop (by decide)]; rfl
  rw [← e]; rfl

/-- **C48, the statements.** With `V` the value: without `out` and `requires_grad` the code is `V`; with `out` it
assigns `V` to it; with `requires_grad` it sets `stop_gradient` of the result to the negation; the last line is the
result. (`out=None` counts as not given.) -/
theorem C48_statements (cfg : Cfg) (api fresh : Str) (d : Kwargs) :
    genericCode api fresh (genericPieces cfg d)
      = (let V := genericValue api (genericPieces cfg d)
         let out := (given cfg d py"out").filter (fun t => decide (t ≠ py"None"))
         match given cfg d py"requires_grad", out with
         | none, none => V
         | none, some o => py"\npaddle.assign(" ++ V ++ py", output=" ++ o ++ py")\n"
         | some r, none =>
           py"\n" ++ fresh ++ py" = " ++ V ++ py"\n"
             ++ fresh ++ py".stop_gradient = not " ++ stripParens r ++ py"\n" ++ fresh ++ py"\n"
         | some r, some o =>
           py"\npaddle.assign(" ++ V ++ py", output=" ++ o ++ py")\n"
             ++ o ++ py".stop_gradient = not " ++ stripParens r ++ py"\n" ++ o ++ py"\n") := by
  have hs : ∀ r, py"not " ++ stripParens r ≠ py"None" := by intro r; simp
  unfold genericCode
  rw [stopGradient_eq, out_eq]
  cases given cfg d py"requires_grad" with
  | none =>
    cases given cfg d py"out" with
    | none => simp
    | some o => by_cases h : o = py"None" <;> simp [h, Option.filter]
  | some r =>
    cases given cfg d py"out" with
    | none => simp
    | some o => by_cases h : o = py"None" <;> simp [h, Option.filter]

theorem foldl_set_get? (l : List Str) (v : Str) (new : Kwargs) (k : Str) (h : k ∉ l) :
    (l.foldl (fun d t => d.set (some t) v) new).get? (some k) = new.get? (some k) := by
  induction l generalizing new with
  | nil => rfl
  | cons t l ih =>
    simp only [List.mem_cons, not_or] at h
    rw [List.foldl_cons, ih _ h.2, Dict.get?_set_ne]
    simpa using fun e => h.1 e.symm

/-- **C48, what counts as passed.** If the table of the API neither renames the keyword nor renames another one to it, then dtype, pin_memory, requires_grad or out
is given exactly with the text that the user passed, or else with the table's default. -/
theorem C48_given (cfg : Cfg) (d : Kwargs) (hd : d.WF) (k : Str)
    (hk : k = py"dtype" ∨ k = py"pin_memory" ∨ k = py"requires_grad" ∨ k = py"out") (hno : k ∉ cfg.change.keys)
    (hother : ∀ k' c, (k', c) ∈ cfg.change → k ∉ c.targets) :
    given cfg d k = (d.get? (some k)).or (cfg.defaults.get? k) := by
  have hun : k ∉ genericUnuse := by rcases hk with rfl | rfl | rfl | rfl <;> decide
  have hne : k ≠ [] := by rcases hk with rfl | rfl | rfl | rfl <;> decide
  have hone : Change.one k ∉ cfg.change.values := by
    intro h
    obtain ⟨kv, h1, h2⟩ := List.mem_map.1 h
    refine hother kv.1 kv.2 h1 ?_
    rw [h2]
    simp [Change.targets, hne]
  have step : ∀ (new : Kwargs) (kv : Option Str × Str), (changeStep cfg genericUnuse new kv).get? (some k)
      = if kv.1 = some k then some kv.2 else new.get? (some k) := by
    intro new kv
    obtain ⟨a, v⟩ := kv
    unfold changeStep
    dsimp only
    by_cases e : a = some k
    · subst e
      rw [if_pos rfl, show (some k).bind (fun k => cfg.change.get? k) = none from Dict.get?_eq_none_iff.2 hno]
      dsimp only
      rw [if_neg (by simp [hun]), Dict.get?_set_self]
    · rw [if_neg e]
      cases hb : a.bind (fun k => cfg.change.get? k) with
      | some c =>
        dsimp only
        rw [foldl_set_get?]
        cases a with
        | none => simp at hb
        | some k' => exact hother k' c (Dict.mem_of_get? hb)
      | none =>
        dsimp only
        split
        · rw [Dict.get?_erase_ne _ e, Dict.get?_set_ne _ e]
        · rw [Dict.get?_set_ne _ e]
  have gen : ∀ (d new : Kwargs), d.WF → (d.foldl (changeStep cfg genericUnuse) new).get? (some k)
      = (d.get? (some k)).or (new.get? (some k)) := by
    intro d
    induction d with
    | nil => intro new _; rfl
    | cons x d ih =>
      intro new hw
      have hw' : x.1 ∉ d.map Prod.fst ∧ Dict.WF d := by simpa [Dict.WF, Dict.keys, List.nodup_cons] using hw
      rw [List.foldl_cons, ih _ hw'.2, step]
      obtain ⟨a, v⟩ := x
      simp only [Dict.get?]
      by_cases e : a = some k
      · subst e
        rw [if_pos rfl, if_pos rfl, Dict.get?_eq_none_iff.2 hw'.1]; rfl
      · rw [if_neg e, if_neg e]
  unfold given
  rw [if_neg hone, C44_defaults_lookup]
  show ((d.foldl (changeStep cfg genericUnuse) []).get? (some k)).or _ = _
  rw [gen d [] hd]
  simp

example : given { change := [(py"size", .one py"shape")] } [(some py"size", py"s"), (some py"dtype", py"t")] py"dtype" = some py"t" ∧
    py"dtype" ∉ ({ change := [(py"size", .one py"shape")] } : Cfg).change.keys := by decide

/-- **C48, negation (partial).** A value in any number of parentheses is negated as a whole when the text inside
neither begins nor ends with a parenthesis. Missing: other texts, for which the statement is false
(`C48_unbalanced_negative`, `C48_precedence_negative`). -/
theorem C48_negation_partial (n : Nat) (core : Str)
    (h1 : ∀ c u, core = c :: u → c ≠ '(' ∧ c ≠ ')') (h2 : ∀ c u, core = u ++ [c] → c ≠ '(' ∧ c ≠ ')') :
    stripParens (List.replicate n '(' ++ core ++ List.replicate n ')') = core := by
  have drop : ∀ (n : Nat) (ch : Char) (s : Str), (ch == '(' || ch == ')') = true →
      (List.replicate n ch ++ s).dropWhile (fun c => c == '(' || c == ')') = s.dropWhile (fun c => c == '(' || c == ')') := by
    intro n ch s hch
    induction n with
    | zero => rfl
    | succ n ih => simp only [List.replicate_succ, List.cons_append, List.dropWhile_cons, hch, if_true]; exact ih
  have keep : ∀ s : Str, (∀ c u, s = c :: u → c ≠ '(' ∧ c ≠ ')') →
      s.dropWhile (fun c => c == '(' || c == ')') = s := by
    intro s h
    cases s with
    | nil => rfl
    | cons c u => have := h c u rfl; simp [this]
  unfold stripParens Str.stripBy Str.lstripBy Str.rstripBy
  rw [List.append_assoc, drop n '(' _ (by decide)]
  cases core with
  | nil =>
    simp only [List.nil_append]
    have := drop n ')' [] (by decide)
    simp only [List.append_nil, List.dropWhile_nil] at this
    rw [this]; simp
  | cons c u =>
    rw [keep (c :: u ++ List.replicate n ')') (by
      intro c' u' e; simp at e; exact e.1 ▸ h1 c u rfl)]
    rw [List.reverse_append, List.reverse_replicate, drop n ')' _ (by decide), keep]
    · simp
    · intro c' u' e
      have : c :: u = u'.reverse ++ [c'] := by
        rw [← List.reverse_reverse (c :: u), e]; simp
      exact h2 _ _ this

/-- **C48, negation is false:** `requires_grad=f(x)` gives `not f(x`, with an open bracket. -/
theorem C48_unbalanced_negative : simpleLexer.run simpleLexer.top py"f(x)" = simpleLexer.top ∧
    simpleLexer.run simpleLexer.top (py"not " ++ stripParens py"f(x)") ≠ simpleLexer.top := by decide

/-! A little evaluator for Boolean expressions over names, `not`, `or` and parentheses: Python's grammar restricted
to one-letter names. The fuel bounds the nesting. -/

inductive Tok | name (c : Char) | not_ | or_ | open_ | close_
  deriving DecidableEq, Repr

/-- Tokens of a text of this little language; `none` for other texts. -/
def lex : Str → Option (List Tok)
  | [] => some []
  | ' ' :: s => lex s
  | '(' :: s => (lex s).map (.open_ :: ·)
  | ')' :: s => (lex s).map (.close_ :: ·)
  | 'n' :: 'o' :: 't' :: ' ' :: s => (lex s).map (.not_ :: ·)
  | 'o' :: 'r' :: ' ' :: s => (lex s).map (.or_ :: ·)
  | c :: s => if c.isAlpha then (lex s).map (.name c :: ·) else none

mutual
/-- `not_test`: `not` binds closer than `or`. -/
def evalNot (env : Char → Bool) : Nat → List Tok → Option (Bool × List Tok)
  | 0, _ => none
  | n + 1, .not_ :: ts => (evalNot env n ts).map fun r => (!r.1, r.2)
  | _ + 1, .name c :: ts => some (env c, ts)
  | n + 1, .open_ :: ts =>
    match evalOr env n ts with
    | some (b, .close_ :: ts) => some (b, ts)
    | _ => none
  | _ + 1, _ => none
/-- `or_test` -/
def evalOr (env : Char → Bool) : Nat → List Tok → Option (Bool × List Tok)
  | 0, _ => none
  | n + 1, ts =>
    match evalNot env n ts with
    | some (b, .or_ :: ts) => (evalOr env n ts).map fun r => (b || r.1, r.2)
    | r => r
end

/-- Value of a text. -/
def evalText (env : Char → Bool) (s : Str) : Option Bool :=
  match lex s with
  | some ts => match evalOr env (2 * ts.length + 2) ts with
    | some (b, []) => some b
    | _ => none
  | none => none

/-- **C48, negation is false:** `requires_grad=(a or b)` gives `not a or b`, which is true when `a` and `b` both are,
while `not (a or b)` is false. -/
theorem C48_precedence_negative : ∃ env : Char → Bool,
    evalText env py"(a or b)" = some true ∧ evalText env (py"not " ++ stripParens py"(a or b)") ≠ some false :=
  ⟨fun _ => true, by decide, by decide⟩

example : stripParens py"(True)" = py"True" := by decide

example : genericCode py"paddle.zeros" py"out_0" (genericPieces { change := [(py"size", .one py"shape")] }
    [(some py"size", py"s"), (some py"requires_grad", py"(True)"), (some py"device", py"d")])
    = py"\nout_0 = paddle.zeros(shape=s)\nout_0.stop_gradient = not True\nout_0\n" := by decide

example : genericCode py"paddle.add" py"out_0" (genericPieces { change := [(py"input", .one py"x")] }
    [(some py"input", py"a"), (some py"y", py"b"), (some py"out", py"c"), (some py"dtype", py"t")])
    = py"\npaddle.assign(paddle.add(x=a, y=b).astype(t), output=c)\n" := by decide

/-! ## C49 -/

/-- PyTorch's `legacy_get_string` (torch/nn/_reduction.py), which is used when one of the two is not `None`. -/
def torchLegacy (sizeAverage reduce : Option Bool) : Str :=
  let sa := sizeAverage.getD true
  let red := reduce.getD true
  if sa && red then py"mean" else if red then py"sum" else py"none"

/-- A literal flag as it appears in the dictionary: absent, `None`, `True` or `False`. -/
inductive Flag : Option Str → Option Bool → Prop
  | absent : Flag none none
  | none_ : Flag (some py"None") none
  | true_ : Flag (some py"(True)") (some true)
  | false_ : Flag (some py"(False)") (some false)

theorem Flag.read {t : Option Str} {b : Option Bool} (h : Flag t b) : t.bind flagOf = b := by
  cases h <;> decide

/-- **C49.** For literal flags: the two legacy keywords disappear, `reduction` is the text of PyTorch's legacy value
if one of them is not `None` and otherwise what it was, and nothing else changes. -/
theorem C49_legacy_reduction (d : Kwargs) (hd : d.WF) (sa red : Option Bool)
    (hsa : Flag (d.get? (some py"size_average")) sa) (hred : Flag (d.get? (some py"reduce")) red) (k : Option Str) :
    (processReduce d).get? k
      = if k = some py"size_average" ∨ k = some py"reduce" then none
        else if k = some py"reduction" ∧ (sa ≠ none ∨ red ≠ none) then
          some (py"\"\"\"" ++ torchLegacy sa red ++ py"\"\"\"")
        else d.get? k := by
  have e1 : (d.erase (some py"size_average")).get? (some py"reduce") = d.get? (some py"reduce") :=
    Dict.get?_erase_ne _ (by decide)
  have hwf := hd.erase (some py"size_average")
  have gen : ∀ k, ((d.erase (some py"size_average")).erase (some py"reduce")).get? k
      = if k = some py"size_average" ∨ k = some py"reduce" then none else d.get? k := by
    intro k
    by_cases h2 : k = some py"reduce"
    · subst h2; rw [Dict.get?_erase_self hwf]; simp
    · rw [Dict.get?_erase_ne _ (Ne.symm h2)]
      by_cases h1 : k = some py"size_average"
      · subst h1; rw [Dict.get?_erase_self hd]; simp
      · rw [Dict.get?_erase_ne _ (Ne.symm h1)]; simp [h1, h2]
  simp only [processReduce]
  rw [e1, hsa.read, hred.read]
  by_cases hc : sa ≠ none ∨ red ≠ none
  · have : (sa.isSome || red.isSome) = true := by
      rcases hc with h | h
      · cases sa <;> simp_all
      · cases red <;> simp_all
    rw [if_pos this, Dict.get?_set, gen]
    by_cases hk : k = some py"reduction"
    · subst hk
      have hne : ¬ (some py"reduction" = some py"size_average" ∨ some py"reduction" = some py"reduce") := by decide
      simp only [if_true, hc, and_true, if_neg hne]
      cases sa with
      | none =>
        cases red with
        | none => simp at hc
        | some r => cases r <;> rfl
      | some s =>
        cases red with
        | none => cases s <;> rfl
        | some r => cases s <;> cases r <;> rfl
    · rw [if_neg (fun e => hk e.symm)]; simp [hk]
  · have : (sa.isSome || red.isSome) = false := by
      simp only [not_or, Decidable.not_not] at hc
      simp [hc.1, hc.2]
    rw [if_neg (by simp [this]), gen]
    simp [hc]

/-- **C49 is false for flags that are not literals:** `size_average=flag` is dropped, so the result does not depend
on the flag, while PyTorch's does; and any expression in which `True` occurs counts as true. -/
theorem C49_variable_negative :
    processReduce [(some py"size_average", py"flag")] = [] ∧
    torchLegacy (some true) none ≠ torchLegacy (some false) none ∧
    processReduce [(some py"size_average", py"not True")] = [(some py"reduction", py"\"\"\"mean\"\"\"")] ∧
    torchLegacy (some (!true)) none = py"sum" := by decide

example : processReduce [(some py"input", py"x"), (some py"size_average", py"(False)"), (some py"reduce", py"(True)")]
    = [(some py"input", py"x"), (some py"reduction", py"\"\"\"sum\"\"\"")] := by decide

/-! ## C50 -/

theorem beforeLastDot_eq (recv m : Str) (hm : '.' ∉ m) : beforeLastDot (recv ++ '.' :: m) = recv := by
  have hmem : '.' ∈ recv ++ '.' :: m := by simp
  unfold beforeLastDot
  rw [if_pos hmem]
  have : ∀ (l r : Str), '.' ∉ l → ((l ++ '.' :: r).dropWhile (· != '.')) = '.' :: r := by
    intro l r h
    induction l with
    | nil => simp
    | cons c l ih =>
      simp at h
      have hc : (c != '.') = true := by simpa using fun e => h.1 e.symm
      simp only [List.cons_append, List.dropWhile_cons, hc, if_true]
      exact ih h.2
  rw [List.reverse_append, List.reverse_cons, List.append_assoc, List.singleton_append,
    this _ _ (by simpa using hm)]
  simp

/-- What becomes of a newline in the receiver: it is preceded by a backslash, a line continuation. -/
def continued (s : Str) : Str := s.flatMap fun c => if c = '\n' then ['\\', '\n'] else [c]

theorem expand_cons_ne {c : Char} (h : c ≠ '\\') (s : Str) : expand (c :: s) = c :: expand s := by
  rw [expand.eq_def]
  split <;> simp_all

theorem unescape_cons_ne {c : Char} (h : c ≠ '\\') (s : Str) : unescape (c :: s) = c :: unescape s := by
  rw [unescape.eq_def]
  split <;> simp_all

theorem unescape_plain (s : Str) (h : '\\' ∉ s) : unescape s = s := by
  induction s with
  | nil => rfl
  | cons c s ih =>
    simp at h
    rw [unescape_cons_ne (fun e => h.1 e.symm), ih h.2]

theorem classMatch_pattern {p : Str} (hp : p ∈ classPatterns) (prev : Option Char) (rest : Str) :
    classMatch prev (p ++ rest) = p.length := by
  simp only [classPatterns, List.mem_cons, List.not_mem_nil, or_false] at hp
  rcases hp with rfl | rfl | rfl | rfl | rfl | rfl | rfl | rfl <;> rfl

theorem subGo_skip (m : Option Char → Str → Nat) (f : Str → Str) (w rest : Str) (prev : Option Char) :
    ∃ p', Str.subGo m f prev w.length (w ++ rest) = Str.subGo m f p' 0 rest := by
  induction w generalizing prev with
  | nil => exact ⟨prev, rfl⟩
  | cons c w ih =>
    obtain ⟨p', h⟩ := ih (some c)
    exact ⟨p', by simpa [Str.subGo] using h⟩

/-- The characters that `re.escape` puts a backslash before, by its documentation: those that can have a meaning in a regular expression. -/
def Meaning (c : Char) : Prop :=
  c ∈ ['(', ')', '[', ']', '{', '}', '?', '*', '+', '-', '|', '^', '$', '\\', '.', '&', '~', '#', ' ', '\t', '\n', '\r', '\x0b', '\x0c']

instance (c : Char) : Decidable (Meaning c) := by unfold Meaning; infer_instance

theorem meaning_iff (c : Char) : c ∈ reSpecial ↔ Meaning c := by
  unfold Meaning reSpecial
  simp only [List.mem_cons, List.not_mem_nil, or_false]

/-- What becomes of the text of a receiver: a newline gets a backslash before it, of two backslashes one remains, a backslash before a character that
means nothing in a regular expression is lost, everything else stays. -/
def received : Str → Str
  | [] => []
  | '\\' :: '\\' :: s => '\\' :: received s
  | '\\' :: c :: s => if Meaning c then '\\' :: c :: received s else c :: received s
  | '\n' :: s => '\\' :: '\n' :: received s
  | c :: s => c :: received s

/-- `expand` of `re.escape`. -/
def escaped (s : Str) : Str :=
  s.flatMap fun c => if c = '\\' then ['\\'] else if Meaning c then ['\\', c] else [c]

theorem escaped_cons (c : Char) (s : Str) :
    escaped (c :: s) = (if c = '\\' then ['\\'] else if Meaning c then ['\\', c] else [c]) ++ escaped s := by
  simp [escaped]

theorem expand_reEscape (s : Str) : expand (reEscape s) = escaped s := by
  induction s with
  | nil => rfl
  | cons c s ih =>
    have e : reEscape (c :: s) = (if c ∈ reSpecial then ['\\', c] else [c]) ++ reEscape s := by simp [reEscape]
    rw [e, escaped_cons, ← ih]
    by_cases hc : c = '\\'
    · subst hc
      rw [if_pos (by decide), if_pos rfl]
      rfl
    · rw [if_neg hc]
      by_cases hm : Meaning c
      · rw [if_pos ((meaning_iff c).2 hm), if_pos hm]
        show expand ('\\' :: c :: reEscape s) = _
        rw [expand]
        · rfl
        · exact hc
      · rw [if_neg (fun h => hm ((meaning_iff c).1 h)), if_neg hm]
        show expand (c :: reEscape s) = _
        rw [expand_cons_ne hc]; rfl

theorem unescape_escaped (s rest : Str) (h : ∀ u, s ≠ u ++ ['\\']) :
    unescape (escaped s ++ rest) = received s ++ unescape rest := by
  induction s using received.induct with
  | case1 => rfl
  | case2 s ih =>
    rw [escaped_cons, escaped_cons, if_pos rfl, received]
    show unescape ('\\' :: '\\' :: (escaped s ++ rest)) = _
    rw [unescape]
    · rw [ih (fun u e => h ('\\' :: '\\' :: u) (by rw [e]; rfl))]; rfl
    · decide
  | case3 c s hc hm ih =>
    have ih := ih (fun u e => h ('\\' :: c :: u) (by rw [e]; rfl))
    have hc : c ≠ '\\' := by simpa using hc
    rw [escaped_cons, if_pos rfl, escaped_cons, if_neg hc, if_pos hm, received, if_pos hm]
    · show unescape ('\\' :: '\\' :: c :: (escaped s ++ rest)) = _
      rw [unescape]
      · rw [unescape_cons_ne hc, ih]; rfl
      · decide
    · exact hc
  | case4 c s hc hm ih =>
    have ih := ih (fun u e => h ('\\' :: c :: u) (by rw [e]; rfl))
    have hc : c ≠ '\\' := by simpa using hc
    have hn : c ≠ '\n' := fun e => hm (by rw [e]; decide)
    rw [escaped_cons, if_pos rfl, escaped_cons, if_neg hc, if_neg hm, received, if_neg hm]
    · show unescape ('\\' :: c :: (escaped s ++ rest)) = _
      rw [unescape]
      · rw [ih]; rfl
      · exact hn
    · exact hc
  | case5 s ih =>
    have ih := ih (fun u e => h ('\n' :: u) (by rw [e]; rfl))
    rw [escaped_cons, if_neg (by decide), if_pos (by decide), received]
    show unescape ('\\' :: '\n' :: (escaped s ++ rest)) = _
    rw [unescape, ih]; rfl
  | case6 c s h1 h2 h3 ih =>
    have hc : c ≠ '\\' := by
      rintro rfl
      cases s with
      | nil => exact h [] rfl
      | cons d t => exact h2 d t rfl rfl
    have ih := ih (fun u e => h (c :: u) (by rw [e]; rfl))
    have hr : received (c :: s) = c :: received s := by
      rw [received.eq_def]
      split <;> simp_all
    rw [escaped_cons, if_neg hc, hr]
    split
    · show unescape ('\\' :: c :: (escaped s ++ rest)) = _
      rw [unescape]
      · rw [ih]; rfl
      · exact h3
    · show unescape (c :: (escaped s ++ rest)) = _
      rw [unescape_cons_ne hc, ih]; rfl

/-- **C50, exactly.** For a method in the class table whose target is `Class.rest`, the converted text is the receiver as described by `received`,
then `rest`. (No expression ends in a backslash.) -/
theorem C50_receiver_text {recv m p rest : Str} (hp : p ∈ classPatterns) (hm : '.' ∉ m) (hb : ∀ u, recv ≠ u ++ ['\\'])
    (hr : '\\' ∉ rest) (hn : ∀ a b, rest = a ++ b → ∀ prev, classMatch prev b = 0) :
    parseFunc (recv ++ '.' :: m) (p ++ rest) = received recv ++ rest := by
  unfold parseFunc
  rw [beforeLastDot_eq _ _ hm, expand_reEscape]
  have hsub : Str.sub classMatch (fun _ => escaped recv) (p ++ rest) = escaped recv ++ rest := by
    have hlen := classMatch_pattern hp none rest
    obtain ⟨c, w, rfl⟩ : ∃ c w, p = c :: w := by
      cases p with
      | nil => exact absurd hp (by decide)
      | cons c w => exact ⟨c, w, rfl⟩
    unfold Str.sub
    rw [List.cons_append] at hlen ⊢
    rw [Str.subGo]
    rw [hlen]
    simp only [List.length_cons]
    rw [if_neg (by simp), Nat.add_sub_cancel]
    obtain ⟨p', h⟩ := subGo_skip classMatch (fun _ => escaped recv) w rest (some c)
    rw [h, Str.subGo_of_no_match]
    · intro a b e _; exact hn a b e _
  rw [hsub, unescape_escaped _ _ hb, unescape_plain _ hr]

/-- **C50**, partial: a receiver without backslashes is kept; a newline in it becomes a line continuation. Missing: receivers with a backslash, for which
the statement is false (`C50_backslash_negative`). -/
theorem C50_receiver_kept_partial {recv m p rest : Str} (hp : p ∈ classPatterns) (hm : '.' ∉ m) (hb : '\\' ∉ recv)
    (hr : '\\' ∉ rest) (hn : ∀ a b, rest = a ++ b → ∀ prev, classMatch prev b = 0) :
    parseFunc (recv ++ '.' :: m) (p ++ rest) = continued recv ++ rest := by
  rw [C50_receiver_text hp hm (fun u e => hb (by rw [e]; simp)) hr hn]
  congr 1
  clear hr hn hp hm
  induction recv with
  | nil => rfl
  | cons c s ih =>
    simp at hb
    have hc : c ≠ '\\' := fun e => hb.1 e.symm
    have e2 : continued (c :: s) = (if c = '\n' then ['\\', '\n'] else [c]) ++ continued s := by simp [continued]
    rw [e2, ← ih hb.2]
    by_cases hn : c = '\n'
    · subst hn; rfl
    · rw [if_neg hn]
      rw [received.eq_def]
      split <;> simp_all

example : parseFunc py"d['\\n'](\\\n0).size" py"paddle.Tensor.shape" = received py"d['\\n'](\\\n0)" ++ py".shape" ∧
    received py"d['\\n'](\\\n0)" = py"d['n'](\\\n0)" := by decide

/-- **C50 is false for receivers with backslashes:** in `d["\\n"].size()` the string changes. -/
theorem C50_backslash_negative :
    parseFunc py"d['\\n'].size" py"paddle.Tensor.shape" = py"d['n'].shape" := by decide

/-- A method that the table maps to a function keeps nothing: the target has no class in it. -/
theorem C50_no_class (funcSrc api : Str) (hb : '\\' ∉ api) (hn : ∀ a b, api = a ++ b → ∀ prev, classMatch prev b = 0) :
    parseFunc funcSrc api = api := by
  unfold parseFunc Str.sub
  rw [Str.subGo_of_no_match (fun a b e _ => hn a b e _), unescape_plain _ hb]

theorem no_class_of {rest : Str} (h : ∀ i ≤ rest.length, classMatch none (rest.drop i) = 0) :
    ∀ a b, rest = a ++ b → ∀ prev, classMatch prev b = 0 := by
  intro a b e prev
  have := h a.length (by rw [e]; simp)
  rw [e] at this
  show classMatch none b = 0
  simpa using this

example : parseFunc py"(a + f(b[0], 'x.y')).size" py"paddle.Tensor.shape" = py"(a + f(b[0], 'x.y')).shape" :=
  C50_receiver_kept_partial (p := py"paddle.Tensor") (rest := py".shape") (m := py"size")
    (recv := py"(a + f(b[0], 'x.y'))") (by decide) (by decide) (by decide) (by decide) (no_class_of (by decide))

end Verif.Matcher

import Verif.Spec.Args
import Verif.Model.Matcher

/-!
# C40-C44: from a source call to a dictionary of arguments
-/

namespace Verif.Matcher
open Verif

/-! ## Specification -/

/-- The keyword is listed as unsupported and given as the literal `None`. -/
def Droppable (cfg : Cfg) (n : Kw) : Prop := (∃ k, n.arg = some k ∧ k ∈ cfg.unsupport) ∧ n.isNone = true

/-- `kept` is `kws` without some keywords that may be dropped. -/
inductive Removed (cfg : Cfg) : List Kw → List Kw → Prop
  | nil : Removed cfg [] []
  | keep (n : Kw) {a b : List Kw} (h : Removed cfg a b) : Removed cfg (n :: a) (n :: b)
  | drop (n : Kw) {a b : List Kw} (hn : Droppable cfg n) (h : Removed cfg a b) : Removed cfg (n :: a) b

/-- Each positional argument with the name of the parameter at its position. -/
def posBindings (params : List Str) (args : List Arg) : List (Option Str × Str) :=
  (params.zip args).map fun p => (some p.1, p.2.src)

/-- Each keyword with its value. -/
def kwBindings (kws : List Kw) : List (Option Str × Str) := kws.map fun n => (n.arg, n.src)

/-- No keyword that may be dropped is directly followed by another keyword. -/
def NoSkip (cfg : Cfg) : List Kw → Prop
  | [] => True
  | [_] => True
  | n :: m :: rest => ¬ Droppable cfg n ∧ NoSkip cfg (m :: rest)

/-! ## Lemmas -/

theorem scanKw_removed {cfg : Cfg} {an : Bool} {kws kept : List Kw} {f : Nat}
    (h : scanKw cfg an kws = .ok kept f) : Removed cfg kws kept ∧ f ≤ kept.length := by
  generalize hn : kws.length = n
  induction n using Nat.strongRecOn generalizing kws kept f with
  | ind n ih =>
    cases kws with
    | nil => simp [scanKw] at h; obtain ⟨rfl, rfl⟩ := h; exact ⟨.nil, by simp⟩
    | cons x rest =>
      unfold scanKw at h
      split at h
      · split at h <;> simp at h
      · next k hk =>
        split at h
        · next hu =>
          split at h
          · next hnone =>
            have hd : Droppable cfg x := ⟨⟨k, hk, hu⟩, hnone⟩
            split at h
            · simp at h; obtain ⟨rfl, rfl⟩ := h; exact ⟨.drop x hd .nil, by simp⟩
            · next m rest' =>
              cases hs : scanKw cfg an rest' with
              | refuse => rw [hs] at h; simp [Scan.cons] at h
              | misidentify => rw [hs] at h; simp [Scan.cons] at h
              | ok kept' f' =>
                rw [hs] at h
                simp only [Scan.cons, Scan.ok.injEq] at h
                obtain ⟨h1, h2⟩ := ih rest'.length (by simp at hn; omega) hs rfl
                rw [← h.1, ← h.2]
                exact ⟨.drop x hd (.keep m h1), by simp; omega⟩
          · simp at h
        · split at h
          · simp at h
          · cases hs : scanKw cfg an rest with
            | refuse => rw [hs] at h; simp [Scan.cons] at h
            | misidentify => rw [hs] at h; simp [Scan.cons] at h
            | ok kept' f' =>
              rw [hs] at h
              simp only [Scan.cons, Scan.ok.injEq] at h
              obtain ⟨h1, h2⟩ := ih rest.length (by simp at hn; omega) hs rfl
              rw [← h.1, ← h.2]
              refine ⟨.keep x h1, ?_⟩
              simp only [List.length_cons]
              split <;> omega

theorem bindPos_ok {cfg : Cfg} {ps : List Str} {args : List Arg} {d d' : Kwargs}
    (h : bindPos cfg ps args d = .ok d') :
    args.length ≤ ps.length ∧ d' = d.update (posBindings ps args) ∧
      ∀ k ∈ ps.take args.length, k ∉ cfg.unsupport := by
  induction args generalizing ps d with
  | nil => simp [bindPos] at h; simp [h, posBindings, Dict.update]
  | cons a as ih =>
    cases ps with
    | nil => simp [bindPos] at h
    | cons k ks =>
      simp only [bindPos] at h
      split at h
      · simp at h
      · next hu =>
        obtain ⟨h1, h2, h3⟩ := ih h
        refine ⟨by simpa using h1, by rw [h2]; rfl, ?_⟩
        intro k' hk'
        rcases List.mem_cons.1 (by simpa using hk') with e | e
        · exact e ▸ hu
        · exact h3 k' e

theorem bindPos_indexError {cfg : Cfg} {ps : List Str} {args : List Arg} {d : Kwargs}
    (h : args.length ≤ ps.length) : bindPos cfg ps args d ≠ .indexError := by
  induction args generalizing ps d with
  | nil => cases ps <;> simp [bindPos]
  | cons a as ih =>
    cases ps with
    | nil => simp at h
    | cons k ks =>
      simp only [bindPos]
      split
      · simp
      · exact ih (by simpa using h)

theorem bindKw_eq (kws : List Kw) (d : Kwargs) : bindKw kws d = d.update (kwBindings kws) := by
  simp [bindKw, kwBindings, Dict.update, List.foldl_map]

theorem parse_ok {cfg : Cfg} {args : List Arg} {kws : List Kw} {as an : Bool} {d : Kwargs}
    (h : parseArgs cfg args kws as an = .ok d) :
    ∃ kept f, scanKw cfg an kws = .ok kept f ∧ args.length ≤ (posArgs cfg).length ∧
      (cfg.minInput : Int) ≤ args.length + kept.length - f ∧
      (args.length + kept.length - f : Int) ≤ (posArgs cfg).length ∧
      d = Dict.update [] (posBindings (posArgs cfg) args ++ kwBindings kept) ∧
      (∀ k ∈ (posArgs cfg).take args.length, k ∉ cfg.unsupport) ∧
      ¬ (args.any (·.starred) = true ∧ as = false) := by
  unfold parseArgs at h
  split at h
  · simp at h
  · next hst =>
    split at h
    · simp at h
    · simp at h
    · next kept f hs =>
      simp only at h
      split at h
      · simp at h
      · split at h
        · simp at h
        · next h1 h2 =>
          split at h
          · next d0 hd0 =>
            obtain ⟨g1, g2, g3⟩ := bindPos_ok hd0
            simp only [Parsed.ok.injEq] at h
            refine ⟨kept, f, hs, g1, by omega, by omega, ?_, g3, ?_⟩
            · rw [← h, bindKw_eq, g2, Dict.update_append]
            · rintro ⟨e1, e2⟩; exact hst (by simp [e1, e2])
          · next hne => exact absurd h (by intro e; exact hne d e)

/-! ## C40 -/

/-- **C40, no crash.** Parsing the arguments of any call against any table entry never indexes past the list of
positional parameters. -/
theorem C40_no_index_error (cfg : Cfg) (args : List Arg) (kws : List Kw) (as an : Bool) :
    parseArgs cfg args kws as an ≠ .indexError := by
  unfold parseArgs
  split
  · simp
  · split
    · simp
    · simp
    · next kept f hs =>
      have hf := (scanKw_removed hs).2
      simp only
      split
      · simp
      · split
        · simp
        · next h1 h2 =>
          have hl : args.length ≤ (posArgs cfg).length := by omega
          split
          · simp
          · exact bindPos_indexError hl

/-- If parsing succeeds, the result binds exactly: each positional argument to the name of the parameter
at its position (there is one), and each keyword to its name, except that keywords listed as unsupported and
given as the literal `None` may be missing. Where a name is bound twice the last binding counts. -/
theorem bound_each (cfg : Cfg) (args : List Arg) (kws : List Kw) (as an : Bool) (d : Kwargs)
    (h : parseArgs cfg args kws as an = .ok d) :
    args.length ≤ (posArgs cfg).length ∧
    ∃ kept, Removed cfg kws kept ∧
      ∀ k, d.get? k = Dict.last? (posBindings (posArgs cfg) args ++ kwBindings kept) k := by
  obtain ⟨kept, f, h1, h2, _, _, h3, _⟩ := parse_ok h
  refine ⟨h2, kept, (scanKw_removed h1).1, ?_⟩
  intro k
  rw [h3, Dict.get?_update]; simp

/-- When no name is bound twice (in any other call PyTorch raises a
`TypeError`) the result is the list of these bindings, in the order of the call. -/
theorem bound_exactly (cfg : Cfg) (args : List Arg) (kws : List Kw) (as an : Bool) (d : Kwargs)
    (h : parseArgs cfg args kws as an = .ok d)
    (hnd : (((posArgs cfg).take args.length).map some ++ kws.map (·.arg)).Nodup) :
    ∃ kept, Removed cfg kws kept ∧ d = posBindings (posArgs cfg) args ++ kwBindings kept := by
  obtain ⟨kept, f, h1, h2, h4, h5, h3, _⟩ := parse_ok h
  have hr := (scanKw_removed h1).1
  refine ⟨kept, hr, ?_⟩
  have hsub : (kept.map (·.arg)).Sublist (kws.map (·.arg)) := by
    clear h1 hnd h3 h h4 h5
    induction hr with
    | nil => simp
    | keep n _ ih => simpa using ih
    | drop n _ _ ih => exact ih.cons _
  have hpos : (posBindings (posArgs cfg) args).map Prod.fst = ((posArgs cfg).take args.length).map some := by
    have := List.map_fst_zip (l₁ := (posArgs cfg).take args.length) (l₂ := args)
      (by rw [List.length_take]; exact Nat.min_le_left _ _)
    have hz : (posArgs cfg).zip args = ((posArgs cfg).take args.length).zip args := by
      rw [List.zip_eq_zip_take_min]
      conv => rhs; rw [List.zip_eq_zip_take_min]
      simp [Nat.min_eq_right h2, List.take_take]
    simp only [posBindings, List.map_map, Function.comp_def, hz]
    conv => rhs; rw [← this]
    simp
  rw [h3, Dict.update_fresh]
  · simp
  · simp only [Dict.keys, List.map_nil, List.nil_append, List.map_append, hpos]
    have hk : (kwBindings kept).map Prod.fst = kept.map (·.arg) := by simp [kwBindings]
    rw [hk]
    exact List.Nodup.sublist (List.Sublist.append (List.Sublist.refl _) hsub) hnd

/-- The number of arguments that are not keyword-only lies between the minimum and
the number of positional parameters. -/
theorem bound_count (cfg : Cfg) (args : List Arg) (kws : List Kw) (as an : Bool) (d : Kwargs)
    (h : parseArgs cfg args kws as an = .ok d) :
    ∃ kept f, Removed cfg kws kept ∧ f ≤ kept.length ∧ cfg.minInput ≤ args.length + (kept.length - f) ∧
      args.length + (kept.length - f) ≤ (posArgs cfg).length := by
  obtain ⟨kept, f, h1, _, h3, h4, _⟩ := parse_ok h
  have := scanKw_removed h1
  exact ⟨kept, f, this.1, this.2, by omega, by omega⟩

theorem splitStar_head (l : List Str) : (splitStar l).headD [] = Spec.positional l := by
  induction l with
  | nil => rfl
  | cons x xs ih =>
    unfold splitStar Spec.positional
    by_cases hx : x = py"*"
    · rw [if_pos hx]; simp [hx]
    · rw [if_neg hx]
      rw [List.takeWhile_cons_of_pos (by simpa using hx)]
      change _ = x :: Spec.positional xs
      rw [← ih]
      cases splitStar xs <;> rfl

theorem posArgs_eq {cfg : Cfg} (hl : cfg.argsList.head? ≠ some py"*") : posArgs cfg = Spec.positional cfg.argsList := by
  unfold posArgs groups
  cases h : cfg.argsList with
  | nil => decide
  | cons x xs =>
    have hx : x ≠ py"*" := by rw [h] at hl; simpa using hl
    have e := splitStar_head (x :: xs)
    have hp : Spec.positional (x :: xs) = x :: Spec.positional xs := by
      unfold Spec.positional; rw [List.takeWhile_cons_of_pos (by simpa using hx)]
    rw [hp] at e ⊢
    cases h2 : splitStar (x :: xs) with
    | nil => rw [h2] at e; simp at e
    | cons g gs =>
      rw [h2] at e
      simp only [List.headD_cons] at e
      subst e
      simp

/-- **C40.** If parsing succeeds, the result binds exactly: each positional argument to the name of the parameter
at its position (there is one, and it is not keyword-only), and each keyword to its name, except that keywords listed as
unsupported and given as the literal `None` may be missing. Where a name is bound twice the last binding counts. Missing: entries whose
parameters are all keyword-only, see `C40_leading_star_negative`. -/
theorem C40_arguments_bound_partial (cfg : Cfg) (hl : cfg.argsList.head? ≠ some py"*") (args : List Arg) (kws : List Kw)
    (as an : Bool) (d : Kwargs) (h : parseArgs cfg args kws as an = .ok d) :
    args.length ≤ (Spec.positional cfg.argsList).length ∧
    ∃ kept, Removed cfg kws kept ∧
      ∀ k, d.get? k = Dict.last? (posBindings (Spec.positional cfg.argsList) args ++ kwBindings kept) k := by
  rw [← posArgs_eq hl]
  exact bound_each cfg args kws as an d h

/-- **C40, calls without repeated names.** When no name is bound twice (in any other call PyTorch raises a
`TypeError`) the result is the list of these bindings, in the order of the call. -/
theorem C40_arguments_bound_exactly_partial (cfg : Cfg) (hl : cfg.argsList.head? ≠ some py"*") (args : List Arg)
    (kws : List Kw) (as an : Bool) (d : Kwargs) (h : parseArgs cfg args kws as an = .ok d)
    (hnd : (((Spec.positional cfg.argsList).take args.length).map some ++ kws.map (·.arg)).Nodup) :
    ∃ kept, Removed cfg kws kept ∧ d = posBindings (Spec.positional cfg.argsList) args ++ kwBindings kept := by
  rw [← posArgs_eq hl] at hnd ⊢
  exact bound_exactly cfg args kws as an d h hnd

/-- **C40, number of arguments.** The number of arguments that are not keyword-only lies between the minimum and
the number of positional parameters. -/
theorem C40_argument_count_partial (cfg : Cfg) (hl : cfg.argsList.head? ≠ some py"*") (args : List Arg) (kws : List Kw)
    (as an : Bool) (d : Kwargs) (h : parseArgs cfg args kws as an = .ok d) :
    ∃ kept f, Removed cfg kws kept ∧ f ≤ kept.length ∧ cfg.minInput ≤ args.length + (kept.length - f) ∧
      args.length + (kept.length - f) ≤ (Spec.positional cfg.argsList).length := by
  rw [← posArgs_eq hl]
  exact bound_count cfg args kws as an d h

/-- An entry that begins with `*` has no positional parameter, but a positional argument is accepted and bound to
the first keyword-only one. `torch.Tensor.cov` and `torch.profiler.schedule` are such entries. -/
theorem C40_leading_star_negative : ∃ (cfg : Cfg) (d : Kwargs), Spec.positional cfg.argsList = [] ∧
    parseArgs cfg [⟨py"(0)", false⟩] [] = .ok d ∧ d.get? (some py"correction") = some py"(0)" :=
  ⟨{ argsList := [py"*", py"correction", py"fweights", py"aweights"] }, [(some py"correction", py"(0)")],
    by decide, by decide, by decide⟩

/-- `torch.sum(x, 1, keepdim=True, dtype=None)` with `dtype` unsupported. -/
def exCfg : Cfg :=
  { argsList := [py"input", py"dim", py"keepdim", py"*", py"dtype", py"out"], minInput := 1,
    unsupport := [py"dtype"] }

example : parseArgs exCfg [⟨py"x", false⟩, ⟨py"(1)", false⟩]
    [⟨some py"keepdim", py"(True)", false⟩, ⟨some py"dtype", py"None", true⟩]
    = .ok [(some py"input", py"x"), (some py"dim", py"(1)"), (some py"keepdim", py"(True)")] := by decide

example : exCfg.argsList.head? ≠ some py"*" ∧ (((Spec.positional exCfg.argsList).take 2).map some ++
    [some py"keepdim", some py"dtype"]).Nodup := by decide

/-! ## C41 -/

/-- **C41, starred arguments.** A call with a starred argument is refused. -/
theorem C41_starred_refused (cfg : Cfg) (args : List Arg) (kws : List Kw) (an : Bool)
    (h : ∃ a ∈ args, a.starred = true) : parseArgs cfg args kws false an = .refuse := by
  unfold parseArgs
  rw [if_pos]
  simpa using h

/-- **C41, positional arguments.** A call that gives an unsupported parameter by position is never converted. -/
theorem C41_positional_refused (cfg : Cfg) (args : List Arg) (kws : List Kw) (as an : Bool) (i : Nat)
    (hi : i < args.length) (k : Str) (hp : (Spec.positional cfg.argsList)[i]? = some k) (hu : k ∈ cfg.unsupport) (d : Kwargs) :
    parseArgs cfg args kws as an ≠ .ok d := by
  intro h
  have hl : cfg.argsList.head? ≠ some py"*" := by
    intro e
    cases hc : cfg.argsList with
    | nil => rw [hc] at e; simp at e
    | cons x xs =>
      rw [hc] at e hp
      have : x = py"*" := by simpa using e
      simp [Spec.positional, this] at hp
  rw [← posArgs_eq hl] at hp
  obtain ⟨_, _, _, _, _, _, _, h6, _⟩ := parse_ok h
  refine h6 k ?_ hu
  obtain ⟨hp1, hp2⟩ := List.getElem?_eq_some_iff.1 hp
  rw [List.mem_take_iff_getElem]
  exact ⟨i, by omega, hp2⟩

/-- What is known about a keyword of a call that passes the loop: it is dropped, or it is a supported parameter, or a dropped
keyword stands directly before it. -/
theorem scanKw_before {cfg : Cfg} {an : Bool} {kws kept : List Kw} {f : Nat} (h : scanKw cfg an kws = .ok kept f) :
    ∀ pre n post, kws = pre ++ n :: post →
      Droppable cfg n ∨ (∃ k, n.arg = some k ∧ k ∉ cfg.unsupport ∧ k ∈ cfg.argsList ++ cfg.overload) ∨
        ∃ m, pre.getLast? = some m ∧ Droppable cfg m := by
  have ok_of_cons : ∀ {r : Scan} {m : Kw} {i : Nat}, r.cons m i = .ok kept f → ∃ a b, r = .ok a b := by
    intro r m i h
    cases r with
    | refuse => simp [Scan.cons] at h
    | misidentify => simp [Scan.cons] at h
    | ok a b => exact ⟨a, b, rfl⟩
  induction kws using scanKw.induct cfg an generalizing kept f with
  | case1 => intro pre n post e; simp at e
  | case2 x rest hx ha => unfold scanKw at h; simp [hx, ha] at h
  | case3 x rest hx ha => unfold scanKw at h; simp [hx, ha] at h
  | case4 x k hk hu hn =>
    intro pre n post e
    cases pre with
    | nil =>
      simp only [List.nil_append, List.cons.injEq] at e
      exact .inl (e.1 ▸ ⟨⟨k, hk, hu⟩, hn⟩)
    | cons p pre => simp at e
  | case5 x k hk hu hn y rest ih =>
    have hd : Droppable cfg x := ⟨⟨k, hk, hu⟩, hn⟩
    unfold scanKw at h
    simp only [hk, hu, hn, if_true] at h
    obtain ⟨a, b, hab⟩ := ok_of_cons h
    intro pre n post e
    match pre with
    | [] =>
      simp only [List.nil_append, List.cons.injEq] at e
      exact .inl (e.1 ▸ hd)
    | [p] =>
      simp only [List.cons_append, List.nil_append, List.cons.injEq] at e
      exact .inr (.inr ⟨p, rfl, e.1 ▸ hd⟩)
    | p :: q :: pre =>
      simp only [List.cons_append, List.cons.injEq] at e
      have := ih (kept := a) (f := b) hab (by
        intro r m i h
        cases r with
        | refuse => simp [Scan.cons] at h
        | misidentify => simp [Scan.cons] at h
        | ok a b => exact ⟨a, b, rfl⟩) pre n post e.2.2
      refine this.imp id (Or.imp id ?_)
      rintro ⟨m, hm, hd⟩
      cases pre with
      | nil => simp at hm
      | cons z pre => exact ⟨m, by simpa using hm, hd⟩
  | case6 x rest k hk hu hn => unfold scanKw at h; simp [hk, hu, hn] at h
  | case7 x rest k hk hu hin => unfold scanKw at h; simp only [hk, hu, hin] at h; simp at h
  | case8 x rest k hk hu hin ih =>
    unfold scanKw at h
    simp only [hk] at h
    rw [if_neg hu, if_neg hin] at h
    obtain ⟨a, b, hab⟩ := ok_of_cons h
    intro pre n post e
    cases pre with
    | nil =>
      simp only [List.nil_append, List.cons.injEq] at e
      exact .inr (.inl ⟨k, e.1 ▸ hk, hu, Decidable.not_not.1 hin⟩)
    | cons p pre =>
      simp only [List.cons_append, List.cons.injEq] at e
      have := ih (kept := a) (f := b) hab (by
        intro r m i h
        cases r with
        | refuse => simp [Scan.cons] at h
        | misidentify => simp [Scan.cons] at h
        | ok a b => exact ⟨a, b, rfl⟩) pre n post e.2
      refine this.imp id (Or.imp id ?_)
      rintro ⟨m, hm, hd⟩
      cases pre with
      | nil => simp at hm
      | cons z pre => exact ⟨m, by simpa using hm, hd⟩

/-- **C41, keywords (partial).** A call with `**kwargs`, or with an unsupported keyword whose value is not the
literal `None`, is never converted. Missing: this argument comes directly behind a keyword that is unsupported and `None`;
then the statement is false, see `C41_skip_negative`. -/
theorem C41_keyword_refused_partial (cfg : Cfg) (args : List Arg) (pre post : List Kw) (n : Kw) (as an : Bool)
    (hc : ∀ m, pre.getLast? = some m → ¬ Droppable cfg m)
    (h : n.arg = none ∨ ∃ k, n.arg = some k ∧ k ∈ cfg.unsupport ∧ n.isNone = false) (d : Kwargs) :
    parseArgs cfg args (pre ++ n :: post) as an ≠ .ok d := by
  intro hok
  obtain ⟨kept, f, h1, _⟩ := parse_ok hok
  rcases scanKw_before h1 pre n post rfl with ⟨⟨k, hk, _⟩, hN⟩ | ⟨k, hk, hu, _⟩ | ⟨m, hm, hd⟩
  · rcases h with e | ⟨_, _, _, e⟩
    · rw [e] at hk; simp at hk
    · rw [hN] at e; simp at e
  · rcases h with e | ⟨k', e, hu', _⟩
    · rw [e] at hk; simp at hk
    · rw [e] at hk; cases hk; exact hu hu'
  · exact hc m hm hd

/-- **C41 fails for every such call.** Where a call with one more keyword `g` of the API is converted, it is also converted
with an unsupported keyword `None` and behind it any keyword at all in place of `g`, even `**kw`, and this is passed on. -/
theorem C41_skipped_negative (cfg : Cfg) (args : List Arg) (as an : Bool) (g m n : Kw) (k : Str) (hg : g.arg = some k)
    (hk : k ∉ cfg.unsupport) (hf : k ∉ forceArgs cfg) (hm : Droppable cfg m) (d : Kwargs)
    (h : parseArgs cfg args [g] as an = .ok d) :
    ∃ d', parseArgs cfg args [m, n] as an = .ok d' ∧ d'.get? n.arg = some n.src := by
  obtain ⟨⟨j, hj, hu⟩, hN⟩ := hm
  have hmn : scanKw cfg an [m, n] = .ok [n] 0 := by simp [scanKw, hj, hu, hN, Scan.cons]
  have hgs : scanKw cfg an [g] = .ok [g] 0 := by
    obtain ⟨kept, f, h1, _⟩ := parse_ok h
    unfold scanKw at h1 ⊢
    simp only [hg] at h1 ⊢
    rw [if_neg hk] at h1 ⊢
    split at h1
    · simp at h1
    · next hin => rw [if_neg hin, if_neg hf]; rfl
  unfold parseArgs at h ⊢
  rw [hgs] at h
  rw [hmn]
  simp only [List.length_singleton] at h ⊢
  split at h
  · simp at h
  · next h1 =>
    rw [if_neg h1]
    split at h
    · simp at h
    · next h2 =>
      rw [if_neg h2]
      split at h
      · simp at h
      · next h3 =>
        rw [if_neg h3]
        cases hb : bindPos cfg (posArgs cfg) args [] with
        | ok d0 => exact ⟨_, rfl, by simp [bindKw]⟩
        | refuse => rw [hb] at h; simp at h
        | misidentify => rw [hb] at h; simp at h
        | indexError => rw [hb] at h; simp at h

/-- `sum(x, out=None, **kw)` in place of `sum(x, keepdim=k)`. -/
example : (∃ d, parseArgs { argsList := [py"input", py"keepdim", py"out"], unsupport := [py"out"] } [⟨py"x", false⟩]
      [⟨some py"keepdim", py"k", false⟩] = .ok d) ∧
    py"keepdim" ∉ forceArgs { argsList := [py"input", py"keepdim", py"out"], unsupport := [py"out"] } ∧
    Droppable { argsList := [py"input", py"keepdim", py"out"], unsupport := [py"out"] } ⟨some py"out", py"None", true⟩ :=
  ⟨⟨[(some py"input", py"x"), (some py"keepdim", py"k")], by decide⟩, by decide, ⟨py"out", rfl, by decide⟩, rfl⟩

/-- **C41 is false.** `f(x, a=None, b=y)` with `a` and `b` both unsupported is converted, with `b` passed on: the
removal of `a` makes the loop step over `b`. In the same way `f(x, a=None, **kw)` is converted, to a call with a
keyword called `None`. -/
theorem C41_skip_negative : ∃ (cfg : Cfg) (kws : List Kw) (d : Kwargs),
    (∃ n ∈ kws, ∃ k, n.arg = some k ∧ k ∈ cfg.unsupport ∧ n.isNone = false) ∧
    parseArgs cfg [⟨py"x", false⟩] kws = .ok d :=
  ⟨{ argsList := [py"input", py"a", py"b"], unsupport := [py"a", py"b"] },
   [⟨some py"a", py"None", true⟩, ⟨some py"b", py"y", false⟩],
   [(some py"input", py"x"), (some py"b", py"y")],
   ⟨⟨some py"b", py"y", false⟩, by simp, py"b", rfl, by decide, rfl⟩, by decide⟩

theorem C41_double_star_negative : ∃ (cfg : Cfg) (kws : List Kw) (d : Kwargs),
    (∃ n ∈ kws, n.arg = none) ∧ parseArgs cfg [⟨py"x", false⟩] kws = .ok d ∧
      kwargsToStr d = py"input=x, None=kw" :=
  ⟨{ argsList := [py"input", py"a"], unsupport := [py"a"] },
   [⟨some py"a", py"None", true⟩, ⟨none, py"kw", false⟩],
   [(some py"input", py"x"), (none, py"kw")], ⟨⟨none, py"kw", false⟩, by simp, rfl⟩, by decide, by decide⟩

example : ∀ m : Kw, [(⟨some py"keepdim", py"k", false⟩ : Kw)].getLast? = some m → ¬ Droppable exCfg m := by
  intro m hm
  simp only [List.getLast?_singleton, Option.some.injEq] at hm
  subst hm
  rintro ⟨_, h⟩; simp at h

/-! ## C42 -/

/-- **C42 (partial).** A call with a keyword that is neither a parameter, nor an overload's parameter, nor listed
as unsupported is never converted. Missing: the keyword comes directly behind an unsupported keyword `None`, see
`C42_skip_negative` and `C41_skipped_negative`. -/
theorem C42_unknown_keyword_partial (cfg : Cfg) (args : List Arg) (pre post : List Kw) (n : Kw) (as an : Bool)
    (hc : ∀ m, pre.getLast? = some m → ¬ Droppable cfg m)
    (h : ∃ k, n.arg = some k ∧ k ∉ cfg.argsList ++ cfg.overload ∧ k ∉ cfg.unsupport) (d : Kwargs) :
    parseArgs cfg args (pre ++ n :: post) as an ≠ .ok d := by
  intro hok
  obtain ⟨kept, f, h1, _⟩ := parse_ok hok
  obtain ⟨k, hk, hk1, hk2⟩ := h
  rcases scanKw_before h1 pre n post rfl with ⟨⟨k', hk', hu⟩, _⟩ | ⟨k', hk', _, hin⟩ | ⟨m, hm, hd⟩
  · rw [hk] at hk'; cases hk'; exact hk2 hu
  · rw [hk] at hk'; cases hk'; exact hk1 hin
  · exact hc m hm hd

/-- **C42, classification.** If moreover the call has no starred argument, no `**` and no unsupported keyword, the
answer is "not this API". -/
theorem C42_unknown_keyword_misidentified (cfg : Cfg) (args : List Arg) (kws : List Kw) (an : Bool)
    (hs : ∀ a ∈ args, a.starred = false) (hk : ∀ n ∈ kws, ∃ k, n.arg = some k ∧ k ∉ cfg.unsupport)
    (h : ∃ n ∈ kws, ∀ k, n.arg = some k → k ∉ cfg.argsList ++ cfg.overload) :
    parseArgs cfg args kws false an = .misidentify := by
  have hscan : scanKw cfg an kws = .misidentify := by
    induction kws with
    | nil => obtain ⟨n, hn, _⟩ := h; simp at hn
    | cons x rest ih =>
      obtain ⟨k, hxk, hu⟩ := hk x (by simp)
      unfold scanKw
      simp only [hxk]
      rw [if_neg hu]
      split
      · rfl
      · next hin =>
        obtain ⟨n, hn, hn2⟩ := h
        rcases List.mem_cons.1 hn with e | e
        · subst e; exact absurd (hn2 k hxk) hin
        · rw [ih (fun m hm => hk m (by simp [hm])) ⟨n, e, hn2⟩]; rfl
  unfold parseArgs
  rw [if_neg, hscan]
  simp only [Bool.not_false, Bool.and_true, List.any_eq_true, not_exists, not_and]
  intro a ha; simp [hs a ha]

theorem C42_skip_negative : ∃ (cfg : Cfg) (kws : List Kw) (d : Kwargs),
    (∃ n ∈ kws, ∃ k, n.arg = some k ∧ k ∉ cfg.argsList ++ cfg.overload ∧ k ∉ cfg.unsupport) ∧
    parseArgs cfg [⟨py"x", false⟩] kws = .ok d :=
  ⟨{ argsList := [py"input", py"a"], unsupport := [py"a"] },
   [⟨some py"a", py"None", true⟩, ⟨some py"zzz", py"y", false⟩],
   [(some py"input", py"x"), (some py"zzz", py"y")],
   ⟨⟨some py"zzz", py"y", false⟩, by simp, py"zzz", rfl, by decide, by decide⟩, by decide⟩

example : parseArgs exCfg [⟨py"x", false⟩] [⟨some py"axis", py"(1)", false⟩] = .misidentify := by decide

/-! ## C43 -/

/-- The names under which an argument is passed on. -/
def newNames (cfg : Cfg) (unuse : List Str) : Option Str → List (Option Str)
  | none => [none]
  | some k =>
    match cfg.change.get? k with
    | some c => c.targets.map some
    | none => if k ∈ unuse then [] else [some k]

theorem changeStep_eq (cfg : Cfg) (unuse : List Str) (new : Kwargs) (kv : Option Str × Str)
    (h : newNames cfg unuse kv.1 = [] → kv.1 ∉ new.keys) :
    changeStep cfg unuse new kv = new.update ((newNames cfg unuse kv.1).map (·, kv.2)) := by
  obtain ⟨k, v⟩ := kv
  cases k with
  | none => simp [changeStep, newNames, Dict.update]
  | some k =>
    simp only [changeStep, newNames, Option.bind_some]
    cases hc : cfg.change.get? k with
    | some c => simp [Dict.update, List.foldl_map]
    | none =>
      simp only [Option.any_some, decide_eq_true_eq]
      split
      · next hu =>
        have hn : (some k : Option Str) ∉ new.keys := by
          apply h
          simp [newNames, hc, hu]
        rw [Dict.set_of_not_mem hn]
        simp only [Dict.update, List.map_nil, List.foldl_nil]
        clear h
        induction new with
        | nil => simp [Dict.erase]
        | cons a new ih =>
          obtain ⟨a, w⟩ := a
          simp only [Dict.keys, List.map_cons, List.mem_cons, not_or] at hn
          simp only [List.cons_append, Dict.erase, if_neg (Ne.symm hn.1)]
          rw [ih (by simpa [Dict.keys] using hn.2)]
      · simp [Dict.update]

theorem changeGo_eq (cfg : Cfg) (unuse : List Str) (d new : Kwargs)
    (h1 : (new.keys ++ d.flatMap fun kv => newNames cfg unuse kv.1).Nodup)
    (h2 : ∀ kv ∈ d, newNames cfg unuse kv.1 = [] →
      kv.1 ∉ new.keys ∧ ∀ kv' ∈ d, kv.1 ∉ newNames cfg unuse kv'.1) :
    d.foldl (changeStep cfg unuse) new
      = new ++ d.flatMap fun kv => (newNames cfg unuse kv.1).map (·, kv.2) := by
  induction d generalizing new with
  | nil => simp
  | cons x d ih =>
    simp only [List.flatMap_cons] at h1
    simp only [List.foldl_cons, List.flatMap_cons]
    have hx := changeStep_eq cfg unuse new x (fun e => (h2 x (by simp) e).1)
    have hkeys : (new.keys ++ ((newNames cfg unuse x.1).map (·, x.2)).map Prod.fst).Nodup := by
      have e : ((newNames cfg unuse x.1).map (·, x.2)).map Prod.fst = newNames cfg unuse x.1 := by
        simp [Function.comp_def]
      rw [e]
      rw [← List.append_assoc] at h1
      exact (List.nodup_append.1 h1).1
    rw [hx, Dict.update_fresh _ _ hkeys, ih]
    · simp [List.append_assoc]
    · have e : Dict.keys (new ++ (newNames cfg unuse x.1).map (·, x.2)) = new.keys ++ newNames cfg unuse x.1 := by
        simp [Dict.keys, Function.comp_def]
      rw [e, List.append_assoc]; exact h1
    · intro kv hkv e
      obtain ⟨a, b⟩ := h2 kv (by simp [hkv]) e
      refine ⟨?_, fun kv' hkv' => b kv' (by simp [hkv'])⟩
      have e2 : Dict.keys (new ++ (newNames cfg unuse x.1).map (·, x.2)) = new.keys ++ newNames cfg unuse x.1 := by
        simp [Dict.keys, Function.comp_def]
      rw [e2, List.mem_append, not_or]
      exact ⟨a, b x (by simp)⟩

/-- **C43.** If the new names of the arguments do not collide with each other (nor with a dropped one), renaming
passes each argument's text on under exactly its new names, in order, and nothing else appears. -/
theorem C43_renaming_keeps_arguments (cfg : Cfg) (unuse : List Str) (d : Kwargs)
    (h1 : (d.flatMap fun kv => newNames cfg unuse kv.1).Nodup)
    (h2 : ∀ kv ∈ d, newNames cfg unuse kv.1 = [] → ∀ kv' ∈ d, kv.1 ∉ newNames cfg unuse kv'.1) :
    changeKwargs cfg unuse d = d.flatMap fun kv => (newNames cfg unuse kv.1).map (·, kv.2) := by
  have := changeGo_eq cfg unuse d [] (by simpa [Dict.keys] using h1)
    (fun kv hkv e => ⟨by simp [Dict.keys], h2 kv hkv e⟩)
  simpa [changeKwargs] using this

theorem changeStep_sound {cfg : Cfg} {unuse : List Str} {new : Kwargs} {kv : Option Str × Str} {t : Option Str}
    {v : Str} (h : (t, v) ∈ changeStep cfg unuse new kv) :
    (t, v) ∈ new ∨ (t ∈ newNames cfg unuse kv.1 ∧ v = kv.2) := by
  have hset : ∀ (d : Kwargs) (k : Option Str) (w : Str), (t, v) ∈ d.set k w → (t, v) ∈ d ∨ (t = k ∧ v = w) := by
    intro d k w
    induction d with
    | nil => intro h; simp [Dict.set] at h; exact Or.inr h
    | cons a d ih =>
      obtain ⟨a, x⟩ := a
      simp only [Dict.set]
      split
      · next e =>
        intro h
        rcases List.mem_cons.1 h with h | h
        · cases h; exact Or.inr ⟨e, rfl⟩
        · exact Or.inl (by simp [h])
      · intro h
        rcases List.mem_cons.1 h with h | h
        · exact Or.inl (by simp [h])
        · rcases ih h with h | h
          · exact Or.inl (by simp [h])
          · exact Or.inr h
  have hupd : ∀ (l : List Str) (d : Kwargs) (w : Str), (t, v) ∈ l.foldl (fun d t => d.set (some t) w) d →
      (t, v) ∈ d ∨ (t ∈ l.map some ∧ v = w) := by
    intro l
    induction l with
    | nil => intro d w h; exact Or.inl h
    | cons a l ih =>
      intro d w h
      rcases ih _ _ h with h | ⟨h, e⟩
      · rcases hset _ _ _ h with h | ⟨h, e⟩
        · exact Or.inl h
        · exact Or.inr ⟨by simp [h], e⟩
      · exact Or.inr ⟨by rw [List.map_cons]; exact List.mem_cons_of_mem _ h, e⟩
  have herase : ∀ (d : Kwargs) (k : Option Str), (t, v) ∈ d.erase k → (t, v) ∈ d := by
    intro d k
    induction d with
    | nil => simp [Dict.erase]
    | cons a d ih =>
      obtain ⟨a, x⟩ := a
      simp only [Dict.erase]
      split
      · intro h; simp [h]
      · intro h
        rcases List.mem_cons.1 h with h | h
        · simp [h]
        · simp [ih h]
  obtain ⟨k, w⟩ := kv
  cases k with
  | none =>
    simp only [changeStep, Option.bind_none, Option.any_none] at h
    rcases hset _ _ _ (by simpa using h) with h | ⟨h, e⟩
    · exact Or.inl h
    · exact Or.inr ⟨by simp [newNames, h], e⟩
  | some k =>
    simp only [changeStep, Option.bind_some] at h
    cases hc : cfg.change.get? k with
    | some c =>
      rw [hc] at h
      rcases hupd _ _ _ h with h | ⟨h, e⟩
      · exact Or.inl h
      · exact Or.inr ⟨by simp only [newNames, hc]; exact h, e⟩
    | none =>
      rw [hc] at h
      simp only [Option.any_some, decide_eq_true_eq] at h
      by_cases hu : k ∈ unuse
      · rw [if_pos hu] at h
        by_cases hk : (some k : Option Str) ∈ new.keys
        · -- the key was there: it keeps its place and is then removed
          have : ∀ (d : Kwargs), (t, v) ∈ (d.set (some k) w).erase (some k) → (t, v) ∈ d := by
            intro d
            induction d with
            | nil => simp [Dict.set, Dict.erase]
            | cons a d ih =>
              obtain ⟨a, x⟩ := a
              simp only [Dict.set]
              split
              · next e => subst e; simp only [Dict.erase, if_pos]; intro h; simp [h]
              · next e =>
                simp only [Dict.erase, if_neg e]
                intro h
                rcases List.mem_cons.1 h with h | h
                · simp [h]
                · simp [ih h]
          exact Or.inl (this _ h)
        · rw [Dict.set_of_not_mem hk] at h
          have : ∀ (d : Kwargs), (some k : Option Str) ∉ d.keys → (t, v) ∈ Dict.erase (d ++ [(some k, w)]) (some k) →
              (t, v) ∈ d := by
            intro d
            induction d with
            | nil => simp [Dict.erase]
            | cons a d ih =>
              obtain ⟨a, x⟩ := a
              intro hn
              simp only [Dict.keys, List.map_cons, List.mem_cons, not_or] at hn
              simp only [List.cons_append, Dict.erase, if_neg (Ne.symm hn.1)]
              intro h
              rcases List.mem_cons.1 h with h | h
              · simp [h]
              · simp [ih hn.2 h]
          exact Or.inl (this _ hk h)
      · rw [if_neg hu] at h
        rcases hset _ _ _ h with h | ⟨h, e⟩
        · exact Or.inl h
        · exact Or.inr ⟨by simp [newNames, hc, hu, h], e⟩

/-- **C43, soundness for every table.** Whatever the rename table is, each argument after renaming is one of the
old arguments, unchanged in text, under one of its new names. -/
theorem C43_nothing_invented (cfg : Cfg) (unuse : List Str) (d : Kwargs) (t : Option Str) (v : Str)
    (h : (t, v) ∈ changeKwargs cfg unuse d) : ∃ k, (k, v) ∈ d ∧ t ∈ newNames cfg unuse k := by
  have gen : ∀ (d new : Kwargs), (t, v) ∈ d.foldl (changeStep cfg unuse) new →
      (t, v) ∈ new ∨ ∃ k, (k, v) ∈ d ∧ t ∈ newNames cfg unuse k := by
    intro d
    induction d with
    | nil => intro new h; exact Or.inl h
    | cons x d ih =>
      intro new h
      rcases ih _ h with h | ⟨k, h1, h2⟩
      · rcases changeStep_sound h with h | ⟨h1, h2⟩
        · exact Or.inl h
        · exact Or.inr ⟨x.1, by rw [h2]; simp, h1⟩
      · exact Or.inr ⟨k, by simp [h1], h2⟩
  rcases gen d [] h with h | h
  · simp at h
  · exact h

/-- Colliding targets lose an argument: `dim` and `axis` both renamed to `axis`. -/
theorem C43_collision_negative : ∃ (cfg : Cfg) (d : Kwargs), d.WF ∧
    changeKwargs cfg [] d = [(some py"axis", py"(1)")] ∧ (some py"dim", py"(0)") ∈ d :=
  ⟨{ change := [(py"dim", .one py"axis")] }, [(some py"dim", py"(0)"), (some py"axis", py"(1)")],
    by simp [Dict.WF, Dict.keys], by decide, by decide⟩

example : changeKwargs { change := [(py"input", .one py"x"), (py"dim", .one py"axis"), (py"out", .one [])] }
    genericUnuse [(some py"input", py"a"), (some py"dim", py"(0)"), (some py"out", py"b"), (some py"device", py"c")]
    = [(some py"x", py"a"), (some py"axis", py"(0)")] := by decide

/-! ## C44 -/

/-- **C44.** Filling in Paddle's defaults keeps the user's arguments as they are (texts and order) and appends
exactly the defaults whose name the user did not give. -/
theorem C44_defaults_never_override (cfg : Cfg) (hw : cfg.defaults.WF) (d : Kwargs) :
    setDefaults cfg d
      = d ++ (cfg.defaults.filter fun kv => decide (some kv.1 ∉ d.keys)).map fun kv => (some kv.1, kv.2) := by
  unfold setDefaults
  have gen : ∀ (l : Dict Str Str), l.WF → ∀ d : Kwargs,
      l.foldl (fun d kv => if d.has (some kv.1) then d else d.set (some kv.1) kv.2) d
        = d ++ (l.filter fun kv => decide (some kv.1 ∉ d.keys)).map fun kv => (some kv.1, kv.2) := by
    intro l
    induction l with
    | nil => intro _ d; simp
    | cons x l ih =>
      intro hl d
      have hl' : x.1 ∉ l.map Prod.fst ∧ Dict.WF l := by
        simpa [Dict.WF, Dict.keys, List.nodup_cons] using hl
      simp only [List.foldl_cons]
      by_cases hx : (some x.1 : Option Str) ∈ d.keys
      · rw [if_pos (Dict.has_iff.2 hx), ih hl'.2]
        simp [hx]
      · rw [if_neg (by rw [Dict.has_iff]; exact hx), ih hl'.2, Dict.set_of_not_mem hx]
        have hf : (l.filter fun kv => decide (some kv.1 ∉ Dict.keys (d ++ [(some x.1, x.2)])))
            = l.filter fun kv => decide (some kv.1 ∉ d.keys) := by
          apply List.filter_congr
          intro kv hkv
          have hne : kv.1 ≠ x.1 := by
            intro e
            exact hl'.1 (List.mem_map.2 ⟨kv, hkv, e⟩)
          have : (some kv.1 ∉ Dict.keys (d ++ [(some x.1, x.2)])) ↔ (some kv.1 ∉ d.keys) := by
            rw [Dict.keys_append]; simp [Dict.keys, hne]
          simp only [this]
        rw [hf]
        simp [hx]
  exact gen cfg.defaults hw d

/-- **C44, as a lookup.** -/
theorem C44_defaults_lookup (cfg : Cfg) (d : Kwargs) (k : Str) :
    (setDefaults cfg d).get? (some k) = (d.get? (some k)).or (cfg.defaults.get? k) := by
  have gen : ∀ (l : Dict Str Str) (d : Kwargs),
      (l.foldl (fun d kv => if d.has (some kv.1) then d else d.set (some kv.1) kv.2) d).get? (some k)
        = (d.get? (some k)).or (l.get? k) := by
    intro l
    induction l with
    | nil => intro d; simp
    | cons x l ih =>
      intro d
      obtain ⟨a, w⟩ := x
      simp only [List.foldl_cons]
      rw [ih]
      simp only [Dict.get?]
      by_cases h : a = k
      · subst h
        split
        · next hh =>
          obtain ⟨v, hv⟩ := Option.isSome_iff_exists.1 hh
          simp [hv]
        · next hh =>
          have : d.get? (some a) = none := by
            cases hg : d.get? (some a) with
            | none => rfl
            | some v => simp [Dict.has, hg] at hh
          simp [this]
      · simp only [if_neg h]
        split
        · rfl
        · rw [Dict.get?_set_ne _ (by simpa using h)]
  exact gen cfg.defaults d

example : setDefaults { defaults := [(py"axis", py"0"), (py"name", py"None")] } [(some py"axis", py"(1)")]
    = [(some py"axis", py"(1)"), (some py"name", py"None")] := by decide

end Verif.Matcher

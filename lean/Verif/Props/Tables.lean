import Verif.Lemmas.Tables
import Verif.Lemmas.TablesRename
import Verif.Props.Args
import Verif.Props.Matcher
import Verif.Props.Dispatch

/-!
# C34, C51 and facts about the shipped tables
-/

namespace Verif.Data
open Verif Verif.Dispatch Verif.Matcher

set_option maxRecDepth 100000

/-! ## C34 -/

theorem getMatcher_ok {T : Tables} {table : Dict Str Entry} {api : Str}
    (h : ¬ (api ∈ T.aliases.keys ∧ api ∈ table.keys)) :
    ∃ r, getMatcher T table api = .ok r := by
  unfold getMatcher
  rw [if_neg]
  · exact ⟨_, rfl⟩
  · rw [Bool.and_eq_true, Dict.has_iff, Dict.has_iff]; exact h

/-- **C34, the assertions (partial).** Looking up the call matcher or the attribute matcher of any name whatsoever ends without a failed
assertion. Missing: one name, for which the lookup does fail, see `C34_dataloader_negative`. -/
theorem C34_lookup_total_partial (api : Str) :
    (∃ r, getMatcher shipped shipped.attr api = .ok r) ∧
    (api ≠ py"torch.utils.data.dataloader.DataLoader" → ∃ r, getMatcher shipped shipped.api api = .ok r) :=
  ⟨getMatcher_ok fun h => alias_not_attr h.1 h.2, fun hd => getMatcher_ok fun h => alias_not_api h.1 hd h.2⟩

/-- **C34 is false for one name:** it is listed as an alias and as an API. -/
theorem C34_dataloader_negative :
    getMatcher shipped shipped.api py"torch.utils.data.dataloader.DataLoader" = .error .assertionError := by
  have h1 : py"torch.utils.data.dataloader.DataLoader" ∈ shipped.aliases.keys := by
    rw [alias_keys]; decide +kernel
  have h2 : py"torch.utils.data.dataloader.DataLoader" ∈ shipped.api.keys := by
    rw [api_keys, ← dataLoader.eq_1, ← dataLoader_code, mem_map_decode]; decide +kernel
  unfold getMatcher
  rw [if_pos]
  rw [Bool.and_eq_true, Dict.has_iff, Dict.has_iff]; exact ⟨h1, h2⟩

/-- What an entry found for `name` gives. -/
def answer? (e : Entry) (name : Str) : Option (Str × Str) := if e.disable then none else e.matcher.map fun m => (m, name)

/-- **C34, entries.** The lookup of a name that has an entry and is no alias gives the matcher of this entry. -/
theorem C34_entry_found (name : Str) (e : Entry) (ha : name ∉ shipped.aliases.keys) :
    ((name, e) ∈ shipped.api → getMatcher shipped shipped.api name = .ok (answer? e name)) ∧
    ((name, e) ∈ shipped.attr → getMatcher shipped shipped.attr name = .ok (answer? e name)) := by
  have hno : shipped.aliases.get? name = none := Dict.get?_eq_none_iff.2 ha
  have hc : canonical shipped name = name := by simp [canonical, hno]
  have hh : shipped.aliases.has name = false := by simp [Dict.has, hno]
  constructor <;> intro h
  · simp only [getMatcher, hh, hc, Bool.false_and, Dict.get?_of_mem api_wf h]
    cases hd : e.disable <;> simp [Entry.use, answer?, hd]
  · simp only [getMatcher, hh, hc, Bool.false_and, Dict.get?_of_mem attr_wf h]
    cases hd : e.disable <;> simp [Entry.use, answer?, hd]

/-- **C34, aliases.** The lookup of an alias gives what the lookup of its canonical name gives. -/
theorem C34_alias_resolves (name target : Str) (h : (name, target) ∈ shipped.aliases) :
    getMatcher shipped shipped.attr name = getMatcher shipped shipped.attr target ∧
    (name ≠ py"torch.utils.data.dataloader.DataLoader" →
      getMatcher shipped shipped.api name = getMatcher shipped shipped.api target) := by
  have hk : name ∈ shipped.aliases.keys := List.mem_map.2 ⟨_, h, rfl⟩
  have h1 : shipped.aliases.get? name = some target := Dict.get?_of_mem alias_wf h
  have h2 : shipped.aliases.get? target = none := Dict.get?_eq_none_iff.2 (alias_value_not_alias h)
  have c1 : canonical shipped name = target := by simp [canonical, h1]
  have c2 : canonical shipped target = target := by simp [canonical, h2]
  have h3 : shipped.aliases.has target = false := by simp [Dict.has, h2]
  refine ⟨?_, fun hd => ?_⟩
  · have : shipped.attr.has name = false := by
      rw [Dict.has, Dict.get?_eq_none_iff.2 (alias_not_attr hk)]; rfl
    simp [getMatcher, c1, c2, h3, this]
  · have : shipped.api.has name = false := by
      rw [Dict.has, Dict.get?_eq_none_iff.2 (alias_not_api hk hd)]; rfl
    simp [getMatcher, c1, c2, h3, this]

/-- **C34, disabled names.** The wildcard for `transformers` is disabled: a name that begins like this and has no
entry of its own has no matcher. -/
theorem C34_disabled (rest : Str) (ha : py"transformers" ++ rest ∉ shipped.aliases.keys)
    (hk : py"transformers" ++ rest ∉ shipped.api.keys) :
    getMatcher shipped shipped.api (py"transformers" ++ rest) = .ok none := by
  have hno : shipped.aliases.get? (py"transformers" ++ rest) = none := Dict.get?_eq_none_iff.2 ha
  have hc : canonical shipped (py"transformers" ++ rest) = py"transformers" ++ rest := by rw [canonical, hno]; rfl
  have hh : shipped.aliases.has (py"transformers" ++ rest) = false := by rw [Dict.has, hno]; rfl
  simp only [getMatcher, hh, hc, Bool.false_and, Dict.get?_eq_none_iff.2 hk]
  simp [lastWild, shipped, wildcards, matchDots, Entry.use]

theorem not_einops {c : Char} {s : Str} (h : c ≠ 'e') : matchDots py"einops.layers.torch" (c :: s) = false := by
  simp [matchDots, Ne.symm h]

theorem canonical_not_einops {f : File} (hf : ∀ p ∈ f.torch, p ∈ torchPackages.keys) {api : Str}
    (h : startWithTorch f api = true) : matchDots py"einops.layers.torch" (canonical shipped api) = false := by
  cases hg : shipped.aliases.get? api with
  | some v =>
    have hm : (api, v) ∈ aliasTable.map fun a => (decode a.1, decode a.2) := Dict.mem_of_get? hg
    obtain ⟨a, ha, e⟩ := List.mem_map.1 hm
    simp only [Prod.mk.injEq] at e
    have hr := List.all_eq_true.1 alias_einops_check a ha
    rw [canonical, hg, Option.getD_some, ← e.2]
    simpa using hr
  | none =>
    rw [canonical, hg, Option.getD_none]
    simp only [startWithTorch, List.any_eq_true] at h
    obtain ⟨p, hp, h⟩ := h
    obtain ⟨r, rfl⟩ := Str.startsWith_iff.1 h
    have := List.all_eq_true.1 packages_check p (hf p hp)
    cases p with
    | nil => simp at this
    | cons c p =>
      simp at this
      exact not_einops (by simpa using this)

/-- Without the einops wildcard a name has a matcher from at most one table. -/
theorem one_matcher {api : Str} (h : matchDots py"einops.layers.torch" (canonical shipped api) = false) {a c : Str × Str}
    (h1 : getMatcher shipped shipped.attr api = .ok (some a)) (h2 : getMatcher shipped shipped.api api = .ok (some c)) :
    False := by
  have key : ∀ table : Dict Str Entry, ∀ x, getMatcher shipped table api = .ok (some x) →
      canonical shipped api ∈ table.keys := by
    intro table x hx
    unfold getMatcher at hx
    split at hx
    · simp at hx
    · cases hg : table.get? (canonical shipped api) with
      | some e => exact List.mem_map.2 ⟨_, Dict.mem_of_get? hg, rfl⟩
      | none =>
        simp only [hg] at hx
        have hl : (lastWild shipped (canonical shipped api)).bind Entry.use = none := by
          have hw : shipped.wild = wildcards := rfl
          simp only [lastWild, hw, wildcards, List.foldl_cons, List.foldl_nil]
          rw [h]
          split <;> simp [Entry.use]
        rw [hl] at hx; simp at hx
  exact attr_not_api (key _ _ h1) (key _ _ h2)

theorem getMatcher_error {T : Tables} {table : Dict Str Entry} {api : Str} {x : Err}
    (h : getMatcher T table api = .error x) : api ∈ T.aliases.keys ∧ api ∈ table.keys := by
  unfold getMatcher at h
  split at h
  · next hc => rw [Bool.and_eq_true, Dict.has_iff, Dict.has_iff] at hc; exact hc
  · simp at h

theorem api_error {api : Str} {x : Err} (h : getMatcher shipped shipped.api api = .error x) : api = dataLoader := by
  have := getMatcher_error h
  by_contra hd
  exact alias_not_api this.1 hd this.2

theorem attr_error {api : Str} {x : Err} (h : getMatcher shipped shipped.attr api = .error x) : False := by
  have := getMatcher_error h
  exact alias_not_attr this.1 this.2

theorem replaceModule_error {f : File} {full : Str} {x : Err} (h : replaceModule f full = .error x) :
    x = .typeError := by
  unfold replaceModule at h
  simp only at h
  split at h
  · simpa using h.symm
  · split at h <;> simp at h

theorem viaParent_error {o : Oracle} {api : Str} {s : Counts} (h : viaParent shipped o api s = .error .assertionError) :
    parentName api = dataLoader := by
  unfold viaParent at h
  split at h
  · split at h
    · next x hx => exact api_error hx
    · simp at h
    · split at h <;> simp at h
  · simp at h

/-- **C34, whole visits (partial).** In a file that imports torch packages only from the shipped list, no call and no
attribute runs into a failed assertion of the lookup, whatever the matchers answer. Missing: uses of
`torch.utils.data.dataloader.DataLoader` and of its members, which do. -/
theorem C34_visits_never_assert_partial (f : File) (hf : ∀ p ∈ f.torch, p ∈ torchPackages.keys)
    (hit : Str → Str → Bool) (o : Oracle) (e : Expr) (p : Parent) (s : Counts)
    (hd : ∀ full, replaceModule f (fullAttrStrict f (blackList f) hit e) = .ok full →
      full ≠ py"torch.utils.data.dataloader.DataLoader" ∧
      parentName full ≠ py"torch.utils.data.dataloader.DataLoader") :
    visitCall shipped f hit o e p s ≠ .error .assertionError ∧
    visitAttr shipped f hit o e p s ≠ .error .assertionError := by
  have cls : ∀ (l : List Str) (P : Str → Bool) (a : Str), l.find? P = some a → a ∈ l := fun l P a h =>
    List.mem_of_find?_eq_some h
  have notDL : ∀ {m : Str} {c : Str}, c ∈ [tensorClass, moduleClass, optimClass, ctxClass, distClass] →
      c ++ py"." ++ m ≠ dataLoader := by
    intro m c hc e
    have : Str.startsWith dataLoader c = true := Str.startsWith_iff.2 ⟨py"." ++ m, by rw [← e]; simp⟩
    revert this
    have : ∀ c ∈ [tensorClass, moduleClass, optimClass, ctxClass, distClass], Str.startsWith dataLoader c = false := by
      decide
    rw [this c hc]; simp
  constructor
  · intro h
    unfold visitCall at h
    cases hr : replaceModule f (fullAttrStrict f (blackList f) hit e) with
    | error x =>
      rw [hr] at h
      have hx := replaceModule_error hr
      subst hx
      simp [bind, Except.bind] at h
    | ok full =>
      rw [hr] at h
      simp only [bind, Except.bind] at h
      cases hdec : decideCall shipped f full with
      | package api =>
        rw [hdec] at h
        obtain ⟨rfl, _⟩ := (C35_package_call _ _ _ _).1 hdec
        simp only at h
        cases hm : getMatcher shipped shipped.api api with
        | error x => exact (hd _ hr).1 (api_error hm)
        | ok m => rw [hm] at h; simp [pure, Except.pure] at h
      | cls api =>
        rw [hdec] at h
        simp only at h
        cases hm : getMatcher shipped shipped.api api with
        | error x =>
          have hx := api_error hm
          obtain ⟨_, _, _, c, _, _, hc, _⟩ := (C35_class_call _ _ _ _).1 hdec
          rw [hx] at hc
          refine notDL (c := c.name) ?_ hc.symm
          cases c <;> decide
        | ok m => rw [hm] at h; simp [pure, Except.pure] at h
      | leave => rw [hdec] at h; simp [pure, Except.pure] at h
  · intro h
    unfold visitAttr at h
    cases hr : replaceModule f (fullAttrStrict f (blackList f) hit e) with
    | error x =>
      rw [hr] at h
      have hx := replaceModule_error hr
      subst hx
      simp [bind, Except.bind] at h
    | ok full =>
      rw [hr] at h
      simp only [bind, Except.bind] at h
      cases hdec : decideAttr shipped f full with
      | package api =>
        rw [hdec] at h
        have hfull : api = full ∧ startWithTorch f full = true := by
          unfold decideAttr at hdec
          split at hdec
          · next hs => simp at hdec; exact ⟨hdec.symm, hs⟩
          · split at hdec
            · simp at hdec
            · split at hdec <;> simp at hdec
        obtain ⟨rfl, hs⟩ := hfull
        simp only at h
        cases ham : getMatcher shipped shipped.attr api with
        | error x => exact attr_error ham
        | ok am =>
          rw [ham] at h; simp only at h
          cases hcm : getMatcher shipped shipped.api api with
          | error x => exact (hd _ hr).1 (api_error hcm)
          | ok cm =>
            rw [hcm] at h; simp only at h
            split at h
            · next hb =>
              rw [Bool.and_eq_true, Option.isSome_iff_exists, Option.isSome_iff_exists] at hb
              obtain ⟨⟨a, rfl⟩, ⟨c, rfl⟩⟩ := hb
              exact one_matcher (canonical_not_einops hf hs) ham hcm
            · split at h
              · split at h
                · exact (hd _ hr).2 (viaParent_error h)
                · simp [pure, Except.pure] at h
              · simp [pure, Except.pure] at h
              · simp [pure, Except.pure] at h
              · simp [pure, Except.pure] at h
              · exact (hd _ hr).2 (viaParent_error h)
              · exact (hd _ hr).2 (viaParent_error h)
      | cls api =>
        rw [hdec] at h
        simp only at h
        cases hm : getMatcher shipped shipped.attr api with
        | error x => exact attr_error hm
        | ok m => rw [hm] at h; simp [pure, Except.pure] at h
      | leave => rw [hdec] at h; simp [pure, Except.pure] at h

/-- A file with `import torch`. -/
def torchFile : File := { names := [(py"torch", py"torch")], torch := [py"torch"] }

example : (∀ p ∈ torchFile.torch, p ∈ torchPackages.keys) ∧
    replaceModule torchFile (fullAttrStrict torchFile (blackList torchFile) (fun _ _ => false)
      (.attr (.attr (.name py"torch") py"nn") py"Linear")) = .ok py"torch.nn.Linear" ∧
    parentName py"torch.nn.Linear" = py"torch.nn" := by decide +kernel

/-! ## C51 -/

theorem star_code : decode 42 = py"*" := by decide

/-- **C51, rename-only entries.** An entry that only renames its API has a target (a prefix-only one needs none) and neither unsupported
arguments, nor argument changes, nor default arguments. -/
theorem C51_plain_entries (r : Raw) (hr : r ∈ entries) :
    (r.class = py"ChangePrefixMatcher" ∨ r.class = py"ChangeAPIMatcher" →
      r.cfg.unsupport = [] ∧ r.cfg.change = [] ∧ r.cfg.defaults = []) ∧
    (r.class = py"ChangeAPIMatcher" → ∃ target, r.cfg.paddleApi = some target ∧ target ≠ []) := by
  have h := coherent_entry r hr
  rw [coherent, Bool.and_eq_true, Bool.and_eq_true] at h
  have h := h.1.1
  have e1 : r.class = py"ChangePrefixMatcher" ↔ _ := class_iff changePrefix (by decide) r
  have e2 : r.class = py"ChangeAPIMatcher" ↔ _ := class_iff changeApi (by decide) r
  rw [e1, e2]
  constructor
  · rintro (hc | hc)
    · rw [if_pos hc] at h
      simp only [Bool.and_eq_true, List.isEmpty_iff] at h
      simp [Raw.cfg, h]
    · split at h
      · simp only [Bool.and_eq_true, List.isEmpty_iff] at h
        simp [Raw.cfg, h]
      · simp only [Bool.and_eq_true, List.isEmpty_iff] at h
        simp [Raw.cfg, h]
  · intro hc
    rw [if_neg, if_pos hc] at h
    · simp only [Bool.and_eq_true] at h
      have h0 : r.paddle ≠ 0 := by
        intro e; rw [e] at h; simp at h
      refine ⟨decode r.paddle, by simp [Raw.cfg, h0], ?_⟩
      intro e
      have : decode r.paddle = decode 0 := by rw [e]; rfl
      exact h0 (decode_inj this)
    · rw [Nat.eq_of_beq_eq_true hc]; decide +kernel

/-- **C51.** The shipped tables are coherent: no alias leads to an alias, no name is in both tables, every matcher
class named by an entry exists, and no argument list has two keyword-only markers. (Rename-only entries: `C51_plain_entries`.) -/
theorem C51_tables_coherent :
    (∀ name target, (name, target) ∈ shipped.aliases → target ∉ shipped.aliases.keys) ∧
    (∀ name ∈ shipped.attr.keys, name ∉ shipped.api.keys) ∧
    (∀ r ∈ entries, ∀ c, r.entry.matcher = some c → c ∈ matcherClasses.map decode) ∧
    (∀ r ∈ entries, r.cfg.argsList.count py"*" ≤ 1) := by
  refine ⟨fun _ _ => alias_value_not_alias, fun _ => attr_not_api, ?_, ?_⟩
  · intro r hr c hc
    have h := coherent_entry r hr
    rw [coherent, Bool.and_eq_true, Bool.and_eq_true] at h
    have h := h.1.2
    have find : ∀ m : Nat, matcherClasses.any (fun c => c.beq m) = true → m ∈ matcherClasses := by
      intro m hm
      obtain ⟨x, hx, e⟩ := List.any_eq_true.1 hm
      rwa [← Nat.eq_of_beq_eq_true e]
    by_cases h0 : r.matcher = 0
    · simp [Raw.entry, h0] at hc
    · simp only [Raw.entry, if_neg h0, Option.some.injEq] at hc
      rw [← hc, Raw.class, mem_map_decode (f := fun c : Nat => c), List.map_id']
      simp only [Bool.or_eq_true] at h
      rcases h with (h | h) | h
      · exact absurd (Nat.eq_of_beq_eq_true h) h0
      · rw [Nat.eq_of_beq_eq_true h]; exact find _ changePrefix_class
      · exact find _ h
  · intro r hr
    have h := coherent_entry r hr
    rw [coherent, Bool.and_eq_true, Bool.and_eq_true] at h
    have h := of_decide_eq_true h.2
    have : ∀ l : List Nat, (l.map decode).count py"*" = (l.filter fun a => a.beq 42).length := by
      intro l
      induction l with
      | nil => rfl
      | cons a l ih =>
        rw [List.map_cons, List.count_cons, ih, List.filter_cons, ← star_code]
        by_cases e : a = 42
        · subst e; simp
        · have : decode a ≠ decode 42 := fun h => e (decode_inj h)
          have hb : a.beq 42 = false := by
            cases hb : a.beq 42 with
            | false => rfl
            | true => exact absurd (Nat.eq_of_beq_eq_true hb) e
          simp [this, hb]
    show (r.args.map decode).count _ ≤ 1
    rw [this]; exact h

example : ∃ r ∈ entries, r.name = py"torch.abs" ∧ r.class = py"ChangePrefixMatcher" :=
  ⟨E 0x746f7263682e616273 0x4368616e67655072656669784d617463686572, by
    rw [entries, List.mem_append]; left
    simp only [apiTable, List.mem_append]
    left; simp [apiTable0], by decide, by decide⟩

/-- **C51, generic entries (partial).** Every entry for the generic matcher has a target, without which the matcher fails.
Missing: `torch.autograd.Function.backward`, which has none. -/
theorem C51_generic_targets_partial (r : Raw) (hr : r ∈ entries) (hc : r.class = py"GenericMatcher")
    (hn : r.name ≠ py"torch.autograd.Function.backward") : ∃ target, r.cfg.paddleApi = some target := by
  have h := all_entries generic_api generic_attr r hr
  have e1 : r.class = py"GenericMatcher" ↔ _ := class_iff generic (by decide) r
  have e2 : r.name = py"torch.autograd.Function.backward" ↔ _ := name_iff backward (by decide) r
  rw [e1] at hc
  rw [ne_eq, e2] at hn
  simp only [hasTarget, hc, Bool.not_true, Bool.false_or, hn] at h
  refine ⟨decode r.paddle, ?_⟩
  have h0 : r.paddle ≠ 0 := by
    intro e; rw [e] at h; simp at h
  simp [Raw.cfg, h0]

theorem C51_generic_negative : ∃ r ∈ entries, r.class = py"GenericMatcher" ∧ r.cfg.paddleApi = none ∧
    r.name = py"torch.autograd.Function.backward" := by
  obtain ⟨r, hr, h⟩ := List.any_eq_true.1 generic_missing
  simp only [Bool.and_eq_true] at h
  refine ⟨r, List.mem_append.2 (Or.inl hr), (class_iff generic (by decide) r).2 h.1.1, ?_,
    (name_iff backward (by decide) r).2 h.2⟩
  simp [Raw.cfg, Nat.eq_of_beq_eq_true h.1.2]

/-- **C40 for the shipped tables.** All entries but two have a parameter before the marker for keyword-only ones (or none at all), so
the theorems of C40 apply to them. -/
theorem C40_shipped_partial (r : Raw) (hr : r ∈ entries) (h1 : r.name ≠ py"torch.Tensor.cov")
    (h2 : r.name ≠ py"torch.profiler.schedule") : r.cfg.argsList.head? ≠ some py"*" := by
  have h := all_entries star_api star_attr r hr
  have e1 : r.name = py"torch.Tensor.cov" ↔ _ := name_iff cov (by decide) r
  have e2 : r.name = py"torch.profiler.schedule" ↔ _ := name_iff schedule (by decide) r
  rw [ne_eq, e1] at h1
  rw [ne_eq, e2] at h2
  simp only [starFirst, h1, h2, Bool.or_false, Bool.or_self] at h
  show (r.args.map decode).head? ≠ _
  cases ha : r.args with
  | nil => simp
  | cons a as =>
    rw [ha] at h
    simp only [List.map_cons, List.head?_cons, ne_eq, Option.some.injEq]
    intro e
    have : a = 42 := decode_inj (e.trans star_code.symm)
    rw [this] at h
    simp at h

/-! ## C47: prefix-only entries -/

/-- **C47 for the shipped tables (partial).** Every prefix-only entry is turned into the Paddle name with the same
components after the package. Missing: `torch.torch.int32`, see `C47_int32`. -/
theorem C47_shipped_partial (r : Raw) (hr : r ∈ entries) (hc : r.class = py"ChangePrefixMatcher")
    (hn : r.name ≠ py"torch.torch.int32") :
    ∃ pkg new rest, r.name = pkg ++ py"." ++ rest ∧ torchPackages.get? pkg = some new ∧
      prefixApi torchPackages r.name = some (new ++ py"." ++ rest) := by
  have h := all_entries prefix_api prefix_attr r hr
  have e1 : r.class = py"ChangePrefixMatcher" ↔ _ := class_iff changePrefix (by decide) r
  have e2 : r.name = py"torch.torch.int32" ↔ _ := name_iff int32 (by decide) r
  rw [e1] at hc
  rw [ne_eq, e2] at hn
  simp only [prefixShape, hc, Bool.not_true, Bool.false_or, Bool.or_eq_true, hn, Bool.and_eq_true] at h
  rcases h with h | ⟨h1, h2⟩
  · have e := (name_iff tokenizer (by decide) r).2 h
    rw [e]
    exact ⟨py"transformers", py"paddleformers", py"PreTrainedTokenizer", by decide, by decide, by decide⟩
  · obtain ⟨b, hb⟩ := Str.startsWith_iff.1 h1
    rw [hb] at h2 ⊢
    have hno : ¬ ∃ x y, py"." ++ b = x ++ py"torch" ++ y := by
      intro hx
      rw [← Str.contains_iff] at hx
      rw [show py"torch." ++ b = py"torch" ++ (py"." ++ b) from rfl, show List.drop 5 (py"torch" ++ (py"." ++ b)) = py"." ++ b from rfl, hx] at h2
      simp at h2
    refine ⟨py"torch", py"paddle", b, by simp, by decide, ?_⟩
    have := C47_prefix_replaced_partial torchPackages py"torch" py"paddle" (py"." ++ b) (by decide) (by decide) (by decide)
      hno (Or.inr ⟨b, rfl⟩)
    simpa using this

theorem C47_int32 : (∃ r ∈ entries, r.class = py"ChangePrefixMatcher" ∧ r.name = py"torch.torch.int32") ∧
    prefixApi torchPackages py"torch.torch.int32" = some py"paddle.paddle.int32" := by
  refine ⟨?_, by decide⟩
  obtain ⟨r, hr, h⟩ := List.any_eq_true.1 int32_there
  simp only [Bool.and_eq_true] at h
  exact ⟨r, List.mem_append.2 (Or.inl hr), (class_iff changePrefix (by decide) r).2 h.1, (name_iff int32 (by decide) r).2 h.2⟩

/-! ## C46: plain calls -/

theorem plain_shipped (L : Spec.Lexer) (r : Raw) (hr : r ∈ entries)
    (hc : r.class = py"ChangePrefixMatcher" ∨ r.class = py"ChangeAPIMatcher") (dropped : List Str) (api : Str)
    (args : List Arg) (kws : List Kw) (hnd : (kws.map (·.arg)).Nodup) (ha : ∀ a ∈ args, Spec.Closed L a.src)
    (hk : ∀ n ∈ kws, Spec.Closed L n.src ∧ ∀ k, n.arg = some k → NameLike k) :
    ∃ inside, plainCall r.cfg dropped api args kws = some (api ++ py"(" ++ inside ++ py")") ∧
      L.splitArgs inside = args.map (·.src)
        ++ (kws.filter fun n => decide (∀ k ∈ dropped, n.arg ≠ some k)).map kwWritten :=
  C46_plain_call_keeps_arguments_partial L r.cfg dropped api args kws
    (by rw [((C51_plain_entries r hr).1 hc).1]; simp) hnd ha hk

/-- **C46 for the shipped tables.** For prefix-only and rename-only APIs the condition on unsupported keywords is void: a call
without repeated keywords is converted to the new name applied to exactly the same arguments in the same order, without the keywords that the
matchers say they drop: layout, generator and memory_format, and for prefix-only APIs sparse_grad and foreach too. -/
theorem C46_shipped_partial (L : Spec.Lexer) (r : Raw) (hr : r ∈ entries) (api : Str)
    (args : List Arg) (kws : List Kw) (hnd : (kws.map (·.arg)).Nodup) (ha : ∀ a ∈ args, Spec.Closed L a.src)
    (hk : ∀ n ∈ kws, Spec.Closed L n.src ∧ ∀ k, n.arg = some k → NameLike k) :
    (r.class = py"ChangePrefixMatcher" →
      ∃ inside, plainCall r.cfg prefixDropped api args kws = some (api ++ py"(" ++ inside ++ py")") ∧
        L.splitArgs inside = args.map (·.src) ++ (kws.filter fun n => decide (∀ k ∈ [py"layout", py"generator", py"memory_format",
          py"sparse_grad", py"foreach"], n.arg ≠ some k)).map kwWritten) ∧
    (r.class = py"ChangeAPIMatcher" →
      ∃ inside, plainCall r.cfg renameDropped api args kws = some (api ++ py"(" ++ inside ++ py")") ∧
        L.splitArgs inside = args.map (·.src) ++ (kws.filter fun n => decide (∀ k ∈ [py"layout", py"generator", py"memory_format"],
          n.arg ≠ some k)).map kwWritten) :=
  ⟨fun h => plain_shipped L r hr (Or.inl h) prefixDropped api args kws hnd ha hk,
    fun h => plain_shipped L r hr (Or.inr h) renameDropped api args kws hnd ha hk⟩

/-! ## C24: the unaligned report -/

theorem prefixOnly_iff {api : Str} :
    prefixOnly api = true ↔ ∃ r ∈ entries, r.name = api ∧ r.class = py"ChangePrefixMatcher" := by
  simp only [prefixOnly, List.any_eq_true, Bool.and_eq_true, beq_iff_eq]; rfl

/-- **C24 for the shipped tables (partial).** The report is made and lists exactly the found APIs that start with `torch.`
and are not prefix-only. Missing: projects that use `transformers.PreTrainedTokenizer`, see `C24_shipped_entry`. -/
theorem C24_shipped_partial {β : Type} (all : Dict Str β) (hw : all.keys.Nodup)
    (ht : py"transformers.PreTrainedTokenizer" ∉ all.keys) :
    unaligned prefixOnly all = .ok (all.filter fun kv => Str.startsWith kv.1 py"torch." && !prefixOnly kv.1) := by
  refine C24_unaligned_partial prefixOnly all hw ?_
  intro k hk hp
  obtain ⟨r, hr, hname, hcl⟩ := prefixOnly_iff.1 hp
  have h := all_entries prefix_api prefix_attr r hr
  have e1 : r.class = py"ChangePrefixMatcher" ↔ _ := class_iff changePrefix (by decide) r
  rw [e1] at hcl
  simp only [prefixShape, hcl, Bool.not_true, Bool.false_or, Bool.or_eq_true, Bool.and_eq_true] at h
  rcases h with (h | h) | ⟨h, _⟩
  · rw [← hname, (name_iff int32 (by decide) r).2 h]; exact ⟨py"torch.int32", rfl⟩
  · rw [← hname, (name_iff tokenizer (by decide) r).2 h] at hk; exact absurd hk ht
  · obtain ⟨b, hb⟩ := Str.startsWith_iff.1 h
    exact ⟨b, by rw [← hname, hb]⟩

/-- The loop body of the report. -/
def reportStep {β : Type} (prefixOnly : Str → Bool) (m : Dict Str β) (kv : Str × β) : Except Err (Dict Str β) := do
  let m ← if Str.startsWith kv.1 py"torch." then pure m else pop m kv.1
  if prefixOnly kv.1 then pop m kv.1 else pure m

theorem pop_cases {β : Type} (d : Dict Str β) (k : Str) :
    pop d k = .error .keyError ∨ (pop d k = .ok (d.erase k)) := by
  unfold pop; split <;> simp

theorem reportStep_cases {β : Type} (po : Str → Bool) (m : Dict Str β) (hm : m.WF) (kv : Str × β) :
    reportStep po m kv = .error .keyError ∨ ∃ m', reportStep po m kv = .ok m' ∧ m'.WF := by
  unfold reportStep
  cases hs : Str.startsWith kv.1 py"torch." <;> cases hp : po kv.1
  · rcases pop_cases m kv.1 with h | h
    · left; simp [h, bind, Except.bind]
    · right; exact ⟨_, by simp [h, bind, Except.bind, pure, Except.pure], hm.erase kv.1⟩
  · rcases pop_cases m kv.1 with h | h
    · left; simp [h, bind, Except.bind]
    · rcases pop_cases (m.erase kv.1) kv.1 with h2 | h2
      · left; simp [h, h2, bind, Except.bind]
      · right; exact ⟨_, by simp [h, h2, bind, Except.bind], (hm.erase kv.1).erase kv.1⟩
  · right; exact ⟨m, by simp [bind, Except.bind, pure, Except.pure], hm⟩
  · rcases pop_cases m kv.1 with h | h
    · left; simp [h, bind, Except.bind, pure, Except.pure]
    · right; exact ⟨_, by simp [h, bind, Except.bind, pure, Except.pure], hm.erase kv.1⟩

theorem report_fails {β : Type} (po : Str → Bool) (key : Str) (hs : Str.startsWith key py"torch." = false)
    (hp : po key = true) (l m : Dict Str β) (hm : m.WF) (hk : key ∈ l.keys) :
    l.foldlM (reportStep po) m = .error .keyError := by
  induction l generalizing m with
  | nil => simp [Dict.keys] at hk
  | cons kv l ih =>
    rw [List.foldlM_cons]
    by_cases e : kv.1 = key
    · have : reportStep po m kv = .error .keyError := by
        unfold reportStep
        rw [e, hs, hp]
        rcases pop_cases m key with h | h
        · simp [h, bind, Except.bind]
        · have : pop (m.erase key) key = .error .keyError := by
            unfold pop
            rw [Dict.has, Dict.get?_erase_self hm]; rfl
          simp [h, this, bind, Except.bind]
      rw [this]; rfl
    · rcases reportStep_cases po m hm kv with h | ⟨m', h, hm'⟩
      · rw [h]; rfl
      · rw [h]
        refine ih m' hm' ?_
        simp only [Dict.keys, List.map_cons, List.mem_cons] at hk
        rcases hk with hk | hk
        · exact absurd hk.symm e
        · exact hk

/-- **C24 is false of the shipped tables:** after every project that uses `transformers.PreTrainedTokenizer` the report ends
with a `KeyError`. -/
theorem C24_shipped_entry {β : Type} (all : Dict Str β) (hw : all.keys.Nodup)
    (ht : py"transformers.PreTrainedTokenizer" ∈ all.keys) : unaligned prefixOnly all = .error .keyError := by
  have hp : prefixOnly py"transformers.PreTrainedTokenizer" = true := by
    obtain ⟨r, hr, h⟩ := List.any_eq_true.1 tokenizer_there
    simp only [Bool.and_eq_true] at h
    exact prefixOnly_iff.2 ⟨r, List.mem_append.2 (Or.inl hr), (name_iff tokenizer (by decide) r).2 h.2,
      (class_iff changePrefix (by decide) r).2 h.1⟩
  exact report_fails prefixOnly _ (by decide) hp all all hw ht

/-! ## C33: names that are no package members -/

/-- **C33 does not extend to the wildcards:** a call of a function of the user's own object `transformers_x` counts as an API
although no torch package begins its name, because `transformers.*` is used as a regular expression. -/
theorem C33_wildcard_negative : ∃ full, (∀ p ∈ torchPackages.keys, ¬ ∃ r, full = p ++ py"." ++ r) ∧
    decideCall shipped torchFile full = .package full := by
  refine ⟨py"transformers_x.f", ?_, ?_⟩
  · intro p hp ⟨r, e⟩
    have : ∀ p ∈ torchPackages.keys, Str.startsWith py"transformers_x.f" (p ++ py".") = false := by decide +kernel
    have h := this p hp
    rw [e, Str.startsWith_iff.2 ⟨r, rfl⟩] at h
    simp at h
  · rw [C35_package_call]
    refine ⟨rfl, Or.inr ?_⟩
    rw [← listed_iff, inApi, Bool.or_eq_true]
    right
    have ha : shipped.aliases.get? py"transformers_x.f" = none := by
      rw [Dict.get?_eq_none_iff, alias_keys]; decide +kernel
    rw [canonical, ha]
    decide

/-! ## C43: renaming with the shipped tables -/

theorem raw_change_get (r : Raw) (a : Nat) :
    r.cfg.change.get? (decode a) = ((r.change.find? fun c => c.1.beq a).map fun c => changeOf c.2) := by
  show Dict.get? (r.change.map fun c => (decode c.1, changeOf c.2)) (decode a) = _
  induction r.change with
  | nil => rfl
  | cons c l ih =>
    rw [List.map_cons, Dict.get?, List.find?_cons]
    by_cases e : c.1 = a
    · subst e; simp [Nat.beq_refl]
    · have hb : c.1.beq a = false := by
        cases hb : c.1.beq a with
        | false => rfl
        | true => exact absurd (Nat.eq_of_beq_eq_true hb) e
      rw [if_neg (fun h => e (decode_inj h)), ih, hb]

theorem changeOf_targets (b : Bool × List Nat) :
    (changeOf b).targets = (targetCodes b).map decode := by
  obtain ⟨f, l⟩ := b
  cases f with
  | true => rfl
  | false =>
    simp only [changeOf, targetCodes, Bool.false_eq_true, if_false, Change.targets]
    by_cases e : l.headD 0 = 0
    · rw [e, if_pos (by rfl : decode 0 = [])]; rfl
    · rw [if_neg]
      · have : (l.headD 0).beq 0 = false := by
          cases hb : (l.headD 0).beq 0 with
          | false => rfl
          | true => exact absurd (Nat.eq_of_beq_eq_true hb) e
        rw [this]; rfl
      · intro h
        exact e (decode_inj (h.trans (by rfl : [] = decode 0)))

theorem unuse_codes : genericUnuse = unuseCodes.map decode := by decide +kernel

theorem newNames_codes (r : Raw) (a : Nat) :
    newNames r.cfg genericUnuse (some (decode a)) = (newCodes r a).map fun n => some (decode n) := by
  unfold newNames newCodes
  simp only [raw_change_get]
  cases h : r.change.find? (fun c => c.1.beq a) with
  | some c => simp [changeOf_targets]
  | none =>
    simp only [Option.map_none]
    rw [unuse_codes]
    have : decode a ∈ unuseCodes.map decode ↔ unuseCodes.any (fun u => u.beq a) = true := by
      rw [mem_map_decode (f := fun c : Nat => c), List.map_id', List.any_eq_true]
      exact ⟨fun h => ⟨a, h, Nat.beq_refl a⟩, fun ⟨x, hx, e⟩ => by rwa [← Nat.eq_of_beq_eq_true e]⟩
    by_cases hu : unuseCodes.any (fun u => u.beq a) = true
    · rw [if_pos (this.2 hu), if_pos hu]; rfl
    · rw [if_neg (fun h => hu (this.1 h)), if_neg hu]; rfl

theorem disjoint_codes {l m : List Nat} (h : l.all (fun x => m.all fun y => !(x.beq y)) = true) :
    ∀ x ∈ l, x ∉ m := by
  intro x hx hm
  have := List.all_eq_true.1 (List.all_eq_true.1 h x hx) x hm
  simp [Nat.beq_refl] at this

theorem flatMap_nodup {α β : Type} {l : List α} {f : α → List β} (h1 : ∀ a ∈ l, (f a).Nodup)
    (h2 : l.Pairwise fun a b => ∀ x ∈ f a, x ∉ f b) : (l.flatMap f).Nodup := by
  induction l with
  | nil => simp
  | cons a l ih =>
    rw [List.pairwise_cons] at h2
    rw [List.flatMap_cons, List.nodup_append]
    refine ⟨h1 a (by simp), ih (fun b hb => h1 b (by simp [hb])) h2.2, ?_⟩
    intro x hx y hy e
    subst e
    obtain ⟨b, hb, hxb⟩ := List.mem_flatMap.1 hy
    exact h2.1 b hb x hx hxb

/-- **C43 for the shipped tables.** For every entry and every call whose arguments are distinct parameters of the entry (and
not both `indices` and `sections`, which belong to different overloads), renaming passes each argument's text on under exactly its
new names, in order, and nothing else appears. -/
theorem C43_shipped (r : Raw) (hr : r ∈ entries) (d : Kwargs) (hw : d.WF)
    (hk : ∀ k ∈ d.keys, ∃ a ∈ r.cfg.argsList ++ r.cfg.overload, k = some a)
    (hi : ¬ (some py"indices" ∈ d.keys ∧ some py"sections" ∈ d.keys)) :
    changeKwargs r.cfg genericUnuse d = d.flatMap fun kv => (newNames r.cfg genericUnuse kv.1).map (·, kv.2) := by
  have hclean := all_entries clean_api clean_attr r hr
  have code : ∀ k ∈ d.keys, ∃ a ∈ r.args ++ r.overload, k = some (decode a) := by
    intro k h
    obtain ⟨a, ha, e⟩ := hk k h
    have : a ∈ (r.args ++ r.overload).map decode := by rw [List.map_append]; exact ha
    obtain ⟨n, hn, rfl⟩ := List.mem_map.1 this
    exact ⟨n, hn, e⟩
  unfold clean at hclean
  have hone := fun a ha => List.all_eq_true.1 hclean a ha
  have hkv : ∀ kv ∈ d, kv.1 ∈ d.keys := fun kv h => List.mem_map.2 ⟨kv, h, rfl⟩
  refine C43_renaming_keeps_arguments r.cfg genericUnuse d (flatMap_nodup ?_ ?_) ?_
  · intro kv h
    obtain ⟨a, ha, e⟩ := code _ (hkv kv h)
    have h1 := hone a ha
    rw [Bool.and_eq_true, Bool.and_eq_true] at h1
    rw [e, newNames_codes]
    have hn := of_decide_eq_true h1.1.1
    rw [List.Nodup, List.pairwise_map]
    exact hn.imp fun h e => h (decode_inj (by simpa using e))
  · have hp : d.Pairwise fun a b => a.1 ≠ b.1 := List.pairwise_map.1 hw
    refine hp.imp_of_mem ?_
    intro kv kv' h h' hne x hx hx'
    obtain ⟨a, ha, e⟩ := code _ (hkv kv h)
    obtain ⟨b, hb, e'⟩ := code _ (hkv kv' h')
    have h1 := hone a ha
    rw [Bool.and_eq_true, Bool.and_eq_true] at h1
    have h2 := List.all_eq_true.1 h1.1.2 b hb
    rw [e, newNames_codes, List.mem_map] at hx
    rw [e', newNames_codes, List.mem_map] at hx'
    obtain ⟨n, hn, rfl⟩ := hx
    obtain ⟨n', hn', e3⟩ := hx'
    have e3 : n' = n := decode_inj (by simpa using e3)
    subst e3
    simp only [Bool.or_eq_true] at h2
    rcases h2 with ((h2 | h2) | h2) | h2
    · apply hne; rw [e, e', Nat.eq_of_beq_eq_true h2]
    · simp only [Bool.and_eq_true] at h2
      apply hi
      rw [indices_code, sections_code, ← Nat.eq_of_beq_eq_true h2.1, ← Nat.eq_of_beq_eq_true h2.2, ← e, ← e']
      exact ⟨hkv _ h, hkv _ h'⟩
    · simp only [Bool.and_eq_true] at h2
      apply hi
      rw [indices_code, sections_code, ← Nat.eq_of_beq_eq_true h2.1, ← Nat.eq_of_beq_eq_true h2.2, ← e, ← e']
      exact ⟨hkv _ h', hkv _ h⟩
    · exact disjoint_codes h2 n' hn hn'
  · intro kv h hnil kv' h' hx
    obtain ⟨a, ha, e⟩ := code _ (hkv kv h)
    obtain ⟨b, hb, e'⟩ := code _ (hkv kv' h')
    have h1 := hone a ha
    rw [Bool.and_eq_true] at h1
    rw [e, newNames_codes, List.map_eq_nil_iff] at hnil
    rw [hnil] at h1
    rw [List.isEmpty_nil, Bool.not_true, Bool.false_or] at h1
    have h2 := List.all_eq_true.1 h1.2 b hb
    rw [e', newNames_codes, e, List.mem_map] at hx
    obtain ⟨n, hn, e3⟩ := hx
    have e3 : n = a := decode_inj (by simpa using e3)
    subst e3
    have := List.all_eq_true.1 h2 n hn
    simp [Nat.beq_refl] at this

theorem posArgs_sub (cfg : Cfg) : ∀ a ∈ posArgs cfg, a ∈ cfg.argsList := by
  have gen : ∀ l : List Str, ∀ g ∈ splitStar l, ∀ a ∈ g, a ∈ l := by
    intro l
    induction l with
    | nil => simp [splitStar]
    | cons x xs ih =>
      intro g hg a ha
      unfold splitStar at hg
      split at hg
      · rcases List.mem_cons.1 hg with e | h
        · subst e; simp at ha
        · exact List.mem_cons_of_mem _ (ih g h a ha)
      · split at hg
        · simp at hg; subst hg; simp at ha; simp [ha]
        · next p ps he =>
          rcases List.mem_cons.1 hg with e | h
          · subst e
            rcases List.mem_cons.1 ha with e | h
            · simp [e]
            · exact List.mem_cons_of_mem _ (ih p (by rw [he]; simp) a h)
          · exact List.mem_cons_of_mem _ (ih g (by rw [he]; simp [h]) a ha)
  intro a ha
  unfold posArgs groups at ha
  cases hf : (splitStar cfg.argsList).filter (fun g => !g.isEmpty) with
  | nil => rw [hf] at ha; simp at ha
  | cons g gs =>
    rw [hf] at ha
    have : g ∈ (splitStar cfg.argsList).filter (fun g => !g.isEmpty) := by rw [hf]; simp
    exact gen _ g (List.mem_filter.1 this).1 a ha

theorem kept_clean {cfg : Cfg} {an : Bool} {kws kept : List Kw} {f : Nat} (hc : NoSkip cfg kws)
    (h : scanKw cfg an kws = .ok kept f) : ∀ n ∈ kept, ∃ k, n.arg = some k ∧ k ∈ cfg.argsList ++ cfg.overload := by
  induction kws generalizing kept f with
  | nil => simp [scanKw] at h; simp [h.1]
  | cons x rest ih =>
    unfold scanKw at h
    cases hx : x.arg with
    | none => rw [hx] at h; dsimp only at h; split at h <;> simp at h
    | some k =>
      rw [hx] at h; dsimp only at h
      split at h
      · next hu =>
        split at h
        · next hN =>
          cases rest with
          | nil => simp at h; simp [h.1]
          | cons m rest => exact absurd ⟨⟨k, hx, hu⟩, hN⟩ hc.1
        · simp at h
      · split at h
        · simp at h
        · next hin =>
          have hc' : NoSkip cfg rest := by
            cases rest with
            | nil => trivial
            | cons m rest => exact hc.2
          cases hs : scanKw cfg an rest with
          | refuse => rw [hs] at h; simp [Scan.cons] at h
          | misidentify => rw [hs] at h; simp [Scan.cons] at h
          | ok kept' f' =>
            rw [hs] at h
            simp only [Scan.cons, Scan.ok.injEq] at h
            rw [← h.1]
            intro n hn
            rcases List.mem_cons.1 hn with e | hn
            · subst e; exact ⟨k, hx, Decidable.not_not.1 hin⟩
            · exact ih hc' hs n hn

/-- **C43, from the call to the renamed arguments (partial).** Any call that the argument parser accepts for an entry of the
tables is passed on argument by argument: each under exactly its new names, with its text, in order. Missing: calls
with an unsupported keyword `None` directly before another keyword (C41), and calls that give `indices` and `sections`. -/
theorem C43_accepted_calls_partial (r : Raw) (hr : r ∈ entries) (args : List Arg) (kws : List Kw) (as an : Bool) (d : Kwargs)
    (h : parseArgs r.cfg args kws as an = .ok d) (hc : NoSkip r.cfg kws)
    (hi : ¬ (some py"indices" ∈ d.keys ∧ some py"sections" ∈ d.keys)) :
    changeKwargs r.cfg genericUnuse d = d.flatMap fun kv => (newNames r.cfg genericUnuse kv.1).map (·, kv.2) := by
  obtain ⟨kept, f, h1, h2, h4, h5, h3, h6⟩ := parse_ok h
  have hrem := (scanKw_removed h1).1
  refine C43_shipped r hr d ?_ ?_ hi
  · rw [h3]; exact Dict.WF.update Dict.WF_nil _
  · intro k hk
    have hs : (d.get? k).isSome = true := by
      rw [← Dict.has]; exact Dict.has_iff.2 hk
    rw [h3, Dict.get?_update] at hs
    simp only [Dict.get?_nil, Option.or_none] at hs
    rw [Dict.last?_isSome, List.map_append, List.mem_append] at hs
    rcases hs with hs | hs
    · obtain ⟨kv, hkv, rfl⟩ := List.mem_map.1 hs
      unfold posBindings at hkv
      obtain ⟨q, hq, rfl⟩ := List.mem_map.1 hkv
      exact ⟨q.1, List.mem_append.2 (Or.inl (posArgs_sub _ _ (List.of_mem_zip hq).1)), rfl⟩
    · obtain ⟨kv, hkv, rfl⟩ := List.mem_map.1 hs
      obtain ⟨n, hn, rfl⟩ := List.mem_map.1 hkv
      obtain ⟨a, e, ha⟩ := kept_clean hc h1 n hn
      exact ⟨a, ha, e⟩

/-- `torch.lu(x, get_infos=True)`. -/
def exLu : Raw :=
  F 0x746f7263682e6c75 0x4c754d617463686572 0x706164646c652e6c696e616c672e6c75 1
    [0x41, 0x7069766f74, 0x6765745f696e666f73, 0x6f7574] [] [] [(0x41, false, [0x78])] []

example : exLu ∈ entries ∧ exLu.name = py"torch.lu" ∧
    parseArgs exLu.cfg [⟨py"t", false⟩] [⟨some py"get_infos", py"(True)", false⟩]
      = .ok [(some py"A", py"t"), (some py"get_infos", py"(True)")] ∧
    changeKwargs exLu.cfg genericUnuse [(some py"A", py"t"), (some py"get_infos", py"(True)")]
      = [(some py"x", py"t"), (some py"get_infos", py"(True)")] := by
  refine ⟨?_, by decide, by decide, by decide⟩
  rw [entries, List.mem_append]; left
  simp only [apiTable, List.mem_append]
  left; simp [apiTable0, exLu, F]

end Verif.Data

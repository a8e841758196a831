import Verif.Spec.Uses
import Verif.Props.Dispatch
import Verif.Props.Tables

/-!
# C57, C59: uses of imported names, min mode
-/

namespace Verif.Uses
open Verif
open Verif.Dispatch (File Tables Entry canonical join_append)

theorem chain_ne_nil : ∀ {e : E} {l : List Str}, chain e = some l → l ≠ []
  | .name i, l, h => by simp [chain] at h; simp [← h]
  | .attr v a, l, h => by
    simp only [chain, Option.map_eq_some_iff] at h
    obtain ⟨l', -, rfl⟩ := h; simp
  | .op _ _, l, h => by simp [chain] at h
  | .other _ _, l, h => by simp [chain] at h

theorem fullText_chain : ∀ {e : E} {l : List Str}, chain e = some l → fullText e = Str.join py"." l
  | .name i, l, h => by simp [chain] at h; simp [← h, fullText]
  | .attr v a, l, h => by
    simp only [chain, Option.map_eq_some_iff] at h
    obtain ⟨l', h1, rfl⟩ := h
    rw [fullText, fullText_chain h1, join_append _ _ _ (chain_ne_nil h1) (by simp)]
    simp
  | .op _ _, l, h => by simp [chain] at h
  | .other _ _, l, h => by simp [chain] at h

theorem chain_proper : ∀ {e : E} {l : List Str}, Proper e → chain e = some l → ∀ b ∈ l, '.' ∉ b
  | .name i, l, hp, h => by simp [chain] at h; subst h; simpa [Proper] using hp
  | .attr v a, l, hp, h => by
    simp only [chain, Option.map_eq_some_iff] at h
    obtain ⟨l', h1, rfl⟩ := h
    intro b hb
    rcases List.mem_append.1 hb with hb | hb
    · exact chain_proper hp.1 h1 b hb
    · simp at hb; subst hb; exact hp.2
  | .op _ _, l, _, h => by simp [chain] at h
  | .other _ _, l, _, h => by simp [chain] at h

theorem replace_chain (v : Env) {e : E} {h : Str} {rest : List Str} (hp : Proper e) (hc : chain e = some (h :: rest)) :
    replace v e = expandName v e h rest := by
  unfold replace expandName resolve
  rw [fullText_chain hc, Str.splitOn_join (by simp) (chain_proper hp hc)]
  cases hn : v.file.names.get? h with
  | none => simp [hn]
  | some m => simp [hn]

/-- The text of an expression that is no dotted name begins with `None`. -/
theorem fullText_other : ∀ {e : E}, chain e = none → ∃ t, fullText e = py"None" ++ t ∧ (t = [] ∨ ∃ r, t = '.' :: r)
  | .name i, h => by simp [chain] at h
  | .attr v a, h => by
    simp only [chain, Option.map_eq_none_iff] at h
    obtain ⟨t, h1, h2⟩ := fullText_other h
    refine ⟨t ++ '.' :: a, by rw [fullText, h1]; simp, ?_⟩
    rcases h2 with rfl | ⟨r, rfl⟩
    · exact Or.inr ⟨_, rfl⟩
    · exact Or.inr ⟨_, rfl⟩
  | .op _ _, h => ⟨[], rfl, Or.inl rfl⟩
  | .other _ _, h => ⟨[], rfl, Or.inl rfl⟩

theorem replace_other (v : Env) {e : E} (hc : chain e = none) (hn : v.file.names.get? py"None" = none) : replace v e = e := by
  obtain ⟨t, h1, h2⟩ := fullText_other hc
  unfold replace resolve
  have : (Str.splitOn '.' (fullText e)).headD [] = py"None" := by
    rw [h1]
    rcases h2 with rfl | ⟨r, rfl⟩
    · decide
    · rw [Str.splitOn_append_cons (by decide)]; rfl
  dsimp only
  rw [this, hn]; rfl

/-- A dotted name with an unbound head stays, however deep the visit goes. -/
theorem visit_unbound (v : Env) :
    ∀ {e : E} {h : Str} {rest : List Str} (pos : Bool), Proper e → chain e = some (h :: rest) → v.file.names.get? h = none →
      visitE v pos e = e
  | .name i, h, rest, pos, hp, hc, hn => by
    unfold visitE
    split
    · rw [replace_chain v hp hc, expandName, hn]
    · rfl
  | .attr w a, h, rest, pos, hp, hc, hn => by
    have hw : ∃ r', chain w = some (h :: r') := by
      simp only [chain, Option.map_eq_some_iff] at hc
      obtain ⟨l', h1, h2⟩ := hc
      cases l' with
      | nil => exact absurd rfl (chain_ne_nil h1)
      | cons x l' => simp at h2; exact ⟨l', by rw [h1, h2.1]⟩
    obtain ⟨r', hw⟩ := hw
    have ih := visit_unbound v false hp.1 hw hn
    unfold visitE
    rw [ih, ite_self, replace_chain v hp hc, expandName, hn]
  | .op _ _, h, rest, pos, hp, hc, hn => by simp [chain] at hc
  | .other _ _, h, rest, pos, hp, hc, hn => by simp [chain] at hc

theorem descends_eq (data : E → Bool) (e : E) : descends data e = goesOn data e := by
  cases e <;> rfl

theorem not_descends (data : E → Bool) {w : E} {a : Str} {h : Str} {rest : List Str} (hc : chain (.attr w a) = some (h :: rest))
    (hr : ∀ b ∈ rest.dropLast, b ∉ through ∧ b ≠ py"data") : descends data w = false := by
  simp only [chain, Option.map_eq_some_iff] at hc
  obtain ⟨l', h1, h2⟩ := hc
  cases w with
  | name i => rfl
  | attr x b =>
    simp only [chain, Option.map_eq_some_iff] at h1
    obtain ⟨l'', h3, rfl⟩ := h1
    have hb : b ∈ rest.dropLast := by
      cases l'' with
      | nil => exact absurd rfl (chain_ne_nil h3)
      | cons y ys =>
        simp at h2
        rw [← h2.2]
        rw [show ys ++ [b, a] = (ys ++ [b]) ++ [a] by simp, List.dropLast_concat]
        simp
    obtain ⟨g1, g2⟩ := hr b hb
    simp [descends_eq, goesOn, g1, g2]
  | op _ _ => simp [chain] at h1
  | other _ _ => simp [chain] at h1

theorem chain_expand (v : Env) : (e : E) → chain e = none → chain (expand v e) = none
  | .name i, h => by simp [chain] at h
  | .attr w a, h => by
    have hw : chain w = none := by simpa [chain] using h
    unfold expand
    rw [h]
    simp only [chain, chain_expand v w hw, Option.map_none]
  | .op _ _, _ => by simp [expand, chain]
  | .other _ _, _ => by simp [expand, chain]

mutual
theorem visitE_expand (v : Env) (hnone : v.file.names.get? py"None" = none) :
    (e : E) → (pos : Bool) → Proper e → Seen v pos e → visitE v pos e = expand v e
  | .name i, pos, hp, hs => by
    unfold visitE expand
    rcases hs with rfl | hs
    · rw [if_pos rfl]; exact replace_chain v hp rfl
    · unfold expandName
      rw [hs]
      split
      · rw [replace_chain v hp rfl, expandName, hs]
      · rfl
  | .attr w a, pos, hp, hs => by
    cases hc : chain (.attr w a) with
    | some l =>
      obtain ⟨h, rest, rfl⟩ := List.exists_cons_of_ne_nil (chain_ne_nil hc)
      unfold Seen at hs
      rw [hc] at hs
      dsimp only at hs
      have he : expand v (.attr w a) = expandName v (.attr w a) h rest := by unfold expand; rw [hc]
      rw [he]
      rcases hs with hs | hs
      · rw [visit_unbound v pos hp hc hs, expandName, hs]
      · unfold visitE
        rw [not_descends v.data hc hs]
        simp only [Bool.false_eq_true, if_false]
        exact replace_chain v hp hc
    | none =>
      unfold Seen at hs
      rw [hc] at hs
      dsimp only at hs
      have he : expand v (.attr w a) = .attr (expand v w) a := by rw [expand, hc]
      rw [he]
      unfold visitE
      rw [descends_eq, if_pos hs.1, visitE_expand v hnone w false hp.1 hs.2]
      apply replace_other v _ hnone
      have hw : chain w = none := by simpa [chain] using hc
      simp [chain, chain_expand v w hw]
  | .op t ks, pos, hp, hs => by
    unfold visitE expand
    rw [visitEs_expand v hnone ks hp hs]
  | .other t ks, pos, hp, hs => by
    unfold visitE expand
    rw [visitEs_expand v hnone ks hp hs]
theorem visitEs_expand (v : Env) (hnone : v.file.names.get? py"None" = none) :
    (ks : Es) → ProperAll ks → SeenAll v ks → visitEs v ks = expands v ks
  | .nil, _, _ => rfl
  | .cons pos e rest, hp, hs => by
    unfold visitEs expands
    rw [visitE_expand v hnone e pos hp.1 hs.1, visitEs_expand v hnone rest hp.2 hs.2]
end

/-- **C57**, partial: in every expression whose uses of imported names are at places the import pass goes to, all these uses and
nothing else are replaced: by the canonical full name, or not at all if the API is to be kept in min mode. The places it does not go to
are in the negations. -/
theorem C57_uses_replaced_partial (v : Env) (e : E) (pos : Bool) (hnone : v.file.names.get? py"None" = none) (hp : Proper e)
    (hs : Seen v pos e) : visitE v pos e = expand v e :=
  visitE_expand v hnone e pos hp hs

namespace Ex
/-- `import torch.nn as nn` / `from torch import relu` in default mode. -/
def env : Env where
  file := { names := [(py"nn", py"torch.nn"), (py"relu", py"torch.relu")], torch := [py"torch"] }
  keep _ := false
  canon := fun s => s
  data _ := true
/-- `nn.Linear(3)` -/
def linear : E := .op 0 (.cons true (.attr (.name py"nn") py"Linear") (.cons false (.other 3 .nil) .nil))
end Ex

open Ex in
/-- `f(nn.Linear(3).weight.shape)` -/
example : visitE env false (.op 0 (.cons true (.name py"f") (.cons false (.attr (.attr linear py"weight") py"shape") .nil))) =
    .op 0 (.cons true (.name py"f") (.cons false (.attr (.attr (.op 0 (.cons true (.attr (.attr (.name py"torch") py"nn") py"Linear")
      (.cons false (.other 3 .nil) .nil))) py"weight") py"shape") .nil)) := by rfl

open Ex in
example : Seen env false (.op 0 (.cons true (.name py"f") (.cons false (.attr (.attr linear py"weight") py"shape") .nil))) ∧
    Proper (.op 0 (.cons true (.name py"f") (.cons false (.attr (.attr linear py"weight") py"shape") .nil))) := by
  constructor
  · simp [Seen, SeenAll, chain, linear, goesOn, through, env, Dict.get?]
  · simp [Proper, ProperAll, linear]

open Ex in
/-- **C57 is false in general**: in `nn.Linear(3).foo.bar` the call is not visited, so `nn` stays although its import was removed. -/
theorem C57_chain_negative : ∃ (v : Env) (e : E), (∀ x, v.keep x = false) ∧ Proper e ∧ visitE v false e ≠ expand v e ∧
    visitE v false e = e ∧ e = .attr (.attr (.op 0 (.cons true (.attr (.name py"nn") py"Linear")
      (.cons false (.other 3 .nil) .nil))) py"foo") py"bar" := by
  refine ⟨env, _, fun _ => rfl, ?_, ?_, rfl, rfl⟩
  · simp [Proper, ProperAll]
  · intro h
    have h2 : visitE env false (.attr (.attr linear py"foo") py"bar") = .attr (.attr linear py"foo") py"bar" := rfl
    have h3 : expand env (.attr (.attr linear py"foo") py"bar") =
      .attr (.attr (.op 0 (.cons true (.attr (.attr (.name py"torch") py"nn") py"Linear") (.cons false (.other 3 .nil) .nil)))
        py"foo") py"bar" := rfl
    rw [show (E.attr (.attr (.op 0 (.cons true (.attr (.name py"nn") py"Linear") (.cons false (.other 3 .nil) .nil))) py"foo")
      py"bar") = .attr (.attr linear py"foo") py"bar" from rfl, h2, h3] at h
    simp [linear] at h

open Ex in
/-- **C57 is false in general**: a single name is replaced at some places only; as an ordinary argument, `apply(relu, x)`, it stays. -/
theorem C57_place_negative : ∃ (v : Env) (e : E), (∀ x, v.keep x = false) ∧ Proper e ∧ visitE v false e ≠ expand v e ∧
    visitE v false e = e ∧ e = .op 0 (.cons true (.name py"apply") (.cons false (.name py"relu") .nil)) := by
  refine ⟨env, _, fun _ => rfl, ?_, ?_, rfl, rfl⟩
  · simp [Proper, ProperAll]
  · intro h
    have h3 : expand env (.op 0 (.cons true (.name py"apply") (.cons false (.name py"relu") .nil))) =
      .op 0 (.cons true (.name py"apply") (.cons false (.attr (.name py"torch") py"relu") .nil)) := rfl
    have h2 : visitE env false (.op 0 (.cons true (.name py"apply") (.cons false (.name py"relu") .nil))) =
      .op 0 (.cons true (.name py"apply") (.cons false (.name py"relu") .nil)) := rfl
    rw [h2, h3] at h
    simp at h

/-! ## C59 -/

open Verif.Data (shipped wildcards attrTable decode attr_wf api_wf attr_not_api attr_keys)

set_option maxRecDepth 100000 in
theorem attr_not_wild_check : attrTable.all (fun r => !Matcher.matchDots py"einops.layers.torch" (decode r.key)) = true := by
  decide +kernel

theorem attr_not_wild {k : Str} (h : k ∈ shipped.attr.keys) : Matcher.matchDots py"einops.layers.torch" k = false := by
  rw [attr_keys] at h
  obtain ⟨r, hr, rfl⟩ := List.mem_map.1 h
  have := List.all_eq_true.1 attr_not_wild_check r hr
  simpa using this

/-- The wildcard that matches, if any: none of them is prefix-only. -/
theorem wild_not_prefix {api : Str} {e : Entry} (h : firstWild shipped api = some e ∨ Dispatch.lastWild shipped api = some e) :
    e.matcher ≠ some py"ChangePrefixMatcher" := by
  have hm : e ∈ wildcards.map (·.2) := by
    rcases h with h | h
    · simp only [firstWild, Option.map_eq_some_iff] at h
      obtain ⟨w, h1, rfl⟩ := h
      exact List.mem_map.2 ⟨w, List.mem_of_find?_eq_some h1, rfl⟩
    · have hw : shipped.wild = wildcards := rfl
      simp only [Dispatch.lastWild, hw, wildcards, List.foldl_cons, List.foldl_nil] at h
      split at h
      · simp at h; simp [wildcards, ← h]
      · split at h
        · simp at h; simp [wildcards, ← h]
        · simp at h
  simp only [wildcards, List.map_cons, List.map_nil, List.mem_cons, List.not_mem_nil, or_false] at hm
  rcases hm with rfl | rfl <;> decide

theorem usable_wild (api : Str) (h : Matcher.matchDots py"einops.layers.torch" api = false) :
    (firstWild shipped api).filter (fun e => !e.disable) = none := by
  have hw : shipped.wild = wildcards := rfl
  simp only [firstWild, hw, wildcards, List.find?_cons, h, List.find?_nil]
  split <;> simp

/-- **C59.** In min mode, exactly the APIs whose canonical name has an entry for a mere change of prefix, not disabled, in one of the two shipped
tables are left in the code under their own name. -/
theorem C59_min_mode_keeps (api : Str) :
    inMinMode shipped api = true ↔
      ∃ e, ((canonical shipped api, e) ∈ shipped.api ∨ (canonical shipped api, e) ∈ shipped.attr) ∧
        e.matcher = some py"ChangePrefixMatcher" ∧ e.disable = false := by
  unfold inMinMode
  generalize canonical shipped api = c
  dsimp only
  cases ha : shipped.api.get? c with
  | some e =>
    have hna : c ∉ shipped.attr.keys := fun h => attr_not_api h (List.mem_map.2 ⟨_, Dict.mem_of_get? ha, rfl⟩)
    have hother : ∀ x, (c, x) ∉ shipped.attr := fun x hx => hna (List.mem_map.2 ⟨_, hx, rfl⟩)
    have hsame : ∀ x, (c, x) ∈ shipped.api ↔ x = e := by
      intro x
      constructor
      · intro hx
        have := Dict.get?_of_mem api_wf hx
        rw [ha] at this; simpa using this.symm
      · rintro rfl; exact Dict.mem_of_get? ha
    simp only [hsame, hother, or_false, exists_eq_left, Option.some_or]
    cases hd : e.disable with
    | false => simp [Option.filter, hd]
    | true =>
      simp only [Option.filter, hd, Bool.not_true, Bool.false_eq_true, if_false, Dict.get?_eq_none_iff.2 hna, Option.none_or]
      simp only [reduceCtorEq, and_false, iff_false]
      cases hf : firstWild shipped c with
      | none => simp
      | some w =>
        have := wild_not_prefix (Or.inl hf)
        cases hw : w.disable <;> simp [hw, this]
  | none =>
    have hna : ∀ x, (c, x) ∉ shipped.api := fun x hx => Dict.get?_eq_none_iff.1 ha (List.mem_map.2 ⟨_, hx, rfl⟩)
    simp only [hna, false_or, Option.none_or]
    cases hg : shipped.attr.get? c with
    | some e =>
      have hk : c ∈ shipped.attr.keys := List.mem_map.2 ⟨_, Dict.mem_of_get? hg, rfl⟩
      rw [usable_wild c (attr_not_wild hk)]
      have hsame : ∀ x, (c, x) ∈ shipped.attr ↔ x = e := by
        intro x
        constructor
        · intro hx
          have := Dict.get?_of_mem attr_wf hx
          rw [hg] at this; simpa using this.symm
        · rintro rfl; exact Dict.mem_of_get? hg
      simp only [hsame, exists_eq_left, Option.some_or]
      cases hd : e.disable <;> simp [Option.filter, hd]
    | none =>
      have hnb : ∀ x, (c, x) ∉ shipped.attr := fun x hx => Dict.get?_eq_none_iff.1 hg (List.mem_map.2 ⟨_, hx, rfl⟩)
      simp only [hnb, false_and, exists_false, iff_false, Option.none_or]
      cases hf : firstWild shipped c with
      | none => simp
      | some w =>
        have := wild_not_prefix (Or.inl hf)
        cases hw : w.disable <;> simp [Option.filter, hw, this]

example : inMinMode shipped py"torch.abs" = true ∧ inMinMode shipped py"torch.addbmm" = false ∧
    inMinMode shipped py"torch.relu" = true := by decide +kernel

/-- **C59, agreement.** An API is kept in min mode iff the pass over the calls or attributes would answer it with the prefix matcher; so what the later
pass converts by changing the prefix only is what min mode leaves alone. For the one name whose lookup fails see C34. -/
theorem C59_agrees (api : Str) (hd : api ≠ py"torch.utils.data.dataloader.DataLoader") :
    inMinMode shipped api = true ↔
      (∃ c, Dispatch.getMatcher shipped shipped.api api = .ok (some (py"ChangePrefixMatcher", c))) ∨
      (∃ c, Dispatch.getMatcher shipped shipped.attr api = .ok (some (py"ChangePrefixMatcher", c))) := by
  have key : ∀ table : Dict Str Entry, table.WF → ¬ (api ∈ shipped.aliases.keys ∧ api ∈ table.keys) →
      ((∃ c, Dispatch.getMatcher shipped table api = .ok (some (py"ChangePrefixMatcher", c))) ↔
        ∃ e, (canonical shipped api, e) ∈ table ∧ e.matcher = some py"ChangePrefixMatcher" ∧ e.disable = false) := by
    intro table hw hn
    have hcond : (shipped.aliases.has api && table.has api) = false := by
      rw [Bool.eq_false_iff, ne_eq, Bool.and_eq_true, Dict.has_iff, Dict.has_iff]; exact hn
    unfold Dispatch.getMatcher
    rw [hcond]
    dsimp only
    cases hg : table.get? (canonical shipped api) with
    | some e =>
      have hsame : ∀ x, (canonical shipped api, x) ∈ table ↔ x = e := by
        intro x
        constructor
        · intro hx
          have := Dict.get?_of_mem hw hx
          rw [hg] at this; simpa using this.symm
        · rintro rfl; exact Dict.mem_of_get? hg
      simp only [hsame, exists_eq_left]
      cases hdis : e.disable <;> simp [Entry.use, hdis]
    | none =>
      have hnb : ∀ x, (canonical shipped api, x) ∉ table := fun x hx =>
        Dict.get?_eq_none_iff.1 hg (List.mem_map.2 ⟨_, hx, rfl⟩)
      simp only [hnb, false_and, exists_false, iff_false, not_exists]
      intro c
      cases hf : Dispatch.lastWild shipped (canonical shipped api) with
      | none => simp
      | some w =>
        have := wild_not_prefix (Or.inr hf)
        cases hdis : w.disable <;> simp [Entry.use, hdis, this]
  rw [C59_min_mode_keeps, key _ api_wf fun h => Data.alias_not_api h.1 hd h.2, key _ attr_wf fun h => Data.alias_not_attr h.1 h.2]
  constructor
  · rintro ⟨e, h1 | h1, h2⟩
    · exact Or.inl ⟨e, h1, h2⟩
    · exact Or.inr ⟨e, h1, h2⟩
  · rintro (⟨e, h1, h2⟩ | ⟨e, h1, h2⟩)
    · exact ⟨e, Or.inl h1, h2⟩
    · exact ⟨e, Or.inr h1, h2⟩

end Verif.Uses

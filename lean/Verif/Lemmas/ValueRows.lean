import Verif.Spec.Value
import Verif.Lemmas.BasicPass
import Verif.Props.Tables

/-!
# The entries of the tables, as seen by uses without a call
-/

namespace Verif.Value
open Verif Verif.Data Verif.Dispatch
open Verif.Matcher (prefixApi matchDots)

/-! ## Entries -/

theorem cfgOf_mem {table : List Raw} (hnd : (table.map Raw.name).Nodup) {r : Raw} (hr : r ∈ table) : cfgOf table r.name = r.cfg := by
  have := Whole.cfgOf_mem hnd hr
  unfold Basic.cfgOf at this
  unfold cfgOf
  cases h : table.find? fun x => decide (x.name = r.name) with
  | none => rw [h] at this; simp at this
  | some x => rw [h] at this; simpa using this

/-- The wildcards give no matcher. -/
theorem wild_use {c : Str} (hne : matchDots py"einops.layers.torch" c = false) : (lastWild shipped c).bind Entry.use = none := by
  have hw : shipped.wild = wildcards := rfl
  simp only [lastWild, hw, wildcards, List.foldl_cons, List.foldl_nil]
  rw [hne]
  split <;> simp [Entry.use]

/-- A matcher comes from an entry, but for the wildcard. -/
theorem matcher_entry {table : List Raw} {api m c : Str} (hne : matchDots py"einops.layers.torch" (canonical shipped api) = false)
    (h : getMatcher shipped (table.map fun r => (r.name, r.entry)) api = .ok (some (m, c))) :
    ∃ r ∈ table, r.name = canonical shipped api ∧ c = r.name ∧ m = r.class ∧ r.matcher ≠ 0 := by
  unfold getMatcher at h
  split at h
  · simp at h
  · have hl : (lastWild shipped (canonical shipped api)).bind Entry.use = none := wild_use hne
    cases hg : Dict.get? (table.map fun r => (r.name, r.entry)) (canonical shipped api) with
    | none => simp [hg, hl] at h
    | some e =>
      obtain ⟨r, hr, e1⟩ := List.mem_map.1 (Dict.mem_of_get? hg)
      simp only [Prod.mk.injEq] at e1
      simp only [hg, ← e1.2] at h
      have h := Except.ok.inj h
      by_cases h0 : r.matcher = 0
      · simp [Entry.use, Raw.entry, h0] at h
      · simp [Entry.use, Raw.entry, h0] at h
        exact ⟨r, hr, e1.1, h.2.symm.trans e1.1.symm, h.1.symm, h0⟩

/-- Without the wildcard or with it. -/
theorem matcher_cases {api m c : Str} (h : getMatcher shipped shipped.api api = .ok (some (m, c))) :
    (∃ r ∈ apiTable, r.name = canonical shipped api ∧ c = r.name ∧ m = r.class ∧ r.matcher ≠ 0) ∨ m = py"EinopsTorchMatcher" := by
  unfold getMatcher at h
  split at h
  · simp at h
  · cases hg : Dict.get? shipped.api (canonical shipped api) with
    | none =>
      right
      have hw : shipped.wild = wildcards := rfl
      simp only [hg, lastWild, hw, wildcards, List.foldl_cons, List.foldl_nil] at h
      have h := Except.ok.inj h
      split at h
      · simp [Entry.use] at h
      · split at h
        · simp [Entry.use] at h; exact h.1.symm
        · simp at h
    | some e =>
      left
      obtain ⟨r, hr, e1⟩ := List.mem_map.1 (Dict.mem_of_get? hg)
      simp only [Prod.mk.injEq] at e1
      simp only [hg, ← e1.2] at h
      have h := Except.ok.inj h
      by_cases h0 : r.matcher = 0
      · simp [Entry.use, Raw.entry, h0] at h
      · simp [Entry.use, Raw.entry, h0] at h
        exact ⟨r, hr, e1.1, h.2.symm.trans e1.1.symm, h.1.symm, h0⟩

/-! ## Checks over the tables -/

def backward : Str := py"torch.autograd.Function.backward"
def pattern : Str := py"torch.utils.data._utils.collate.np_str_obj_array_pattern"

def isC (s : Str) (r : Raw) : Bool := r.matcher.beq (encode s)

/-- An attribute at the end, or a name. -/
def assignable (s : Str) : Bool := decide (Ident ((Str.splitOn '.' s).getLastD []))

theorem splitOn_last (s : Str) : s = (Str.splitOn '.' s).getLastD [] ∨ ∃ w, s = w ++ py"." ++ (Str.splitOn '.' s).getLastD [] := by
  have h := Str.join_splitOn '.' s
  rcases List.eq_nil_or_concat (Str.splitOn '.' s) with e | ⟨l, a, e⟩
  · exact absurd e (Str.splitOn_ne_nil _ _)
  · rw [e] at h ⊢
    rw [List.concat_eq_append] at h ⊢
    rw [List.getLastD_eq_getLast?, List.getLast?_append]
    simp only [List.getLast?_singleton, Option.some_or, Option.getD_some]
    cases l with
    | nil => left; rw [← h]; rfl
    | cons x l => right; exact ⟨Str.join py"." (x :: l), by rw [← h]; exact join_append py"." (x :: l) [a] (by simp) (by simp)⟩

theorem assignable_iff {s : Str} (h : assignable s = true) : Assignable s := ⟨_, of_decide_eq_true h, splitOn_last s⟩

def textOf (r : Raw) : Option Str := if isC py"ChangePrefixMatcher" r then prefixApi torchPackages r.name else r.cfg.paddleApi

/-- The Paddle text is there for the classes that ask for it, and it is a string or can be assigned to. -/
def rowOk (r : Raw) : Bool :=
  r.matcher.beq 0 || r.key.beq (encode backward) ||
  match textOf r with
  | some p => decide (p ∉ [[], py"delete", py"misidentify", py"unchange"]) && ((!isC py"ChangePrefixMatcher" r && p.head? == some '\'') || assignable p || r.key.beq (encode pattern))
  | none => !isC py"ChangePrefixMatcher" r && !(assertive.any fun s => isC s r)

theorem rowOk_api0 : (apiTable0 ++ apiTable1 ++ apiTable2 ++ apiTable3 ++ apiTable4 ++ apiTable5).all rowOk = true := by decide +kernel
theorem rowOk_api1 : (apiTable6 ++ apiTable7 ++ apiTable8 ++ apiTable9 ++ apiTable10 ++ apiTable11).all rowOk = true := by decide +kernel
theorem rowOk_api2 : (apiTable12 ++ apiTable13 ++ apiTable14 ++ apiTable15 ++ apiTable16 ++ apiTable17).all rowOk = true := by decide +kernel
theorem rowOk_api3 : (apiTable18 ++ apiTable19 ++ apiTable20 ++ apiTable21 ++ apiTable22 ++ apiTable23).all rowOk = true := by decide +kernel
theorem rowOk_api4 : (apiTable24 ++ apiTable25 ++ apiTable26 ++ apiTable27 ++ apiTable28 ++ apiTable29).all rowOk = true := by decide +kernel
theorem rowOk_api5 : (apiTable30 ++ apiTable31 ++ apiTable32 ++ apiTable33).all rowOk = true := by decide +kernel

/-- In parts: one check of the whole table needs too much memory. -/
theorem rowOk_api : apiTable.all rowOk = true := by
  have h0 := rowOk_api0
  have h1 := rowOk_api1
  have h2 := rowOk_api2
  have h3 := rowOk_api3
  have h4 := rowOk_api4
  have h5 := rowOk_api5
  simp only [List.all_append, Bool.and_eq_true] at h0 h1 h2 h3 h4 h5
  simp only [apiTable, List.all_append, Bool.and_eq_true, h0, h1, h2, h3, h4, h5, and_self]
theorem rowOk_attr : attrTable.all rowOk = true := by decide +kernel

theorem rows_ok : ∀ r ∈ entries, rowOk r = true := all_entries rowOk_api rowOk_attr

/-- The attributes of classes. -/
def ofTensor (k : Str) : Bool := Str.startsWith k (tensorClass ++ py".") || Str.startsWith k (ctxClass ++ py".")

def four : List Str := [py"real", py"imag", py"is_sparse", py"is_sparse_csr"]

def rowClass (r : Raw) : Bool :=
  r.matcher.beq 0 || isC py"ChangePrefixMatcher" r || !ofTensor r.name ||
    (isC py"Attribute2Func" r && four.any fun a => r.key.beq (encode (tensorClass ++ py"." ++ a)))

theorem rowClass_attr : attrTable.all rowClass = true := by decide +kernel

def rowText (r : Raw) : Bool := r.matcher.beq 0 || isC py"ChangePrefixMatcher" r || r.cfg.paddleApi.isSome

theorem rowText_attr : attrTable.all rowText = true := by decide +kernel

theorem alias_not_to_attr : aliasTable.all (fun a => attrTable.all fun r => !(a.2.beq r.key)) = true := by decide +kernel

theorem alias_not_to_pattern : aliasTable.all (fun a => !(a.2.beq (encode pattern))) = true := by decide +kernel

theorem canonical_of_attr {api : Str} (h : canonical shipped api ∈ attrTable.map Raw.name) : canonical shipped api = api := by
  unfold canonical at h ⊢
  cases hg : shipped.aliases.get? api with
  | none => rfl
  | some v =>
    exfalso
    rw [hg] at h
    have hm : (api, v) ∈ aliasTable.map fun a => (decode a.1, decode a.2) := Dict.mem_of_get? hg
    obtain ⟨a, ha, e⟩ := List.mem_map.1 hm
    simp only [Prod.mk.injEq] at e
    obtain ⟨r, hr, e2⟩ := List.mem_map.1 h
    have := List.all_eq_true.1 (List.all_eq_true.1 alias_not_to_attr a ha) r hr
    have e3 : r.key = a.2 := decode_inj (e2.trans e.2.symm)
    rw [e3] at this
    simp at this

def notEinops (r : Raw) : Bool := !isC py"EinopsTorchMatcher" r
theorem notEinops_api : apiTable.all notEinops = true := by decide +kernel
theorem notEinops_attr : attrTable.all notEinops = true := by decide +kernel

theorem einops_none : ∀ r ∈ entries, r.class ≠ py"EinopsTorchMatcher" := by
  intro r hr e
  have h := all_entries notEinops_api notEinops_attr r hr
  unfold notEinops at h
  rw [show isC py"EinopsTorchMatcher" r = true from (class_iff _ (by decide) r).1 e] at h
  simp at h

theorem assertive_codes : ∀ s ∈ assertive, decode (encode s) = s := by decide +kernel

theorem entry_paddle {r : Raw} (hr : r ∈ entries) (h0 : r.matcher ≠ 0) (hb : r.name ≠ backward) :
    ∃ p, paddleApi r.class r.name r.cfg = .ok p ∧
      (p = none → r.class ≠ py"ChangePrefixMatcher" ∧ r.class ≠ py"FAApplyRotaryEmbFuncMatcher" ∧ r.cfg.paddleApi = none) ∧
      ∀ s, p = some s → s ∉ [[], py"delete", py"misidentify", py"unchange"] ∧
        (Assignable s ∨ r.name = pattern ∨ ∃ t, r.cfg.paddleApi = some ('\'' :: t)) := by
  have h := rows_ok r hr
  unfold rowOk at h
  have hk : ∀ k, decode (encode k) = k → (r.key.beq (encode k) = true ↔ r.name = k) := fun k hk => (name_iff k hk r).symm
  have hc : ∀ k, decode (encode k) = k → (isC k r = true ↔ r.class = k) := fun k hk => (class_iff k hk r).symm
  rw [Bool.or_eq_true, Bool.or_eq_true, Nat.beq_eq, hk _ (by decide)] at h
  have h := h.resolve_left (by rintro (h | h); exacts [h0 h, hb h])
  have hA : (assertive.any fun s => isC s r) = true ↔ r.class ∈ assertive := by
    rw [List.any_eq_true]
    exact ⟨fun ⟨s, hs, h⟩ => by rw [(hc s (assertive_codes s hs)).1 h]; exact hs, fun h => ⟨_, h, (hc _ (assertive_codes _ h)).2 rfl⟩⟩
  have hP := hc py"ChangePrefixMatcher" (by decide)
  have some_case : ∀ s, textOf r = some s → s ∉ [[], py"delete", py"misidentify", py"unchange"] ∧
      (Assignable s ∨ r.name = pattern ∨ r.class ≠ py"ChangePrefixMatcher" ∧ s.head? = some '\'') := by
    intro s hs
    rw [hs] at h
    dsimp only at h
    rw [Bool.and_eq_true, decide_eq_true_iff, Bool.or_eq_true, Bool.or_eq_true, hk _ (by decide), Bool.and_eq_true, beq_iff_eq, Bool.not_eq_true', ← Bool.not_eq_true, hP] at h
    refine ⟨h.1, ?_⟩
    rcases h.2 with (h | h) | h
    · exact Or.inr (Or.inr h)
    · exact Or.inl (assignable_iff h)
    · exact Or.inr (Or.inl h)
  have some_case' : r.class ≠ py"ChangePrefixMatcher" → ∀ s, r.cfg.paddleApi = some s → s ∉ [[], py"delete", py"misidentify", py"unchange"] ∧
      (Assignable s ∨ r.name = pattern ∨ ∃ t, r.cfg.paddleApi = some ('\'' :: t)) := by
    intro hne s hs
    have ht : textOf r = some s := by unfold textOf; rw [if_neg (fun h => hne (hP.1 h)), hs]
    obtain ⟨h1, h2⟩ := some_case s ht
    refine ⟨h1, h2.imp_right (Or.imp_right fun h => ?_)⟩
    cases s with
    | nil => simp at h
    | cons x t => simp only [List.head?_cons, Option.some.injEq] at h; rw [h.2] at hs; exact ⟨t, hs⟩
  have none_case : textOf r = none → r.class ≠ py"ChangePrefixMatcher" ∧ r.class ∉ assertive := by
    intro hs
    rw [hs] at h
    dsimp only at h
    rw [Bool.and_eq_true, Bool.not_eq_true', Bool.not_eq_true', ← Bool.not_eq_true, ← Bool.not_eq_true, hP, hA] at h
    exact h
  unfold paddleApi
  split
  · next ha =>
    have hne : r.class ≠ py"ChangePrefixMatcher" := fun e => absurd (e ▸ ha) (by decide)
    cases hp : r.cfg.paddleApi with
    | none =>
      exact absurd ha (none_case (by unfold textOf; rw [if_neg (fun h => hne (hP.1 h)), hp])).2
    | some p =>
      refine ⟨some p, rfl, by simp, ?_⟩
      intro s e
      rw [← hp]
      exact some_case' hne s (by rw [hp, e])
  · split
    · next _ hcp =>
      cases hp : prefixApi torchPackages r.name with
      | none => exact absurd hcp (none_case (by unfold textOf; rw [if_pos (hP.2 hcp), hp])).1
      | some p =>
        refine ⟨some p, rfl, by simp, ?_⟩
        intro s e
        obtain ⟨h1, h2⟩ := some_case s (by unfold textOf; rw [if_pos (hP.2 hcp), hp, e])
        exact ⟨h1, h2.imp_right (Or.imp_right fun h => absurd hcp h.1)⟩
    · next _ hne =>
      split
      · next he =>
        exact absurd he (einops_none r hr)
      · split
        · next hf =>
          refine ⟨_, rfl, by simp, ?_⟩
          intro s e
          obtain rfl := Option.some.inj e
          exact ⟨by decide, Or.inl (assignable_iff (by decide))⟩
        · next hf =>
          refine ⟨r.cfg.paddleApi, rfl, fun h => ⟨hne, hf, h⟩, ?_⟩
          intro s e
          exact some_case' hne s e

end Verif.Value

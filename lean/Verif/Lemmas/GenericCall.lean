import Mathlib.Data.List.Nodup
import Verif.Spec.Whole
import Verif.Props.Tables

/-!
# Calls that fit the parameters of an entry
-/

namespace Verif.Whole
open Verif Verif.Data
open Verif.Matcher
open Verif.Basic (Texts)
open Verif.Uses (E Es chain)

/-! ## Parsing -/

theorem splitStar_none {l : List Str} (h : py"*" ∉ l) : splitStar l = [l] := by
  induction l with
  | nil => rfl
  | cons x l ih =>
    simp only [List.mem_cons, not_or] at h
    unfold splitStar
    rw [if_neg (Ne.symm h.1), ih h.2]

theorem splitStar_one (l : List Str) (h : py"*" ∉ keywordOnly l) :
    splitStar l = Spec.positional l :: (if py"*" ∈ l then [keywordOnly l] else []) := by
  induction l with
  | nil => rfl
  | cons x l ih =>
    by_cases hx : x = py"*"
    · subst hx
      have e1 : Spec.positional (py"*" :: l) = [] := by simp [Spec.positional]
      have e2 : keywordOnly (py"*" :: l) = l := by simp [keywordOnly]
      rw [e2] at h
      rw [e1, e2, if_pos (by simp)]
      unfold splitStar
      rw [if_pos rfl, splitStar_none h]
    · have e1 : Spec.positional (x :: l) = x :: Spec.positional l := by
        unfold Spec.positional; rw [List.takeWhile_cons_of_pos (by simpa using hx)]
      have e2 : keywordOnly (x :: l) = keywordOnly l := by
        unfold keywordOnly; rw [List.dropWhile_cons_of_pos (by simpa using hx)]
      rw [e2] at h
      rw [e1, e2]
      unfold splitStar
      rw [if_neg hx, ih h]
      simp [Ne.symm hx]

theorem forceArgs_eq {cfg : Cfg} (h1 : cfg.argsList.head? ≠ some py"*") (h2 : py"*" ∉ keywordOnly cfg.argsList) :
    forceArgs cfg = keywordOnly cfg.argsList := by
  unfold forceArgs groups
  rw [splitStar_one _ h2]
  cases h : cfg.argsList with
  | nil => rfl
  | cons x l =>
    have hx : x ≠ py"*" := by rw [h] at h1; simpa using h1
    have e1 : Spec.positional (x :: l) = x :: Spec.positional l := by
      unfold Spec.positional; rw [List.takeWhile_cons_of_pos (by simpa using hx)]
    rw [e1]
    split
    · cases hk : keywordOnly (x :: l) with
      | nil => simp
      | cons a b => simp
    · next hm =>
      have : keywordOnly (x :: l) = [] := by
        unfold keywordOnly
        have : ∀ l : List Str, py"*" ∉ l → l.dropWhile (· ≠ py"*") = [] := by
          intro l
          induction l with
          | nil => intro _; rfl
          | cons a l ih =>
            intro hl
            simp only [List.mem_cons, not_or] at hl
            rw [List.dropWhile_cons_of_pos (by simpa using Ne.symm hl.1), ih hl.2]
        rw [this _ hm]; rfl
      rw [this]; simp

theorem scanKw_fits {cfg : Cfg} (kws : List Kw) : ∀ ks : List Str, kws.map (·.arg) = ks.map some →
    (∀ k ∈ ks, k ∈ cfg.argsList ++ cfg.overload) → (∀ k ∈ ks, k ∉ cfg.unsupport) →
    scanKw cfg false kws = .ok kws (ks.length - (ks.filter fun k => k ∉ forceArgs cfg).length) := by
  induction kws with
  | nil =>
    intro ks h _ _
    cases ks with
    | nil => rfl
    | cons _ _ => simp at h
  | cons n kws ih =>
    intro ks h h1 h2
    cases ks with
    | nil => simp at h
    | cons k ks =>
      simp only [List.map_cons, List.cons.injEq] at h
      have hle : (ks.filter fun k => k ∉ forceArgs cfg).length ≤ ks.length := List.length_filter_le _ _
      unfold scanKw
      rw [h.1]
      dsimp only
      rw [if_neg (h2 k (by simp)), if_neg (not_not_intro (h1 k (by simp))), ih ks h.2 (fun k hk => h1 k (by simp [hk])) (fun k hk => h2 k (by simp [hk]))]
      unfold Scan.cons
      dsimp only
      congr 1
      by_cases hk : k ∈ forceArgs cfg
      · rw [if_pos hk, List.filter_cons_of_neg (by simpa using hk), List.length_cons]; omega
      · rw [if_neg hk, List.filter_cons_of_pos (by simpa using hk), List.length_cons, List.length_cons]; omega

theorem bindPos_fits {cfg : Cfg} (args : List Arg) : ∀ (ps : List Str) (d : Kwargs), args.length ≤ ps.length →
    (∀ k ∈ ps.take args.length, k ∉ cfg.unsupport) → bindPos cfg ps args d = .ok (d.update (posBindings ps args)) := by
  induction args with
  | nil => intro ps d _ _; cases ps <;> simp [bindPos, posBindings, Dict.update]
  | cons a args ih =>
    intro ps d hl hs
    cases ps with
    | nil => simp at hl
    | cons p ps =>
      unfold bindPos
      rw [if_neg (hs p (by simp)), ih ps _ (by simpa using hl) (fun k hk => hs k (by simp [hk]))]
      simp [posBindings, Dict.update]

/-- A call that fits is parsed into its arguments. -/
theorem parse_fits {cfg : Cfg} {ks : List Str} (args : List Arg) (kws : List Kw) (h : Fits cfg args.length ks)
    (hstar : ∀ a ∈ args, a.starred = false) (hk : kws.map (·.arg) = ks.map some) :
    parseArgs cfg args kws = .ok (posBindings (Spec.positional cfg.argsList) args ++ kwBindings kws) := by
  have hpos := posArgs_eq h.first
  have hforce := forceArgs_eq h.first h.one
  have hlen : kws.length = ks.length := by simpa using congrArg List.length hk
  have hle : (ks.filter fun k => k ∉ keywordOnly cfg.argsList).length ≤ ks.length := List.length_filter_le _ _
  have h1 := h.enough
  have h2 := h.room
  unfold parseArgs
  rw [if_neg]
  · rw [scanKw_fits kws ks hk h.known (fun k hk => h.supported k (by simp [hk])), hforce]
    dsimp only
    rw [if_neg (by omega), if_neg (by rw [hpos]; omega), hpos,
      bindPos_fits args _ _ h.count (fun k hk => h.supported k (by simp [hk]))]
    dsimp only
    rw [bindKw_eq, ← Dict.update_append, Dict.update_fresh]
    · simp
    · have e1 : (posBindings (Spec.positional cfg.argsList) args).map Prod.fst = ((Spec.positional cfg.argsList).take args.length).map some := by
        have hz : (Spec.positional cfg.argsList).zip args = ((Spec.positional cfg.argsList).take args.length).zip args := by
          rw [List.zip_eq_zip_take_min]
          conv => rhs; rw [List.zip_eq_zip_take_min]
          simp only [List.length_take, Nat.min_eq_right h.count, Nat.min_eq_left h.count, Nat.min_self, List.take_take]
        have := List.map_fst_zip (l₁ := (Spec.positional cfg.argsList).take args.length) (l₂ := args)
          (by rw [List.length_take]; exact Nat.min_le_left _ _)
        simp only [posBindings, List.map_map, Function.comp_def, hz]
        conv => rhs; rw [← this]
        simp
      have e2 : (kwBindings kws).map Prod.fst = ks.map some := by rw [← hk]; simp [kwBindings]
      rw [List.map_append, e1, e2, ← List.map_append]
      simp only [Dict.keys, List.map_nil, List.nil_append]
      exact List.Nodup.map (Option.some_injective _) h.nodup
  · intro hx
    rw [Bool.and_eq_true, List.any_eq_true] at hx
    obtain ⟨⟨a, ha, e⟩, -⟩ := hx
    rw [hstar a ha] at e
    simp at e

/-! ## The new arguments -/

theorem passed_map {β γ : Type} (cfg : Cfg) (f : β → γ) (l : List (Str × β)) :
    passed cfg (l.map fun kv => (kv.1, f kv.2)) = (passed cfg l).map fun kv => (kv.1, f kv.2) := by
  unfold passed
  rw [List.flatMap_map, List.map_flatMap]
  simp [Function.comp_def]

theorem passed_names {β : Type} (cfg : Cfg) (l : List (Str × β)) : (passed cfg l).map (·.1) = (l.map (·.1)).flatMap (newName cfg) := by
  unfold passed
  rw [List.map_flatMap, List.flatMap_map]
  simp [Function.comp_def]

theorem newNames_eq (cfg : Cfg) (k : Str) : newNames cfg genericUnuse (some k) = (newName cfg k).map some := by
  unfold newNames newName
  dsimp only
  cases cfg.change.get? k with
  | some c => rfl
  | none =>
    dsimp only
    by_cases h : k ∈ unused
    · rw [if_pos h, if_pos (show k ∈ genericUnuse from h)]; rfl
    · rw [if_neg h, if_neg (show k ∉ genericUnuse from h)]; rfl

theorem defaults_check : (apiTable.all fun r => decide (r.defaults.map (·.1)).Nodup) = true := by decide +kernel

theorem defaults_wf {r : Raw} (hr : r ∈ apiTable) : r.cfg.defaults.WF := by
  have h := of_decide_eq_true (List.all_eq_true.1 defaults_check r hr)
  show ((r.defaults.map fun c => (decode c.1, decode c.2)).map Prod.fst).Nodup
  rw [List.map_map]
  have : (Prod.fst ∘ fun c : Nat × Nat => (decode c.1, decode c.2)) = decode ∘ Prod.fst := rfl
  rw [this, ← List.map_map]
  exact List.Nodup.map (fun _ _ e => decode_inj e) h

/-- The dictionary, as it is after the renaming and the defaults. -/
theorem filled_eq {r : Raw} (hr : r ∈ apiTable) {n : Nat} {ks : List Str} (h : Fits r.cfg n ks) (bound : List (Str × Str))
    (hb : bound.map (·.1) = (Spec.positional r.cfg.argsList).take n ++ ks) :
    setDefaults r.cfg (changeKwargs r.cfg genericUnuse (bound.map fun kv => (some kv.1, kv.2))) =
      (filled r.cfg id (passed r.cfg bound)).map fun kv => (some kv.1, kv.2) := by
  have hkeys : Dict.keys (bound.map fun kv => ((some kv.1 : Option Str), kv.2)) = ((Spec.positional r.cfg.argsList).take n ++ ks).map some := by
    rw [← hb]; simp [Dict.keys, Function.comp_def]
  rw [C43_shipped r (List.mem_append_left _ hr)]
  · have e : ((bound.map fun kv => ((some kv.1 : Option Str), kv.2)).flatMap fun kv => (newNames r.cfg genericUnuse kv.1).map (·, kv.2)) =
        (passed r.cfg bound).map fun kv => (some kv.1, kv.2) := by
      unfold passed
      rw [List.flatMap_map, List.map_flatMap]
      congr 1
      funext kv
      rw [newNames_eq]
      simp [Function.comp_def]
    rw [e, C44_defaults_never_override _ (defaults_wf hr)]
    unfold filled missing
    rw [List.map_append, List.map_map]
    congr 1
    have : ∀ k : Str, (some k ∉ Dict.keys ((passed r.cfg bound).map fun kv => ((some kv.1 : Option Str), kv.2))) ↔ k ∉ (passed r.cfg bound).map (·.1) := by
      intro k
      simp [Dict.keys]
    simp only [this]
    rfl
  · rw [Dict.WF, hkeys]
    exact List.Nodup.map (Option.some_injective _) h.nodup
  · intro k hk
    rw [hkeys] at hk
    obtain ⟨a, ha, rfl⟩ := List.mem_map.1 hk
    refine ⟨a, ?_, rfl⟩
    rcases List.mem_append.1 ha with ha | ha
    · refine List.mem_append_left _ ?_
      have := List.mem_of_mem_take ha
      exact (List.takeWhile_sublist _).subset this
    · exact h.known a ha
  · rw [hkeys]
    simp only [List.mem_map, Option.some.injEq, exists_eq_right]
    exact h.split

theorem get?_map_some {β : Type} (l : List (Str × β)) (k : Str) :
    Dict.get? (l.map fun kv => ((some kv.1 : Option Str), kv.2)) (some k) = Dict.get? l k := by
  induction l with
  | nil => rfl
  | cons a l ih => simp only [List.map_cons, Dict.get?, Option.some.injEq, ih]

/-- None of three keywords is passed on. -/
theorem not_filled {cfg : Cfg} {n : Nat} {ks : List Str} (h : Fits cfg n ks) {β : Type} {val : Str → β} (bound : List (Str × β))
    (hb : bound.map (·.1) = (Spec.positional cfg.argsList).take n ++ ks) {k : Str} (hk : k ∈ [py"pin_memory", py"requires_grad", py"out"])
    (hkept : Kept cfg k) : k ∉ (filled cfg val (passed cfg bound)).map (·.1) := by
  obtain ⟨h1, h2⟩ := h.simple k hk hkept
  unfold filled
  rw [List.map_append, passed_names, hb, List.mem_append, not_or]
  constructor
  · rw [List.mem_flatMap]
    rintro ⟨a, ha, hm⟩
    exact h1 a ha hm
  · intro hm
    rw [List.map_map] at hm
    obtain ⟨kv, hkv, rfl⟩ := List.mem_map.1 hm
    exact h2 (List.mem_map.2 ⟨kv, (List.mem_filter.1 hkv).1, rfl⟩)

/-- The pieces of the code for a call that fits. -/
theorem pieces_fits {r : Raw} (hr : r ∈ apiTable) {n : Nat} {ks : List Str} (h : Fits r.cfg n ks) (bound : List (Str × Str))
    (hb : bound.map (·.1) = (Spec.positional r.cfg.argsList).take n ++ ks) :
    genericPieces r.cfg (bound.map fun kv => (some kv.1, kv.2)) =
      { call := ((filled r.cfg id (passed r.cfg bound)).filter fun kv => ¬ (kv.1 = py"dtype" ∧ Kept r.cfg py"dtype")).map fun kv => (some kv.1, kv.2)
        dtype := (if Kept r.cfg py"dtype" then Dict.get? (filled r.cfg id (passed r.cfg bound)) py"dtype" else none).getD py"None"
        pin := py"(False)", stopGradient := py"None", out := py"None" } := by
  have hf := filled_eq hr h bound hb
  have hnone : ∀ k ∈ [py"pin_memory", py"requires_grad", py"out"], given r.cfg (bound.map fun kv => (some kv.1, kv.2)) k = none := by
    intro k hk
    unfold given
    rw [hf, get?_map_some]
    by_cases hkept : Kept r.cfg k
    · rw [if_neg hkept, Dict.get?_eq_none_iff]
      exact not_filled h bound hb hk hkept
    · rw [if_pos (Decidable.not_not.1 hkept)]
  have hc := C48_call_keywords r.cfg (bound.map fun kv => (some kv.1, kv.2))
  have hs := stopGradient_eq r.cfg (bound.map fun kv => (some kv.1, kv.2))
  have ho := out_eq r.cfg (bound.map fun kv => (some kv.1, kv.2))
  have hp : (genericPieces r.cfg (bound.map fun kv => (some kv.1, kv.2))).pin =
      (given r.cfg (bound.map fun kv => (some kv.1, kv.2)) py"pin_memory").getD py"(False)" := by
    have e1 : special r.cfg (popSpecial r.cfg (setDefaults r.cfg (changeKwargs r.cfg genericUnuse (bound.map fun kv => (some kv.1, kv.2)))) py"dtype")
        py"pin_memory" = given r.cfg (bound.map fun kv => (some kv.1, kv.2)) py"pin_memory" := special_pop (by decide)
    rw [← e1]; rfl
  have hd : (genericPieces r.cfg (bound.map fun kv => (some kv.1, kv.2))).dtype =
      (given r.cfg (bound.map fun kv => (some kv.1, kv.2)) py"dtype").getD py"None" := rfl
  rw [hnone _ (by simp)] at hs ho hp
  generalize genericPieces r.cfg (bound.map fun kv => (some kv.1, kv.2)) = p at hc hs ho hp hd
  obtain ⟨call, dtype, pin, sg, out⟩ := p
  dsimp only at hc hs ho hp hd
  rw [hc, hs, ho, hp, hd]
  unfold given
  rw [hf, get?_map_some]
  congr 1
  · rw [List.filter_map]
    congr 1
    apply List.filter_congr
    intro kv hkv
    simp only [Function.comp_def]
    rw [decide_eq_decide]
    unfold TakenOut reserved
    constructor
    · intro hx hy
      exact hx ⟨_, by simp, by rw [hy.1], hy.2⟩
    · rintro hx ⟨k, hk, e, hkept⟩
      have e := Option.some.inj e
      rcases List.mem_cons.1 hk with hk | hk
      · exact hx ⟨e.trans hk, hk ▸ hkept⟩
      · exact not_filled (val := id) h bound hb hk hkept (List.mem_map.2 ⟨kv, hkv, e⟩)
  · by_cases hx : Change.one py"dtype" ∈ r.cfg.change.values
    · rw [if_pos hx, if_neg (show ¬ Kept r.cfg py"dtype" from not_not_intro hx)]
    · rw [if_neg hx, if_pos (show Kept r.cfg py"dtype" from hx)]

/-! ## Nodes -/

/-- What the passes make of an argument. -/
structure Like {M : Type} (D : Sem M) (imp imp' : Str → Option Str) (t e : E) : Prop where
  same : meaning D imp' t = meaning D imp e
  other : ∀ n ks, e = .other n ks → ∃ ks', t = .other n ks' ∧ meanings D imp' ks' = meanings D imp ks
  plain : (∀ n ks, e ≠ .other n ks) → ∀ n ks, t ≠ .other n ks
  self : t = .name py"self" → e = .name py"self"

section
variable {M : Type} {D : Sem M} {imp imp' : Str → Option Str}

theorem meanings_eq (D : Sem M) (imp : Str → Option Str) : (ks : Es) → meanings D imp ks = (Basic.Es.toList ks).map fun a => meaning D imp a.2
  | .nil => rfl
  | .cons p e rest => by rw [meanings, Basic.Es.toList, List.map_cons, meanings_eq D imp rest]

theorem chain_nameless : (e : E) → Nameless e → chain e = none
  | .name _, h => h.elim
  | .attr w _, h => by rw [chain, chain_nameless w h]; rfl
  | .op _ _, _ => rfl
  | .other _ _, _ => rfl

mutual
theorem meaning_nameless (D : Sem M) (imp imp' : Str → Option Str) : (e : E) → Nameless e → meaning D imp e = meaning D imp' e
  | .name _, h => h.elim
  | .attr w a, h => by
    have hc := chain_nameless (.attr w a) h
    have h1 : ∀ i, fullName i (.attr w a) = none := fun i => by unfold fullName; rw [hc]
    rw [meaning, meaning, h1, h1, meaning_nameless D imp imp' w h]
  | .op t ks, h => by rw [meaning, meaning, meanings_nameless D imp imp' ks h]
  | .other t ks, h => by rw [meaning, meaning, meanings_nameless D imp imp' ks h]
theorem meanings_nameless (D : Sem M) (imp imp' : Str → Option Str) : (ks : Es) → NamelessAll ks → meanings D imp ks = meanings D imp' ks
  | .nil, _ => rfl
  | .cons p e rest, h => by rw [meanings, meanings, meaning_nameless D imp imp' e h.1, meanings_nameless D imp imp' rest h.2]
end

/-- The arguments after the passes are written in the same way. -/
theorem written_like {key : Nat → Option (Option Str)} {T : Texts} {args args' : Es} {pos : List E} {kws : List (Str × E)} (h : Written key T args pos kws)
    (hl : List.Forall₂ (Like D imp imp') ((Basic.Es.toList args').map (·.2)) ((Basic.Es.toList args).map (·.2))) :
    ∃ pos' kws', Written key T args' pos' kws' ∧ pos'.map (meaning D imp') = pos.map (meaning D imp) ∧
      kws'.map (fun kv => (kv.1, meaning D imp' kv.2)) = kws.map fun kv => (kv.1, meaning D imp kv.2) := by
  obtain ⟨kwn, h1, h2, h3⟩ := h
  rw [h1] at hl
  obtain ⟨pos', kwn', hp, hk, e⟩ : ∃ pos' kwn', List.Forall₂ (Like D imp imp') pos' pos ∧ List.Forall₂ (Like D imp imp') kwn' kwn ∧
      (Basic.Es.toList args').map (·.2) = pos' ++ kwn' := by
    refine ⟨_, _, List.forall₂_take_append _ _ _ hl, List.forall₂_drop_append _ _ _ hl, (List.take_append_drop _ _).symm⟩
  have hkw : ∃ kws', List.Forall₂ (fun n (kv : Str × E) => ∃ b, n = .other (T.kw kv.1) (.cons b kv.2 .nil)) kwn' kws' ∧
      kws'.map (fun kv => (kv.1, meaning D imp' kv.2)) = kws.map fun kv => (kv.1, meaning D imp kv.2) := by
    clear h1 hl e h2
    induction h3 generalizing kwn' with
    | nil => cases hk; exact ⟨[], .nil, rfl⟩
    | @cons n kv kwn kws hn _ ih =>
      cases hk with
      | @cons n' _ kwn' _ hn' hrest =>
        obtain ⟨kws', i1, i2⟩ := ih _ hrest
        obtain ⟨b, rfl⟩ := hn
        obtain ⟨ks', rfl, hm⟩ := hn'.other _ _ rfl
        cases ks' with
        | nil => simp [meanings] at hm
        | cons b' v' rest =>
          cases rest with
          | cons _ _ _ => simp [meanings] at hm
          | nil =>
            simp only [meanings, List.cons.injEq, and_true] at hm
            exact ⟨(kv.1, v') :: kws', .cons ⟨b', rfl⟩ i1, by simp only [List.map_cons, i2, hm]⟩
  obtain ⟨kws', g1, g2⟩ := hkw
  refine ⟨pos', kws', ⟨kwn', e, ?_, g1⟩, ?_, g2⟩
  · clear h1 hl e
    induction hp with
    | nil => simp
    | @cons a' a l' l ha _ ih =>
      intro x hx t ks hxe
      rcases List.mem_cons.1 hx with rfl | hx
      · cases a with
        | other n k =>
          obtain ⟨ks', e1, -⟩ := ha.other _ _ rfl
          rw [hxe] at e1
          rw [(E.other.inj e1).1]
          exact h2 _ List.mem_cons_self _ _ rfl
        | _ => exact absurd hxe (ha.plain (by simp) _ _)
      · exact ih (fun a ha => h2 a (by simp [ha])) x hx t ks hxe
  · clear h1 hl e h2
    induction hp with
    | nil => rfl
    | cons ha _ ih => rw [List.map_cons, List.map_cons, ha.same, ih]

/-- What `parse_args_and_kwargs` sees. -/
theorem written_read (B : Basic.Env) (hF : Faithful B.key B.io) {args : Es} {pos : List E} {kws : List (Str × E)} (h : Written B.key B.io args pos kws) :
    ((Basic.Es.toList args).map (·.2)).filterMap B.posOf = pos.map (fun e => ⟨B.io.text e, false⟩) ∧
    ((Basic.Es.toList args).map (·.2)).filterMap B.kwOf =
      kws.map fun kv => ⟨some kv.1, B.io.text kv.2, decide (B.io.text kv.2 = py"(None)")⟩ := by
  obtain ⟨kwn, h1, h2, h3⟩ := h
  rw [h1, List.filterMap_append, List.filterMap_append]
  have p1 : pos.filterMap B.posOf = pos.map (fun e => ⟨B.io.text e, false⟩) := by
    rw [← List.filterMap_eq_map]
    refine List.filterMap_congr ?_
    intro a ha
    unfold Basic.Env.posOf
    cases a with
    | other t ks =>
      obtain ⟨k1, k2⟩ := h2 _ ha t ks rfl
      simp [Basic.Env.keyOf, Basic.Env.starred, k1, k2]
    | _ => rfl
  have p2 : pos.filterMap B.kwOf = [] := by
    rw [List.filterMap_eq_nil_iff]
    intro a ha
    cases a with
    | other t ks =>
      obtain ⟨k1, -⟩ := h2 _ ha t ks rfl
      cases ks with
      | nil => rfl
      | cons b v rest => cases rest <;> simp [Basic.Env.kwOf, k1]
    | _ => rfl
  have p3 : kwn.filterMap B.posOf = [] ∧ kwn.filterMap B.kwOf =
      kws.map fun kv => ⟨some kv.1, B.io.text kv.2, decide (B.io.text kv.2 = py"(None)")⟩ := by
    clear h1
    induction h3 with
    | nil => exact ⟨rfl, rfl⟩
    | @cons n kv kwn kws hn _ ih =>
      obtain ⟨b, rfl⟩ := hn
      constructor
      · rw [List.filterMap_cons, ih.1]
        simp [Basic.Env.posOf, Basic.Env.keyOf, hF.key]
      · rw [List.filterMap_cons, ih.2]
        simp [Basic.Env.kwOf, hF.key]
  rw [p1, p2, p3.1, p3.2]
  simp

theorem zip_map_snd {α β γ : Type} (l : List α) (m : List β) (f : β → γ) : l.zip (m.map f) = (l.zip m).map fun kv => (kv.1, f kv.2) := by
  rw [List.zip_map_right]; rfl

theorem zip_fst {α β : Type} : (l : List α) → (m : List β) → (l.zip m).map (·.1) = l.take m.length
  | [], m => by simp
  | a :: l, [] => rfl
  | a :: l, b :: m => by simp [zip_fst l m]

theorem toList_ofList (l : List (Bool × E)) : Basic.Es.toList (Basic.Es.ofList l) = l := by
  induction l with
  | nil => rfl
  | cons a l ih => rw [Basic.Es.ofList, Basic.Es.toList, ih]

/-- The call of the Paddle function means what the tables say. -/
theorem generic_call (B : Basic.Env) (hF : Faithful B.key B.io) {r : Raw} (hr : r ∈ apiTable) {args args' : Es} (fn : E)
    (hw : FittingArgs imp B.key B.io r.cfg args)
    (hl : List.Forall₂ (Like D imp imp') ((Basic.Es.toList args').map (·.2)) ((Basic.Es.toList args).map (·.2))) :
    ∃ ks, B.genericCall r.cfg fn args' = some (.op 0 ks) ∧
      ∀ f, AgreeCall D B.io r.cfg f (meaning D imp' fn) → meaning D imp' (.op 0 ks) = D.op 0 (f :: meanings D imp args) := by
  obtain ⟨pos, kws, hW, hfit, hdt, hnl⟩ := hw
  obtain ⟨pos', kws', hW', hpos, hkws⟩ := written_like hW hl
  obtain ⟨hr1, hr2⟩ := written_read B hF hW'
  have hlen : pos'.length = pos.length := by simpa using congrArg List.length hpos
  have hnames : kws'.map (·.1) = kws.map (·.1) := by
    have := congrArg (List.map Prod.fst) hkws
    simpa [Function.comp_def] using this
  -- the meanings of the arguments
  have hargs : meanings D imp args = pos.map (meaning D imp) ++ kws.map fun kv => D.other (B.io.kw kv.1) [meaning D imp kv.2] := by
    obtain ⟨kwn, h1, -, h3⟩ := hW
    rw [meanings_eq]
    have : (Basic.Es.toList args).map (fun a => meaning D imp a.2) = ((Basic.Es.toList args).map (·.2)).map (meaning D imp) := by simp [Function.comp_def]
    rw [this, h1, List.map_append]
    congr 1
    clear h1 hfit hdt hnl hr1 hr2 hW' hkws hpos hlen hnames
    induction h3 with
    | nil => rfl
    | cons hn _ ih =>
      obtain ⟨b, rfl⟩ := hn
      rw [List.map_cons, List.map_cons, ih]
      simp [meaning, meanings]
  -- parsing
  let bound' := (Spec.positional r.cfg.argsList).zip pos' ++ kws'
  have hfit' : Fits r.cfg (pos'.map (fun e => (⟨B.io.text e, false⟩ : Arg))).length (kws.map (·.1)) := by rw [List.length_map, hlen]; exact hfit
  have hparse := parse_fits (pos'.map (fun e => (⟨B.io.text e, false⟩ : Arg)))
    (kws'.map fun kv => (⟨some kv.1, B.io.text kv.2, decide (B.io.text kv.2 = py"(None)")⟩ : Kw)) hfit'
    (by intro a ha; obtain ⟨_, -, rfl⟩ := List.mem_map.1 ha; rfl)
    (by rw [← hnames]; simp [Function.comp_def])
  have hbound : posBindings (Spec.positional r.cfg.argsList) (pos'.map (fun e => (⟨B.io.text e, false⟩ : Arg))) ++
      kwBindings (kws'.map fun kv => (⟨some kv.1, B.io.text kv.2, decide (B.io.text kv.2 = py"(None)")⟩ : Kw)) =
      (bound'.map fun kv => (kv.1, B.io.text kv.2)).map fun kv => (some kv.1, kv.2) := by
    unfold posBindings kwBindings
    rw [zip_map_snd]
    simp [bound', Function.comp_def]
  have hbn : (bound'.map fun kv => (kv.1, B.io.text kv.2)).map (·.1) = (Spec.positional r.cfg.argsList).take pos.length ++ kws.map (·.1) := by
    have e1 : ((Spec.positional r.cfg.argsList).zip pos').map Prod.fst = (Spec.positional r.cfg.argsList).take pos.length := by
      rw [← hlen, zip_fst]
    rw [List.map_map]
    show (bound'.map fun kv => kv.1) = _
    show ((Spec.positional r.cfg.argsList).zip pos' ++ kws').map (fun kv => kv.1) = _
    rw [List.map_append, ← hnames]
    congr 1
  have hpieces := pieces_fits hr hfit _ hbn
  -- the values
  let φ : Str → M := fun s => meaning D imp' (B.io.back s)
  have hφ : ∀ e, φ (B.io.text e) = meaning D imp' e := fun e => by show meaning D imp' (B.io.back (B.io.text e)) = _; rw [hF.back]
  let boundM := (Spec.positional r.cfg.argsList).zip (pos.map (meaning D imp)) ++ kws.map fun kv => (kv.1, meaning D imp kv.2)
  have hbM : (bound'.map fun kv => (kv.1, B.io.text kv.2)).map (fun kv => (kv.1, φ kv.2)) = boundM := by
    rw [List.map_map]
    show bound'.map (fun kv => (kv.1, φ (B.io.text kv.2))) = _
    simp only [hφ]
    show ((Spec.positional r.cfg.argsList).zip pos' ++ kws').map (fun kv => (kv.1, meaning D imp' kv.2)) = _
    rw [List.map_append, hkws, ← zip_map_snd, hpos]
  let allS := filled r.cfg id (passed r.cfg (bound'.map fun kv => (kv.1, B.io.text kv.2)))
  have hall : filled r.cfg (fun s => meaning D (fun _ => none) (B.io.back s)) (passed r.cfg boundM) = allS.map fun kv => (kv.1, φ kv.2) := by
    show filled _ _ _ = (filled _ _ _).map _
    unfold filled
    rw [List.map_append, ← passed_map, hbM]
    congr 1
    rw [List.map_map]
    have e : (passed r.cfg boundM).map (·.1) = (passed r.cfg (bound'.map fun kv => (kv.1, B.io.text kv.2))).map (·.1) := by
      rw [← hbM, passed_map]; simp [Function.comp_def]
    rw [e]
    refine List.map_congr_left ?_
    intro kv hkv
    have hN : Nameless (B.io.back kv.2) := by
      refine hnl kv ?_
      have e2 : (passed r.cfg ((Spec.positional r.cfg.argsList).zip pos ++ kws)).map (·.1) =
          (passed r.cfg (bound'.map fun kv => (kv.1, B.io.text kv.2))).map (·.1) := by
        rw [passed_names, passed_names, hbn, List.map_append, zip_fst]
      rw [e2]; exact hkv
    show (kv.1, meaning D (fun _ => none) (B.io.back kv.2)) = (kv.1, φ kv.2)
    rw [meaning_nameless D _ imp' _ hN]
  have hget : ∀ k, Dict.get? (allS.map fun kv => (kv.1, φ kv.2)) k = (Dict.get? allS k).map φ := by
    intro k
    induction allS with
    | nil => rfl
    | cons a l ih =>
      simp only [List.map_cons, Dict.get?, ih]
      split <;> rfl
  have hnodes : ∀ l : List (Str × Str), meanings D imp' (B.kwNodes (l.map fun kv => (some kv.1, kv.2))) =
      (l.map fun kv => (kv.1, φ kv.2)).map fun kv => D.other (B.io.kw kv.1) [kv.2] := by
    intro l
    rw [meanings_eq]
    unfold Basic.Env.kwNodes
    rw [toList_ofList]
    simp [Function.comp_def, meaning, meanings, keyText, φ]
  -- the call
  have hcall : ∀ l : Es, meaning D imp' (.op 0 (.cons true fn l)) = D.op 0 (meaning D imp' fn :: meanings D imp' l) := fun l => by
    rw [meaning, meanings]
  have hend : ∃ ks, B.genericCall r.cfg fn args' = some (.op 0 ks) ∧ meaning D imp' (.op 0 ks) = paddleCall D B.io r.cfg (meaning D imp' fn) boundM := by
    unfold Basic.Env.genericCall
    dsimp only
    rw [hr1, hr2, hparse, hbound]
    dsimp only
    rw [hpieces]
    dsimp only
    rw [if_pos ⟨rfl, rfl⟩, if_neg (by simp : ¬ (py"(False)" ≠ py"(False)"))]
    unfold paddleCall
    dsimp only
    rw [hall, hget, List.filter_map]
    have hf : (allS.filter ((fun kv : Str × M => decide ¬ (kv.1 = py"dtype" ∧ Kept r.cfg py"dtype")) ∘ fun kv => (kv.1, φ kv.2))) =
        allS.filter fun kv => decide ¬ (kv.1 = py"dtype" ∧ Kept r.cfg py"dtype") := rfl
    rw [hf]
    by_cases hkept : Kept r.cfg py"dtype"
    · rw [if_pos hkept]
      cases hg : Dict.get? allS py"dtype" with
      | none =>
        rw [if_neg (by simp)]
        refine ⟨_, rfl, ?_⟩
        rw [hcall, hnodes]
        rfl
      | some v =>
        have hv : v ≠ py"None" := by
          have hm : (py"dtype", v) ∈ filled r.cfg id (passed r.cfg (bound'.map fun kv => (kv.1, B.io.text kv.2))) := Dict.mem_of_get? hg
          unfold filled at hm
          rcases List.mem_append.1 hm with hm | hm
          · unfold passed at hm
            obtain ⟨kv, hkv, hm⟩ := List.mem_flatMap.1 hm
            obtain ⟨e, -, rfl⟩ := List.mem_map.1 hkv
            obtain ⟨k, -, e2⟩ := List.mem_map.1 hm
            rw [← (Prod.mk.inj e2).2]
            exact hF.none _
          · obtain ⟨kv, hkv, e2⟩ := List.mem_map.1 hm
            exact absurd (List.mem_map.2 ⟨kv, (List.mem_filter.1 hkv).1, (Prod.mk.inj e2).1⟩) (hfit.dtype hkept)
        rw [Option.getD_some, if_pos hv]
        refine ⟨_, rfl, ?_⟩
        have e1 : ∀ x : Es, meaning D imp' (.attr (.op 0 x) py"astype") = D.attr (meaning D imp' (.op 0 x)) py"astype" := fun x => by
          conv_lhs => unfold meaning
          rfl
        rw [meaning, meanings, meanings, meanings, e1, hcall, hnodes]
        simp only [Option.map_some, if_pos hkept]
        rfl
    · rw [if_neg hkept]
      rw [Option.getD_none, if_neg (by simp)]
      refine ⟨_, rfl, ?_⟩
      rw [hcall, hnodes]
      cases Option.map φ (Dict.get? allS py"dtype") with
      | none => rfl
      | some v => dsimp only; rw [if_neg hkept]
  obtain ⟨ks, g1, g2⟩ := hend
  refine ⟨ks, g1, ?_⟩
  intro f hf
  rw [g2, hargs]
  have := hf (pos.map (meaning D imp)) (kws.map fun kv => (kv.1, meaning D imp kv.2)) (by simpa [Function.comp_def] using hfit) (by
    rw [zip_map_snd]
    intro kv hkv h1 h2
    rw [← List.map_append] at hkv
    obtain ⟨x, hx, rfl⟩ := List.mem_map.1 hkv
    obtain ⟨n, hn, e⟩ := hdt x hx h1 h2
    refine ⟨n, hn, ?_⟩
    show meaning D imp x.2 = _
    cases hx2 : x.2 with
    | name i => rw [hx2] at e; unfold meaning; rw [e]
    | attr w a => rw [hx2] at e; unfold meaning; rw [e]
    | op _ _ => rw [hx2] at e; simp [fullName, chain] at e
    | other _ _ => rw [hx2] at e; simp [fullName, chain] at e)
  rw [← this, List.map_map]
  rfl

end

end Verif.Whole

import Mathlib.Tactic.DeriveCountable
import Mathlib.Logic.Equiv.List
import Verif.Lemmas.BasicPass

/-!
# C85: a program means the same after the conversion
-/

namespace Verif.Whole
open Verif Verif.Data
open Verif.Dispatch
open Verif.Uses (E Es chain through Proper ProperAll visitE visitEs ofText descends)
open Verif.Basic (Place argPlace onReceiver)
open Verif.Matcher (prefixApi prefixDropped classPatterns matchDots)

/-! ## Dotted names -/

theorem chain_foldl_attr (rest : List Str) : ∀ (e : E) (l : List Str), chain e = some l → chain (rest.foldl E.attr e) = some (l ++ rest) := by
  induction rest with
  | nil => intro e l h; simpa using h
  | cons a rest ih =>
    intro e l h
    rw [List.foldl_cons, ih (.attr e a) (l ++ [a]) (by rw [chain, h]; rfl)]
    simp

theorem chain_ofText (s : Str) : chain (ofText s) = some (Str.splitOn '.' s) := by
  unfold ofText
  cases h : Str.splitOn '.' s with
  | nil => exact absurd h (Str.splitOn_ne_nil _ _)
  | cons hd tl => exact chain_foldl_attr tl (.name hd) [hd] rfl

theorem proper_foldl (rest : List Str) : ∀ e : E, Proper e → (∀ b ∈ rest, '.' ∉ b) → Proper (rest.foldl E.attr e) := by
  induction rest with
  | nil => intro e h _; exact h
  | cons a rest ih => intro e h hr; exact ih _ ⟨h, hr a (by simp)⟩ (fun b hb => hr b (by simp [hb]))

theorem proper_ofText (s : Str) : Proper (ofText s) := by
  unfold ofText
  cases h : Str.splitOn '.' s with
  | nil => exact absurd h (Str.splitOn_ne_nil _ _)
  | cons hd tl =>
    have hm : ∀ b ∈ hd :: tl, '.' ∉ b := fun b hb => Str.not_mem_of_mem_splitOn (h ▸ hb)
    exact proper_foldl tl (.name hd) (hm hd (by simp)) (fun b hb => hm b (by simp [hb]))

theorem ofText_cases (s : Str) : (∃ w a, ofText s = .attr w a) ∨ (ofText s = .name s ∧ '.' ∉ s) := by
  have hc := chain_ofText s
  cases h : ofText s with
  | attr w a => exact Or.inl ⟨w, a, rfl⟩
  | name i =>
    rw [h] at hc
    simp only [chain, Option.some.injEq] at hc
    have := Str.join_splitOn '.' s
    rw [← hc] at this
    have e : i = s := by simpa [Str.join] using this
    subst e
    refine Or.inr ⟨rfl, ?_⟩
    have := proper_ofText i
    rw [h] at this
    exact this
  | op _ _ => rw [h] at hc; simp [chain] at hc
  | other _ _ => rw [h] at hc; simp [chain] at hc

theorem keyAt_ofText (key : Nat → Option (Option Str)) (s : Str) : keyAt key (ofText s) = none := by
  rcases ofText_cases s with ⟨w, a, h⟩ | ⟨h, -⟩ <;> rw [h] <;> rfl

theorem keyAt_chain (key : Nat → Option (Option Str)) {e : E} {l : List Str} (h : chain e = some l) : keyAt key e = none := by
  cases e with
  | other _ _ => simp [chain] at h
  | _ => rfl

theorem still_descends (data : E → Bool) {w : E} {a h : Str} {rest : List Str} (hc : chain (.attr w a) = some (h :: rest))
    (hdata : chain w = some [py"torch", py"utils", py"data"] → data w = false) (hs : Still (h :: rest)) : descends data w = false := by
  rcases hs with hs | ⟨more, e, hs⟩
  · exact Uses.not_descends data hc hs
  · rw [e] at hc
    simp only [chain, Option.map_eq_some_iff] at hc
    obtain ⟨l, h1, h2⟩ := hc
    rcases List.eq_nil_or_concat more with rfl | ⟨more', x, rfl⟩
    · have : l = [py"torch", py"utils"] := by
        have := congrArg List.dropLast h2
        simpa using this
      subst this
      cases w with
      | name i => rfl
      | attr w' b =>
        simp only [chain, Option.map_eq_some_iff] at h1
        obtain ⟨l', -, h4⟩ := h1
        have : b = py"utils" := by
          have := congrArg List.getLast? h4
          simpa using this
        subst this
        show (decide (py"utils" ∈ Uses.special) || (py"utils" == py"data" && data (.attr w' py"utils"))) = false
        have e1 : decide (py"utils" ∈ Uses.special) = false := by decide
        have e2 : (py"utils" == py"data") = false := by decide
        rw [e1, e2]; rfl
      | op _ _ => simp [chain] at h1
      | other _ _ => simp [chain] at h1
    · rw [List.concat_eq_append] at h2 hs
      obtain rfl : l = py"torch" :: py"utils" :: py"data" :: more' :=
        (List.append_inj' (show l ++ [a] = (py"torch" :: py"utils" :: py"data" :: more') ++ [x] from h2) rfl).1
      cases w with
      | name i => rfl
      | attr w' b =>
        rcases List.eq_nil_or_concat more' with rfl | ⟨more'', y, rfl⟩
        · have hd := hdata h1
          have : b = py"data" := by
            simp only [chain, Option.map_eq_some_iff] at h1
            obtain ⟨l', -, h4⟩ := h1
            have := congrArg List.getLast? h4
            simpa using this
          subst this
          show (decide (py"data" ∈ Uses.special) || (py"data" == py"data" && data (.attr w' py"data"))) = false
          rw [hd]
          decide
        · rw [List.concat_eq_append] at h1 hs
          have : b = y := by
            simp only [chain, Option.map_eq_some_iff] at h1
            obtain ⟨l', -, h4⟩ := h1
            have := (List.append_inj' (show l' ++ [b] = (py"torch" :: py"utils" :: py"data" :: more'') ++ [y] from h4) rfl).2
            simpa using this
          subst this
          have hb := hs b (by simp)
          show (decide (b ∈ Uses.special) || (b == py"data" && data (.attr w' b))) = false
          have e1 : decide (b ∈ Uses.special) = false := decide_eq_false (show b ∉ Uses.special from hb.1)
          have e2 : (b == py"data") = false := by simpa using hb.2
          rw [e1, e2]; rfl
      | op _ _ => simp [chain] at h1
      | other _ _ => simp [chain] at h1

/-! ## Meanings -/

theorem meaning_bound {M : Type} (D : Sem M) {imp : Str → Option Str} {e : E} {h m : Str} {rest : List Str} (hc : chain e = some (h :: rest))
    (hi : imp h = some m) : meaning D imp e = D.lib (Str.join py"." (m :: rest)) := by
  have hf : fullName imp e = some (Str.join py"." (m :: rest)) := by
    unfold fullName
    rw [hc]
    simp [hi]
  cases e with
  | name i => unfold meaning; rw [hf]
  | attr w a => unfold meaning; rw [hf]
  | op _ _ => simp [chain] at hc
  | other _ _ => simp [chain] at hc

theorem meaning_ofText {M : Type} (D : Sem M) {added : List Str} {s : Str} (h : (Str.splitOn '.' s).headD [] ∈ added) :
    meaning D (ownNames added) (ofText s) = D.lib s := by
  obtain ⟨hd, tl, hs⟩ := List.exists_cons_of_ne_nil (Str.splitOn_ne_nil '.' s)
  rw [hs, List.headD_cons] at h
  rw [meaning_bound D (h := hd) (rest := tl) (m := hd) (by rw [chain_ofText, hs]) (by unfold ownNames; rw [if_pos h])]
  rw [← hs, Str.join_splitOn '.' s]

theorem local_head {imp : Str → Option Str} : (e : E) → Local imp e → ∀ h rest, chain e = some (h :: rest) → imp h = none ∧ OwnName h
  | .name i, hl, h, rest, hc => by
    simp only [chain, Option.some.injEq, List.cons.injEq] at hc
    exact hc.1 ▸ hl
  | .attr w a, hl, h, rest, hc => by
    simp only [chain, Option.map_eq_some_iff] at hc
    obtain ⟨l, h1, h2⟩ := hc
    cases l with
    | nil => exact absurd rfl (Uses.chain_ne_nil h1)
    | cons x l =>
      simp only [List.cons_append, List.cons.injEq] at h2
      exact h2.1 ▸ local_head w hl x l h1
  | .op _ _, _, _, _, hc => by simp [chain] at hc
  | .other _ _, _, _, _, hc => by simp [chain] at hc

theorem fullName_none {imp : Str → Option Str} {e : E} (h : ∀ x rest, chain e = some (x :: rest) → imp x = none) : fullName imp e = none := by
  unfold fullName
  cases hc : chain e with
  | none => rfl
  | some l =>
    cases l with
    | nil => rfl
    | cons x rest => simp [h x rest hc]

mutual
theorem meaning_local {M : Type} (D : Sem M) {imp : Str → Option Str} {added : List Str} (ha : ∀ i, OwnName i → i ∉ added) :
    (e : E) → Local imp e → meaning D (ownNames added) e = meaning D imp e
  | .name i, hl => by
    have h1 : fullName imp (.name i) = none := fullName_none fun x rest hc => (local_head _ hl x rest hc).1
    have h2 : fullName (ownNames added) (.name i) = none :=
      fullName_none fun x rest hc => by unfold ownNames; rw [if_neg (ha _ (local_head _ hl x rest hc).2)]
    unfold meaning
    rw [h1, h2]
  | .attr w a, hl => by
    have h1 : fullName imp (.attr w a) = none := fullName_none fun x rest hc => (local_head _ hl x rest hc).1
    have h2 : fullName (ownNames added) (.attr w a) = none :=
      fullName_none fun x rest hc => by unfold ownNames; rw [if_neg (ha _ (local_head _ hl x rest hc).2)]
    have ih := meaning_local D ha w hl
    unfold meaning
    rw [h1, h2]
    dsimp only
    rw [ih]
  | .op t ks, hl => by
    unfold meaning
    rw [meanings_local D ha ks hl]
  | .other t ks, hl => by
    unfold meaning
    rw [meanings_local D ha ks hl]
theorem meanings_local {M : Type} (D : Sem M) {imp : Str → Option Str} {added : List Str} (ha : ∀ i, OwnName i → i ∉ added) :
    (ks : Es) → LocalAll imp ks → meanings D (ownNames added) ks = meanings D imp ks
  | .nil, _ => rfl
  | .cons p e rest, hl => by
    unfold meanings
    rw [meaning_local D ha e hl.1, meanings_local D ha rest hl.2]
end

/-! ## Both passes -/

/-- What is known of a program: the imports `imp`, the import lines `added`, what the import pass knows at a place (`v`) and the basic pass (`B`). -/
structure Ctx (c : Imports.Cfg) (body : Imports.PBlock) (imp : Str → Option Str) (added : List Str) (v : Uses.Env) (B : Basic.Env) : Prop where
  torch : ∀ b ∈ body.binds, b.Torch c → ∀ p, b.package c = some p → p ∉ c.may → p ∈ B.file.torch
  ne : B.file.torch ≠ []
  keys : ∀ p ∈ B.file.torch, p ∈ torchPackages.keys
  names : ∀ x m, '.' ∉ x → B.file.names.get? x = some m → imp x = some m
  other : ∀ x, x ≠ py"*" → (x ∈ B.file.other ↔ ∃ b' ∈ body.binds, ¬ b'.Torch c ∧ b'.as_ = x)
  may : c.may = mayPackages
  non : imp nonTorch = none
  cls : imp py"TorchClass" = none
  none_ : imp py"None" = none
  only : ∀ q ∈ added, q ∈ [py"paddle", py"paddlespeech", py"paddleformers"] ∨ q ∈ mayPackages
  new : ∀ p ∈ B.file.torch, ∀ q, torchPackages.get? p = some q → q ∈ added
  mayAdded : ∀ h m rest, imp h = some m → (Str.splitOn '.' (Str.join py"." (m :: rest))).headD [] ∈ c.may →
    (Str.splitOn '.' (Str.join py"." (m :: rest))).headD [] ∈ added
  known : ∀ x m, v.file.names.get? x = some m → '.' ∉ x → imp x = some m
  known' : ∀ x m, imp x = some m → v.file.names.get? x = some m ∨ (v.file.names.get? x = none ∧ m = x)
  keep : ∀ x, v.keep x = false
  canon : v.canon = canonical shipped
  utils : ∀ w, chain w = some [py"torch", py"utils", py"data"] → v.data w = false
  data : ∀ t ks, v.data (.attr (.op t ks) py"data") = true
  faithful : Faithful B.key B.io

section
variable {c : Imports.Cfg} {body : Imports.PBlock} {imp : Str → Option Str} {added : List Str} {v : Uses.Env} {B : Basic.Env}

theorem Ctx.free_non (X : Ctx c body imp added v B) : Free B.file nonTorch where
  dot := by decide
  names := by
    cases h : B.file.names.get? nonTorch with
    | none => rfl
    | some m => have := X.names _ _ (by decide) h; rw [X.non] at this; simp at this
  key := by decide
  torch := by decide +kernel
  may := by decide +kernel
  einops := by rintro ⟨t, h⟩; simp [nonTorch] at h
  transformers := by rintro ⟨t, h⟩; simp [nonTorch] at h

theorem Ctx.free_cls (X : Ctx c body imp added v B) : Free B.file py"TorchClass" where
  dot := by decide
  names := by
    cases h : B.file.names.get? py"TorchClass" with
    | none => rfl
    | some m => have := X.names _ _ (by decide) h; rw [X.cls] at this; simp at this
  key := by decide
  torch := by decide +kernel
  may := by decide +kernel
  einops := by rintro ⟨t, h⟩; simp at h
  transformers := by rintro ⟨t, h⟩; simp at h

theorem Ctx.free_own (X : Ctx c body imp added v B) {i : Str} (hd : '.' ∉ i) (hi : imp i = none) (ho : OwnName i) : Free B.file i where
  dot := hd
  names := by
    cases h : B.file.names.get? i with
    | none => rfl
    | some m => have := X.names _ _ hd h; rw [hi] at this; simp at this
  key := ho.key
  torch := ho.package.1
  may := ho.package.2.1
  einops := ho.wild.1
  transformers := ho.wild.2

theorem Ctx.not_added (X : Ctx c body imp added v B) {i : Str} (ho : OwnName i) : i ∉ added := by
  intro h
  rcases X.only i h with h | h
  · exact ho.package.2.2 h
  · exact ho.package.2.1 h

theorem Ctx.vnone (X : Ctx c body imp added v B) {x : Str} (hd : '.' ∉ x) (h : imp x = none) : v.file.names.get? x = none := by
  cases hg : v.file.names.get? x with
  | none => rfl
  | some m => have := X.known x m hg hd; rw [h] at this; simp at this

theorem package_head {p : Str} (h : p ∈ torchPackages.keys) : p ≠ py"paddle" ∧ p ∉ reservedKeys := by
  revert p
  decide +kernel

theorem values_new {p q : Str} (h : torchPackages.get? p = some q) : '.' ∉ q ∧ q ∈ [py"paddle", py"paddlespeech", py"paddleformers"] := by
  have key : ∀ a ∈ torchPackages, '.' ∉ a.2 ∧ a.2 ∈ [py"paddle", py"paddlespeech", py"paddleformers"] := by decide +kernel
  exact key _ (Dict.mem_of_get? h)

theorem Ctx.visible_strict (X : Ctx c body imp added v B) {s : Str} (hv : Visible c body imp s) :
    replaceModule B.file (B.strict (ofText s)) = .ok s ∧ startWithTorch B.file s = true := by
  obtain ⟨b, hb, hT, p, hp, hm, t, hst⟩ := hv.package
  have hpt := X.torch b hb hT p hp hm
  have hk := X.keys p hpt
  have hs : Str.splitOn '.' s = p :: Str.splitOn '.' t := by
    rw [hst]
    have : p ++ py"." ++ t = p ++ '.' :: t := by simp
    rw [this, Str.splitOn_append_cons (Exclude.no_dot hk)]
  constructor
  · unfold Basic.Env.strict
    rw [Pipeline.toExpr_ofText B.src hs]
    rw [Pipeline.replace_plain B.file B.hit _ X.ne X.other p (Str.splitOn '.' t)]
    · have hj : dottedText p (Str.splitOn '.' t) = s := by
        unfold dottedText
        rw [← hs]; exact Str.join_splitOn '.' s
      cases hg : B.file.names.get? p with
      | none => dsimp only; rw [hj]
      | some m =>
        have := X.names p m (Exclude.no_dot hk) hg
        have e := hv.own m (by rw [hs]; exact this)
        rw [hs] at e
        dsimp only
        rw [e]
        show Except.ok (dottedText p _) = _
        rw [hj]
    · intro x hx; rw [← hs] at hx; exact Str.not_mem_of_mem_splitOn hx
    · refine ⟨?_, ?_⟩
      · intro x hx
        rw [← hs] at hx
        obtain ⟨h1, h2, h3⟩ := hv.unhidden x hx
        exact ⟨h1, fun ⟨b', hb', hn, e⟩ => h2 b' hb' hn e, h3⟩
      · intro x hx
        simp only [List.head?_cons, Option.mem_def, Option.some.injEq] at hx
        subst hx
        obtain ⟨h1, h2⟩ := package_head hk
        simp only [reservedKeys, List.mem_cons, List.not_mem_nil, or_false, not_or] at h2
        exact ⟨h1, h2.2.1, h2.2.2.1, h2.1, h2.2.2.2⟩
  · unfold startWithTorch
    rw [List.any_eq_true]
    exact ⟨p, hpt, Str.startsWith_iff.2 ⟨t, hst⟩⟩

theorem canonical_idem (n : Str) : canonical shipped (canonical shipped n) = canonical shipped n := by
  cases hg : shipped.aliases.get? n with
  | some t =>
    have e : canonical shipped n = t := by simp [canonical, hg]
    rw [e]
    unfold canonical
    rw [Dict.get?_eq_none_iff.2 (alias_value_not_alias (Dict.mem_of_get? hg))]; rfl
  | none =>
    have e : canonical shipped n = n := by simp [canonical, hg]
    rw [e, e]

theorem canonical_not_loader (n : Str) : canonical shipped n ≠ dataLoader := by
  intro e
  have h1 := canonical_idem n
  rw [e] at h1
  have : canonical shipped dataLoader ≠ dataLoader := by decide +kernel
  exact this h1

/-- An API, written under its name or the canonical one, is found. -/
theorem Ctx.seen (X : Ctx c body imp added v B) {use : Option Es} {n s : Str} (h : KnownApi c body imp B.key B.io use n) (hs : s = n ∨ s = canonical shipped n) :
    Visible c body imp s ∧ Seen B (ofText s) s ∧ canonical shipped s = canonical shipped n := by
  have hvis : Visible c body imp s := by
    rcases hs with rfl | rfl
    · exact h.visible
    · exact h.visible'
  have hload : s ≠ dataLoader := by
    rcases hs with rfl | rfl
    · exact h.loader
    · exact canonical_not_loader n
  obtain ⟨hq1, hq2⟩ := X.visible_strict hvis
  refine ⟨hvis, ⟨hq1, hq2, hload⟩, ?_⟩
  rcases hs with rfl | rfl
  · rfl
  · exact canonical_idem n

theorem Ctx.new_head (X : Ctx c body imp added v B) {r : Raw} (hr : r ∈ entries) {p : Str} (h : NewApi r p) (hv : Visible c body imp r.name) :
    (Str.splitOn '.' p).headD [] ∈ added := by
  obtain ⟨b, hb, hT, q, hq, hm, t, hst⟩ := hv.package
  have hqt := X.torch b hb hT q hq hm
  have hst : r.name = q ++ '.' :: t := by rw [hst]; simp
  rcases h with ⟨hc, hp, hn⟩ | ⟨-, -, hp⟩
  · obtain ⟨pkg, new, rest, h1, h2, h3⟩ := C47_shipped_partial r hr hc hn
    have hpk : pkg ∈ torchPackages.keys := List.mem_map.2 ⟨_, Dict.mem_of_get? h2, rfl⟩
    have e1 : q ++ '.' :: t = pkg ++ '.' :: rest := by
      rw [hst] at h1
      simpa using h1
    obtain rfl := head_unique (Exclude.no_dot (X.keys q hqt)) (Exclude.no_dot hpk) (Or.inr ⟨_, rfl⟩) e1
    rw [h3] at hp
    rw [← Option.some.inj hp]
    have : new ++ py"." ++ rest = new ++ '.' :: rest := by simp
    rw [this, splitOn_head (values_new h2).1 (Or.inr ⟨_, rfl⟩)]
    exact X.new q hqt new h2
  · rw [hst, splitOn_head (Exclude.no_dot (X.keys q hqt)) (Or.inr ⟨_, rfl⟩)] at hp
    exact X.new q hqt _ hp

theorem agree_value {M : Type} {D : Sem M} {T : Basic.Texts} (hA : Agree D T) {r : Raw} (hr : r ∈ entries)
    (hc : r.class = py"ChangePrefixMatcher" ∨ r.class = py"ChangeAPIMatcher") {n p : Str} (hn : canonical shipped n = r.name) (hp : NewApi r p) :
    D.lib n = D.lib p := by
  rcases hp with ⟨h1, h2, -⟩ | ⟨h1, h2, -⟩
  · exact hA.api r hr h1 n hn p h2
  · rcases hc with hc | hc
    · exact absurd hc h1
    · exact hA.rename r hr hc n hn p h2

theorem Ctx.visible_attr (X : Ctx c body imp added v B) {s : Str} (hv : Visible c body imp s) :
    ∃ w a, ofText s = .attr w a ∧ descends B.data w = false := by
  have hc := chain_ofText s
  rcases ofText_cases s with ⟨w, a, h⟩ | ⟨h, hd⟩
  · refine ⟨w, a, h, ?_⟩
    obtain ⟨hd, tl, hs⟩ := List.exists_cons_of_ne_nil (Str.splitOn_ne_nil '.' s)
    rw [h, hs] at hc
    refine still_descends B.data hc ?_ (hs ▸ hv.still)
    intro hw
    have hmem : ∀ x ∈ [py"torch", py"utils", py"data"], x ∈ Str.splitOn '.' s := by
      intro x hx
      have e : chain (.attr w a) = some ([py"torch", py"utils", py"data"] ++ [a]) := by rw [chain, hw]; rfl
      rw [hc] at e
      rw [hs, Option.some.inj e]
      exact List.mem_append_left _ hx
    have hb : ∀ x ∈ [py"torch", py"utils", py"data"], x ∉ blackList B.file := by
      intro x hx hbl
      obtain ⟨h1, h2, h3⟩ := hv.unhidden x (hmem x hx)
      rcases List.mem_append.1 hbl with hbl | hbl
      · obtain ⟨b', hb', hn, e⟩ := (X.other x h1).1 hbl
        exact h2 b' hb' hn e
      · simp only [List.mem_cons, List.not_mem_nil, or_false] at hbl
        rcases hbl with e | e | e
        · exact h3.1 e
        · exact h3.2.1 e
        · exact h3.2.2 e
    obtain ⟨x, rest, e1, e2⟩ := Pipeline.chain_foldl hw
    cases e1
    subst e2
    unfold Basic.Env.data Basic.Env.strict
    simp only [List.foldl_cons, List.foldl_nil, Pipeline.toExpr, fullAttrStrict, if_neg X.ne, if_neg (hb py"torch" (by simp)),
      if_neg (hb py"utils" (by simp)), if_neg (hb py"data" (by simp))]
    decide
  · obtain ⟨b, hb, hT, p, hp, hm, t, hst⟩ := hv.package
    rw [hst] at hd
    simp at hd

/-! ### Packages that may be used with torch -/

theorem strict_chain (B : Basic.Env) : (e : E) → (l : List Str) → chain e = some l →
    B.strict e = Str.join py"." l ∨ ∃ t, Tail t ∧ B.strict e = nonTorch ++ t
  | .name i, l, hc => by
    simp only [chain, Option.some.injEq] at hc
    subst hc
    unfold Basic.Env.strict
    simp only [Pipeline.toExpr, fullAttrStrict]
    split
    · exact Or.inr ⟨[], Or.inl rfl, by simp⟩
    · split
      · exact Or.inr ⟨[], Or.inl rfl, by simp⟩
      · split
        · exact Or.inr ⟨[], Or.inl rfl, by simp⟩
        · exact Or.inl (by simp [Str.join])
  | .attr w a, l, hc => by
    simp only [chain, Option.map_eq_some_iff] at hc
    obtain ⟨l', h1, rfl⟩ := hc
    rcases strict_attr B w a with h | h
    · exact Or.inr ⟨[], Or.inl rfl, by rw [h]; simp⟩
    · rcases strict_chain B w l' h1 with h2 | ⟨t, ht, h2⟩
      · left
        rw [h, h2, join_append _ _ _ (Uses.chain_ne_nil h1) (by simp)]
        simp [Str.join]
      · right
        exact ⟨t ++ '.' :: a, tail_append ht a, by rw [h, h2]; simp⟩
  | .op _ _, _, hc => by simp [chain] at hc
  | .other _ _, _, hc => by simp [chain] at hc

theorem may_head {p : Str} (h : p ∈ mayPackages) : p ∉ reservedKeys ∧ p ≠ py"setattr" ∧ p ≠ py"hasattr" := by
  revert p
  decide +kernel

theorem Ctx.may_outside (X : Ctx c body imp added v B) {use : Option Es} {n : Str} (h : MayApi c imp B.key use n) :
    (∃ w a, ofText n = .attr w a ∧ '.' ∉ a ∧ Outside B (.attr w a) (some a) ∧ (Str.splitOn '.' n).getLastD [] = a ∧ descends B.data w = false) ∨
    (ofText n = .name n ∧ n ∈ mayPackages ∧ Outside B (.name n) none) := by
  obtain ⟨q, tl, hs⟩ := List.exists_cons_of_ne_nil (Str.splitOn_ne_nil '.' n)
  have hq : q ∈ mayPackages := by
    have := h.head
    rw [hs, X.may] at this
    exact this
  have hj : Str.join py"." (q :: tl) = n := by rw [← hs]; exact Str.join_splitOn '.' n
  have hrepl : replaceModule B.file n = .ok n := by
    unfold replaceModule
    dsimp only
    rw [hs, List.headD_cons, if_neg (may_head hq).1]
    cases hg : B.file.names.get? q with
    | none => rfl
    | some m =>
      have := h.own m (by rw [hs]; exact X.names q m (Exclude.may_apart q hq).2 hg)
      rw [hs] at this
      rw [List.headD_cons] at this
      dsimp only
      rw [this, List.drop_succ_cons, List.drop_zero, hj]
  have hstart : startWithTorch B.file n = false := by
    rw [Bool.eq_false_iff]
    intro hx
    unfold startWithTorch at hx
    obtain ⟨p, hp, hx⟩ := List.any_eq_true.1 hx
    obtain ⟨r, hr⟩ := Str.startsWith_iff.1 hx
    have hk := X.keys p hp
    have e : n = p ++ '.' :: r := by rw [hr]; simp
    rw [e, Str.splitOn_append_cons (Exclude.no_dot hk)] at hs
    simp only [List.cons.injEq] at hs
    exact (Exclude.may_apart q hq).1 (hs.1 ▸ hk)
  have hun : inApi shipped n = false := by
    rw [Bool.eq_false_iff]
    intro hx
    exact h.unlisted ((listed_iff _ _).1 hx)
  have key : ∀ last, ((last = none ∧ '.' ∉ n) ∨ ∃ a, last = some a ∧ (Str.splitOn '.' n).getLastD [] = a) → 
      (∀ w a, ofText n = .attr w a → last = some a) → Outside B (ofText n) last := by
    intro last hlast hattr
    rcases strict_chain B (ofText n) _ (chain_ofText n) with e | ⟨t, ht, e⟩
    · rw [show Str.join py"." (Str.splitOn '.' n) = n from Str.join_splitOn '.' n] at e
      exact ⟨n, by rw [e]; exact hrepl, hstart, hun, Or.inr hlast⟩
    · have hf := X.free_non
      exact ⟨nonTorch ++ t, by rw [e]; exact hf.replace ht, hf.startWith X.keys ht, hf.api ht, Or.inl (contains_nonTorch t)⟩
  rcases ofText_cases n with ⟨w, a, e⟩ | ⟨e, hd⟩
  · left
    have hc := chain_ofText n
    rw [e] at hc
    have hlast : (Str.splitOn '.' n).getLastD [] = a := by
      simp only [chain, Option.map_eq_some_iff] at hc
      obtain ⟨l', -, h2⟩ := hc
      rw [← h2]; simp
    have hp := proper_ofText n
    rw [e] at hp
    refine ⟨w, a, e, hp.2, ?_, hlast, ?_⟩
    · rw [← e]
      refine key _ (Or.inr ⟨a, rfl, hlast⟩) ?_
      intro w' a' e'
      rw [e] at e'
      cases e'
      rfl
    · have hst := h.still
      rw [hs] at hst hc
      exact Uses.not_descends B.data hc hst
  · right
    refine ⟨e, ?_, ?_⟩
    · rw [Str.splitOn_of_not_mem hd] at hs
      simp only [List.cons.injEq] at hs
      exact hs.1 ▸ hq
    · rw [← e]
      refine key _ (Or.inl ⟨rfl, hd⟩) ?_
      intro w a e'
      rw [e] at e'
      simp at e'

/-! ### The import pass -/

theorem Ctx.first (X : Ctx c body imp added v B) {e : E} {h m : Str} {rest : List Str} (hp : Proper e) (hc : chain e = some (h :: rest))
    (hi : imp h = some m) : ∃ s, (s = Str.join py"." (m :: rest) ∨ s = canonical shipped (Str.join py"." (m :: rest))) ∧ Uses.replace v e = ofText s := by
  rw [Uses.replace_chain v hp hc]
  unfold Uses.expandName
  rcases X.known' h m hi with hg | ⟨hg, rfl⟩
  · rw [hg]
    dsimp only
    rw [X.keep, X.canon]
    exact ⟨_, Or.inr rfl, by simp⟩
  · rw [hg]
    exact ⟨_, Or.inl rfl, (Again.ofText_chain hp hc).symm⟩

theorem visitE_nochain (v : Uses.Env) (hn : v.file.names.get? py"None" = none) : (e : E) → (pos : Bool) → chain e = none → chain (visitE v pos e) = none
  | .name i, _, h => by simp [chain] at h
  | .attr w a, pos, h => by
    have hw : chain w = none := by simpa [chain] using h
    unfold visitE
    have hw' : chain (if descends v.data w then visitE v false w else w) = none := by
      split
      · exact visitE_nochain v hn w false hw
      · exact hw
    have : chain (.attr (if descends v.data w then visitE v false w else w) a) = none := by
      rw [chain, hw']; rfl
    rw [Uses.replace_other v this hn]
    exact this
  | .op _ _, _, _ => rfl
  | .other _ _, _, _ => rfl

theorem visitE_attr (v : Uses.Env) (hn : v.file.names.get? py"None" = none) {w : E} (a : Str) (pos : Bool) (hw : chain w = none) :
    visitE v pos (.attr w a) = .attr (if descends v.data w then visitE v false w else w) a := by
  conv_lhs => unfold visitE
  have hw' : chain (if descends v.data w then visitE v false w else w) = none := by
    split
    · exact visitE_nochain v hn w false hw
    · exact hw
  have : chain (.attr (if descends v.data w then visitE v false w else w) a) = none := by
    rw [chain, hw']; rfl
  exact Uses.replace_other v this hn

theorem data_op (B : Basic.Env) (t : Nat) (ks : Es) : B.data (.attr (.op t ks) py"data") = true := by
  unfold Basic.Env.data Basic.Env.strict
  simp only [Pipeline.toExpr, fullAttrStrict]
  split
  · decide
  · split
    · decide
    · rcases opAttr_cases (blackList B.file) B.hit (B.src (.op t ks)) with h | h <;> rw [h] <;> decide

theorem looked_first {data : E → Bool} (hd : ∀ t ks, data (.attr (.op t ks) py"data") = true) {w : E} (h : looked w = true) : descends data w = true := by
  cases w with
  | name i => simp [looked] at h
  | other t ks => simp [looked] at h
  | op t ks => rfl
  | attr w' b =>
    show (decide (b ∈ Uses.special) || (b == py"data" && data (.attr w' b))) = true
    cases w' with
    | op t ks =>
      simp only [looked, Bool.or_eq_true, decide_eq_true_iff, beq_iff_eq] at h
      rcases h with h | h
      · rw [decide_eq_true (show b ∈ Uses.special from h)]; rfl
      · subst h; rw [hd]; simp
    | name _ => simp only [looked, decide_eq_true_iff] at h; rw [decide_eq_true (show b ∈ Uses.special from h)]; rfl
    | attr _ _ => simp only [looked, decide_eq_true_iff] at h; rw [decide_eq_true (show b ∈ Uses.special from h)]; rfl
    | other _ _ => simp only [looked, decide_eq_true_iff] at h; rw [decide_eq_true (show b ∈ Uses.special from h)]; rfl

theorem not_looked (data : E → Bool) {w : E} (h : looked w = false) (hd : endsInData w = false) : descends data w = false := by
  cases w with
  | name i => rfl
  | other t ks => rfl
  | op t ks => simp [looked] at h
  | attr w' b =>
    show (decide (b ∈ Uses.special) || (b == py"data" && data (.attr w' b))) = false
    have h1 : (b == py"data") = false := hd
    have h2 : b ∉ Uses.special := by
      intro hb
      have hb : b ∈ through := hb
      cases w' <;> simp [looked, hb] at h
    rw [h1, decide_eq_false h2]; rfl

theorem Ctx.looked_second (X : Ctx c body imp added v B) {w : E} (hc : chain w = none) (h : looked w = true) :
    looked (visitE v false w) = true := by
  have hn := X.vnone (by decide) X.none_
  cases w with
  | name i => simp [looked] at h
  | other t ks => simp [looked] at h
  | op t ks => rfl
  | attr w' b =>
    have hw' : chain w' = none := by simpa [chain] using hc
    rw [visitE_attr v hn b false hw']
    cases w' with
    | op t ks =>
      rw [if_pos (show descends v.data (.op t ks) = true from rfl)]
      exact h
    | name _ => simp [chain] at hw'
    | attr x y =>
      have hb : b ∈ through := by simpa [looked] using h
      generalize (if descends v.data (.attr x y) = true then visitE v false (.attr x y) else .attr x y) = z
      cases z <;> simp [looked, hb]
    | other x y =>
      have hb : b ∈ through := by simpa [looked] using h
      generalize (if descends v.data (.other x y) = true then visitE v false (.other x y) else .other x y) = z
      cases z <;> simp [looked, hb]

/-! ### The basic pass -/

theorem visit_attr_still (B : Basic.Env) {w : E} (a : Str) (at_ : Place) (h : descends B.data w = false) :
    B.visit at_ (.attr w a) = if at_ = .fn then some (.attr w a) else B.attrOf (.attr w a) := by
  unfold Basic.Env.visit
  rw [if_neg (by rw [h]; simp)]

theorem visit_attr_down (B : Basic.Env) {w w' : E} (a : Str) (at_ : Place) (h : descends B.data w = true) (hw : B.visit .other w = some w') :
    B.visit at_ (.attr w a) = if at_ = .fn then some (.attr w' a) else B.attrOf (.attr w' a) := by
  unfold Basic.Env.visit
  rw [if_pos h, hw]

theorem genericCall_op (B : Basic.Env) {cfg : Matcher.Cfg} {fn : E} {args : Es} {t : E} (h : B.genericCall cfg fn args = some t) : ∃ ks, t = .op 0 ks := by
  unfold Basic.Env.genericCall at h
  dsimp only at h
  split at h
  · split at h
    · rw [← Option.some.inj h]
      split
      · exact ⟨_, rfl⟩
      · split <;> exact ⟨_, rfl⟩
    · simp at h
  · simp at h

theorem newCall_op (B : Basic.Env) {m c : Str} {fn : E} {args : Es} {t : E} (h : B.newCall m c fn args = some t) : ∃ ks, t = .op 0 ks := by
  unfold Basic.Env.newCall at h
  split at h
  · exact ⟨_, (Option.some.inj h).symm⟩
  · split at h
    · exact ⟨_, (Option.some.inj h).symm⟩
    · rw [Option.bind_eq_some_iff] at h
      obtain ⟨cfg, -, h⟩ := h
      exact genericCall_op B h

theorem callOf_op (B : Basic.Env) {e : E} {args : Es} {t : E} (h : B.callOf e args = some t) : ∃ ks, t = .op 0 ks := by
  unfold Basic.Env.callOf at h
  split at h
  · simp at h
  · split at h
    · split at h
      · rw [Option.bind_eq_some_iff] at h
        obtain ⟨p, -, h⟩ := h
        exact newCall_op B h
      · simp at h
    · split at h
      · split at h
        · simp at h
        · rw [Option.bind_eq_some_iff] at h
          obtain ⟨p, -, h⟩ := h
          split at h
          · rw [Option.bind_eq_some_iff] at h
            obtain ⟨_, -, h⟩ := h
            exact newCall_op B h
          · simp at h
      · simp at h
    · simp only [Option.some.injEq] at h
      exact ⟨_, h.symm⟩

theorem visit_op (B : Basic.Env) {at_ : Place} {n : Nat} {ks : Es} {t : E} (h : B.visit at_ (.op n ks) = some t) : ∃ n' ks', t = .op n' ks' := by
  cases ks with
  | nil => unfold Basic.Env.visit at h; exact ⟨n, .nil, (Option.some.inj h).symm⟩
  | cons p e rest =>
    unfold Basic.Env.visit at h
    split at h
    · split at h
      · obtain ⟨ks, rfl⟩ := callOf_op B h
        exact ⟨_, _, rfl⟩
      · simp at h
    · split at h
      · exact ⟨_, _, (Option.some.inj h).symm⟩
      · simp at h

theorem visit_other (B : Basic.Env) {at_ : Place} {n : Nat} {ks : Es} {t : E} (h : B.visit at_ (.other n ks) = some t) : ∃ ks', t = .other n ks' := by
  unfold Basic.Env.visit at h
  simp only [Option.map_eq_some_iff] at h
  obtain ⟨ks', -, rfl⟩ := h
  exact ⟨ks', rfl⟩

theorem may_canonical {n : Str} (h : (Str.splitOn '.' n).headD [] ∈ mayPackages) : canonical shipped n = n := by
  obtain ⟨q, tl, hs⟩ := List.exists_cons_of_ne_nil (Str.splitOn_ne_nil '.' n)
  rw [hs, List.headD_cons] at h
  have := Again.canonical_may h tl
  rwa [← hs, show Str.join py"." (Str.splitOn '.' n) = n from Str.join_splitOn '.' n] at this

/-- The arguments of a call after the passes. -/
def LikeAll {M : Type} (D : Sem M) (imp : Str → Option Str) (added : List Str) (args' args : Es) : Prop :=
  List.Forall₂ (Like D imp (ownNames added)) ((Basic.Es.toList args').map (·.2)) ((Basic.Es.toList args).map (·.2))

theorem Ctx.imported_value (X : Ctx c body imp added v B) {M : Type} (D : Sem M) (hA : Agree D B.io) {n s : Str}
    (h : KnownApi c body imp B.key B.io none n ∨ MayApi c imp B.key none n) (hs : s = n ∨ s = canonical shipped n)
    (hadd : (Str.splitOn '.' n).headD [] ∈ c.may → (Str.splitOn '.' n).headD [] ∈ added) :
    ∃ t, B.visit .other (ofText s) = some (ofText t) ∧ meaning D (ownNames added) (ofText t) = D.lib n ∧ (Str.splitOn '.' t).headD [] ∈ added := by
  rcases h with h | h
  · obtain ⟨hv, hseen, hcan⟩ := X.seen h hs
    obtain ⟨r, hr, hn, hc, p, hp⟩ := h.entry
    obtain ⟨w, a, e, hdesc⟩ := X.visible_attr hv
    have hhead := X.new_head hr hp (hn ▸ h.visible')
    refine ⟨p, ?_, ?_, hhead⟩
    · rw [e, visit_attr_still B a .other hdesc, if_neg (by simp), ← e]
      exact attr_seen B X.keys hseen hr hc (hcan.trans hn) hp
    · rw [meaning_ofText D hhead, agree_value hA hr hc hn hp]
  · have hm := h.head
    have hcan := may_canonical (X.may ▸ hm)
    rw [hcan, or_self] at hs
    subst hs
    refine ⟨s, ?_, meaning_ofText D (hadd hm), hadd hm⟩
    rcases X.may_outside h with ⟨w, a, e, -, hout, hlast, hdesc⟩ | ⟨e, -, -⟩
    · rw [e, visit_attr_still B a .other hdesc, if_neg (by simp)]
      exact attr_member B hout (hlast ▸ h.member)
    · rw [e]
      unfold Basic.Env.visit
      rw [if_neg (by simp)]

theorem meaning_call {M : Type} (D : Sem M) (imp : Str → Option Str) (g : E) (args : Es) :
    meaning D imp (.op 0 (.cons true g args)) = D.op 0 (meaning D imp g :: meanings D imp args) := by
  rw [meaning, meanings]

theorem Ctx.imported_call (X : Ctx c body imp added v B) {M : Type} (D : Sem M) (hA : Agree D B.io) {n s : Str} {args : Es}
    (h : KnownApi c body imp B.key B.io (some args) n ∨ MayApi c imp B.key (some args) n) (hs : s = n ∨ s = canonical shipped n)
    (hadd : (Str.splitOn '.' n).headD [] ∈ c.may → (Str.splitOn '.' n).headD [] ∈ added) :
    B.visit .fn (ofText s) = some (ofText s) ∧ argPlace (ofText s) = .other ∧ ∀ args', LikeAll D imp added args' args →
      ∃ ks, B.callOf (ofText s) args' = some (.op 0 ks) ∧ meaning D (ownNames added) (.op 0 ks) = D.op 0 (D.lib n :: meanings D imp args) := by
  rcases h with h | h
  · obtain ⟨hv, hseen, hcan⟩ := X.seen h hs
    obtain ⟨r, hr, hn, hacc, p, hp⟩ := h.entry
    obtain ⟨w, a, e, hdesc⟩ := X.visible_attr hv
    have hents : r ∈ entries := List.mem_append_left _ hr
    have hhead := X.new_head hents hp (hn ▸ h.visible')
    refine ⟨?_, by rw [e]; rfl, ?_⟩
    · rw [e, visit_attr_still B a .fn hdesc, if_pos rfl]
    · intro args' hargs
      have hc := accepts_class hacc
      obtain ⟨ks, h1, h2⟩ := accepted_call B X.faithful hr (ofText p) hacc hargs
      refine ⟨ks, ?_, h2 _ ?_ ?_⟩
      · rw [call_seen B hseen hr hc (hcan.trans hn) hp, h1]
      · intro hg
        rw [meaning_ofText D hhead]
        rcases hp with ⟨h3, -⟩ | ⟨-, h3, -⟩
        · rw [hg] at h3; exact absurd h3 (by decide)
        · exact hA.generic r hr hg n hn p h3
      · intro hg
        rw [meaning_ofText D hhead]
        refine agree_value hA hents ?_ hn hp
        rcases hc with hc | hc | hc
        · exact Or.inl hc
        · exact Or.inr hc
        · exact absurd hc hg
  · have hm := h.head
    have hcan := may_canonical (X.may ▸ hm)
    rw [hcan, or_self] at hs
    subst hs
    have hmean := meaning_ofText D (hadd hm)
    rcases X.may_outside h with ⟨w, a, e, -, hout, hlast, hdesc⟩ | ⟨e, hmem, hout⟩
    · refine ⟨by rw [e, visit_attr_still B a .fn hdesc, if_pos rfl], by rw [e]; rfl, ?_⟩
      intro args' hargs
      rcases call_member B hout args' with hcall | ⟨C, hC, hl, hcall⟩
      · refine ⟨_, by rw [e]; exact hcall, ?_⟩
        rw [meaning_call, like_meanings hargs, ← e, hmean]
      · have hmem := h.member
        dsimp only at hmem
        rw [hlast] at hmem
        obtain ⟨r, hr, hc, hn, hname, hg⟩ := hmem C hC hl
        have hacc : Accepts imp B.key B.io r args := Or.inl ⟨hc, hg⟩
        have hb := hcall r hr hn (Or.inl hc) (by rw [hc]; intro h; exact absurd h (by decide)) a
          ⟨by have := proper_ofText s; rw [e] at this; exact this.2, Or.inl ⟨hc, hname⟩⟩
        obtain ⟨ks, h1, h2⟩ := accepted_call B X.faithful hr (.attr w a) hacc hargs
        refine ⟨ks, by rw [e, hb, h1], h2 _ (by rw [hc]; intro h; exact absurd h (by decide)) ?_⟩
        intro _
        rw [← e, hmean]
    · refine ⟨?_, ?_, ?_⟩
      · rw [e]
        unfold Basic.Env.visit
        rw [if_neg (by simp)]
      · rw [e]
        show (if s = py"setattr" ∨ s = py"hasattr" then Place.reflect else .other) = .other
        rw [if_neg (by rintro (h | h); exacts [(may_head hmem).2.1 h, (may_head hmem).2.2 h])]
      · intro args' hargs
        refine ⟨_, by rw [e]; exact call_leave B hout args', ?_⟩
        rw [meaning_call, like_meanings hargs, ← e, hmean]

/-! ### Names of the program -/

theorem Ctx.own_visit (X : Ctx c body imp added v B) {h : Str} (hf : Free B.file h) : (e : E) → (rest : List Str) → chain e = some (h :: rest) →
    Proper e → (∀ b ∈ rest, PlainAttr b) → B.visit .other e = some e
  | .name i, rest, _, _, _ => by
    unfold Basic.Env.visit
    rw [if_neg (by simp)]
  | .attr w a, rest, hc, hp, hm => by
    have hl : Loose B.file (.attr w a) := by
      intro x r hx
      rw [hc] at hx
      cases hx
      exact hf
    have hc' := hc
    simp only [chain, Option.map_eq_some_iff] at hc'
    obtain ⟨l, h1, h2⟩ := hc'
    cases l with
    | nil => exact absurd rfl (Uses.chain_ne_nil h1)
    | cons x l =>
      simp only [List.cons_append, List.cons.injEq] at h2
      obtain ⟨rfl, rfl⟩ := h2
      have ih := X.own_visit hf w l h1 hp.1 (fun b hb => hm b (by simp [hb]))
      have hout := outside_attr B X.keys X.free_non X.free_cls hp.2 hl
      cases hd : descends B.data w with
      | false => rw [visit_attr_still B a .other hd, if_neg (by simp)]; exact attr_member B hout (hm a (by simp))
      | true => rw [visit_attr_down B a .other hd ih, if_neg (by simp)]; exact attr_member B hout (hm a (by simp))
  | .op _ _, _, hc, _, _ => by simp [chain] at hc
  | .other _ _, _, hc, _, _ => by simp [chain] at hc

theorem chain_local {imp : Str → Option Str} {h : Str} (hi : imp h = none) (ho : OwnName h) : (e : E) → (rest : List Str) → chain e = some (h :: rest) → Local imp e
  | .name i, rest, hc => by
    simp only [chain, Option.some.injEq, List.cons.injEq] at hc
    rw [hc.1]; exact ⟨hi, ho⟩
  | .attr w a, rest, hc => by
    simp only [chain, Option.map_eq_some_iff] at hc
    obtain ⟨l, h1, h2⟩ := hc
    cases l with
    | nil => exact absurd rfl (Uses.chain_ne_nil h1)
    | cons x l =>
      simp only [List.cons_append, List.cons.injEq] at h2
      obtain ⟨rfl, rfl⟩ := h2
      exact chain_local hi ho w l h1
  | .op _ _, _, hc => by simp [chain] at hc
  | .other _ _, _, hc => by simp [chain] at hc

theorem meaning_attr {M : Type} (D : Sem M) {imp : Str → Option Str} {w : E} {a : Str} (h : fullName imp (.attr w a) = none) :
    meaning D imp (.attr w a) = D.attr (meaning D imp w) a := by
  rw [meaning, h]

theorem nochain_fullName {imp : Str → Option Str} {e : E} (h : chain e = none) : fullName imp e = none := by
  unfold fullName; rw [h]

/-- A call of a method: the function `.attr w a` that the import pass leaves has the receiver `w`, for `w₀` of the program. -/
theorem Ctx.member_call (X : Ctx c body imp added v B) {M : Type} (D : Sem M) (hA : Agree D B.io) {w w₀ : E} {a : Str} {args : Es}
    (hout : Outside B (.attr w a) (some a)) (hfull : fullName imp (.attr w₀ a) = none) (hfull' : ∀ b, fullName (ownNames added) (.attr w b) = none)
    (hw : meaning D (ownNames added) w = meaning D imp w₀) (hm : PlainMethod imp B.key B.io args a) (hrec : Receiver D imp (.attr w₀ a))
    (args' : Es) (hargs : LikeAll D imp added args' args) :
    ∃ ks, B.callOf (.attr w a) args' = some (.op 0 ks) ∧
      meaning D (ownNames added) (.op 0 ks) = D.op 0 (meaning D imp (.attr w₀ a) :: meanings D imp args) := by
  have hattr : ∀ b, meaning D (ownNames added) (.attr w b) = D.attr (meaning D imp w₀) b := fun b => by rw [meaning_attr D (hfull' b), hw]
  rw [meaning_attr D hfull]
  rcases call_member B hout args' with hcall | ⟨C, hC, hl, hcall⟩
  · refine ⟨_, hcall, ?_⟩
    rw [meaning_call, like_meanings hargs, hattr]
  · obtain ⟨r, hr, hn, hacc, hself, b, hb⟩ := hm C hC hl
    have hc := accepts_class hacc
    obtain ⟨ks, h1, h2⟩ := accepted_call B X.faithful hr (.attr w b) hacc hargs
    refine ⟨ks, ?_, h2 _ ?_ ?_⟩
    · rw [hcall r hr hn hc (fun hg hs => hself hg (like_self hargs hs)) b hb, h1]
    · intro hg
      rw [hattr]
      obtain ⟨hdot, ⟨h3, -⟩ | ⟨-, P, hP, h3⟩⟩ := hb
      · rw [hg] at h3; exact absurd h3 (by decide)
      · rcases hrec hfull C hC r hr hn with ⟨h4, -⟩ | h4
        · rw [hg] at h4; exact absurd h4 (by decide)
        · exact hA.genericMethod r hr hg C hC a hn P hP b hdot h3 _ h4
    · intro hg
      rw [hattr]
      obtain ⟨hdot, ⟨h3, h5⟩ | ⟨h3, P, hP, h5⟩⟩ := hb
      · rcases hrec hfull C hC r hr hn with ⟨-, h4⟩ | h4
        · have : a = b := List.append_cancel_left (h4.symm.trans h5)
          rw [this]
        · exact hA.method C hC a b (hn.trans h5) _ h4
      · have hc' : r.class = py"ChangeAPIMatcher" := by
          rcases hc with hc | hc | hc
          · exact absurd hc h3
          · exact hc
          · exact absurd hc hg
        rcases hrec hfull C hC r hr hn with ⟨h4, -⟩ | h4
        · exact absurd h4 h3
        · exact hA.renameMethod r hr hc' C hC a hn P hP b hdot h5 _ h4

/-! ### The induction -/

/-- What the two passes make of an expression that is not the function of a call. -/
def Value {M : Type} (D : Sem M) (imp : Str → Option Str) (added : List Str) (v : Uses.Env) (B : Basic.Env) (pos : Bool) (e : E) : Prop :=
  ∃ t, B.visit .other (visitE v pos e) = some t ∧ Like D imp (ownNames added) t e ∧ (chain e = none → chain t = none)

/-- What they make of the function of a call. -/
def Func {M : Type} (D : Sem M) (imp : Str → Option Str) (added : List Str) (v : Uses.Env) (B : Basic.Env) (args : Es) (pos : Bool) (e : E) : Prop :=
  ∃ f, B.visit .fn (visitE v pos e) = some f ∧ argPlace (visitE v pos e) = .other ∧ ∀ args', LikeAll D imp added args' args →
    ∃ ks, B.callOf f args' = some (.op 0 ks) ∧ meaning D (ownNames added) (.op 0 ks) = D.op 0 (meaning D imp e :: meanings D imp args)

def Values {M : Type} (D : Sem M) (imp : Str → Option Str) (added : List Str) (v : Uses.Env) (B : Basic.Env) (ks : Es) : Prop :=
  ∃ ks', B.visits .other (visitEs v ks) = some ks' ∧ LikeAll D imp added ks' ks

theorem Ctx.func_of_value (X : Ctx c body imp added v B) {M : Type} (D : Sem M) {pos : Bool} {e : E} (hc : chain e = none) (hne : ∀ w a, e ≠ .attr w a)
    (h : Value D imp added v B pos e) (args : Es) : Func D imp added v B args pos e := by
  obtain ⟨t, h1, h2, h3⟩ := h
  have ht : ∀ w a, t ≠ .attr w a := by
    cases e with
    | name i => simp [chain] at hc
    | attr w a => exact absurd rfl (hne w a)
    | op n ks => unfold visitE at h1; obtain ⟨_, _, rfl⟩ := visit_op B h1; simp
    | other n ks => unfold visitE at h1; obtain ⟨_, rfl⟩ := visit_other B h1; simp
  have hl : Loose B.file t := by
    intro x rest hx
    rw [h3 hc] at hx
    simp at hx
  have hout := outside_single B X.keys X.free_non X.free_cls ht hl
  refine ⟨t, ?_, ?_, fun args' hargs => ⟨_, call_leave B hout args', by rw [meaning_call, h2.same, like_meanings hargs]⟩⟩
  · rw [← h1]
    cases e with
    | name i => simp [chain] at hc
    | attr w a => exact absurd rfl (hne w a)
    | op n ks =>
      unfold visitE
      cases visitEs v ks <;> (unfold Basic.Env.visit; rfl)
    | other n ks => unfold visitE Basic.Env.visit; rfl
  · cases e with
    | name i => simp [chain] at hc
    | attr w a => exact absurd rfl (hne w a)
    | op n ks => unfold visitE; rfl
    | other n ks => unfold visitE; rfl

/-- An imported name is not `self`. -/
theorem Ctx.like_text (X : Ctx c body imp added v B) {M : Type} {D : Sem M} {e : E} {l : List Str} {t : Str} (hc : chain e = some l)
    (h : meaning D (ownNames added) (ofText t) = meaning D imp e) (hh : (Str.splitOn '.' t).headD [] ∈ added) : Like D imp (ownNames added) (ofText t) e where
  same := h
  other := by rintro n ks rfl; simp [chain] at hc
  plain := by
    intro _ n ks ht
    rcases ofText_cases t with ⟨w, a, h⟩ | ⟨h, -⟩ <;> rw [h] at ht <;> simp at ht
  self := by
    intro ht
    have hcs := chain_ofText t
    rw [ht] at hcs
    simp only [chain, Option.some.injEq] at hcs
    rw [← hcs] at hh
    rcases X.only _ hh with h | h
    · exact absurd h (by decide)
    · exact absurd h (by decide +kernel)

theorem like_same {M : Type} {D : Sem M} {imp imp' : Str → Option Str} {e : E} (hne : ∀ n ks, e ≠ .other n ks) (h : meaning D imp' e = meaning D imp e) :
    Like D imp imp' e e :=
  ⟨h, fun n ks he => absurd he (hne n ks), fun _ => hne, fun h => h⟩

theorem like_op {M : Type} {D : Sem M} {imp imp' : Str → Option Str} {n n' : Nat} {ks ks' : Es}
    (h : meaning D imp' (.op n' ks') = meaning D imp (.op n ks)) : Like D imp imp' (.op n' ks') (.op n ks) :=
  ⟨h, fun _ _ he => by simp at he, fun _ _ _ => by simp, fun h => by simp at h⟩

mutual
theorem Ctx.pass (X : Ctx c body imp added v B) {M : Type} (D : Sem M) (hA : Agree D B.io) : (e : E) → (pos : Bool) → Proper e → Typed D imp e →
    (Fine c body imp B.key B.io none pos e → Value D imp added v B pos e) ∧
    (∀ args, Fine c body imp B.key B.io (some args) pos e → e ≠ .name py"setattr" → e ≠ .name py"hasattr" → Receiver D imp e →
      Func D imp added v B args pos e)
  | .name i, pos, hp, _ => by
    have hfirst : ∀ n, imp i = some n → (pos = true ∨ n = i) → ∃ s, (s = n ∨ s = canonical shipped n) ∧ visitE v pos (.name i) = ofText s := by
      intro n hi hpos
      by_cases hb : pos = true
      · obtain ⟨s, h1, h2⟩ := X.first (e := .name i) (rest := []) hp rfl hi
        rw [show Str.join py"." [n] = n by simp [Str.join]] at h1
        refine ⟨s, h1, ?_⟩
        unfold visitE
        rw [if_pos hb, h2]
      · rcases hpos with hpos | rfl
        · exact absurd hpos hb
        · refine ⟨n, Or.inl rfl, ?_⟩
          unfold visitE
          rw [if_neg hb]
          have := Again.ofText_chain (e := .name n) (h := n) (rest := []) hp rfl
          rw [show Str.join py"." [n] = n by simp [Str.join]] at this
          exact this.symm
    have hmean : ∀ n, imp i = some n → meaning D imp (.name i) = D.lib n := by
      intro n hi
      rw [meaning_bound D (e := .name i) (rest := []) rfl hi, show Str.join py"." [n] = n by simp [Str.join]]
    have hadd : ∀ n, imp i = some n → (Str.splitOn '.' n).headD [] ∈ c.may → (Str.splitOn '.' n).headD [] ∈ added := by
      intro n hi hm
      have := X.mayAdded i n [] hi
      rw [show Str.join py"." [n] = n by simp [Str.join]] at this
      exact this hm
    constructor
    · intro hf
      unfold Fine at hf
      cases hi : imp i with
      | some n =>
        rw [hi] at hf
        obtain ⟨s, hs, hv⟩ := hfirst n hi hf.1
        obtain ⟨t, h1, h2, h3⟩ := X.imported_value D hA hf.2 hs (hadd n hi)
        exact ⟨ofText t, by rw [hv]; exact h1, X.like_text (e := .name i) rfl (by rw [h2, hmean n hi]) h3, fun h => by simp [chain] at h⟩
      | none =>
        rw [hi] at hf
        have hfr := X.free_own hp hi hf
        refine ⟨.name i, ?_, like_same (by simp) (meaning_local D (fun i h => X.not_added h) (.name i) ⟨hi, hf⟩), fun h => h⟩
        rw [Uses.visit_unbound v pos hp (h := i) (rest := []) rfl (X.vnone hp hi)]
        exact X.own_visit hfr (.name i) [] rfl hp (by simp)
    · intro args hf hn1 hn2 _
      unfold Fine at hf
      cases hi : imp i with
      | some n =>
        rw [hi] at hf
        obtain ⟨s, hs, hv⟩ := hfirst n hi hf.1
        obtain ⟨h1, h2, h3⟩ := X.imported_call D hA hf.2 hs (hadd n hi)
        refine ⟨ofText s, by rw [hv]; exact h1, by rw [hv]; exact h2, ?_⟩
        rw [hmean n hi]
        exact h3
      | none =>
        rw [hi] at hf
        have hfr := X.free_own hp hi hf
        have hv := Uses.visit_unbound v pos hp (h := i) (rest := []) rfl (X.vnone hp hi)
        refine ⟨.name i, ?_, ?_, ?_⟩
        · rw [hv]
          unfold Basic.Env.visit
          rw [if_neg (by simp)]
        · rw [hv]
          show (if i = py"setattr" ∨ i = py"hasattr" then Place.reflect else .other) = .other
          rw [if_neg]
          rintro (rfl | rfl)
          · exact hn1 rfl
          · exact hn2 rfl
        · intro args' hargs
          refine ⟨_, call_leave B (outside_single B X.keys X.free_non X.free_cls (by simp) ?_) args', ?_⟩
          · intro x rest hx
            simp only [chain, Option.some.injEq, List.cons.injEq] at hx
            exact hx.1 ▸ hfr
          · rw [meaning_call, like_meanings hargs, meaning_local D (fun i h => X.not_added h) (.name i) ⟨hi, hf⟩]
  | .attr w a, pos, hp, hty => by
    cases hc : chain (.attr w a) with
    | some l =>
      cases l with
      | nil => exact absurd rfl (Uses.chain_ne_nil hc)
      | cons h rest =>
        have hhd : '.' ∉ h := Uses.chain_proper hp hc h (by simp)
        cases hi : imp h with
        | some m =>
          have hfirst : Still (h :: rest) → ∃ s, (s = Str.join py"." (m :: rest) ∨ s = canonical shipped (Str.join py"." (m :: rest))) ∧
              visitE v pos (.attr w a) = ofText s := by
            intro hst
            obtain ⟨s, h1, h2⟩ := X.first hp hc hi
            refine ⟨s, h1, ?_⟩
            unfold visitE
            rw [if_neg (by rw [still_descends v.data hc (X.utils w) hst]; simp), h2]
          have hmean := meaning_bound D hc hi
          constructor
          · intro hf
            unfold Fine at hf
            rw [hc] at hf
            dsimp only at hf
            rw [hi] at hf
            obtain ⟨s, hs, hv⟩ := hfirst hf.1
            obtain ⟨t, h1, h2, h3⟩ := X.imported_value D hA hf.2 hs (X.mayAdded h m rest hi)
            exact ⟨ofText t, by rw [hv]; exact h1, X.like_text hc (by rw [h2, hmean]) h3, fun h => (by rw [hc] at h; simp at h)⟩
          · intro args hf _ _ _
            unfold Fine at hf
            rw [hc] at hf
            dsimp only at hf
            rw [hi] at hf
            obtain ⟨s, hs, hv⟩ := hfirst hf.1
            obtain ⟨h1, h2, h3⟩ := X.imported_call D hA hf.2 hs (X.mayAdded h m rest hi)
            refine ⟨ofText s, by rw [hv]; exact h1, by rw [hv]; exact h2, ?_⟩
            rw [hmean]
            exact h3
        | none =>
          have hv := Uses.visit_unbound v pos hp hc (X.vnone hhd hi)
          have hc' := hc
          simp only [chain, Option.map_eq_some_iff] at hc'
          obtain ⟨l, h1, h2⟩ := hc'
          cases l with
          | nil => exact absurd rfl (Uses.chain_ne_nil h1)
          | cons x l =>
            simp only [List.cons_append, List.cons.injEq] at h2
            obtain ⟨rfl, rfl⟩ := h2
            constructor
            · intro hf
              unfold Fine at hf
              rw [hc] at hf
              dsimp only at hf
              rw [hi] at hf
              obtain ⟨ho, hm, hr⟩ := hf
              rw [List.dropLast_concat] at hr
              have hfr := X.free_own hhd hi ho
              refine ⟨.attr w a, ?_, like_same (by simp) (meaning_local D (fun i h => X.not_added h) _ (chain_local hi ho _ _ hc)), fun h => h⟩
              rw [hv]
              refine X.own_visit hfr _ _ hc hp ?_
              intro b hb
              rcases List.mem_append.1 hb with hb | hb
              · exact hr b hb
              · simp only [List.mem_cons, List.not_mem_nil, or_false] at hb
                exact hb ▸ hm
            · intro args hf _ _ hrec
              unfold Fine at hf
              rw [hc] at hf
              dsimp only at hf
              rw [hi] at hf
              obtain ⟨ho, hm, hr⟩ := hf
              rw [List.dropLast_concat] at hr
              have hfr := X.free_own hhd hi ho
              have hw := X.own_visit hfr w l h1 hp.1 hr
              have hloc := chain_local hi ho _ _ hc
              have hl : Loose B.file (.attr w a) := by
                intro y r hy
                rw [hc] at hy
                cases hy
                exact hfr
              have hout := outside_attr B X.keys X.free_non X.free_cls hp.2 hl
              refine ⟨.attr w a, ?_, by rw [hv]; rfl, ?_⟩
              · rw [hv]
                cases hd : descends B.data w with
                | false => rw [visit_attr_still B a .fn hd, if_pos rfl]
                | true => rw [visit_attr_down B a .fn hd hw, if_pos rfl]
              · have hlw : Local imp w := hloc
                refine X.member_call D hA hout (fullName_none fun x rest hc => (local_head _ hloc x rest hc).1) ?_
                  (meaning_local D (fun i h => X.not_added h) w hlw) hm hrec
                intro b
                have hlb : Local imp (.attr w b) := hloc
                exact fullName_none fun x rest hc => by unfold ownNames; rw [if_neg (X.not_added (local_head _ hlb x rest hc).2)]
    | none =>
      have hw : chain w = none := by simpa [chain] using hc
      have hn := X.vnone (by decide) X.none_
      -- the value of the attribute
      have hval : (if looked w then Fine c body imp B.key B.io none false w else Local imp w ∧ endsInData w = false) →
          ∃ w', chain w' = none ∧ meaning D (ownNames added) w' = meaning D imp w ∧
            ∀ at_, B.visit at_ (visitE v pos (.attr w a)) = if at_ = .fn then some (.attr w' a) else B.attrOf (.attr w' a) := by
        intro hf
        rw [visitE_attr v hn a pos hw]
        by_cases hlk : looked w = true
        · rw [if_pos hlk] at hf
          obtain ⟨w', h1, h2, h3⟩ := (X.pass D hA w false hp.1 hty).1 hf
          refine ⟨w', h3 hw, h2.same, ?_⟩
          intro at_
          rw [if_pos (looked_first X.data hlk)]
          exact visit_attr_down B a at_ (looked_first (data_op B) (X.looked_second hw hlk)) h1
        · rw [if_neg hlk] at hf
          have hlk : looked w = false := by simpa using hlk
          refine ⟨w, hw, meaning_local D (fun i h => X.not_added h) w hf.1, ?_⟩
          intro at_
          rw [if_neg (by rw [not_looked v.data hlk hf.2]; simp)]
          exact visit_attr_still B a at_ (not_looked B.data hlk hf.2)
      constructor
      · intro hf
        unfold Fine at hf
        rw [hc] at hf
        dsimp only at hf
        obtain ⟨w', h1, h2, h3⟩ := hval hf.2
        have hc' : chain (.attr w' a) = none := by rw [chain, h1]; rfl
        have hl : Loose B.file (.attr w' a) := by
          intro x rest hx
          rw [hc'] at hx; simp at hx
        have hout := outside_attr B X.keys X.free_non X.free_cls hp.2 hl
        refine ⟨.attr w' a, ?_, ⟨?_, fun _ _ h => by simp at h, fun _ _ _ => by simp, fun h => by simp at h⟩, fun _ => hc'⟩
        · rw [h3, if_neg (by simp)]
          exact attr_member B hout hf.1
        · rw [meaning_attr D (nochain_fullName hc'), meaning_attr D (nochain_fullName hc), h2]
      · intro args hf _ _ hrec
        unfold Fine at hf
        rw [hc] at hf
        dsimp only at hf
        obtain ⟨w', h1, h2, h3⟩ := hval hf.2
        have hc' : ∀ b, chain (.attr w' b) = none := fun b => by rw [chain, h1]; rfl
        have hl : Loose B.file (.attr w' a) := by
          intro x rest hx
          rw [hc' a] at hx; simp at hx
        have hout := outside_attr B X.keys X.free_non X.free_cls hp.2 hl
        refine ⟨.attr w' a, by rw [h3, if_pos rfl], by rw [visitE_attr v hn a pos hw]; rfl, ?_⟩
        exact X.member_call D hA hout (nochain_fullName hc) (fun b => nochain_fullName (hc' b)) h2 hf.1 hrec
  | .op t ks, pos, hp, hty => by
    have key : Fine c body imp B.key B.io none pos (.op t ks) → Value D imp added v B pos (.op t ks) := by
      intro hf
      cases ks with
      | nil => exact ⟨.op t .nil, rfl, like_op rfl, fun _ => rfl⟩
      | cons p e rest =>
        unfold Fine at hf
        by_cases ht : t = 0
        · rw [if_pos ht] at hf
          subst ht
          obtain ⟨h1, h2, h3, h4⟩ := hf
          obtain ⟨f, g1, g2, g3⟩ := (X.pass D hA e p hp.1 hty.2.1).2 rest h1 h2 h3 (hty.1 rfl)
          obtain ⟨ks', k1, k2⟩ := X.passes D hA rest hp.2 hty.2.2 h4
          obtain ⟨g, g4, g5⟩ := g3 ks' k2
          refine ⟨.op 0 g, ?_, like_op ?_, fun _ => rfl⟩
          · unfold visitE visitEs Basic.Env.visit
            rw [if_pos rfl, g1, g2, k1]
            exact g4
          · rw [g5, meaning, meanings]
        · rw [if_neg ht] at hf
          obtain ⟨e', g1, g2, -⟩ := (X.pass D hA e p hp.1 hty.2.1).1 hf.1
          obtain ⟨ks', k1, k2⟩ := X.passes D hA rest hp.2 hty.2.2 hf.2
          refine ⟨.op t (.cons p e' ks'), ?_, like_op ?_, fun _ => rfl⟩
          · unfold visitE visitEs Basic.Env.visit
            rw [if_neg ht, g1, k1]
          · unfold meaning meanings
            rw [g2.same, like_meanings k2]
    refine ⟨key, fun args hf _ _ _ => X.func_of_value D rfl (by simp) (key ?_) args⟩
    cases ks <;> exact hf
  | .other t ks, pos, hp, hty => by
    have key : Fine c body imp B.key B.io none pos (.other t ks) → Value D imp added v B pos (.other t ks) := by
      intro hf
      unfold Fine at hf
      obtain ⟨ks', k1, k2⟩ := X.passes D hA ks hp hty hf
      refine ⟨.other t ks', ?_, ⟨?_, ?_, ?_, fun h => by simp at h⟩, fun _ => rfl⟩
      · unfold visitE Basic.Env.visit
        rw [k1]; rfl
      · unfold meaning
        rw [like_meanings k2]
      · intro n ks₀ h
        cases h
        exact ⟨ks', rfl, like_meanings k2⟩
      · intro h
        exact absurd rfl (h t ks)
    exact ⟨key, fun args hf _ _ _ => X.func_of_value D rfl (by simp) (key hf) args⟩
theorem Ctx.passes (X : Ctx c body imp added v B) {M : Type} (D : Sem M) (hA : Agree D B.io) : (ks : Es) → ProperAll ks → TypedAll D imp ks →
    FineAll c body imp B.key B.io ks → Values D imp added v B ks
  | .nil, _, _, _ => ⟨.nil, rfl, .nil⟩
  | .cons p e rest, hp, hty, hf => by
    obtain ⟨e', g1, g2, -⟩ := (X.pass D hA e p hp.1 hty.1).1 hf.1
    obtain ⟨ks', k1, k2⟩ := X.passes D hA rest hp.2 hty.2 hf.2
    refine ⟨.cons p e' ks', ?_, .cons g2 k2⟩
    unfold visitEs Basic.Env.visits
    rw [g1, k1]
end

end

/-! ## The whole -/

theorem head_of {X t : Str} (hX : '.' ∉ X) (ht : Tail t) (rest : List Str) : (Str.splitOn '.' (Str.join py"." ((X ++ t) :: rest))).headD [] = X := by
  have : ∃ t', Str.join py"." ((X ++ t) :: rest) = X ++ t' ∧ Tail t' := by
    cases rest with
    | nil => exact ⟨t, by simp [Str.join], ht⟩
    | cons a l =>
      refine ⟨t ++ '.' :: Str.join py"." (a :: l), ?_, tail_append ht _⟩
      simp [Str.join]
  obtain ⟨t', e, ht'⟩ := this
  rw [e, splitOn_head hX ht']

theorem in_package {m p : Str} (h : Imports.InPackage m p) : ∃ t, m = p ++ t ∧ Tail t := by
  rcases h with rfl | ⟨t, rfl⟩
  · exact ⟨[], by simp, Or.inl rfl⟩
  · exact ⟨_, rfl, Or.inr ⟨t, rfl⟩⟩

theorem package_in {c : Imports.Cfg} {m p : Str} (h : Imports.packageOf c m = some p) : Imports.Listed c p ∧ Imports.InPackage m p := by
  unfold Imports.packageOf at h
  have h1 := List.mem_of_find?_eq_some h
  have h2 := List.find?_some h
  refine ⟨by simpa [Imports.Listed] using h1, ?_⟩
  simp only [Bool.or_eq_true, beq_iff_eq] at h2
  rcases h2 with h2 | h2
  · obtain ⟨t, ht⟩ := Str.startsWith_iff.1 h2
    right; exact ⟨t, by rw [ht]; simp⟩
  · left; exact h2.symm

/-- What a torch import binds begins with the name of its package. -/
theorem stands_head {c : Imports.Cfg} (htorch : c.torch = torchPackages) (hmay : c.may = mayPackages) {b : Imports.Bind} (hT : b.Torch c)
    (hdot : '.' ∈ b.as_ → b.member = none ∧ b.module = some b.as_) :
    ∃ p, b.package c = some p ∧ '.' ∉ p ∧ ∃ t, stands b = p ++ t ∧ Tail t := by
  obtain ⟨-, m, hm, -, hl⟩ := hT
  have hs := Imports.packageOf_isSome.2 hl
  obtain ⟨p, hp⟩ := Option.isSome_iff_exists.1 hs
  obtain ⟨hlist, hin⟩ := package_in hp
  have hd : '.' ∉ p := by
    rcases hlist with h | h
    · rw [htorch] at h; exact Exclude.no_dot h
    · rw [hmay] at h; exact (Exclude.may_apart p h).2
  obtain ⟨t, ht, htail⟩ := in_package hin
  refine ⟨p, by unfold Imports.Bind.package; rw [hm]; exact hp, hd, ?_⟩
  unfold stands
  split
  · next h =>
    obtain ⟨-, e⟩ := hdot h
    rw [hm] at e
    have e := Option.some.inj e
    refine ⟨[], ?_, Or.inl rfl⟩
    unfold bound
    rw [← e, ht, splitOn_head hd htail]; simp
  · unfold Imports.Bind.full
    cases b.member with
    | none => dsimp only; rw [hm]; exact ⟨t, ht, htail⟩
    | some x => dsimp only; rw [hm]; exact ⟨t ++ '.' :: x, by simp [ht], tail_append htail x⟩

theorem make_ctx (c : Imports.Cfg) (htorch : c.torch = torchPackages) (hmay : c.may = mayPackages)
    (body : Imports.PBlock) (hreg : ∀ i ∈ body.imps, Imports.Regular c i) (imp : Str → Option Str) (hbinds : Binds c body imp)
    (hsome : ∃ b ∈ body.binds, b.Torch c ∧ ∃ p, b.package c = some p ∧ p ∉ c.may)
    (hown : ∀ x ∈ [py"None", py"TorchClass", py"NonTorchClass"], imp x = none)
    (torch may : List Str) (ht : torch.Perm (Imports.visitBlock c (0, false) body {}).2.file.torch)
    (hm : may.Perm (Imports.visitBlock c (0, false) body {}).2.file.may)
    (v : Uses.Env) (hknown : ∀ x m, v.file.names.get? x = some m → '.' ∉ x → imp x = some m)
    (hknown' : ∀ x m, imp x = some m → v.file.names.get? x = some m ∨ (v.file.names.get? x = none ∧ m = x))
    (hkeep : ∀ x, v.keep x = false) (hcanon : v.canon = canonical shipped)
    (hutils : ∀ w, chain w = some [py"torch", py"utils", py"data"] → v.data w = false) (hdata : ∀ t ks, v.data (.attr (.op t ks) py"data") = true)
    (hit : Str → Str → Bool) (src : E → Str) (key : Nat → Option (Option Str)) (io : Basic.Texts) (hF : Faithful key io) :
    ∃ added, Imports.runImports c body torch may = added.map Sum.inl ++ (Imports.visitBlock c (0, false) body {}).1.toList.map Sum.inr ∧
      Ctx c body imp added v ⟨(Imports.visitBlock c (0, false) body {}).2.file, hit, src, key, io⟩ := by
  obtain ⟨added, h1, -, h3⟩ := Imports.C31_added_imports c body hreg torch may ht hm
  generalize hfile : (Imports.visitBlock c (0, false) body {}).2.file = f
  have hgrow := Imports.visitBlock_grow c (0, false) body {} hreg
  rw [hfile] at hgrow
  have htorch' : ∀ p, p ∈ f.torch ↔ ∃ b ∈ body.binds, b.Torch c ∧ b.package c = some p ∧ p ∉ c.may := by
    intro p
    rw [hgrow.torch p]
    constructor
    · rintro (h | ⟨h, hn⟩)
      · simp at h
      · obtain ⟨b, hb, hT, hp⟩ := Imports.mem_pkgs.1 h
        exact ⟨b, hb, hT, hp, hn⟩
    · rintro ⟨b, hb, hT, hp, hn⟩
      exact Or.inr ⟨Imports.mem_pkgs.2 ⟨b, hb, hT, hp⟩, hn⟩
  refine ⟨added, h1, {
    torch := fun b hb hT p hp hn => (htorch' p).2 ⟨b, hb, hT, hp, hn⟩
    ne := by
      obtain ⟨b, hb, hT, p, hp, hn⟩ := hsome
      exact List.ne_nil_of_mem ((htorch' p).2 ⟨b, hb, hT, hp, hn⟩)
    keys := by
      intro p hp
      obtain ⟨b, -, -, hpk, hn⟩ := (htorch' p).1 hp
      rcases (package_in hpk).1 with h | h
      · rwa [htorch] at h
      · exact absurd h hn
    names := by
      intro x m hx hg
      rw [← hfile] at hg
      obtain ⟨l, b, r, e1, e2, e3, e4, -⟩ := (Imports.C27_last_import_wins c body hreg x m).1 hg
      refine (hbinds.1 x m).2 ⟨b, by rw [e1]; simp, e2, ?_, ?_⟩
      · unfold bound
        rw [e3, Str.splitOn_of_not_mem hx]; rfl
      · unfold stands
        rw [e3, if_neg hx, e4]
    other := by
      intro x hx
      rw [← hfile]
      exact Imports.C27_other_names_partial c body hreg x hx
    may := hmay
    non := hown _ (by simp [nonTorch])
    cls := hown _ (by simp)
    none_ := hown _ (by simp)
    only := by
      intro q hq
      obtain ⟨b, -, -, p, -, ⟨-, h⟩ | ⟨h, rfl⟩⟩ := (h3 q).1 hq
      · rw [htorch] at h; exact Or.inl (values_new h).2
      · exact Or.inr (hmay ▸ h)
    new := by
      intro p hp q hq
      obtain ⟨b, hb, hT, hpk, hn⟩ := (htorch' p).1 hp
      exact (h3 q).2 ⟨b, hb, hT, p, hpk, Or.inl ⟨hn, by rw [htorch]; exact hq⟩⟩
    mayAdded := by
      intro h m rest hi hin
      obtain ⟨b, hb, hT, -, e2⟩ := (hbinds.1 h m).1 hi
      obtain ⟨p, hpk, hd, t, e3, htl⟩ := stands_head htorch hmay hT (hbinds.2.2 b hb)
      have e := head_of hd htl rest
      rw [← e3, e2] at e
      rw [e] at hin ⊢
      exact (h3 p).2 ⟨b, hb, hT, p, hpk, Or.inr ⟨hin, rfl⟩⟩
    known := hknown
    known' := hknown'
    keep := hkeep
    canon := hcanon
    utils := hutils
    data := hdata
    faithful := hF }⟩

mutual
theorem typed_all {M : Type} (D : Sem M) (h : ∀ C x, D.isA C x) (imp : Str → Option Str) : (e : E) → Typed D imp e
  | .name _ => trivial
  | .attr w _ => typed_all D h imp w
  | .op _ .nil => trivial
  | .op t (.cons _ e rest) => ⟨fun _ => by cases e <;> first | exact trivial | exact fun _ _ _ _ _ _ => Or.inr (h _ _), typed_all D h imp e, typedAll_all D h imp rest⟩
  | .other _ ks => typedAll_all D h imp ks
theorem typedAll_all {M : Type} (D : Sem M) (h : ∀ C x, D.isA C x) (imp : Str → Option Str) : (ks : Es) → TypedAll D imp ks
  | .nil => trivial
  | .cons _ e rest => ⟨typed_all D h imp e, typedAll_all D h imp rest⟩
end

/-- **C85**, partial: in default mode, a program whose uses of the libraries are calls (and, but for the third kind, other uses) of APIs of three kinds - those of which only the
package changes, those of which only the name changes, and those of which the names of arguments change (`ChangePrefixMatcher`, `ChangeAPIMatcher`, `GenericMatcher`;
1628 of the 1911 entries with a matcher) - together with members of the other packages that the tables do not know, at places to which the passes go, means the same after the two passes:
the import pass removes the torch imports and puts imports of the Paddle packages in front (`added`), and whatever an expression `e` meant with the old imports, the result means with
the new ones. This holds for every meaning of the syntax and every pair of libraries that agree as the tables say (`Agree`), for programs in which the methods of the second and third kind
are called on objects of the class (`Typed`), for arbitrary expressions around the uses, and for every import style. Missing: APIs with other matchers (each has its own claims, C46 and
others), calls that do not fit or whose result needs several statements (`Fits`), programs in which an own name is the name of a package or an import comes after a use, and
the places and names of the negations of C57 and C63. -/
theorem C85_meaning_partial (c : Imports.Cfg) (htorch : c.torch = torchPackages) (hmay : c.may = mayPackages)
    (body : Imports.PBlock) (hreg : ∀ i ∈ body.imps, Imports.Regular c i) (imp : Str → Option Str) (hbinds : Binds c body imp)
    (hsome : ∃ b ∈ body.binds, b.Torch c ∧ ∃ p, b.package c = some p ∧ p ∉ c.may)
    (hown : ∀ x ∈ [py"None", py"TorchClass", py"NonTorchClass"], imp x = none)
    (torch may : List Str) (ht : torch.Perm (Imports.visitBlock c (0, false) body {}).2.file.torch)
    (hm : may.Perm (Imports.visitBlock c (0, false) body {}).2.file.may)
    (v : Uses.Env) (hknown : ∀ x m, v.file.names.get? x = some m → '.' ∉ x → imp x = some m)
    (hknown' : ∀ x m, imp x = some m → v.file.names.get? x = some m ∨ (v.file.names.get? x = none ∧ m = x))
    (hkeep : ∀ x, v.keep x = false) (hcanon : v.canon = canonical shipped)
    (hutils : ∀ w, chain w = some [py"torch", py"utils", py"data"] → v.data w = false) (hdata : ∀ t ks, v.data (.attr (.op t ks) py"data") = true)
    (hit : Str → Str → Bool) (src : E → Str) (key : Nat → Option (Option Str)) (io : Basic.Texts) (hF : Faithful key io)
    (e : E) (pos : Bool) (hp : Proper e) (hf : Fine c body imp key io none pos e) :
    ∃ added t,
      Imports.runImports c body torch may = added.map Sum.inl ++ (Imports.visitBlock c (0, false) body {}).1.toList.map Sum.inr ∧
      Basic.Env.visit ⟨(Imports.visitBlock c (0, false) body {}).2.file, hit, src, key, io⟩ .other (visitE v pos e) = some t ∧
      ∀ (M : Type) (D : Sem M), Agree D io → Typed D imp e → meaning D (ownNames added) t = meaning D imp e := by
  obtain ⟨added, h1, X⟩ := make_ctx c htorch hmay body hreg imp hbinds hsome hown torch may ht hm v hknown hknown' hkeep hcanon hutils hdata hit src key io hF
  generalize (Imports.visitBlock c (0, false) body {}).2.file = f at X ⊢
  have hend : ∀ (M : Type) (D : Sem M), Agree D io → Typed D imp e → ∃ t, Basic.Env.visit ⟨f, hit, src, key, io⟩ .other (visitE v pos e) = some t ∧
      meaning D (ownNames added) t = meaning D imp e := by
    intro M D hA hty
    obtain ⟨t, g1, g2, -⟩ := (X.pass D hA e pos hp hty).1 hf
    exact ⟨t, g1, g2.same⟩
  let one : Sem Unit := ⟨fun _ => (), fun _ => (), fun _ _ => (), fun _ _ => (), fun _ _ => (), fun _ _ => True⟩
  obtain ⟨t, g1, -⟩ := hend Unit one
    ⟨fun _ _ _ _ _ _ _ => rfl, fun _ _ _ _ _ _ _ => rfl, fun _ _ _ _ _ _ _ => rfl, fun _ _ _ _ _ _ _ _ _ _ _ _ _ _ => rfl,
      fun _ _ _ _ _ _ _ _ _ _ _ => rfl, fun _ _ _ _ _ _ _ _ _ _ _ _ _ _ _ _ _ _ => rfl⟩
    (typed_all one (fun _ _ => trivial) imp e)
  refine ⟨added, t, h1, g1, ?_⟩
  intro M D hA hty
  obtain ⟨t', g1', g2⟩ := hend M D hA hty
  rw [g1] at g1'
  rw [Option.some.inj g1', g2]

/-! ## Example -/

/-- An entry of the table without unsupported arguments and defaults. -/
def rowIs (k cls : Str) (cfg : Matcher.Cfg) (r : Raw) : Bool :=
  r.key.beq (encode k) && r.matcher.beq (encode cls) &&
    decide (r.cfg.argsList = cfg.argsList ∧ r.cfg.overload = cfg.overload ∧ r.cfg.minInput = cfg.minInput ∧ r.cfg.unsupport = cfg.unsupport ∧
      r.cfg.change = cfg.change ∧ r.cfg.defaults = cfg.defaults ∧ r.cfg.paddleApi = cfg.paddleApi)

theorem row_entry {k cls : Str} {cfg : Matcher.Cfg} (hk : decode (encode k) = k) (hcls : decode (encode cls) = cls) (h : apiTable.any (rowIs k cls cfg) = true) :
    ∃ r ∈ apiTable, r.class = cls ∧ r.name = k ∧ r.cfg = cfg := by
  obtain ⟨r, hr, h⟩ := List.any_eq_true.1 h
  unfold rowIs at h
  rw [Bool.and_eq_true, Bool.and_eq_true, decide_eq_true_iff] at h
  obtain ⟨⟨h1, h2⟩, h3⟩ := h
  refine ⟨r, hr, (class_iff cls hcls r).2 h2, (name_iff k hk r).2 h1, ?_⟩
  generalize r.cfg = g at h3
  cases g
  cases cfg
  simpa using h3

theorem prefix_entry {k : Str} (hk : decode (encode k) = k)
    (h : apiTable.any (fun r => r.key.beq (encode k) && r.matcher.beq (encode changePrefix)) = true) :
    ∃ r ∈ apiTable, r.class = py"ChangePrefixMatcher" ∧ r.name = k := by
  obtain ⟨r, hr, h⟩ := List.any_eq_true.1 h
  rw [Bool.and_eq_true] at h
  exact ⟨r, hr, (class_iff changePrefix (by decide) r).2 h.2, (name_iff k hk r).2 h.1⟩

theorem not_listed {C a : Str} (hC : C ∈ classes) (hk : decode (encode (C ++ py"." ++ a)) = C ++ py"." ++ a)
    (h1 : aliasTable.all (fun x => !(x.1.beq (encode (C ++ py"." ++ a)))) = true)
    (h2 : apiTable.all (fun r => !(r.key.beq (encode (C ++ py"." ++ a)))) = true) : ¬ Listed shipped (C ++ py"." ++ a) := by
  rw [← listed_iff]
  have a2 := Pipeline.not_decoded apiTable (·.key) _ hk h2
  rw [← api_keys] at a2
  unfold inApi
  rw [Pipeline.canonical_none hk h1, Bool.eq_false_iff.2 (fun h => a2 (Dict.has_iff.1 h))]
  simp only [classes, List.mem_cons, List.not_mem_nil, or_false] at hC
  rcases hC with rfl | rfl | rfl | rfl | rfl <;> simp [shipped, wildcards, matchDots]

/-- A method of tensors only. -/
theorem plain_method {imp : Str → Option Str} {key : Nat → Option (Option Str)} {T : Basic.Texts} {args : Es} {a : Str}
    (hT : ∃ r ∈ apiTable, canonical shipped (py"torch.Tensor" ++ py"." ++ a) = r.name ∧ Accepts imp key T r args ∧
      (r.class = py"GenericMatcher" → ¬ FirstSelf args) ∧ ∃ b, NewMethod py"torch.Tensor" r b)
    (hrest : ∀ C ∈ classes.tail, decode (encode (C ++ py"." ++ a)) = C ++ py"." ++ a ∧
      aliasTable.all (fun x => !(x.1.beq (encode (C ++ py"." ++ a)))) = true ∧
      apiTable.all (fun r => !(r.key.beq (encode (C ++ py"." ++ a)))) = true) : PlainMethod imp key T args a := by
  intro C hC hl
  by_cases h : C ∈ classes.tail
  · obtain ⟨h1, h2, h3⟩ := hrest C h
    exact absurd hl (not_listed hC h1 h2 h3)
  · have : C = py"torch.Tensor" := by
      rcases List.mem_cons.1 (show C ∈ py"torch.Tensor" :: classes.tail from hC) with h' | h'
      · exact h'
      · exact absurd h' h
    subst this
    exact hT

namespace Ex
/-- `import torch` / `from torch.nn.modules.activation import ReLU as R` / `import numpy as np` -/
def body : Imports.PBlock :=
  .cons (.imp (.import_ [{ name := py"torch" }]))
    (.cons (.imp (.from_ (some py"torch.nn.modules.activation") 0 [{ name := py"ReLU", asname := some py"R" }]))
      (.cons (.imp (.import_ [{ name := py"numpy", asname := some py"np" }])) .nil))

def imp (x : Str) : Option Str :=
  if x = py"torch" then some py"torch" else if x = py"R" then some py"torch.nn.modules.activation.ReLU" else none

def env : Uses.Env where
  file := { names := [(py"torch", py"torch"), (py"R", py"torch.nn.modules.activation.ReLU")] }
  keep _ := false
  canon := canonical shipped
  data e := !Str.contains (Uses.fullText e) py"utils.data"

/-- `y = R()(torch.nn.functional.relu(x).arccos().fix().ger(vec2=torch.vdot(x, other=x)))`, an assignment (tag 1). -/
def expr (kw : Str → Nat) : E :=
  .other 1 (.cons false (.name py"y") (.cons true
    (.op 0 (.cons true (.op 0 (.cons true (.name py"R") .nil)) (.cons false
      (.op 0 (.cons true (.attr
        (.op 0 (.cons true (.attr
          (.op 0 (.cons true (.attr
            (.op 0 (.cons true (.attr (.attr (.attr (.name py"torch") py"nn") py"functional") py"relu") (.cons false (.name py"x") .nil)))
            py"arccos") .nil))
          py"fix") .nil))
        py"ger") (.cons false (.other (kw py"vec2") (.cons true
          (.op 0 (.cons true (.attr (.name py"torch") py"vdot") (.cons false (.name py"x")
            (.cons false (.other (kw py"other") (.cons true (.name py"x") .nil)) .nil)))) .nil)) .nil))) .nil))) .nil))

theorem regular : ∀ i ∈ body.imps, Imports.Regular Imports.Ex.cfg i := by
  intro i hi
  simp only [body, Imports.PBlock.imps, Imports.PStmt.imps, List.mem_append, List.mem_cons, List.not_mem_nil, or_false] at hi
  rcases hi with rfl | rfl | rfl
  · exact ⟨by decide, by decide⟩
  · exact ⟨by decide, by decide, fun _ => ⟨_, rfl, by decide⟩⟩
  · exact ⟨by decide, by decide⟩

theorem binds_eq : body.binds = [⟨some py"torch", 0, none, py"torch"⟩, ⟨some py"torch.nn.modules.activation", 0, some py"ReLU", py"R"⟩,
    ⟨some py"numpy", 0, none, py"np"⟩] := by decide

theorem t1 : (⟨some py"torch", 0, none, py"torch"⟩ : Imports.Bind).Torch Imports.Ex.cfg := by rw [← Imports.torchB_iff]; decide
theorem t2 : (⟨some py"torch.nn.modules.activation", 0, some py"ReLU", py"R"⟩ : Imports.Bind).Torch Imports.Ex.cfg := by rw [← Imports.torchB_iff]; decide
theorem t3 : ¬ (⟨some py"numpy", 0, none, py"np"⟩ : Imports.Bind).Torch Imports.Ex.cfg := by rw [← Imports.torchB_iff]; decide

theorem binds : Binds Imports.Ex.cfg body imp := by
  rw [Binds, binds_eq]
  refine ⟨?_, ?_, ?_⟩
  · intro x m
    simp only [List.mem_cons, List.not_mem_nil, or_false, exists_eq_or_imp, exists_eq_left, t1, t2, t3, true_and, false_and, or_false]
    have e1 : bound ⟨some py"torch", 0, none, py"torch"⟩ = py"torch" := by decide
    have e2 : stands ⟨some py"torch", 0, none, py"torch"⟩ = py"torch" := by decide
    have e3 : bound ⟨some py"torch.nn.modules.activation", 0, some py"ReLU", py"R"⟩ = py"R" := by decide
    have e4 : stands ⟨some py"torch.nn.modules.activation", 0, some py"ReLU", py"R"⟩ = py"torch.nn.modules.activation.ReLU" := by decide
    rw [e1, e2, e3, e4]
    unfold imp
    constructor
    · intro h
      split at h
      · next hx => exact Or.inl ⟨hx.symm, Option.some.inj h⟩
      · split at h
        · next hx => exact Or.inr ⟨hx.symm, Option.some.inj h⟩
        · simp at h
    · rintro (⟨rfl, rfl⟩ | ⟨rfl, rfl⟩)
      · rw [if_pos rfl]
      · rw [if_neg (by decide), if_pos rfl]
  · intro b hb hT
    simp only [List.mem_cons, List.not_mem_nil, or_false] at hb
    rcases hb with rfl | rfl | rfl
    · exact absurd t1 hT
    · exact absurd t2 hT
    · decide
  · intro b hb hd
    simp only [List.mem_cons, List.not_mem_nil, or_false] at hb
    rcases hb with rfl | rfl | rfl
    · exact absurd hd (by decide)
    · exact absurd hd (by decide)
    · exact absurd hd (by decide)

theorem unhidden {l : List Str} (h : ∀ b ∈ l, b ≠ py"*" ∧ b ≠ py"np" ∧ b ≠ py"ndarray" ∧ b ≠ py"args" ∧ b ≠ py"arg") : Unhidden Imports.Ex.cfg body l := by
  intro b hb
  obtain ⟨h1, h2, h3⟩ := h b hb
  refine ⟨h1, ?_, h3⟩
  rw [binds_eq]
  intro b' hb' hT
  simp only [List.mem_cons, List.not_mem_nil, or_false] at hb'
  rcases hb' with rfl | rfl | rfl
  · exact absurd t1 hT
  · exact absurd t2 hT
  · exact fun e => h2 e.symm

theorem visible {n t : Str} (h1 : n = py"torch" ++ py"." ++ t) (h2 : Still (Str.splitOn '.' n))
    (h3 : ∀ b ∈ Str.splitOn '.' n, b ≠ py"*" ∧ b ≠ py"np" ∧ b ≠ py"ndarray" ∧ b ≠ py"args" ∧ b ≠ py"arg")
    (h4 : (Str.splitOn '.' n).headD [] = py"torch") : Visible Imports.Ex.cfg body imp n where
  still := h2
  unhidden := unhidden h3
  own := by
    intro m hm
    rw [h4] at hm ⊢
    simp [imp] at hm
    exact hm.symm
  package := ⟨⟨some py"torch", 0, none, py"torch"⟩, by rw [binds_eq]; simp, t1, py"torch", by decide, by decide, t, h1⟩

section
variable {key : Nat → Option (Option Str)} {T : Basic.Texts}

theorem good (dropped : List Str) (args : Es) (h : ∀ a ∈ Basic.Es.toList args, ∀ t ks, a.2 ≠ .other t ks) : GoodArgs key dropped args :=
  ⟨Basic.Es.toList args, [], by simp, fun a ha t ks e => absurd e (h a ha t ks), [], rfl, by simp, by simp⟩

theorem seenRelu : Visible Imports.Ex.cfg body imp py"torch.nn.functional.relu" :=
  visible (t := py"nn.functional.relu") (by decide) (Or.inl (by decide)) (by decide) (by decide)

theorem canonRelu : canonical shipped py"torch.nn.functional.relu" = py"torch.nn.functional.relu" := Pipeline.canonical_none (by decide) (by decide +kernel)

theorem newRelu : ∃ r ∈ apiTable, r.class = py"ChangePrefixMatcher" ∧ r.name = py"torch.nn.functional.relu" ∧ NewApi r py"paddle.nn.functional.relu" := by
  obtain ⟨r, hr, hc, hn⟩ := prefix_entry (k := py"torch.nn.functional.relu") (by decide) (by decide +kernel)
  exact ⟨r, hr, hc, hn, Or.inl ⟨hc, by rw [hn]; decide +kernel, by rw [hn]; decide⟩⟩

theorem relu (args : Es) (h : ∀ a ∈ Basic.Es.toList args, ∀ t ks, a.2 ≠ .other t ks) :
    KnownApi Imports.Ex.cfg body imp key T (some args) py"torch.nn.functional.relu" := by
  obtain ⟨r, hr, hc, hn, hp⟩ := newRelu
  exact ⟨⟨r, hr, canonRelu.trans hn.symm, Or.inl ⟨hc, good _ _ h⟩, _, hp⟩, by decide, seenRelu, canonRelu.symm ▸ seenRelu⟩

theorem reluClass : KnownApi Imports.Ex.cfg body imp key T (some .nil) py"torch.nn.modules.activation.ReLU" := by
  have hcan : canonical shipped py"torch.nn.modules.activation.ReLU" = py"torch.nn.ReLU" :=
    Pipeline.canonical_some (by decide) (by decide) (by decide +kernel)
  have hv : Visible Imports.Ex.cfg body imp py"torch.nn.modules.activation.ReLU" :=
    visible (t := py"nn.modules.activation.ReLU") (by decide) (Or.inl (by decide)) (by decide) (by decide)
  have hv' : Visible Imports.Ex.cfg body imp py"torch.nn.ReLU" :=
    visible (t := py"nn.ReLU") (by decide) (Or.inl (by decide)) (by decide) (by decide)
  obtain ⟨r, hr, hc, hn⟩ := prefix_entry (k := py"torch.nn.ReLU") (by decide) (by decide +kernel)
  exact ⟨⟨r, hr, hcan.trans hn.symm, Or.inl ⟨hc, good _ _ (by simp [Basic.Es.toList])⟩, py"paddle.nn.ReLU",
    Or.inl ⟨hc, by rw [hn]; decide +kernel, by rw [hn]; decide⟩⟩, by decide, hv, hcan.symm ▸ hv'⟩

theorem arccos : PlainMethod imp key T .nil py"arccos" := by
  obtain ⟨r, hr, hc, hn⟩ := prefix_entry (k := py"torch.Tensor.acos") (by decide) (by decide +kernel)
  refine plain_method ⟨r, hr, ?_, Or.inl ⟨hc, good _ _ (by simp [Basic.Es.toList])⟩, by rw [hc]; intro h; exact absurd h (by decide),
    py"acos", by decide, Or.inl ⟨hc, hn⟩⟩ (by decide +kernel)
  rw [hn]
  exact Pipeline.canonical_some (by decide) (by decide) (by decide +kernel)

theorem fix : PlainMethod imp key T .nil py"fix" := by
  obtain ⟨r, hr, hc, hn, hcfg⟩ := row_entry (k := py"torch.Tensor.fix") (cls := py"ChangeAPIMatcher") (cfg := { paddleApi := some py"paddle.Tensor.trunc" })
    (by decide) (by decide) (by decide +kernel)
  refine plain_method ⟨r, hr, ?_, Or.inr (Or.inl ⟨hc, good _ _ (by simp [Basic.Es.toList])⟩), by rw [hc]; intro h; exact absurd h (by decide),
    py"trunc", by decide, Or.inr ⟨by rw [hc]; decide, py"paddle.Tensor", by decide, by rw [hcfg]; rfl, (dotted_iff _).1 (by decide)⟩⟩ (by decide +kernel)
  rw [hn]
  exact Pipeline.canonical_none (by decide) (by decide +kernel)

theorem ger (v : E) : PlainMethod imp key T (.cons false (.other (T.kw py"vec2") (.cons true v .nil)) .nil) py"ger" := by
  obtain ⟨r, hr, hc, hn, hcfg⟩ := row_entry (k := py"torch.Tensor.ger") (cls := py"GenericMatcher")
    (cfg := { paddleApi := some py"paddle.Tensor.outer", minInput := 1, argsList := [py"vec2"], change := [(py"vec2", .one py"y")] })
    (by decide) (by decide) (by decide +kernel)
  refine plain_method ⟨r, hr, ?_, Or.inr (Or.inr ⟨hc, [], [(py"vec2", v)], ?_, ?_, ?_, ?_⟩), ?_,
    py"outer", by decide, Or.inr ⟨by rw [hc]; decide, py"paddle.Tensor", by decide, by rw [hcfg]; rfl, (dotted_iff _).1 (by decide)⟩⟩ (by decide +kernel)
  · rw [hn]
    exact Pipeline.canonical_none (by decide) (by decide +kernel)
  · exact ⟨[.other (T.kw py"vec2") (.cons true v .nil)], rfl, by simp, .cons ⟨true, rfl⟩ .nil⟩
  · rw [hcfg]
    have : ([(py"vec2", v)].map (·.1)) = [py"vec2"] := rfl
    rw [this]
    exact ⟨by decide, by decide, by decide, by decide, by decide, by decide, by decide, by decide, by decide, by decide, by decide⟩
  · rw [hcfg]
    intro kv hkv
    simp only [List.zip_nil_right, List.nil_append, List.mem_cons, List.not_mem_nil, or_false] at hkv
    subst hkv
    intro h
    exact absurd (show py"dtype" ∈ [py"y"] from h) (by decide)
  · rw [hcfg]
    intro kv hkv
    simp [missing] at hkv
  · rintro - ⟨b, rest, h⟩
    simp at h

theorem vdot : KnownApi Imports.Ex.cfg body imp key T
    (some (.cons false (.name py"x") (.cons false (.other (T.kw py"other") (.cons true (.name py"x") .nil)) .nil))) py"torch.vdot" := by
  have hcan : canonical shipped py"torch.vdot" = py"torch.vdot" := Pipeline.canonical_none (by decide) (by decide +kernel)
  have hv : Visible Imports.Ex.cfg body imp py"torch.vdot" := visible (t := py"vdot") (by decide) (Or.inl (by decide)) (by decide) (by decide)
  obtain ⟨r, hr, hc, hn, hcfg⟩ := row_entry (k := py"torch.vdot") (cls := py"GenericMatcher")
    (cfg := { paddleApi := some py"paddle.dot", minInput := 2, argsList := [py"input", py"other", py"*", py"out"], change := [(py"input", .one py"x"), (py"other", .one py"y")] })
    (by decide) (by decide) (by decide +kernel)
  refine ⟨⟨r, hr, hcan.trans hn.symm, Or.inr (Or.inr ⟨hc, [.name py"x"], [(py"other", .name py"x")], ?_, ?_, ?_, ?_⟩), py"paddle.dot",
    Or.inr ⟨by rw [hc]; decide, ⟨by rw [hcfg], (dotted_iff _).1 (by decide)⟩, by rw [hn]; decide +kernel⟩⟩, by decide, hv, hcan.symm ▸ hv⟩
  · exact ⟨[.other (T.kw py"other") (.cons true (.name py"x") .nil)], rfl, by simp, .cons ⟨true, rfl⟩ .nil⟩
  · rw [hcfg]
    exact ⟨by decide, by decide, by decide, by decide, by decide, by decide, by decide, by decide, by decide, by decide, by decide⟩
  · rw [hcfg]
    intro kv hkv h
    have : kv.1 = py"input" ∨ kv.1 = py"other" := by
      rcases List.mem_append.1 hkv with hkv | hkv
      · left
        have := List.of_mem_zip hkv
        have e : kv ∈ [(py"input", E.name py"x")] := hkv
        simp only [List.mem_cons, List.not_mem_nil, or_false] at e
        rw [e]
      · right
        simp only [List.mem_cons, List.not_mem_nil, or_false] at hkv
        rw [hkv]
    rcases this with e | e <;> rw [e] at h <;> exact absurd h (by decide)
  · rw [hcfg]
    intro kv hkv
    simp [missing] at hkv

theorem own {i : Str} (h : i = py"x" ∨ i = py"y") : OwnName i := by
  rcases h with rfl | rfl
  · exact ⟨by decide +kernel, by decide, ⟨by rintro ⟨t, h⟩; simp at h, by rintro ⟨t, h⟩; simp at h⟩⟩
  · exact ⟨by decide +kernel, by decide, ⟨by rintro ⟨t, h⟩; simp at h, by rintro ⟨t, h⟩; simp at h⟩⟩

theorem fine : Fine Imports.Ex.cfg body imp key T none false (expr T.kw) := by
  have hR : imp py"R" = some py"torch.nn.modules.activation.ReLU" := by decide
  have hx : imp py"x" = none := by decide
  have hy : imp py"y" = none := by decide
  have ht : imp py"torch" = some py"torch" := by decide
  simp only [expr, Fine, FineAll, if_true, and_true, hR, hx, hy, chain, Option.map_some, Option.map_none, List.cons_append, List.nil_append, ht, looked]
  refine ⟨own (Or.inr rfl), ⟨⟨by simp, Or.inl reluClass⟩, by simp, by simp⟩, by simp, by simp, ⟨ger _, ⟨fix, ⟨arccos, ⟨Or.inl (by decide),
    Or.inl (relu _ (by simp [Basic.Es.toList]))⟩, by simp, by simp, own (Or.inl rfl)⟩, by simp, by simp⟩, by simp, by simp⟩, by simp, by simp, ?_⟩
  exact ⟨⟨Or.inl (by decide), Or.inl vdot⟩, by simp, by simp, own (Or.inl rfl), own (Or.inl rfl)⟩
end

theorem some_torch : ∃ b ∈ body.binds, b.Torch Imports.Ex.cfg ∧ ∃ p, b.package Imports.Ex.cfg = some p ∧ p ∉ Imports.Ex.cfg.may :=
  ⟨⟨some py"torch", 0, none, py"torch"⟩, by rw [binds_eq]; simp, t1, py"torch", by decide, by decide⟩

theorem known : ∀ x m, env.file.names.get? x = some m → '.' ∉ x → imp x = some m := by
  intro x m h _
  have := Dict.mem_of_get? h
  simp only [env, List.mem_cons, List.not_mem_nil, or_false, Prod.mk.injEq] at this
  rcases this with ⟨rfl, rfl⟩ | ⟨rfl, rfl⟩ <;> decide

theorem known' : ∀ x m, imp x = some m → env.file.names.get? x = some m ∨ (env.file.names.get? x = none ∧ m = x) := by
  intro x m h
  unfold imp at h
  split at h
  · next hx => rw [hx, ← Option.some.inj h]; left; decide
  · split at h
    · next hx => rw [hx, ← Option.some.inj h]; left; decide
    · simp at h

theorem utils : ∀ w, chain w = some [py"torch", py"utils", py"data"] → env.data w = false := by
  intro w hw
  show (!Str.contains (Uses.fullText w) py"utils.data") = false
  rw [Uses.fullText_chain hw]; decide

theorem data : ∀ t ks, env.data (.attr (.op t ks) py"data") = true := by
  intro t ks
  show (!Str.contains (py"None" ++ py"." ++ py"data") py"utils.data") = true
  decide

instance : Countable Char := ⟨Char.toNat, fun _ _ h => Char.toNat_inj.1 h⟩
instance : Countable Str := inferInstanceAs (Countable (List Char))
deriving instance Countable for Uses.E, Uses.Es

/-- There are such texts. -/
theorem faithful : ∃ key io, Faithful key io := by
  classical
  obtain ⟨f, hf⟩ := exists_injective_nat E
  obtain ⟨g, hg⟩ := exists_injective_nat Str
  have hinj : Function.Injective fun e => List.replicate (f e) 'a' := by
    intro a b h
    have := congrArg List.length h
    simp only [List.length_replicate] at this
    exact hf this
  refine ⟨fun n => if h : ∃ k, g k = n then some (some h.choose) else none,
    ⟨fun e => List.replicate (f e) 'a', fun s => if h : ∃ e, List.replicate (f e) 'a' = s then h.choose else .name [], g, fun _ => false⟩, ?_, ?_, ?_⟩
  · intro e
    have h : ∃ e', List.replicate (f e') 'a' = List.replicate (f e) 'a' := ⟨e, rfl⟩
    show (if h : ∃ e', List.replicate (f e') 'a' = List.replicate (f e) 'a' then h.choose else .name []) = e
    rw [dif_pos h]
    exact hinj h.choose_spec
  · intro e h
    have : 'N' ∈ List.replicate (f e) 'a' := by
      show 'N' ∈ List.replicate (f e) 'a'
      rw [show List.replicate (f e) 'a' = py"None" from h]; simp
    exact absurd (List.eq_of_mem_replicate this) (by decide)
  · intro k
    have h : ∃ k', g k' = g k := ⟨k, rfl⟩
    show (if h : ∃ k', g k' = g k then some (some h.choose) else none) = some (some k)
    rw [dif_pos h, hg h.choose_spec]

end Ex

open Ex in
/-- The result is `y = paddle.nn.ReLU()(paddle.nn.functional.relu(x).acos().trunc().outer(y=paddle.dot(x=x, y=x)))`, under `import paddle`. -/
example (hit : Str → Str → Bool) (src : E → Str) : ∃ key io, Faithful key io ∧
    ∃ added t, Imports.runImports Imports.Ex.cfg body [py"torch"] [] = added.map Sum.inl ++ (Imports.visitBlock Imports.Ex.cfg (0, false) body {}).1.toList.map Sum.inr ∧
      Basic.Env.visit ⟨(Imports.visitBlock Imports.Ex.cfg (0, false) body {}).2.file, hit, src, key, io⟩ .other (visitE env false (expr io.kw)) = some t ∧
      ∀ (M : Type) (D : Sem M), Agree D io → Typed D imp (expr io.kw) → meaning D (ownNames added) t = meaning D imp (expr io.kw) := by
  obtain ⟨key, io, hF⟩ := faithful
  refine ⟨key, io, hF, C85_meaning_partial Imports.Ex.cfg rfl rfl body regular imp binds some_torch (by decide) [py"torch"] [] (List.Perm.of_eq (by decide))
    (List.Perm.of_eq (by decide)) env known known' (fun _ => rfl) rfl utils data hit src key io hF (expr io.kw) false ?_ fine⟩
  simp [expr, Proper, ProperAll]

/-! ## The entries that the claim is about -/

/-- The last component after a class. -/
def memberOf (l : List Str) (s : Str) : Bool := l.any fun C => Str.startsWith s (C ++ py".") && !((s.drop (C.length + 1)).contains '.')

theorem memberOf_iff {l : List Str} {s : Str} : memberOf l s = true ↔ ∃ C ∈ l, ∃ b, '.' ∉ b ∧ s = C ++ py"." ++ b := by
  unfold memberOf
  rw [List.any_eq_true]
  refine exists_congr fun C => and_congr_right fun _ => ?_
  rw [Bool.and_eq_true, Str.startsWith_iff]
  constructor
  · rintro ⟨⟨t, ht⟩, h⟩
    refine ⟨t, ?_, ht⟩
    rw [ht, show C.length + 1 = (C ++ py".").length by simp, List.drop_left] at h
    simpa using h
  · rintro ⟨b, hb, rfl⟩
    refine ⟨⟨b, rfl⟩, ?_⟩
    rw [show C.length + 1 = (C ++ py".").length by simp, List.drop_left]
    simpa using hb

def reachRow (r : Raw) : Bool :=
  if r.matcher.beq (encode py"ChangePrefixMatcher") then
    (Matcher.prefixApi torchPackages r.name).isSome || memberOf classes r.name
  else if r.matcher.beq (encode py"ChangeAPIMatcher") || r.matcher.beq (encode py"GenericMatcher") then
    match r.cfg.paddleApi with
    | some p => p.head? == some '\'' || Basic.dotted p && (memberOf classes r.name && memberOf paddleClasses p ||
        decide (torchPackages.get? ((Str.splitOn '.' r.name).headD []) = some ((Str.splitOn '.' p).headD [])))
    | none => false
  else true

/-- Every entry of the three kinds has a Paddle name as C85 asks for it, but for `torch.autograd.Function.backward`, `torch.torch.int32` and the entries whose Paddle text is a
string literal. -/
theorem C85_reach : ∀ r ∈ apiTable, r.class ∈ [py"ChangePrefixMatcher", py"ChangeAPIMatcher", py"GenericMatcher"] →
    r.name ≠ py"torch.autograd.Function.backward" → r.name ≠ py"torch.torch.int32" →
      (∃ p, NewApi r p) ∨ (∃ C ∈ classes, (∃ a, r.name = C ++ py"." ++ a) ∧ ∃ b, NewMethod C r b) ∨ ∃ p, r.cfg.paddleApi = some ('\'' :: p) := by
  intro r hr hc hn hi
  have h : apiTable.all (fun r => r.key.beq (encode py"torch.autograd.Function.backward") || reachRow r) = true := by decide +kernel
  have h := List.all_eq_true.1 h r hr
  rw [Bool.or_eq_true] at h
  have h := h.resolve_left fun h => hn ((name_iff _ (by decide) r).2 h)
  have hcl : ∀ c, decode (encode c) = c → (r.matcher.beq (encode c) = true ↔ r.class = c) := fun c hc => (class_iff c hc r).symm
  unfold reachRow at h
  by_cases h1 : r.class = py"ChangePrefixMatcher"
  · rw [if_pos ((hcl _ (by decide)).2 h1), Bool.or_eq_true] at h
    rcases h with h | h
    · obtain ⟨p, hp⟩ := Option.isSome_iff_exists.1 h
      exact Or.inl ⟨p, Or.inl ⟨h1, hp, hi⟩⟩
    · obtain ⟨C, hC, b, hb, e⟩ := memberOf_iff.1 h
      exact Or.inr (Or.inl ⟨C, hC, ⟨b, e⟩, b, hb, Or.inl ⟨h1, e⟩⟩)
  · have h2 : r.class = py"ChangeAPIMatcher" ∨ r.class = py"GenericMatcher" := by simpa [h1] using hc
    rw [if_neg (fun h => h1 ((hcl _ (by decide)).1 h)), if_pos (by rw [Bool.or_eq_true, hcl _ (by decide), hcl _ (by decide)]; exact h2)] at h
    split at h
    case h_2 => exact absurd h (by simp)
    case h_1 p hp =>
      rw [Bool.or_eq_true, Bool.and_eq_true, Bool.or_eq_true, Bool.and_eq_true, decide_eq_true_iff] at h
      rcases h with h | ⟨hd, h | h⟩
      · cases p with
        | nil => simp at h
        | cons x t =>
          simp only [List.head?_cons, beq_iff_eq, Option.some.injEq] at h
          subst h
          exact Or.inr (Or.inr ⟨t, hp⟩)
      · obtain ⟨C, hC, b, hb, e⟩ := memberOf_iff.1 h.1
        obtain ⟨P, hP, b', hb', e'⟩ := memberOf_iff.1 h.2
        exact Or.inr (Or.inl ⟨C, hC, ⟨b, e⟩, b', hb', Or.inr ⟨h1, P, hP, e' ▸ ⟨hp, (dotted_iff _).1 hd⟩⟩⟩)
      · exact Or.inl ⟨p, Or.inr ⟨h1, ⟨hp, (dotted_iff _).1 hd⟩, h⟩⟩

def fitsRow (cfg : Matcher.Cfg) : Bool :=
  cfg.argsList.head? != some py"*" && decide (py"*" ∉ keywordOnly cfg.argsList) && decide (cfg.minInput ≤ (Spec.positional cfg.argsList).length) &&
  decide (((Spec.positional cfg.argsList).take cfg.minInput).Nodup) && decide (∀ k ∈ (Spec.positional cfg.argsList).take cfg.minInput, k ∉ cfg.unsupport) &&
  decide (py"sections" ∉ (Spec.positional cfg.argsList).take cfg.minInput) &&
  decide (∀ k ∈ [py"pin_memory", py"requires_grad", py"out"], Kept cfg k →
    (∀ a ∈ (Spec.positional cfg.argsList).take cfg.minInput, k ∉ newName cfg a) ∧ k ∉ cfg.defaults.map (·.1)) &&
  decide (Kept cfg py"dtype" → py"dtype" ∉ cfg.defaults.map (·.1))

/-- For every entry of the third kind but two there are calls that fit: with the least number of arguments. -/
theorem C85_fits : ∀ r ∈ apiTable, r.class = py"GenericMatcher" → r.name ≠ py"torch.Tensor.cov" → r.name ≠ py"torch.profiler.schedule" →
    Fits r.cfg r.cfg.minInput [] := by
  intro r hr hc hn hi
  have h : apiTable.all (fun r => !(r.matcher.beq (encode py"GenericMatcher")) || r.key.beq (encode py"torch.Tensor.cov") ||
      r.key.beq (encode py"torch.profiler.schedule") || fitsRow r.cfg) = true := by decide +kernel
  have h := List.all_eq_true.1 h r hr
  rw [Bool.or_eq_true, Bool.or_eq_true, Bool.or_eq_true, (class_iff _ (by decide) r).1 hc] at h
  have h := h.resolve_left (by
    rintro ((h | h) | h)
    · simp at h
    · exact hn ((name_iff _ (by decide) r).2 h)
    · exact hi ((name_iff _ (by decide) r).2 h))
  unfold fitsRow at h
  simp only [Bool.and_eq_true, decide_eq_true_iff, bne_iff_ne] at h
  obtain ⟨⟨⟨⟨⟨⟨⟨h1, h2⟩, h3⟩, h4⟩, h5⟩, h6⟩, h7⟩, h8⟩ := h
  exact ⟨h1, h2, h3, by rwa [List.append_nil], by simp, by rwa [List.append_nil], by simp, by simpa using h3,
    by rw [List.append_nil]; exact fun h => h6 h.2, by rwa [List.append_nil], h8⟩

/-! ## A name of the program that is the name of a package -/

/-- Libraries and variables are told apart, and what an expression that is not a call is made of; nothing else: such libraries agree. -/
def twoValued : Sem Bool where
  lib _ := false
  var _ := true
  attr x _ := x
  op _ _ := false
  other _ l := l.any id
  isA _ _ := True

theorem twoValued_agree (io : Basic.Texts) : Agree twoValued io where
  api _ _ _ _ _ _ _ := rfl
  method _ _ _ _ _ _ _ := rfl
  rename _ _ _ _ _ _ _ := rfl
  renameMethod _ _ _ _ _ _ _ _ _ _ _ _ _ _ := rfl
  generic _ _ _ _ _ _ _ _ _ _ _ := by
    unfold paddleCall
    dsimp only
    split
    · split <;> rfl
    · rfl
  genericMethod _ _ _ _ _ _ _ _ _ _ _ _ _ _ _ _ _ _ := by
    unfold paddleCall
    dsimp only
    split
    · split <;> rfl
    · rfl

open Ex in
/-- C85 fails for a program that has a variable `paddle`: the display `[torch.nn.functional.relu, paddle]` (tag 2) becomes `[paddle.nn.functional.relu, paddle]`, and with the
new import `paddle` is the package. -/
theorem C85_capture_negative (hit : Str → Str → Bool) (src : E → Str) (key : Nat → Option (Option Str)) (io : Basic.Texts) (hF : Faithful key io) :
    ∃ added t, Imports.runImports Imports.Ex.cfg body [py"torch"] [] = added.map Sum.inl ++ (Imports.visitBlock Imports.Ex.cfg (0, false) body {}).1.toList.map Sum.inr ∧
      Basic.Env.visit ⟨(Imports.visitBlock Imports.Ex.cfg (0, false) body {}).2.file, hit, src, key, io⟩ .other
        (visitE env false (.other 2 (.cons true (ofText py"torch.nn.functional.relu") (.cons true (.name py"paddle") .nil)))) = some t ∧
      t = .other 2 (.cons true (ofText py"paddle.nn.functional.relu") (.cons true (.name py"paddle") .nil)) ∧
      Agree twoValued io ∧ Typed twoValued imp (.other 2 (.cons true (ofText py"torch.nn.functional.relu") (.cons true (.name py"paddle") .nil))) ∧
      meaning twoValued (ownNames added) t ≠
        meaning twoValued imp (.other 2 (.cons true (ofText py"torch.nn.functional.relu") (.cons true (.name py"paddle") .nil))) := by
  obtain ⟨added, h1, X⟩ := make_ctx Imports.Ex.cfg rfl rfl body regular imp binds some_torch (by decide) [py"torch"] [] (List.Perm.of_eq (by decide))
    (List.Perm.of_eq (by decide)) env known known' (fun _ => rfl) rfl utils data hit src key io hF
  generalize (Imports.visitBlock Imports.Ex.cfg (0, false) body {}).2.file = f at X ⊢
  obtain ⟨r, hr, hcls, hn, hp⟩ := newRelu
  have hknown : KnownApi Imports.Ex.cfg body imp key io none py"torch.nn.functional.relu" :=
    ⟨⟨r, List.mem_append_left _ hr, canonRelu.trans hn.symm, Or.inl hcls, _, hp⟩, by decide, seenRelu, canonRelu.symm ▸ seenRelu⟩
  obtain ⟨hvis, hseen, hcan⟩ := X.seen hknown (Or.inl rfl)
  have hhead := X.new_head (List.mem_append_left _ hr) hp (by rw [hn]; exact seenRelu)
  have hc := chain_ofText py"torch.nn.functional.relu"
  obtain ⟨w, a, e, hdesc⟩ := X.visible_attr hvis
  have hfun : visitE env true (ofText py"torch.nn.functional.relu") = ofText py"torch.nn.functional.relu" := by
    obtain ⟨s, h2, h3⟩ := X.first (proper_ofText _) hc (h := py"torch") (m := py"torch") (rest := [py"nn", py"functional", py"relu"]) (by decide)
    have : s = py"torch.nn.functional.relu" := by
      rcases h2 with h2 | h2
      · rw [h2]; decide
      · rw [h2]; exact canonRelu
    subst this
    rw [e] at hc h3 ⊢
    unfold visitE
    rw [if_neg (by rw [still_descends env.data hc (X.utils w) hvis.still]; simp), h3]
  have hpad : visitE env true (.name py"paddle") = .name py"paddle" := by
    exact Uses.visit_unbound env true (e := .name py"paddle") (h := py"paddle") (rest := []) (by simp [Proper]) rfl (by decide)
  refine ⟨added, _, h1, ?_, rfl, twoValued_agree io, typed_all twoValued (fun _ _ => trivial) imp _, ?_⟩
  · unfold visitE visitEs visitEs visitEs Basic.Env.visit Basic.Env.visits Basic.Env.visits Basic.Env.visits
    rw [hfun, hpad]
    have h3 : Basic.Env.visit ⟨f, hit, src, key, io⟩ .other (ofText py"torch.nn.functional.relu") = some (ofText py"paddle.nn.functional.relu") := by
      rw [e, visit_attr_still _ a .other hdesc, if_neg (by simp), ← e]
      exact attr_seen _ X.keys hseen (List.mem_append_left _ hr) (Or.inl hcls) (canonRelu.trans hn.symm) hp
    have h4 : Basic.Env.visit ⟨f, hit, src, key, io⟩ .other (.name py"paddle") = some (.name py"paddle") := by
      unfold Basic.Env.visit
      rw [if_neg (by simp)]
    rw [h3, h4]
    rfl
  · have hadd : py"paddle" ∈ added := hhead
    have m1 := meaning_ofText twoValued (added := added) (s := py"paddle.nn.functional.relu") hhead
    have m2 : meaning twoValued (ownNames added) (.name py"paddle") = false := by
      rw [meaning_bound twoValued (h := py"paddle") (m := py"paddle") (rest := []) rfl (by unfold ownNames; rw [if_pos hadd])]; rfl
    have m3 : meaning twoValued imp (.name py"paddle") = true := by decide
    have op : ∀ i f, meaning twoValued i (.other 2 (.cons true f (.cons true (.name py"paddle") .nil))) =
        [meaning twoValued i f, meaning twoValued i (.name py"paddle")].any id := fun i f => by
      conv_lhs => unfold meaning
      simp only [meanings]; rfl
    rw [op, op, m1, m2, m3]
    simp [twoValued]

end Verif.Whole

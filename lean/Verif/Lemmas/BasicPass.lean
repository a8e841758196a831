import Verif.Lemmas.Free
import Verif.Lemmas.GenericCall

/-!
# The basic pass on names, members and calls
-/

namespace Verif.Whole
open Verif Verif.Data
open Verif.Dispatch
open Verif.Uses (E Es chain through Proper ProperAll visitE visitEs ofText descends)
open Verif.Basic (Place argPlace onReceiver)
open Verif.Matcher (prefixApi prefixDropped renameDropped classPatterns matchDots)

/-! ## Texts of expressions -/

/-- If the expression is a dotted name, its first component has nothing to do with the tables. -/
def Loose (f : File) (e : E) : Prop := ∀ h rest, chain e = some (h :: rest) → Free f h

theorem Loose.value {f : File} {w : E} {a : Str} (h : Loose f (.attr w a)) : Loose f w := by
  intro x rest hc
  exact h x (rest ++ [a]) (by rw [chain, hc]; rfl)

theorem tail_append {t : Str} (ht : Tail t) (s : Str) : Tail (t ++ '.' :: s) := by
  rcases ht with rfl | ⟨r, rfl⟩
  · exact Or.inr ⟨s, rfl⟩
  · exact Or.inr ⟨r ++ '.' :: s, rfl⟩

theorem opAttr_cases (black : List Str) (hit : Str → Str → Bool) (s : Str) : opAttr black hit s = nonTorch ∨ opAttr black hit s = py"TorchClass" := by
  unfold opAttr
  split
  · exact Or.inl rfl
  · exact Or.inr rfl

theorem strict_free (B : Basic.Env) (hn : Free B.file nonTorch) (ht : Free B.file py"TorchClass") :
    (e : E) → Loose B.file e → ∃ X t, B.strict e = X ++ t ∧ Tail t ∧ Free B.file X
  | .name i, hl => by
    have hi := hl i [] rfl
    unfold Basic.Env.strict
    simp only [Pipeline.toExpr, fullAttrStrict]
    split
    · exact ⟨nonTorch, [], by simp, Or.inl rfl, hn⟩
    · split
      · exact ⟨nonTorch, [], by simp, Or.inl rfl, hn⟩
      · split
        · exact ⟨nonTorch, [], by simp, Or.inl rfl, hn⟩
        · exact ⟨i, [], by simp, Or.inl rfl, hi⟩
  | .attr w a, hl => by
    obtain ⟨X, t, h1, h2, h3⟩ := strict_free B hn ht w hl.value
    unfold Basic.Env.strict at h1 ⊢
    simp only [Pipeline.toExpr, fullAttrStrict]
    split
    · exact ⟨nonTorch, [], by simp, Or.inl rfl, hn⟩
    · split
      · exact ⟨nonTorch, [], by simp, Or.inl rfl, hn⟩
      · refine ⟨X, t ++ '.' :: a, ?_, tail_append h2 a, h3⟩
        rw [h1]; simp
  | .op t ks, _ => by
    unfold Basic.Env.strict
    simp only [Pipeline.toExpr, fullAttrStrict]
    split
    · exact ⟨nonTorch, [], by simp, Or.inl rfl, hn⟩
    · rcases opAttr_cases (blackList B.file) B.hit (B.src (.op t ks)) with h | h
      · exact ⟨nonTorch, [], by rw [h]; simp, Or.inl rfl, hn⟩
      · exact ⟨py"TorchClass", [], by rw [h]; simp, Or.inl rfl, ht⟩
  | .other t ks, _ => ⟨nonTorch, [], by simp [Basic.Env.strict, Pipeline.toExpr, fullAttrStrict], Or.inl rfl, hn⟩

/-- What is decided about an expression whose text is not an API: nothing, or something about its last component. -/
structure Outside (B : Basic.Env) (e : E) (last : Option Str) : Prop where
  full : ∃ full, replaceModule B.file (B.strict e) = .ok full ∧ startWithTorch B.file full = false ∧ inApi shipped full = false ∧
    (Str.contains full nonTorch = true ∨ (last = none ∧ '.' ∉ full) ∨ ∃ a, last = some a ∧ (Str.splitOn '.' full).getLastD [] = a)

theorem contains_nonTorch (t : Str) : Str.contains (nonTorch ++ t) nonTorch = true := Str.contains_iff.2 ⟨[], t, by simp⟩

theorem strict_attr (B : Basic.Env) (w : E) (a : Str) : B.strict (.attr w a) = nonTorch ∨ B.strict (.attr w a) = B.strict w ++ '.' :: a := by
  unfold Basic.Env.strict
  simp only [Pipeline.toExpr, fullAttrStrict]
  split
  · exact Or.inl rfl
  · split
    · exact Or.inl rfl
    · right; simp

theorem outside_attr (B : Basic.Env) (hf : ∀ p ∈ B.file.torch, p ∈ torchPackages.keys) (hn : Free B.file nonTorch) (ht : Free B.file py"TorchClass")
    {w : E} {a : Str} (ha : '.' ∉ a) (hl : Loose B.file (.attr w a)) : Outside B (.attr w a) (some a) := by
  obtain ⟨X, t, h1, h2, h3⟩ := strict_free B hn ht _ hl
  refine ⟨X ++ t, by rw [h1, h3.replace h2], h3.startWith hf h2, h3.api h2, ?_⟩
  rw [← h1]
  rcases strict_attr B w a with h | h
  · left; rw [h]; simpa using contains_nonTorch []
  · right; right; exact ⟨a, rfl, by rw [h]; exact splitOn_last _ ha⟩

theorem outside_single (B : Basic.Env) (hf : ∀ p ∈ B.file.torch, p ∈ torchPackages.keys) (hn : Free B.file nonTorch) (ht : Free B.file py"TorchClass")
    {e : E} (he : ∀ w a, e ≠ .attr w a) (hl : Loose B.file e) : Outside B e none := by
  obtain ⟨X, t, h1, h2, h3⟩ := strict_free B hn ht _ hl
  refine ⟨X ++ t, by rw [h1, h3.replace h2], h3.startWith hf h2, h3.api h2, ?_⟩
  rw [← h1]
  cases e with
  | attr w a => exact absurd rfl (he w a)
  | name i =>
    have hi := hl i [] rfl
    unfold Basic.Env.strict
    simp only [Pipeline.toExpr, fullAttrStrict]
    split
    · left; simpa using contains_nonTorch []
    · split
      · left; simpa using contains_nonTorch []
      · split
        · left; simpa using contains_nonTorch []
        · right; left; exact ⟨trivial, hi.dot⟩
  | op t ks =>
    unfold Basic.Env.strict
    simp only [Pipeline.toExpr, fullAttrStrict]
    split
    · left; simpa using contains_nonTorch []
    · rcases opAttr_cases (blackList B.file) B.hit (B.src (.op t ks)) with h | h
      · left; rw [h]; simpa using contains_nonTorch []
      · right; left; exact ⟨trivial, by rw [h]; decide⟩
  | other t ks =>
    left
    simpa [Basic.Env.strict, Pipeline.toExpr, fullAttrStrict] using contains_nonTorch []

/-! ## Lookups -/

theorem cls_mem (c : Cls) : c.name ∈ classes := by cases c <;> simp [Cls.name, classes]

theorem class_not_loader {C a : Str} (hC : C ∈ classes) : C ++ py"." ++ a ≠ dataLoader := by
  intro h
  simp only [classes, List.mem_cons, List.not_mem_nil, or_false] at hC
  rcases hC with rfl | rfl | rfl | rfl | rfl <;> simp [dataLoader] at h

theorem class_not_int32 {C a : Str} (hC : C ∈ classes) : C ++ py"." ++ a ≠ py"torch.torch.int32" := by
  intro h
  simp only [classes, List.mem_cons, List.not_mem_nil, or_false] at hC
  rcases hC with rfl | rfl | rfl | rfl | rfl <;> simp at h

theorem class_head {C : Str} (hC : C ∈ classes) : ∃ t, C = py"torch" ++ '.' :: t := by
  simp only [classes, List.mem_cons, List.not_mem_nil, or_false] at hC
  rcases hC with rfl | rfl | rfl | rfl | rfl <;> exact ⟨_, rfl⟩

theorem has_matcher {r : Raw} (hc : r.class ≠ []) : r.matcher ≠ 0 := by
  intro e
  apply hc
  unfold Raw.class
  rw [e]; decide

theorem api_matcher {r : Raw} (hr : r ∈ apiTable) (hc : r.class ≠ []) {full : Str} (hfull : canonical shipped full = r.name)
    (hne : full ≠ dataLoader) : getMatcher shipped shipped.api full = .ok (some (r.class, r.name)) := by
  rw [Exclude.matcher_of hr hfull hne, if_neg (has_matcher hc)]

theorem attr_matcher {r : Raw} (hr : r ∈ attrTable) (hc : r.class ≠ []) {full : Str} (hfull : canonical shipped full = r.name) :
    getMatcher shipped shipped.attr full = .ok (some (r.class, r.name)) := by
  have hm := has_matcher hc
  have hget : shipped.attr.get? r.name = some r.entry := Dict.get?_of_mem attr_wf (List.mem_map.2 ⟨r, hr, rfl⟩)
  unfold getMatcher
  rw [hfull, if_neg]
  · dsimp only
    rw [hget]
    simp [Entry.use, Raw.entry, hm]
  · intro hx
    rw [Bool.and_eq_true, Dict.has_iff, Dict.has_iff] at hx
    exact alias_not_attr hx.1 hx.2

/-! ## Names -/

theorem cfgOf_mem : {table : List Raw} → (table.map Raw.name).Nodup → {r : Raw} → r ∈ table → Basic.cfgOf table r.name = some r.cfg
  | [], _, _, hr => by simp at hr
  | x :: l, hnd, r, hr => by
    unfold Basic.cfgOf
    rw [List.find?_cons]
    rw [List.map_cons, List.nodup_cons] at hnd
    rcases List.mem_cons.1 hr with rfl | hr
    · simp
    · have : x.name ≠ r.name := fun e => hnd.1 (e ▸ List.mem_map.2 ⟨r, hr, rfl⟩)
      rw [decide_eq_false this]
      exact cfgOf_mem hnd.2 hr

theorem api_nodup : (apiTable.map Raw.name).Nodup := by
  have := api_wf
  rw [Dict.WF, api_keys] at this
  exact this

theorem attr_nodup : (attrTable.map Raw.name).Nodup := by
  have := attr_wf
  rw [Dict.WF, attr_keys] at this
  exact this

theorem dotted_iff (s : Str) : Basic.dotted s = true ↔ Dotted s := by
  unfold Basic.dotted Dotted
  simp only [List.all_eq_true, Bool.and_eq_true, Bool.or_eq_true, beq_iff_eq, Bool.not_eq_true', List.isEmpty_eq_false_iff]

theorem named_of {r : Raw} {p : Str} (h : Names r p) : Basic.named r.cfg = some p := by
  unfold Basic.named
  rw [h.1, Option.bind_some, if_pos ((dotted_iff p).2 h.2)]

theorem nameOf_names {table : List Raw} (hnd : (table.map Raw.name).Nodup) {r : Raw} (hr : r ∈ table)
    (hc : r.class = py"ChangeAPIMatcher" ∨ r.class = py"GenericMatcher") {p : Str} (h : Names r p) : Basic.nameOf table r.class r.name = some p := by
  unfold Basic.nameOf
  rw [if_neg (by rcases hc with hc | hc <;> rw [hc] <;> decide), if_pos hc, cfgOf_mem hnd hr, Option.bind_some, named_of h]

theorem nameOf_new {table : List Raw} (hnd : (table.map Raw.name).Nodup) {r : Raw} (hr : r ∈ table)
    (hc : r.class = py"ChangePrefixMatcher" ∨ r.class = py"ChangeAPIMatcher" ∨ r.class = py"GenericMatcher") {p : Str} (h : NewApi r p) :
    Basic.nameOf table r.class r.name = some p := by
  rcases h with ⟨h1, h2, -⟩ | ⟨h1, h2, -⟩
  · unfold Basic.nameOf
    rw [if_pos h1, h2]
  · rcases hc with hc | hc
    · exact absurd hc h1
    · exact nameOf_names hnd hr hc h2

theorem class_ne {r : Raw} (hc : r.class = py"ChangePrefixMatcher" ∨ r.class = py"ChangeAPIMatcher" ∨ r.class = py"GenericMatcher") : r.class ≠ [] := by
  rcases hc with h | h | h <;> rw [h] <;> decide

theorem onReceiver_paddle {P : Str} (hP : P ∈ paddleClasses) {b : Str} (hb : '.' ∉ b) (w : E) : onReceiver w (P ++ py"." ++ b) = some (.attr w b) := by
  have key : onReceiver w (P ++ py"." ++ b) = if '.' ∈ b then none else some (.attr w b) := by
    simp only [paddleClasses, List.mem_cons, List.not_mem_nil, or_false] at hP
    rcases hP with rfl | rfl | rfl | rfl | rfl | rfl | rfl | rfl <;> rfl
  rw [key, if_neg hb]

theorem onReceiver_class {C : Str} (hC : C ∈ classes) {b : Str} (hb : '.' ∉ b) (w : E) :
    onReceiver w (py"paddle" ++ C.drop 5 ++ py"." ++ b) = some (.attr w b) := by
  have key : onReceiver w (py"paddle" ++ C.drop 5 ++ py"." ++ b) = if '.' ∈ b then none else some (.attr w b) := by
    simp only [classes, List.mem_cons, List.not_mem_nil, or_false] at hC
    rcases hC with rfl | rfl | rfl | rfl | rfl <;> rfl
  rw [key, if_neg hb]

/-- The Paddle name of a method. -/
theorem prefix_method {r : Raw} (hr : r ∈ apiTable) (hc : r.class = py"ChangePrefixMatcher") {C b : Str} (hC : C ∈ classes)
    (hn : r.name = C ++ py"." ++ b) : prefixApi torchPackages r.name = some (py"paddle" ++ C.drop 5 ++ py"." ++ b) := by
  obtain ⟨pkg, new, rest, h1, h2, h3⟩ := C47_shipped_partial r (List.mem_append_left _ hr) hc (by rw [hn]; exact class_not_int32 hC)
  obtain ⟨t, rfl⟩ := class_head hC
  have hpkg : '.' ∉ pkg := Exclude.no_dot (Dict.has_iff.1 (by rw [Dict.has_iff]; exact List.mem_map.2 ⟨_, Dict.mem_of_get? h2, rfl⟩))
  have e : py"torch" ++ '.' :: (t ++ '.' :: b) = pkg ++ '.' :: rest := by
    have := hn.symm.trans h1
    simpa using this
  have e1 : py"torch" = pkg := head_unique (by decide) hpkg (Or.inr ⟨_, rfl⟩) e
  subst e1
  have e2 : t ++ '.' :: b = rest := by simpa using e
  have e3 : new = py"paddle" := by
    have : torchPackages.get? py"torch" = some py"paddle" := by decide
    rw [this] at h2; exact (Option.some.inj h2).symm
  rw [h3, e3, ← e2]
  simp

/-! ## Calls and attributes that are not of a package -/

theorem call_leave (B : Basic.Env) {e : E} (h : Outside B e none) (args : Es) : B.callOf e args = some (.op 0 (.cons true e args)) := by
  obtain ⟨full, h1, h2, h3, h4⟩ := h.full
  have hd : decideCall shipped B.file full = .leave := by
    cases hd : decideCall shipped B.file full with
    | package api =>
      obtain ⟨-, h | h⟩ := (C35_package_call _ _ _ _).1 hd
      · rw [h2] at h; simp at h
      · rw [← listed_iff, h3] at h; simp at h
    | cls api =>
      obtain ⟨-, h5, _, c, _, -, -, h6, -⟩ := (C35_class_call _ _ _ _).1 hd
      rcases h4 with h4 | ⟨-, h4⟩ | ⟨_, h4, -⟩
      · exact absurd (Str.contains_iff.1 h4) h5
      · rw [Str.splitOn_of_not_mem h4] at h6
        simp [Admissible] at h6
      · simp at h4
    | leave => rfl
  unfold Basic.Env.callOf
  rw [h1]
  dsimp only
  rw [hd]

theorem method_name {r : Raw} (hr : r ∈ apiTable) {C b : Str} (hC : C ∈ classes)
    (hc : r.class = py"ChangePrefixMatcher" ∨ r.class = py"ChangeAPIMatcher" ∨ r.class = py"GenericMatcher") (h : NewMethod C r b) (w : E) :
    ∃ p, Basic.nameOf apiTable r.class r.name = some p ∧ onReceiver w p = some (.attr w b) := by
  obtain ⟨hb, ⟨h1, h2⟩ | ⟨h1, P, hP, h2⟩⟩ := h
  · refine ⟨_, ?_, onReceiver_class hC hb w⟩
    unfold Basic.nameOf
    rw [if_pos h1, prefix_method hr h1 hC h2]
  · rcases hc with hc | hc
    · exact absurd hc h1
    · exact ⟨_, nameOf_names api_nodup hr hc h2, onReceiver_paddle hP hb w⟩

theorem onSelf_first {args : Es} (h : Basic.onSelf args = true) : FirstSelf args := by
  cases args with
  | nil => simp [Basic.onSelf] at h
  | cons b e rest =>
    cases e with
    | name i =>
      simp only [Basic.onSelf, beq_iff_eq] at h
      exact ⟨b, rest, by rw [h]⟩
    | _ => simp [Basic.onSelf] at h

theorem call_member (B : Basic.Env) {w : E} {a : Str} (h : Outside B (.attr w a) (some a)) (args : Es) :
    B.callOf (.attr w a) args = some (.op 0 (.cons true (.attr w a) args)) ∨
    ∃ C ∈ classes, Listed shipped (C ++ py"." ++ a) ∧ ∀ r ∈ apiTable, canonical shipped (C ++ py"." ++ a) = r.name →
      (r.class = py"ChangePrefixMatcher" ∨ r.class = py"ChangeAPIMatcher" ∨ r.class = py"GenericMatcher") →
      (r.class = py"GenericMatcher" → ¬ FirstSelf args) → ∀ b, NewMethod C r b →
      B.callOf (.attr w a) args = B.newCall r.class r.name (.attr w b) args := by
  obtain ⟨full, h1, h2, h3, h4⟩ := h.full
  unfold Basic.Env.callOf
  rw [h1]
  dsimp only
  cases hd : decideCall shipped B.file full with
  | package api =>
    obtain ⟨-, h | h⟩ := (C35_package_call _ _ _ _).1 hd
    · rw [h2] at h; simp at h
    · rw [← listed_iff, h3] at h; simp at h
  | leave => exact Or.inl rfl
  | cls api =>
    obtain ⟨-, h5, _, c, _, -, h6, -, h7, -⟩ := (C35_class_call _ _ _ _).1 hd
    rcases h4 with h4 | ⟨h4, -⟩ | ⟨x, h4, h8⟩
    · exact absurd (Str.contains_iff.1 h4) h5
    · simp at h4
    · obtain rfl := Option.some.inj h4
      rw [h8] at h6
      subst h6
      have hC := cls_mem c
      refine Or.inr ⟨_, hC, h7, ?_⟩
      intro r hr hcan hc hself b hb
      obtain ⟨p, hp1, hp2⟩ := method_name hr hC hc hb w
      dsimp only
      rw [api_matcher hr (class_ne hc) hcan (class_not_loader hC)]
      dsimp only
      rw [if_neg (by rintro ⟨e1, e2⟩; exact hself e1 (onSelf_first e2)), hp1, Option.bind_some]
      rw [hp2, Option.bind_some]

theorem attr_member (B : Basic.Env) {w : E} {a : Str} (h : Outside B (.attr w a) (some a)) (hm : PlainAttr a) :
    B.attrOf (.attr w a) = some (.attr w a) := by
  obtain ⟨full, h1, h2, h3, h4⟩ := h.full
  unfold Basic.Env.attrOf
  rw [h1]
  dsimp only
  cases hd : decideAttr shipped B.file full with
  | package api =>
    obtain ⟨-, h⟩ := (C35_package_attribute _ _ _ _).1 hd
    rw [h2] at h; simp at h
  | leave => rfl
  | cls api =>
    obtain ⟨-, h5, c, h6, h9, h7, -⟩ := (C35_class_attribute _ _ _ _).1 hd
    rcases h4 with h4 | ⟨h4, -⟩ | ⟨x, h4, h8⟩
    · exact absurd (Str.contains_iff.1 h4) h5
    · simp at h4
    · obtain rfl := Option.some.inj h4
      rw [h8] at h6
      subst h6
      have hC : c.name ∈ [py"torch.Tensor", py"torch.autograd.function.FunctionCtx"] := by
        rcases h9 with ⟨-, -, rfl | rfl⟩ | ⟨-, rfl, -⟩ <;> simp [Cls.name]
      obtain ⟨r, hr, hc, hcan⟩ := hm _ hC h7
      dsimp only
      rw [attr_matcher hr (by rw [hc]; decide) hcan]
      dsimp only
      rw [if_pos hc]

/-! ## APIs of packages -/

/-- What the second pass takes a dotted name for. -/
structure Seen (B : Basic.Env) (e : E) (s : Str) : Prop where
  strict : replaceModule B.file (B.strict e) = .ok s
  start : startWithTorch B.file s = true
  loader : s ≠ dataLoader

theorem attr_seen (B : Basic.Env) (hf : ∀ p ∈ B.file.torch, p ∈ torchPackages.keys) {e : E} {s p : Str} (h : Seen B e s) {r : Raw} (hr : r ∈ entries)
    (hc : r.class = py"ChangePrefixMatcher" ∨ r.class = py"ChangeAPIMatcher") (hcan : canonical shipped s = r.name) (hp : NewApi r p) :
    B.attrOf e = some (ofText p) := by
  have hd : decideAttr shipped B.file s = .package s := (C35_package_attribute _ _ _ _).2 ⟨rfl, h.start⟩
  obtain ⟨am, ham⟩ := (C34_lookup_total_partial s).1
  obtain ⟨cm, hcm⟩ := (C34_lookup_total_partial s).2 h.loader
  have hone := canonical_not_einops hf h.start
  have hc3 : r.class = py"ChangePrefixMatcher" ∨ r.class = py"ChangeAPIMatcher" ∨ r.class = py"GenericMatcher" := by
    rcases hc with h | h
    · exact Or.inl h
    · exact Or.inr (Or.inl h)
  unfold Basic.Env.attrOf
  rw [h.strict]
  dsimp only
  rw [hd]
  dsimp only
  rw [ham, hcm]
  dsimp only
  rcases List.mem_append.1 hr with hr | hr
  · have h1 := api_matcher hr (class_ne hc3) hcan h.loader
    rw [hcm] at h1
    have h1 := Except.ok.inj h1
    have h2 : am = none := by
      cases am with
      | none => rfl
      | some x => subst h1; exact (one_matcher hone ham hcm).elim
    rw [h1, h2]
    dsimp only
    rw [nameOf_new api_nodup hr hc3 hp]; rfl
  · have h1 := attr_matcher hr (class_ne hc3) hcan
    rw [ham] at h1
    have h1 := Except.ok.inj h1
    have h2 : cm = none := by
      cases cm with
      | none => rfl
      | some x => subst h1; exact (one_matcher hone ham hcm).elim
    rw [h1, h2]
    dsimp only
    rw [nameOf_new attr_nodup hr hc3 hp]; rfl

theorem call_seen (B : Basic.Env) {e : E} {s p : Str} (h : Seen B e s) {r : Raw} (hr : r ∈ apiTable)
    (hc : r.class = py"ChangePrefixMatcher" ∨ r.class = py"ChangeAPIMatcher" ∨ r.class = py"GenericMatcher") (hcan : canonical shipped s = r.name)
    (hp : NewApi r p) (args : Es) : B.callOf e args = B.newCall r.class r.name (ofText p) args := by
  have hd : decideCall shipped B.file s = .package s := (C35_package_call _ _ _ _).2 ⟨rfl, Or.inl h.start⟩
  unfold Basic.Env.callOf
  rw [h.strict]
  dsimp only
  rw [hd]
  dsimp only
  rw [api_matcher hr (class_ne hc) hcan h.loader]
  dsimp only
  rw [nameOf_new api_nodup hr hc hp, Option.bind_some]

/-! ## Arguments -/

theorem ofList_toList : (es : Es) → Basic.Es.ofList (Basic.Es.toList es) = es
  | .nil => rfl
  | .cons p e rest => by rw [Basic.Es.toList, Basic.Es.ofList, ofList_toList rest]

/-- The key of a node. -/
def keyAt (key : Nat → Option (Option Str)) : E → Option (Option Str)
  | .other t _ => key t
  | _ => none

theorem keyOf_eq (B : Basic.Env) (e : E) : B.keyOf e = keyAt B.key e := by
  cases e <;> rfl

theorem foldl_set_nodup {κ β : Type} [DecidableEq κ] (l : List (κ × β)) : ∀ d : Dict κ β, (d.keys ++ l.map (·.1)).Nodup →
    l.foldl (fun d ka => d.set ka.1 ka.2) d = d ++ l := by
  induction l with
  | nil => intro d _; simp
  | cons a l ih =>
    intro d h
    have ha : a.1 ∉ d.keys := by
      intro hm
      rw [List.nodup_append] at h
      exact h.2.2 _ hm _ (by simp) rfl
    have hs : d.set a.1 a.2 = d ++ [a] := by
      clear h ih
      induction d with
      | nil => rfl
      | cons x d ih =>
        have hx : x.1 ≠ a.1 := fun e => ha (by simp [Dict.keys, e])
        show (if x.1 = a.1 then _ else _) = _
        rw [if_neg hx]
        rw [ih (fun hm => ha (by
          simp only [Dict.keys, List.map_cons, List.mem_cons]
          exact Or.inr hm))]
        rfl
    rw [List.foldl_cons, hs, ih]
    · simp
    · simpa [Dict.keys] using h

theorem good_newArgs (B : Basic.Env) {dropped : List Str} {args : Es} (h : GoodArgs B.key dropped args) : B.newArgs dropped args = args := by
  obtain ⟨pos, kws, h1, h2, ks, h3, h4, h5⟩ := h
  have hpos : ∀ a ∈ pos, B.keyOf a.2 = none := by
    intro a ha
    cases he : a.2 with
    | other t k => exact h2 a ha t k he
    | _ => rfl
  have hk : kws.map (fun a => B.keyOf a.2) = ks.map some := by
    rw [← h3]
    refine List.map_congr_left ?_
    intro a _
    rcases a with ⟨b, e⟩
    cases e <;> rfl
  have hkw : ∀ a ∈ kws, ∃ k, B.keyOf a.2 = some k := by
    intro a ha
    have : B.keyOf a.2 ∈ ks.map some := hk ▸ List.mem_map.2 ⟨a, ha, rfl⟩
    obtain ⟨k, -, e⟩ := List.mem_map.1 this
    exact ⟨k, e.symm⟩
  have hfm : ∀ l : List (Bool × E), (∀ a ∈ l, B.keyOf a.2 = none) → l.filterMap (fun a => (B.keyOf a.2).map fun k => (k, a)) = [] := by
    intro l hl
    rw [List.filterMap_eq_nil_iff]
    intro a ha
    rw [hl a ha]; rfl
  have hd : ∀ (l : List (Bool × E)) (ks : List (Option Str)), l.map (fun a => B.keyOf a.2) = ks.map some →
      (l.filterMap (fun a => (B.keyOf a.2).map fun k => (k, a))).map (·.2) = l ∧
      (l.filterMap (fun a => (B.keyOf a.2).map fun k => (k, a))).map (·.1) = ks := by
    intro l
    induction l with
    | nil => intro ks h; cases ks with
      | nil => exact ⟨rfl, rfl⟩
      | cons _ _ => simp at h
    | cons a l ih =>
      intro ks h
      cases ks with
      | nil => simp at h
      | cons k ks =>
        simp only [List.map_cons, List.cons.injEq] at h
        obtain ⟨i1, i2⟩ := ih ks h.2
        rw [List.filterMap_cons, h.1]
        simp only [Option.map_some, List.map_cons, i1, i2, and_self]
  obtain ⟨d1, d2⟩ := hd kws ks hk
  unfold Basic.Env.newArgs
  dsimp only
  rw [h1, List.filterMap_append, hfm pos hpos, List.nil_append, foldl_set_nodup _ [] (by rw [d2]; simpa [Dict.keys] using h4), List.nil_append]
  generalize hD : kws.filterMap (fun a => (B.keyOf a.2).map fun k => (k, a)) = d at d1 d2
  have herase : ∀ l : List Str, (∀ k ∈ l, some k ∉ ks) → l.foldl (fun d k => Dict.erase d (some k)) d = d := by
    intro l
    induction l with
    | nil => intro _; rfl
    | cons k l ih =>
      intro hl
      rw [List.foldl_cons, Dict.erase_of_not_mem, ih (fun k hk => hl k (by simp [hk]))]
      show some k ∉ d.map (·.1)
      rw [d2]; exact hl k (by simp)
  rw [herase dropped h5, d1, List.filter_append, List.filter_eq_self.2, List.filter_eq_nil_iff.2, List.append_nil]
  · rw [← h1, ofList_toList]
  · intro a ha
    obtain ⟨k, e⟩ := hkw a ha
    simp [e]
  · intro a ha
    simp [hpos a ha]

theorem good_congr {key : Nat → Option (Option Str)} {dropped : List Str} {args args' : Es}
    (h : ((Basic.Es.toList args').map (·.2)).map (keyAt key) = ((Basic.Es.toList args).map (·.2)).map (keyAt key)) (hg : GoodArgs key dropped args) :
    GoodArgs key dropped args' := by
  obtain ⟨pos, kws, h1, h2, ks, h3, h4, h5⟩ := hg
  rw [List.map_map, List.map_map, h1, List.map_append, List.map_eq_append_iff] at h
  obtain ⟨pos', kws', e1, e2, e3⟩ := h
  refine ⟨pos', kws', e1, ?_, ks, ?_, h4, h5⟩
  · intro a ha t k e
    have hm : keyAt key a.2 ∈ pos.map (keyAt key ∘ (·.2)) := e2 ▸ List.mem_map.2 ⟨a, ha, rfl⟩
    obtain ⟨x, hx, e'⟩ := List.mem_map.1 hm
    have : keyAt key x.2 = none := by
      cases hx' : x.2 with
      | other t k => exact h2 x hx t k hx'
      | _ => rfl
    have e' : keyAt key x.2 = keyAt key a.2 := e'
    rw [this, e] at e'
    exact e'.symm
  · rw [← h3]
    have conv : ∀ l : List (Bool × E), l.map (fun a => match a.2 with | .other t _ => key t | _ => none) = l.map (keyAt key ∘ (·.2)) := by
      intro l
      refine List.map_congr_left ?_
      intro a _
      rcases a with ⟨b, e⟩
      cases e <;> rfl
    exact (conv kws').trans (e3.trans (conv kws).symm)

section
variable {M : Type} {D : Sem M} {imp imp' : Str → Option Str}

theorem Like.key {t e : E} (h : Like D imp imp' t e) (key : Nat → Option (Option Str)) : keyAt key t = keyAt key e := by
  cases e with
  | other n ks => obtain ⟨ks', rfl, -⟩ := h.other n ks rfl; rfl
  | _ =>
    cases t with
    | other n ks => exact absurd rfl (h.plain (by simp) n ks)
    | _ => rfl

theorem like_keys {l l' : List E} (h : List.Forall₂ (Like D imp imp') l' l) (key : Nat → Option (Option Str)) : l'.map (keyAt key) = l.map (keyAt key) := by
  induction h with
  | nil => rfl
  | cons h _ ih => rw [List.map_cons, List.map_cons, h.key key, ih]

theorem like_meanings {ks ks' : Es} (h : List.Forall₂ (Like D imp imp') ((Basic.Es.toList ks').map (·.2)) ((Basic.Es.toList ks).map (·.2))) :
    meanings D imp' ks' = meanings D imp ks := by
  have key : ∀ l l' : List E, List.Forall₂ (Like D imp imp') l' l → l'.map (meaning D imp') = l.map (meaning D imp) := by
    intro l l' h
    induction h with
    | nil => rfl
    | cons h _ ih => rw [List.map_cons, List.map_cons, h.same, ih]
  have := key _ _ h
  rw [List.map_map, List.map_map] at this
  rw [meanings_eq, meanings_eq]
  exact this

theorem like_self {ks ks' : Es} (h : List.Forall₂ (Like D imp imp') ((Basic.Es.toList ks').map (·.2)) ((Basic.Es.toList ks).map (·.2))) (hs : FirstSelf ks') :
    FirstSelf ks := by
  obtain ⟨b, rest, rfl⟩ := hs
  cases ks with
  | nil => simp [Basic.Es.toList] at h
  | cons b' e rest' =>
    simp only [Basic.Es.toList, List.map_cons, List.forall₂_cons] at h
    exact ⟨b', rest', by rw [h.1.self rfl]⟩

/-- A call of the three matchers. -/
theorem accepted_call (B : Basic.Env) (hF : Faithful B.key B.io) {r : Raw} (hr : r ∈ apiTable) {args args' : Es} (fn : E)
    (hw : Accepts imp B.key B.io r args)
    (hl : List.Forall₂ (Like D imp imp') ((Basic.Es.toList args').map (·.2)) ((Basic.Es.toList args).map (·.2))) :
    ∃ ks, B.newCall r.class r.name fn args' = some (.op 0 ks) ∧
      ∀ f, (r.class = py"GenericMatcher" → AgreeCall D B.io r.cfg f (meaning D imp' fn)) → (r.class ≠ py"GenericMatcher" → f = meaning D imp' fn) →
        meaning D imp' (.op 0 ks) = D.op 0 (f :: meanings D imp args) := by
  have hcall : ∀ l : Es, meanings D imp' l = meanings D imp args →
      meaning D imp' (.op 0 (.cons true fn l)) = D.op 0 (meaning D imp' fn :: meanings D imp args) := fun l h => by
    rw [meaning, meanings, h]
  unfold Basic.Env.newCall
  rcases hw with ⟨hc, hg⟩ | ⟨hc, hg⟩ | ⟨hc, hg⟩
  · rw [if_pos hc]
    have hg' := good_newArgs B (good_congr (like_keys hl B.key) hg)
    have hg' : B.newArgs prefixDropped args' = args' := hg'
    refine ⟨_, rfl, ?_⟩
    intro f _ hf
    rw [hg', hcall _ (like_meanings hl), hf (by rw [hc]; decide)]
  · rw [if_neg (by rw [hc]; decide), if_pos hc]
    have hg' := good_newArgs B (good_congr (like_keys hl B.key) hg)
    have hg' : B.newArgs renameDropped args' = args' := hg'
    refine ⟨_, rfl, ?_⟩
    intro f _ hf
    rw [hg', hcall _ (like_meanings hl), hf (by rw [hc]; decide)]
  · rw [if_neg (by rw [hc]; decide), if_neg (by rw [hc]; decide), cfgOf_mem api_nodup hr, Option.bind_some]
    obtain ⟨ks, h1, h2⟩ := generic_call B hF hr fn hg hl
    exact ⟨ks, h1, fun f hf _ => h2 f (hf hc)⟩

theorem accepts_class {key : Nat → Option (Option Str)} {T : Basic.Texts} {r : Raw} {args : Es} (h : Accepts imp key T r args) :
    r.class = py"ChangePrefixMatcher" ∨ r.class = py"ChangeAPIMatcher" ∨ r.class = py"GenericMatcher" := by
  rcases h with h | h | h
  · exact Or.inl h.1
  · exact Or.inr (Or.inl h.1)
  · exact Or.inr (Or.inr h.1)

end

end Verif.Whole

import Verif.Model.Report

/-!
# Lemmas about the counters
-/

namespace Verif.Dispatch
open Verif

def total (d : Dict Str Int) : Int := d.values.sum

theorem total_set (d : Dict Str Int) (k : Str) (v : Int) : total (d.set k v) = total d - (d.get? k).getD 0 + v := by
  induction d with
  | nil => simp [total, Dict.set, Dict.values]
  | cons a d ih =>
    obtain ⟨a, w⟩ := a
    simp only [Dict.set, Dict.get?]
    simp only [total, Dict.values] at ih ⊢
    by_cases h : a = k
    · simp [h]; omega
    · simp only [if_neg h, List.map_cons, List.sum_cons, ih]; omega

theorem total_bump (d : Dict Str Int) (k : Str) : total (bump d k) = total d + 1 := by
  unfold bump; rw [total_set]; omega

theorem total_erase (d : Dict Str Int) (k : Str) : total (d.erase k) = total d - (d.get? k).getD 0 := by
  induction d with
  | nil => simp [total, Dict.erase, Dict.values]
  | cons a d ih =>
    obtain ⟨a, w⟩ := a
    simp only [Dict.erase, Dict.get?]
    simp only [total, Dict.values] at ih ⊢
    by_cases h : a = k
    · simp [h]
    · simp only [if_neg h, List.map_cons, List.sum_cons, ih]; omega

/-- All counts in a table are positive. -/
def Positive (d : Dict Str Int) : Prop := d.WF ∧ ∀ k n, d.get? k = some n → 0 < n

theorem Positive.bump {d : Dict Str Int} (h : Positive d) (k : Str) : Positive (bump d k) := by
  refine ⟨h.1.set _ _, ?_⟩
  intro k' n hn
  unfold Dispatch.bump at hn
  rw [Dict.get?_set] at hn
  split at hn
  · have : 0 ≤ (d.get? k).getD 0 := by
      cases hg : d.get? k with
      | none => simp
      | some m => have := h.2 k m hg; simp; omega
    simp at hn; omega
  · exact h.2 k' n hn

theorem Positive.erase {d : Dict Str Int} (h : Positive d) (k : Str) : Positive (d.erase k) := by
  refine ⟨h.1.erase _, ?_⟩
  intro k' n hn
  by_cases e : k = k'
  · subst e; rw [Dict.get?_erase_self h.1] at hn; simp at hn
  · rw [Dict.get?_erase_ne _ e] at hn; exact h.2 k' n hn

theorem Positive.nil : Positive [] := ⟨Dict.WF_nil, by simp⟩

theorem Positive.total_nonneg {d : Dict Str Int} (h : Positive d) : 0 ≤ total d ∧ (total d = 0 ↔ d = []) := by
  have key : ∀ d : Dict Str Int, (∀ kv ∈ d, 0 < kv.2) → 0 ≤ total d ∧ (total d = 0 ↔ d = []) := by
    intro d
    induction d with
    | nil => simp [total, Dict.values]
    | cons a d ih =>
      intro hp
      have h1 := ih (fun kv hkv => hp kv (List.mem_cons_of_mem _ hkv))
      have h2 := hp a (by simp)
      simp only [total, Dict.values, List.map_cons, List.sum_cons] at h1 ⊢
      refine ⟨by omega, ⟨fun e => by omega, fun e => by simp at e⟩⟩
  exact key d fun kv hkv => h.2 kv.1 kv.2 (Dict.get?_of_mem h.1 hkv)

/-! ## The effect of a step does not depend on the counters -/

inductive Eff
  | nothing
  | success (api : Str)
  | misidentified (api : Str)
  | unsupported (api report : Str)
  | cpp
  | apply (name : Str)
  deriving DecidableEq

def Eff.run (s : Counts) : Eff → Counts
  | .nothing => s
  | .success a => (s.found a).succeed
  | .misidentified a => (s.found a).misidentified a
  | .unsupported a r => (s.found a).unsupported r
  | .cpp => cppUse s
  | .apply n => applyUse n s

/-- Counted in the table of all APIs exactly when counted at all. -/
def Eff.plain : Eff → Prop
  | .misidentified _ | .cpp | .apply _ => False
  | _ => True

theorem finish_eff (api report : Str) (r : Option Res) (b : Bool) :
    ∃ e : Eff, (∀ s : Counts, (finish api report r b (s.found api)).1 = e.run s) ∧
      (r ≠ some .misidentify → e.plain) := by
  unfold finish
  split
  · split
    · exact ⟨.success api, fun _ => rfl, fun _ => trivial⟩
    · exact ⟨.unsupported api report, fun _ => rfl, fun _ => trivial⟩
  · exact ⟨.misidentified api, fun _ => rfl, fun h => absurd rfl h⟩
  · exact ⟨.success api, fun _ => rfl, fun _ => trivial⟩
  · exact ⟨.success api, fun _ => rfl, fun _ => trivial⟩
  · exact ⟨.unsupported api report, fun _ => rfl, fun _ => trivial⟩

/-- The effect `e` describes the step `g`; if `good`, it is a plain one. -/
def Describes (e : Except Err Eff) (good : Prop) (g : Counts → Except Err Counts) : Prop :=
  (∀ s, g s = e.map (fun e => e.run s)) ∧ (good → ∀ x, e = .ok x → x.plain)

theorem Describes.error {x : Err} {good : Prop} {g : Counts → Except Err Counts} (h : ∀ s, g s = .error x) :
    ∃ e, Describes e good g := ⟨.error x, h, by simp⟩

theorem Describes.ok {e : Eff} {good : Prop} {g : Counts → Except Err Counts} (h : ∀ s, g s = .ok (e.run s))
    (hp : good → e.plain) : ∃ e, Describes e good g :=
  ⟨.ok e, h, fun hg x hx => by cases hx; exact hp hg⟩

/-- The matchers never answer that the name was no torch API after all. -/
def Oracle.Sure (o : Oracle) : Prop := (∀ m, o.nodes m ≠ .misidentify) ∧ ∀ m, o.api m ≠ .misidentify

theorem visitCall_eff (T : Tables) (f : File) (hit : Str → Str → Bool) (o : Oracle) (e : Expr) (p : Parent) :
    ∃ r, Describes r o.Sure (fun s => (visitCall T f hit o e p s).map Prod.fst) := by
  unfold visitCall
  cases hr : replaceModule f (fullAttrStrict f (blackList f) hit e) with
  | error x => exact Describes.error fun s => rfl
  | ok full =>
    simp only [bind, Except.bind]
    cases hd : decideCall T f full with
    | leave => exact Describes.ok (e := .nothing) (fun s => rfl) fun _ => trivial
    | package api =>
      dsimp only
      cases hm : getMatcher T T.api api with
      | error x => exact Describes.error fun s => rfl
      | ok m =>
        obtain ⟨q, hq, hq2⟩ := finish_eff api api (m.map o.nodes) (p == .expr)
        exact Describes.ok (e := q) (fun s => by simp [pure, Except.pure, Except.map, hq]) fun hs => hq2 (by
          cases m with
          | none => simp
          | some m => simpa using hs.1 m)
    | cls api =>
      dsimp only
      cases hm : getMatcher T T.api api with
      | error x => exact Describes.error fun s => rfl
      | ok m =>
        obtain ⟨q, hq, hq2⟩ := finish_eff api (starName api) (m.map o.nodes) (p == .expr)
        exact Describes.ok (e := q) (fun s => by simp [pure, Except.pure, Except.map, hq]) fun hs => hq2 (by
          cases m with
          | none => simp
          | some m => simpa using hs.1 m)

theorem visitAttr_eff (T : Tables) (f : File) (hit : Str → Str → Bool) (o : Oracle) (e : Expr) (p : Parent) :
    ∃ r, Describes r o.Sure (fun s => (visitAttr T f hit o e p s).map Prod.fst) := by
  unfold visitAttr
  cases hr : replaceModule f (fullAttrStrict f (blackList f) hit e) with
  | error x => exact Describes.error fun s => rfl
  | ok full =>
    simp only [bind, Except.bind]
    cases hd : decideAttr T f full with
    | leave => exact Describes.ok (e := .nothing) (fun s => rfl) fun _ => trivial
    | cls api =>
      dsimp only
      cases hm : getMatcher T T.attr api with
      | error x => exact Describes.error fun s => rfl
      | ok m =>
        obtain ⟨q, hq, hq2⟩ := finish_eff api api (m.map o.nodes) (p == .expr)
        exact Describes.ok (e := q) (fun s => by simp [pure, Except.pure, Except.map, hq]) fun hs => hq2 (by
          cases m with
          | none => simp
          | some m => simpa using hs.1 m)
    | package api =>
      dsimp only
      cases ha : getMatcher T T.attr api with
      | error x => exact Describes.error fun s => rfl
      | ok am =>
      dsimp only
      cases hc : getMatcher T T.api api with
      | error x => exact Describes.error fun s => rfl
      | ok cm =>
        simp only []
        by_cases hb : (am.isSome && cm.isSome) = true
        · exact Describes.error (x := .assertionError) fun s => by simp only [if_pos hb]; rfl
        · simp only [if_neg hb]
          have second : ∃ r, Describes r o.Sure (fun s => Except.map Prod.fst (viaParent T o api (s.found api))) := by
            unfold viaParent
            by_cases hl : (Str.splitOn '.' api).length ≥ 3
            · simp only [if_pos hl]
              cases hp : getMatcher T T.api (parentName api) with
              | error x => exact Describes.error fun s => rfl
              | ok v =>
                cases v with
                | none => exact Describes.ok (e := .unsupported api api) (fun s => rfl) fun _ => trivial
                | some m =>
                  simp only []
                  cases o.api m with
                  | nothing => exact Describes.error (x := .typeError) fun s => rfl
                  | _ => exact Describes.ok (e := .success api) (fun s => rfl) fun _ => trivial
            · simp only [if_neg hl]
              exact Describes.ok (e := .unsupported api api) (fun s => rfl) fun _ => trivial
          obtain ⟨r2, hr2, hr3⟩ := second
          cases hx : (am.or cm).map o.api with
          | none => exact ⟨r2, hr2, hr3⟩
          | some x =>
            cases x with
            | delete =>
              by_cases hq : (p == Parent.other) = true
              · exact ⟨r2, fun s => by simp only [if_pos hq]; exact hr2 s, hr3⟩
              · exact Describes.ok (e := .success api) (fun s => by simp only [if_neg hq]; rfl) fun _ => trivial
            | misidentify =>
              refine Describes.ok (e := .misidentified api) (fun s => rfl) fun hs => ?_
              cases hm : am.or cm with
              | none => rw [hm] at hx; simp at hx
              | some m => rw [hm] at hx; exact absurd (by simpa using hx) (hs.2 m)
            | unchange => exact Describes.ok (e := .success api) (fun s => rfl) fun _ => trivial
            | text => exact Describes.ok (e := .success api) (fun s => rfl) fun _ => trivial
            | nothing => exact ⟨r2, hr2, hr3⟩

/-- A step of the main pass in which no matcher takes the recognition back. -/
def Visit.Plain : Visit → Prop
  | .call _ _ _ o => o.Sure
  | .attr _ _ _ o => o.Sure
  | .cpp | .apply _ => False

theorem step_eff (T : Tables) (hit : Str → Str → Bool) (v : Visit) :
    ∃ r, Describes r v.Plain (fun s => step T hit s v) := by
  cases v with
  | call f e p o => exact visitCall_eff T f hit o e p
  | attr f e p o => exact visitAttr_eff T f hit o e p
  | cpp => exact Describes.ok (e := .cpp) (fun _ => rfl) fun h => h
  | apply n => exact Describes.ok (e := .apply n) (fun _ => rfl) fun h => h

/-! ## Sequences -/

def runEffs (es : List Eff) (s : Counts) : Counts := es.foldl Eff.run s

/-- The effects `es` describe `g`. -/
def DescribesAll (es : Except Err (List Eff)) (good : Prop) (g : Counts → Except Err Counts) : Prop :=
  (∀ s, g s = es.map (fun es => runEffs es s)) ∧ (good → ∀ l, es = .ok l → ∀ x ∈ l, x.plain)

theorem foldlM_eff {α : Type} (g : Counts → α → Except Err Counts) (good : α → Prop)
    (h : ∀ a, ∃ es, DescribesAll es (good a) (fun s => g s a)) (l : List α) :
    ∃ es, DescribesAll es (∀ a ∈ l, good a) (fun s => l.foldlM g s) := by
  induction l with
  | nil => exact ⟨.ok [], fun s => rfl, fun _ l hl => by cases hl; simp⟩
  | cons a l ih =>
    obtain ⟨ea, ha, ga⟩ := h a
    obtain ⟨el, hl, gl⟩ := ih
    cases ea with
    | error x =>
      refine ⟨.error x, fun s => ?_, by simp⟩
      have := ha s
      simp only [List.foldlM_cons, bind, this]; rfl
    | ok ea =>
      cases el with
      | error x =>
        refine ⟨.error x, fun s => ?_, by simp⟩
        have h1 := ha s
        simp only [List.foldlM_cons, bind, h1, Except.map, Except.bind]
        exact hl _
      | ok el =>
        refine ⟨.ok (ea ++ el), fun s => ?_, ?_⟩
        · have h1 := ha s
          simp only [List.foldlM_cons, bind, h1, Except.map, Except.bind]
          rw [show List.foldlM g (runEffs ea s) l = _ from hl _]
          simp [runEffs, List.foldl_append, Except.map]
        · intro hg m hm x hx
          cases hm
          rcases List.mem_append.1 hx with hx | hx
          · exact ga (hg a (by simp)) _ rfl x hx
          · exact gl (fun b hb => hg b (List.mem_cons_of_mem _ hb)) _ rfl x hx

/-- The contribution of one effect to the two counters. -/
def Eff.torch : Eff → Int
  | .nothing | .misidentified _ => 0
  | _ => 1
def Eff.succ : Eff → Int
  | .success _ | .cpp => 1
  | _ => 0
/-- The entry in the table of unsupported APIs. -/
def Eff.report : Eff → Option Str
  | .unsupported _ r => some r
  | .apply n => some (n ++ py".apply")
  | _ => none

theorem Eff.run_counts (s : Counts) (e : Eff) :
    (e.run s).torch = s.torch + e.torch ∧ (e.run s).success = s.success + e.succ := by
  cases e <;> simp [Eff.run, Eff.torch, Eff.succ, Counts.found, Counts.succeed, Counts.misidentified,
    Counts.unsupported, cppUse, applyUse]

theorem runEffs_counts (es : List Eff) (s : Counts) :
    (runEffs es s).torch = s.torch + (es.map Eff.torch).sum ∧
    (runEffs es s).success = s.success + (es.map Eff.succ).sum := by
  induction es generalizing s with
  | nil => simp [runEffs]
  | cons e es ih =>
    have h1 := ih (e.run s)
    have h2 := e.run_counts s
    show (runEffs es (e.run s)).torch = _ ∧ (runEffs es (e.run s)).success = _
    rw [h1.1, h1.2, h2.1, h2.2]
    simp; omega

theorem Eff.run_tables (s t : Counts) (e : Eff) (ha : s.all = t.all) (hu : s.unsupport = t.unsupport) :
    (e.run s).all = (e.run t).all ∧ (e.run s).unsupport = (e.run t).unsupport := by
  cases e <;> simp [Eff.run, Counts.found, Counts.succeed, Counts.misidentified,
    Counts.unsupported, cppUse, applyUse, ha, hu]

theorem runEffs_tables (es : List Eff) (s t : Counts) (ha : s.all = t.all) (hu : s.unsupport = t.unsupport) :
    (runEffs es s).all = (runEffs es t).all ∧ (runEffs es s).unsupport = (runEffs es t).unsupport := by
  induction es generalizing s t with
  | nil => exact ⟨ha, hu⟩
  | cons e es ih => exact ih _ _ (e.run_tables s t ha hu).1 (e.run_tables s t ha hu).2

theorem Counts.ext' {s t : Counts} (h1 : s.torch = t.torch) (h2 : s.success = t.success) (h3 : s.all = t.all)
    (h4 : s.unsupport = t.unsupport) : s = t := by
  cases s; cases t; simp_all

theorem runPass_eff (T : Tables) (hit : Str → Str → Bool) (vs : List Visit) :
    ∃ es, DescribesAll es (∀ v ∈ vs, v.Plain) (fun s => runPass T hit s vs) := by
  obtain ⟨es, h, hg⟩ := foldlM_eff (step T hit) Visit.Plain (fun v => by
    obtain ⟨r, hr, hg⟩ := step_eff T hit v
    cases r with
    | error x => exact ⟨.error x, hr, by simp⟩
    | ok e => exact ⟨.ok [e], hr, fun g l hl x hx => by cases hl; rw [List.mem_singleton.1 hx]; exact hg g _ rfl⟩) vs
  cases es with
  | error x => exact ⟨.error x, fun s => by
      have := h { s with torch := 0, success := 0 }
      simp only [runPass, bind, this]; rfl, by simp⟩
  | ok es =>
    refine ⟨.ok es, fun s => ?_, hg⟩
    have h1 := h { s with torch := 0, success := 0 }
    simp only [runPass, bind, h1, Except.map, Except.bind, pure, Except.pure, Except.ok.injEq]
    have h2 := runEffs_counts es { s with torch := 0, success := 0 }
    have h3 := runEffs_counts es s
    have h4 := runEffs_tables es { s with torch := 0, success := 0 } s rfl rfl
    apply Counts.ext'
    · show s.torch + _ = _; rw [h2.1, h3.1]; simp
    · show s.success + _ = _; rw [h2.2, h3.2]; simp
    · exact h4.1
    · exact h4.2

theorem runFile_eff (T : Tables) (hit : Str → Str → Bool) (ps : List (List Visit)) :
    ∃ es, DescribesAll es (∀ vs ∈ ps, ∀ v ∈ vs, v.Plain) (fun s => runFile T hit s ps) :=
  foldlM_eff (runPass T hit) _ (runPass_eff T hit) ps

theorem files_eff (T : Tables) (hit : Str → Str → Bool) (fs : List (List (List Visit))) :
    ∃ es, DescribesAll es (∀ ps ∈ fs, ∀ vs ∈ ps, ∀ v ∈ vs, v.Plain) (fun s => fs.foldlM (runFile T hit) s) :=
  foldlM_eff (runFile T hit) _ (runFile_eff T hit) fs

/-! ## Invariants -/

/-- What holds between steps. -/
structure Inv (s : Counts) : Prop where
  balance : s.torch = s.success + total s.unsupport
  success : 0 ≤ s.success
  pos : Positive s.unsupport
  allPos : Positive s.all
  bound : total s.all ≤ s.torch

theorem Inv.run {s : Counts} (h : Inv s) (e : Eff) : Inv (e.run s) := by
  obtain ⟨h1, h2, h3, h4, h5⟩ := h
  cases e with
  | nothing => exact ⟨h1, h2, h3, h4, h5⟩
  | success a =>
    refine ⟨?_, ?_, h3, h4.bump a, ?_⟩
    · simp [Eff.run, Counts.found, Counts.succeed]; omega
    · simp [Eff.run, Counts.found, Counts.succeed]; omega
    · simp [Eff.run, Counts.found, Counts.succeed, total_bump]; omega
  | misidentified a =>
    refine ⟨?_, ?_, h3, (h4.bump a).erase a, ?_⟩
    · simp [Eff.run, Counts.found, Counts.misidentified]; omega
    · simpa [Eff.run, Counts.found, Counts.misidentified] using h2
    · have h6 : 0 < ((bump s.all a).get? a).getD 0 := by
        have h7 : (bump s.all a).get? a = some ((s.all.get? a).getD 0 + 1) := by simp [bump]
        have := (h4.bump a).2 a _ h7
        rw [h7]; simpa using this
      simp only [Eff.run, Counts.found, Counts.misidentified, total_erase, total_bump]; omega
  | unsupported a r =>
    refine ⟨?_, ?_, h3.bump r, h4.bump a, ?_⟩
    · simp [Eff.run, Counts.found, Counts.unsupported, total_bump]; omega
    · simpa [Eff.run, Counts.found, Counts.unsupported] using h2
    · simp [Eff.run, Counts.found, Counts.unsupported, total_bump]; omega
  | cpp =>
    refine ⟨?_, ?_, h3, h4, ?_⟩ <;> simp [Eff.run, cppUse] <;> omega
  | apply n =>
    refine ⟨?_, ?_, h3.bump _, h4, ?_⟩
    · simp [Eff.run, applyUse, total_bump]; omega
    · simpa [Eff.run, applyUse] using h2
    · simp [Eff.run, applyUse]; omega

theorem Inv.runEffs {s : Counts} (h : Inv s) (es : List Eff) : Inv (runEffs es s) := by
  induction es generalizing s with
  | nil => exact h
  | cons e es ih => exact ih (h.run e)

theorem Inv.init : Inv {} := ⟨rfl, le_refl _, .nil, .nil, le_refl _⟩

theorem inv_project {T : Tables} {hit : Str → Str → Bool} {fs : List (List (List Visit))} {c : Counts}
    (h : runProject T hit fs = .ok c) : Inv c := by
  obtain ⟨es, he, _⟩ := files_eff T hit fs
  have h1 := he {}
  have h2 : runProject T hit fs = es.map fun es => Dispatch.runEffs es {} := h1
  rw [h] at h2
  cases es with
  | error x => simp [Except.map] at h2
  | ok es =>
    simp [Except.map] at h2
    rw [h2]; exact Inv.init.runEffs es

theorem runEffs_unsupport (es : List Eff) (s : Counts) (k : Str) :
    ((runEffs es s).unsupport.get? k).getD 0 =
      (s.unsupport.get? k).getD 0 + ((es.filterMap Eff.report).count k : Int) := by
  induction es generalizing s with
  | nil => simp [runEffs]
  | cons e es ih =>
    show ((runEffs es (e.run s)).unsupport.get? k).getD 0 = _
    rw [ih]
    have hb : ∀ r, ((bump s.unsupport r).get? k).getD 0 = (s.unsupport.get? k).getD 0 + if r = k then 1 else 0 := by
      intro r
      simp only [bump, Dict.get?_set]
      by_cases h : r = k
      · simp [h]
      · simp [h]
    cases e with
    | unsupported a r =>
      simp only [Eff.run, Counts.found, Counts.unsupported, List.filterMap_cons, Eff.report, hb, List.count_cons]
      by_cases h : r = k <;> simp [h]; omega
    | apply n =>
      simp only [Eff.run, applyUse, List.filterMap_cons, Eff.report, hb, List.count_cons]
      by_cases h : (n ++ py".apply") = k <;> simp [h]; omega
    | _ => simp [List.filterMap_cons, Eff.run, Eff.report, Counts.found, Counts.succeed, Counts.misidentified, cppUse]

theorem runEffs_plain (es : List Eff) (h : ∀ e ∈ es, e.plain) (s : Counts) :
    total (runEffs es s).all - (runEffs es s).torch = total s.all - s.torch := by
  induction es generalizing s with
  | nil => rfl
  | cons e es ih =>
    show total (runEffs es (e.run s)).all - (runEffs es (e.run s)).torch = _
    rw [ih (fun x hx => h x (List.mem_cons_of_mem _ hx))]
    have := h e (by simp)
    cases e with
    | nothing => rfl
    | success a => simp [Eff.run, Counts.found, Counts.succeed, total_bump]
    | unsupported a r => simp [Eff.run, Counts.found, Counts.unsupported, total_bump]
    | _ => exact this.elim

/-- The files of a project one by one: each runs by itself, and the effects are put together. -/
theorem files_split (T : Tables) (hit : Str → Str → Bool) (fs : List (List (List Visit))) :
    ∃ g : List (List Visit) → Except Err (List Eff),
      (∀ f s, runFile T hit s f = (g f).map fun es => runEffs es s) ∧
      ∀ s c, fs.foldlM (runFile T hit) s = .ok c ↔ ∃ ess, fs.mapM g = .ok ess ∧ c = runEffs ess.flatten s := by
  choose g hg _ using runFile_eff T hit
  refine ⟨g, fun f s => hg f s, ?_⟩
  induction fs with
  | nil => intro s c; simp [runEffs, pure, Except.pure, eq_comm]
  | cons f fs ih =>
    intro s c
    rw [List.foldlM_cons, List.mapM_cons]
    have h1 : runFile T hit s f = _ := hg f s
    rw [h1]
    cases g f with
    | error x => simp [bind, Except.bind, Except.map]
    | ok es =>
      simp only [bind, Except.bind, Except.map, ih]
      cases fs.mapM g with
      | error x => simp
      | ok ess => simp [pure, Except.pure, runEffs, List.foldl_append]

end Verif.Dispatch

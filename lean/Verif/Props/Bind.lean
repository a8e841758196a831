import Verif.Model.Bind
import Verif.Spec.Bind
import Mathlib.Tactic.Tauto
import Mathlib.Tactic.ByContra

/-!
# Names keep their meaning (C73)
-/

namespace Verif.Bind
open Verif Verif.Spec

/-- The tables hold nothing but the one meaning of each name. -/
structure Sound (I R : Str → Option Api) (s : State) : Prop where
  names : ∀ x m, s.names.get? x = some m → I x = some m
  renamed : ∀ x m, s.renamed.get? x = some m → R x = some m

theorem importPass_names {I R : Str → Option Api} {s : State} (p : S) (hs : Sound I R s) (hp : OneMeaning I R p) :
    Sound I R (importPass s p).1 ∧
    (∀ x, x ∈ s.names.keys ∨ x ∈ imports p → x ∈ (importPass s p).1.names.keys) := by
  induction p generalizing s with
  | seq a b iha ihb | branch a b iha ihb =>
    obtain ⟨h1, h2⟩ := iha hs hp.1
    obtain ⟨h3, h4⟩ := ihb h1 hp.2
    refine ⟨h3, fun x hx => h4 x ?_⟩
    simp only [imports, List.mem_append] at hx
    rcases hx with hx | hx | hx
    · exact .inl (h2 x (.inl hx))
    · exact .inl (h2 x (.inr hx))
    · exact .inr hx
  | imp x m =>
    refine ⟨⟨?_, hs.renamed⟩, ?_⟩
    · intro y k h
      simp only [importPass, Dict.get?_set] at h
      split at h
      · next e => subst e; rw [← Option.some.inj h]; exact hp.1
      · exact hs.names y k h
    · intro y hy
      simp only [importPass, Dict.mem_keys_set]
      simp only [imports, List.mem_singleton] at hy
      tauto
  | assign x y path =>
    have hk : (importPass s (.assign x y path)).1.names = s.names := by
      simp only [importPass]; split
      · split <;> rfl
      · rfl
    refine ⟨⟨by rw [hk]; exact hs.names, ?_⟩, fun z hz => by
      rw [hk]; simpa [imports] using hz⟩
    intro z m h
    simp only [importPass] at h
    split at h
    · next k hy =>
      split at h
      · next hpath =>
        simp only [Dict.get?_set] at h
        split at h
        · next e =>
          subst e
          have := hp.2
          rw [hs.names _ _ hy] at this
          simp only [hpath, if_true] at this
          rw [← Option.some.inj h]; exact this
        · exact hs.renamed z m h
      · exact hs.renamed z m h
    · exact hs.renamed z m h
  | call x path =>
    have hk : (importPass s (.call x path)).1 = s := by
      simp only [importPass]; split
      · rfl
      · split <;> rfl
    rw [hk]
    exact ⟨hs, fun z hz => by simpa [imports] using hz⟩
  | loop b ih =>
    exact ih hs hp
  | scope ps b ih =>
    exact ih hs hp.2
  | skip | assignApi | bind | callApi =>
    exact ⟨hs, fun z hz => by simpa [imports, importPass] using hz⟩

/-- What holds of the names while the source program runs. -/
def Good (I R : Str → Option Api) (e : Names) : Prop :=
  (∀ x m, I x = some m → e x = none ∨ e x = some (.api m)) ∧ (∀ x m, R x = some m → e x = none ∨ e x = some (.api m))

/-- Both programs agree on the names that are not imported. -/
def Sim (I : Str → Option Api) (e e' : Names) : Prop := ∀ x, I x = none → e' x = e x

theorem Good.put {I R : Str → Option Api} {e : Names} (h : Good I R e) {x : Str} {v : Val}
    (h1 : ∀ m, I x = some m → v = .api m) (h2 : ∀ m, R x = some m → v = .api m) : Good I R (Names.put e x v) := by
  constructor
  · intro y m hy
    unfold Names.put
    split
    · next e => subst e; rw [h1 m hy]; exact .inr rfl
    · exact h.1 y m hy
  · intro y m hy
    unfold Names.put
    split
    · next e => subst e; rw [h2 m hy]; exact .inr rfl
    · exact h.2 y m hy

theorem Sim.put {I : Str → Option Api} {e e' : Names} (h : Sim I e e') (x : Str) (v : Val) :
    Sim I (Names.put e x v) (Names.put e' x v) := by
  intro y hy
  unfold Names.put
  split
  · rfl
  · exact h y hy

theorem simulate {I R : Str → Option Api} {N : Dict Str Api} (hN : ∀ x, N.get? x = I x) (p : S) :
    ∀ (s : State) (seen : List Str), Sound I R s → OneMeaning I R p → AfterImport I seen p →
      (∀ x ∈ seen, x ∈ s.names.keys) →
    ∀ e t e1 e', Run p e t e1 → Good I R e → Sim I e e' →
      ∃ e1', Run (laterPass N (importPass s p).2) e' t e1' ∧ Good I R e1 ∧ Sim I e1 e1' := by
  induction p with
  | skip =>
    intro s seen hs hp ha hn e t e1 e' hr hg hsim
    cases hr
    exact ⟨e', .skip, hg, hsim⟩
  | seq a b iha ihb =>
    intro s seen hs hp ha hn e t e1 e' hr hg hsim
    cases hr with
    | seq r1 r2 =>
      obtain ⟨h1, h2⟩ := importPass_names a hs hp.1
      obtain ⟨x1, q1, g1, s1⟩ := iha s seen hs hp.1 ha.1 hn _ _ _ _ r1 hg hsim
      obtain ⟨x2, q2, g2, s2⟩ := ihb _ (seen ++ imports a) h1 hp.2 ha.2
        (by intro x hx; rcases List.mem_append.1 hx with hx | hx
            · exact h2 x (.inl (hn x hx))
            · exact h2 x (.inr hx)) _ _ _ _ r2 g1 s1
      exact ⟨x2, .seq q1 q2, g2, s2⟩
  | branch a b iha ihb =>
    intro s seen hs hp ha hn e t e1 e' hr hg hsim
    cases hr with
    | left r1 =>
      obtain ⟨x1, q1, g1, s1⟩ := iha s seen hs hp.1 ha.1 hn _ _ _ _ r1 hg hsim
      exact ⟨x1, .left q1, g1, s1⟩
    | right r2 =>
      obtain ⟨h1, h2⟩ := importPass_names a hs hp.1
      obtain ⟨x2, q2, g2, s2⟩ := ihb _ (seen ++ imports a) h1 hp.2 ha.2
        (by intro x hx; rcases List.mem_append.1 hx with hx | hx
            · exact h2 x (.inl (hn x hx))
            · exact h2 x (.inr hx)) _ _ _ _ r2 hg hsim
      exact ⟨x2, .right q2, g2, s2⟩
  | imp x m =>
    intro s seen hs hp ha hn e t e1 e' hr hg hsim
    cases hr
    refine ⟨e', .skip, hg.put (fun k hk => ?_) (fun k hk => ?_), ?_⟩
    · rw [hp.1] at hk; rw [Option.some.inj hk]
    · rw [hp.2] at hk; simp at hk
    · intro y hy
      unfold Names.put
      split
      · next e => subst e; rw [hp.1] at hy; simp at hy
      · exact hsim y hy
  | assign x y path =>
    intro s seen hs hp ha hn e t e1 e' hr hg hsim
    cases hr with
    | assign hv =>
      rename_i v
      obtain ⟨hx, hy⟩ := hp
      have step : ∀ q, (∃ e1', Run q e' [] e1' ∧ e1' = Names.put e' x (v.attr path)) → (∀ m, R x = some m → v.attr path = .api m) →
          ∃ e1', Run q e' [] e1' ∧ Good I R (Names.put e x (v.attr path)) ∧ Sim I (Names.put e x (v.attr path)) e1' := by
        rintro q ⟨_, hq, rfl⟩ hR
        exact ⟨_, hq, hg.put (fun m hm => by rw [hx] at hm; simp at hm) hR, hsim.put _ _⟩
      cases hI : I y with
      | none =>
        have hno : s.names.get? y = none := by
          cases h : s.names.get? y with
          | none => rfl
          | some m => rw [hs.names y m h] at hI; simp at hI
        rw [hI] at hy
        simp only at hy
        have hl : laterPass N (importPass s (.assign x y path)).2 = .assign x y path := by
          simp only [importPass, hno, laterPass, hN, hI]; split <;> rfl
        rw [hl]
        exact step _ ⟨_, .assign ((hsim y hI).trans hv), rfl⟩ (fun m hm => by rw [hy] at hm; simp at hm)
      | some m =>
        rw [hI] at hy
        simp only at hy
        have hval : v = .api m := by
          rcases hg.1 y m hI with h | h
          · rw [h] at hv; simp at hv
          · rw [h] at hv; exact (Option.some.inj hv).symm
        subst hval
        have hl : laterPass N (importPass s (.assign x y path)).2 = .assignApi x (m ++ path) := by
          by_cases hpath : path = []
          · have hmem : y ∈ s.names.keys := hn y (ha hpath (by simp [hI]))
            have hsome : s.names.get? y = some m := by
              cases h : s.names.get? y with
              | none => exact absurd hmem (Dict.get?_eq_none_iff.1 h)
              | some k => rw [hs.names y k h] at hI; rw [Option.some.inj hI]
            simp only [importPass, hsome, laterPass]
          · cases h : s.names.get? y with
            | none => simp only [importPass, h, laterPass, hpath, if_false, hN, hI]
            | some k =>
              have hk : k = m := by rw [hs.names y k h] at hI; exact Option.some.inj hI
              subst hk
              simp only [importPass, h, laterPass]
        rw [hl]
        refine step _ ⟨_, .assignApi, rfl⟩ (fun k hk => ?_)
        by_cases hpath : path = []
        · simp only [hpath, if_true] at hy
          rw [hy] at hk
          simp [Val.attr, hpath, Option.some.inj hk]
        · simp only [hpath, if_false] at hy
          rw [hy] at hk; simp at hk
  | assignApi x m =>
    intro s seen hs hp ha hn e t e1 e' hr hg hsim
    cases hr
    exact ⟨_, .assignApi, hg.put (fun k hk => by rw [hp.1] at hk; simp at hk) (fun k hk => by rw [hp.2] at hk; simp at hk),
      hsim.put _ _⟩
  | bind x =>
    intro s seen hs hp ha hn e t e1 e' hr hg hsim
    cases hr with
    | bind v =>
      exact ⟨_, .bind v, hg.put (fun k hk => by rw [hp.1] at hk; simp at hk) (fun k hk => by rw [hp.2] at hk; simp at hk),
        hsim.put _ _⟩
  | call x path =>
    intro s seen hs hp ha hn e t e1 e' hr hg hsim
    cases hr with
    | call hv =>
      rename_i v
      refine ⟨e', ?_, hg, hsim⟩
      have api : ∀ m, (e x = none ∨ e x = some (.api m)) → v = .api m := by
        intro m h
        rcases h with h | h
        · rw [h] at hv; simp at hv
        · rw [h] at hv; exact (Option.some.inj hv).symm
      cases hren : (if path = [] then s.renamed.get? x else none) with
      | some m =>
        have hpath : path = [] := by by_contra h; rw [if_neg h] at hren; simp at hren
        rw [if_pos hpath] at hren
        have := api m (hg.2 x m (hs.renamed x m hren))
        subst this
        subst hpath
        simp only [importPass, if_true, hren, laterPass, Val.attr, List.append_nil]
        exact .callApi
      | none =>
        cases h : s.names.get? x with
        | some m =>
          have := api m (hg.1 x m (hs.names x m h))
          subst this
          simp only [importPass, hren, h, laterPass, Val.attr]
          exact .callApi
        | none =>
          simp only [importPass, hren, h, laterPass, hN]
          cases hI : I x with
          | none =>
            simp only
            exact .call ((hsim x hI).trans hv)
          | some m =>
            have := api m (hg.1 x m hI)
            subst this
            simp only [Val.attr]
            exact .callApi
  | callApi m =>
    intro s seen hs hp ha hn e t e1 e' hr hg hsim
    cases hr
    exact ⟨_, .callApi, hg, hsim⟩
  | loop b ih =>
    intro s seen hs hp ha hn e t e1 e' hr hg hsim
    have ih' := ih s seen hs hp ha hn
    simp only [importPass, laterPass]
    generalize laterPass N (importPass s b).2 = b' at ih'
    clear ih
    generalize hq : S.loop b = q at hr
    induction hr generalizing e' with
    | done =>
      exact ⟨e', .done, hg, hsim⟩
    | again r1 _ _ ih2 =>
      cases hq
      obtain ⟨x1, q1, g1, s1⟩ := ih' _ _ _ _ r1 hg hsim
      obtain ⟨x2, q2, g2, s2⟩ := ih2 x1 g1 s1 rfl
      exact ⟨x2, .again q1 q2, g2, s2⟩
    | _ => cases hq
  | scope ps b ih =>
    intro s seen hs hp ha hn e t e1 e' hr hg hsim
    cases hr with
    | scope args r =>
      obtain ⟨x1, q1, _, _⟩ := ih s seen hs hp.2 ha hn _ _ _ (fun x => if x ∈ ps then some (args x) else e' x) r
        ⟨fun x m hx => by
            have : x ∉ ps := fun h => by rw [(hp.1 x h).1] at hx; simp at hx
            simp only [if_neg this]; exact hg.1 x m hx,
          fun x m hx => by
            have : x ∉ ps := fun h => by rw [(hp.1 x h).2] at hx; simp at hx
            simp only [if_neg this]; exact hg.2 x m hx⟩
        (fun x hx => by dsimp only; split; rfl; exact hsim x hx)
      exact ⟨e', .scope args q1, hg, hsim⟩

/-- **C73 (partial).** In a file in which every imported name and every name that is assigned an imported name has one
meaning, and imported names are assigned to others only after their import, every run of the program is a run of the
converted program: the same things are called in the same order, and the other names have the same values at the end.
The full claim has no condition on the file. -/
theorem C73_same_calls_partial (imported renamed : Str → Option Api) (p : S) (h : OneMeaning imported renamed p)
    (ha : AfterImport imported [] p) (hall : ∀ x, imported x ≠ none → x ∈ imports p)
    (e : Names) (he : ∀ x, imported x ≠ none ∨ renamed x ≠ none → e x = none) (calls : List Val) (e1 : Names)
    (hrun : Run p e calls e1) :
    ∃ e1', Run (convert p) e calls e1' ∧ ∀ x, imported x = none → e1' x = e1 x := by
  have h0 : Sound imported renamed {} := ⟨by simp, by simp⟩
  obtain ⟨h1, h2⟩ := importPass_names p h0 h
  have hN : ∀ x, (importPass {} p).1.names.get? x = imported x := by
    intro x
    cases hx : (importPass {} p).1.names.get? x with
    | some m => exact (h1.names x m hx).symm
    | none =>
      cases hi : imported x with
      | none => rfl
      | some m => exact absurd (h2 x (.inr (hall x (by simp [hi])))) (Dict.get?_eq_none_iff.1 hx)
  obtain ⟨e1', q, _, s⟩ := simulate hN p {} [] h0 h ha (by simp) e calls e1 e hrun
    ⟨fun x m hx => .inl (he x (.inl (by simp [hx]))), fun x m hx => .inl (he x (.inr (by simp [hx])))⟩ (fun _ _ => rfl)
  exact ⟨e1', q, s⟩

/-! ## Examples and witnesses -/

def seqs : List S → S
  | [] => .skip
  | s :: l => .seq s (seqs l)

/-- `from torch import add as TorchAdd`, `my_add = TorchAdd`, `while ..: my_add(..)` -/
def good : S :=
  seqs [.imp py"TorchAdd" [py"torch", py"add"], .assign py"my_add" py"TorchAdd" [], .loop (.call py"my_add" [])]

/-- The hypotheses of `C73_same_calls_partial` are met, and the converted program is the expected one. -/
example : ∃ imported renamed, OneMeaning imported renamed good ∧ AfterImport imported [] good ∧
    (∀ x, imported x ≠ none → x ∈ imports good) ∧
    convert good = seqs [.skip, .assignApi py"my_add" [py"torch", py"add"], .loop (.callApi [py"torch", py"add"])] := by
  refine ⟨fun x => if x = py"TorchAdd" then some [py"torch", py"add"] else none,
    fun x => if x = py"my_add" then some [py"torch", py"add"] else none, ?_, ?_, ?_, by decide⟩
  · simp [good, seqs, OneMeaning]
  · simp [good, seqs, AfterImport, imports]
  · intro x hx
    simp only [good, seqs, imports]
    by_cases h : x = py"TorchAdd"
    · subst h; decide
    · simp [h] at hx

def noNames : Names := fun _ => none

/-- A name that was assigned a torch function and then something else: `f = TorchAdd; f = ...; f(..)` -/
def rebound : S :=
  seqs [.imp py"TorchAdd" [py"torch", py"add"], .assign py"f" py"TorchAdd" [], .bind py"f", .call py"f" []]

/-- **C73 is false of the code, renamed names.** A name that was once assigned a torch function stands for it in all
later calls, whatever it is assigned after that. -/
theorem C73_rebound_negative : (∃ e1, Run rebound noNames [.obj 0 []] e1) ∧ ∀ e e1, ¬ Run (convert rebound) e [.obj 0 []] e1 := by
  constructor
  · exact ⟨_, .seq (t := []) .imp (.seq (t := []) (.assign (v := .api [py"torch", py"add"]) (by decide))
      (.seq (t := []) (.bind (.obj 0 [])) (.seq (t := [_]) (.call (v := .obj 0 []) (by simp [Names.put])) .skip)))⟩
  · intro e e1 h
    have hc : convert rebound = seqs [.skip, .assignApi py"f" [py"torch", py"add"], .bind py"f", .callApi [py"torch", py"add"]] := by
      decide
    rw [hc] at h
    generalize ht : [Val.obj 0 []] = t at h
    simp only [seqs] at h
    cases h with | seq r1 r =>
    cases r with | seq r2 r =>
    cases r with | seq r3 r =>
    cases r with | seq r4 r =>
    cases r1; cases r2; cases r3; cases r4; cases r
    simp at ht

/-- A parameter with the name of an import: `from torch import nn`, `def f(nn): nn.Linear(..)` -/
def shadowed : S :=
  seqs [.imp py"nn" [py"torch", py"nn"], .scope [py"nn"] (.call py"nn" [py"Linear"])]

/-- **C73 is false of the code, scopes.** The call in the function is of the parameter, but is converted as a call of
the API. -/
theorem C73_parameter_negative : (∃ e1, Run shadowed noNames [.obj 0 [py"Linear"]] e1) ∧
    ∀ e e1, ¬ Run (convert shadowed) e [.obj 0 [py"Linear"]] e1 := by
  constructor
  · exact ⟨_, .seq (t := []) .imp (.seq (t := [_]) (.scope (fun _ => .obj 0 []) (.call (v := .obj 0 []) (by decide))) .skip)⟩
  · intro e e1 h
    have hc : convert shadowed = seqs [.skip, .scope [py"nn"] (.callApi [py"torch", py"nn", py"Linear"])] := by decide
    rw [hc] at h
    generalize ht : [Val.obj 0 [py"Linear"]] = t at h
    simp only [seqs] at h
    cases h with | seq r1 r =>
    cases r with | seq r2 r =>
    cases r1; cases r
    cases r2 with | scope args r2 =>
    cases r2
    simp at ht

/-- An import in one function, another use of the name in the next: `def f(): from torch import add as g; g(..)`,
`def k(): g = ..; g(..)` -/
def inFunction : S :=
  seqs [.scope [] (.seq (.imp py"g" [py"torch", py"add"]) (.call py"g" [])),
    .scope [] (.seq (.bind py"g") (.call py"g" []))]

/-- **C73 is false of the code, imports in functions.** An import in one function decides what the name stands for in
the others. -/
theorem C73_function_negative : (∃ e1, Run inFunction noNames [.api [py"torch", py"add"], .obj 0 []] e1) ∧
    ∀ e e1, ¬ Run (convert inFunction) e [.api [py"torch", py"add"], .obj 0 []] e1 := by
  constructor
  · refine ⟨_, .seq (t := [_]) (.scope (fun _ => .obj 0 []) (.seq (t := []) .imp (.call (v := .api [py"torch", py"add"]) ?_)))
      (.seq (t := [_]) (.scope (fun _ => .obj 0 []) (.seq (t := []) (.bind (.obj 0 [])) (.call (v := .obj 0 []) ?_))) .skip)⟩ <;>
      simp [Names.put]
  · intro e e1 h
    have hc : convert inFunction = seqs [.scope [] (.seq .skip (.callApi [py"torch", py"add"])),
      .scope [] (.seq (.bind py"g") (.callApi [py"torch", py"add"]))] := by decide
    rw [hc] at h
    generalize ht : [Val.api [py"torch", py"add"], Val.obj 0 []] = t at h
    simp only [seqs] at h
    cases h with | seq r1 r =>
    cases r with | seq r2 r =>
    cases r
    cases r1 with | scope args r1 =>
    cases r2 with | scope args r2 =>
    cases r1 with | seq a b =>
    cases r2 with | seq c d =>
    cases a; cases b; cases c; cases d
    simp at ht

/-- An assignment before the import in the text: `while ..: { if ..: { g = add; g(..) }; from torch import add }` -/
def early : S :=
  .loop (.seq (.branch (.seq (.assign py"g" py"add" []) (.call py"g" [])) .skip) (.imp py"add" [py"torch", py"add"]))

/-- **C73 is false of the code, order.** The import is removed, but an assignment of the imported name before it in the
text is not rewritten, so that the converted program cannot run it. -/
theorem C73_order_negative : (∃ e1, Run early noNames [.api [py"torch", py"add"]] e1) ∧
    ∀ e1, ¬ Run (convert early) noNames [.api [py"torch", py"add"]] e1 := by
  constructor
  · refine ⟨_, .again (t := []) (.seq (t := []) (.right .skip) .imp) (.again (t := [_]) (.seq (t := [_])
      (.left (.seq (t := []) (.assign (v := .api [py"torch", py"add"]) ?_) (.call (v := .api [py"torch", py"add"]) ?_))) .imp) .done)⟩ <;>
      simp [Names.put, Val.attr]
  · intro e1 h
    have hc : convert early = .loop (.seq (.branch (.seq (.assign py"g" py"add" []) (.call py"g" [])) .skip) .skip) := by
      decide
    rw [hc] at h
    generalize hq : S.loop (.seq (.branch (.seq (.assign py"g" py"add" []) (.call py"g" [])) .skip) .skip) = q at h
    generalize ht : [Val.api [py"torch", py"add"]] = t at h
    have key : ∀ q e t e1, Run q e t e1 →
        q = S.loop (.seq (.branch (.seq (.assign py"g" py"add" []) (.call py"g" [])) .skip) .skip) →
        e py"add" = none → t = [] := by
      intro q e t e1 h
      induction h with
      | done => intro _ _; rfl
      | again r1 _ _ ih2 =>
        intro hq he
        cases hq
        cases r1 with | seq a b =>
        cases b
        cases a with
        | left r =>
          cases r with | seq a b =>
          cases a with | assign hv => rw [he] at hv; simp at hv
        | right r =>
          cases r
          simpa using ih2 rfl he
      | _ => intro hq; cases hq
    have := key q _ t e1 h hq.symm rfl
    rw [this] at ht
    simp at ht

end Verif.Bind

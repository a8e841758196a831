import Verif.Lemmas.ValueRows

/-!
# C87, C88: uses of an API without a call
-/

namespace Verif.Value
open Verif Verif.Data Verif.Dispatch
open Verif.Matcher (matchDots)

theorem api_list : shipped.api = apiTable.map fun r => (r.name, r.entry) := rfl
theorem attr_list : shipped.attr = attrTable.map fun r => (r.name, r.entry) := rfl

theorem api_in {r : Raw} (h : r ∈ apiTable) : r ∈ entries := List.mem_append_left _ h
theorem attr_in {r : Raw} (h : r ∈ attrTable) : r ∈ entries := List.mem_append_right _ h

/-- A decision for `Nameless`. -/
def nameless (k : Str) (r : Raw) : Bool :=
  r.key.beq (encode k) && !(r.matcher.beq 0) && !isC py"ChangePrefixMatcher" r && !isC py"FAApplyRotaryEmbFuncMatcher" r && r.cfg.paddleApi.isNone

theorem nameless_of {k : Str} (hk : decode (encode k) = k) (h : apiTable.any (nameless k) = true) : Nameless k := by
  obtain ⟨r, hr, h⟩ := List.any_eq_true.1 h
  unfold nameless at h
  simp only [Bool.and_eq_true, Bool.not_eq_true', ← Bool.not_eq_true, Option.isNone_iff_eq_none, Nat.beq_eq] at h
  obtain ⟨⟨⟨⟨h1, h2⟩, h3⟩, h4⟩, h5⟩ := h
  refine ⟨r, hr, by rw [Raw.name, h1, hk], h2, fun e => h3 ((class_iff _ (by decide) r).1 e), fun e => h4 ((class_iff _ (by decide) r).1 e), h5⟩

theorem backward_row : ∃ r ∈ apiTable, r.class = py"GenericMatcher" ∧ r.name = backward ∧ r.matcher ≠ 0 ∧ r.cfg.paddleApi = none := by
  have h : apiTable.any (fun r => r.key.beq (encode backward) && isC py"GenericMatcher" r && !(r.matcher.beq 0) && r.cfg.paddleApi.isNone) = true := by
    decide +kernel
  obtain ⟨r, hr, h⟩ := List.any_eq_true.1 h
  simp only [Bool.and_eq_true, Bool.not_eq_true', ← Bool.not_eq_true, Option.isNone_iff_eq_none] at h
  exact ⟨r, hr, (class_iff _ (by decide) r).2 h.1.1.2, (name_iff _ (by decide) r).2 h.1.1.1, fun e => h.1.2 (by rw [e]; rfl), h.2⟩

theorem backward_nameless : Nameless backward := by
  obtain ⟨r, hr, hc, hn, h0, hp⟩ := backward_row
  exact ⟨r, hr, hn, h0, by rw [hc]; decide, by rw [hc]; decide, hp⟩

theorem viaParent_ok {n : Str} (h2 : parentName n ≠ dataLoader) (h3 : ¬ Nameless (canonical shipped (parentName n))) :
    ∃ v, viaParent n = .ok v ∧ (Ident ((Str.splitOn '.' n).getLastD []) → v.Target) := by
  unfold viaParent
  split
  · cases hm : getMatcher shipped shipped.api (parentName n) with
    | error x => exact absurd (api_error hm) h2
    | ok o =>
      cases o with
      | none => exact ⟨_, rfl, fun _ => trivial⟩
      | some mc =>
        obtain ⟨m, c⟩ := mc
        have key : ∃ p, paddleApi m c (cfgOf apiTable c) = .ok (some p) := by
          rcases matcher_cases hm with ⟨r, hr, e1, rfl, rfl, h0⟩ | rfl
          · rw [cfgOf_mem Whole.api_nodup hr]
            have hb : r.name ≠ backward := by
              intro e
              rw [← e1, e] at h3
              exact h3 backward_nameless
            obtain ⟨p, hp, hno, -⟩ := entry_paddle (api_in hr) h0 hb
            cases p with
            | none =>
              obtain ⟨a, b, c⟩ := hno rfl
              exact absurd ⟨r, hr, e1, h0, a, b, c⟩ h3
            | some p => exact ⟨p, hp⟩
          · exact ⟨_, rfl⟩
        obtain ⟨p, hp⟩ := key
        dsimp only
        rw [hp]
        dsimp only
        split
        · exact ⟨_, rfl, fun _ => trivial⟩
        · exact ⟨_, rfl, fun hi => ⟨_, hi, Or.inr ⟨_, rfl⟩⟩⟩
  · exact ⟨_, rfl, fun _ => trivial⟩

theorem viaParent_target {n : Str} {v : Value} (h : viaParent n = .ok v) (hi : Ident ((Str.splitOn '.' n).getLastD [])) : v.Target := by
  unfold viaParent at h
  split at h
  · split at h
    · simp at h
    · obtain rfl := Except.ok.inj h; trivial
    · split at h
      · simp at h
      · simp at h
      · split at h
        · obtain rfl := Except.ok.inj h; trivial
        · obtain rfl := Except.ok.inj h; exact ⟨_, hi, Or.inr ⟨_, rfl⟩⟩
  · obtain rfl := Except.ok.inj h; trivial

theorem found_ok {n : Str} {r : Raw} {table : List Raw} (hnd : (table.map Raw.name).Nodup) (hr : r ∈ table) (hin : r ∈ entries) (h0 : r.matcher ≠ 0)
    (hb : r.name ≠ backward) :
    ofPackage.found n r.class r.name (cfgOf table r.name) = viaParent n ∨
      ∃ p, ofPackage.found n r.class r.name (cfgOf table r.name) = .ok (.code p) ∧
        (Assignable p ∨ r.name = pattern ∨ ∃ t, r.cfg.paddleApi = some ('\'' :: t)) := by
  obtain ⟨p, hp, -, hs⟩ := entry_paddle hin h0 hb
  unfold ofPackage.found
  rw [cfgOf_mem hnd hr, hp]
  cases p with
  | none => exact Or.inl rfl
  | some p =>
    obtain ⟨h1, h2⟩ := hs p rfl
    simp only [List.mem_cons, List.not_mem_nil, or_false, not_or] at h1
    dsimp only
    rw [if_neg (by rintro (h | h); exacts [h1.1 h, h1.2.1 h]), if_neg (by rintro (h | h); exacts [h1.2.2.1 h, h1.2.2.2 h])]
    exact Or.inr ⟨p, rfl, h2⟩

/-- What becomes of a name of a package. -/
theorem ofPackage_cases {n : Str} (hne : matchDots py"einops.layers.torch" (canonical shipped n) = false) (h1 : canonical shipped n ≠ backward)
    (h2 : n ≠ dataLoader) :
    ofPackage n = viaParent n ∨ ∃ p, ofPackage n = .ok (.code p) ∧
      (Assignable p ∨ canonical shipped n = pattern ∨ Literal (canonical shipped n)) := by
  unfold ofPackage
  cases ha : getMatcher shipped shipped.attr n with
  | error x => exact (attr_error ha).elim
  | ok o =>
    cases hm : getMatcher shipped shipped.api n with
    | error x => exact absurd (api_error hm) h2
    | ok o' =>
      cases o with
      | none =>
        cases o' with
        | none => exact Or.inl rfl
        | some mc =>
          obtain ⟨m, c⟩ := mc
          rw [api_list] at hm
          obtain ⟨r, hr, e1, rfl, rfl, h0⟩ := matcher_entry hne hm
          refine (found_ok Whole.api_nodup hr (api_in hr) h0 (by rw [e1]; exact h1)).imp_right ?_
          rintro ⟨p, hp, h⟩
          exact ⟨p, hp, h.imp_right (Or.imp e1.symm.trans fun ⟨t, ht⟩ => ⟨r, api_in hr, e1, t, ht⟩)⟩
      | some mc =>
        cases o' with
        | some mc' => exact (one_matcher hne ha hm).elim
        | none =>
          obtain ⟨m, c⟩ := mc
          rw [attr_list] at ha
          obtain ⟨r, hr, e1, rfl, rfl, h0⟩ := matcher_entry hne ha
          refine (found_ok Whole.attr_nodup hr (attr_in hr) h0 (by rw [e1]; exact h1)).imp_right ?_
          rintro ⟨p, hp, h⟩
          exact ⟨p, hp, h.imp_right (Or.imp e1.symm.trans fun ⟨t, ht⟩ => ⟨r, attr_in hr, e1, t, ht⟩)⟩

/-- What becomes of an attribute of a class. -/
theorem ofClass_cases {f : File} {src n api : Str} (h : decideAttr shipped f n = .cls api) :
    ofClass src api = .ok .keep ∨
      ∃ a ∈ four, api = tensorClass ++ py"." ++ a ∧ a = (Str.splitOn '.' n).getLastD [] ∧ ∃ s, ofClass src api = .ok (.code (s ++ py"()")) := by
  obtain ⟨-, -, C, e, had, -⟩ := (C35_class_attribute shipped f n api).1 h
  have hC : ofTensor api = true ∧ Str.startsWith api py"torch." = true := by
    have hc : C = .tensor ∨ C = .ctx := by
      rcases had with ⟨-, -, h⟩ | ⟨-, h, -⟩
      · exact h
      · exact Or.inl h
    subst e
    unfold ofTensor
    rcases hc with rfl | rfl
    · exact ⟨by rw [Bool.or_eq_true]; exact Or.inl (Str.startsWith_iff.2 ⟨_, rfl⟩), Str.startsWith_iff.2 ⟨_, rfl⟩⟩
    · exact ⟨by rw [Bool.or_eq_true]; exact Or.inr (Str.startsWith_iff.2 ⟨_, rfl⟩), Str.startsWith_iff.2 ⟨_, rfl⟩⟩
  have hne : matchDots py"einops.layers.torch" (canonical shipped api) = false :=
    canonical_not_einops (f := { torch := [py"torch"] }) (by decide) (by
      unfold startWithTorch
      simpa using hC.2)
  unfold ofClass
  cases ha : getMatcher shipped shipped.attr api with
  | error x => exact (attr_error ha).elim
  | ok o =>
    cases o with
    | none => exact Or.inl rfl
    | some mc =>
      obtain ⟨m, c⟩ := mc
      rw [attr_list] at ha
      obtain ⟨r, hr, e1, rfl, rfl, h0⟩ := matcher_entry hne ha
      have e2 : r.name = api := by
        rw [e1]; exact canonical_of_attr (by rw [← e1]; exact List.mem_map_of_mem hr)
      have hb : r.name ≠ backward := by
        rw [e2]; rintro rfl; exact absurd hC.1 (by decide)
      obtain ⟨p, hp, -, -⟩ := entry_paddle (attr_in hr) h0 hb
      dsimp only
      rw [cfgOf_mem Whole.attr_nodup hr, hp]
      dsimp only
      split
      · exact Or.inl rfl
      · next hpre =>
        have hx := List.all_eq_true.1 rowClass_attr r hr
        have hy := List.all_eq_true.1 rowText_attr r hr
        have hP : ¬ isC py"ChangePrefixMatcher" r = true := fun h => hpre ((class_iff _ (by decide) r).2 h)
        unfold rowClass at hx
        unfold rowText at hy
        rw [e2, hC.1] at hx
        simp only [Bool.or_eq_true, Nat.beq_eq, h0, hP, false_or, Bool.not_true, Bool.and_eq_true, Bool.false_eq_true] at hx hy
        obtain ⟨hx1, hx2⟩ := hx
        have hcl : r.class = py"Attribute2Func" := (class_iff _ (by decide) r).2 hx1
        obtain ⟨a, ha4, hx2⟩ := List.any_eq_true.1 hx2
        have hcode : decode (encode (tensorClass ++ py"." ++ a)) = tensorClass ++ py"." ++ a :=
          (by decide : ∀ a ∈ four, decode (encode (tensorClass ++ py"." ++ a)) = tensorClass ++ py"." ++ a) a ha4
        have e3 : r.name = tensorClass ++ py"." ++ a := (name_iff _ hcode r).2 hx2
        rw [hcl] at hp ⊢
        have hp' : r.cfg.paddleApi = p := by
          have : paddleApi py"Attribute2Func" r.name r.cfg = .ok r.cfg.paddleApi := rfl
          rw [this] at hp; exact Except.ok.inj hp
        rw [hp'] at hy
        obtain ⟨p, rfl⟩ := Option.isSome_iff_exists.1 hy
        refine Or.inr ⟨a, ha4, e2.symm.trans e3, ?_, Matcher.parseFunc src p, rfl⟩
        have e4 : C.name ++ py"." ++ (Str.splitOn '.' n).getLastD [] = tensorClass ++ py"." ++ a := by rw [← e, ← e2, e3]
        cases C <;> simp [Cls.name, tensorClass] at e4
        rw [List.getLastD_eq_getLast?]
        exact e4.symm

/-! ## C87 -/

/-- **C87 (for names other than those of C87_nameless_negative, C87_backward_negative and C34_dataloader_negative): a use of an API as a value does not stop the run.** -/
theorem C87_value_partial (f : File) (hf : ∀ p ∈ f.torch, p ∈ torchPackages.keys) (hit : Str → Str → Bool) (node : Expr) (src n : Str)
    (hn : LookedUp f hit node n) (h1 : canonical shipped n ≠ py"torch.autograd.Function.backward")
    (h2 : n ≠ py"torch.utils.data.dataloader.DataLoader" ∧ parentName n ≠ py"torch.utils.data.dataloader.DataLoader")
    (h3 : ¬ Nameless (canonical shipped (parentName n))) : ∃ v, visit f hit node src = .ok v := by
  unfold visit
  rw [show replaceModule f (fullAttrStrict f (blackList f) hit node) = .ok n from hn]
  dsimp only
  cases hd : decideAttr shipped f n with
  | leave => exact ⟨_, rfl⟩
  | cls api =>
    rcases ofClass_cases (src := src) hd with h | ⟨_, _, _, _, s, h⟩
    · exact ⟨_, h⟩
    · exact ⟨_, h⟩
  | package api =>
    obtain ⟨rfl, hs⟩ := (C35_package_attribute shipped f n api).1 hd
    rcases ofPackage_cases (canonical_not_einops hf hs) h1 h2.1 with h | ⟨p, h, -⟩
    · obtain ⟨v, hv, -⟩ := viaParent_ok h2.2 h3
      exact ⟨v, h.trans hv⟩
    · exact ⟨_, h⟩


theorem api_keys' : shipped.api.keys = apiTable.map Raw.name := by
  rw [api_keys]; rfl
theorem attr_keys' : shipped.attr.keys = attrTable.map Raw.name := by
  rw [attr_keys]; rfl

theorem getMatcher_none {table : List Raw} {n : Str} (hne : matchDots py"einops.layers.torch" (canonical shipped n) = false) (ha : n ∉ shipped.aliases.keys)
    (hk : canonical shipped n ∉ table.map Raw.name) : getMatcher shipped (table.map fun r => (r.name, r.entry)) n = .ok none := by
  have hk' : canonical shipped n ∉ Dict.keys (table.map fun r => (r.name, r.entry)) := by
    simpa [Dict.keys] using hk
  unfold getMatcher
  rw [if_neg (by rw [Bool.and_eq_true, Dict.has_iff]; exact fun h => ha h.1)]
  dsimp only
  rw [Dict.get?_eq_none_iff.2 hk']
  dsimp only
  rw [wild_use hne]; rfl

theorem getMatcher_entry {n : Str} {r : Raw} (hr : r ∈ apiTable) (h0 : r.matcher ≠ 0) (h : canonical shipped n = r.name) (hd : n ≠ dataLoader) :
    getMatcher shipped shipped.api n = .ok (some (r.class, r.name)) := by
  have hg : shipped.api.get? r.name = some r.entry := Dict.get?_of_mem api_wf (List.mem_map.2 ⟨r, hr, rfl⟩)
  unfold getMatcher
  rw [if_neg (by rw [Bool.and_eq_true, Dict.has_iff, Dict.has_iff]; exact fun h => alias_not_api h.1 hd h.2), h]
  dsimp only
  rw [hg]
  simp [Entry.use, Raw.entry, h0]

theorem api_not_attr {r : Raw} (hr : r ∈ apiTable) : r.name ∉ attrTable.map Raw.name := by
  intro h
  exact attr_not_api (k := r.name) (by rw [attr_keys]; exact h) (by rw [api_keys]; exact List.mem_map.2 ⟨r, hr, rfl⟩)

/-- The lookup in the table of attributes finds nothing for names of the other table. -/
theorem attr_none {n : Str} {r : Raw} (hne : matchDots py"einops.layers.torch" (canonical shipped n) = false) (hr : r ∈ apiTable)
    (h : canonical shipped n = r.name) : getMatcher shipped shipped.attr n = .ok none := by
  cases ha : getMatcher shipped shipped.attr n with
  | error x => exact (attr_error ha).elim
  | ok o =>
    cases o with
    | none => rfl
    | some mc =>
      rw [attr_list] at ha
      obtain ⟨r', hr', e1, -⟩ := matcher_entry hne ha
      exact absurd (List.mem_map.2 ⟨r', hr', e1.trans h⟩) (api_not_attr hr)

theorem nameless_error {r : Raw} (hr : r ∈ apiTable) (h1 : r.class ≠ py"ChangePrefixMatcher") (h2 : r.class ≠ py"FAApplyRotaryEmbFuncMatcher")
    (h3 : r.cfg.paddleApi = none) :
    paddleApi r.class r.name r.cfg = .error .assertionError ∨ paddleApi r.class r.name r.cfg = .ok none := by
  unfold paddleApi
  rw [h3, if_neg h1, if_neg h2, if_neg (einops_none r (api_in hr))]
  split
  · exact Or.inl rfl
  · exact Or.inr rfl

theorem ofPackage_backward {n : Str} (hne : matchDots py"einops.layers.torch" (canonical shipped n) = false) (h : canonical shipped n = backward)
    (hd : n ≠ dataLoader) : ofPackage n = .error .assertionError := by
  obtain ⟨r, hr, hc, hn, h0, hp⟩ := backward_row
  unfold ofPackage
  rw [attr_none hne hr (h.trans hn.symm), getMatcher_entry hr h0 (h.trans hn.symm) hd]
  dsimp only
  unfold ofPackage.found
  rw [cfgOf_mem Whole.api_nodup hr, hc]
  unfold paddleApi
  rw [if_pos (by decide), hp]

theorem ofPackage_loader : ∃ x, ofPackage dataLoader = .error x := by
  unfold ofPackage
  rw [show getMatcher shipped shipped.api dataLoader = _ from C34_dataloader_negative]
  cases ha : getMatcher shipped shipped.attr dataLoader with
  | error x => exact (attr_error ha).elim
  | ok o => exact ⟨.assertionError, by cases o <;> rfl⟩

namespace Ex

/-- `import torch` -/
def file : File := { names := [(py"torch", py"torch")], torch := [py"torch"] }

def relu : Expr := .attr (.attr (.attr (.name py"torch") py"nn") py"functional") py"relu"

theorem relu_name (hit : Str → Str → Bool) : LookedUp file hit relu py"torch.nn.functional.relu" := by
  unfold LookedUp; rfl

theorem not_nameless {k : Str} (hk : decode (encode k) = k) (h : apiTable.all (fun r => !(r.key.beq (encode k))) = true) : ¬ Nameless k := by
  rintro ⟨r, hr, e, -⟩
  have := List.all_eq_true.1 h r hr
  rw [(name_iff k hk r).1 e] at this
  simp at this

/-- A use of `torch.nn.functional.relu` as a value. -/
example (hit : Str → Str → Bool) (src : Str) : ∃ v, visit file hit relu src = .ok v := by
  have c1 : canonical shipped py"torch.nn.functional.relu" = py"torch.nn.functional.relu" := Pipeline.canonical_none (by decide) (by decide +kernel)
  have c2 : canonical shipped (parentName py"torch.nn.functional.relu") = py"torch.nn.functional" :=
    Pipeline.canonical_none (k := py"torch.nn.functional") (by decide) (by decide +kernel)
  exact C87_value_partial file (by decide) hit relu src _ (relu_name hit) (by rw [c1]; decide) (by decide)
    (by rw [c2]; exact not_nameless (by decide) (by decide +kernel))

end Ex

/-- **C87 is false for members of APIs without a name in Paddle.** If the entry `k` has none, a use of anything below `k` that is not in the tables ends the run with an
exception, in every file that imports the package. -/
theorem C87_nameless_negative (f : File) (hf : ∀ p ∈ f.torch, p ∈ torchPackages.keys) (hit : Str → Str → Bool) (node : Expr) (src k a : Str)
    (hk : Nameless k) (hdot : '.' ∈ k) (ha : '.' ∉ a) (hn : LookedUp f hit node (k ++ py"." ++ a)) (ht : startWithTorch f (k ++ py"." ++ a) = true)
    (hal : k ++ py"." ++ a ∉ shipped.aliases.keys) (hap : k ++ py"." ++ a ∉ shipped.api.keys) (hat : k ++ py"." ++ a ∉ shipped.attr.keys) :
    ∃ x, visit f hit node src = .error x := by
  obtain ⟨r, hr, rfl, h0, h1, h2, h3⟩ := hk
  have hc : canonical shipped (r.name ++ py"." ++ a) = r.name ++ py"." ++ a := by
    unfold canonical; rw [Dict.get?_eq_none_iff.2 hal]; rfl
  have hne := canonical_not_einops hf ht
  have hsp : Str.splitOn '.' (r.name ++ py"." ++ a) = Str.splitOn '.' r.name ++ [a] := by
    have := splitOn_append_sep '.' r.name a
    rw [Str.splitOn_of_not_mem ha] at this
    simpa using this
  have hpar : parentName (r.name ++ py"." ++ a) = r.name := by
    unfold parentName
    rw [hsp, List.dropLast_concat]
    exact Str.join_splitOn '.' r.name
  have hlen : (Str.splitOn '.' (r.name ++ py"." ++ a)).length ≥ 3 := by
    obtain ⟨u, w, e⟩ := List.append_of_mem hdot
    rw [hsp, e, splitOn_append_sep]
    have l1 := List.length_pos_of_ne_nil (Str.splitOn_ne_nil '.' u)
    have l2 := List.length_pos_of_ne_nil (Str.splitOn_ne_nil '.' w)
    simp only [List.length_append, List.length_cons, List.length_nil]
    omega
  have hvp : ∃ x, viaParent (r.name ++ py"." ++ a) = .error x := by
    unfold viaParent
    rw [if_pos hlen, hpar]
    by_cases hd : r.name = dataLoader
    · rw [hd, show getMatcher shipped shipped.api dataLoader = _ from C34_dataloader_negative]
      exact ⟨_, rfl⟩
    · have hcn : canonical shipped r.name = r.name := by
        have : r.name ∉ shipped.aliases.keys := fun h => alias_not_api h hd (by rw [api_keys]; exact List.mem_map.2 ⟨r, hr, rfl⟩)
        unfold canonical; rw [Dict.get?_eq_none_iff.2 this]; rfl
      rw [getMatcher_entry hr h0 hcn hd]
      dsimp only
      rw [cfgOf_mem Whole.api_nodup hr]
      rcases nameless_error hr h1 h2 h3 with h | h <;> rw [h] <;> exact ⟨_, rfl⟩
  unfold visit
  rw [show replaceModule f (fullAttrStrict f (blackList f) hit node) = .ok _ from hn]
  dsimp only
  rw [(C35_package_attribute shipped f _ _).2 ⟨rfl, ht⟩]
  dsimp only
  have g1 : getMatcher shipped shipped.attr (r.name ++ py"." ++ a) = .ok none := by
    rw [attr_list]; exact getMatcher_none hne hal (by rw [hc, ← attr_keys']; exact hat)
  have g2 : getMatcher shipped shipped.api (r.name ++ py"." ++ a) = .ok none := by
    rw [api_list]; exact getMatcher_none hne hal (by rw [hc, ← api_keys']; exact hap)
  unfold ofPackage
  rw [g1, g2]
  exact hvp

/-- `torch.addcmul.__doc__` in a file with `import torch`. -/
example (hit : Str → Str → Bool) (src : Str) :
    ∃ x, visit Ex.file hit (.attr (.attr (.name py"torch") py"addcmul") py"__doc__") src = .error x :=
  C87_nameless_negative Ex.file (by decide) hit _ src py"torch.addcmul" py"__doc__" (nameless_of (by decide) (by decide +kernel)) (by decide) (by decide)
    (by unfold LookedUp; rfl) (by decide)
    (by rw [alias_keys]; exact Pipeline.not_decoded aliasTable (·.1) _ (by decide) (by decide +kernel))
    (by rw [api_keys]; exact Pipeline.not_decoded apiTable (·.key) _ (by decide) (by decide +kernel))
    (by rw [attr_keys]; exact Pipeline.not_decoded attrTable (·.key) _ (by decide) (by decide +kernel))

/-- **C87 is false for a name in the tables.** -/
theorem C87_backward_negative (f : File) (hit : Str → Str → Bool) (node : Expr) (src : Str)
    (hn : LookedUp f hit node py"torch.autograd.Function.backward") (ht : py"torch" ∈ f.torch) :
    visit f hit node src = .error .assertionError := by
  have hs : startWithTorch f backward = true := List.any_eq_true.2 ⟨_, ht, Str.startsWith_iff.2 ⟨py"autograd.Function.backward", rfl⟩⟩
  have hc : canonical shipped backward = backward := Pipeline.canonical_none (by decide) (by decide +kernel)
  unfold visit
  rw [show replaceModule f (fullAttrStrict f (blackList f) hit node) = .ok backward from hn]
  dsimp only
  rw [(C35_package_attribute shipped f _ _).2 ⟨rfl, hs⟩]
  exact ofPackage_backward (by rw [hc]; decide) hc (by decide)

example (hit : Str → Str → Bool) (src : Str) :
    visit Ex.file hit (.attr (.attr (.attr (.name py"torch") py"autograd") py"Function") py"backward") src = .error .assertionError :=
  C87_backward_negative Ex.file hit _ src (by unfold LookedUp; rfl) (by decide)

/-! ## C88 -/

theorem not_to_pattern {n : Str} (h : canonical shipped n = pattern) : n = pattern := by
  unfold canonical at h
  cases hg : shipped.aliases.get? n with
  | none => rw [hg] at h; exact h
  | some v =>
    rw [hg] at h
    obtain ⟨a, ha, e⟩ := List.mem_map.1 (show (n, v) ∈ aliasTable.map fun a => (decode a.1, decode a.2) from Dict.mem_of_get? hg)
    simp only [Prod.mk.injEq] at e
    have hx := Pipeline.not_decoded aliasTable (·.2) pattern (by decide) alias_not_to_pattern
    exact absurd (List.mem_map.2 ⟨a, ha, e.2.trans h⟩) hx

/-- **C88 (but for the four attributes of C88_call_negative and for the entries whose text in Paddle is a string or `re.compile(..)`): what is assigned to can still be
assigned to.** -/
theorem C88_target_partial (f : File) (hf : ∀ p ∈ f.torch, p ∈ torchPackages.keys) (hit : Str → Str → Bool) (node : Expr) (src n : Str) (v : Value)
    (hn : LookedUp f hit node n) (hi : Ident ((Str.splitOn '.' n).getLastD [])) (h4 : (Str.splitOn '.' n).getLastD [] ∉ [py"real", py"imag", py"is_sparse", py"is_sparse_csr"])
    (hl : ¬ Literal (canonical shipped n)) (hp : n ≠ py"torch.utils.data._utils.collate.np_str_obj_array_pattern")
    (hv : visit f hit node src = .ok v) : v.Target := by
  unfold visit at hv
  rw [show replaceModule f (fullAttrStrict f (blackList f) hit node) = .ok n from hn] at hv
  dsimp only at hv
  cases hd : decideAttr shipped f n with
  | leave => rw [hd] at hv; obtain rfl := Except.ok.inj hv; trivial
  | cls api =>
    rw [hd] at hv
    dsimp only at hv
    rcases ofClass_cases (src := src) hd with h | ⟨a, h, _, e, _⟩
    · rw [h] at hv; obtain rfl := Except.ok.inj hv; trivial
    · exact absurd (e ▸ h) h4
  | package api =>
    obtain ⟨rfl, hs⟩ := (C35_package_attribute shipped f n api).1 hd
    rw [hd] at hv
    dsimp only at hv
    have hne := canonical_not_einops hf hs
    by_cases hd : api = dataLoader
    · obtain ⟨x, hx⟩ := ofPackage_loader
      rw [hd, hx] at hv; simp at hv
    by_cases hb : canonical shipped api = backward
    · rw [ofPackage_backward hne hb hd] at hv; simp at hv
    rcases ofPackage_cases hne hb hd with h | ⟨p, h, h' | h' | h'⟩
    · rw [h] at hv
      exact viaParent_target hv hi
    · rw [h] at hv; obtain rfl := Except.ok.inj hv; exact h'
    · exact absurd (not_to_pattern h') hp
    · exact absurd h' hl

/-- `torch.backends.cudnn.benchmark = True` becomes an assignment to `PaddleFlag.cudnn_benchmark`. -/
example (hit : Str → Str → Bool) (src : Str) (v : Value)
    (hv : visit Ex.file hit (.attr (.attr (.attr (.name py"torch") py"backends") py"cudnn") py"benchmark") src = .ok v) : v.Target := by
  have c1 : canonical shipped py"torch.backends.cudnn.benchmark" = py"torch.backends.cudnn.benchmark" := Pipeline.canonical_none (by decide) (by decide +kernel)
  refine C88_target_partial Ex.file (by decide) hit _ src py"torch.backends.cudnn.benchmark" v (by unfold LookedUp; rfl) (by decide) (by decide) ?_ (by decide) hv
  rw [c1]
  rintro ⟨r, hr, e, p, hp⟩
  have key : ∀ r ∈ entries, (!(r.key.beq (encode py"torch.backends.cudnn.benchmark")) || decide (r.cfg.paddleApi = some py"PaddleFlag.cudnn_benchmark")) = true :=
    all_entries (P := fun r => !(r.key.beq (encode py"torch.backends.cudnn.benchmark")) || decide (r.cfg.paddleApi = some py"PaddleFlag.cudnn_benchmark"))
      (by decide +kernel) (by decide +kernel)
  have := key r hr
  rw [(name_iff _ (by decide) r).1 e] at this
  simp only [Bool.not_true, Bool.false_or, decide_eq_true_iff] at this
  rw [hp] at this
  simp at this

theorem paren_not_assignable (s : Str) : ¬ Assignable (s ++ py"()") := by
  rintro ⟨a, ⟨h0, hl, -⟩, e⟩
  have hlast : ∀ w : Str, s ++ py"()" = w ++ a → False := by
    intro w e
    have h1 := congrArg List.getLast? e
    rw [List.getLast?_append, List.getLast?_append] at h1
    cases ha : a.getLast? with
    | none => exact h0 (List.getLast?_eq_none_iff.1 ha)
    | some c =>
      rw [ha] at h1
      simp at h1
      have := hl c (List.mem_of_getLast? ha)
      rw [← h1] at this
      exact absurd this (by decide)
  rcases e with e | ⟨w, e⟩
  · exact hlast [] e
  · exact hlast (w ++ py".") e

def rowFour (a : Str) (r : Raw) : Bool := r.key.beq (encode (py"torch.Tensor." ++ a)) && isC py"Attribute2Func" r && r.cfg.paddleApi.isSome && !(r.matcher.beq 0)

theorem four_call {src a : Str} (ha : a ∈ four) : ∃ s, ofClass src (py"torch.Tensor." ++ a) = .ok (.code (s ++ py"()")) := by
  have hrow : attrTable.any (rowFour a) = true := (by decide +kernel : ∀ a ∈ four, attrTable.any (rowFour a) = true) a ha
  have hcode := (by decide : ∀ a ∈ four, decode (encode (py"torch.Tensor." ++ a)) = py"torch.Tensor." ++ a) a ha
  obtain ⟨r, hr, h⟩ := List.any_eq_true.1 hrow
  unfold rowFour at h
  simp only [Bool.and_eq_true, Bool.not_eq_true', ← Bool.not_eq_true] at h
  obtain ⟨⟨⟨h1, h2⟩, h3⟩, h4⟩ := h
  have e1 : r.name = py"torch.Tensor." ++ a := (name_iff _ hcode r).2 h1
  have e2 : r.class = py"Attribute2Func" := (class_iff _ (by decide) r).2 h2
  have h0 : r.matcher ≠ 0 := fun e => h4 (by rw [e]; rfl)
  have hk : r.name ∈ shipped.attr.keys := by rw [attr_keys']; exact List.mem_map_of_mem hr
  have hal : r.name ∉ shipped.aliases.keys := fun h => alias_not_attr h hk
  have hm : (r.name, r.entry) ∈ shipped.attr := List.mem_map.2 ⟨r, hr, rfl⟩
  have hg := (C34_entry_found r.name r.entry hal).2 hm
  have hg' : getMatcher shipped shipped.attr r.name = .ok (some (r.class, r.name)) := by
    rw [hg]; simp [answer?, Raw.entry, h0]
  obtain ⟨p, hp⟩ := Option.isSome_iff_exists.1 h3
  rw [← e1]
  unfold ofClass
  rw [hg']
  dsimp only
  rw [cfgOf_mem Whole.attr_nodup hr, e2]
  refine ⟨Matcher.parseFunc src p, ?_⟩
  rw [show paddleApi py"Attribute2Func" r.name r.cfg = .ok r.cfg.paddleApi from rfl, hp]
  rfl

/-- **C88 is false for four attributes:** they become calls, to which nothing can be assigned. -/
theorem C88_call_negative (f : File) (hit : Str → Str → Bool) (node : Expr) (src n a : Str) (hn : LookedUp f hit node n)
    (ha : a ∈ [py"real", py"imag", py"is_sparse", py"is_sparse_csr"]) (hd : decideAttr shipped f n = .cls (py"torch.Tensor." ++ a)) :
    ∃ s, visit f hit node src = .ok (.code (s ++ py"()")) ∧ ¬ (Value.code (s ++ py"()")).Target := by
  unfold visit
  rw [show replaceModule f (fullAttrStrict f (blackList f) hit node) = .ok n from hn]
  dsimp only
  rw [hd]
  dsimp only
  obtain ⟨s, h⟩ := four_call (src := src) ha
  exact ⟨s, h, paren_not_assignable s⟩

/-- `x.real = y` -/
example (hit : Str → Str → Bool) (src : Str) : ∃ s, visit Ex.file hit (.attr (.name py"x") py"real") src = .ok (.code (s ++ py"()")) ∧
    ¬ (Value.code (s ++ py"()")).Target := by
  have hc : canonical shipped py"torch.Tensor.real" = py"torch.Tensor.real" := Pipeline.canonical_none (by decide) (by decide +kernel)
  have hm : py"torch.Tensor.real" ∈ shipped.attr.keys := by
    rw [attr_keys, show py"torch.Tensor.real" = decode (encode py"torch.Tensor.real") by decide, mem_map_decode]; decide +kernel
  refine C88_call_negative Ex.file hit _ src py"x.real" py"real" (by unfold LookedUp; rfl) (by decide)
    ((C35_class_attribute shipped _ _ _).2 ⟨by decide, ?_, .tensor, rfl, ?_, (listedAttr_iff _ _).1 ?_, by simp⟩)
  · rw [show Occurs py"NonTorchClass" py"x.real" ↔ Str.contains py"x.real" py"NonTorchClass" = true from Str.contains_iff.symm]; decide
  · refine Or.inl ⟨by decide, ?_, Or.inl rfl⟩
    rw [show Occurs py"self." py"x.real" ↔ Str.contains py"x.real" py"self." = true from Str.contains_iff.symm]; decide
  · unfold inAttr
    rw [show py"torch.Tensor." ++ py"real" = py"torch.Tensor.real" by decide, hc, Dict.has_iff]
    exact hm

end Verif.Value

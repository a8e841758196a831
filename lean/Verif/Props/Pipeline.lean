import Verif.Model.Pipeline
import Verif.Props.Imports
import Verif.Props.Uses
import Verif.Props.Tables

/-!
# C63: it does not matter how an API is imported
-/

namespace Verif.Imports
open Verif
open Verif.Dispatch (File)

/-! ## The names of other packages -/

/-- The names brought in by imports that are no torch imports. -/
def Others (c : Cfg) (bs : List Bind) (x : Str) : Prop := ∃ b ∈ bs, torchB c b = false ∧ b.as_ = x

theorem Others_append {c : Cfg} {a b : List Bind} {x : Str} : Others c (a ++ b) x ↔ Others c a x ∨ Others c b x := by
  unfold Others
  constructor
  · rintro ⟨y, hy, h⟩
    rcases List.mem_append.1 hy with hy | hy
    · exact Or.inl ⟨y, hy, h⟩
    · exact Or.inr ⟨y, hy, h⟩
  · rintro (⟨y, hy, h⟩ | ⟨y, hy, h⟩)
    · exact ⟨y, List.mem_append_left _ hy, h⟩
    · exact ⟨y, List.mem_append_right _ hy, h⟩

/-- How the set of other names changes when the imports `bs` are seen. -/
def Hides (c : Cfg) (f f' : File) (bs : List Bind) : Prop :=
  ∀ x, x ≠ py"*" → (x ∈ f'.other ↔ x ∈ f.other ∨ Others c bs x)

theorem Hides.refl {c : Cfg} {f f' : File} {bs : List Bind} (h : f'.other = f.other) (hb : ∀ b ∈ bs, torchB c b = true) :
    Hides c f f' bs := by
  intro x _
  rw [h]
  constructor
  · exact Or.inl
  · rintro (h1 | ⟨b, h1, h2, -⟩)
    · exact h1
    · rw [hb b h1] at h2; simp at h2

theorem Hides.trans {c : Cfg} {f g k : File} {a b : List Bind} (h1 : Hides c f g a) (h2 : Hides c g k b) : Hides c f k (a ++ b) := by
  intro x hx
  rw [h2 x hx, h1 x hx, Others_append, or_assoc]

theorem importLoop_hides (c : Cfg) (names : List Alias) (f : File) (h1 : ∀ a ∈ names.dropLast, c.isLocal a.name = false)
    (h2 : ∀ a ∈ names, mappedOf c a.name = none) :
    Hides c f (importLoop c names f).2 (Imp.import_ names).binds := by
  induction names generalizing f with
  | nil => exact Hides.refl rfl (by simp [Imp.binds])
  | cons a rest ih =>
    have hother : torchB c ⟨some a.name, 0, none, a.asname.getD a.name⟩ = false →
        Hides c f (addOther f a) [⟨some a.name, 0, none, a.asname.getD a.name⟩] := by
      intro ht x _
      simp only [addOther, mem_add, Others, List.mem_singleton, exists_eq_left, ht, true_and, eq_comm]
    unfold importLoop
    by_cases hl : c.isLocal a.name = true
    · have hr : rest = [] := by
        cases rest with
        | nil => rfl
        | cons b r =>
          have := h1 a (by simp [List.dropLast])
          rw [hl] at this; simp at this
      subst hr
      rw [if_pos hl]
      exact hother (by simp [torchB, hl])
    · rw [if_neg hl]
      have h1' : ∀ a ∈ rest.dropLast, c.isLocal a.name = false := by
        intro b hb
        cases rest with
        | nil => simp at hb
        | cons x r => exact h1 b (by rw [List.dropLast_cons_cons]; simp [hb])
      have h2' : ∀ a ∈ rest, mappedOf c a.name = none := fun b hb => h2 b (by simp [hb])
      have e : (Imp.import_ (a :: rest)).binds = [⟨some a.name, 0, none, a.asname.getD a.name⟩] ++ (Imp.import_ rest).binds := by
        simp [Imp.binds]
      rw [e]
      cases hp : packageOf c a.name with
      | some p =>
        dsimp only
        refine Hides.trans ?_ (ih _ h1' h2')
        refine Hides.refl ?_ (by simp [torchB, hl, hp])
        unfold addPackage
        split <;> rfl
      | none =>
        dsimp only
        rw [h2 a (by simp)]
        dsimp only
        exact (hother (by simp [torchB, hp])).trans (ih _ h1' h2')

theorem addOthers_other (names : List Alias) (f : File) (x : Str) (hx : x ≠ py"*") :
    x ∈ (addOthers f names).other ↔ x ∈ f.other ∨ ∃ a ∈ names, a.asname.getD a.name = x := by
  unfold addOthers
  induction names generalizing f with
  | nil => simp
  | cons a rest ih =>
    rw [List.foldl_cons, ih]
    have : (x ∈ (match a.asname with
      | some n => { f with other := add f.other n }
      | none => if a.name ≠ py"*" then { f with other := add f.other a.name } else f).other) ↔
        x ∈ f.other ∨ a.asname.getD a.name = x := by
      cases a.asname with
      | some n => simp only [mem_add, Option.getD_some, eq_comm]
      | none =>
        dsimp only
        split
        · simp only [mem_add, Option.getD_none, eq_comm]
        · next h =>
          have h : a.name = py"*" := Classical.not_not.1 h
          simp only [Option.getD_none, h]
          constructor
          · exact Or.inl
          · rintro (h | h)
            · exact h
            · exact absurd h.symm hx
    refine (or_congr this Iff.rfl).trans ?_
    simp only [List.mem_cons, exists_eq_or_imp, or_assoc]

theorem bindNames_other (m : Str) (names : List Alias) (f : File) : (bindNames m names f).other = f.other := by
  unfold bindNames
  induction names generalizing f with
  | nil => rfl
  | cons a rest ih => rw [List.foldl_cons]; exact ih _

theorem visitImp_hides (c : Cfg) (s : Imp) (f : File) (h : Regular c s) : Hides c f (visitImp c s f).2 s.binds := by
  cases s with
  | import_ names => exact importLoop_hides c names f h.1 h.2
  | from_ module level names =>
    obtain ⟨h0, h1, h2⟩ := h
    unfold visitImp
    dsimp only
    have other : (∀ b ∈ (Imp.from_ module level names).binds, torchB c b = false) →
        Hides c f (addOthers f names) (Imp.from_ module level names).binds := by
      intro ht x hx
      rw [addOthers_other names f x hx]
      refine or_congr Iff.rfl ⟨?_, ?_⟩
      · rintro ⟨a, ha, e⟩
        have hm : (⟨module, level, some a.name, a.asname.getD a.name⟩ : Bind) ∈ (Imp.from_ module level names).binds :=
          List.mem_map.2 ⟨a, ha, rfl⟩
        exact ⟨_, hm, ht _ hm, e⟩
      · rintro ⟨b, hb, -, e⟩
        simp only [Imp.binds, List.mem_map] at hb
        obtain ⟨a, ha, rfl⟩ := hb
        exact ⟨a, ha, e⟩
    by_cases hl : 0 < level
    · rw [if_pos hl, if_neg (by simpa using h1 hl)]
      apply other
      intro b hb
      simp only [Imp.binds, List.mem_map] at hb
      obtain ⟨a, -, rfl⟩ := hb
      have : (level == 0) = false := by simp; omega
      simp [torchB, this]
    · have hl0 : level = 0 := by omega
      subst hl0
      rw [if_neg hl]
      obtain ⟨m, hm, hmap⟩ := h2 rfl
      subst hm
      dsimp only
      by_cases hloc : c.isLocal m = true
      · rw [if_pos hloc]
        apply other
        intro b hb
        simp only [Imp.binds, List.mem_map] at hb
        obtain ⟨a, -, rfl⟩ := hb
        simp [torchB, hloc]
      · rw [if_neg hloc]
        unfold fromAbsolute
        cases hp : packageOf c m with
        | some p =>
          dsimp only
          refine Hides.refl ?_ ?_
          · rw [bindNames_other]; unfold addPackage; split <;> rfl
          · intro b hb
            simp only [Imp.binds, List.mem_map] at hb
            obtain ⟨a, -, rfl⟩ := hb
            simp [torchB, hloc, hp]
        | none =>
          dsimp only
          rw [hmap]
          apply other
          intro b hb
          simp only [Imp.binds, List.mem_map] at hb
          obtain ⟨a, -, rfl⟩ := hb
          simp [torchB, hp]

mutual
theorem visitStmt_hides (c : Cfg) (p : Nat × Bool) : (s : PStmt) → (st : St) → (∀ i ∈ s.imps, Regular c i) →
    Hides c st.file (visitStmt c p s st).2.file (bindsOf s.imps)
  | .imp s, st, h => by
    have hv := visitImp_hides c s st.file (h s (by simp [PStmt.imps]))
    unfold visitStmt
    have e : bindsOf (PStmt.imp s).imps = s.binds := by simp [bindsOf, PStmt.imps]
    rw [e]
    generalize hx : visitImp c s st.file = x at hv
    obtain ⟨fate, f⟩ := x
    cases fate with
    | keep s' => exact hv
    | gone => dsimp only; rw [(removed_imps p { st with file := f }).2]; exact hv
  | .pass, st, _ => Hides.refl rfl (by simp [PStmt.imps, bindsOf])
  | .plain _, st, _ => Hides.refl rfl (by simp [PStmt.imps, bindsOf])
  | .comp i k bs, st, h => by
    have hb := visitBlocks_hides c (i, k) bs st (by simpa [PStmt.imps] using h)
    unfold visitStmt
    dsimp only
    simpa [PStmt.imps] using hb
theorem visitBlock_hides (c : Cfg) (p : Nat × Bool) : (b : PBlock) → (st : St) → (∀ i ∈ b.imps, Regular c i) →
    Hides c st.file (visitBlock c p b st).2.file (bindsOf b.imps)
  | .nil, st, _ => Hides.refl rfl (by simp [PBlock.imps, bindsOf])
  | .cons s rest, st, h => by
    have hs := visitStmt_hides c p s st (fun i hi => h i (by simp [PBlock.imps, hi]))
    have hr := visitBlock_hides c p rest (visitStmt c p s st).2 (fun i hi => h i (by simp [PBlock.imps, hi]))
    unfold visitBlock
    dsimp only
    rw [PBlock.imps, bindsOf_append]
    exact hs.trans hr
theorem visitBlocks_hides (c : Cfg) (p : Nat × Bool) : (bs : PBlocks) → (st : St) → (∀ i ∈ bs.imps, Regular c i) →
    Hides c st.file (visitBlocks c p bs st).2.file (bindsOf bs.imps)
  | .nil, st, _ => Hides.refl rfl (by simp [PBlocks.imps, bindsOf])
  | .cons b rest, st, h => by
    have hs := visitBlock_hides c p b st (fun i hi => h i (by simp [PBlocks.imps, hi]))
    have hr := visitBlocks_hides c p rest (visitBlock c p b st).2 (fun i hi => h i (by simp [PBlocks.imps, hi]))
    unfold visitBlocks
    dsimp only
    rw [PBlocks.imps, bindsOf_append]
    exact hs.trans hr
end

/-- **C27**, partial (regular statements): the names under which a use is taken to belong to another package are exactly those that the imports
of other packages bring in, by `as` or as written, wherever they are in the file. -/
theorem C27_other_names_partial (c : Cfg) (body : PBlock) (h : ∀ i ∈ body.imps, Regular c i) (x : Str) (hx : x ≠ py"*") :
    x ∈ (visitBlock c (0, false) body {}).2.file.other ↔ ∃ b ∈ body.binds, ¬ b.Torch c ∧ b.as_ = x := by
  rw [visitBlock_hides c (0, false) body {} h x hx]
  simp only [List.not_mem_nil, false_or]
  refine exists_congr fun b => and_congr Iff.rfl (and_congr ?_ Iff.rfl)
  rw [← torchB_iff, Bool.not_eq_true]

end Verif.Imports

namespace Verif.Pipeline
open Verif Verif.Data
open Verif.Uses (E Env visitE chain Proper through expand expandName ofText Seen)
open Verif.Dispatch
open Verif.Matcher (Arg Kw plainCall prefixApi prefixDropped)

/-! ## C63 -/

theorem toExpr_foldl (src : E → Str) (rest : List Str) (e : E) :
    toExpr src (rest.foldl E.attr e) = rest.foldl Expr.attr (toExpr src e) := by
  induction rest generalizing e with
  | nil => rfl
  | cons a rest ih => rw [List.foldl_cons, List.foldl_cons, ih]; rfl

theorem chain_foldl : ∀ {e : E} {l : List Str}, chain e = some l → ∃ h rest, l = h :: rest ∧ e = rest.foldl E.attr (.name h)
  | .name i, l, h => ⟨i, [], by simpa [chain] using h.symm, rfl⟩
  | .attr v a, l, h => by
    simp only [chain, Option.map_eq_some_iff] at h
    obtain ⟨l', h1, rfl⟩ := h
    obtain ⟨x, rest, rfl, rfl⟩ := chain_foldl h1
    exact ⟨x, rest ++ [a], rfl, by simp⟩
  | .op _ _, l, h => by simp [chain] at h
  | .other _ _, l, h => by simp [chain] at h

theorem toExpr_chain (src : E → Str) {e : E} {h : Str} {rest : List Str} (hc : chain e = some (h :: rest)) :
    toExpr src e = dotted h rest := by
  obtain ⟨h', rest', e1, rfl⟩ := chain_foldl hc
  simp only [List.cons.injEq] at e1
  obtain ⟨rfl, rfl⟩ := e1
  rw [toExpr_foldl]; rfl

theorem toExpr_ofText (src : E → Str) {s h : Str} {rest : List Str} (hs : Str.splitOn '.' s = h :: rest) :
    toExpr src (ofText s) = dotted h rest := by
  unfold ofText
  rw [hs]
  dsimp only
  rw [toExpr_foldl]; rfl

/-- Nothing hides the name: no component is a name of another package or one of the three names that are taken to have nothing to do with
torch (nor a star, which is no identifier), and it does not begin with `paddle` or one of the converter's own keys. -/
def Plain (other : Str → Prop) (l : List Str) : Prop :=
  (∀ b ∈ l, b ≠ py"*" ∧ ¬ other b ∧ b ≠ py"ndarray" ∧ b ≠ py"args" ∧ b ≠ py"arg") ∧
    ∀ a ∈ l.head?, a ≠ py"paddle" ∧ a ≠ py"torch_packages" ∧ a ≠ py"may_torch_packages" ∧ a ≠ py"other_packages" ∧
      a ≠ py"api_alias_name_map"

theorem entryOf_eq {r : Raw} (hr : r ∈ apiTable) : entryOf r.name = some r := by
  have hnd : (apiTable.map (·.name)).Nodup := by
    have := api_wf
    unfold Dict.WF at this
    rw [api_keys] at this
    exact this
  unfold entryOf
  generalize apiTable = l at hr hnd
  induction l with
  | nil => simp at hr
  | cons x l ih =>
    rw [List.map_cons, List.nodup_cons] at hnd
    rcases List.mem_cons.1 hr with rfl | h
    · simp
    · have : ¬ (x.name == r.name) = true := by
        intro e
        rw [beq_iff_eq] at e
        exact hnd.1 (e ▸ List.mem_map.2 ⟨r, h, rfl⟩)
      rw [List.find?_cons]
      simp only [Bool.eq_false_iff.2 this]
      exact ih h hnd.2

theorem left_alone (v : Env) (f : File) (hit : Str → Str → Bool) (src : E → Str) (func : E) (args : List Arg) (kws : List Kw) {full : Str}
    (h : replaceModule f (fullAttrStrict f (blackList f) hit (toExpr src (visitE v true func))) = .ok full)
    (h' : decideCall shipped f full = .leave) : convertCall v f hit src func args kws = .ok none := by
  unfold convertCall dispatchCall
  rw [h]
  simp only [bind, Except.bind, h', pure, Except.pure]

/-- What the second pass does with a name that has been resolved to an API. -/
theorem second_pass (v : Env) (f : File) (hit : Str → Str → Bool) (src : E → Str) (func : E)
    (r : Raw) (hr : r ∈ apiTable) (full : Str) (hfull : canonical shipped full = r.name) (hne : full ≠ dataLoader)
    (h : replaceModule f (fullAttrStrict f (blackList f) hit (toExpr src (visitE v true func))) = .ok full) :
    dispatchCall v f hit src func = .ok (if r.matcher = 0 then none else some (r.class, r.name)) := by
  have hkey : r.name ∈ shipped.api.keys := by rw [api_keys]; exact List.mem_map.2 ⟨r, hr, rfl⟩
  have hin : inApi shipped full = true := by
    unfold inApi
    rw [hfull, (Dict.has_iff).2 hkey]; rfl
  have hdec : decideCall shipped f full = .package full := by
    unfold decideCall
    rw [hin, Bool.or_true]; rfl
  have hget : shipped.api.get? r.name = some r.entry :=
    Dict.get?_of_mem api_wf (List.mem_map.2 ⟨r, hr, rfl⟩)
  have hmat : getMatcher shipped shipped.api full = .ok (if r.matcher = 0 then none else some (r.class, r.name)) := by
    unfold getMatcher
    rw [hfull]
    rw [if_neg]
    · dsimp only
      rw [hget]
      by_cases hm : r.matcher = 0 <;> simp [Entry.use, Raw.entry, hm]
    · intro hx
      rw [Bool.and_eq_true, Dict.has_iff, Dict.has_iff] at hx
      exact alias_not_api hx.1 hne hx.2
  unfold dispatchCall
  rw [h]
  simp only [Except.bind, bind, hdec, hmat]

/-- A call that `ChangePrefixMatcher` gets. -/
theorem convert_prefix (v : Env) (f : File) (hit : Str → Str → Bool) (src : E → Str) (func : E) (args : List Arg) (kws : List Kw)
    (r : Raw) (hr : r ∈ apiTable) (hc : r.class = py"ChangePrefixMatcher")
    (h : dispatchCall v f hit src func = .ok (if r.matcher = 0 then none else some (r.class, r.name))) :
    convertCall v f hit src func args kws =
      .ok ((prefixApi torchPackages r.name).bind fun p => plainCall r.cfg prefixDropped p args kws) := by
  have hm : r.matcher ≠ 0 := by
    intro e
    have := (class_iff changePrefix (by decide) r).1 hc
    rw [e] at this
    exact absurd this (by decide)
  unfold convertCall
  rw [h, if_neg hm]
  simp only [Except.bind, bind, hc, if_pos, entryOf_eq hr, pure, Except.pure, Option.bind_some]

theorem replace_plain (f : File) (hit : Str → Str → Bool) (other : Str → Prop) (ht : f.torch ≠ [])
    (hother : ∀ x, x ≠ py"*" → (x ∈ f.other ↔ other x)) (a : Str) (rest : List Str) (hid : ∀ b ∈ a :: rest, Ident b)
    (hp : Plain other (a :: rest)) :
    replaceModule f (fullAttrStrict f (blackList f) hit (dotted a rest)) =
      .ok (match f.names.get? a with
        | some m => dottedText m rest
        | none => dottedText a rest) := by
  obtain ⟨h1, h2⟩ := hp
  have h2 := h2 a (by simp)
  refine C27_names_resolve_partial f hit a rest ht (hid a (by simp)) (fun b hb => hid b (by simp [hb])) ?_ h2.1 h2.2
  intro b hb
  have := h1 b hb
  exact ⟨fun hx => this.2.1 ((hother b this.1).1 hx), this.2.2⟩

/-- **C63, which matcher**, partial: in default mode, a call of any API of the table gets to the matcher of this API, built for this API,
whatever the import statement `b` by which the file gets at the API, and under whatever name: all that counts is that the full name of
what `b` brings in and the attributes after it make up the API or an alias of it. The import may come before the use or after it (`hv`).
Missing: names hidden by imports of other packages, see `C63_hidden_negative`, a name bound twice, uses of the kind of `C57_chain_negative`,
and the name of C34. -/
theorem C63_same_matcher_partial (c : Imports.Cfg) (body : Imports.PBlock) (hreg : ∀ i ∈ body.imps, Imports.Regular c i)
    (l rs : List Imports.Bind) (b : Imports.Bind) (hb : body.binds = l ++ b :: rs) (hT : b.Torch c)
    (hlast : ∀ b' ∈ rs, b'.Torch c → b'.as_ ≠ b.as_)
    (htorch : ∃ b' ∈ body.binds, b'.Torch c ∧ ∃ p, b'.package c = some p ∧ p ∉ c.may)
    (rest : List Str) (func : E) (hfunc : chain func = some (b.as_ :: rest)) (hprop : Proper func)
    (v : Env) (hv : v.file.names.get? b.as_ = some b.full ∨ v.file.names.get? b.as_ = none) (hvnone : v.file.names.get? py"None" = none)
    (hkeep : ∀ x, v.keep x = false) (hcanon : v.canon = canonical shipped)
    (hspecial : ∀ a ∈ rest.dropLast, a ∉ through ∧ a ≠ py"data")
    (r : Raw) (hr : r ∈ apiTable) 
    (hfull : canonical shipped (dottedText b.full rest) = r.name)
    (hload : dottedText b.full rest ≠ py"torch.utils.data.dataloader.DataLoader")
    (hplain : Plain (fun x => ∃ b' ∈ body.binds, ¬ b'.Torch c ∧ b'.as_ = x) (b.as_ :: rest))
    (hplain' : Plain (fun x => ∃ b' ∈ body.binds, ¬ b'.Torch c ∧ b'.as_ = x) (Str.splitOn '.' r.name))
    (hpkg : ∀ b' ∈ body.binds, b'.Torch c → [b'.as_] = (Str.splitOn '.' r.name).take 1 → b'.full = b'.as_)
    (hit : Str → Str → Bool) (src : E → Str) :
    dispatchCall v (Imports.visitBlock c (0, false) body {}).2.file hit src func =
      .ok (if r.matcher = 0 then none else some (r.class, r.name)) := by
  generalize hf : (Imports.visitBlock c (0, false) body {}).2.file = f
  have hname : f.names.get? b.as_ = some b.full := by
    rw [← hf, Imports.C27_last_import_wins c body hreg]
    exact ⟨l, b, rs, hb, hT, rfl, rfl, hlast⟩
  have hother : ∀ x, x ≠ py"*" → (x ∈ f.other ↔ ∃ b' ∈ body.binds, ¬ b'.Torch c ∧ b'.as_ = x) := by
    intro x hx
    rw [← hf]
    exact Imports.C27_other_names_partial c body hreg x hx
  have ht : f.torch ≠ [] := by
    obtain ⟨b', hb', ht', p, hp, hm⟩ := htorch
    have := ((Imports.visitBlock_grow c (0, false) body {} hreg).torch p).2 (Or.inr ⟨Imports.mem_pkgs.2 ⟨b', hb', ht', hp⟩, hm⟩)
    rw [hf] at this
    exact List.ne_nil_of_mem this
  have hid : ∀ x ∈ b.as_ :: rest, Ident x := Uses.chain_proper hprop hfunc
  have key : ∃ full, canonical shipped full = r.name ∧ full ≠ dataLoader ∧
      replaceModule f (fullAttrStrict f (blackList f) hit (toExpr src (visitE v true func))) = .ok full := by
    have hvis : visitE v true func = expandName v func b.as_ rest := by
      rw [Uses.C57_uses_replaced_partial v func true hvnone hprop]
      · cases func with
        | name i =>
          simp only [chain, Option.some.injEq, List.cons.injEq] at hfunc
          obtain ⟨rfl, rfl⟩ := hfunc
          rfl
        | attr w a => simp only [expand, hfunc]
        | op _ _ => simp [chain] at hfunc
        | other _ _ => simp [chain] at hfunc
      · cases func with
        | name i => simp [Seen]
        | attr w a => simp only [Seen, hfunc]; exact Or.inr hspecial
        | op _ _ => simp [chain] at hfunc
        | other _ _ => simp [chain] at hfunc
    rw [hvis]
    unfold expandName
    rcases hv with hv | hv
    · rw [hv]
      dsimp only
      rw [if_neg (by rw [hkeep]; simp), hcanon]
      rw [show Str.join py"." (b.full :: rest) = dottedText b.full rest from rfl, hfull]
      obtain ⟨hd, tl, hs⟩ := List.exists_cons_of_ne_nil (Str.splitOn_ne_nil '.' r.name)
      rw [toExpr_ofText src hs]
      rw [hs] at hplain'
      have hid' : ∀ x ∈ hd :: tl, Ident x := fun x hx => Str.not_mem_of_mem_splitOn (hs ▸ hx)
      rw [replace_plain f hit _ ht hother hd tl hid' hplain']
      have hjoin : dottedText hd tl = r.name := by
        unfold dottedText
        rw [← hs]
        exact Str.join_splitOn '.' r.name
      have hcan : canonical shipped r.name = r.name := by
        unfold canonical
        cases hg : shipped.aliases.get? (dottedText b.full rest) with
        | some t =>
          have e : t = r.name := by rw [← hfull]; simp [canonical, hg]
          rw [Dict.get?_eq_none_iff.2 (e ▸ alias_value_not_alias (Dict.mem_of_get? hg))]; rfl
        | none =>
          have e : dottedText b.full rest = r.name := by rw [← hfull]; simp [canonical, hg]
          rw [e] at hg; rw [hg]; rfl
      have hnl : r.name ≠ dataLoader := by
        intro e
        have : canonical shipped dataLoader ≠ dataLoader := by decide +kernel
        exact this (e ▸ hcan)
      cases hg : f.names.get? hd with
      | none => exact ⟨r.name, hcan, hnl, by rw [hjoin]⟩
      | some m =>
        rw [← hf, Imports.C27_last_import_wins c body hreg] at hg
        obtain ⟨l', b', r', e1, e2, e3, e4, -⟩ := hg
        have := hpkg b' (by rw [e1]; simp) e2 (by rw [hs, e3]; rfl)
        have e5 : m = hd := by rw [← e4, this, e3]
        exact ⟨r.name, hcan, hnl, by dsimp only; rw [e5, hjoin]⟩
    · rw [hv]
      dsimp only
      rw [toExpr_chain src hfunc, replace_plain f hit _ ht hother b.as_ rest hid hplain, hname]
      exact ⟨_, hfull, hload, rfl⟩
  obtain ⟨full, k1, k2, k3⟩ := key
  exact second_pass v f hit src func r hr full k1 k2 k3

/-- **C63, the converted call**, partial: in default mode, a call of a prefix-only API becomes the call of the Paddle API of the same name with exactly the
same arguments, whatever the import statement `b` by which the file gets at the API, and under whatever name: all that counts is that the full name of
what `b` brings in and the attributes after it make up the API or an alias of it. The import may come before the use or after it (`hv`).
Missing: names hidden by imports of other packages, see `C63_hidden_negative`, a name bound twice, uses of the kind of `C57_chain_negative`, the matchers of other
APIs, and the two names of C34 and C47. -/
theorem C63_import_style_partial (L : Spec.Lexer) (c : Imports.Cfg) (body : Imports.PBlock) (hreg : ∀ i ∈ body.imps, Imports.Regular c i)
    (l rs : List Imports.Bind) (b : Imports.Bind) (hb : body.binds = l ++ b :: rs) (hT : b.Torch c)
    (hlast : ∀ b' ∈ rs, b'.Torch c → b'.as_ ≠ b.as_)
    (htorch : ∃ b' ∈ body.binds, b'.Torch c ∧ ∃ p, b'.package c = some p ∧ p ∉ c.may)
    (rest : List Str) (func : E) (hfunc : chain func = some (b.as_ :: rest)) (hprop : Proper func)
    (v : Env) (hv : v.file.names.get? b.as_ = some b.full ∨ v.file.names.get? b.as_ = none) (hvnone : v.file.names.get? py"None" = none)
    (hkeep : ∀ x, v.keep x = false) (hcanon : v.canon = canonical shipped)
    (hspecial : ∀ a ∈ rest.dropLast, a ∉ through ∧ a ≠ py"data")
    (r : Raw) (hr : r ∈ apiTable) (hc : r.class = py"ChangePrefixMatcher") (hn : r.name ≠ py"torch.torch.int32")
    (hfull : canonical shipped (dottedText b.full rest) = r.name)
    (hload : dottedText b.full rest ≠ py"torch.utils.data.dataloader.DataLoader")
    (hplain : Plain (fun x => ∃ b' ∈ body.binds, ¬ b'.Torch c ∧ b'.as_ = x) (b.as_ :: rest))
    (hplain' : Plain (fun x => ∃ b' ∈ body.binds, ¬ b'.Torch c ∧ b'.as_ = x) (Str.splitOn '.' r.name))
    (hpkg : ∀ b' ∈ body.binds, b'.Torch c → [b'.as_] = (Str.splitOn '.' r.name).take 1 → b'.full = b'.as_)
    (hit : Str → Str → Bool) (src : E → Str) (args : List Arg) (kws : List Kw)
    (hnd : (kws.map (·.arg)).Nodup) (ha : ∀ a ∈ args, Spec.Closed L a.src)
    (hk : ∀ n ∈ kws, Spec.Closed L n.src ∧ ∀ k, n.arg = some k → Matcher.NameLike k) :
    ∃ pkg new tail inside, r.name = pkg ++ py"." ++ tail ∧ torchPackages.get? pkg = some new ∧
      convertCall v (Imports.visitBlock c (0, false) body {}).2.file hit src func args kws =
        .ok (some (new ++ py"." ++ tail ++ py"(" ++ inside ++ py")")) ∧
      L.splitArgs inside = args.map (·.src) ++ (kws.filter fun n => decide (∀ k ∈ [py"layout", py"generator", py"memory_format",
        py"sparse_grad", py"foreach"], n.arg ≠ some k)).map Matcher.kwWritten := by
  have hents : r ∈ entries := List.mem_append_left _ hr
  obtain ⟨pkg, new, tail, h1, h2, h3⟩ := C47_shipped_partial r hents hc hn
  obtain ⟨inside, h4, h5⟩ := (C46_shipped_partial L r hents (new ++ py"." ++ tail) args kws hnd ha hk).1 hc
  refine ⟨pkg, new, tail, inside, h1, h2, ?_, h5⟩
  have := C63_same_matcher_partial c body hreg l rs b hb hT hlast htorch rest func hfunc hprop v hv hvnone hkeep hcanon hspecial r hr hfull
    hload hplain hplain' hpkg hit src
  rw [convert_prefix v _ hit src func args kws r hr hc this, h3]
  show Except.ok (plainCall r.cfg prefixDropped (new ++ py"." ++ tail) args kws) = _
  rw [h4]

theorem not_decoded {α : Type} (l : List α) (f : α → Nat) (k : Str) (hk : decode (encode k) = k)
    (h : l.all (fun a => !((f a).beq (encode k))) = true) : k ∉ l.map fun a => decode (f a) := by
  intro hm
  obtain ⟨a, ha, e⟩ := List.mem_map.1 hm
  rw [← hk] at e
  have := List.all_eq_true.1 h a ha
  rw [decode_inj e] at this
  simp at this

theorem canonical_none {k : Str} (hk : decode (encode k) = k) (h : aliasTable.all (fun a => !(a.1.beq (encode k))) = true) :
    canonical shipped k = k := by
  have := not_decoded aliasTable (·.1) k hk h
  rw [← alias_keys] at this
  unfold canonical
  rw [Dict.get?_eq_none_iff.2 this]; rfl

theorem canonical_some {k t : Str} (hk : decode (encode k) = k) (ht : decode (encode t) = t)
    (h : aliasTable.any (fun a => a.1.beq (encode k) && a.2.beq (encode t)) = true) : canonical shipped k = t := by
  obtain ⟨a, ha, h⟩ := List.any_eq_true.1 h
  rw [Bool.and_eq_true, Nat.beq_eq, Nat.beq_eq] at h
  have : (k, t) ∈ shipped.aliases := List.mem_map.2 ⟨a, ha, by rw [h.1, h.2, hk, ht]⟩
  unfold canonical
  rw [Dict.get?_of_mem alias_wf this]; rfl

namespace Ex
/-- `from torch.nn.modules import activation as act` / `import numpy as np` -/
def body : Imports.PBlock :=
  .cons (.imp (.from_ (some py"torch.nn.modules") 0 [{ name := py"activation", asname := some py"act" }]))
    (.cons (.imp (.import_ [{ name := py"numpy", asname := some py"np" }])) .nil)
/-- `import torch` / `from scipy import fft` -/
def scipy : Imports.PBlock :=
  .cons (.imp (.import_ [{ name := py"torch" }])) (.cons (.imp (.from_ (some py"scipy") 0 [{ name := py"fft" }])) .nil)
/-- `import torch` -/
def bare : Imports.PBlock := .cons (.imp (.import_ [{ name := py"torch" }])) .nil
def fileOf (b : Imports.PBlock) : File := (Imports.visitBlock Imports.Ex.cfg (0, false) b {}).2.file
def envOf (b : Imports.PBlock) : Env where
  file := fileOf b
  keep _ := false
  canon := canonical shipped
  data _ := false
/-- `act.ReLU` -/
def relu : E := .attr (.name py"act") py"ReLU"
/-- `torch.fft.fft` -/
def fft : E := .attr (.attr (.name py"torch") py"fft") py"fft"
end Ex

open Ex in
/-- The hypotheses of `C63_import_style_partial` hold for `act.ReLU()`. -/
example (L : Spec.Lexer) (r : Raw) (hr : r ∈ apiTable) (hc : r.class = py"ChangePrefixMatcher") (hn : r.name = py"torch.nn.ReLU") :
    ∃ pkg new tail inside, r.name = pkg ++ py"." ++ tail ∧ torchPackages.get? pkg = some new ∧
      convertCall (envOf body) (fileOf body) (fun _ _ => false) (fun _ => []) relu [] [] =
        .ok (some (new ++ py"." ++ tail ++ py"(" ++ inside ++ py")")) ∧ L.splitArgs inside = [] := by
  have hreg : ∀ i ∈ body.imps, Imports.Regular Imports.Ex.cfg i := by
    intro i hi
    simp only [body, Imports.PBlock.imps, Imports.PStmt.imps, List.mem_append, List.mem_cons, List.not_mem_nil, or_false] at hi
    rcases hi with rfl | rfl
    · exact ⟨by decide, by decide, fun _ => ⟨_, rfl, by decide⟩⟩
    · exact ⟨by decide, by decide⟩
  have hb : body.binds = [] ++ ⟨some py"torch.nn.modules", 0, some py"activation", py"act"⟩ :: [⟨some py"numpy", 0, none, py"np"⟩] := by
    decide
  have hT : Imports.Bind.Torch Imports.Ex.cfg ⟨some py"torch.nn.modules", 0, some py"activation", py"act"⟩ := by
    rw [← Imports.torchB_iff]; decide
  have hO : ∀ l : List Str, py"np" ∉ l → ∀ x ∈ l, ¬ ∃ b' ∈ body.binds, ¬ b'.Torch Imports.Ex.cfg ∧ b'.as_ = x := by
    rintro l hl x hx ⟨b', h1, h2, rfl⟩
    rw [hb] at h1
    simp only [List.nil_append, List.mem_cons, List.not_mem_nil, or_false] at h1
    rcases h1 with rfl | rfl
    · exact h2 hT
    · exact hl hx
  have := C63_import_style_partial L Imports.Ex.cfg body hreg [] [⟨some py"numpy", 0, none, py"np"⟩] _ hb hT
    (by intro b' h1 _; simp at h1; subst h1; decide)
    ⟨_, by rw [hb]; simp, hT, py"torch", by decide, by decide⟩ [py"ReLU"] relu rfl (by simp [relu, Proper])
    (envOf body) (Or.inl (by decide)) (by decide) (fun _ => rfl) rfl (by decide) r hr hc (by rw [hn]; decide)
    (by rw [hn]; exact canonical_some (by decide) (by decide) (by decide +kernel)) (by decide)
    ⟨fun x hx => ⟨?_, hO _ (by decide) x hx, ?_⟩, by decide⟩ ⟨fun x hx => ⟨?_, hO _ (by rw [hn]; decide) x hx, ?_⟩, by rw [hn]; decide⟩
    (by
      intro b' h1 _ h2
      rw [hb] at h1
      rw [hn] at h2
      simp only [List.nil_append, List.mem_cons, List.not_mem_nil, or_false] at h1
      rcases h1 with rfl | rfl
      · exact absurd h2 (by decide)
      · exact absurd h2 (by decide))
    (fun _ _ => false) (fun _ => []) [] [] (by simp) (by simp) (by simp)
  · simpa [fileOf] using this
  all_goals first
    | (revert x; decide)
    | (rw [hn] at hx; revert x; decide)

theorem fft_canonical : canonical shipped py"torch.fft.fft" = py"torch.fft.fft" := canonical_none (by decide) (by decide +kernel)

open Ex in
theorem fft_visit (b : Imports.PBlock) (hb : (fileOf b).names.get? py"torch" = some py"torch") : visitE (envOf b) true fft = fft := by
  unfold fft
  rw [visitE]
  rw [if_neg (by intro h; cases h)]
  show Uses.replace (envOf b) fft = fft
  have : Uses.resolve (envOf b).file (Uses.fullText fft) = some py"torch.fft.fft" := by
    unfold Uses.resolve
    dsimp only
    rw [show (Str.splitOn '.' (Uses.fullText fft)).headD [] = py"torch" by decide, show (envOf b).file = fileOf b from rfl, hb]
    decide
  unfold Uses.replace
  rw [this]
  dsimp only
  rw [if_neg (by simp [envOf]), show (envOf b).canon = canonical shipped from rfl, fft_canonical]
  rfl

theorem nonTorch_api : inApi shipped nonTorch = false := by
  have a2 := not_decoded apiTable (·.key) nonTorch (by decide) (by decide +kernel)
  rw [← api_keys] at a2
  unfold inApi
  rw [canonical_none (by decide) (by decide +kernel), Bool.eq_false_iff.2 (fun h => a2 (Dict.has_iff.1 h))]
  decide

theorem fft_entry : apiTable.any (fun r => r.key.beq (encode py"torch.fft.fft") && r.matcher.beq (encode changePrefix)) = true := by
  decide +kernel

open Ex in
/-- **C63 is false in general**: after `import torch` and `from scipy import fft` the call `torch.fft.fft(x)` is not converted (nor counted),
because the attribute has the name of something imported from another package; without the second import it is. -/
theorem C63_hidden_negative : convertCall (envOf scipy) (fileOf scipy) (fun _ _ => false) (fun _ => []) fft [⟨py"x", false⟩] [] = .ok none ∧
    (∃ full, replaceModule (fileOf scipy) (fullAttrStrict (fileOf scipy) (blackList (fileOf scipy)) (fun _ _ => false)
      (toExpr (fun _ => []) (visitE (envOf scipy) true fft))) = .ok full ∧ decideCall shipped (fileOf scipy) full = .leave) ∧
    convertCall (envOf bare) (fileOf bare) (fun _ _ => false) (fun _ => []) fft [⟨py"x", false⟩] [] = .ok (some py"paddle.fft.fft(x)") := by
  have h2 : replaceModule (fileOf scipy) (fullAttrStrict (fileOf scipy) (blackList (fileOf scipy)) (fun _ _ => false)
      (toExpr (fun _ => []) (visitE (envOf scipy) true fft))) = .ok nonTorch := by
    rw [fft_visit scipy (by decide)]; decide
  have h3 : decideCall shipped (fileOf scipy) nonTorch = .leave := by
    unfold decideCall
    rw [nonTorch_api, show startWithTorch (fileOf scipy) nonTorch = false by decide, Bool.or_false, if_neg Bool.false_ne_true,
      if_pos (by decide)]
  refine ⟨?_, ⟨_, h2, h3⟩, ?_⟩
  · exact left_alone _ _ _ _ _ _ _ h2 h3
  · obtain ⟨r, hr, h⟩ := List.any_eq_true.1 fft_entry
    rw [Bool.and_eq_true] at h
    have hn : r.name = py"torch.fft.fft" := (name_iff _ (by decide) r).2 h.1
    rw [convert_prefix _ _ _ _ _ _ _ r hr ((class_iff changePrefix (by decide) r).2 h.2) (second_pass _ _ _ _ _ r hr py"torch.fft.fft"
      (by rw [fft_canonical, hn]) (by decide) (by rw [fft_visit bare (by decide)]; decide)), hn, show prefixApi torchPackages py"torch.fft.fft" = some py"paddle.fft.fft" by decide]
    simp only [Option.bind_some]
    rw [show plainCall r.cfg prefixDropped py"paddle.fft.fft" [⟨py"x", false⟩] [] = some py"paddle.fft.fft(x)" from rfl]

end Verif.Pipeline

import Verif.Props.Exclude

/-!
# C84: a second run
-/

namespace Verif.Imports
open Verif
open Verif.Dispatch (File)

/-- The statement `import q`. -/
def importStmt (q : Str) : PStmt := .imp (.import_ [{ name := q }])

/-- A list of statements as a block. -/
def blockOf : List PStmt → PBlock
  | [] => .nil
  | s :: l => .cons s (blockOf l)

/-- The program that is read back from the result of a run. -/
def readBack (l : List (Str ⊕ PStmt)) : PBlock :=
  blockOf (l.map fun x => match x with | .inl q => importStmt q | .inr s => s)

theorem blockOf_toList : (b : PBlock) → blockOf b.toList = b
  | .nil => rfl
  | .cons s rest => by rw [PBlock.toList, blockOf, blockOf_toList rest]

theorem toList_blockOf : (l : List PStmt) → (blockOf l).toList = l
  | [] => rfl
  | s :: l => by rw [blockOf, PBlock.toList, toList_blockOf l]

/-! ## Statements that stay as they are -/

/-- Nothing of torch is recorded. -/
structure Quiet (f g : File) : Prop where
  torch : g.torch = f.torch
  may : g.may = f.may
  names : g.names = f.names

theorem Quiet.refl (f : File) : Quiet f f := ⟨rfl, rfl, rfl⟩

theorem Quiet.trans {f g h : File} (a : Quiet f g) (b : Quiet g h) : Quiet f h :=
  ⟨b.torch.trans a.torch, b.may.trans a.may, b.names.trans a.names⟩

theorem quiet_addOther (f : File) (a : Alias) : Quiet f (addOther f a) := ⟨rfl, rfl, rfl⟩

theorem quiet_addOthers (names : List Alias) : ∀ f : File, Quiet f (addOthers f names) := by
  unfold addOthers
  induction names with
  | nil => exact fun f => Quiet.refl f
  | cons a l ih =>
    intro f
    rw [List.foldl_cons]
    refine Quiet.trans ?_ (ih _)
    split
    · exact ⟨rfl, rfl, rfl⟩
    · split
      · exact ⟨rfl, rfl, rfl⟩
      · exact Quiet.refl f

/-- The import pass leaves the statement as it is and records nothing of torch. -/
def Settled (c : Cfg) (i : Imp) : Prop := ∀ f, ∃ g, visitImp c i f = (.keep i, g) ∧ Quiet f g

theorem importLoop_twice (c : Cfg) (hm : c.min = false) : ∀ (names : List Alias), (∀ a ∈ names, mappedOf c a.name = none) → ∀ f g,
    (importLoop c (importLoop c names f).1 g).1 = (importLoop c names f).1 ∧ Quiet g (importLoop c (importLoop c names f).1 g).2
  | [], _, f, g => ⟨rfl, Quiet.refl g⟩
  | a :: rest, h, f, g => by
    have ih := importLoop_twice c hm rest (fun x hx => h x (by simp [hx]))
    by_cases hl : c.isLocal a.name = true
    · have e : ∀ rest f, importLoop c (a :: rest) f = ([a], addOther f a) := by intro rest f; simp [importLoop, hl]
      rw [e, e]
      exact ⟨rfl, quiet_addOther g a⟩
    · cases hp : packageOf c a.name with
      | some p =>
        have e : ∃ f', (importLoop c (a :: rest) f).1 = (importLoop c rest f').1 := ⟨_, by simp [importLoop, hl, hp, hm]; rfl⟩
        obtain ⟨f', e⟩ := e
        rw [e]
        exact ih f' g
      | none =>
        have e : ∀ rest f, importLoop c (a :: rest) f = (a :: (importLoop c rest (addOther f a)).1, (importLoop c rest (addOther f a)).2) := by
          intro rest f; simp [importLoop, hl, hp, h a (by simp)]
        rw [e rest f, e]
        have := ih (addOther f a) (addOther g a)
        exact ⟨by dsimp only; rw [this.1], (quiet_addOther g a).trans this.2⟩

theorem visitImp_settled (c : Cfg) (hm : c.min = false) (i : Imp) (h : Regular c i) (f g : File) (i' : Imp)
    (hv : visitImp c i f = (.keep i', g)) : Settled c i' := by
  cases i with
  | import_ names =>
    unfold visitImp at hv
    dsimp only at hv
    split at hv
    · simp at hv
    · next hne =>
      simp only [Prod.mk.injEq, Fate.keep.injEq] at hv
      rw [← hv.1]
      intro f'
      have := importLoop_twice c hm names h.2 f f'
      refine ⟨_, ?_, this.2⟩
      unfold visitImp
      dsimp only
      rw [this.1, if_neg hne]
  | from_ module level names =>
    obtain ⟨-, h1, h2⟩ := h
    by_cases hl : 0 < level
    · have hs : ∀ f, visitImp c (.from_ module level names) f = (.keep (.from_ module level names), addOthers f names) := by
        intro f
        have := h1 hl
        unfold visitImp
        simp only [hl, if_true]
        rw [if_neg]
        simpa using this
      rw [hs] at hv
      simp only [Prod.mk.injEq, Fate.keep.injEq] at hv
      rw [← hv.1]
      exact fun f => ⟨_, hs f, quiet_addOthers names f⟩
    · obtain ⟨m, rfl, hmap⟩ := h2 (by omega)
      by_cases hloc : c.isLocal m = true
      · have hs : ∀ f, visitImp c (.from_ (some m) level names) f = (.keep (.from_ (some m) level names), addOthers f names) := by
          intro f
          unfold visitImp
          simp only [hl, if_false, hloc, if_true]
        rw [hs] at hv
        simp only [Prod.mk.injEq, Fate.keep.injEq] at hv
        rw [← hv.1]
        exact fun f => ⟨_, hs f, quiet_addOthers names f⟩
      · have hs : ∀ f, visitImp c (.from_ (some m) level names) f = fromAbsolute c m level names f := by
          intro f
          unfold visitImp
          simp only [hl, if_false, hloc, Bool.false_eq_true]
        rw [hs] at hv
        unfold fromAbsolute at hv
        split at hv
        · rw [hm] at hv; simp at hv
        · next hp =>
          rw [hmap] at hv
          simp only [Prod.mk.injEq, Fate.keep.injEq] at hv
          rw [← hv.1]
          intro f
          refine ⟨addOthers f names, ?_, quiet_addOthers names f⟩
          rw [hs]
          unfold fromAbsolute
          rw [hp, hmap]

mutual
theorem visitStmt_settled (c : Cfg) (hm : c.min = false) (p : Nat × Bool) : (s : PStmt) → (st : St) → (∀ i ∈ s.imps, Regular c i) →
    ∀ s', (visitStmt c p s st).1 = some s' → ∀ i ∈ s'.imps, Settled c i
  | .imp s, st, h => by
    intro s' hs' i hi
    unfold visitStmt at hs'
    generalize hx : visitImp c s st.file = x at hs'
    obtain ⟨fate, f⟩ := x
    cases fate with
    | keep s2 =>
      simp only [Option.some.injEq] at hs'
      subst hs'
      simp only [PStmt.imps, List.mem_singleton] at hi
      subst hi
      exact visitImp_settled c hm s (h s (by simp [PStmt.imps])) _ _ _ hx
    | gone =>
      simp only [removed] at hs'
      split at hs'
      · simp only [Option.some.injEq] at hs'; subst hs'; simp [PStmt.imps] at hi
      · simp at hs'
  | .pass, st, _ => by intro s' hs' i hi; simp only [visitStmt, Option.some.injEq] at hs'; subst hs'; simp [PStmt.imps] at hi
  | .plain _, st, _ => by intro s' hs' i hi; simp only [visitStmt, Option.some.injEq] at hs'; subst hs'; simp [PStmt.imps] at hi
  | .comp k t bs, st, h => by
    intro s' hs' i hi
    unfold visitStmt at hs'
    simp only [Option.some.injEq] at hs'
    subst hs'
    exact visitBlocks_settled c hm (k, t) bs st (by simpa [PStmt.imps] using h) i (by simpa [PStmt.imps] using hi)
theorem visitBlock_settled (c : Cfg) (hm : c.min = false) (p : Nat × Bool) : (b : PBlock) → (st : St) → (∀ i ∈ b.imps, Regular c i) →
    ∀ i ∈ (visitBlock c p b st).1.imps, Settled c i
  | .nil, st, _ => by simp [visitBlock, PBlock.imps]
  | .cons s rest, st, h => by
    intro i hi
    have hs := visitStmt_settled c hm p s st (fun i hi => h i (by simp [PBlock.imps, hi]))
    have hr := visitBlock_settled c hm p rest (visitStmt c p s st).2 (fun i hi => h i (by simp [PBlock.imps, hi]))
    unfold visitBlock at hi
    dsimp only at hi
    split at hi
    · next s' hs' =>
      rw [PBlock.imps, List.mem_append] at hi
      exact hi.elim (hs s' hs' i) (hr i)
    · exact hr i hi
theorem visitBlocks_settled (c : Cfg) (hm : c.min = false) (p : Nat × Bool) : (b : PBlocks) → (st : St) → (∀ i ∈ b.imps, Regular c i) →
    ∀ i ∈ (visitBlocks c p b st).1.imps, Settled c i
  | .nil, st, _ => by simp [visitBlocks, PBlocks.imps]
  | .cons b rest, st, h => by
    intro i hi
    have hs := visitBlock_settled c hm p b st (fun i hi => h i (by simp [PBlocks.imps, hi]))
    have hr := visitBlocks_settled c hm p rest (visitBlock c p b st).2 (fun i hi => h i (by simp [PBlocks.imps, hi]))
    unfold visitBlocks at hi
    dsimp only at hi
    rw [PBlocks.imps, List.mem_append] at hi
    exact hi.elim (hs i) (hr i)
end

mutual
theorem visitStmt_fixed (c : Cfg) (p : Nat × Bool) : (s : PStmt) → (st : St) → (∀ i ∈ s.imps, Settled c i) →
    (visitStmt c p s st).1 = some s ∧ Quiet st.file (visitStmt c p s st).2.file
  | .imp s, st, h => by
    obtain ⟨g, hg, hq⟩ := h s (by simp [PStmt.imps]) st.file
    unfold visitStmt
    rw [hg]
    exact ⟨rfl, hq⟩
  | .pass, st, _ => ⟨rfl, Quiet.refl _⟩
  | .plain _, st, _ => ⟨rfl, Quiet.refl _⟩
  | .comp k t bs, st, h => by
    have := visitBlocks_fixed c (k, t) bs st (by simpa [PStmt.imps] using h)
    unfold visitStmt
    dsimp only
    exact ⟨by rw [this.1], this.2⟩
theorem visitBlock_fixed (c : Cfg) (p : Nat × Bool) : (b : PBlock) → (st : St) → (∀ i ∈ b.imps, Settled c i) →
    (visitBlock c p b st).1 = b ∧ Quiet st.file (visitBlock c p b st).2.file
  | .nil, st, _ => ⟨rfl, Quiet.refl _⟩
  | .cons s rest, st, h => by
    have hs := visitStmt_fixed c p s st (fun i hi => h i (by simp [PBlock.imps, hi]))
    have hr := visitBlock_fixed c p rest (visitStmt c p s st).2 (fun i hi => h i (by simp [PBlock.imps, hi]))
    unfold visitBlock
    dsimp only
    rw [hs.1]
    exact ⟨by rw [hr.1], hs.2.trans hr.2⟩
theorem visitBlocks_fixed (c : Cfg) (p : Nat × Bool) : (b : PBlocks) → (st : St) → (∀ i ∈ b.imps, Settled c i) →
    (visitBlocks c p b st).1 = b ∧ Quiet st.file (visitBlocks c p b st).2.file
  | .nil, st, _ => ⟨rfl, Quiet.refl _⟩
  | .cons b rest, st, h => by
    have hs := visitBlock_fixed c p b st (fun i hi => h i (by simp [PBlocks.imps, hi]))
    have hr := visitBlocks_fixed c p rest (visitBlock c p b st).2 (fun i hi => h i (by simp [PBlocks.imps, hi]))
    unfold visitBlocks
    dsimp only
    exact ⟨by rw [hs.1, hr.1], hs.2.trans hr.2⟩
end

/-! ## The imports at the front -/

/-- Whether the second run takes the statement `import q` away (and adds it again). -/
def again (c : Cfg) (q : Str) : Bool := decide (q ∈ c.may) && !c.isLocal q

/-- What the second run records of its names: packages that may be used with torch, under their own names. -/
def Own (c : Cfg) (f : File) : Prop := ∀ x m, f.names.get? x = some m → m = x ∧ x ∈ c.may

theorem visitBlock_some {c : Cfg} {p : Nat × Bool} {s s' : PStmt} {st st1 : St} (h : visitStmt c p s st = (some s', st1)) (b : PBlock) :
    visitBlock c p (.cons s b) st = (.cons s' (visitBlock c p b st1).1, (visitBlock c p b st1).2) := by
  rw [visitBlock, h]

theorem visitBlock_none {c : Cfg} {p : Nat × Bool} {s : PStmt} {st st1 : St} (h : visitStmt c p s st = (none, st1)) (b : PBlock) :
    visitBlock c p (.cons s b) st = visitBlock c p b st1 := by
  rw [visitBlock, h]

theorem visitFront (c : Cfg) (hm : c.min = false) (hmay : ∀ p ∈ c.may, packageOf c p = some p) (rest : PBlock) :
    ∀ (l : List Str) (st : St), (∀ q ∈ l, again c q = false → Settled c (.import_ [{ name := q }])) → l.Nodup → (∀ q ∈ l, q ∉ st.file.may) →
      Own c st.file →
      ∃ st' : St, (visitBlock c (0, false) (blockOf (l.map importStmt ++ rest.toList)) st).1.toList =
          (l.filter fun q => !again c q).map importStmt ++ (visitBlock c (0, false) rest st').1.toList ∧
        (visitBlock c (0, false) (blockOf (l.map importStmt ++ rest.toList)) st).2 = (visitBlock c (0, false) rest st').2 ∧
        st'.file.torch = st.file.torch ∧ st'.file.may = st.file.may ++ l.filter (again c) ∧ Own c st'.file
  | [], st, _, _, _, ho => ⟨st, by simp [blockOf_toList], by simp [blockOf_toList], rfl, by simp, ho⟩
  | q :: l, st, hs, hn, hd, ho => by
    have hn' := List.nodup_cons.1 hn
    rw [List.map_cons, List.cons_append, blockOf]
    cases ha : again c q with
    | false =>
      obtain ⟨g, hg, hq⟩ := hs q (by simp) ha st.file
      have e : visitStmt c (0, false) (importStmt q) st = (some (importStmt q), { st with file := g }) := by
        unfold importStmt visitStmt
        rw [hg]
      obtain ⟨st', h1, h2, h3, h4, h5⟩ := visitFront c hm hmay rest l { st with file := g } (fun q h => hs q (by simp [h])) hn'.2
        (fun x hx => by rw [show ({ st with file := g } : St).file.may = st.file.may from hq.may]; exact hd x (by simp [hx]))
        (fun x m h => ho x m (by rw [← hq.names]; exact h))
      refine ⟨st', ?_, ?_, h3.trans hq.torch, ?_, h5⟩
      · rw [visitBlock_some e, PBlock.toList, h1]
        simp [ha]
      · rw [visitBlock_some e]
        exact h2
      · rw [h4, show ({ st with file := g } : St).file.may = st.file.may from hq.may]
        simp [ha]
    | true =>
      have ha' := ha
      unfold again at ha'
      simp only [Bool.and_eq_true, decide_eq_true_eq, Bool.not_eq_true'] at ha'
      obtain ⟨h0, hl⟩ := ha'
      have e : ∃ f : File, visitStmt c (0, false) (importStmt q) st = (none, { st with file := f }) ∧ f.torch = st.file.torch ∧
          f.may = st.file.may ++ [q] ∧ f.names = st.file.names.set q q := by
        refine ⟨{ addPackage c st.file q with names := st.file.names.set q q }, ?_, ?_, ?_, rfl⟩
        · unfold importStmt visitStmt
          simp only [visitImp, importLoop, hl, hmay q h0, hm, Bool.false_eq_true, if_false, List.isEmpty_nil, if_true, removed, Bool.false_and,
            Option.getD_none]
          simp [addPackage, h0]
        · simp [addPackage, h0]
        · have : q ∉ st.file.may := hd q (by simp)
          simp [addPackage, h0, add, this]
      obtain ⟨f, e, e1, e2, e3⟩ := e
      obtain ⟨st', h1, h2, h3, h4, h5⟩ := visitFront c hm hmay rest l { st with file := f } (fun q h => hs q (by simp [h])) hn'.2
        (fun x hx => by
          show x ∉ f.may
          rw [e2, List.mem_append, List.mem_singleton]
          rintro (h | rfl)
          · exact hd x (by simp [hx]) h
          · exact hn'.1 hx)
        (fun x m h => by
          have h : f.names.get? x = some m := h
          rw [e3] at h
          by_cases hx : x = q
          · subst hx
            rw [Dict.get?_set_self] at h
            cases h
            exact ⟨rfl, h0⟩
          · rw [Dict.get?_set_ne _ (fun h => hx h.symm)] at h
            exact ho x m h)
      refine ⟨st', ?_, ?_, h3.trans e1, ?_, h5⟩
      · rw [visitBlock_none e, h1]
        simp [ha]
      · rw [visitBlock_none e]
        exact h2
      · rw [h4]
        show f.may ++ _ = _
        rw [e2]
        simp [ha]

theorem runImports_eq (c : Cfg) (body : PBlock) (torch may : List Str) : runImports c body torch may =
    (Scope.recorded (importLines c torch may) 0).map Sum.inl ++ (visitBlock c (0, false) body {}).1.toList.map Sum.inr := by
  unfold runImports
  rcases importLines_keys c torch may with e | ⟨l, e⟩
  · rw [e]
    simp [Scope.recorded, Scope.insertScope]
  · rw [e]
    show Scope.insertScope _ [(0, l.map Sum.inl)] = _
    rw [insertScope_zero]
    simp [Scope.recorded, Dict.get?]

theorem runImports_added (c : Cfg) (body : PBlock) (torch may : List Str) :
    ∃ added : List Str, runImports c body torch may = added.map Sum.inl ++ (visitBlock c (0, false) body {}).1.toList.map Sum.inr ∧
      added.Nodup ∧ ∀ q, q ∈ added ↔ q ∈ paddlePackages c torch may := by
  refine ⟨Scope.recorded (importLines c torch may) 0, runImports_eq c body torch may, ?_, ?_⟩
  · have := Scope.C37_no_duplicates (fun x : Str => x) ((paddlePackages c torch may).map fun p => (0, [p])) (by
      intro c' hc'
      obtain ⟨p, -, rfl⟩ := List.mem_map.1 hc'
      simp) 0
    rw [← importLines_history] at this
    simpa using this
  · intro q
    have hc := Scope.C37_complete (fun x : Str => x) ((paddlePackages c torch may).map fun p => (0, [p])) 0
    rw [← importLines_history] at hc
    constructor
    · intro hq
      obtain ⟨c', hc', -, h3⟩ := hc.2 q hq
      obtain ⟨p, hp, rfl⟩ := List.mem_map.1 hc'
      simp at h3; subst h3; exact hp
    · intro hq
      obtain ⟨e, he, h3⟩ := hc.1 (0, [q]) (List.mem_map.2 ⟨q, hq, rfl⟩) rfl q (by simp)
      exact h3 ▸ he

theorem readBack_eq (added : List Str) (b : PBlock) :
    readBack (added.map Sum.inl ++ b.toList.map Sum.inr) = blockOf (added.map importStmt ++ b.toList) := by
  unfold readBack
  congr 1
  rw [List.map_append, List.map_map, List.map_map]
  congr 1
  · exact List.map_id'' (fun _ => rfl) _

theorem second_run (c : Cfg) (hm : c.min = false) (hval : ∀ p q, c.torch.get? p = some q → packageOf c q = none ∧ mappedOf c q = none)
    (hmay : ∀ p ∈ c.may, packageOf c p = some p) (body : PBlock) (h : ∀ i ∈ body.imps, Regular c i) (torch may torch' may' : List Str)
    (htm : ∀ p ∈ may, p ∈ c.may)
    (ht' : torch'.Perm (visitBlock c (0, false) (readBack (runImports c body torch may)) {}).2.file.torch)
    (hm' : may'.Perm (visitBlock c (0, false) (readBack (runImports c body torch may)) {}).2.file.may) :
    (visitBlock c (0, false) (readBack (runImports c body torch may)) {}).2.file.torch = [] ∧
    Own c (visitBlock c (0, false) (readBack (runImports c body torch may)) {}).2.file ∧
    ∃ (front front' : List Str) (rest : List PStmt),
      readBack (runImports c body torch may) = blockOf (front.map importStmt ++ rest) ∧
      readBack (runImports c (readBack (runImports c body torch may)) torch' may') = blockOf (front'.map importStmt ++ rest) ∧
      front'.Perm front ∧ ((∀ p ∈ front, p ∉ c.may) → front' = front) := by
  obtain ⟨added, e, hn, hin⟩ := runImports_added c body torch may
  generalize hb : (visitBlock c (0, false) body {}).1 = b1 at e
  have hset : ∀ i ∈ b1.imps, Settled c i := hb ▸ visitBlock_settled c hm (0, false) body {} h
  have hback : readBack (runImports c body torch may) = blockOf (added.map importStmt ++ b1.toList) := by rw [e, readBack_eq]
  rw [hback] at ht' hm' ⊢
  have hs : ∀ q ∈ added, again c q = false → Settled c (.import_ [{ name := q }]) := by
    intro q hq ha f
    by_cases hl : c.isLocal q = true
    · exact ⟨addOther f { name := q }, by simp [visitImp, importLoop, hl], quiet_addOther _ _⟩
    · have hq' : q ∉ c.may := fun h => by simp [again, h, hl] at ha
      rw [hin, paddlePackages, List.mem_append, List.mem_filterMap] at hq
      rcases hq with ⟨p, -, hp⟩ | hq
      · obtain ⟨h1, h2⟩ := hval p q hp
        exact ⟨addOther f { name := q }, by simp [visitImp, importLoop, hl, h1, h2], quiet_addOther _ _⟩
      · exact absurd (htm q hq) hq'
  obtain ⟨st, h1, h2, h3, h4, h5⟩ := visitFront c hm hmay b1 added {} hs hn (by simp) (fun x m h => by simp [Dict.get?] at h)
  have hfix := visitBlock_fixed c (0, false) b1 st hset
  rw [h2] at ht' hm' ⊢
  rw [hfix.2.torch, h3] at ht' ⊢
  rw [hfix.2.may, h4] at hm'
  refine ⟨rfl, fun x m hx => h5 x m (by rw [← hfix.2.names]; exact hx), ?_⟩
  obtain ⟨added', e', hn', hin'⟩ := runImports_added c (blockOf (added.map importStmt ++ b1.toList)) torch' may'
  have ht0 : torch' = [] := List.perm_nil.1 ht'
  have hperm : added'.Perm (added.filter (again c)) := by
    rw [List.perm_ext_iff_of_nodup hn' (hn.filter _)]
    intro q
    rw [hin', paddlePackages, ht0]
    simp [hm'.mem_iff]
  refine ⟨added, added' ++ added.filter (fun q => !again c q), b1.toList, rfl, ?_, ?_, ?_⟩
  · rw [e', readBack_eq, h1, hfix.1]
    simp
  · exact (hperm.append_right _).trans (List.filter_append_perm (again c) added)
  · intro hno
    have h0 : ∀ q ∈ added, again c q = false := fun q hq => by simp [again, hno q hq]
    have : added.filter (again c) = [] := List.filter_eq_nil_iff.2 fun q hq => by simp [h0 q hq]
    rw [this] at hperm
    rw [List.perm_nil.1 hperm, List.nil_append]
    exact List.filter_eq_self.2 fun q hq => by simp [h0 q hq]

end Verif.Imports

namespace Verif.Again
open Verif Verif.Data
open Verif.Dispatch
open Verif.Uses (E Es Env visitE visitEs chain Proper ProperAll expandName ofText)
open Verif.Pipeline (toExpr)
open Verif.Imports hiding Listed
open Verif.Exclude (may_apart)

/-! ## Uses -/

theorem ofText_chain {e : E} {h : Str} {rest : List Str} (hp : Proper e) (hc : chain e = some (h :: rest)) : ofText (Str.join py"." (h :: rest)) = e := by
  unfold ofText
  rw [Str.splitOn_join (by simp) (Uses.chain_proper hp hc)]
  obtain ⟨h', rest', e1, e2⟩ := Pipeline.chain_foldl hc
  cases e1
  exact e2.symm

/-- All recorded names stand for themselves, and the alias table has none of them. -/
structure Same (v : Env) : Prop where
  own : ∀ x m, v.file.names.get? x = some m → m = x
  none_ : v.file.names.get? py"None" = none
  canon : ∀ x rest, v.file.names.get? x = some x → v.canon (Str.join py"." (x :: rest)) = Str.join py"." (x :: rest)

theorem replace_same {v : Env} (hv : Same v) {e : E} (hp : Proper e) : Uses.replace v e = e := by
  cases hc : chain e with
  | none => exact Uses.replace_other v hc hv.none_
  | some l =>
    cases l with
    | nil => exact absurd rfl (Uses.chain_ne_nil hc)
    | cons h rest =>
      rw [Uses.replace_chain v hp hc, expandName]
      cases hn : v.file.names.get? h with
      | none => rfl
      | some m =>
        have := hv.own h m hn
        subst this
        dsimp only
        rw [hv.canon _ rest hn, ofText_chain hp hc, ite_self]

mutual
theorem visitE_same {v : Env} (hv : Same v) (pos : Bool) : (e : E) → Proper e → visitE v pos e = e
  | .name i, hp => by
    unfold visitE
    split
    · exact replace_same hv hp
    · rfl
  | .attr w a, hp => by
    unfold visitE
    rw [visitE_same hv false w hp.1, ite_self]
    exact replace_same hv hp
  | .op t ks, hp => by unfold visitE; rw [visitEs_same hv ks hp]
  | .other t ks, hp => by unfold visitE; rw [visitEs_same hv ks hp]
theorem visitEs_same {v : Env} (hv : Same v) : (es : Es) → ProperAll es → visitEs v es = es
  | .nil, _ => by unfold visitEs; rfl
  | .cons pos e rest, hp => by unfold visitEs; rw [visitE_same hv pos e hp.1, visitEs_same hv rest hp.2]
end

/-! ## The tables -/

theorem alias_letters : aliasTable.all (fun a => let l := Exclude.letter a.1 a.1; l.beq 116 || l.beq 102) = true := by decide +kernel

theorem canonical_may {p : Str} (hp : p ∈ mayPackages) (rest : List Str) : canonical shipped (Str.join py"." (p :: rest)) = Str.join py"." (p :: rest) := by
  have hc : ∃ ch r, Str.join py"." (p :: rest) = ch :: r ∧ (ch = 's' ∨ ch = 'o' ∨ ch = 'e') := by
    have hp' : ∃ ch r, p = ch :: r ∧ (ch = 's' ∨ ch = 'o' ∨ ch = 'e') := by
      simp only [mayPackages, List.mem_cons, List.not_mem_nil, or_false] at hp
      rcases hp with rfl | rfl | rfl
      · exact ⟨_, _, rfl, Or.inl rfl⟩
      · exact ⟨_, _, rfl, Or.inr (Or.inl rfl)⟩
      · exact ⟨_, _, rfl, Or.inr (Or.inr rfl)⟩
    obtain ⟨ch, r, rfl, h⟩ := hp'
    cases rest with
    | nil => exact ⟨ch, r, by simp [Str.join], h⟩
    | cons x rest => exact ⟨ch, _, by rw [Str.join]; rfl, h⟩
  obtain ⟨ch, r, hcr, hch⟩ := hc
  unfold canonical
  rw [Dict.get?_eq_none_iff.2]
  · rfl
  · rw [alias_keys]
    intro hm
    obtain ⟨a, ha, e⟩ := List.mem_map.1 hm
    have h1 := List.all_eq_true.1 alias_letters a ha
    have h2 := Exclude.letter_decode (e.trans hcr) (by rcases hch with rfl | rfl | rfl <;> decide)
    dsimp only at h1
    rw [h2] at h1
    rcases hch with rfl | rfl | rfl <;> revert h1 <;> decide

/-- `IMPORT_PACKAGE_MAPPING`; global_var.py:38-40. -/
def mappedPackages : Dict Str Str := [(py"audiotools", py"paddlespeech.audiotools")]

theorem values_apart : torchPackages.all (fun kv => decide ('.' ∉ kv.2 ∧ kv.2 ∉ torchPackages.keys ∧ kv.2 ∉ mayPackages) &&
    !Str.contains kv.2 py"audiotools." && kv.2 != py"audiotools") = true := by decide +kernel

theorem packageOf_none {c : Cfg} {m : Str} (h : ∀ p, Imports.Listed c p → ¬ InPackage m p) : packageOf c m = none := by
  cases hp : packageOf c m with
  | none => rfl
  | some p =>
    obtain ⟨q, h1, h2⟩ := packageOf_isSome.1 (by rw [hp]; rfl : (packageOf c m).isSome = true)
    exact absurd h2 (h q h1)

theorem inPackage_eq {m p : Str} (h : '.' ∉ m) (hi : InPackage m p) : m = p := by
  rcases hi with h1 | ⟨t, rfl⟩
  · exact h1
  · simp at h

/-- **C84**, partial (programs of regular imports, which excludes the packages that are replaced by another module). In default mode and with the shipped
tables, possibly without some packages (`--exclude_packages`), let `body` be converted and the result be read back as `again`. Then in the second run no torch
package is found; the module that it writes is the one that it read, up to the order of the `import`s at the front, and is the same one if none of these is
for a package that may be used with torch; every expression is left as it is by the import pass, and every call and every attribute by the basic pass, without
counting or reporting it.
Missing: modules of `audiotools` (`C84_mapped_negative`); the order (`C84_order_negative`); results with marked lines, which are not Python. -/
theorem C84_second_run_partial (c : Cfg) (hmin : c.min = false) (htorch : c.torch ⊆ torchPackages) (hmay : c.may = mayPackages)
    (hmap : c.mapped = mappedPackages) (body : PBlock) (hreg : ∀ i ∈ body.imps, Regular c i) (torch may torch' may' : List Str)
    (hm : may.Perm (visitBlock c (0, false) body {}).2.file.may)
    (again : PBlock) (hagain : again = readBack (runImports c body torch may))
    (ht' : torch'.Perm (visitBlock c (0, false) again {}).2.file.torch) (hm' : may'.Perm (visitBlock c (0, false) again {}).2.file.may) :
    (visitBlock c (0, false) again {}).2.file.torch = [] ∧
    (∃ (front front' : List Str) (rest : List PStmt), again = blockOf (front.map importStmt ++ rest) ∧
      readBack (runImports c again torch' may') = blockOf (front'.map importStmt ++ rest) ∧
      front'.Perm front ∧ ((∀ p ∈ front, p ∉ c.may) → front' = front)) ∧
    (∀ (keep : Str → Bool) (data : E → Bool) (pos : Bool) (e : E), Proper e →
      visitE ⟨(visitBlock c (0, false) again {}).2.file, keep, canonical shipped, data⟩ pos e = e) ∧
    ∀ (hit : Str → Str → Bool) (o : Oracle) (e : Expr) (par : Parent) (s : Counts),
      visitCall shipped (visitBlock c (0, false) again {}).2.file hit o e par s = .ok (s, .kept) ∧
      visitAttr shipped (visitBlock c (0, false) again {}).2.file hit o e par s = .ok (s, .kept) := by
  subst hagain
  have hkeys : ∀ p, p ∈ c.torch.keys → p ∈ torchPackages.keys := by
    intro p hp
    obtain ⟨kv, h1, rfl⟩ := List.mem_map.1 hp
    exact List.mem_map.2 ⟨kv, htorch h1, rfl⟩
  have hval : ∀ p q, c.torch.get? p = some q → packageOf c q = none ∧ mappedOf c q = none := by
    intro p q h
    have := List.all_eq_true.1 values_apart _ (htorch (Dict.mem_of_get? h))
    simp only [Bool.and_eq_true, decide_eq_true_eq, Bool.not_eq_true', bne_iff_ne, ne_eq] at this
    obtain ⟨⟨⟨h1, h2, h3⟩, h4⟩, h5⟩ := this
    refine ⟨packageOf_none ?_, ?_⟩
    · rintro r (hr | hr) hin
      · exact h2 (inPackage_eq h1 hin ▸ hkeys r hr)
      · exact h3 (inPackage_eq h1 hin ▸ hmay ▸ hr)
    · have h5' : ¬ py"audiotools" = q := fun h => h5 h.symm
      unfold mappedOf
      rw [hmap, List.find?_eq_none]
      simp only [mappedPackages, List.mem_singleton, forall_eq]
      rw [show py"audiotools" ++ py"." = py"audiotools." from rfl, h4]
      simpa using h5'
  have hmayp : ∀ p ∈ c.may, packageOf c p = some p := by
    intro p hp
    have hp' := may_apart p (hmay ▸ hp)
    cases hx : packageOf c p with
    | none =>
      have : (packageOf c p).isSome = true := packageOf_isSome.2 ⟨p, Or.inr hp, Or.inl rfl⟩
      rw [hx] at this; simp at this
    | some q =>
      have := List.find?_some hx
      have hin : InPackage p q := by
        simp only [Bool.or_eq_true, beq_iff_eq] at this
        rcases this with h | h
        · obtain ⟨t, ht⟩ := Str.startsWith_iff.1 h
          exact Or.inr ⟨t, by rw [ht]; simp⟩
        · exact Or.inl h.symm
      rw [inPackage_eq hp'.2 hin]
  have htm : ∀ p ∈ may, p ∈ c.may := by
    intro p hp
    rw [hm.mem_iff, (visitBlock_grow c (0, false) body {} hreg).may] at hp
    rcases hp with hp | hp
    · simp at hp
    · exact hp.2
  obtain ⟨h1, h2, h3⟩ := second_run c hmin hval hmayp body hreg torch may torch' may' htm ht' hm'
  have hnone : ∀ x, x ∉ mayPackages → (visitBlock c (0, false) (readBack (runImports c body torch may)) {}).2.file.names.get? x = none := by
    intro x hx
    cases hg : (visitBlock c (0, false) (readBack (runImports c body torch may)) {}).2.file.names.get? x with
    | none => rfl
    | some m => exact absurd (hmay ▸ (h2 x m hg).2) hx
  refine ⟨h1, h3, fun keep data pos e he => visitE_same ⟨fun x m hx => (h2 x m hx).1, hnone _ (by decide), fun x rest hx => ?_⟩ pos e he, ?_⟩
  · exact canonical_may (hmay ▸ (h2 x x hx).2) rest
  · intro hit o e par s
    have hlisted : ¬ Listed shipped nonTorch := fun h => by
      have := Pipeline.nonTorch_api
      rw [(listed_iff _ _).2 h] at this
      simp at this
    exact C32_no_torch_import shipped _ hit o e par s h1 (hnone _ (by decide)) hlisted

/-! ## Examples and negations -/

/-- The program of the example of C27-C31: `import torch, numpy as np`, `from torch.nn import Linear`, `import os`, an `if` with an import. -/
example : readBack (runImports Imports.Ex.cfg Imports.Ex.body [py"torch"] [py"os"]) =
      .cons (importStmt py"paddle") (.cons (importStmt py"os") (.cons (.imp (.import_ [{ name := py"numpy", asname := some py"np" }]))
        (.cons (.comp 1 true (.cons (.cons .pass .nil) .nil)) .nil))) ∧
    (visitBlock Imports.Ex.cfg (0, false) (readBack (runImports Imports.Ex.cfg Imports.Ex.body [py"torch"] [py"os"])) {}).2.file.torch = [] := by
  rw [runImports_eq]
  refine ⟨by rfl, ?_⟩
  rw [← runImports_eq]
  exact (C84_second_run_partial Imports.Ex.cfg rfl (fun _ h => h) rfl rfl Imports.Ex.body Imports.Ex.regular [py"torch"] [py"os"] [] [py"os"]
    (by decide) _ rfl (by rw [runImports_eq]; decide) (by rw [runImports_eq]; decide)).1

/-- **C84 is false for the order of the added imports**: from `import torch` and `import os` come `import paddle` and `import os`, from these
`import os` and `import paddle`. -/
theorem C84_order_negative : ∃ (c : Cfg) (body : PBlock), c.min = false ∧ c.torch = torchPackages ∧ c.may = mayPackages ∧ c.mapped = mappedPackages ∧
    (∀ i ∈ body.imps, Regular c i) ∧
    runImports c body (visitBlock c (0, false) body {}).2.file.torch (visitBlock c (0, false) body {}).2.file.may = [.inl py"paddle", .inl py"os"] ∧
    let again := readBack [.inl py"paddle", .inl py"os"]
    runImports c again (visitBlock c (0, false) again {}).2.file.torch (visitBlock c (0, false) again {}).2.file.may =
      [.inl py"os", .inr (importStmt py"paddle")] := by
  refine ⟨⟨py"a.py", false, fun _ => false, torchPackages, mayPackages, mappedPackages⟩,
    .cons (importStmt py"torch") (.cons (importStmt py"os") .nil), rfl, rfl, rfl, rfl, ?_, by rw [runImports_eq]; rfl, by dsimp only; rw [runImports_eq]; rfl⟩
  intro i hi
  simp only [importStmt, PBlock.imps, PStmt.imps, List.mem_append, List.mem_cons, List.not_mem_nil, or_false] at hi
  rcases hi with rfl | rfl <;> exact ⟨by decide, by decide⟩

/-- **C84 is false for modules of `audiotools`**: `import audiotools.ml as ml` becomes `import paddlespeech.audiotools.ml as ml`, and this
`import paddlespeech.paddlespeech.audiotools.ml as ml`, and so on. -/
theorem C84_mapped_negative : ∃ c : Cfg, c.min = false ∧ c.torch = torchPackages ∧ c.may = mayPackages ∧ c.mapped = mappedPackages ∧
    let stmt (m : Str) : PStmt := .imp (.import_ [{ name := m, asname := some py"ml" }])
    runImports c (.cons (stmt py"audiotools.ml") .nil) [] [] = [.inr (stmt py"paddlespeech.audiotools.ml")] ∧
    runImports c (.cons (stmt py"paddlespeech.audiotools.ml") .nil) [] [] = [.inr (stmt py"paddlespeech.paddlespeech.audiotools.ml")] :=
  ⟨⟨py"a.py", false, fun _ => false, torchPackages, mayPackages, mappedPackages⟩, rfl, rfl, rfl, rfl, by rw [runImports_eq]; rfl, by rw [runImports_eq]; rfl⟩

end Verif.Again

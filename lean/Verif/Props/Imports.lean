import Verif.Spec.Imports
import Verif.Props.Scope
import Verif.Model.Tables

/-!
# C27-C31: import statements
-/

namespace Verif.Imports
open Verif
open Verif.Dispatch (File)

theorem packageOf_isSome {c : Cfg} {m : Str} : (packageOf c m).isSome = true ↔ ∃ p, Listed c p ∧ InPackage m p := by
  unfold packageOf
  rw [List.find?_isSome]
  constructor
  · rintro ⟨p, hp, h⟩
    refine ⟨p, by simpa [Listed] using hp, ?_⟩
    simp only [Bool.or_eq_true, beq_iff_eq] at h
    rcases h with h | h
    · obtain ⟨t, ht⟩ := Str.startsWith_iff.1 h
      right; exact ⟨t, by rw [ht]; simp⟩
    · exact Or.inl h.symm
  · rintro ⟨p, hp, h⟩
    refine ⟨p, by simpa [Listed] using hp, ?_⟩
    simp only [Bool.or_eq_true, beq_iff_eq]
    rcases h with h | ⟨t, h⟩
    · exact Or.inr h.symm
    · left; rw [Str.startsWith_iff]; exact ⟨t, by rw [h]; simp⟩

/-- Torch imports, as a test. -/
def torchB (c : Cfg) (b : Bind) : Bool :=
  b.level == 0 && (match b.module with
    | some m => !c.isLocal m && (packageOf c m).isSome
    | none => false)

theorem torchB_iff {c : Cfg} {b : Bind} : torchB c b = true ↔ b.Torch c := by
  unfold torchB Bind.Torch
  cases hm : b.module with
  | none => simp
  | some m =>
    simp only [Bool.and_eq_true, beq_iff_eq, Bool.not_eq_true', packageOf_isSome]
    constructor
    · rintro ⟨h1, h2, h3⟩; exact ⟨h1, m, rfl, h2, h3⟩
    · rintro ⟨h1, m', h2, h3, h4⟩
      cases h2; exact ⟨h1, h3, h4⟩

/-- What is left of a statement. -/
def Fate.binds : Fate → List Bind
  | .keep s => s.binds
  | .gone => []

/-- The names a list of imports records. -/
def recordsOf (c : Cfg) (bs : List Bind) : List (Str × Str) := (bs.filter (torchB c)).map fun b => (b.as_, b.full)

theorem importLoop_regular (c : Cfg) (names : List Alias) (f : File) (h1 : ∀ a ∈ names.dropLast, c.isLocal a.name = false)
    (h2 : ∀ a ∈ names, mappedOf c a.name = none) :
    (Imp.import_ (importLoop c names f).1).binds =
        (Imp.import_ names).binds.filter (fun b => c.min || !torchB c b) ∧
      (importLoop c names f).2.names = f.names.update (recordsOf c (Imp.import_ names).binds) := by
  induction names generalizing f with
  | nil => exact ⟨rfl, rfl⟩
  | cons a rest ih =>
    unfold importLoop
    by_cases hl : c.isLocal a.name = true
    · have hr : rest = [] := by
        cases rest with
        | nil => rfl
        | cons b r =>
          have := h1 a (by simp [List.dropLast])
          rw [hl] at this; simp at this
      subst hr
      rw [if_pos hl]
      have ht : torchB c ⟨some a.name, 0, none, a.asname.getD a.name⟩ = false := by simp [torchB, hl]
      constructor
      · simp [Imp.binds, ht]
      · simp [Imp.binds, recordsOf, ht, Dict.update, addOther]
    · rw [if_neg hl]
      have h1' : ∀ a ∈ rest.dropLast, c.isLocal a.name = false := by
        intro b hb
        cases rest with
        | nil => simp at hb
        | cons x r => exact h1 b (by rw [List.dropLast_cons_cons]; simp [hb])
      have h2' : ∀ a ∈ rest, mappedOf c a.name = none := fun b hb => h2 b (by simp [hb])
      cases hp : packageOf c a.name with
      | some p =>
        have ht : torchB c ⟨some a.name, 0, none, a.asname.getD a.name⟩ = true := by simp [torchB, hl, hp]
        dsimp only
        have hi := ih { (addPackage c f p) with names := (addPackage c f p).names.set (a.asname.getD a.name) a.name } h1' h2'
        have hn : (addPackage c f p).names = f.names := by unfold addPackage; split <;> rfl
        constructor
        · cases hm : c.min with
          | true =>
            rw [if_pos rfl]
            simp only [hm, Imp.binds, List.map_cons, Bool.true_or] at hi ⊢
            rw [hi.1]; simp
          | false =>
            simp only [hm, Imp.binds, List.map_cons, Bool.false_or] at hi ⊢
            simp only [Bool.false_eq_true, if_false]
            rw [hi.1, List.filter_cons_of_neg (by simp [ht])]
        · rw [hi.2]
          simp only [Imp.binds, recordsOf, List.map_cons, List.filter_cons_of_pos ht, Dict.update, List.foldl_cons, hn,
            Bind.full, Option.getD_some]
      | none =>
        have ht : torchB c ⟨some a.name, 0, none, a.asname.getD a.name⟩ = false := by simp [torchB, hp]
        dsimp only
        rw [h2 a (by simp)]
        dsimp only
        have hi := ih (addOther f a) h1' h2'
        constructor
        · simp only [Imp.binds, List.map_cons] at hi ⊢
          rw [hi.1, List.filter_cons_of_pos (by simp [ht])]
        · rw [hi.2]
          simp only [Imp.binds, recordsOf, List.map_cons]
          rw [List.filter_cons_of_neg (by simp [ht])]
          rfl

theorem addOthers_names (names : List Alias) (f : File) : (addOthers f names).names = f.names := by
  unfold addOthers
  induction names generalizing f with
  | nil => rfl
  | cons a rest ih =>
    rw [List.foldl_cons, ih]
    split
    · rfl
    · split <;> rfl

theorem bindNames_names (m : Str) (names : List Alias) (f : File) :
    (bindNames m names f).names = f.names.update (names.map fun a => (a.asname.getD a.name, m ++ py"." ++ a.name)) := by
  unfold bindNames Dict.update
  induction names generalizing f with
  | nil => rfl
  | cons a rest ih => rw [List.foldl_cons, ih]; rfl

theorem visitImp_regular (c : Cfg) (s : Imp) (f : File) (h : Regular c s) :
    (visitImp c s f).1.binds = s.binds.filter (fun b => c.min || !torchB c b) ∧
      (visitImp c s f).2.names = f.names.update (recordsOf c s.binds) := by
  cases s with
  | import_ names =>
    obtain ⟨h1, h2⟩ := h
    have hi := importLoop_regular c names f h1 h2
    unfold visitImp
    dsimp only
    refine ⟨?_, hi.2⟩
    rw [← hi.1]
    split
    · next he => rw [List.isEmpty_iff.1 he]; rfl
    · rfl
  | from_ module level names =>
    obtain ⟨-, h1, h2⟩ := h
    unfold visitImp
    dsimp only
    by_cases hl : 0 < level
    · rw [if_pos hl, if_neg (by simpa using h1 hl)]
      have ht : ∀ b ∈ (Imp.from_ module level names).binds, torchB c b = false := by
        intro b hb
        simp only [Imp.binds, List.mem_map] at hb
        obtain ⟨a, -, rfl⟩ := hb
        have : (level == 0) = false := by simp; omega
        simp [torchB, this]
      constructor
      · rw [List.filter_eq_self.2]; rfl
        intro b hb; simp [ht b hb]
      · rw [addOthers_names, recordsOf, List.filter_eq_nil_iff.2]; rfl
        intro b hb; simp [ht b hb]
    · have hl0 : level = 0 := by omega
      subst hl0
      rw [if_neg hl]
      obtain ⟨m, hm, hmap⟩ := h2 rfl
      subst hm
      dsimp only
      by_cases hloc : c.isLocal m = true
      · rw [if_pos hloc]
        have ht : ∀ b ∈ (Imp.from_ (some m) 0 names).binds, torchB c b = false := by
          intro b hb
          simp only [Imp.binds, List.mem_map] at hb
          obtain ⟨a, -, rfl⟩ := hb
          simp [torchB, hloc]
        constructor
        · rw [List.filter_eq_self.2]; rfl
          intro b hb; simp [ht b hb]
        · rw [addOthers_names, recordsOf, List.filter_eq_nil_iff.2]; rfl
          intro b hb; simp [ht b hb]
      · rw [if_neg hloc]
        unfold fromAbsolute
        cases hp : packageOf c m with
        | some p =>
          have ht : ∀ b ∈ (Imp.from_ (some m) 0 names).binds, torchB c b = true := by
            intro b hb
            simp only [Imp.binds, List.mem_map] at hb
            obtain ⟨a, -, rfl⟩ := hb
            simp [torchB, hloc, hp]
          dsimp only
          constructor
          · cases hmin : c.min with
            | true => rw [if_pos rfl, List.filter_eq_self.2]; rfl; intro b hb; simp
            | false =>
              rw [if_neg (by simp), List.filter_eq_nil_iff.2]; rfl
              intro b hb; simp [ht b hb]
          · rw [bindNames_names, recordsOf, List.filter_eq_self.2 ht]
            have hn : (addPackage c f p).names = f.names := by unfold addPackage; split <;> rfl
            rw [hn]
            congr 1
            simp [Imp.binds, Bind.full]
        | none =>
          have ht : ∀ b ∈ (Imp.from_ (some m) 0 names).binds, torchB c b = false := by
            intro b hb
            simp only [Imp.binds, List.mem_map] at hb
            obtain ⟨a, -, rfl⟩ := hb
            simp [torchB, hp]
          dsimp only
          rw [hmap]
          dsimp only
          constructor
          · rw [List.filter_eq_self.2]; rfl
            intro b hb; simp [ht b hb]
          · rw [addOthers_names, recordsOf, List.filter_eq_nil_iff.2]; rfl
            intro b hb; simp [ht b hb]

/-! ## Whole programs -/

theorem removed_imps (p : Nat × Bool) (st : St) :
    ((removed p st).1.map PStmt.imps).getD [] = [] ∧ (removed p st).2.file = st.file := by
  unfold removed
  split <;> simp [PStmt.imps]

/-- The bindings of a list of statements. -/
def bindsOf (l : List Imp) : List Bind := l.flatMap Imp.binds

theorem bindsOf_append (a b : List Imp) : bindsOf (a ++ b) = bindsOf a ++ bindsOf b := by simp [bindsOf]

theorem recordsOf_append (c : Cfg) (a b : List Bind) : recordsOf c (a ++ b) = recordsOf c a ++ recordsOf c b := by
  simp [recordsOf]

mutual
theorem visitStmt_imps (c : Cfg) (p : Nat × Bool) : (s : PStmt) → (st : St) → (∀ i ∈ s.imps, Regular c i) →
    bindsOf (((visitStmt c p s st).1.map PStmt.imps).getD []) = (bindsOf s.imps).filter (fun b => c.min || !torchB c b) ∧
      (visitStmt c p s st).2.file.names = st.file.names.update (recordsOf c (bindsOf s.imps))
  | .imp s, st, h => by
    have hv := visitImp_regular c s st.file (h s (by simp [PStmt.imps]))
    unfold visitStmt
    have e : bindsOf (PStmt.imp s).imps = s.binds := by simp [bindsOf, PStmt.imps]
    rw [e]
    generalize hx : visitImp c s st.file = x at hv
    obtain ⟨fate, f⟩ := x
    cases fate with
    | keep s' =>
      refine ⟨?_, hv.2⟩
      rw [← hv.1]
      simp [PStmt.imps, bindsOf, Fate.binds]
    | gone =>
      have hr := removed_imps p { st with file := f }
      refine ⟨?_, ?_⟩
      · rw [← hv.1]
        dsimp only
        rw [hr.1]; rfl
      · dsimp only
        rw [hr.2]; exact hv.2
  | .pass, st, _ => ⟨rfl, rfl⟩
  | .plain _, st, _ => ⟨rfl, rfl⟩
  | .comp i k bs, st, h => by
    have hb := visitBlocks_imps c (i, k) bs st (by simpa [PStmt.imps] using h)
    unfold visitStmt
    dsimp only
    simpa [PStmt.imps] using hb
theorem visitBlock_imps (c : Cfg) (p : Nat × Bool) : (b : PBlock) → (st : St) → (∀ i ∈ b.imps, Regular c i) →
    bindsOf (visitBlock c p b st).1.imps = (bindsOf b.imps).filter (fun b => c.min || !torchB c b) ∧
      (visitBlock c p b st).2.file.names = st.file.names.update (recordsOf c (bindsOf b.imps))
  | .nil, st, _ => ⟨rfl, rfl⟩
  | .cons s rest, st, h => by
    have hs := visitStmt_imps c p s st (fun i hi => h i (by simp [PBlock.imps, hi]))
    have hr := visitBlock_imps c p rest (visitStmt c p s st).2 (fun i hi => h i (by simp [PBlock.imps, hi]))
    unfold visitBlock
    dsimp only
    constructor
    · rw [PBlock.imps, bindsOf_append, List.filter_append, ← hs.1, ← hr.1, ← bindsOf_append]
      cases (visitStmt c p s st).1 <;> rfl
    · rw [hr.2, hs.2, PBlock.imps, bindsOf_append, recordsOf_append, Dict.update_append]
theorem visitBlocks_imps (c : Cfg) (p : Nat × Bool) : (bs : PBlocks) → (st : St) → (∀ i ∈ bs.imps, Regular c i) →
    bindsOf (visitBlocks c p bs st).1.imps = (bindsOf bs.imps).filter (fun b => c.min || !torchB c b) ∧
      (visitBlocks c p bs st).2.file.names = st.file.names.update (recordsOf c (bindsOf bs.imps))
  | .nil, st, _ => ⟨rfl, rfl⟩
  | .cons b rest, st, h => by
    have hs := visitBlock_imps c p b st (fun i hi => h i (by simp [PBlocks.imps, hi]))
    have hr := visitBlocks_imps c p rest (visitBlock c p b st).2 (fun i hi => h i (by simp [PBlocks.imps, hi]))
    unfold visitBlocks
    dsimp only
    constructor
    · simp only [PBlocks.imps, bindsOf_append, List.filter_append, hs.1, hr.1]
    · rw [hr.2, hs.2, PBlocks.imps, bindsOf_append, recordsOf_append, Dict.update_append]
end

/-! ## C28 -/

/-- **C28**, partial: in a program of regular import statements, whatever the mode, the names brought in from other packages after the import
pass are exactly those before it, in the same order, each from the same module and with the same name. The statements that are not regular
lose names, see the two negations. -/
theorem C28_other_imports_survive_partial (c : Cfg) (body : PBlock) (h : ∀ i ∈ body.imps, Regular c i)
    [DecidablePred (Bind.Torch c)] :
    (visitBlock c (0, false) body {}).1.binds.filter (fun b => ¬ b.Torch c) = body.binds.filter (fun b => ¬ b.Torch c) := by
  have := (visitBlock_imps c (0, false) body {} h).1
  unfold PBlock.binds
  unfold bindsOf at this
  rw [this, List.filter_filter]
  apply List.filter_congr
  intro b _
  cases ht : torchB c b with
  | true => simp [torchB_iff.1 ht]
  | false =>
    have : ¬ b.Torch c := fun h => by rw [← torchB_iff, ht] at h; simp at h
    simp [this]

/-- **C29**, partial (regular statements): in default mode what is left are exactly the imports that are not from a torch package, or from
a module of the project. -/
theorem C29_default_mode_partial (c : Cfg) (body : PBlock) (h : ∀ i ∈ body.imps, Regular c i) (hm : c.min = false) (b : Bind) :
    b ∈ (visitBlock c (0, false) body {}).1.binds ↔ b ∈ body.binds ∧ ¬ b.Torch c := by
  have := (visitBlock_imps c (0, false) body {} h).1
  unfold PBlock.binds
  unfold bindsOf at this
  rw [this, List.mem_filter, hm, Bool.false_or, Bool.not_eq_true', ← torchB_iff]
  simp

/-- **C29**, partial (regular statements): in min mode all imports remain. -/
theorem C29_min_mode_partial (c : Cfg) (body : PBlock) (h : ∀ i ∈ body.imps, Regular c i) (hm : c.min = true) :
    (visitBlock c (0, false) body {}).1.binds = body.binds := by
  have := (visitBlock_imps c (0, false) body {} h).1
  unfold PBlock.binds
  unfold bindsOf at this
  rw [this, hm]
  simp

/-- **C29** and **C27**, partial (regular statements): in both modes the names of the torch imports are recorded, each with its full name, and
the last import of a name wins. -/
theorem C27_last_import_wins (c : Cfg) (body : PBlock) (h : ∀ i ∈ body.imps, Regular c i) (x m : Str) :
    (visitBlock c (0, false) body {}).2.file.names.get? x = some m ↔
      ∃ l b r, body.binds = l ++ b :: r ∧ b.Torch c ∧ b.as_ = x ∧ b.full = m ∧ ∀ b' ∈ r, b'.Torch c → b'.as_ ≠ x := by
  rw [(visitBlock_imps c (0, false) body {} h).2, Dict.get?_update]
  simp only [Dict.get?_nil, Option.or_none]
  show Dict.last? (recordsOf c body.binds) x = some m ↔ _
  generalize body.binds = bs
  generalize hn : bs.length = n
  induction n generalizing bs with
  | zero => rw [List.eq_nil_of_length_eq_zero hn]; simp [recordsOf, Dict.last?]
  | succ n ih =>
    rcases List.eq_nil_or_concat bs with rfl | ⟨bs', b, rfl⟩
    · simp at hn
    rw [List.concat_eq_append] at hn ⊢
    have ih := ih bs' (by simpa using hn)
    rw [recordsOf_append]
    by_cases ht : torchB c b = true
    · have e : recordsOf c [b] = [(b.as_, b.full)] := by simp [recordsOf, ht]
      rw [e, Dict.last?_append_single]
      by_cases hx : b.as_ = x
      · rw [if_pos hx]
        constructor
        · intro h1
          exact ⟨bs', b, [], rfl, torchB_iff.1 ht, hx, by simpa using h1, by simp⟩
        · rintro ⟨l, b2, r, h1, h2, h3, h4, h5⟩
          rcases List.eq_nil_or_concat r with rfl | ⟨r', y, rfl⟩
          · have := List.append_inj_right' h1 rfl
            simp at this; rw [this, h4]
          · rw [List.concat_eq_append, ← List.cons_append, ← List.append_assoc] at h1
            have := List.append_inj_right' h1 rfl
            simp at this; subst this
            exact absurd hx (h5 b (by simp) (torchB_iff.1 ht))
      · rw [if_neg hx, ih]
        constructor
        · rintro ⟨l, b2, r, h1, h2, h3, h4, h5⟩
          refine ⟨l, b2, r ++ [b], by rw [h1]; simp, h2, h3, h4, ?_⟩
          intro b' hb'
          rcases List.mem_append.1 hb' with hb' | hb'
          · exact h5 b' hb'
          · simp at hb'; subst hb'; exact fun _ => hx
        · rintro ⟨l, b2, r, h1, h2, h3, h4, h5⟩
          rcases List.eq_nil_or_concat r with rfl | ⟨r', y, rfl⟩
          · have := List.append_inj_right' h1 rfl
            simp at this; subst this; exact absurd h3 hx
          · rw [List.concat_eq_append, ← List.cons_append, ← List.append_assoc] at h1
            exact ⟨l, b2, r', List.append_inj_left' h1 rfl, h2, h3, h4, fun b' hb' => h5 b' (by simp [hb'])⟩
    · have e : recordsOf c [b] = [] := by simp [recordsOf, ht]
      rw [e, List.append_nil, ih]
      have hnt : ¬ b.Torch c := fun h => ht (torchB_iff.2 h)
      constructor
      · rintro ⟨l, b2, r, h1, h2, h3, h4, h5⟩
        refine ⟨l, b2, r ++ [b], by rw [h1]; simp, h2, h3, h4, ?_⟩
        intro b' hb'
        rcases List.mem_append.1 hb' with hb' | hb'
        · exact h5 b' hb'
        · simp at hb'; subst hb'; exact fun h => absurd h hnt
      · rintro ⟨l, b2, r, h1, h2, h3, h4, h5⟩
        rcases List.eq_nil_or_concat r with rfl | ⟨r', y, rfl⟩
        · have := List.append_inj_right' h1 rfl
          simp at this; subst this; exact absurd h2 hnt
        · rw [List.concat_eq_append, ← List.cons_append, ← List.append_assoc] at h1
          exact ⟨l, b2, r', List.append_inj_left' h1 rfl, h2, h3, h4, fun b' hb' => h5 b' (by simp [hb'])⟩

/-! ## C31 -/

/-- The packages of the torch imports of a list of bindings. -/
def pkgs (c : Cfg) (bs : List Bind) : List Str := bs.filterMap fun b => if torchB c b then b.package c else none

theorem pkgs_append (c : Cfg) (a b : List Bind) : pkgs c (a ++ b) = pkgs c a ++ pkgs c b := by simp [pkgs]

theorem mem_pkgs {c : Cfg} {bs : List Bind} {p : Str} : p ∈ pkgs c bs ↔ ∃ b ∈ bs, b.Torch c ∧ b.package c = some p := by
  unfold pkgs
  rw [List.mem_filterMap]
  constructor
  · rintro ⟨b, hb, h⟩
    split at h
    · next ht => exact ⟨b, hb, torchB_iff.1 ht, h⟩
    · simp at h
  · rintro ⟨b, hb, ht, h⟩
    exact ⟨b, hb, by rw [if_pos (torchB_iff.2 ht), h]⟩

/-- How the two sets change when the imports `bs` are seen. -/
structure Grow (c : Cfg) (f f' : File) (bs : List Bind) : Prop where
  torch : ∀ p, p ∈ f'.torch ↔ p ∈ f.torch ∨ (p ∈ pkgs c bs ∧ p ∉ c.may)
  may : ∀ p, p ∈ f'.may ↔ p ∈ f.may ∨ (p ∈ pkgs c bs ∧ p ∈ c.may)
  nodup : f.torch.Nodup → f'.torch.Nodup
  nodup' : f.may.Nodup → f'.may.Nodup

theorem Grow.refl {c : Cfg} {f f' : File} {bs : List Bind} (h1 : f'.torch = f.torch) (h2 : f'.may = f.may) (h : pkgs c bs = []) :
    Grow c f f' bs :=
  ⟨fun p => by simp [h1, h], fun p => by simp [h2, h], fun x => h1 ▸ x, fun x => h2 ▸ x⟩

theorem Grow.trans {c : Cfg} {f g k : File} {a b : List Bind} (h1 : Grow c f g a) (h2 : Grow c g k b) : Grow c f k (a ++ b) := by
  refine ⟨fun p => ?_, fun p => ?_, fun x => h2.nodup (h1.nodup x), fun x => h2.nodup' (h1.nodup' x)⟩
  · rw [h2.torch, h1.torch, pkgs_append, List.mem_append]; tauto
  · rw [h2.may, h1.may, pkgs_append, List.mem_append]; tauto

theorem mem_add {s : List Str} {x p : Str} : p ∈ add s x ↔ p ∈ s ∨ p = x := by
  unfold add
  split
  · next h => constructor
              · exact Or.inl
              · rintro (h1 | rfl)
                · exact h1
                · exact h
  · simp

theorem nodup_add {s : List Str} {x : Str} (h : s.Nodup) : (add s x).Nodup := by
  unfold add
  split
  · exact h
  · next hx => rw [List.nodup_append]; exact ⟨h, by simp, by simp; intro a ha e; exact hx (e ▸ ha)⟩

theorem addPackage_grow (c : Cfg) (f : File) (p : Str) (bs : List Bind) (h : ∀ q, q ∈ pkgs c bs ↔ q = p) :
    Grow c f (addPackage c f p) bs := by
  unfold addPackage
  by_cases hm : p ∈ c.may
  · rw [if_pos hm]
    refine ⟨fun q => ?_, fun q => ?_, id, nodup_add⟩
    · rw [h]
      constructor
      · exact Or.inl
      · rintro (h1 | ⟨rfl, h1⟩)
        · exact h1
        · exact absurd hm h1
    · rw [h, mem_add]
      constructor
      · rintro (h1 | rfl)
        · exact Or.inl h1
        · exact Or.inr ⟨rfl, hm⟩
      · rintro (h1 | ⟨rfl, _⟩)
        · exact Or.inl h1
        · exact Or.inr rfl
  · rw [if_neg hm]
    refine ⟨fun q => ?_, fun q => ?_, nodup_add, id⟩
    · rw [h, mem_add]
      constructor
      · rintro (h1 | rfl)
        · exact Or.inl h1
        · exact Or.inr ⟨rfl, hm⟩
      · rintro (h1 | ⟨rfl, _⟩)
        · exact Or.inl h1
        · exact Or.inr rfl
    · rw [h]
      constructor
      · exact Or.inl
      · rintro (h1 | ⟨rfl, h1⟩)
        · exact h1
        · exact absurd h1 hm

theorem Grow.congr {c : Cfg} {f f' f'' : File} {bs : List Bind} (h : Grow c f f' bs) (h1 : f''.torch = f'.torch)
    (h2 : f''.may = f'.may) : Grow c f f'' bs :=
  ⟨fun p => by rw [h1]; exact h.torch p, fun p => by rw [h2]; exact h.may p, fun x => h1 ▸ h.nodup x, fun x => h2 ▸ h.nodup' x⟩

theorem Grow.congr_left {c : Cfg} {f f' f'' : File} {bs : List Bind} (h : Grow c f f'' bs) (h1 : f.torch = f'.torch)
    (h2 : f.may = f'.may) : Grow c f' f'' bs :=
  ⟨fun p => by rw [← h1]; exact h.torch p, fun p => by rw [← h2]; exact h.may p, fun x => h.nodup (h1 ▸ x),
    fun x => h.nodup' (h2 ▸ x)⟩

theorem importLoop_grow (c : Cfg) (names : List Alias) (f : File) (h1 : ∀ a ∈ names.dropLast, c.isLocal a.name = false)
    (h2 : ∀ a ∈ names, mappedOf c a.name = none) :
    Grow c f (importLoop c names f).2 (Imp.import_ names).binds := by
  induction names generalizing f with
  | nil => exact Grow.refl rfl rfl rfl
  | cons a rest ih =>
    unfold importLoop
    by_cases hl : c.isLocal a.name = true
    · have hr : rest = [] := by
        cases rest with
        | nil => rfl
        | cons b r =>
          have := h1 a (by simp [List.dropLast])
          rw [hl] at this; simp at this
      subst hr
      rw [if_pos hl]
      exact Grow.refl rfl rfl (by simp [Imp.binds, pkgs, torchB, hl])
    · rw [if_neg hl]
      have h1' : ∀ a ∈ rest.dropLast, c.isLocal a.name = false := by
        intro b hb
        cases rest with
        | nil => simp at hb
        | cons x r => exact h1 b (by rw [List.dropLast_cons_cons]; simp [hb])
      have h2' : ∀ a ∈ rest, mappedOf c a.name = none := fun b hb => h2 b (by simp [hb])
      have e : (Imp.import_ (a :: rest)).binds = [⟨some a.name, 0, none, a.asname.getD a.name⟩] ++ (Imp.import_ rest).binds := by
        simp [Imp.binds]
      rw [e]
      cases hp : packageOf c a.name with
      | some p =>
        dsimp only
        have hg : Grow c f (addPackage c f p) [⟨some a.name, 0, none, a.asname.getD a.name⟩] := by
          apply addPackage_grow
          intro q
          simp [pkgs, torchB, hl, hp, Bind.package]
        exact hg.trans ((ih { (addPackage c f p) with names := (addPackage c f p).names.set (a.asname.getD a.name) a.name }
          h1' h2').congr_left rfl rfl)
      | none =>
        dsimp only
        rw [h2 a (by simp)]
        dsimp only
        have hg : Grow c f (addOther f a) [⟨some a.name, 0, none, a.asname.getD a.name⟩] :=
          Grow.refl rfl rfl (by simp [pkgs, torchB, hp])
        exact hg.trans (ih _ h1' h2')

theorem addOthers_sets (names : List Alias) (f : File) :
    (addOthers f names).torch = f.torch ∧ (addOthers f names).may = f.may := by
  unfold addOthers
  induction names generalizing f with
  | nil => exact ⟨rfl, rfl⟩
  | cons a rest ih =>
    rw [List.foldl_cons]
    refine ⟨(ih _).1.trans ?_, (ih _).2.trans ?_⟩
    · split
      · rfl
      · split <;> rfl
    · split
      · rfl
      · split <;> rfl

theorem bindNames_sets (m : Str) (names : List Alias) (f : File) :
    (bindNames m names f).torch = f.torch ∧ (bindNames m names f).may = f.may := by
  unfold bindNames
  induction names generalizing f with
  | nil => exact ⟨rfl, rfl⟩
  | cons a rest ih => rw [List.foldl_cons]; exact ih _

theorem visitImp_grow (c : Cfg) (s : Imp) (f : File) (h : Regular c s) : Grow c f (visitImp c s f).2 s.binds := by
  cases s with
  | import_ names => exact importLoop_grow c names f h.1 h.2
  | from_ module level names =>
    obtain ⟨h0, h1, h2⟩ := h
    unfold visitImp
    dsimp only
    have other : (∀ b ∈ (Imp.from_ module level names).binds, torchB c b = false) →
        Grow c f (addOthers f names) (Imp.from_ module level names).binds := by
      intro ht
      refine Grow.refl (addOthers_sets names f).1 (addOthers_sets names f).2 ?_
      unfold pkgs
      rw [List.filterMap_eq_nil_iff]
      intro b hb
      rw [ht b hb]; rfl
    by_cases hl : 0 < level
    · rw [if_pos hl, if_neg (by simpa using h1 hl)]
      apply other
      intro b hb
      simp only [Imp.binds, List.mem_map] at hb
      obtain ⟨a, -, rfl⟩ := hb
      have : (level == 0) = false := by simp; omega
      simp [torchB, this]
    · have hl0 : level = 0 := by omega
      subst hl0
      rw [if_neg hl]
      obtain ⟨m, hm, hmap⟩ := h2 rfl
      subst hm
      dsimp only
      by_cases hloc : c.isLocal m = true
      · rw [if_pos hloc]
        apply other
        intro b hb
        simp only [Imp.binds, List.mem_map] at hb
        obtain ⟨a, -, rfl⟩ := hb
        simp [torchB, hloc]
      · rw [if_neg hloc]
        unfold fromAbsolute
        cases hp : packageOf c m with
        | some p =>
          dsimp only
          refine Grow.congr (f' := addPackage c f p) (addPackage_grow c f p _ ?_) (bindNames_sets _ _ _).1 (bindNames_sets _ _ _).2
          intro q
          rw [mem_pkgs]
          constructor
          · rintro ⟨b, hb, -, h3⟩
            simp only [Imp.binds, List.mem_map] at hb
            obtain ⟨a, -, rfl⟩ := hb
            simp [Bind.package, hp] at h3
            exact h3.symm
          · rintro rfl
            obtain ⟨a, r, rfl⟩ := List.exists_cons_of_ne_nil h0
            refine ⟨_, List.mem_cons_self, ?_, ?_⟩
            · rw [← torchB_iff]; simp [torchB, hloc, hp]
            · simp [Bind.package, hp]
        | none =>
          dsimp only
          rw [hmap]
          apply other
          intro b hb
          simp only [Imp.binds, List.mem_map] at hb
          obtain ⟨a, -, rfl⟩ := hb
          simp [torchB, hp]

mutual
theorem visitStmt_grow (c : Cfg) (p : Nat × Bool) : (s : PStmt) → (st : St) → (∀ i ∈ s.imps, Regular c i) →
    Grow c st.file (visitStmt c p s st).2.file (bindsOf s.imps)
  | .imp s, st, h => by
    have hv := visitImp_grow c s st.file (h s (by simp [PStmt.imps]))
    unfold visitStmt
    have e : bindsOf (PStmt.imp s).imps = s.binds := by simp [bindsOf, PStmt.imps]
    rw [e]
    generalize hx : visitImp c s st.file = x at hv
    obtain ⟨fate, f⟩ := x
    cases fate with
    | keep s' => exact hv
    | gone => dsimp only; rw [(removed_imps p { st with file := f }).2]; exact hv
  | .pass, st, _ => Grow.refl rfl rfl rfl
  | .plain _, st, _ => Grow.refl rfl rfl rfl
  | .comp i k bs, st, h => by
    have hb := visitBlocks_grow c (i, k) bs st (by simpa [PStmt.imps] using h)
    unfold visitStmt
    dsimp only
    simpa [PStmt.imps] using hb
theorem visitBlock_grow (c : Cfg) (p : Nat × Bool) : (b : PBlock) → (st : St) → (∀ i ∈ b.imps, Regular c i) →
    Grow c st.file (visitBlock c p b st).2.file (bindsOf b.imps)
  | .nil, st, _ => Grow.refl rfl rfl rfl
  | .cons s rest, st, h => by
    have hs := visitStmt_grow c p s st (fun i hi => h i (by simp [PBlock.imps, hi]))
    have hr := visitBlock_grow c p rest (visitStmt c p s st).2 (fun i hi => h i (by simp [PBlock.imps, hi]))
    unfold visitBlock
    dsimp only
    rw [PBlock.imps, bindsOf_append]
    exact hs.trans hr
theorem visitBlocks_grow (c : Cfg) (p : Nat × Bool) : (bs : PBlocks) → (st : St) → (∀ i ∈ bs.imps, Regular c i) →
    Grow c st.file (visitBlocks c p bs st).2.file (bindsOf bs.imps)
  | .nil, st, _ => Grow.refl rfl rfl rfl
  | .cons b rest, st, h => by
    have hs := visitBlock_grow c p b st (fun i hi => h i (by simp [PBlocks.imps, hi]))
    have hr := visitBlocks_grow c p rest (visitBlock c p b st).2 (fun i hi => h i (by simp [PBlocks.imps, hi]))
    unfold visitBlocks
    dsimp only
    rw [PBlocks.imps, bindsOf_append]
    exact hs.trans hr
end

theorem importLines_history (c : Cfg) (torch may : List Str) :
    importLines c torch may = Scope.history (fun x => x) [] ((paddlePackages c torch may).map fun p => (0, [p])) := by
  unfold importLines Scope.history
  rw [List.foldl_map]

theorem importLines_keys (c : Cfg) (torch may : List Str) :
    importLines c torch may = [] ∨ ∃ l, importLines c torch may = [(0, l)] := by
  unfold importLines
  generalize paddlePackages c torch may = ps
  have : ∀ (ps : List Str) (d : Dict Nat (List Str)), (d = [] ∨ ∃ l, d = [(0, l)]) →
      (ps.foldl (fun d p => Scope.record (fun x => x) d 0 [p]) d = [] ∨
        ∃ l, ps.foldl (fun d p => Scope.record (fun x => x) d 0 [p]) d = [(0, l)]) := by
    intro ps
    induction ps with
    | nil => intro d h; exact h
    | cons p ps ih =>
      intro d h
      rw [List.foldl_cons]
      apply ih
      right
      rcases h with rfl | ⟨l, rfl⟩
      · exact ⟨[p], rfl⟩
      · exact ⟨_, by simp [Scope.record, Dict.get?, Dict.set]; rfl⟩
  exact this ps [] (Or.inl rfl)

theorem insertScope_zero {α : Type} (body ls : List α) : Scope.insertScope body [(0, ls)] = ls ++ body := by
  unfold Scope.insertScope
  rw [show ([(0, ls)] : Dict Nat (List α)).mergeSort (fun a b => decide (b.1 ≤ a.1)) = [(0, ls)] by simp]
  simp only [List.foldl_cons, List.foldl_nil]
  rcases Scope.insertLines_eq body 0 ls with h | h
  · rw [h]; simp
  · omega

/-- **C31**, for regular import statements and in whatever order Python iterates over its sets: after the import pass the module starts with the
added imports, none of them twice, followed by the statements that are left; a package is imported there iff it is the counterpart of a
torch package from which the program imports something, or is itself one of the packages that may be used with torch and is imported. -/
theorem C31_added_imports (c : Cfg) (body : PBlock) (h : ∀ i ∈ body.imps, Regular c i) (torch may : List Str)
    (ht : torch.Perm (visitBlock c (0, false) body {}).2.file.torch)
    (hm : may.Perm (visitBlock c (0, false) body {}).2.file.may) :
    ∃ added : List Str, runImports c body torch may =
        added.map Sum.inl ++ (visitBlock c (0, false) body {}).1.toList.map Sum.inr ∧
      added.Nodup ∧
      ∀ q, q ∈ added ↔ ∃ b ∈ body.binds, b.Torch c ∧ ∃ p, b.package c = some p ∧
        ((p ∉ c.may ∧ c.torch.get? p = some q) ∨ (p ∈ c.may ∧ p = q)) := by
  have hg := visitBlock_grow c (0, false) body {} h
  refine ⟨Scope.recorded (importLines c torch may) 0, ?_, ?_, ?_⟩
  · unfold runImports
    rcases importLines_keys c torch may with e | ⟨l, e⟩
    · rw [e]
      simp [Scope.recorded, Scope.insertScope]
    · rw [e]
      show Scope.insertScope _ [(0, l.map Sum.inl)] = _
      rw [insertScope_zero]
      simp [Scope.recorded, Dict.get?]
  · have := Scope.C37_no_duplicates (fun x : Str => x) ((paddlePackages c torch may).map fun p => (0, [p])) (by
      intro c' hc'
      obtain ⟨p, -, rfl⟩ := List.mem_map.1 hc'
      simp) 0
    rw [← importLines_history] at this
    simpa using this
  · intro q
    have hc := Scope.C37_complete (fun x : Str => x) ((paddlePackages c torch may).map fun p => (0, [p])) 0
    rw [← importLines_history] at hc
    have h1 : q ∈ Scope.recorded (importLines c torch may) 0 ↔ q ∈ paddlePackages c torch may := by
      constructor
      · intro hq
        obtain ⟨c', hc', -, h3⟩ := hc.2 q hq
        obtain ⟨p, hp, rfl⟩ := List.mem_map.1 hc'
        simp at h3; subst h3; exact hp
      · intro hq
        obtain ⟨e, he, h3⟩ := hc.1 (0, [q]) (List.mem_map.2 ⟨q, hq, rfl⟩) rfl q (by simp)
        exact h3 ▸ he
    rw [h1, paddlePackages, List.mem_append, List.mem_filterMap, hm.mem_iff, hg.may]
    constructor
    · rintro (⟨p, hp, h2⟩ | h2)
      · rw [ht.mem_iff, hg.torch, mem_pkgs] at hp
        rcases hp with hp | ⟨⟨b, hb, hbt, hbp⟩, hpm⟩
        · simp at hp
        · exact ⟨b, hb, hbt, p, hbp, Or.inl ⟨hpm, h2⟩⟩
      · rcases h2 with h2 | ⟨h2, h3⟩
        · simp at h2
        · obtain ⟨b, hb, hbt, hbp⟩ := mem_pkgs.1 h2
          exact ⟨b, hb, hbt, q, hbp, Or.inr ⟨h3, rfl⟩⟩
    · rintro ⟨b, hb, hbt, p, hbp, h2 | ⟨h2, rfl⟩⟩
      · left
        refine ⟨p, ?_, h2.2⟩
        rw [ht.mem_iff, hg.torch]
        exact Or.inr ⟨mem_pkgs.2 ⟨b, hb, hbt, hbp⟩, h2.1⟩
      · exact Or.inr (Or.inr ⟨mem_pkgs.2 ⟨b, hb, hbt, hbp⟩, h2⟩)

/-! ## C30 -/

theorem visitBlock_nonempty (c : Cfg) (i : Nat) : (b : PBlock) → (st : St) → b.toList ≠ [] → i ∉ st.passed →
    (visitBlock c (i, true) b st).1.toList ≠ []
  | .nil, st, h, _ => by simp [PBlock.toList] at h
  | .cons s rest, st, _, hi => by
    unfold visitBlock
    dsimp only
    have : (visitStmt c (i, true) s st).1.isSome = true := by
      cases s with
      | imp s =>
        unfold visitStmt
        split
        · rfl
        · unfold removed
          rw [if_pos (by simp [hi])]; rfl
      | pass => rfl
      | plain _ => rfl
      | comp _ _ _ => rfl
    obtain ⟨s', hs'⟩ := Option.isSome_iff_exists.1 this
    rw [hs']
    simp [PBlock.toList]

mutual
theorem visitStmt_passed (c : Cfg) (p : Nat × Bool) : (s : PStmt) → (st : St) → (j : Nat) →
    j ∈ (visitStmt c p s st).2.passed → j ∈ st.passed ∨ j = p.1 ∨ j ∈ s.ids
  | .imp s, st, j, h => by
    unfold visitStmt at h
    split at h
    · exact Or.inl h
    · unfold removed at h
      split at h
      · simp at h; rcases h with h | h
        · exact Or.inl h
        · exact Or.inr (Or.inl h)
      · exact Or.inl h
  | .pass, st, j, h => Or.inl h
  | .plain _, st, j, h => Or.inl h
  | .comp i k bs, st, j, h => by
    unfold visitStmt at h
    dsimp only at h
    rcases visitBlocks_passed c (i, k) bs st j h with h | h | h
    · exact Or.inl h
    · right; right; simp [PStmt.ids, h]
    · right; right; simp [PStmt.ids, h]
theorem visitBlock_passed (c : Cfg) (p : Nat × Bool) : (b : PBlock) → (st : St) → (j : Nat) →
    j ∈ (visitBlock c p b st).2.passed → j ∈ st.passed ∨ j = p.1 ∨ j ∈ b.ids
  | .nil, st, j, h => Or.inl h
  | .cons s rest, st, j, h => by
    unfold visitBlock at h
    dsimp only at h
    rcases visitBlock_passed c p rest _ j h with h | h | h
    · rcases visitStmt_passed c p s st j h with h | h | h
      · exact Or.inl h
      · exact Or.inr (Or.inl h)
      · right; right; simp [PBlock.ids, h]
    · exact Or.inr (Or.inl h)
    · right; right; simp [PBlock.ids, h]
theorem visitBlocks_passed (c : Cfg) (p : Nat × Bool) : (bs : PBlocks) → (st : St) → (j : Nat) →
    j ∈ (visitBlocks c p bs st).2.passed → j ∈ st.passed ∨ j = p.1 ∨ j ∈ bs.ids
  | .nil, st, j, h => Or.inl h
  | .cons b rest, st, j, h => by
    unfold visitBlocks at h
    dsimp only at h
    rcases visitBlocks_passed c p rest _ j h with h | h | h
    · rcases visitBlock_passed c p b st j h with h | h | h
      · exact Or.inl h
      · exact Or.inr (Or.inl h)
      · right; right; simp [PBlocks.ids, h]
    · exact Or.inr (Or.inl h)
    · right; right; simp [PBlocks.ids, h]
end

mutual
theorem visitStmt_bodies (c : Cfg) (p : Nat × Bool) : (s : PStmt) → (st : St) → s.ids.Nodup → (∀ j ∈ s.ids, j ∉ st.passed) →
    p.1 ∉ s.ids → s.BodiesFilled → ∀ s', (visitStmt c p s st).1 = some s' → s'.BodiesFilled
  | .imp s, st, _, _, _, _ => by
    intro s' h
    unfold visitStmt at h
    split at h
    · cases h; trivial
    · unfold removed at h
      split at h
      · cases h; trivial
      · simp at h
  | .pass, st, _, _, _, _ => by intro s' h; cases h; trivial
  | .plain _, st, _, _, _, _ => by intro s' h; cases h; trivial
  | .comp i k bs, st, hn, hp, hpi, hf => by
    intro s' h
    unfold visitStmt at h
    cases h
    simp only [PStmt.ids, List.nodup_cons] at hn
    have hb := visitBlocks_bodies c (i, k) bs st hn.2 (fun j hj => hp j (by simp [PStmt.ids, hj])) hn.1 hf.2
    refine ⟨?_, hb⟩
    intro hk
    subst hk
    have hf1 := hf.1 rfl
    cases bs with
    | nil => trivial
    | cons b rest =>
      exact visitBlock_nonempty c i b st hf1 (hp i (by simp [PStmt.ids]))
theorem visitBlock_bodies (c : Cfg) (p : Nat × Bool) : (b : PBlock) → (st : St) → b.ids.Nodup → (∀ j ∈ b.ids, j ∉ st.passed) →
    p.1 ∉ b.ids → b.BodiesFilled → (visitBlock c p b st).1.BodiesFilled
  | .nil, st, _, _, _, _ => trivial
  | .cons s rest, st, hn, hp, hpi, hf => by
    simp only [PBlock.ids, List.nodup_append, List.mem_append, not_or] at hn hp hpi
    have h1 := visitStmt_bodies c p s st hn.1 (fun j hj => hp j (Or.inl hj)) hpi.1 hf.1
    have h2 := visitBlock_bodies c p rest (visitStmt c p s st).2 hn.2.1 (by
      intro j hj hj2
      rcases visitStmt_passed c p s st j hj2 with h | h | h
      · exact hp j (Or.inr hj) h
      · exact hpi.2 (h ▸ hj)
      · exact hn.2.2 j h j hj rfl) hpi.2 hf.2
    unfold visitBlock
    dsimp only
    cases hs : (visitStmt c p s st).1 with
    | none => exact h2
    | some s' => exact ⟨h1 s' hs, h2⟩
theorem visitBlocks_bodies (c : Cfg) (p : Nat × Bool) : (bs : PBlocks) → (st : St) → bs.ids.Nodup → (∀ j ∈ bs.ids, j ∉ st.passed) →
    p.1 ∉ bs.ids → bs.BodiesFilled → (visitBlocks c p bs st).1.BodiesFilled
  | .nil, st, _, _, _, _ => trivial
  | .cons b rest, st, hn, hp, hpi, hf => by
    simp only [PBlocks.ids, List.nodup_append, List.mem_append, not_or] at hn hp hpi
    have h1 := visitBlock_bodies c p b st hn.1 (fun j hj => hp j (Or.inl hj)) hpi.1 hf.1
    have h2 := visitBlocks_bodies c p rest (visitBlock c p b st).2 hn.2.1 (by
      intro j hj hj2
      rcases visitBlock_passed c p b st j hj2 with h | h | h
      · exact hp j (Or.inr hj) h
      · exact hpi.2 (h ▸ hj)
      · exact hn.2.2 j h j hj rfl) hpi.2 hf.2
    unfold visitBlocks
    exact ⟨h1, h2⟩
end

/-- **C30**, partial: in every program whose `if` and `try` statements have bodies, they still have bodies after the import pass, wherever
they are nested. Missing: all other blocks, for which the claim is false (`C30_negative`). -/
theorem C30_if_try_bodies_partial (c : Cfg) (body : PBlock) (hn : (0 :: body.ids).Nodup) (h : body.BodiesFilled) :
    (visitBlock c (0, false) body {}).1.BodiesFilled := by
  rw [List.nodup_cons] at hn
  exact visitBlock_bodies c (0, false) body {} hn.2 (by simp) hn.1 h

/-! ## Examples and negations -/

namespace Ex
/-- The shipped tables of packages; `util` is a module of the project. -/
def cfg : Cfg where
  file := py"a.py"
  min := false
  isLocal m := m == py"util"
  torch := Data.torchPackages
  may := Data.mayPackages
  mapped := [(py"audiotools", py"paddlespeech.audiotools")]

def imp (n : Str) : PStmt := .imp (.import_ [{ name := n }])

/-- `import torch, numpy as np` / `from torch.nn import Linear` / `import os` / `if ..: import torch` -/
def body : PBlock :=
  .cons (.imp (.import_ [{ name := py"torch" }, { name := py"numpy", asname := some py"np" }]))
    (.cons (.imp (.from_ (some py"torch.nn") 0 [{ name := py"Linear" }]))
      (.cons (imp py"os")
        (.cons (.comp 1 true (.cons (.cons (imp py"torch") .nil) .nil)) .nil)))
end Ex

open Ex in
theorem Ex.regular : ∀ i ∈ body.imps, Regular cfg i := by
  intro i hi
  simp only [body, PBlock.imps, PStmt.imps, PBlocks.imps, imp, List.mem_append, List.mem_cons, List.not_mem_nil, or_false] at hi
  rcases hi with rfl | rfl | rfl | rfl
  · exact ⟨by decide, by decide⟩
  · exact ⟨by decide, by decide, fun _ => ⟨_, rfl, by decide⟩⟩
  · exact ⟨by decide, by decide⟩
  · exact ⟨by decide, by decide⟩

open Ex in
example : (visitBlock cfg (0, false) body {}).1.binds = [⟨some py"numpy", 0, none, py"np"⟩] ∧
    (visitBlock cfg (0, false) body {}).2.file.names.get? py"Linear" = some py"torch.nn.Linear" ∧
    (visitBlock cfg (0, false) body {}).2.file.torch = [py"torch"] ∧
    (visitBlock cfg (0, false) body {}).2.file.may = [py"os"] ∧ (0 :: body.ids).Nodup ∧ body.BodiesFilled := by
  refine ⟨by decide, by decide, by decide, by decide, by decide, ?_⟩
  simp [body, PBlock.BodiesFilled, PStmt.BodiesFilled, PBlocks.BodiesFilled, imp, PBlock.toList]

/-- **C28 is false in general**: `import util, numpy` in a project that has a module `util` becomes `import util`. -/
theorem C28_after_local_negative : ∃ (c : Cfg) (body : PBlock) (b : Bind), b ∈ body.binds ∧ ¬ b.Torch c ∧
    b ∉ (visitBlock c (0, false) body {}).1.binds := by
  refine ⟨Ex.cfg, .cons (.imp (.import_ [{ name := py"util" }, { name := py"numpy" }])) .nil, ⟨some py"numpy", 0, none, py"numpy"⟩,
    by decide, ?_, by decide⟩
  rw [← torchB_iff]; decide

/-- **C28 is false in general**: `import myaudiotools.io` becomes `import paddlespeech.audiotools as audiotools`, although the
package has nothing to do with `audiotools`; the name is found anywhere in the module name. -/
theorem C28_substring_negative : ∃ (c : Cfg) (body : PBlock) (b : Bind), b ∈ body.binds ∧ ¬ b.Torch c ∧
    b.as_ = py"myaudiotools.io" ∧
    (visitBlock c (0, false) body {}).1.binds = [⟨some py"paddlespeech.audiotools", 0, none, py"audiotools"⟩] := by
  refine ⟨Ex.cfg, .cons (Ex.imp py"myaudiotools.io") .nil, ⟨some py"myaudiotools.io", 0, none, py"myaudiotools.io"⟩,
    by decide, ?_, rfl, by decide⟩
  rw [← torchB_iff]; decide

/-- **C29 is false in general**: in min mode `import util, torch` loses the import of torch and does not record it. -/
theorem C29_after_local_negative : ∃ (c : Cfg) (body : PBlock) (b : Bind), c.min = true ∧ b ∈ body.binds ∧ b.Torch c ∧
    b ∉ (visitBlock c (0, false) body {}).1.binds ∧ (visitBlock c (0, false) body {}).2.file.names.get? b.as_ = none := by
  refine ⟨{ Ex.cfg with min := true }, .cons (.imp (.import_ [{ name := py"util" }, { name := py"torch" }])) .nil,
    ⟨some py"torch", 0, none, py"torch"⟩, rfl, by decide, ?_, by decide, by decide⟩
  rw [← torchB_iff]; decide

/-- **C30 is false in general**: a function, loop, class or `except` clause whose block consists of a torch import is left with an
empty block, and so is the second such block of an `if` or `try`. -/
theorem C30_negative : ∃ (c : Cfg),
    (∃ s b, s = PStmt.comp 1 false (.cons b .nil) ∧ b.toList ≠ [] ∧
      (visitStmt c (0, false) s {}).1 = some (.comp 1 false (.cons .nil .nil))) ∧
    (∃ s b1 b2, s = PStmt.comp 1 true (.cons b1 (.cons b2 .nil)) ∧ b2.toList ≠ [] ∧
      (visitStmt c (0, false) s {}).1 = some (.comp 1 true (.cons (.cons .pass .nil) (.cons .nil .nil)))) := by
  refine ⟨Ex.cfg, ⟨_, .cons (Ex.imp py"torch") .nil, rfl, by simp [PBlock.toList], by rfl⟩, ⟨_, .cons (Ex.imp py"torch") .nil,
    .cons (Ex.imp py"torch") .nil, rfl, by simp [PBlock.toList], by rfl⟩⟩

/-! ## C58: the rest of the program -/

theorem removed_strip (parent : Nat × Bool) (st : St) : ((removed parent st).1.bind PStmt.strip) = none := by
  unfold removed
  split <;> simp [PStmt.strip]

mutual
theorem visitStmt_strip (c : Cfg) (parent : Nat × Bool) : (s : PStmt) → (st : St) →
    (visitStmt c parent s st).1.bind PStmt.strip = s.strip
  | .imp s, st => by
    unfold visitStmt
    split
    · simp [PStmt.strip]
    · rw [removed_strip]; simp [PStmt.strip]
  | .pass, st => by simp [visitStmt]
  | .plain i, st => by simp [visitStmt]
  | .comp i k bs, st => by
    unfold visitStmt
    simp only [Option.bind_some, PStmt.strip]
    rw [visitBlocks_strip c (i, k) bs st]
theorem visitBlock_strip (c : Cfg) (parent : Nat × Bool) : (b : PBlock) → (st : St) →
    (visitBlock c parent b st).1.strip = b.strip
  | .nil, st => by simp [visitBlock]
  | .cons s rest, st => by
    have h1 := visitStmt_strip c parent s st
    have h2 := visitBlock_strip c parent rest (visitStmt c parent s st).2
    unfold visitBlock
    dsimp only
    cases h : (visitStmt c parent s st).1 with
    | none =>
      rw [h] at h1
      simp only [Option.bind_none] at h1
      rw [PBlock.strip, ← h1]
      exact h2
    | some s' =>
      rw [h] at h1
      simp only [Option.bind_some] at h1
      simp only [PBlock.strip]
      rw [h1, h2]
theorem visitBlocks_strip (c : Cfg) (parent : Nat × Bool) : (bs : PBlocks) → (st : St) →
    (visitBlocks c parent bs st).1.strip = bs.strip
  | .nil, st => by simp [visitBlocks]
  | .cons b rest, st => by
    unfold visitBlocks
    simp only [PBlocks.strip]
    rw [visitBlock_strip c parent b st, visitBlocks_strip c parent rest _]
end

/-- **C58.** The import pass touches imports only: up to import statements and `pass` every program, whatever its imports and in both modes, is the
same after it, with the same nesting and order. -/
theorem C58_other_statements (c : Cfg) (body : PBlock) : (visitBlock c (0, false) body {}).1.strip = body.strip :=
  visitBlock_strip c (0, false) body {}

example : (Ex.body).strip ≠ .nil ∧ (visitBlock Ex.cfg (0, false) Ex.body {}).1.toList ≠ Ex.body.toList := by
  constructor
  · simp [Ex.body, PBlock.strip, PStmt.strip, Ex.imp]
  · intro h
    have h1 := congrArg List.length h
    revert h1
    decide

/-! ## C60: what has to come first -/

/-- **C60**, partial: if a program (of regular import statements) imports nothing from the packages that have to do with torch, nothing is put before its
first statement, and this stays the first one unless it is an import. Otherwise the claim is false, see `C60_negative`. -/
theorem C60_first_stays_partial (c : Cfg) (s : PStmt) (rest : PBlock) (h : ∀ i ∈ (PBlock.cons s rest).imps, Regular c i)
    (torch may : List Str) (ht : torch.Perm (visitBlock c (0, false) (.cons s rest) {}).2.file.torch)
    (hm : may.Perm (visitBlock c (0, false) (.cons s rest) {}).2.file.may) (hn : ∀ b ∈ (PBlock.cons s rest).binds, ¬ b.Torch c) :
    runImports c (.cons s rest) torch may = (visitBlock c (0, false) (.cons s rest) {}).1.toList.map Sum.inr ∧
    ∀ i, s = .plain i → (runImports c (.cons s rest) torch may).head? = some (.inr (.plain i)) := by
  obtain ⟨added, h1, -, h3⟩ := C31_added_imports c _ h torch may ht hm
  have he : added = [] := by
    cases added with
    | nil => rfl
    | cons q l =>
      obtain ⟨b, hb, h4, -⟩ := (h3 q).1 (by simp)
      exact absurd h4 (hn b hb)
  subst he
  refine ⟨by simpa using h1, ?_⟩
  rintro i rfl
  rw [h1]
  simp [visitBlock, visitStmt, PBlock.toList]

/-- **C60 is false**: the import of paddle goes before everything, so a docstring is no docstring any more, and `from __future__ import
annotations` after it is a syntax error. -/
theorem C60_negative : ∃ (c : Cfg) (doc future imp : PStmt), doc = .plain 1 ∧
    future = .imp (.from_ (some py"__future__") 0 [{ name := py"annotations" }]) ∧ imp = .imp (.import_ [{ name := py"torch" }]) ∧
    runImports c (.cons doc (.cons future (.cons imp .nil))) [py"torch"] [] =
      [.inl py"paddle", .inr doc, .inr future] ∧
    (visitBlock c (0, false) (.cons doc (.cons future (.cons imp .nil))) {}).2.file.torch = [py"torch"] ∧
    (visitBlock c (0, false) (.cons doc (.cons future (.cons imp .nil))) {}).2.file.may = [] := by
  refine ⟨Ex.cfg, _, _, _, rfl, rfl, rfl, ?_, by decide, by decide⟩
  have h1 : importLines Ex.cfg [py"torch"] [] = [(0, [py"paddle"])] := by decide
  have h2 : (visitBlock Ex.cfg (0, false) (.cons (.plain 1) (.cons (.imp (.from_ (some py"__future__") 0 [{ name := py"annotations" }]))
      (.cons (.imp (.import_ [{ name := py"torch" }])) .nil))) {}).1.toList =
      [.plain 1, .imp (.from_ (some py"__future__") 0 [{ name := py"annotations" }])] := by rfl
  unfold runImports
  rw [h1, h2]
  simp only [List.map_cons, List.map_nil, Scope.insertScope, List.mergeSort_singleton]
  rfl

end Verif.Imports

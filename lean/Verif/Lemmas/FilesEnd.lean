import Verif.Lemmas.FilesMirror

namespace Verif.Files
open Verif

/-! ## Termination: directories stay within a length bound -/

theorem makedirsGo_isDir (fs : FS) (pre : Path) (cs : List Str) (fs' : FS) (h : makedirsGo fs pre cs = .ok fs')
    (p : Path) (hp : isDir fs' p = true) : isDir fs p = true ∨ p <+: pre ++ cs := by
  induction cs generalizing fs pre with
  | nil => simp [makedirsGo] at h; rw [h]; exact Or.inl hp
  | cons c cs ih =>
    simp only [makedirsGo] at h
    have e : pre ++ c :: cs = pre ++ [c] ++ cs := by simp
    rw [e]
    split at h
    · exact ih fs _ h
    · simp at h
    · rcases ih _ _ h with h1 | h1
      · by_cases he : p = pre ++ [c]
        · exact Or.inr (he ▸ List.prefix_append _ _)
        · left
          simpa [isDir, Dict.get?_set_ne _ (Ne.symm he)] using h1
      · exact Or.inr h1

theorem isDir_set_file {fs : FS} {q p : Path} {c : Bytes} (h : isDir (fs.set q (.file c)) p = true) :
    isDir fs p = true := by
  by_cases he : q = p
  · subst he
    simp [isDir] at h ⊢
    exact Or.inl h
  · simpa [isDir, Dict.get?_set_ne _ he] using h

theorem isDir_erase {fs : FS} {q p : Path} (h : isDir (fs.erase q) p = true) : isDir fs p = true ∨ p = q := by
  by_cases he : q = p
  · exact Or.inr he.symm
  · left; simpa [isDir, Dict.get?_erase_ne _ he] using h

theorem bind_ok {r : Res} {f : FS → Res} {fs' : FS} (h : r.bind f = .ok fs') : ∃ fs1, r = .ok fs1 ∧ f fs1 = .ok fs' := by
  cases r with
  | ok fs1 => exact ⟨fs1, rfl, h⟩
  | error fs1 => simp [Res.bind] at h
  | fuel => simp [Res.bind] at h

theorem prepareParent_isDir {fs : FS} {new : Path} {fs' : FS} (h : prepareParent fs new = .ok fs') (p : Path)
    (hp : isDir fs' p = true) : isDir fs p = true ∨ p <+: new.dropLast := by
  simp only [prepareParent] at h
  obtain ⟨fs1, h1, h2⟩ := bind_ok h
  have step1 : isDir fs1 p = true → isDir fs p = true ∨ p <+: new.dropLast := by
    intro h3
    split at h1
    · cases h1; exact Or.inl h3
    · exact makedirsGo_isDir fs [] _ fs1 h1 p h3
  split at h2
  · cases h2; exact step1 hp
  · rcases makedirsGo_isDir _ [] _ fs' h2 p hp with h3 | h3
    · rcases isDir_erase h3 with h4 | h4
      · exact step1 h4
      · exact Or.inr (h4 ▸ List.prefix_refl _)
    · exact Or.inr h3

theorem prepareDir_isDir {fs : FS} {old new : Path} {fs' : FS} (h : prepareDir fs old new = .ok fs') (p : Path)
    (hp : isDir fs' p = true) : isDir fs p = true ∨ (isDir fs old = true ∧ p <+: new) := by
  simp only [prepareDir] at h
  split at h
  · next hc =>
    rcases makedirsGo_isDir fs [] _ fs' h p hp with h3 | h3
    · exact Or.inl h3
    · exact Or.inr ⟨by simp at hc; exact hc.1, h3⟩
  · cases h; exact Or.inl hp

theorem transferFile_isDir {env : Env} {fs : FS} {old new : Path} {fs' : FS} (h : transferFile env fs old new = .ok fs')
    (p : Path) (hp : isDir fs' p = true) : isDir fs p = true := by
  unfold transferFile at h
  split at h
  · split at h
    · simp at h
    · split at h
      · simp at h
      · split at h
        · simp at h
        · cases h; exact isDir_set_file hp
  · simp at h

theorem visible_append {env : Env} {pats : List Str} {inP : Path} {r s : List Str} :
    Visible env pats inP (r ++ s) ↔ Visible env pats inP r ∧ Visible env pats (inP ++ r) s := by
  induction r generalizing inP with
  | nil => simp [visible_nil]
  | cons c r ih =>
    rw [List.cons_append, visible_cons, ih, visible_cons]
    have e : inP ++ [c] ++ r = inP ++ c :: r := by simp
    rw [e]
    constructor
    · rintro ⟨a, b, c, d⟩; exact ⟨⟨a, b, c⟩, d⟩
    · rintro ⟨⟨a, b, c⟩, d⟩; exact ⟨a, b, c, d⟩

/-- Visible, and not below the name `a`. -/
def Entered (env : Env) (pats : List Str) (in0 : Path) (a : Option Str) (r : List Str) : Prop :=
  Visible env pats in0 r ∧ (r ≠ [] → r.head? ≠ a)

theorem Entered.nil {env : Env} {pats : List Str} {in0 : Path} {a : Option Str} : Entered env pats in0 a [] :=
  ⟨visible_nil, fun h => absurd rfl h⟩

theorem Entered.init {env : Env} {pats : List Str} {in0 : Path} {a : Option Str} {r s : List Str}
    (h : Entered env pats in0 a (r ++ s)) : Entered env pats in0 a r := by
  refine ⟨(visible_append.1 h.1).1, fun hr => ?_⟩
  have := h.2 (by simp [hr])
  cases r with
  | nil => exact absurd rfl hr
  | cons c r => simpa using this

theorem Entered.snoc {env : Env} {pats : List Str} {in0 : Path} {a : Option Str} {r : List Str} {x : Str}
    (h : Entered env pats in0 a r) (h1 : Str.startsWith x py"." = false) (h2 : excluded env pats (in0 ++ r ++ [x]) = false)
    (h3 : r = [] → some x ≠ a) : Entered env pats in0 a (r ++ [x]) := by
  refine ⟨visible_append.2 ⟨h.1, visible_cons.2 ⟨h1, h2, visible_nil⟩⟩, fun _ => ?_⟩
  cases r with
  | nil => simpa using h3 rfl
  | cons c r => simpa using h.2 (by simp)

/-- Every directory of the input that is entered has a path of length at most `D`. -/
def DirsLe (env : Env) (pats : List Str) (g : FS) (in0 : Path) (a : Option Str) (D : Nat) : Prop :=
  ∀ r, Entered env pats in0 a r → isDir g (in0 ++ r) = true → (in0 ++ r).length ≤ D

/-- Directories made for the output of an entered directory stay within the bound. -/
def OutLe (env : Env) (pats : List Str) (in0 out0 : Path) (a : Option Str) (D : Nat) : Prop :=
  ∀ r, Entered env pats in0 a r → (in0 ++ r).length ≤ D →
    ∀ q, in0 ++ q <+: out0 ++ r → Entered env pats in0 a q → (in0 ++ q).length ≤ D

theorem DirsLe.step {env : Env} {pats : List Str} {g g' : FS} {in0 out0 : Path} {a : Option Str} {D : Nat} {r : List Str}
    (h : DirsLe env pats g in0 a D) (ho : OutLe env pats in0 out0 a D) (hv : Entered env pats in0 a r)
    (hl : (in0 ++ r).length ≤ D)
    (hg : ∀ p, isDir g' p = true → isDir g p = true ∨ p <+: out0 ++ r) : DirsLe env pats g' in0 a D := by
  intro s hs hd
  rcases hg _ hd with h1 | h1
  · exact h s hs h1
  · exact ho r hv hl s h1 hs

theorem transferDir_ends (env : Env) (pats : List Str) (in0 out0 : Path) (a : Option Str) (D : Nat)
    (ho : OutLe env pats in0 out0 a D) (n : Nat) (g : FS) (r : List Str)
    (hd : DirsLe env pats g in0 a D) (hv : Entered env pats in0 a r) (hl : (in0 ++ r).length ≤ D + 1)
    (hn : D + 2 ≤ (in0 ++ r).length + n) (hr : r ≠ [] → (in0 ++ r.dropLast).length ≤ D)
    (hx : r = [] → ∀ x ∈ listNoHidden env g in0, some x ≠ a) :
    transferDir env pats n g (in0 ++ r) (out0 ++ r) ≠ .fuel ∧
    (r ≠ [] → ∀ g', transferDir env pats n g (in0 ++ r) (out0 ++ r) = .ok g' → DirsLe env pats g' in0 a D) := by
  induction n generalizing g r with
  | zero => omega
  | succ n ih =>
    unfold transferDir
    split
    · split
      · refine ⟨by simp, ?_⟩
        intro _ g' h; cases h; exact hd
      · refine ⟨bind_ne_fuel (prepareParent_ne_fuel _ _) (fun _ _ => transferFile_ne_fuel _ _ _ _), ?_⟩
        intro hrne g' h
        obtain ⟨g1, h1, h2⟩ := bind_ok h
        have hv' : Entered env pats in0 a r.dropLast := by
          rw [← List.dropLast_concat_getLast hrne] at hv
          exact hv.init
        by_cases hdir : isDir g (out0 ++ r) = true
        · -- the output is a directory: the file goes into it, nothing is created
          have ht : target g (in0 ++ r) (out0 ++ r) = out0 ++ r ++ [(in0 ++ r).getLastD []] := by
            simp [target, hdir]
          rw [ht] at h1
          simp only [prepareParent, List.dropLast_concat] at h1
          have hex : exists_ g (out0 ++ r) = true := by simp [exists_, hdir]
          rw [if_pos hex] at h1
          simp [Res.bind, hdir] at h1
          subst h1
          intro s hs hd2
          exact hd s hs (transferFile_isDir h2 _ hd2)
        · have ht : target g (in0 ++ r) (out0 ++ r) = out0 ++ r := by simp [target, hdir]
          rw [ht] at h1
          apply hd.step ho hv' (hr hrne)
          intro p hp
          have := prepareParent_isDir h1 p (transferFile_isDir h2 p hp)
          rwa [List.dropLast_append_of_ne_nil hrne] at this
    · split
      · next hisdir =>
        have hlD := hd r hv hisdir
        have key : ∀ (items : List Str) (g : FS), DirsLe env pats g in0 a D →
            (∀ c ∈ items, Str.startsWith c py"." = false ∧ (r = [] → some c ≠ a)) →
            forEach (fun item fs =>
              if excluded env pats (in0 ++ r ++ [item]) then .ok fs
              else (prepareDir fs (in0 ++ r ++ [item]) (out0 ++ r ++ [item])).bind fun fs =>
                transferDir env pats n fs (in0 ++ r ++ [item]) (out0 ++ r ++ [item])) items g ≠ .fuel ∧
            ∀ g', forEach (fun item fs =>
              if excluded env pats (in0 ++ r ++ [item]) then .ok fs
              else (prepareDir fs (in0 ++ r ++ [item]) (out0 ++ r ++ [item])).bind fun fs =>
                transferDir env pats n fs (in0 ++ r ++ [item]) (out0 ++ r ++ [item])) items g = .ok g' →
              DirsLe env pats g' in0 a D := by
          intro items
          induction items with
          | nil =>
            intro g hg _
            exact ⟨by simp [forEach], fun g' h => by simp [forEach] at h; rw [← h]; exact hg⟩
          | cons x xs ihx =>
            intro g hg hh
            simp only [forEach]
            split
            · exact ihx g hg (fun c hc => hh c (by simp [hc]))
            · next hex =>
              have hvx : Entered env pats in0 a (r ++ [x]) :=
                hv.snoc (hh x (by simp)).1 (by simpa using hex) (hh x (by simp)).2
              have hprep : ∀ g1, prepareDir g (in0 ++ r ++ [x]) (out0 ++ r ++ [x]) = .ok g1 →
                  DirsLe env pats g1 in0 a D := by
                intro g1 h1 s hs hds
                rcases prepareDir_isDir h1 _ hds with h2 | ⟨h2, h3⟩
                · exact hg s hs h2
                · rw [List.append_assoc] at h2 h3
                  exact ho _ hvx (hg _ hvx h2) s h3 hs
              have hrec : ∀ g1, DirsLe env pats g1 in0 a D →
                  transferDir env pats n g1 (in0 ++ r ++ [x]) (out0 ++ r ++ [x]) ≠ .fuel ∧
                  ∀ g', transferDir env pats n g1 (in0 ++ r ++ [x]) (out0 ++ r ++ [x]) = .ok g' →
                    DirsLe env pats g' in0 a D := by
                intro g1 h1
                rw [List.append_assoc, List.append_assoc]
                have := ih g1 (r ++ [x]) h1 hvx (by simp at hlD ⊢; omega) (by simp at hn ⊢; omega)
                  (by intro _; rw [List.dropLast_concat]; exact hlD) (by simp)
                exact ⟨this.1, this.2 (by simp)⟩
              constructor
              · apply bind_ne_fuel
                · exact bind_ne_fuel (prepareDir_ne_fuel _ _ _) (fun g1 h1 => (hrec g1 (hprep g1 h1)).1)
                · intro g2 h2
                  obtain ⟨g1, h3, h4⟩ := bind_ok h2
                  exact (ihx g2 ((hrec g1 (hprep g1 h3)).2 g2 h4) (fun c hc => hh c (by simp [hc]))).1
              · intro g' h
                obtain ⟨g2, h2, h5⟩ := bind_ok h
                obtain ⟨g1, h3, h4⟩ := bind_ok h2
                exact (ihx g2 ((hrec g1 (hprep g1 h3)).2 g2 h4) (fun c hc => hh c (by simp [hc]))).2 g' h5
        have := key (listNoHidden env g (in0 ++ r)) g hd (by
          intro c hc
          refine ⟨?_, fun h => hx h c (by simpa [h] using hc)⟩
          simp only [listNoHidden, List.mem_filter] at hc
          simpa using hc.2)
        exact ⟨this.1, fun _ => this.2⟩
      · split
        · exact ⟨by simp, fun _ g' h => by cases h; exact hd⟩
        · exact ⟨by simp, fun _ g' h => by simp at h⟩

/-- A finite file system has a bound on the length of its paths. -/
theorem exists_bound (fs : FS) : ∃ D, ∀ p, isDir fs p = true → p.length ≤ D := by
  induction fs with
  | nil => exact ⟨0, by intro p hp; simp [isDir, Dict.get?] at hp; simp [hp]⟩
  | cons e fs ih =>
    obtain ⟨D, hD⟩ := ih
    refine ⟨D + e.1.length, ?_⟩
    intro p hp
    by_cases he : e.1 = p
    · rw [he]; omega
    · have : isDir fs p = true := by
        simpa [isDir, Dict.get?, he] using hp
      have := hD p this
      omega

end Verif.Files

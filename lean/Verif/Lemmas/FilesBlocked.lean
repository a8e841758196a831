import Verif.Lemmas.FilesInside

/-! # Something that is no directory on the way to the output -/

namespace Verif.Files
open Verif

theorem makedirsGo_blocked (fs : FS) (pre : Path) (cs : List Str) (b : Path) (e : Entry) (he : e ≠ .dir)
    (hb : fs.get? (pre ++ b) = some e) (h0 : b ≠ []) (hp : b <+: cs) (fs' : FS) : makedirsGo fs pre cs ≠ .ok fs' := by
  induction cs generalizing fs pre b with
  | nil => exact absurd (List.prefix_nil.1 hp) h0
  | cons c cs ih =>
    obtain ⟨t, ht⟩ := hp
    cases b with
    | nil => exact absurd rfl h0
    | cons d b =>
      simp only [List.cons_append, List.cons.injEq] at ht
      obtain ⟨rfl, rfl⟩ := ht
      simp only [makedirsGo]
      cases b with
      | nil =>
        rw [hb]
        cases e with
        | dir => exact absurd rfl he
        | file c => simp
        | deadLink => simp
      | cons x b =>
        have hb' : fs.get? (pre ++ [d] ++ x :: b) = some e := by simpa using hb
        split
        · exact ih fs _ (x :: b) hb' (by simp) (List.prefix_append _ _)
        · simp
        · refine ih _ _ (x :: b) ?_ (by simp) (List.prefix_append _ _)
          rw [Dict.get?_set_ne _ (by intro h; simpa using congrArg List.length h)]
          exact hb'

theorem makedirs_blocked {fs : FS} {d b : Path} {e : Entry} (he : e ≠ .dir) (hb : fs.get? b = some e) (h0 : b ≠ [])
    (hp : b <+: d) (fs' : FS) : makedirs fs d ≠ .ok fs' :=
  makedirsGo_blocked fs [] d b e he (by simpa using hb) h0 hp fs'

theorem makedirs_blocked_error {fs : FS} {d b : Path} {e : Entry} (he : e ≠ .dir) (hb : fs.get? b = some e) (h0 : b ≠ [])
    (hp : b <+: d) : ∃ g, makedirs fs d = .error g := by
  cases h : makedirs fs d with
  | ok g => exact absurd h (makedirs_blocked he hb h0 hp g)
  | error g => exact ⟨g, rfl⟩
  | fuel => exact absurd h (makedirsGo_ne_fuel _ _ _)

theorem forEach_same {step : Str → FS → Res} {fs : FS} (h : ∀ x, step x fs = .ok fs ∨ ∃ g, step x fs = .error g) :
    ∀ items, forEach step items fs ≠ .fuel
  | [] => by simp [forEach]
  | x :: xs => by
    simp only [forEach]
    rcases h x with e | ⟨g, e⟩ <;> rw [e]
    · exact forEach_same h xs
    · simp [Res.bind]

/-- A file on the way to the output, or a dangling link on the way or at its end: nothing is written. -/
theorem blocked_ends (env : Env) (pats : List Str) (fs : FS) (inP outP b : Path) (e : Entry) (he : e ≠ .dir)
    (hb : fs.get? b = some e) (h0 : b ≠ []) (hp : b <+: outP) (hout : exists_ fs outP = false)
    (hbelow : ∀ x, exists_ fs (outP ++ [x]) = false) (n : Nat) :
    transferDir env pats (n + 2) fs inP outP ≠ .fuel := by
  unfold transferDir
  split
  · split
    · simp
    · apply bind_ne_fuel
      · unfold prepareParent
        apply bind_ne_fuel
        · split
          · simp
          · exact makedirsGo_ne_fuel _ _ _
        · intro g _
          split
          · simp
          · exact makedirsGo_ne_fuel _ _ _
      · intro g _
        unfold transferFile
        split
        · split
          · simp
          · split
            · simp
            · split <;> simp
        · simp
  · split
    · apply forEach_same
      intro x
      split
      · exact .inl rfl
      · next hx =>
        unfold prepareDir
        rw [hbelow x]
        cases hd : isDir fs (inP ++ [x]) with
        | true =>
          right
          obtain ⟨g, hg⟩ := makedirs_blocked_error he hb h0 (hp.trans (List.prefix_append outP [x]))
          exact ⟨g, by simp [hg, Res.bind]⟩
        | false =>
          simp only [Bool.false_and, Bool.false_eq_true, if_false, Res.bind]
          unfold transferDir
          rw [hd]
          split
          · have h1 : isDir fs (outP ++ [x]) = false := by
              have := hbelow x
              simp only [exists_, Bool.or_eq_false_iff] at this
              exact this.2
            right
            obtain ⟨g, hg⟩ := makedirs_blocked_error he hb h0 hp
            refine ⟨g, ?_⟩
            simp [target, h1, prepareParent, hout, hg, Res.bind]
          · simp only [Bool.false_eq_true, if_false]
            split
            · exact .inl rfl
            · exact .inr ⟨fs, rfl⟩
    · split <;> simp

/-! ## A file at the output path -/

/-- The output path is still the file, with nothing below. -/
structure AtFile (in0 : Path) (c : Str) (g : FS) : Prop where
  base : g.get? in0 = some .dir
  file : ∃ b, g.get? (in0 ++ [c]) = some (.file b)
  below : ∀ r, r ≠ [] → g.get? (in0 ++ [c] ++ r) = none

/-- The output path has become a directory. -/
def Turned (in0 : Path) (c : Str) (g : FS) : Prop := Chain in0 [c] g ∧ isDir g (in0 ++ [c]) = true

theorem echo_one (c : Str) : echo [c] 1 = [c] := rfl

theorem echo_one_succ (c : Str) (k : Nat) : echo [c] (k + 1) = c :: echo [c] k := by
  have := echo_add [c] k
  rw [show [c].length + k = k + 1 by simp; omega] at this
  simpa using this

theorem turned_of_file (env : Env) (in0 : Path) (c y : Str) (g g' : FS) (hy : y ≠ c) (h : AtFile in0 c g)
    (hr : ((prepareParent g (in0 ++ [c] ++ [y])).bind fun g1 => transferFile env g1 (in0 ++ [y]) (in0 ++ [c] ++ [y])) = .ok g') :
    Turned in0 c g' := by
  obtain ⟨b, hb⟩ := h.file
  obtain ⟨g1, h1, h2⟩ := bind_ok hr
  have f1 := prepareParent_frame (out := in0 ++ [c] ++ [y]) (Or.inl (List.dropLast_prefix _)) (by rw [h1]; rfl)
  have f2 := transferFile_frame (out := in0 ++ [c] ++ [y]) (Or.inl (List.prefix_refl _)) (by rw [h2]; rfl)
  have hf := f1.trans f2
  have hnd : isDir g (in0 ++ [c]) = false := isDir_false (by simp) (by rw [hb]; simp)
  have hex : exists_ g (in0 ++ [c]) = true := by simp [exists_, isFile, hb]
  have hg1 : g1.get? in0 = some .dir ∧ isDir g1 (in0 ++ [c]) = true := by
    simp only [prepareParent, List.dropLast_concat, hex, if_true, Res.bind, hnd, Bool.false_eq_true, if_false] at h1
    refine ⟨(makedirsGo_made _ [] _ _ h1).1 _ ?_, makedirs_made h1 (List.prefix_refl _)⟩
    rw [Dict.get?_erase_ne _ (by simp)]
    exact h.base
  have hset : ∃ c', g' = g1.set (in0 ++ [c] ++ [y]) (.file c') := by
    unfold transferFile at h2
    split at h2
    · split at h2
      · simp at h2
      · split at h2
        · simp at h2
        · split at h2
          · simp at h2
          · exact ⟨_, (Res.ok.inj h2).symm⟩
    · simp at h2
  obtain ⟨c', rfl⟩ := hset
  have hbase : (g1.set (in0 ++ [c] ++ [y]) (.file c')).get? in0 = some .dir := by
    rw [Dict.get?_set_ne _ (by simp)]; exact hg1.1
  have hat : isDir (g1.set (in0 ++ [c] ++ [y]) (.file c')) (in0 ++ [c]) = true := by
    have : (g1.set (in0 ++ [c] ++ [y]) (.file c')).get? (in0 ++ [c]) = g1.get? (in0 ++ [c]) := by
      rw [Dict.get?_set_ne _ (by simp)]
    simp only [isDir, this]
    exact hg1.2
  have hdeep : ∀ k, (g1.set (in0 ++ [c] ++ [y]) (.file c')).get? (in0 ++ echo [c] (k + 2)) = none := by
    intro k
    have e : in0 ++ echo [c] (k + 2) = in0 ++ [c] ++ c :: echo [c] k := by
      rw [echo_one_succ, echo_one_succ]; simp
    rw [e, hf _ ?_ ?_]
    · exact h.below _ (by simp)
    · intro hp
      have := (List.prefix_append_right_inj (in0 ++ [c])).1 hp
      simp at this
      exact hy this
    · intro hp
      have := (List.prefix_append_right_inj (in0 ++ [c])).1 hp
      simp at this
      exact hy this.1.symm
  refine ⟨⟨fun k => ?_, fun k hk => ?_⟩, hat⟩
  · match k with
    | 0 => right; simpa [echo] using hbase
    | 1 =>
      right
      rw [echo_one]
      rcases isDir_iff.1 hat with h | h
      · simp at h
      · exact h
    | k + 2 => exact .inl (hdeep k)
  · match k with
    | 0 => exact isDir_iff.2 (.inr (by simpa [echo] using hbase))
    | k + 1 =>
      rcases isDir_iff.1 hk with h | h
      · rw [echo_succ] at h; simp at h
      · rw [hdeep k] at h; simp at h

/-- One entry of the input directory. -/
def entryStep (env : Env) (pats : List Str) (n : Nat) (inP outP : Path) (item : Str) (fs : FS) : Res :=
  if excluded env pats (inP ++ [item]) then .ok fs
  else (prepareDir fs (inP ++ [item]) (outP ++ [item])).bind fun fs =>
    transferDir env pats n fs (inP ++ [item]) (outP ++ [item])

theorem transferDir_dir {env : Env} {pats : List Str} {n : Nat} {fs : FS} {inP outP : Path} (h : fs.get? inP = some .dir) :
    transferDir env pats (n + 1) fs inP outP =
      forEach (entryStep env pats n inP outP) (listNoHidden env fs inP) fs := by
  have h1 : isFile fs inP = false := by simp [isFile, h]
  have h2 : isDir fs inP = true := isDir_iff.2 (.inr h)
  simp only [transferDir, h1, h2, Bool.false_eq_true, if_false, if_true]
  rfl

theorem entryStep_file (env : Env) (pats : List Str) (n : Nat) (in0 : Path) (c y : Str) (g g' : FS)
    (hx : excluded env pats (in0 ++ [c]) = false) (h : AtFile in0 c g)
    (hr : entryStep env pats n in0 (in0 ++ [c]) y g = .ok g') : (y ≠ c ∧ AtFile in0 c g') ∨ (y ≠ c ∧ Turned in0 c g') := by
  obtain ⟨b, hb⟩ := h.file
  have hnew : g.get? (in0 ++ [c] ++ [y]) = none := h.below [y] (by simp)
  have hnd : isDir g (in0 ++ [c] ++ [y]) = false := isDir_false (by simp) (by rw [hnew]; simp)
  have hne : exists_ g (in0 ++ [c] ++ [y]) = false := by rw [exists_, hnd, isFile, hnew]; rfl
  unfold entryStep at hr
  split at hr
  · next hy =>
    have : y ≠ c := by rintro rfl; rw [hx] at hy; simp at hy
    cases hr; exact .inl ⟨this, h⟩
  · next hy =>
    obtain ⟨g1, h1, h2⟩ := bind_ok hr
    unfold prepareDir at h1
    rw [hne] at h1
    split at h1
    · exact absurd h1 (makedirs_blocked (by simp) hb (by simp) (List.prefix_append _ _) _)
    · next hd =>
      cases h1
      have hd : isDir g (in0 ++ [y]) = false := by simpa using hd
      cases n with
      | zero => simp [transferDir] at h2
      | succ n =>
        unfold transferDir at h2
        split at h2
        · simp only [target, hnd, Bool.false_eq_true, if_false] at h2
          by_cases hyc : y = c
          · exfalso
            subst hyc
            obtain ⟨g1, h3, h4⟩ := bind_ok h2
            have hcd : isDir g (in0 ++ [y]) = false := isDir_false (by simp) (by rw [hb]; simp)
            have hex : exists_ g (in0 ++ [y]) = true := by simp [exists_, isFile, hb]
            simp only [prepareParent, List.dropLast_concat, hex, if_true, Res.bind, hcd, Bool.false_eq_true, if_false] at h3
            have := makedirs_made h3 (List.prefix_refl _)
            rcases isDir_iff.1 this with h5 | h5
            · simp at h5
            · simp [transferFile, h5] at h4
          · exact .inr ⟨hyc, turned_of_file env in0 c y g g' hyc h h2⟩
        · next hnf =>
          rw [hd] at h2
          simp only [Bool.false_eq_true, if_false] at h2
          split at h2
          · cases h2
            refine .inl ⟨?_, h⟩
            rintro rfl
            simp [isFile, hb] at hnf
          · simp at h2

theorem entryStep_turned (env : Env) (pats : List Str) (n : Nat) (in0 : Path) (c y : Str) (g g' : FS)
    (h : Turned in0 c g) (hr : entryStep env pats n in0 (in0 ++ [c]) y g = .ok g') : Turned in0 c g' := by
  have hk : Keeps in0 [c] g g' := by
    unfold entryStep at hr
    split at hr
    · cases hr; exact Keeps.refl _ _ _
    · obtain ⟨g1, h1, h2⟩ := bind_ok hr
      exact (prepareDir_keeps h1).trans (transferDir_keeps env pats in0 [c] n g1 [y] g' h2)
  obtain ⟨h1, h2⟩ := hk h.1
  exact ⟨h1, by simpa [echo_one] using h2 1 (by rw [echo_one]; exact h.2)⟩

theorem entries_file (env : Env) (pats : List Str) (n : Nat) (in0 : Path) (c : Str)
    (hx : excluded env pats (in0 ++ [c]) = false) : ∀ (items : List Str) (g g' : FS), AtFile in0 c g ∨ Turned in0 c g →
    forEach (entryStep env pats n in0 (in0 ++ [c])) items g = .ok g' → AtFile in0 c g' ∨ Turned in0 c g'
  | [], g, g', h, hr => by simp only [forEach, Res.ok.injEq] at hr; subst hr; exact h
  | y :: ys, g, g', h, hr => by
    simp only [forEach] at hr
    obtain ⟨g1, h1, h2⟩ := bind_ok hr
    refine entries_file env pats n in0 c hx ys g1 g' ?_ h2
    rcases h with h | h
    · rcases entryStep_file env pats n in0 c y g g1 hx h h1 with h3 | h3
      · exact .inl h3.2
      · exact .inr h3.2
    · exact .inr (entryStep_turned env pats n in0 c y g g1 h h1)

theorem file_never (env : Env) (hls : Listing env) (pats : List Str) (in0 : Path) (c : Str)
    (hv : ∀ k, Visible env pats in0 (echo [c] k)) (n : Nat) (g : FS) (h : AtFile in0 c g) (g' : FS) :
    transferDir env pats n g in0 (in0 ++ [c]) ≠ .ok g' := by
  intro hr
  cases n with
  | zero => simp [transferDir] at hr
  | succ n =>
    rw [transferDir_dir h.base] at hr
    obtain ⟨b, hb⟩ := h.file
    have hv1 := hv 1
    rw [echo_one] at hv1
    obtain ⟨h1, hx, -⟩ := visible_cons.1 hv1
    have hm : c ∈ listNoHidden env g in0 :=
      List.mem_filter.2 ⟨((hls g _).2 c).2 (by rw [hb]; rfl), by simp [h1]⟩
    obtain ⟨pre, g1, g2, hpre, hstep⟩ := forEach_split hm hr
    rcases entries_file env pats n in0 c hx pre g g1 (.inl h) hpre with h2 | h2
    · rcases entryStep_file env pats n in0 c c g1 g2 hx h2 hstep with h3 | h3 <;> exact h3.1 rfl
    · unfold entryStep at hstep
      rw [if_neg (by simp [hx])] at hstep
      obtain ⟨g3, h3, h4⟩ := bind_ok hstep
      obtain ⟨hc, hm⟩ := prepareDir_keeps h3 h2.1
      have e2 : in0 ++ [c] ++ [c] = in0 ++ echo [c] 2 := by rw [echo_one_succ, echo_one]; simp
      refine inside_never env hls pats in0 [c] (by simp) hv n 1 g3 hc ?_ g2 (by simpa [echo_one] using h4)
      show isDir g3 (in0 ++ echo [c] 2) = true
      rw [← e2]
      unfold prepareDir at h3
      split at h3
      · exact makedirs_made h3 (List.prefix_refl _)
      · next hn =>
        simp only [Res.ok.injEq] at h3
        subst h3
        simp only [h2.2, Bool.true_and, Bool.not_eq_true', Bool.not_eq_false, exists_, Bool.or_eq_true] at hn
        rcases hn with hn | hn
        · exfalso
          rw [e2] at hn
          unfold isFile at hn
          rcases hc.free 2 with h5 | h5 <;> rw [h5] at hn <;> simp at hn
        · exact hn

end Verif.Files

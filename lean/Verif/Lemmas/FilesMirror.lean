import Verif.Lemmas.Files

namespace Verif.Files
open Verif

/-! ## Creating directories -/

theorem makedirsGo_ok (fs : FS) (pre : Path) (cs : List Str)
    (h : ∀ q, q ≠ [] → q <+: cs → fs.get? (pre ++ q) = none ∨ fs.get? (pre ++ q) = some .dir) :
    ∃ fs', makedirsGo fs pre cs = .ok fs' ∧
      (∀ q, q ≠ [] → q <+: cs → fs'.get? (pre ++ q) = some .dir) ∧
      (∀ p, (∀ q, q ≠ [] → q <+: cs → p ≠ pre ++ q) → fs'.get? p = fs.get? p) := by
  induction cs generalizing fs pre with
  | nil =>
    refine ⟨fs, rfl, ?_, fun _ _ => rfl⟩
    intro q h1 h2; exact absurd (List.prefix_nil.1 h2) h1
  | cons c cs ih =>
    have hc := h [c] (by simp) ⟨cs, rfl⟩
    simp only [makedirsGo]
    have main : ∀ fs1 : FS, fs1.get? (pre ++ [c]) = some .dir →
        (∀ p, p ≠ pre ++ [c] → fs1.get? p = fs.get? p) →
        ∃ fs', makedirsGo fs1 (pre ++ [c]) cs = .ok fs' ∧
          (∀ q, q ≠ [] → q <+: c :: cs → fs'.get? (pre ++ q) = some .dir) ∧
          (∀ p, (∀ q, q ≠ [] → q <+: c :: cs → p ≠ pre ++ q) → fs'.get? p = fs.get? p) := by
      intro fs1 h1 h2
      have hne : ∀ q : Path, q ≠ [] → pre ++ [c] ++ q ≠ pre ++ [c] := by
        intro q hq e
        have := congrArg List.length e
        simp at this; exact hq this
      obtain ⟨fs', e, g1, g2⟩ := ih fs1 (pre ++ [c]) (by
        intro q hq hp
        rw [h2 _ (hne q hq)]
        have := h (c :: q) (by simp) (by simpa using hp)
        simpa using this)
      refine ⟨fs', e, ?_, ?_⟩
      · intro q hq hp
        cases q with
        | nil => exact absurd rfl hq
        | cons x q =>
          have hx : x = c ∧ q <+: cs := by simpa using hp
          obtain ⟨rfl, hp2⟩ := hx
          by_cases hq0 : q = []
          · subst hq0
            rw [g2, h1]
            intro q hq _ e2
            exact hne q hq e2.symm
          · simpa using g1 q hq0 hp2
      · intro p hp
        rw [g2, h2]
        · exact hp [c] (by simp) ⟨cs, rfl⟩
        · intro q hq hp2
          simpa using hp (c :: q) (by simp) (by simpa using hp2)
    rcases hc with hc | hc
    · rw [hc]; exact main (fs.set (pre ++ [c]) .dir) (by simp) (fun p hp => Dict.get?_set_ne _ (Ne.symm hp) _)
    · rw [hc]; exact main fs hc (fun _ _ => rfl)

theorem makedirs_ok {fs : FS} {d : Path} (h : Reachable fs d) :
    ∃ fs', makedirs fs d = .ok fs' ∧ (∀ q, q ≠ [] → q <+: d → fs'.get? q = some .dir) ∧
      (∀ p, ¬ (p ≠ [] ∧ p <+: d) → fs'.get? p = fs.get? p) := by
  obtain ⟨fs', e, h1, h2⟩ := makedirsGo_ok fs [] d (by intro q hq hp; exact h q hq hp)
  refine ⟨fs', e, by simpa using h1, ?_⟩
  intro p hp
  apply h2
  rintro q hq hqd rfl
  exact hp ⟨by simpa using hq, by simpa using hqd⟩

/-! ## The tree below the input -/

theorem TreeBelow.head {fs : FS} {inP : Path} (h : TreeBelow fs inP) {c : Str} {r : List Str} (hr : r ≠ [])
    (hs : (fs.get? (inP ++ c :: r)).isSome = true) : fs.get? (inP ++ [c]) = some .dir := by
  generalize hn : r.length = n
  induction n generalizing r with
  | zero => exact absurd (List.eq_nil_of_length_eq_zero hn) hr
  | succ n ih =>
    rcases List.eq_nil_or_concat r with e | ⟨r', x, e⟩
    · exact absurd e hr
    · rw [List.concat_eq_append] at e
      subst e
      have e2 : inP ++ c :: (r' ++ [x]) = inP ++ (c :: r') ++ [x] := by simp
      rw [e2] at hs
      rcases h (c :: r') x hs with h1 | h1
      · simp at h1
      · by_cases hr' : r' = []
        · subst hr'; exact h1
        · exact ih hr' (by rw [h1]; rfl) (by simpa using hn)

theorem TreeBelow.none_of_head {fs : FS} {inP : Path} (h : TreeBelow fs inP) {c : Str} {r : List Str}
    (hs : fs.get? (inP ++ [c]) = none) : fs.get? (inP ++ c :: r) = none := by
  by_cases hr : r = []
  · subst hr; exact hs
  · cases hg : fs.get? (inP ++ c :: r) with
    | none => rfl
    | some e =>
      have := h.head hr (by rw [hg]; rfl)
      rw [hs] at this; simp at this

theorem visible_cons {env : Env} {pats : List Str} {inP : Path} {c : Str} {r : List Str} :
    Visible env pats inP (c :: r) ↔
      Str.startsWith c py"." = false ∧ excluded env pats (inP ++ [c]) = false ∧
        Visible env pats (inP ++ [c]) r := by
  constructor
  · rintro ⟨h1, h2⟩
    refine ⟨h1 c (by simp), by simpa using h2 0 (by simp), fun x hx => h1 x (by simp [hx]), ?_⟩
    intro k hk
    have := h2 (k + 1) (by simpa using hk)
    simpa using this
  · rintro ⟨h1, h2, h3, h4⟩
    refine ⟨?_, ?_⟩
    · intro x hx
      rcases List.mem_cons.1 hx with hx | hx
      · exact hx ▸ h1
      · exact h3 x hx
    · intro k hk
      cases k with
      | zero => simpa using h2
      | succ k =>
        have := h4 k (by simpa using hk)
        simpa using this

theorem visible_nil {env : Env} {pats : List Str} {inP : Path} : Visible env pats inP [] :=
  ⟨by simp, by simp⟩

/-- Two states agree on the input tree. -/
theorem in_agree {fs fs' : FS} {inP outP : Path} (ha : Apart inP outP)
    (h : ∀ p, ¬ outP <+: p → ¬ p <+: outP → fs'.get? p = fs.get? p) (r : List Str) :
    fs'.get? (inP ++ r) = fs.get? (inP ++ r) :=
  h _ (ha.append_left r).2 (ha.append_left r).1

theorem below_not_prefix {outP : Path} {c : Str} {r : List Str} : ¬ outP ++ c :: r <+: outP := by
  intro h
  have := h.length_le
  simp at this
  omega

theorem below_inj {outP : Path} {c c' : Str} {r : List Str} (h : outP ++ [c'] <+: outP ++ c :: r) : c' = c := by
  have := (List.prefix_append_right_inj outP).1 h
  simpa using this

/-- Effect of one directory. -/
structure Done (env : Env) (pats : List Str) (fs fs' : FS) (inP outP : Path) : Prop where
  mirrors : ∀ r, r ≠ [] → Mirrors env pats fs fs' inP outP r
  frame : ∀ p, (∀ r, r ≠ [] → p ≠ outP ++ r) →
    fs'.get? p = fs.get? p ∨ (p ≠ [] ∧ p <+: outP ∧ fs'.get? p = some .dir)

/-- Effect of one item. -/
structure ItemDone (env : Env) (pats : List Str) (fs fs' : FS) (inP outP : Path) (c : Str) : Prop where
  mirrors : ∀ r, Mirrors env pats fs fs' inP outP (c :: r)
  frame : ∀ p, ¬ outP ++ [c] <+: p →
    fs'.get? p = fs.get? p ∨ (p ≠ [] ∧ p <+: outP ∧ fs'.get? p = some .dir)

theorem ItemDone.agree_in {env : Env} {pats : List Str} {fs fs' : FS} {inP outP : Path} {c : Str}
    (h : ItemDone env pats fs fs' inP outP c) (ha : Apart inP outP) (r : List Str) :
    fs'.get? (inP ++ r) = fs.get? (inP ++ r) := by
  have h1 := ha.append_left r
  rcases h.frame (inP ++ r) (fun h2 => h1.2 ((List.prefix_append _ _).trans h2)) with h | ⟨_, h, _⟩
  · exact h
  · exact absurd h h1.1

theorem ItemDone.agree_out {env : Env} {pats : List Str} {fs fs' : FS} {inP outP : Path} {c c' : Str}
    (h : ItemDone env pats fs fs' inP outP c) (hne : c ≠ c') (r : List Str) :
    fs'.get? (outP ++ c' :: r) = fs.get? (outP ++ c' :: r) := by
  rcases h.frame (outP ++ c' :: r) (fun h2 => hne (below_inj h2)) with h | ⟨_, h, _⟩
  · exact h
  · exact absurd h below_not_prefix

theorem Ready.step {env : Env} {pats : List Str} {fs fs' : FS} {inP outP : Path} {n : Nat} {c : Str}
    (h : Ready env pats fs inP outP n) (hd : ItemDone env pats fs fs' inP outP c) :
    Ready env pats fs' inP outP n := by
  have hin := hd.agree_in h.apart
  refine ⟨h.apart, ?_, ?_, ?_, ?_, ?_⟩
  · intro r x hx
    rw [List.append_assoc, hin, ← List.append_assoc] at hx
    rw [hin]; exact h.tree r x hx
  · intro r hr hv
    rw [hin]
    cases r with
    | nil => exact absurd rfl hr
    | cons x r =>
      by_cases hx : c = x
      · subst hx
        have hm := hd.mirrors r
        refine ⟨fun e => Or.inr (hm.1 hv e), fun k e => ?_⟩
        obtain ⟨c', _, h2⟩ := hm.2.1 hv k e
        exact Or.inr ⟨c', h2⟩
      · rw [hd.agree_out hx]; exact h.compat _ hr hv
  · intro q hq hp
    rcases hd.frame q (fun h2 => by
        have := (h2.trans hp).length_le
        simp at this; omega) with e | ⟨_, _, e⟩
    · rw [e]; exact h.reach q hq hp
    · exact Or.inr e
  · intro r k hr hv e
    rw [hin] at e; exact h.conv r k hr hv e
  · intro r hr
    rw [hin] at hr; exact h.depth r hr

theorem Mirrors.congr {env : Env} {pats : List Str} {fs fs1 fs' fs1' : FS} {inP outP : Path} {r : List Str}
    (h : Mirrors env pats fs fs' inP outP r) (h1 : fs1.get? (inP ++ r) = fs.get? (inP ++ r))
    (h2 : fs1.get? (outP ++ r) = fs.get? (outP ++ r)) (h3 : fs1'.get? (outP ++ r) = fs'.get? (outP ++ r)) :
    Mirrors env pats fs1 fs1' inP outP r := by
  unfold Mirrors at *
  rw [h1, h2, h3]; exact h

theorem forEach_done (env : Env) (pats : List Str) (inP outP : Path) (n : Nat) (step : Str → FS → Res)
    (hstep : ∀ c fs, Str.startsWith c py"." = false → (fs.get? (inP ++ [c])).isSome = true →
      Ready env pats fs inP outP n → ∃ fs', step c fs = .ok fs' ∧ ItemDone env pats fs fs' inP outP c)
    (items : List Str) (hnd : items.Nodup) (fs : FS)
    (hhid : ∀ c ∈ items, Str.startsWith c py"." = false)
    (hsome : ∀ c ∈ items, (fs.get? (inP ++ [c])).isSome = true) (hr : Ready env pats fs inP outP n) :
    ∃ fs', forEach step items fs = .ok fs' ∧
      (∀ c ∈ items, ∀ r, Mirrors env pats fs fs' inP outP (c :: r)) ∧
      (∀ p, (∀ c ∈ items, ¬ outP ++ [c] <+: p) →
        fs'.get? p = fs.get? p ∨ (p ≠ [] ∧ p <+: outP ∧ fs'.get? p = some .dir)) := by
  induction items generalizing fs with
  | nil => exact ⟨fs, rfl, by simp, fun _ _ => Or.inl rfl⟩
  | cons x xs ih =>
    obtain ⟨g, e1, d1⟩ := hstep x fs (hhid x (by simp)) (hsome x (by simp)) hr
    rw [List.nodup_cons] at hnd
    obtain ⟨g', e2, m2, f2⟩ := ih hnd.2 g (fun c hc => hhid c (by simp [hc]))
      (fun c hc => by rw [d1.agree_in hr.apart]; exact hsome c (by simp [hc])) (hr.step d1)
    refine ⟨g', by simp [forEach, e1, Res.bind, e2], ?_, ?_⟩
    · intro c hc r
      by_cases hcx : c = x
      · subst hcx
        refine (d1.mirrors r).congr rfl rfl ?_
        rcases f2 (outP ++ c :: r) (fun c' hc' h => hnd.1 (below_inj h ▸ hc')) with h | ⟨_, h, _⟩
        · exact h
        · exact absurd h below_not_prefix
      · have hc2 : c ∈ xs := by
          rcases List.mem_cons.1 hc with h | h
          · exact absurd h hcx
          · exact h
        exact (m2 c hc2 r).congr (d1.agree_in hr.apart _).symm (d1.agree_out (Ne.symm hcx) r).symm rfl
    · intro p hp
      rcases f2 p (fun c hc => hp c (by simp [hc])) with h | h
      · rcases d1.frame p (hp x (by simp)) with h' | ⟨h1, h2, h3⟩
        · exact Or.inl (h.trans h')
        · exact Or.inr ⟨h1, h2, h.trans h3⟩
      · exact Or.inr h

theorem isDir_of_get {fs : FS} {p : Path} (h : fs.get? p = some .dir) : isDir fs p = true := by
  simp [isDir, h]

theorem isDir_false {fs : FS} {p : Path} (h0 : p ≠ []) (h : fs.get? p ≠ some .dir) : isDir fs p = false := by
  unfold isDir
  have : (p == []) = false := by simpa using h0
  rw [this, Bool.false_or]
  split
  · next e => exact absurd e h
  · rfl

/-- One item of the loop. `rec` is the recursive call. -/
theorem item_done (env : Env) (pats : List Str) (inP outP : Path) (n : Nat)
    (hrec : ∀ fs inP outP m, m + 1 = n → isDir fs inP = true → isFile fs inP = false → Ready env pats fs inP outP m →
      ∃ fs', transferDir env pats n fs inP outP = .ok fs' ∧ Done env pats fs fs' inP outP)
    (c : Str) (fs : FS) (hhid : Str.startsWith c py"." = false)
    (hsome : (fs.get? (inP ++ [c])).isSome = true) (hr : Ready env pats fs inP outP n) :
    ∃ fs', (if excluded env pats (inP ++ [c]) then Res.ok fs
        else (prepareDir fs (inP ++ [c]) (outP ++ [c])).bind fun fs =>
          transferDir env pats n fs (inP ++ [c]) (outP ++ [c])) = .ok fs' ∧
      ItemDone env pats fs fs' inP outP c := by
  by_cases hex : excluded env pats (inP ++ [c]) = true
  · refine ⟨fs, by rw [if_pos hex], ?_, fun _ _ => Or.inl rfl⟩
    intro r
    have hnv : ¬ Visible env pats inP (c :: r) := by
      rw [visible_cons]; rintro ⟨_, h, _⟩; rw [hex] at h; simp at h
    exact ⟨fun h => absurd h hnv, fun h => absurd h hnv, fun _ => rfl⟩
  · have hex' : excluded env pats (inP ++ [c]) = false := by simpa using hex
    rw [if_neg hex]
    have hn : 0 < n := by
      have := hr.depth [c] hsome
      simp at this; omega
    obtain ⟨m, rfl⟩ : ∃ m, n = m + 1 := ⟨n - 1, by omega⟩
    have hvis : Visible env pats inP [c] := visible_cons.2 ⟨hhid, hex', visible_nil⟩
    have hcompat := hr.compat [c] (by simp) hvis
    have hapart : Apart (inP ++ [c]) (outP ++ [c]) := hr.apart.append [c] [c]
    obtain ⟨e, he⟩ := Option.isSome_iff_exists.1 hsome
    have hin0 : inP ++ [c] ≠ [] := by simp
    have hout0 : outP ++ [c] ≠ [] := by simp
    cases e with
    | dir =>
      -- the directory is created if necessary
      have hprep : ∃ g, prepareDir fs (inP ++ [c]) (outP ++ [c]) = .ok g ∧
          g.get? (outP ++ [c]) = some .dir ∧
          ∀ p, g.get? p = fs.get? p ∨ (p ≠ [] ∧ p <+: outP ++ [c] ∧ g.get? p = some .dir) := by
        rcases hcompat.1 he with h0 | h0
        · have hex2 : exists_ fs (outP ++ [c]) = false := by
            simp [exists_, isFile, isDir, h0]
          have hreach : Reachable fs (outP ++ [c]) := by
            intro q hq hp
            rcases prefix_concat_iff.1 hp with h | h
            · exact Or.inl (h ▸ h0)
            · exact hr.reach q hq h
          obtain ⟨g, h1, h2, h3⟩ := makedirs_ok hreach
          refine ⟨g, by simp [prepareDir, isDir_of_get he, hex2, h1],
            h2 _ hout0 (List.prefix_refl _), ?_⟩
          intro p
          by_cases hp : p ≠ [] ∧ p <+: outP ++ [c]
          · exact Or.inr ⟨hp.1, hp.2, h2 p hp.1 hp.2⟩
          · exact Or.inl (h3 p hp)
        · have hex2 : exists_ fs (outP ++ [c]) = true := by
            simp [exists_, isDir_of_get h0]
          exact ⟨fs, by simp [prepareDir, hex2], h0, fun _ => Or.inl rfl⟩
      obtain ⟨g, hg1, hg2, hg3⟩ := hprep
      have hgin : ∀ r, g.get? (inP ++ r) = fs.get? (inP ++ r) := by
        intro r
        rcases hg3 (inP ++ r) with h | ⟨_, h, _⟩
        · exact h
        · exact absurd h ((hr.apart.append r [c]).1)
      have hgout : ∀ r, r ≠ [] → g.get? (outP ++ c :: r) = fs.get? (outP ++ c :: r) := by
        intro r hrne
        rcases hg3 (outP ++ c :: r) with h | ⟨_, h, _⟩
        · exact h
        · exfalso
          have := h.length_le
          simp at this
          exact hrne this
      have hready : Ready env pats g (inP ++ [c]) (outP ++ [c]) m := by
        refine ⟨hapart, ?_, ?_, ?_, ?_, ?_⟩
        · intro r x hx
          have e1 : inP ++ [c] ++ r ++ [x] = inP ++ (c :: r) ++ [x] := by simp
          have e2 : inP ++ [c] ++ r = inP ++ (c :: r) := by simp
          rw [e1, List.append_assoc, hgin, ← List.append_assoc] at hx
          rw [e2, hgin]
          rcases hr.tree (c :: r) x hx with h | h
          · simp at h
          · exact Or.inr h
        · intro r hrne hv
          have e1 : inP ++ [c] ++ r = inP ++ (c :: r) := by simp
          have e2 : outP ++ [c] ++ r = outP ++ c :: r := by simp
          rw [e1, e2, hgin, hgout r hrne]
          exact hr.compat (c :: r) (by simp) (visible_cons.2 ⟨hhid, hex', hv⟩)
        · intro q hq hp
          rcases hg3 q with h | ⟨_, _, h⟩
          · rcases prefix_concat_iff.1 hp with h2 | h2
            · exact Or.inr (h2 ▸ hg2)
            · rw [h]; exact hr.reach q hq h2
          · exact Or.inr h
        · intro r k hrne hv hk
          have e1 : inP ++ [c] ++ r = inP ++ (c :: r) := by simp
          rw [e1, hgin] at hk
          rw [e1]
          exact hr.conv (c :: r) k (by simp) (visible_cons.2 ⟨hhid, hex', hv⟩) hk
        · intro r hrs
          have e1 : inP ++ [c] ++ r = inP ++ (c :: r) := by simp
          rw [e1, hgin] at hrs
          have := hr.depth _ hrs
          simp at this; omega
      have hgdir : g.get? (inP ++ [c]) = some .dir := by rw [hgin]; exact he
      obtain ⟨g2, h1, h2⟩ := hrec g (inP ++ [c]) (outP ++ [c]) m rfl (isDir_of_get hgdir)
        (by simp [isFile, hgdir]) hready
      refine ⟨g2, by rw [hg1]; exact h1, ?_, ?_⟩
      · intro r
        by_cases hrne : r = []
        · subst hrne
          have : g2.get? (outP ++ [c]) = some .dir := by
            rcases h2.frame (outP ++ [c]) (by
              intro r hrne e
              have := congrArg List.length e
              simp at this; exact hrne this) with h | ⟨_, _, h⟩
            · rw [h, hg2]
            · exact h
          refine ⟨fun _ _ => this, fun _ k hk => ?_, fun hh => ?_⟩
          · rw [he] at hk; simp at hk
          · rcases hh with hh | hh | hh
            · exact absurd hvis hh
            · rw [he] at hh; simp at hh
            · rw [he] at hh; simp at hh
        · have hm := h2.mirrors r hrne
          have hm2 : Mirrors env pats fs g2 (inP ++ [c]) (outP ++ [c]) r := by
            refine hm.congr ?_ ?_ rfl
            · have e1 : inP ++ [c] ++ r = inP ++ (c :: r) := by simp
              rw [e1, hgin]
            · have e2 : outP ++ [c] ++ r = outP ++ c :: r := by simp
              rw [e2, hgout r hrne]
          unfold Mirrors at hm2 ⊢
          have e1 : inP ++ [c] ++ r = inP ++ (c :: r) := by simp
          have e2 : outP ++ [c] ++ r = outP ++ c :: r := by simp
          rw [e1, e2] at hm2
          have hv : Visible env pats inP (c :: r) ↔ Visible env pats (inP ++ [c]) r := by
            rw [visible_cons]; simp [hhid, hex']
          rw [hv]; exact hm2
      · intro p hp
        have hp2 : ∀ r, r ≠ [] → p ≠ outP ++ [c] ++ r := by
          rintro r _ rfl; exact hp (List.prefix_append _ _)
        have hpne : p ≠ outP ++ [c] := by rintro rfl; exact hp (List.prefix_refl _)
        rcases h2.frame p hp2 with h | ⟨a1, a2, a3⟩
        · rcases hg3 p with h' | ⟨a1, a2, a3⟩
          · exact Or.inl (h.trans h')
          · rcases prefix_concat_iff.1 a2 with e | e
            · exact absurd e hpne
            · exact Or.inr ⟨a1, e, h.trans a3⟩
        · rcases prefix_concat_iff.1 a2 with e | e
          · exact absurd e hpne
          · exact Or.inr ⟨a1, e, a3⟩
    | deadLink =>
      have hnd : isDir fs (inP ++ [c]) = false := isDir_false hin0 (by rw [he]; simp)
      refine ⟨fs, ?_, ?_, fun _ _ => Or.inl rfl⟩
      · simp [prepareDir, hnd, Res.bind, transferDir, isFile, he, isLink]
      · intro r
        by_cases hrne : r = []
        · subst hrne
          refine ⟨fun _ h => ?_, fun _ k h => ?_, fun _ => rfl⟩
          · rw [he] at h; simp at h
          · rw [he] at h; simp at h
        · have hnone : fs.get? (inP ++ c :: r) = none := by
            cases hg : fs.get? (inP ++ c :: r) with
            | none => rfl
            | some e =>
              have := hr.tree.head hrne (by rw [hg]; rfl)
              rw [he] at this; simp at this
          refine ⟨fun _ h => ?_, fun _ k h => ?_, fun _ => rfl⟩
          · rw [hnone] at h; simp at h
          · rw [hnone] at h; simp at h
    | file k =>
      have hnd : isDir fs (inP ++ [c]) = false := isDir_false hin0 (by rw [he]; simp)
      have hf : isFile fs (inP ++ [c]) = true := by simp [isFile, he]
      have hnodir : fs.get? (outP ++ [c]) ≠ some .dir := by
        rcases hcompat.2 k he with h | ⟨c', h⟩ <;> rw [h] <;> simp
      have hndo : isDir fs (outP ++ [c]) = false := isDir_false hout0 hnodir
      have htgt : target fs (inP ++ [c]) (outP ++ [c]) = outP ++ [c] := by simp [target, hndo]
      have hpar : ∃ g, prepareParent fs (outP ++ [c]) = .ok g ∧
          ∀ p, g.get? p = fs.get? p ∨ (p ≠ [] ∧ p <+: outP ∧ g.get? p = some .dir) := by
        simp only [prepareParent, List.dropLast_concat]
        by_cases hd : isDir fs outP = true
        · exact ⟨fs, by simp [exists_, hd, Res.bind], fun _ => Or.inl rfl⟩
        · have hne0 : outP ≠ [] := by
            intro e; apply hd; simp [isDir, e]
          have hnone : fs.get? outP = none := by
            rcases hr.reach outP hne0 (List.prefix_refl _) with h | h
            · exact h
            · exact absurd (isDir_of_get h) hd
          have hex2 : exists_ fs outP = false := by
            have : isDir fs outP = false := by simpa using hd
            simp [exists_, isFile, hnone, this]
          obtain ⟨g, h1, h2, h3⟩ := makedirs_ok hr.reach
          refine ⟨g, ?_, ?_⟩
          · simp [hex2, h1, Res.bind, isDir_of_get (h2 outP hne0 (List.prefix_refl _))]
          · intro p
            by_cases hp : p ≠ [] ∧ p <+: outP
            · exact Or.inr ⟨hp.1, hp.2, h2 p hp.1 hp.2⟩
            · exact Or.inl (h3 p hp)
      obtain ⟨g, hg1, hg3⟩ := hpar
      have hgin : g.get? (inP ++ [c]) = some (.file k) := by
        rcases hg3 (inP ++ [c]) with h | ⟨_, h, _⟩
        · rw [h, he]
        · exact absurd h (hr.apart.append_left [c]).1
      have hgout : g.get? (outP ++ [c]) = fs.get? (outP ++ [c]) := by
        rcases hg3 (outP ++ [c]) with h | ⟨_, h, _⟩
        · exact h
        · exact absurd h below_not_prefix
      obtain ⟨k', hk'⟩ := Option.isSome_iff_exists.1 (hr.conv [c] k (by simp) hvis he)
      have hgnd : isDir g (outP ++ [c]) = false := isDir_false hout0 (by rw [hgout]; exact hnodir)
      have hold : inP ++ [c] ≠ outP ++ [c] := by
        intro e; exact hapart.1 (by rw [e]; exact List.prefix_refl _)
      refine ⟨g.set (outP ++ [c]) (.file k'), ?_, ?_, ?_⟩
      · simp [prepareDir, hnd, Res.bind, transferDir, hf, hex', htgt, hg1, transferFile, hgin, hk', hgnd, hold]
      · intro r
        by_cases hrne : r = []
        · subst hrne
          refine ⟨fun _ h => ?_, fun _ x hx => ?_, fun hh => ?_⟩
          · rw [he] at h; simp at h
          · rw [he] at hx
            cases hx
            exact ⟨k', hk', by simp⟩
          · rcases hh with hh | hh | hh
            · exact absurd hvis hh
            · rw [he] at hh; simp at hh
            · rw [he] at hh; simp at hh
        · have hnone : fs.get? (inP ++ c :: r) = none := by
            cases hg : fs.get? (inP ++ c :: r) with
            | none => rfl
            | some e =>
              have := hr.tree.head hrne (by rw [hg]; rfl)
              rw [he] at this; simp at this
          refine ⟨fun _ h => ?_, fun _ k h => ?_, fun _ => ?_⟩
          · rw [hnone] at h; simp at h
          · rw [hnone] at h; simp at h
          · rw [Dict.get?_set_ne]
            · rcases hg3 (outP ++ c :: r) with h | ⟨_, h, _⟩
              · exact h
              · exact absurd h below_not_prefix
            · intro e
              have := congrArg List.length e
              simp at this; exact hrne this
      · intro p hp
        have hpne : outP ++ [c] ≠ p := by rintro rfl; exact hp (List.prefix_refl _)
        rw [Dict.get?_set_ne _ hpne]
        exact hg3 p

theorem transferDir_done (env : Env) (hls : Listing env) (pats : List Str) (n : Nat) (fs : FS)
    (inP outP : Path) (hdir : isDir fs inP = true) (hnf : isFile fs inP = false)
    (hr : Ready env pats fs inP outP n) :
    ∃ fs', transferDir env pats (n + 1) fs inP outP = .ok fs' ∧ Done env pats fs fs' inP outP := by
  induction n generalizing fs inP outP with
  | zero =>
    have hempty : ∀ r, r ≠ [] → fs.get? (inP ++ r) = none := by
      intro r hrne
      cases h : fs.get? (inP ++ r) with
      | none => rfl
      | some e =>
        have := hr.depth r (by rw [h]; rfl)
        exact absurd (List.eq_nil_of_length_eq_zero (by omega)) hrne
    have hl : listNoHidden env fs inP = [] := by
      rw [List.eq_nil_iff_forall_not_mem]
      intro c hc
      simp only [listNoHidden, List.mem_filter] at hc
      have := (hls fs inP).2 c |>.1 hc.1
      rw [hempty [c] (by simp)] at this; simp at this
    refine ⟨fs, ?_, ?_, fun _ _ => Or.inl rfl⟩
    · unfold transferDir
      rw [if_neg (by simp [hnf]), if_pos hdir, hl]; rfl
    · intro r hrne
      refine ⟨fun _ h => ?_, fun _ k h => ?_, fun _ => rfl⟩
      · rw [hempty r hrne] at h; simp at h
      · rw [hempty r hrne] at h; simp at h
  | succ n ih =>
    have hitems : ∀ c ∈ listNoHidden env fs inP,
        Str.startsWith c py"." = false ∧ (fs.get? (inP ++ [c])).isSome = true := by
      intro c hc
      simp only [listNoHidden, List.mem_filter] at hc
      exact ⟨by simpa using hc.2, (hls fs inP).2 c |>.1 hc.1⟩
    obtain ⟨fs', h1, h2, h3⟩ := forEach_done env pats inP outP (n + 1)
      (fun item fs =>
        if excluded env pats (inP ++ [item]) then .ok fs
        else (prepareDir fs (inP ++ [item]) (outP ++ [item])).bind fun fs =>
          transferDir env pats (n + 1) fs (inP ++ [item]) (outP ++ [item]))
      (fun c g hh hs hg => item_done env pats inP outP (n + 1)
        (fun g' i o m hm hd hnf hr' => by
          have : m = n := by omega
          subst this
          exact ih g' i o hd hnf hr') c g hh hs hg)
      (listNoHidden env fs inP) (((hls fs inP).1).filter _) fs
      (fun c hc => (hitems c hc).1) (fun c hc => (hitems c hc).2) hr
    refine ⟨fs', ?_, ?_, ?_⟩
    · unfold transferDir
      rw [if_neg (by simp [hnf]), if_pos hdir]
      exact h1
    · intro r hrne
      cases r with
      | nil => exact absurd rfl hrne
      | cons c r =>
        by_cases hc : c ∈ listNoHidden env fs inP
        · exact h2 c hc r
        · have hfr : fs'.get? (outP ++ c :: r) = fs.get? (outP ++ c :: r) := by
            rcases h3 (outP ++ c :: r) (fun c' hc' h => hc (below_inj h ▸ hc')) with h | ⟨_, h, _⟩
            · exact h
            · exact absurd h below_not_prefix
          have hcase : Visible env pats inP (c :: r) → fs.get? (inP ++ c :: r) = none := by
            intro hv
            apply hr.tree.none_of_head
            cases hg : fs.get? (inP ++ [c]) with
            | none => rfl
            | some e =>
              exfalso; apply hc
              simp only [listNoHidden, List.mem_filter]
              exact ⟨((hls fs inP).2 c).2 (by rw [hg]; rfl), by simp [(visible_cons.1 hv).1]⟩
          refine ⟨fun hv h => ?_, fun hv k h => ?_, fun _ => hfr⟩
          · rw [hcase hv] at h; simp at h
          · rw [hcase hv] at h; simp at h
    · intro p hp
      apply h3 p
      rintro c _ ⟨t, ht⟩
      exact hp (c :: t) (by simp) (by rw [← ht]; simp)

end Verif.Files

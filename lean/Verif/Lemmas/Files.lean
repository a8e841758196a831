import Verif.Spec.Files

namespace Verif.Files
open Verif

/-! ## Paths -/

theorem prefix_append_iff_of_apart {a b r : Path} (h : Apart a b) : ¬ b <+: a ++ r ∧ ¬ a ++ r <+: b := by
  constructor
  · intro hb
    have ha : a <+: a ++ r := List.prefix_append _ _
    rcases Nat.le_total a.length b.length with hl | hl
    · exact h.1 (List.prefix_of_prefix_length_le ha hb hl)
    · exact h.2 (List.prefix_of_prefix_length_le hb ha hl)
  · intro hb
    exact h.1 ((List.prefix_append a r).trans hb)

theorem Apart.symm {a b : Path} (h : Apart a b) : Apart b a := ⟨h.2, h.1⟩

theorem Apart.append_left {a b : Path} (h : Apart a b) (r : Path) : Apart (a ++ r) b :=
  ⟨(prefix_append_iff_of_apart h).2, (prefix_append_iff_of_apart h).1⟩

theorem Apart.append {a b : Path} (h : Apart a b) (r s : Path) : Apart (a ++ r) (b ++ s) :=
  ((h.append_left r).symm.append_left s).symm

theorem prefix_concat_iff {q p : Path} {c : Str} : q <+: p ++ [c] ↔ q = p ++ [c] ∨ q <+: p := by
  constructor
  · intro h
    obtain ⟨t, ht⟩ := h
    rcases List.eq_nil_or_concat t with rfl | ⟨t', x, rfl⟩
    · left; simpa using ht
    · right
      rw [List.concat_eq_append] at ht
      rw [← List.append_assoc] at ht
      have := List.append_inj' ht rfl
      exact ⟨t', this.1⟩
  · rintro (h | h)
    · rw [h]
      exact List.prefix_refl _
    · exact h.trans (List.prefix_append _ _)

/-! ## Frame -/

/-- State of a result. -/
def Res.state? : Res → Option FS
  | .ok fs => some fs
  | .error fs => some fs
  | .fuel => none

theorem FrameEq.refl (fs : FS) (out : Path) : FrameEq fs fs out := fun _ _ _ => rfl

theorem FrameEq.trans {a b c : FS} {out : Path} (h1 : FrameEq a b out) (h2 : FrameEq b c out) :
    FrameEq a c out := fun p h h' => (h2 p h h').trans (h1 p h h')

/-- A change of a path on the way to, or below, `out`. -/
theorem FrameEq.set {fs : FS} {out p : Path} (h : p <+: out ∨ out <+: p) (e : Entry) :
    FrameEq fs (fs.set p e) out := by
  intro q h1 h2
  apply Dict.get?_set_ne
  rintro rfl
  rcases h with h | h
  · exact h2 h
  · exact h1 h

theorem FrameEq.erase {fs : FS} {out p : Path} (h : p <+: out ∨ out <+: p) :
    FrameEq fs (fs.erase p) out := by
  intro q h1 h2
  apply Dict.get?_erase_ne
  rintro rfl
  rcases h with h | h
  · exact h2 h
  · exact h1 h

theorem FrameEq.of_sub {fs fs' : FS} {out r : Path} (h : FrameEq fs fs' (out ++ r)) : FrameEq fs fs' out := by
  intro p h1 h2
  apply h p
  · intro h3; exact h1 ((List.prefix_append out r).trans h3)
  · intro h3
    rcases Nat.le_total p.length out.length with hl | hl
    · exact h2 (List.prefix_of_prefix_length_le h3 (List.prefix_append out r) hl)
    · exact h1 (List.prefix_of_prefix_length_le (List.prefix_append out r) h3 hl)

theorem bind_state {r : Res} {f : FS → Res} {fs' : FS} (h : (r.bind f).state? = some fs') :
    (∃ fs1, r = .ok fs1 ∧ (f fs1).state? = some fs') ∨ (r = .error fs') := by
  cases r with
  | ok fs1 => exact Or.inl ⟨fs1, rfl, h⟩
  | error fs1 => right; simp [Res.bind, Res.state?] at h; rw [h]
  | fuel => simp [Res.bind, Res.state?] at h

theorem makedirsGo_frame (fs : FS) (pre : Path) (cs : List Str) (out : Path)
    (h : ∀ k, pre ++ cs.take k <+: out ∨ out <+: pre ++ cs.take k) (fs' : FS)
    (hr : (makedirsGo fs pre cs).state? = some fs') : FrameEq fs fs' out := by
  induction cs generalizing fs pre with
  | nil => simp [makedirsGo, Res.state?] at hr; rw [hr]; exact FrameEq.refl _ _
  | cons c cs ih =>
    have h1 := h 1
    simp at h1
    have h2 : ∀ k, (pre ++ [c]) ++ cs.take k <+: out ∨ out <+: (pre ++ [c]) ++ cs.take k := by
      intro k; simpa using h (k + 1)
    simp only [makedirsGo] at hr
    split at hr
    · exact ih _ _ h2 hr
    · simp [Res.state?] at hr; rw [hr]; exact FrameEq.refl _ _
    · exact (FrameEq.set h1 _).trans (ih _ _ h2 hr)

theorem makedirs_frame {fs : FS} {p out : Path} (h : p <+: out ∨ out <+: p) {fs' : FS}
    (hr : (makedirs fs p).state? = some fs') : FrameEq fs fs' out := by
  refine makedirsGo_frame fs [] p out ?_ fs' hr
  intro k
  rw [List.nil_append]
  rcases h with h | h
  · exact Or.inl ((List.take_prefix k p).trans h)
  · rcases Nat.le_total (p.take k).length out.length with hl | hl
    · exact Or.inl (List.prefix_of_prefix_length_le (List.take_prefix k p) h hl)
    · exact Or.inr (List.prefix_of_prefix_length_le h (List.take_prefix k p) hl)

theorem prepareParent_frame {fs : FS} {d out : Path} (h : d.dropLast <+: out ∨ out <+: d.dropLast) {fs' : FS}
    (hr : (prepareParent fs d).state? = some fs') : FrameEq fs fs' out := by
  simp only [prepareParent] at hr
  rcases bind_state hr with ⟨fs1, h1, h2⟩ | h1
  · have f1 : FrameEq fs fs1 out := by
      split at h1
      · cases h1; exact FrameEq.refl _ _
      · exact makedirs_frame h (by rw [h1]; rfl)
    split at h2
    · simp [Res.state?] at h2; rw [← h2]; exact f1
    · exact f1.trans ((FrameEq.erase h).trans (makedirs_frame h h2))
  · split at h1
    · simp at h1
    · exact makedirs_frame h (by rw [h1]; rfl)

theorem transferFile_frame {env : Env} {fs : FS} {old new out : Path} (h : new <+: out ∨ out <+: new) {fs' : FS}
    (hr : (transferFile env fs old new).state? = some fs') : FrameEq fs fs' out := by
  have triv : ∀ {r : Res}, r = Res.error fs → r.state? = some fs' → FrameEq fs fs' out := by
    intro r e h; rw [e] at h; simp [Res.state?] at h; rw [h]; exact FrameEq.refl _ _
  unfold transferFile at hr
  split at hr
  · split at hr
    · exact triv rfl hr
    · split at hr
      · exact triv rfl hr
      · split at hr
        · exact triv rfl hr
        · simp [Res.state?] at hr; rw [← hr]; exact FrameEq.set h _
  · exact triv rfl hr

theorem forEach_frame {out : Path} (step : Str → FS → Res) (items : List Str)
    (hstep : ∀ x ∈ items, ∀ fs fs', (step x fs).state? = some fs' → FrameEq fs fs' out) (fs fs' : FS)
    (hr : (forEach step items fs).state? = some fs') : FrameEq fs fs' out := by
  induction items generalizing fs with
  | nil => simp [forEach, Res.state?] at hr; rw [hr]; exact FrameEq.refl _ _
  | cons x xs ih =>
    simp only [forEach] at hr
    rcases bind_state hr with ⟨fs1, h1, h2⟩ | h1
    · exact (hstep x (by simp) fs fs1 (by rw [h1]; rfl)).trans (ih (fun y hy => hstep y (by simp [hy])) _ h2)
    · exact hstep x (by simp) fs fs' (by rw [h1]; rfl)

theorem transferDir_frame (env : Env) (pats : List Str) (n : Nat) (fs : FS) (inP outP : Path) (fs' : FS)
    (hr : (transferDir env pats n fs inP outP).state? = some fs') : FrameEq fs fs' outP := by
  induction n generalizing fs inP outP fs' with
  | zero => simp [transferDir, Res.state?] at hr
  | succ n ih =>
    simp only [transferDir] at hr
    split at hr
    · split at hr
      · simp [Res.state?] at hr; rw [hr]; exact FrameEq.refl _ _
      · have hd : (target fs inP outP).dropLast <+: outP ∨ outP <+: (target fs inP outP).dropLast := by
          unfold target
          split
          · right; simp
          · left; exact List.dropLast_prefix _
        have hn : (target fs inP outP) <+: outP ∨ outP <+: (target fs inP outP) := by
          unfold target
          split
          · right; exact List.prefix_append _ _
          · left; exact List.prefix_refl _
        rcases bind_state hr with ⟨fs1, h1, h2⟩ | h1
        · exact (prepareParent_frame hd (by rw [h1]; rfl)).trans (transferFile_frame hn h2)
        · exact prepareParent_frame hd (by rw [h1]; rfl)
    · split at hr
      · refine forEach_frame _ _ ?_ fs fs' hr
        intro item _ g g' hg
        split at hg
        · simp [Res.state?] at hg; rw [hg]; exact FrameEq.refl _ _
        · have hp : ∀ g1, (prepareDir g (inP ++ [item]) (outP ++ [item])).state? = some g1 →
              FrameEq g g1 outP := by
            intro g1 h1
            unfold prepareDir at h1
            split at h1
            · exact makedirs_frame (Or.inr (List.prefix_append _ _)) h1
            · simp [Res.state?] at h1; rw [h1]; exact FrameEq.refl _ _
          rcases bind_state hg with ⟨g1, h1, h2⟩ | h1
          · exact (hp g1 (by rw [h1]; rfl)).trans (ih _ _ _ _ h2).of_sub
          · exact hp g' (by rw [h1]; rfl)
      · split at hr
        · simp [Res.state?] at hr; rw [hr]; exact FrameEq.refl _ _
        · simp [Res.state?] at hr; rw [hr]; exact FrameEq.refl _ _

/-! ## Termination -/

theorem makedirsGo_ne_fuel (fs : FS) (pre : Path) (cs : List Str) : makedirsGo fs pre cs ≠ .fuel := by
  induction cs generalizing fs pre with
  | nil => simp [makedirsGo]
  | cons c cs ih =>
    simp only [makedirsGo]
    split
    · exact ih _ _
    · simp
    · exact ih _ _

theorem bind_ne_fuel {r : Res} {f : FS → Res} (h1 : r ≠ .fuel) (h2 : ∀ fs, r = .ok fs → f fs ≠ .fuel) :
    r.bind f ≠ .fuel := by
  cases r with
  | ok fs => exact h2 fs rfl
  | error fs => simp [Res.bind]
  | fuel => exact absurd rfl h1

theorem prepareParent_ne_fuel (fs : FS) (p : Path) : prepareParent fs p ≠ .fuel := by
  unfold prepareParent
  apply bind_ne_fuel
  · split
    · simp
    · exact makedirsGo_ne_fuel _ _ _
  · intro fs _
    split
    · simp
    · exact makedirsGo_ne_fuel _ _ _

theorem prepareDir_ne_fuel (fs : FS) (p q : Path) : prepareDir fs p q ≠ .fuel := by
  unfold prepareDir
  split
  · exact makedirsGo_ne_fuel _ _ _
  · simp

theorem transferFile_ne_fuel (env : Env) (fs : FS) (p q : Path) : transferFile env fs p q ≠ .fuel := by
  unfold transferFile
  split
  · split
    · simp
    · split
      · simp
      · split <;> simp
  · simp

end Verif.Files

import Verif.Lemmas.FilesEnd

/-! # The output inside the input -/

namespace Verif.Files
open Verif

theorem echo_length (s : List Str) (k : Nat) : (echo s k).length = k := by simp [echo]

theorem echo_succ (s : List Str) (k : Nat) : echo s (k + 1) = echo s k ++ [s.getD (k % s.length) []] := by
  simp [echo, List.range_succ]

theorem echo_add (s : List Str) (k : Nat) : echo s (s.length + k) = s ++ echo s k := by
  unfold echo
  rw [List.range_add, List.map_append, List.map_map]
  congr 1
  · apply List.ext_getElem
    · simp
    · intro i h1 h2
      simp only [List.length_map, List.length_range] at h1
      simp [Nat.mod_eq_of_lt h1, List.getD_eq_getElem?_getD, h1]
  · apply List.map_congr_left
    intro i _
    simp

theorem echo_cancel {s r : List Str} {m : Nat} (h : s ++ r = echo s m) : r = echo s (m - s.length) := by
  have hl := congrArg List.length h
  rw [echo_length, List.length_append] at hl
  have : m = s.length + (m - s.length) := by omega
  rw [this, echo_add] at h
  exact List.append_cancel_left h

theorem echo_init {s r : List Str} {y : Str} {k : Nat} (h : r ++ [y] = echo s k) : r = echo s (k - 1) := by
  have hl := congrArg List.length h
  rw [echo_length, List.length_append] at hl
  simp only [List.length_singleton] at hl
  obtain ⟨j, rfl⟩ : ∃ j, k = j + 1 := ⟨k - 1, by omega⟩
  rw [echo_succ] at h
  simpa using (List.append_inj' h rfl).1

/-- On the way `s/s/s/...` there are directories up to some point, and then nothing. -/
structure Chain (in0 : Path) (s : List Str) (g : FS) : Prop where
  free : ∀ k, g.get? (in0 ++ echo s k) = none ∨ g.get? (in0 ++ echo s k) = some .dir
  closed : ∀ k, isDir g (in0 ++ echo s (k + 1)) = true → isDir g (in0 ++ echo s k) = true

/-- The step keeps it so, and removes no directory. -/
def Keeps (in0 : Path) (s : List Str) (g g' : FS) : Prop :=
  Chain in0 s g → Chain in0 s g' ∧ ∀ k, isDir g (in0 ++ echo s k) = true → isDir g' (in0 ++ echo s k) = true

theorem Keeps.refl (in0 : Path) (s : List Str) (g : FS) : Keeps in0 s g g := fun h => ⟨h, fun _ => id⟩

theorem Keeps.trans {in0 : Path} {s : List Str} {a b c : FS} (h1 : Keeps in0 s a b) (h2 : Keeps in0 s b c) :
    Keeps in0 s a c := fun h =>
  ⟨(h2 (h1 h).1).1, fun k hk => (h2 (h1 h).1).2 k ((h1 h).2 k hk)⟩

theorem makedirsGo_made (fs : FS) (pre : Path) (cs : List Str) (fs' : FS) (h : makedirsGo fs pre cs = .ok fs') :
    (∀ p, fs.get? p = some .dir → fs'.get? p = some .dir) ∧
      (∀ p, fs'.get? p = fs.get? p ∨ fs'.get? p = some .dir) ∧
      ∀ q, q ≠ [] → q <+: cs → fs'.get? (pre ++ q) = some .dir := by
  induction cs generalizing fs pre with
  | nil =>
    simp only [makedirsGo, Res.ok.injEq] at h
    subst h
    exact ⟨fun _ => id, fun _ => .inl rfl, fun q h1 h2 => absurd (List.prefix_nil.1 h2) h1⟩
  | cons c cs ih =>
    simp only [makedirsGo] at h
    have last : ∀ {g : FS}, (∀ q, q ≠ [] → q <+: cs → fs'.get? (pre ++ [c] ++ q) = some .dir) →
        fs'.get? (pre ++ [c]) = some .dir → ∀ q, q ≠ [] → q <+: c :: cs → fs'.get? (pre ++ q) = some .dir := by
      intro g h1 h2 q hq hp
      obtain ⟨t, ht⟩ := hp
      cases q with
      | nil => exact absurd rfl hq
      | cons d q =>
        simp only [List.cons_append, List.cons.injEq] at ht
        obtain ⟨rfl, rfl⟩ := ht
        cases q with
        | nil => exact h2
        | cons e q => simpa using h1 (e :: q) (by simp) (List.prefix_append ..)
    split at h
    · next hd =>
      obtain ⟨a, b, d⟩ := ih fs _ h
      exact ⟨a, b, last (g := fs) d (a _ hd)⟩
    · simp at h
    · next hd =>
      obtain ⟨a, b, d⟩ := ih _ _ h
      refine ⟨fun p hp => a p ?_, fun p => ?_, last (g := fs) d (a _ (by simp))⟩
      · rw [Dict.get?_set_ne _ (by rintro rfl; rw [hd] at hp; simp at hp)]; exact hp
      · by_cases he : pre ++ [c] = p
        · right; exact a p (by rw [← he]; simp)
        · rcases b p with h1 | h1
          · left; rw [h1, Dict.get?_set_ne _ he]
          · exact .inr h1

theorem isDir_iff {g : FS} {p : Path} : isDir g p = true ↔ p = [] ∨ g.get? p = some .dir := by
  unfold isDir
  rw [Bool.or_eq_true, beq_iff_eq]
  constructor
  · rintro (h | h)
    · exact .inl h
    · right
      split at h
      · assumption
      · simp at h
  · rintro (h | h)
    · exact .inl h
    · right; rw [h]

theorem makedirs_made {fs : FS} {d : Path} {fs' : FS} (h : makedirs fs d = .ok fs') {p : Path} (hp : p <+: d) :
    isDir fs' p = true := by
  rw [isDir_iff]
  by_cases h0 : p = []
  · exact .inl h0
  · right
    simpa using (makedirsGo_made fs [] d fs' h).2.2 p h0 hp

theorem makedirs_keeps {in0 : Path} {s : List Str} {fs : FS} {d : Path} {fs' : FS} (h : makedirs fs d = .ok fs') :
    Keeps in0 s fs fs' := by
  intro hc
  obtain ⟨a, b, -⟩ := makedirsGo_made fs [] d fs' h
  have mono : ∀ p, isDir fs p = true → isDir fs' p = true := by
    intro p hp
    rw [isDir_iff] at hp ⊢
    exact hp.imp id (a p)
  refine ⟨⟨fun k => ?_, fun k hk => ?_⟩, fun k => mono _⟩
  · rcases b (in0 ++ echo s k) with h1 | h1
    · rw [h1]; exact hc.free k
    · exact .inr h1
  · rcases makedirsGo_isDir fs [] d fs' h _ hk with h1 | h1
    · exact mono _ (hc.closed k h1)
    · rw [echo_succ, ← List.append_assoc] at h1
      exact makedirs_made h ((List.prefix_append _ _).trans h1)

theorem get?_none_erase {fs : FS} {d : Path} (h : fs.get? d = none) : (fs.erase d).get? d = none := by
  induction fs with
  | nil => rfl
  | cons e fs ih =>
    obtain ⟨k, v⟩ := e
    simp only [Dict.get?] at h
    split at h
    · simp at h
    · next hk => simp [Dict.erase, hk, Dict.get?, ih h]

theorem erase_keeps {in0 : Path} {s : List Str} {fs : FS} {d : Path} (hd : isDir fs d = false) : Keeps in0 s fs (fs.erase d) := by
  intro hc
  have mono : ∀ p, isDir fs p = true → isDir (fs.erase d) p = true := by
    intro p hp
    have hne : d ≠ p := by rintro rfl; rw [hd] at hp; simp at hp
    simpa [isDir, Dict.get?_erase_ne _ hne] using hp
  refine ⟨⟨fun k => ?_, fun k hk => ?_⟩, fun k => mono _⟩
  · by_cases he : d = in0 ++ echo s k
    · left
      rw [← he]
      apply get?_none_erase
      rcases hc.free k with h | h
      · rw [he]; exact h
      · rw [← he] at h
        rw [isDir_iff.2 (.inr h)] at hd
        simp at hd
    · rw [Dict.get?_erase_ne _ he]; exact hc.free k
  · by_cases he : d = in0 ++ echo s (k + 1)
    · exfalso
      rw [← he, isDir_iff] at hk
      rcases hk with h | h
      · rw [isDir_iff.2 (.inl h)] at hd; simp at hd
      · rcases hc.free (k + 1) with h1 | h1
        · rw [← he] at h1
          rw [get?_none_erase h1] at h
          simp at h
        · rw [← he] at h1
          rw [isDir_iff.2 (.inr h1)] at hd
          simp at hd
    · have : isDir fs (in0 ++ echo s (k + 1)) = true := by
        simpa [isDir, Dict.get?_erase_ne _ he] using hk
      exact mono _ (hc.closed k this)

theorem prepareParent_keeps {in0 : Path} {s : List Str} {fs : FS} {new : Path} {fs' : FS}
    (h : prepareParent fs new = .ok fs') : Keeps in0 s fs fs' := by
  simp only [prepareParent] at h
  obtain ⟨fs1, h1, h2⟩ := bind_ok h
  have k1 : Keeps in0 s fs fs1 := by
    split at h1
    · cases h1; exact Keeps.refl _ _ _
    · exact makedirs_keeps h1
  split at h2
  · cases h2; exact k1
  · next hd => exact k1.trans ((erase_keeps (by simpa using hd)).trans (makedirs_keeps h2))

theorem transferFile_keeps {env : Env} {in0 : Path} {s r : List Str} {fs : FS} {fs' : FS} {new : Path}
    (hnew : new = in0 ++ s ++ r ∨ ∃ y, new = in0 ++ s ++ r ++ [y])
    (h : transferFile env fs (in0 ++ r) new = .ok fs') : Keeps in0 s fs fs' := by
  intro hc
  unfold transferFile at h
  split at h
  · next c hf =>
    have hr : ∀ k, r ≠ echo s k := by
      rintro k rfl
      rcases hc.free k with h1 | h1 <;> rw [hf] at h1 <;> simp at h1
    have hne : ∀ k, new ≠ in0 ++ echo s k := by
      intro k hk
      rcases hnew with rfl | ⟨y, rfl⟩
      · rw [List.append_assoc] at hk
        exact hr _ (echo_cancel (List.append_cancel_left hk))
      · rw [List.append_assoc, List.append_assoc] at hk
        exact hr _ (echo_init (echo_cancel (List.append_cancel_left hk)))
    split at h
    · simp at h
    · next c' hcc =>
      split at h
      · simp at h
      · split at h
        · simp at h
        · simp only [Res.ok.injEq] at h
          subst h
          have same : ∀ k, (fs.set new (.file c')).get? (in0 ++ echo s k) = fs.get? (in0 ++ echo s k) :=
            fun k => Dict.get?_set_ne _ (hne k) _
          have sameD : ∀ k, isDir (fs.set new (.file c')) (in0 ++ echo s k) = isDir fs (in0 ++ echo s k) := by
            intro k; simp only [isDir, same]
          exact ⟨⟨fun k => by rw [same]; exact hc.free k, fun k => by rw [sameD, sameD]; exact hc.closed k⟩,
            fun k => by rw [sameD]; exact id⟩
  · simp at h

theorem prepareDir_keeps {in0 : Path} {s : List Str} {fs : FS} {old new : Path} {fs' : FS}
    (h : prepareDir fs old new = .ok fs') : Keeps in0 s fs fs' := by
  simp only [prepareDir] at h
  split at h
  · exact makedirs_keeps h
  · cases h; exact Keeps.refl _ _ _

theorem forEach_keeps {in0 : Path} {s : List Str} {step : Str → FS → Res}
    (hs : ∀ x g g', step x g = .ok g' → Keeps in0 s g g') : ∀ {items : List Str} {g g' : FS},
    forEach step items g = .ok g' → Keeps in0 s g g'
  | [], g, g', h => by simp only [forEach, Res.ok.injEq] at h; subst h; exact Keeps.refl _ _ _
  | x :: xs, g, g', h => by
    simp only [forEach] at h
    obtain ⟨g1, h1, h2⟩ := bind_ok h
    exact (hs x g g1 h1).trans (forEach_keeps hs h2)

theorem transferDir_keeps (env : Env) (pats : List Str) (in0 : Path) (s : List Str) (n : Nat) (g : FS) (r : List Str) (g' : FS)
    (h : transferDir env pats n g (in0 ++ r) (in0 ++ s ++ r) = .ok g') : Keeps in0 s g g' := by
  induction n generalizing g r g' with
  | zero => simp [transferDir] at h
  | succ n ih =>
    unfold transferDir at h
    split at h
    · split at h
      · cases h; exact Keeps.refl _ _ _
      · obtain ⟨g1, h1, h2⟩ := bind_ok h
        refine (prepareParent_keeps h1).trans (transferFile_keeps ?_ h2)
        unfold target
        split
        · exact .inr ⟨_, rfl⟩
        · exact .inl rfl
    · split at h
      · refine forEach_keeps ?_ h
        intro x a b hx
        split at hx
        · cases hx; exact Keeps.refl _ _ _
        · obtain ⟨a1, h1, h2⟩ := bind_ok hx
          refine (prepareDir_keeps h1).trans (ih a1 (r ++ [x]) b ?_)
          rw [← List.append_assoc, ← List.append_assoc]
          exact h2
      · split at h
        · cases h; exact Keeps.refl _ _ _
        · simp at h

/-- If the loop ends well, so did the step for each of the items. -/
theorem forEach_split {step : Str → FS → Res} {x : Str} : ∀ {items : List Str} {g g' : FS}, x ∈ items →
    forEach step items g = .ok g' →
    ∃ pre g1 g2, forEach step pre g = .ok g1 ∧ step x g1 = .ok g2
  | [], _, _, h, _ => by simp at h
  | y :: ys, g, g', h, hr => by
    simp only [forEach] at hr
    obtain ⟨g1, h1, h2⟩ := bind_ok hr
    by_cases he : x = y
    · subst he
      exact ⟨[], g, g1, rfl, h1⟩
    · obtain ⟨pre, a, b, h3, h4⟩ := forEach_split (List.mem_of_ne_of_mem he h) h2
      exact ⟨y :: pre, a, b, by simp [forEach, h1, Res.bind, h3], h4⟩

/-- The run does not come to an end below a directory on the way. -/
theorem inside_never (env : Env) (hls : Listing env) (pats : List Str) (in0 : Path) (s : List Str) (hs : s ≠ [])
    (hv : ∀ k, Visible env pats in0 (echo s k)) (n k : Nat) (g : FS) (hc : Chain in0 s g)
    (hd : isDir g (in0 ++ echo s (k + 1)) = true) (g' : FS) :
    transferDir env pats n g (in0 ++ echo s k) (in0 ++ s ++ echo s k) ≠ .ok g' := by
  intro h
  induction n generalizing k g g' with
  | zero => simp [transferDir] at h
  | succ n ih =>
    have hdk := hc.closed k hd
    have hnf : isFile g (in0 ++ echo s k) = false := by
      unfold isFile
      rcases hc.free k with h1 | h1 <;> rw [h1]
    unfold transferDir at h
    rw [if_neg (by simp [hnf]), if_pos hdk] at h
    have hvk := hv (k + 1)
    rw [echo_succ] at hvk hd
    obtain ⟨x, hx⟩ : ∃ x, s.getD (k % s.length) [] = x := ⟨_, rfl⟩
    rw [hx] at hvk hd
    obtain ⟨h1, h2, -⟩ := visible_cons.1 (visible_append.1 hvk).2
    rw [← List.append_assoc] at hd
    have hm : x ∈ listNoHidden env g (in0 ++ echo s k) := by
      refine List.mem_filter.2 ⟨((hls g _).2 x).2 ?_, by simp [h1]⟩
      rcases isDir_iff.1 hd with h3 | h3
      · simp at h3
      · rw [h3]; rfl
    obtain ⟨pre, g1, g2, hpre, hstep⟩ := forEach_split hm h
    have hk1 : Keeps in0 s g g1 := by
      refine forEach_keeps ?_ hpre
      intro y a b hy
      split at hy
      · cases hy; exact Keeps.refl _ _ _
      · obtain ⟨a1, h3, h4⟩ := bind_ok hy
        refine (prepareDir_keeps h3).trans (transferDir_keeps env pats in0 s n a1 (echo s k ++ [y]) b ?_)
        rw [← List.append_assoc, ← List.append_assoc]
        exact h4
    obtain ⟨hc1, hm1⟩ := hk1 hc
    have hd1 := hm1 (k + 1) (by rw [echo_succ, hx, ← List.append_assoc]; exact hd)
    simp only [h2, Bool.false_eq_true, if_false] at hstep
    obtain ⟨g3, h3, h4⟩ := bind_ok hstep
    obtain ⟨hc3, hm3⟩ := prepareDir_keeps h3 hc1
    have hin : in0 ++ echo s k ++ [x] = in0 ++ echo s (k + 1) := by rw [echo_succ, hx, List.append_assoc]
    have hout : in0 ++ s ++ echo s k ++ [x] = in0 ++ s ++ echo s (k + 1) := by rw [echo_succ, hx, List.append_assoc]
    have hecho : in0 ++ s ++ echo s (k + 1) = in0 ++ echo s (s.length + (k + 1)) := by rw [echo_add, List.append_assoc]
    rw [hin, hout] at h3 h4
    have hnew : isDir g3 (in0 ++ s ++ echo s (k + 1)) = true := by
      unfold prepareDir at h3
      split at h3
      · exact makedirs_made h3 (List.prefix_refl _)
      · next hn =>
        simp only [Res.ok.injEq] at h3
        subst h3
        simp only [hd1, Bool.true_and, Bool.not_eq_true', Bool.not_eq_false] at hn
        unfold exists_ at hn
        rw [Bool.or_eq_true] at hn
        rcases hn with hn | hn
        · exfalso
          rw [hecho] at hn
          unfold isFile at hn
          rcases hc1.free (s.length + (k + 1)) with h5 | h5 <;> rw [h5] at hn <;> simp at hn
        · exact hn
    have down : ∀ j m, isDir g3 (in0 ++ echo s (m + j)) = true → isDir g3 (in0 ++ echo s m) = true := by
      intro j
      induction j with
      | zero => intro m hm; exact hm
      | succ j ihj => intro m hm; exact ihj m (hc3.closed _ hm)
    have hlen : 0 < s.length := List.length_pos_iff.2 hs
    refine ih (k + 1) g3 hc3 ?_ g2 h4
    rw [hecho] at hnew
    refine down (s.length - 1) (k + 2) ?_
    rw [show k + 2 + (s.length - 1) = s.length + (k + 1) by omega]
    exact hnew

end Verif.Files

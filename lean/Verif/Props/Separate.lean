import Verif.Model.Separate
import Verif.Spec.Separate
import Verif.Props.Complete

/-!
# C100: several projects in one run
-/

namespace Verif.Separate
open Verif Verif.Files Verif.Complete

variable {env : Env} {pats : List Str}

theorem Image.of_eq {fs g : FS} {inP : Path} {name : Str} {r : List Str} {e : Entry}
    (h : g.get? (inP ++ [name] ++ r) = fs.get? (inP ++ [name] ++ r)) :
    Image env pats g inP name r e ↔ Image env pats fs inP name r e := by
  unfold Image; rw [h]

/-- What a run of one project does to the place of `r`. -/
theorem image_of_mirrors {fs g : FS} {inP outP : Path} {name : Str} {r : List Str}
    (h : Mirrors env pats fs g (inP ++ [name]) outP r) {e : Entry} (hi : Image env pats fs inP name r e) :
    g.get? (outP ++ r) = some e := by
  obtain ⟨hv, ⟨h1, rfl⟩ | ⟨c, c', h1, h2, rfl⟩⟩ := hi
  · exact h.1 hv h1
  · obtain ⟨k, h3, h4⟩ := h.2.1 hv c h1
    rw [h2] at h3
    rw [h4, Option.some.inj h3]

theorem same_of_mirrors {fs g : FS} {inP outP : Path} {name : Str} {r : List Str} (hr : r ≠ []) (hc : Convertible env pats fs (inP ++ [name]))
    (h : Mirrors env pats fs g (inP ++ [name]) outP r) (hi : ¬ Has env pats fs inP name r) :
    g.get? (outP ++ r) = fs.get? (outP ++ r) := by
  apply h.2.2
  by_cases hv : Visible env pats (inP ++ [name]) r
  · right
    cases hf : fs.get? (inP ++ [name] ++ r) with
    | none => exact .inl rfl
    | some e =>
      cases e with
      | dir => exact absurd ⟨.dir, hv, .inl ⟨hf, rfl⟩⟩ hi
      | file c =>
        obtain ⟨c', hc'⟩ := Option.isSome_iff_exists.1 (hc r c hr hv hf)
        exact absurd ⟨.file c', hv, .inr ⟨c, c', hf, hc', rfl⟩⟩ hi
      | deadLink => exact .inr rfl
  · exact .inl hv

/-- The projects that follow can still be converted. -/
theorem Projects.step {fs g : FS} {inP outP : Path} {n : Nat} {p : Str} {ps : List Str} {codes : List Str}
    (h : Projects env pats fs inP outP n (p :: ps))
    (h2 : ∀ r, r ≠ [] → (codes = [] ∨ r ≠ [helperName]) → Mirrors env pats fs g (inP ++ [p]) outP r)
    (h3 : codes ≠ [] → ∃ c, g.get? (outP ++ [helperName]) = some (.file c))
    (hin : ∀ x, inP <+: x → g.get? x = fs.get? x) (h5 : Reachable g outP) : Projects env pats g inP outP n ps := by
  have hq : ∀ q r, g.get? (inP ++ [q] ++ r) = fs.get? (inP ++ [q] ++ r) := fun q r =>
    hin _ (by rw [List.append_assoc]; exact List.prefix_append _ _)
  have hown := h.own p (by simp)
  have hfree : g.get? (outP ++ [helperName]) ≠ some .dir := by
    by_cases hc : codes = []
    · rw [(h2 [helperName] (by simp) (.inl hc)).2.2 (.inr (.inl hown))]
      exact h.free
    · obtain ⟨c, hc⟩ := h3 hc
      rw [hc]; simp
  refine ⟨h.apart, fun q hm => ?_, fun q hm => ⟨?_, ?_, ?_, h5, ?_, ?_⟩, ?_, fun q hm => ?_, hfree⟩
  · have := hq q []
    rw [List.append_nil] at this
    rw [this]; exact h.dirs q (by simp [hm])
  · exact (h.ready q (by simp [hm])).apart
  · intro r c hr
    rw [List.append_assoc] at hr
    rw [hq] at hr ⊢
    exact (h.ready q (by simp [hm])).tree r c (by rw [List.append_assoc]; exact hr)
  · intro r hr hv
    rw [hq]
    have hcq := (h.ready q (by simp [hm])).compat r hr hv
    by_cases hr' : r = [helperName]
    · subst hr'
      have : fs.get? (inP ++ [q] ++ [helperName]) = none := h.own q (by simp [hm])
      rw [this]
      exact ⟨fun e => by simp at e, fun c e => by simp at e⟩
    · have hmir := h2 r hr (.inr hr')
      by_cases hi : Has env pats fs inP p r
      · obtain ⟨e, he⟩ := hi
        rw [image_of_mirrors hmir he]
        obtain ⟨hvp, ⟨h1, rfl⟩ | ⟨c, c', h1, h2, rfl⟩⟩ := he
        · exact ⟨fun _ => .inr rfl, fun c hc => absurd hc (h.agree p (by simp) q (by simp [hm]) r hr hvp hv h1 c)⟩
        · exact ⟨fun hd => absurd h1 (h.agree q (by simp [hm]) p (by simp) r hr hv hvp hd c), fun _ _ => .inr ⟨c', rfl⟩⟩
      · rw [same_of_mirrors hr (h.ready p (by simp)).conv hmir hi]
        exact hcq
  · intro r c hr hv e
    rw [hq] at e
    exact (h.ready q (by simp [hm])).conv r c hr hv e
  · intro r e
    rw [hq] at e
    exact (h.ready q (by simp [hm])).depth r e
  · intro a ha b hb r hr hva hvb e c
    rw [hq] at e ⊢
    exact h.agree a (by simp [ha]) b (by simp [hb]) r hr hva hvb e c
  · rw [hq]; exact h.own q (by simp [hm])

/-- The loop over the projects. -/
theorem loop (hls : Listing env) (fmt : Fmt) (hash : Str → Int) {n fuel : Nat} {inP outP : Path} {exclude : Str}
    (codes : Str → List Str) (hfuel : n < fuel) : ∀ (ps : List Str) {fs : FS},
    Projects env (patterns exclude) fs inP outP n ps → (∀ p ∈ ps, (Utils.addAll hash [] (codes p)).isSome) →
    ∃ fs', forEach (fun name fs => runAll env fmt hash fuel fs (inP ++ [name]) outP exclude (codes name)) ps fs = .ok fs' ∧
      (∀ x, inP <+: x → fs'.get? x = fs.get? x) ∧
      (∀ r, r ≠ [] → r ≠ [helperName] → (∀ q ∈ ps, ¬ Has env (patterns exclude) fs inP q r) →
        fs'.get? (outP ++ r) = fs.get? (outP ++ r)) ∧
      (∀ before p after, ps = before ++ p :: after → ∀ r, r ≠ [] → r ≠ [helperName] → ∀ e,
        Image env (patterns exclude) fs inP p r e → (∀ q ∈ after, ¬ Has env (patterns exclude) fs inP q r) →
        fs'.get? (outP ++ r) = some e) ∧
      ((∀ p ∈ ps, codes p = []) → fs'.get? (outP ++ [helperName]) = fs.get? (outP ++ [helperName])) ∧
      (∀ before p after, ps = before ++ p :: after → ∀ m, Utils.addAll hash [] (codes p) = some m → codes p ≠ [] →
        (∀ q ∈ after, codes q = []) →
        fs'.get? (outP ++ [helperName]) = some (.file (env.encode (fmt.isort (Utils.insertCode true m)))))
  | [], fs, _, _ => ⟨fs, rfl, fun _ _ => rfl, fun _ _ _ _ => rfl, by simp, fun _ => rfl, by simp⟩
  | p :: ps, fs, h, hcodes => by
    obtain ⟨m, hm⟩ := Option.isSome_iff_exists.1 (hcodes p (by simp))
    have hown := h.own p (by simp)
    obtain ⟨g, h1, h2, h3, h4, h5⟩ := runAll_dir env hls fmt hash n fuel fs (inP ++ [p]) outP exclude (codes p) m
      (h.dirs p (by simp)) (h.ready p (by simp)) hfuel hm h.free
      (fun _ => by have : fs.get? (inP ++ [p] ++ [helperName]) = none := hown; rw [this]; simp)
    have hin : ∀ x, inP <+: x → g.get? x = fs.get? x := by
      rintro _ ⟨t, rfl⟩
      have ha := h.apart.append_left t
      rcases h4 _ ha.2 with e | e
      · exact e
      · exact absurd e.1 ha.1
    have hP := h.step h2 (fun hc => ⟨_, h3 hc⟩) hin h5
    obtain ⟨fs', k1, k2, k3, k4, k5, k6⟩ := loop hls fmt hash codes hfuel ps hP fun q hq => hcodes q (by simp [hq])
    have hI : ∀ q r e, Image env (patterns exclude) g inP q r e ↔ Image env (patterns exclude) fs inP q r e := fun q r e =>
      Image.of_eq (hin _ (by rw [List.append_assoc]; exact List.prefix_append _ _))
    have hH : ∀ q r, Has env (patterns exclude) g inP q r ↔ Has env (patterns exclude) fs inP q r := fun q r =>
      exists_congr fun e => hI q r e
    refine ⟨fs', by simp [forEach, h1, Res.bind, k1], fun x hx => (k2 x hx).trans (hin x hx), ?_, ?_, ?_, ?_⟩
    · intro r hr hr' hno
      rw [k3 r hr hr' fun q hq => by rw [hH]; exact hno q (by simp [hq])]
      exact same_of_mirrors hr (h.ready p (by simp)).conv (h2 r hr (.inr hr')) (hno p (by simp))
    · intro before q after he r hr hr' e hi hno
      cases before with
      | nil =>
        obtain ⟨rfl, rfl⟩ := List.cons.inj he
        rw [k3 r hr hr' fun q hq => by rw [hH]; exact hno q hq]
        exact image_of_mirrors (h2 r hr (.inr hr')) hi
      | cons b bs =>
        obtain ⟨rfl, rfl⟩ := List.cons.inj he
        exact k4 bs q after rfl r hr hr' e ((hI _ _ _).2 hi) fun q hq => by rw [hH]; exact hno q hq
    · intro hno
      rw [k5 fun q hq => hno q (by simp [hq])]
      exact (h2 [helperName] (by simp) (.inl (hno p (by simp)))).2.2 (.inr (.inl hown))
    · intro before q after he m' hm' hne hno
      cases before with
      | nil =>
        obtain ⟨rfl, rfl⟩ := List.cons.inj he
        rw [k5 hno, h3 hne]
        rw [hm] at hm'
        rw [Option.some.inj hm']
      | cons b bs =>
        obtain ⟨rfl, rfl⟩ := List.cons.inj he
        exact k6 bs q after rfl m' hm' hne hno

/-- **C100, what is left.** After the conversion of several projects the input is as before; a path of the output has the entry
of the last project that has something there, in the order in which the operating system gives the projects; a path at
which no project has something is as before; and `paddle_utils.py` has the helpers of the last project that requested some. -/
theorem C100_last (hls : Listing env) (fmt : Fmt) (hash : Str → Int) {n fuel : Nat} {fs : FS} {inP outP : Path} {exclude : Str}
    (codes : Str → List Str) (h : Projects env (patterns exclude) fs inP outP n (env.ls fs inP)) (hfuel : n < fuel)
    (hcodes : ∀ p ∈ env.ls fs inP, (Utils.addAll hash [] (codes p)).isSome) :
    ∃ fs', separate env fmt hash fuel fs inP outP exclude codes = .ok fs' ∧
      (∀ x, inP <+: x → fs'.get? x = fs.get? x) ∧
      (∀ r, r ≠ [] → r ≠ [py"paddle_utils.py"] → (∀ q ∈ env.ls fs inP, ¬ Has env (patterns exclude) fs inP q r) →
        fs'.get? (outP ++ r) = fs.get? (outP ++ r)) ∧
      (∀ before p after, env.ls fs inP = before ++ p :: after → ∀ r, r ≠ [] → r ≠ [py"paddle_utils.py"] → ∀ e,
        Image env (patterns exclude) fs inP p r e → (∀ q ∈ after, ¬ Has env (patterns exclude) fs inP q r) →
        fs'.get? (outP ++ r) = some e) ∧
      (∀ before p after, env.ls fs inP = before ++ p :: after → ∀ m, Utils.addAll hash [] (codes p) = some m → codes p ≠ [] →
        (∀ q ∈ after, codes q = []) →
        fs'.get? (outP ++ [py"paddle_utils.py"]) = some (.file (env.encode (fmt.isort (Utils.insertCode true m))))) := by
  obtain ⟨fs', k1, k2, k3, k4, -, k6⟩ := loop hls fmt hash codes hfuel _ h hcodes
  exact ⟨fs', k1, k2, k3, k4, k6⟩

/-- **C100 (partial).** If no two projects have a file at the same relative path, and at most one of them requests helpers,
then the output has the image of every entry of every project, and all helpers. Missing: other projects, for which this is
false (`C100_negative`, `C100_helpers_negative`). -/
theorem C100_apart_partial (hls : Listing env) (fmt : Fmt) (hash : Str → Int) {n fuel : Nat} {fs : FS} {inP outP : Path} {exclude : Str}
    (codes : Str → List Str) (h : Projects env (patterns exclude) fs inP outP n (env.ls fs inP)) (hfuel : n < fuel)
    (hcodes : ∀ p ∈ env.ls fs inP, (Utils.addAll hash [] (codes p)).isSome)
    (hapart : ∀ p ∈ env.ls fs inP, ∀ q ∈ env.ls fs inP, p ≠ q → ∀ r, r ≠ [] → ∀ c,
      Image env (patterns exclude) fs inP p r (.file c) → ¬ Has env (patterns exclude) fs inP q r)
    (hone : ∀ p ∈ env.ls fs inP, ∀ q ∈ env.ls fs inP, p ≠ q → codes p ≠ [] → codes q = []) :
    ∃ fs', separate env fmt hash fuel fs inP outP exclude codes = .ok fs' ∧
      (∀ p ∈ env.ls fs inP, ∀ r, r ≠ [] → ∀ e, Image env (patterns exclude) fs inP p r e → fs'.get? (outP ++ r) = some e) ∧
      ∀ p ∈ env.ls fs inP, codes p ≠ [] → ∃ m, Utils.addAll hash [] (codes p) = some m ∧
        (∀ c ∈ codes p, Utils.rstripNl c ∈ m.values) ∧
        fs'.get? (outP ++ [py"paddle_utils.py"]) = some (.file (env.encode (fmt.isort (Utils.insertCode true m)))) := by
  obtain ⟨fs', k1, k2, k3, k4, k6⟩ := C100_last hls fmt hash codes h hfuel hcodes
  have hnd := (hls fs inP).1
  have split : ∀ p ∈ env.ls fs inP, ∃ a b, env.ls fs inP = a ++ p :: b ∧ ∀ q ∈ b, q ≠ p ∧ q ∈ env.ls fs inP := by
    intro p hp
    obtain ⟨a, b, e⟩ := List.append_of_mem hp
    refine ⟨a, b, e, fun q hq => ⟨?_, by rw [e]; simp [hq]⟩⟩
    rintro rfl
    rw [e, List.nodup_append] at hnd
    exact (List.nodup_cons.1 hnd.2.1).1 hq
  have hhelp : ∀ p ∈ env.ls fs inP, ¬ Has env (patterns exclude) fs inP p [py"paddle_utils.py"] := by
    rintro p hp ⟨e, -, ⟨h1, -⟩ | ⟨c, c', h1, -⟩⟩ <;> rw [h.own p hp] at h1 <;> simp at h1
  refine ⟨fs', k1, ?_, ?_⟩
  · -- the last project with something at `r` has the same there
    have last : ∀ (b : List Str) (a : List Str) (p : Str), env.ls fs inP = a ++ p :: b → ∀ r, r ≠ [] → ∀ e,
        Image env (patterns exclude) fs inP p r e → fs'.get? (outP ++ r) = some e := by
      intro b a p hsp r hr e hi
      have hp : p ∈ env.ls fs inP := by rw [hsp]; simp
      have hr' : r ≠ [py"paddle_utils.py"] := by rintro rfl; exact hhelp p hp ⟨e, hi⟩
      by_cases hb : ∀ q ∈ b, ¬ Has env (patterns exclude) fs inP q r
      · exact k4 a p b hsp r hr hr' e hi hb
      · -- then all are directories
        have hdir : e = .dir := by
          obtain ⟨hv, ⟨-, rfl⟩ | ⟨c, c', h1, h2, rfl⟩⟩ := id hi
          · rfl
          · refine absurd (fun q hq => hapart p hp q (by rw [hsp]; simp [hq]) ?_ r hr c' hi) hb
            rintro rfl
            rw [hsp, List.nodup_append] at hnd
            exact (List.nodup_cons.1 hnd.2.1).1 hq
        subst hdir
        have step : ∀ l, (∀ q ∈ l, q ∈ env.ls fs inP) → (∃ q ∈ l, Has env (patterns exclude) fs inP q r) →
            ∃ x q y, l = x ++ q :: y ∧ Has env (patterns exclude) fs inP q r ∧ ∀ z ∈ y, ¬ Has env (patterns exclude) fs inP z r := by
          intro l
          induction l with
          | nil => simp
          | cons w l ih =>
            intro hl hex
            by_cases hrest : ∃ q ∈ l, Has env (patterns exclude) fs inP q r
            · obtain ⟨x, q, y, e1, e2, e3⟩ := ih (fun q hq => hl q (by simp [hq])) hrest
              exact ⟨w :: x, q, y, by rw [e1]; rfl, e2, e3⟩
            · obtain ⟨q, hq, hh⟩ := hex
              rcases List.mem_cons.1 hq with rfl | hq
              · exact ⟨[], q, l, rfl, hh, fun z hz hz' => hrest ⟨z, hz, hz'⟩⟩
              · exact absurd ⟨q, hq, hh⟩ hrest
        have hb : ∃ q ∈ b, Has env (patterns exclude) fs inP q r :=
          Classical.byContradiction fun hx => hb fun q hq hh => hx ⟨q, hq, hh⟩
        obtain ⟨x, q, y, e1, ⟨e', he'⟩, e3⟩ := step b (fun q hq => by rw [hsp]; simp [hq]) hb
        have hq : q ∈ env.ls fs inP := by rw [hsp, e1]; simp
        have hsp2 : env.ls fs inP = (a ++ p :: x) ++ q :: y := by rw [hsp, e1]; simp
        have hd' : e' = .dir := by
          obtain ⟨hv', ⟨-, rfl⟩ | ⟨c, c', h1, h2, rfl⟩⟩ := id he'
          · rfl
          · by_cases hpq : q = p
            · subst hpq
              rw [hsp, e1, List.nodup_append] at hnd
              exact absurd (by simp) (List.nodup_cons.1 hnd.2.1).1
            · exact absurd ⟨.dir, hi⟩ (hapart q hq p hp hpq r hr c' he')
        subst hd'
        exact k4 _ q y hsp2 r hr hr' _ he' e3
    intro p hp r hr e hi
    obtain ⟨a, b, e1, -⟩ := split p hp
    exact last b a p e1 r hr e hi
  · intro p hp hc
    obtain ⟨m, hm⟩ := Option.isSome_iff_exists.1 (hcodes p hp)
    obtain ⟨a, b, e1, e2⟩ := split p hp
    exact ⟨m, hm, fun c hc => (Utils.C03_helpers_complete hash (codes p) m hm _).2 ⟨c, hc, rfl⟩,
      k6 a p b e1 m hm hc fun q hq => hone p hp q (e2 q hq).2 (Ne.symm (e2 q hq).1) hc⟩

/-- **C100 is false** for two projects that have a file at the same relative path: the output has that of the later one there,
and not that of the earlier one if they differ. -/
theorem C100_negative (hls : Listing env) (fmt : Fmt) (hash : Str → Int) {n fuel : Nat} {fs : FS} {inP outP : Path} {exclude : Str}
    (codes : Str → List Str) (h : Projects env (patterns exclude) fs inP outP n (env.ls fs inP)) (hfuel : n < fuel)
    (hcodes : ∀ p ∈ env.ls fs inP, (Utils.addAll hash [] (codes p)).isSome) {before : List Str} {p q : Str}
    (hsplit : env.ls fs inP = before ++ [p, q]) {r : List Str} (hr : r ≠ []) (hr' : r ≠ [py"paddle_utils.py"]) {c d : Bytes}
    (hp : Image env (patterns exclude) fs inP p r (.file c)) (hq : Image env (patterns exclude) fs inP q r (.file d)) (hne : c ≠ d) :
    ∃ fs', separate env fmt hash fuel fs inP outP exclude codes = .ok fs' ∧ fs'.get? (outP ++ r) = some (.file d) ∧
      ¬ ∀ p ∈ env.ls fs inP, ∀ e, Image env (patterns exclude) fs inP p r e → fs'.get? (outP ++ r) = some e := by
  obtain ⟨fs', k1, -, -, k4, -⟩ := C100_last hls fmt hash codes h hfuel hcodes
  have hd := k4 (before ++ [p]) q [] (by rw [hsplit]; simp) r hr hr' _ hq (by simp)
  refine ⟨fs', k1, hd, fun hall => ?_⟩
  have := hall p (by rw [hsplit]; simp) _ hp
  rw [hd, Option.some.injEq, Entry.file.injEq] at this
  exact hne this.symm

/-- **C100 is false** for two projects that request helpers: the helper file has those of the later one, so a helper of the
earlier one only is gone, although its files import it. -/
theorem C100_helpers_negative (hls : Listing env) (fmt : Fmt) (hash : Str → Int) {n fuel : Nat} {fs : FS} {inP outP : Path}
    {exclude : Str} (codes : Str → List Str) (h : Projects env (patterns exclude) fs inP outP n (env.ls fs inP)) (hfuel : n < fuel)
    (hcodes : ∀ p ∈ env.ls fs inP, (Utils.addAll hash [] (codes p)).isSome) {before : List Str} {p q : Str}
    (hsplit : env.ls fs inP = before ++ [p, q]) {c : Str} (_hp : c ∈ codes p)
    (hq : ∀ d ∈ codes q, Utils.rstripNl d ≠ Utils.rstripNl c) (hq0 : codes q ≠ []) :
    ∃ fs' m, separate env fmt hash fuel fs inP outP exclude codes = .ok fs' ∧
      fs'.get? (outP ++ [py"paddle_utils.py"]) = some (.file (env.encode (fmt.isort (Utils.insertCode true m)))) ∧
      Utils.rstripNl c ∉ m.values := by
  obtain ⟨fs', k1, -, -, -, k6⟩ := C100_last hls fmt hash codes h hfuel hcodes
  have hm : q ∈ env.ls fs inP := by rw [hsplit]; simp
  obtain ⟨m, hm⟩ := Option.isSome_iff_exists.1 (hcodes q hm)
  refine ⟨fs', m, k1, k6 (before ++ [p]) q [] (by rw [hsplit]; simp) m hm hq0 (by simp), fun hc => ?_⟩
  obtain ⟨d, hd, e⟩ := (Utils.C03_helpers_complete hash (codes q) m hm _).1 hc
  exact hq d hd (by first | exact e | exact e.symm)

/-! ## Examples -/

theorem ex_ready {fs : FS} {inP : Path} {n : Nat} (h1 : Apart inP [py"out"])
    (h2 : ∀ k ∈ fs.keys, inP <+: k → (k.drop inP.length).dropLast = [] ∨ fs.get? (inP ++ (k.drop inP.length).dropLast) = some .dir)
    (h3 : ∀ k ∈ fs.keys, ¬ [py"out"] <+: k) (h4 : ∀ k ∈ fs.keys, inP <+: k → (k.drop inP.length).length ≤ n) :
    Ready exEnv (patterns []) fs inP [py"out"] n := by
  have hnone : ∀ k, [py"out"] <+: k → fs.get? k = none := by
    intro k hk
    cases h : fs.get? k with
    | none => rfl
    | some e => exact absurd hk (h3 k (Dict.has_iff.1 (by unfold Dict.has; rw [h]; rfl)))
  refine ⟨h1, ?_, ?_, ?_, ?_, ?_⟩
  · intro r c h
    rw [List.append_assoc] at h
    have := below_keys (P := fun r => r.dropLast = [] ∨ fs.get? (inP ++ r.dropLast) = some .dir) h2 (r ++ [c]) h
    simpa using this
  · intro r _ _
    exact ⟨fun _ => .inl (hnone _ (List.prefix_append _ _)), fun _ _ => .inl (hnone _ (List.prefix_append _ _))⟩
  · intro q hq hp
    have : q = [py"out"] := by
      cases q with
      | nil => exact absurd rfl hq
      | cons a q => simpa using hp
    exact .inl (hnone q (this ▸ List.prefix_refl _))
  · intro r c _ _ _
    simp only [Files.newContent, exEnv]
    split
    · rfl
    · split <;> rfl
  · intro r h
    exact below_keys (P := fun r => r.length ≤ n) h4 r h

/-- Two projects. Both have a directory `lib`, and `same` says whether both have a file `main.py`. -/
def twoFS (same : Bool) : FS :=
  [([py"in"], .dir), ([py"in", py"a"], .dir), ([py"in", py"a", py"lib"], .dir), ([py"in", py"a", py"lib", py"u.py"], .file (asBytes py"torch")),
   ([py"in", py"a", py"main.py"], .file (asBytes py"import torch")), ([py"in", py"b"], .dir), ([py"in", py"b", py"lib"], .dir),
   ([py"in", py"b", py"lib", py"v.py"], .file []), ([py"in", py"b", if same then py"main.py" else py"run.py"], .file [])]

theorem twoFS_projects (same : Bool) :
    Projects exEnv (patterns []) (twoFS same) [py"in"] [py"out"] 2 (exEnv.ls (twoFS same) [py"in"]) := by
  have hls : exEnv.ls (twoFS same) [py"in"] = [py"a", py"b"] := by cases same <;> decide +kernel
  rw [hls]
  have key : ∀ p ∈ [py"a", py"b"], ∀ r, ((twoFS same).get? ([py"in"] ++ [p] ++ r)).isSome →
      r = [] ∨ ((twoFS same).get? ([py"in"] ++ [p] ++ r) = some .dir ↔ r = [py"lib"]) := by
    intro p hp r hr
    rcases (by simpa using hp : p = py"a" ∨ p = py"b") with rfl | rfl <;> cases same <;>
      exact below_keys (P := fun r => r = [] ∨ ((twoFS _).get? ([py"in"] ++ [_] ++ r) = some .dir ↔ r = [py"lib"])) (by decide +kernel) r hr
  refine ⟨by unfold Apart; decide, ?_, ?_, ?_, ?_, ?_⟩
  · intro p hp; rcases (by simpa using hp : p = py"a" ∨ p = py"b") with rfl | rfl <;> cases same <;> decide +kernel
  · intro p hp
    rcases (by simpa using hp : p = py"a" ∨ p = py"b") with rfl | rfl <;> cases same <;>
      exact ex_ready (by unfold Apart; decide) (by decide +kernel) (by decide +kernel) (by decide +kernel)
  · intro p hp q hq r hr _ _ h1 c h2
    have k1 := ((key p hp r (by rw [h1]; rfl)).resolve_left hr).1 h1
    have k2 := ((key q hq r (by rw [h2]; rfl)).resolve_left hr).2 k1
    rw [k2] at h2
    simp at h2
  · intro p hp; rcases (by simpa using hp : p = py"a" ∨ p = py"b") with rfl | rfl <;> cases same <;> decide +kernel
  · cases same <;> decide +kernel

/-- Without a common file, both are there. -/
example : ∃ fs', separate exEnv exFmt (fun _ => 0) 3 (twoFS false) [py"in"] [py"out"] [] (fun _ => []) = .ok fs' ∧
    fs'.get? [py"out", py"main.py"] = some (.file (asBytes py"import paddle")) ∧
    fs'.get? [py"out", py"lib", py"u.py"] = some (.file (asBytes py"paddle")) ∧
    fs'.get? [py"out", py"run.py"] = some (.file []) ∧ fs'.get? [py"out", py"lib", py"v.py"] = some (.file []) :=
  ⟨_, rfl, by decide +kernel, by decide +kernel, by decide +kernel, by decide +kernel⟩

/-- With the same name for a file, the converted `main.py` of `a` is nowhere, and with helpers for both, those of `a` are not. -/
example : ∃ fs', separate exEnv exFmt (fun _ => 0) 3 (twoFS true) [py"in"] [py"out"] []
      (fun p => if p = py"a" then [py"def f(): pass"] else [py"def g(): pass"]) = .ok fs' ∧
    fs'.get? [py"out", py"main.py"] = some (.file []) ∧
    (∀ k ∈ fs'.keys, fs'.get? k ≠ some (.file (asBytes py"import paddle"))) ∧
    fs'.get? [py"out", py"paddle_utils.py"] =
      some (.file (exEnv.encode (Utils.insertCode true [(0, py"def g(): pass")]))) :=
  ⟨_, rfl, by decide +kernel, by decide +kernel, by decide +kernel⟩

/-- They meet the hypotheses of `C100_negative`. -/
example : exEnv.ls (twoFS true) [py"in"] = [] ++ [py"a", py"b"] ∧
    Image exEnv (patterns []) (twoFS true) [py"in"] py"a" [py"main.py"] (.file (asBytes py"import paddle")) ∧
    Image exEnv (patterns []) (twoFS true) [py"in"] py"b" [py"main.py"] (.file []) ∧ asBytes py"import paddle" ≠ [] := by
  refine ⟨by decide +kernel, ⟨visible_cons.2 ⟨by decide, by decide, visible_nil⟩, .inr ⟨asBytes py"import torch", _, rfl, ?_, rfl⟩⟩,
    ⟨visible_cons.2 ⟨by decide, by decide, visible_nil⟩, .inr ⟨[], _, rfl, ?_, rfl⟩⟩, by decide⟩ <;> decide +kernel

end Verif.Separate

import Verif.Spec.Complete
import Verif.Props.Files
import Verif.Props.Utils

/-!
# C97: a converted project is complete
-/

namespace Verif.Complete
open Verif Verif.Files

/-- What is true after the transfer of a directory. -/
theorem run_done (env : Env) (hls : Listing env) (n fuel : Nat) (fs : FS) (inP outP : Path) (exclude : Str)
    (hdir : fs.get? inP = some .dir) (hr : Ready env (patterns exclude) fs inP outP n) (hfuel : n < fuel) :
    ∃ fs', run env fuel fs inP outP exclude = .ok fs' ∧ Done env (patterns exclude) fs fs' inP outP := by
  obtain ⟨k, rfl⟩ : ∃ k, fuel = k + 1 := ⟨fuel - 1, by omega⟩
  have hr' : Ready env (patterns exclude) fs inP outP k :=
    ⟨hr.apart, hr.tree, hr.compat, hr.reach, hr.conv, fun r h => by have := hr.depth r h; omega⟩
  obtain ⟨fs', h1, h2⟩ := transferDir_done env hls (patterns exclude) k fs inP outP (isDir_of_get hdir)
    (by simp [isFile, hdir]) hr'
  refine ⟨fs', ?_, h2⟩
  unfold run
  rw [if_neg (by intro e; exact hr.apart.1 (e ▸ List.prefix_refl _)), h1]
  simp [Res.bind, isDir_of_get hdir]

theorem addAll_ne_nil {hash : Str → Int} {codes : List Str} {m : Utils.CodeMap} (hm : Utils.addAll hash [] codes = some m) :
    m = [] ↔ codes = [] := by
  constructor
  · rintro rfl
    cases codes with
    | nil => rfl
    | cons c cs =>
      have := (Utils.C03_helpers_complete hash (c :: cs) [] hm (Utils.rstripNl c)).2 ⟨c, by simp, rfl⟩
      simp [Dict.values] at this
  · rintro rfl
    simpa [Utils.addAll, eq_comm] using hm

theorem mirrors_congr {env : Env} {pats : List Str} {fs a b : FS} {inP outP : Path} {r : List Str}
    (h : b.get? (outP ++ r) = a.get? (outP ++ r)) (hm : Mirrors env pats fs a inP outP r) : Mirrors env pats fs b inP outP r := by
  unfold Mirrors at hm ⊢
  rw [h]
  exact hm

/-- The parts of a run in directory mode. -/
theorem runAll_dir (env : Env) (hls : Listing env) (fmt : Fmt) (hash : Str → Int) (n fuel : Nat) (fs : FS) (inP outP : Path)
    (exclude : Str) (codes : List Str) (m : Utils.CodeMap) (hdir : fs.get? inP = some .dir)
    (hr : Ready env (patterns exclude) fs inP outP n) (hfuel : n < fuel) (hm : Utils.addAll hash [] codes = some m)
    (hfree : fs.get? (outP ++ [helperName]) ≠ some .dir)
    (hown : Visible env (patterns exclude) inP [helperName] → fs.get? (inP ++ [helperName]) ≠ some .dir) :
    ∃ fs', runAll env fmt hash fuel fs inP outP exclude codes = .ok fs' ∧
      (∀ r, r ≠ [] → (codes = [] ∨ r ≠ [helperName]) → Mirrors env (patterns exclude) fs fs' inP outP r) ∧
      (codes ≠ [] → fs'.get? (outP ++ [helperName]) = some (.file (env.encode (fmt.isort (Utils.insertCode true m))))) ∧
      (∀ p, ¬ outP <+: p → fs'.get? p = fs.get? p ∨ (p <+: outP ∧ fs.get? p = none ∧ fs'.get? p = some .dir)) ∧
      Reachable fs' outP := by
  obtain ⟨g, h1, h2⟩ := run_done env hls n fuel fs inP outP exclude hdir hr hfuel
  have hnf : isFile fs inP = false := by simp [isFile, hdir]
  have hout : ∀ p, ¬ outP <+: p → g.get? p = fs.get? p ∨ (p <+: outP ∧ fs.get? p = none ∧ g.get? p = some .dir) := by
    intro p hp
    rcases h2.frame p (by rintro r _ rfl; exact hp (List.prefix_append _ _)) with h | ⟨a, b, c⟩
    · exact Or.inl h
    · rcases hr.reach p a b with h | h
      · exact Or.inr ⟨b, h, c⟩
      · exact Or.inl (by rw [h, c])
  have hreach : Reachable g outP := by
    intro q hq hp
    rcases h2.frame q (by rintro r hr0 rfl; have := hp.length_le; have := List.length_pos_iff.2 hr0; simp at *; omega) with h | h
    · rw [h]; exact hr.reach q hq hp
    · exact .inr h.2.2
  by_cases hc : codes = []
  · have : m = [] := (addAll_ne_nil hm).2 hc
    refine ⟨g, ?_, fun r hr0 _ => h2.mirrors r hr0, fun h => absurd hc h, hout, hreach⟩
    simp [runAll, h1, Res.bind, hm, hnf, writeDir, this]
  · have hmn : m ≠ [] := fun h => hc ((addAll_ne_nil hm).1 h)
    obtain ⟨k, e1, e2, e3⟩ := makedirs_ok hreach
    have below : ∀ r, r ≠ [] → k.get? (outP ++ r) = g.get? (outP ++ r) := by
      intro r hr0
      apply e3
      rintro ⟨-, hp⟩
      have := hp.length_le
      have := List.length_pos_iff.2 hr0
      simp at *
      omega
    have hnd : isDir k (outP ++ [helperName]) = false := by
      refine isDir_false (by simp) ?_
      rw [below _ (by simp)]
      have hmir := h2.mirrors [helperName] (by simp)
      by_cases hv : Visible env (patterns exclude) inP [helperName]
      · cases hf : fs.get? (inP ++ [helperName]) with
        | none => rw [hmir.2.2 (.inr (.inl hf))]; exact hfree
        | some e =>
          cases e with
          | file c =>
            obtain ⟨c', -, h⟩ := hmir.2.1 hv c hf
            rw [h]; simp
          | dir => exact absurd hf (hown hv)
          | deadLink => rw [hmir.2.2 (.inr (.inr hf))]; exact hfree
      · rw [hmir.2.2 (.inl hv)]; exact hfree
    refine ⟨k.set (outP ++ [helperName]) (.file (env.encode (fmt.isort (Utils.insertCode true m)))), ?_, ?_, ?_, ?_, ?_⟩
    · simp [runAll, h1, Res.bind, hm, hnf, writeDir, hmn, e1, hnd]
    · intro r hr0 hn
      refine mirrors_congr ?_ (h2.mirrors r hr0)
      rw [Dict.get?_set_ne _ (by intro h; exact hn.resolve_left hc (List.append_cancel_left h).symm), below r hr0]
    · intro _; simp
    · intro p hp
      rw [Dict.get?_set_ne _ (by rintro rfl; exact hp (List.prefix_append _ _))]
      by_cases hpp : p ≠ [] ∧ p <+: outP
      · rcases hout p hp with h | h
        · rcases hr.reach p hpp.1 hpp.2 with h3 | h3
          · exact .inr ⟨hpp.2, h3, e2 p hpp.1 hpp.2⟩
          · left; rw [h3, e2 p hpp.1 hpp.2]
        · exact .inr ⟨hpp.2, h.2.1, e2 p hpp.1 hpp.2⟩
      · rw [e3 p hpp]; exact hout p hp
    · intro q hq hp
      right
      rw [Dict.get?_set_ne _ (by rintro rfl; have := hp.length_le; simp at this; omega), e2 q hq hp]

/-- **C97 (partial), directory.** After a run on a directory, the output has the image of every visible file and directory of
the input, and the helper file with all helpers that were requested, if any were. Missing: a file `paddle_utils.py` of the
project itself, which is lost (`C97_own_negative`). -/
theorem C97_dir_partial (env : Env) (hls : Listing env) (fmt : Fmt) (hash : Str → Int) (n fuel : Nat) (fs : FS) (inP outP : Path)
    (exclude : Str) (codes : List Str) (m : Utils.CodeMap) (hdir : fs.get? inP = some .dir)
    (hr : Ready env (patterns exclude) fs inP outP n) (hfuel : n < fuel) (hm : Utils.addAll hash [] codes = some m)
    (hfree : fs.get? (outP ++ [helperName]) ≠ some .dir)
    (hown : fs.get? (inP ++ [helperName]) = none ∨ codes = []) :
    ∃ fs', runAll env fmt hash fuel fs inP outP exclude codes = .ok fs' ∧
      (∀ r, r ≠ [] → (fs.get? (inP ++ r)).isSome = true → Mirrors env (patterns exclude) fs fs' inP outP r) ∧
      (codes ≠ [] → fs'.get? (outP ++ [py"paddle_utils.py"]) = some (.file (env.encode (fmt.isort (Utils.insertCode true m)))) ∧
        ∀ c ∈ codes, Utils.rstripNl c ∈ m.values) ∧
      (∀ p, ¬ outP <+: p → fs'.get? p = fs.get? p ∨ (p <+: outP ∧ fs.get? p = none ∧ fs'.get? p = some .dir)) := by
  by_cases hd : fs.get? (inP ++ [helperName]) = some .dir
  · have hc : codes = [] := hown.resolve_left (by rw [hd]; simp)
    have hmn : m = [] := (addAll_ne_nil hm).2 hc
    obtain ⟨g, h1, h2⟩ := run_done env hls n fuel fs inP outP exclude hdir hr hfuel
    obtain ⟨g', h3, -, h4⟩ := C13_output_mirrors_input env hls n fuel fs inP outP exclude hdir hr hfuel
    have e : g' = g := by rw [h1] at h3; exact (Res.ok.inj h3).symm
    subst e
    have hnf : isFile fs inP = false := by simp [isFile, hdir]
    exact ⟨g', by simp [runAll, h1, Res.bind, hm, hnf, writeDir, hmn], fun r hr0 _ => h2.mirrors r hr0, fun h => absurd hc h, h4⟩
  · obtain ⟨fs', h1, h2, h3, h4, -⟩ := runAll_dir env hls fmt hash n fuel fs inP outP exclude codes m hdir hr hfuel hm hfree
      (fun _ => hd)
    refine ⟨fs', h1, ?_, fun hc => ⟨h3 hc, fun c hc => (Utils.C03_helpers_complete hash codes m hm _).2 ⟨c, hc, rfl⟩⟩, h4⟩
    intro r hr0 hs
    refine h2 r hr0 ?_
    rcases hown with h | h
    · right
      rintro rfl
      rw [h] at hs; simp at hs
    · exact .inl h

/-- **C97 is false** for a project with a file `paddle_utils.py` of its own in its top directory: as soon as one helper is
requested, the output has the helpers in its place, and nothing of the user's file. -/
theorem C97_own_negative (env : Env) (hls : Listing env) (fmt : Fmt) (hash : Str → Int) (n fuel : Nat) (fs : FS) (inP outP : Path)
    (exclude : Str) (codes : List Str) (m : Utils.CodeMap) (hdir : fs.get? inP = some .dir)
    (hr : Ready env (patterns exclude) fs inP outP n) (hfuel : n < fuel) (hm : Utils.addAll hash [] codes = some m)
    (hfree : fs.get? (outP ++ [helperName]) ≠ some .dir) (hc : codes ≠ []) (user : Bytes)
    (hv : Visible env (patterns exclude) inP [py"paddle_utils.py"])
    (hf : fs.get? (inP ++ [py"paddle_utils.py"]) = some (.file user))
    (hnot : Files.newContent env (inP ++ [py"paddle_utils.py"]) user ≠ some (env.encode (fmt.isort (Utils.insertCode true m)))) :
    ∃ fs', runAll env fmt hash fuel fs inP outP exclude codes = .ok fs' ∧
      fs'.get? (outP ++ [py"paddle_utils.py"]) = some (.file (env.encode (fmt.isort (Utils.insertCode true m)))) ∧
      ¬ Mirrors env (patterns exclude) fs fs' inP outP [py"paddle_utils.py"] := by
  have hf' : fs.get? (inP ++ [helperName]) = some (.file user) := hf
  obtain ⟨fs', h1, -, h3, -⟩ := runAll_dir env hls fmt hash n fuel fs inP outP exclude codes m hdir hr hfuel hm hfree
    (fun _ => by rw [hf']; simp)
  refine ⟨fs', h1, h3 hc, ?_⟩
  intro hmir
  obtain ⟨c', h4, h5⟩ := hmir.2.1 hv user hf
  have := h3 hc
  have e : helperName = py"paddle_utils.py" := rfl
  rw [e, h5, Option.some.injEq, Entry.file.injEq] at this
  exact hnot (by rw [h4, this])

/-- **C97, one file.** A run on one Python file writes the converted text with the requested helpers into the output file,
and nothing else. The text written has to be read back as it was (the file is read with the default encoding). -/
theorem C97_single (env : Env) (fmt : Fmt) (hash : Str → Int) (fuel : Nat) (fs : FS) (inP outP : Path) (exclude : Str)
    (codes : List Str) (m : Utils.CodeMap) (hm : Utils.addAll hash [] codes = some m) (c : Bytes) (s s' : Str)
    (hf : fs.get? inP = some (.file c)) (hx : excluded env (patterns exclude) inP = false)
    (hpy : Str.endsWith (pathStr inP) py".py" = true) (hd : env.decode c = some s) (hcv : env.convert inP s = some s')
    (hread : fmt.read (env.encode s') = some s') (hne : outP ≠ inP)
    (hcase : (fs.get? outP = some .dir ∧ outP ++ [inP.getLastD []] ≠ inP ∧
        fs.get? (outP ++ [inP.getLastD []]) ≠ some .dir) ∨
      (fs.get? outP ≠ some .dir ∧ outP ≠ [] ∧ (∀ q, q ≠ [] → q <+: outP.dropLast → fs.get? q = some .dir))) :
    ∃ fs', runAll env fmt hash (fuel + 1) fs inP outP exclude codes = .ok fs' ∧
      ∀ p, fs'.get? p = if p = (if isDir fs outP then outP ++ [inP.getLastD []] else outP) then
          some (.file (env.encode (if codes = [] then s' else
            fmt.isort (Utils.newContent fmt.isBreak fmt.isSpace m s'))))
        else fs.get? p := by
  have hnew : Files.newContent env inP c = some (env.encode s') := by simp [Files.newContent, hpy, hd, hcv]
  obtain ⟨g, h1, h2⟩ := C13_single_file env fuel fs inP outP exclude c _ hf hx hnew hne hcase
  have hisf : isFile fs inP = true := by simp [isFile, hf]
  have ht : target fs inP outP = if isDir fs outP then outP ++ [inP.getLastD []] else outP := rfl
  by_cases hc : codes = []
  · have hmn : m = [] := (addAll_ne_nil hm).2 hc
    refine ⟨g, by simp [runAll, h1, Res.bind, hm, hisf, writeFile, hmn], fun p => ?_⟩
    rw [h2 p, if_pos hc]
  · have hmn : m ≠ [] := fun h => hc ((addAll_ne_nil hm).1 h)
    have hg : g.get? (target fs inP outP) = some (.file (env.encode s')) := by rw [h2, ht, if_pos rfl]
    refine ⟨g.set (target fs inP outP) (.file (env.encode (fmt.isort (Utils.newContent fmt.isBreak fmt.isSpace m s')))), ?_, ?_⟩
    · simp [runAll, h1, Res.bind, hm, hisf, writeFile, hmn, hg, hread]
    · intro p
      rw [if_neg hc, Dict.get?_set, h2 p, ← ht]
      by_cases hp : p = target fs inP outP
      · simp [hp]
      · simp [hp, Ne.symm hp]

/-- **C97, a run that stops.** If the transfer stops with an exception, no helper is written. -/
theorem C97_stopped (env : Env) (fmt : Fmt) (hash : Str → Int) (fuel : Nat) (fs fs' : FS) (inP outP : Path) (exclude : Str)
    (codes : List Str) (h : run env fuel fs inP outP exclude = .error fs') :
    runAll env fmt hash fuel fs inP outP exclude codes = .error fs' := by
  simp [runAll, h, Res.bind]

/-! ## The import of the helpers -/

theorem rstripBy_none {p : Char → Bool} {s : Str} {c : Char} (h : p c = false) : Str.rstripBy p (s ++ [c]) = s ++ [c] := by
  simp [Str.rstripBy, h]

theorem pathStr_ends {p : Path} (hp : Proper p) (h0 : p ≠ []) : ∃ s c, pathStr p = s ++ [c] ∧ c ≠ '/' := by
  obtain ⟨q, x, rfl⟩ := (List.eq_nil_or_concat p).resolve_left h0
  rw [List.concat_eq_append] at *
  have hx := hp x (by simp)
  obtain ⟨y, c, rfl⟩ := (List.eq_nil_or_concat x).resolve_left hx.1
  rw [List.concat_eq_append] at *
  have hc : c ≠ '/' := by rintro rfl; exact hx.2 (by simp)
  have hj : ∃ t, Str.join py"/" (q ++ [y ++ [c]]) = t ++ [c] := by
    clear hp h0 hx
    induction q with
    | nil => exact ⟨y, by simp [Str.join]⟩
    | cons a q ih =>
      obtain ⟨t, ht⟩ := ih
      cases q with
      | nil => exact ⟨a ++ py"/" ++ y, by simp [Str.join]⟩
      | cons b q =>
        refine ⟨a ++ py"/" ++ t, ?_⟩
        have : Str.join py"/" (a :: b :: q ++ [y ++ [c]]) = a ++ py"/" ++ Str.join py"/" (b :: q ++ [y ++ [c]]) := by
          simp [Str.join]
        rw [this, ht]
        simp
  obtain ⟨t, ht⟩ := hj
  exact ⟨py"/" ++ t, c, by rw [pathStr, ht, List.append_assoc], hc⟩

theorem dirname_helper {p : Path} (hp : Proper p) (h0 : p ≠ []) : dirname (pathStr p ++ py"/paddle_utils.py") = pathStr p := by
  obtain ⟨s, c, hs, hc⟩ := pathStr_ends hp h0
  have h1 : ((pathStr p ++ py"/paddle_utils.py").reverse.dropWhile (· != '/')).reverse = pathStr p ++ py"/" := by
    rw [List.reverse_append]
    have : (py"/paddle_utils.py").reverse = py"yp.slitu_elddap" ++ py"/" := by decide
    rw [this]
    simp [List.dropWhile]
  unfold dirname
  simp only [h1]
  rw [if_neg]
  · rw [hs]
    simp [Str.rstripBy, hc]
  · rw [hs]
    simp [hc]

theorem readRaw_clean (d : Str) (h1 : '\'' ∉ d) (h2 : '\n' ∉ d) (h3 : '\\' ∉ d) (rest : Str) :
    readRaw (d ++ '\'' :: rest) = some (d, rest) := by
  induction d with
  | nil => rfl
  | cons c d ih =>
    simp only [List.mem_cons, not_or] at h1 h2 h3
    rw [List.cons_append]
    unfold readRaw
    split
    · next h => simp at h
    · next h => exact absurd (List.cons.inj h).1.symm h1.1
    · next h => exact absurd (List.cons.inj h).1.symm h2.1
    · next h => exact absurd (List.cons.inj h).1.symm h3.1
    · next h => exact absurd (List.cons.inj h).1.symm h3.1
    · next a b _ _ _ _ h =>
      obtain ⟨rfl, rfl⟩ := List.cons.inj h
      rw [ih h1.2 h2.2 h3.2]
      rfl

/-- The value of a raw literal has no quote that is not behind a backslash, and no line end that is not. -/
theorem readRaw_value (t d rest : Str) (h : readRaw t = some (d, rest)) (h3 : '\\' ∉ d) : '\'' ∉ d ∧ '\n' ∉ d := by
  fun_induction readRaw t generalizing d rest with
  | case1 => simp at h
  | case2 => obtain ⟨rfl, -⟩ := Prod.mk.inj (Option.some.inj h); simp
  | case3 => simp at h
  | case4 => simp at h
  | case5 c r ih =>
    simp only [Option.map_eq_some_iff] at h
    obtain ⟨p, -, hp⟩ := h
    obtain ⟨rfl, -⟩ := Prod.mk.inj hp
    simp at h3
  | case6 c r h1 h2 h4 h5 ih =>
    simp only [Option.map_eq_some_iff] at h
    obtain ⟨p, hp1, hp⟩ := h
    obtain ⟨rfl, -⟩ := Prod.mk.inj hp
    simp only [List.mem_cons, not_or] at h3 ⊢
    obtain ⟨a, b⟩ := ih p.1 p.2 hp1 h3.2
    exact ⟨⟨fun e => h1 e.symm, a⟩, ⟨fun e => h2 e.symm, b⟩⟩

/-- **C97 (partial), the path.** The line that a converted file gets adds the output directory to `sys.path`, for every
directory without backslash, if and only if its path has no quote and no line end. -/
theorem C97_path_partial (outP : Path) (hp : Proper outP) (h0 : outP ≠ []) (hb : '\\' ∉ pathStr outP) :
    added (pathLine (pathStr outP ++ py"/paddle_utils.py")) = some (pathStr outP) ↔
      '\'' ∉ pathStr outP ∧ '\n' ∉ pathStr outP := by
  have hl : (pathLine (pathStr outP ++ py"/paddle_utils.py")).drop 18 = pathStr outP ++ '\'' :: py")" := by
    rw [pathLine, dirname_helper hp h0]
    simp
  have hs : Str.startsWith (pathLine (pathStr outP ++ py"/paddle_utils.py")) py"sys.path.append(r'" = true := by
    simp [pathLine, Str.startsWith]
  unfold added
  rw [if_pos hs, hl]
  constructor
  · intro h
    split at h
    · next d rest hr =>
      split at h
      · obtain rfl := Option.some.inj h
        exact readRaw_value _ _ _ hr hb
      · simp at h
    · simp at h
  · rintro ⟨h1, h2⟩
    rw [readRaw_clean _ h1 h2 hb]
    rfl

/-- **C97 is false** for output directories with a quote in their path, or a backslash at its end: the line is no Python, so
the run stops with a `SyntaxError` at the first use of a helper. -/
theorem C97_quote_negative :
    added (pathLine (pathStr [py"home", py"it's", py"out"] ++ py"/paddle_utils.py")) = none ∧
    added (pathLine (pathStr [py"home", py"out\\"] ++ py"/paddle_utils.py")) = none := by
  decide +kernel

/-- **C97 (partial), the search.** The import finds the helper file if and only if no directory before it on `sys.path` has
a module of this name. -/
theorem C97_search_partial (fs : FS) (before : List Path) (outP : Path) (hout : isFile fs (outP ++ [py"paddle_utils.py"]) = true)
    (hpk : isFile fs (outP ++ [py"paddle_utils"] ++ [py"__init__.py"]) = false) (hnot : outP ∉ before)
    (hnest : ∀ d ∈ before, d ++ [py"paddle_utils"] ++ [py"__init__.py"] ≠ outP ++ [py"paddle_utils.py"]) :
    findModule fs py"paddle_utils" (before ++ [outP]) = some (outP ++ [py"paddle_utils.py"]) ↔
      ∀ d ∈ before, isFile fs (d ++ [py"paddle_utils.py"]) = false ∧
        isFile fs (d ++ [py"paddle_utils"] ++ [py"__init__.py"]) = false := by
  induction before with
  | nil =>
    have : py"paddle_utils" ++ py".py" = py"paddle_utils.py" := rfl
    simp only [List.nil_append, findModule, hpk, this, hout]
    simp
  | cons d ds ih =>
    have e : py"paddle_utils" ++ py".py" = py"paddle_utils.py" := rfl
    simp only [List.mem_cons, not_or] at hnot
    have ih := ih hnot.2 (fun d hd => hnest d (by simp [hd]))
    rw [List.cons_append]
    simp only [findModule, e]
    cases h1 : isFile fs (d ++ [py"paddle_utils"] ++ [py"__init__.py"]) with
    | true =>
      simp only [if_true]
      constructor
      · intro h; exact absurd (Option.some.inj h) (hnest d (by simp))
      · intro h; have := (h d (by simp)).2; rw [h1] at this; simp at this
    | false =>
      cases h2 : isFile fs (d ++ [py"paddle_utils.py"]) with
      | true =>
        simp only [Bool.false_eq_true, if_false, if_true]
        constructor
        · intro h; exact absurd (List.append_cancel_right (Option.some.inj h)).symm hnot.1
        · intro h; have := (h d (by simp)).1; rw [h2] at this; simp at this
      | false =>
        simp only [Bool.false_eq_true, if_false]
        rw [ih]
        constructor
        · intro h x hx
          rcases List.mem_cons.1 hx with rfl | hx
          · exact ⟨h2, h1⟩
          · exact h x hx
        · intro h x hx; exact h x (by simp [hx])

/-! ## Examples -/

/-- `isort` changes nothing, the default encoding is one byte per character. -/
def exFmt : Fmt where
  isort := id
  read c := some (c.map fun b => Char.ofNat b.toNat)
  isBreak := (· == '\n')
  isSpace := Char.isWhitespace

/-- The project of C13, with one helper. -/
example : ∃ fs', runAll exEnv exFmt (fun _ => 0) 3 exFS [py"p"] [py"q"] [] [py"def f(): pass\n"] = .ok fs' ∧
    fs'.get? [py"q", py"a.py"] = some (.file (asBytes py"import paddle")) ∧
    fs'.get? [py"q", py"paddle_utils.py"] =
      some (.file (exEnv.encode (Utils.insertCode true [(0, py"def f(): pass")]))) := by
  obtain ⟨fs', h1, h2, h3, -⟩ := C97_dir_partial exEnv exEnv_listing exFmt (fun _ => 0) 2 3 exFS [py"p"] [py"q"] []
    [py"def f(): pass\n"] [(0, py"def f(): pass")] rfl exFS_ready (by decide) (by decide) (by decide) (.inl (by decide))
  refine ⟨fs', h1, ?_, (h3 (by simp)).1⟩
  obtain ⟨c', h4, h5⟩ := (h2 [py"a.py"] (by simp) (by decide)).2.1
    (visible_cons.2 ⟨by decide, by decide, visible_nil⟩) (asBytes py"import torch") rfl
  have : Files.newContent exEnv ([py"p"] ++ [py"a.py"]) (asBytes py"import torch") = some (asBytes py"import paddle") := by decide
  rw [this] at h4
  rw [Option.some.inj h4]
  exact h5

/-- A project with its own `paddle_utils.py`. -/
def ownFS : FS := [([py"p"], .dir), ([py"p", helperName], .file (asBytes py"x = 1"))]

theorem ownFS_ready : Ready exEnv (patterns []) ownFS [py"p"] [py"q"] 1 := by
  refine ⟨by unfold Apart; decide, ?_, ?_, ?_, ?_, ?_⟩
  · intro r c h
    rw [List.append_assoc] at h
    have := below_keys (fs := ownFS) (inP := [py"p"])
      (P := fun r => r.dropLast = [] ∨ ownFS.get? ([py"p"] ++ r.dropLast) = some .dir) (by decide) (r ++ [c]) h
    simpa using this
  · intro r _ _
    have key := fun h => below_keys (fs := ownFS) (inP := [py"p"])
      (P := fun r => ownFS.get? ([py"q"] ++ r) = none) (by decide) r h
    constructor
    · intro h; exact Or.inl (key (by rw [h]; rfl))
    · intro c h; exact Or.inl (key (by rw [h]; rfl))
  · intro q hq hp
    have : q = [py"q"] := by
      cases q with
      | nil => exact absurd rfl hq
      | cons a q => simpa using hp
    rw [this]; exact Or.inl rfl
  · intro r c _ _ _
    simp only [Files.newContent, exEnv]
    split
    · rfl
    · split <;> rfl
  · intro r h
    exact below_keys (fs := ownFS) (inP := [py"p"]) (P := fun r => r.length ≤ 1) (by decide) r h

example : ∃ fs', runAll exEnv exFmt (fun _ => 0) 2 ownFS [py"p"] [py"q"] [] [py"def f(): pass"] = .ok fs' ∧
    fs'.get? [py"q", py"paddle_utils.py"] =
      some (.file (exEnv.encode (Utils.insertCode true [(0, py"def f(): pass")]))) ∧
    ¬ Mirrors exEnv (patterns []) ownFS fs' [py"p"] [py"q"] [py"paddle_utils.py"] :=
  C97_own_negative exEnv exEnv_listing exFmt (fun _ => 0) 1 2 ownFS [py"p"] [py"q"] [] [py"def f(): pass"]
    [(0, py"def f(): pass")] rfl ownFS_ready (by decide) (by decide) (by decide) (by simp) (asBytes py"x = 1")
    (visible_cons.2 ⟨by decide, by decide, visible_nil⟩) rfl (by decide +kernel)

/-- One file. -/
example : runAll exEnv exFmt (fun _ => 0) 1 exFS [py"p", py"a.py"] [py"q"] [] [py"def f(): pass"] =
    .ok (exFS ++ [([py"q", py"a.py"], .file (exEnv.encode (Utils.newContent (· == '\n') Char.isWhitespace
      [(0, py"def f(): pass")] py"import paddle")))]) := by decide +kernel

/-- `b.py` cannot be converted: `a.py` is in the output, and it imports helpers that are not there. -/
example : ∃ fs', runAll { exEnv with convert := fun p s => if p = [py"p", py"b.py"] then none else some s } exFmt (fun _ => 0) 2
      [([py"p"], .dir), ([py"p", py"a.py"], .file [1]), ([py"p", py"b.py"], .file [2])] [py"p"] [py"q"] [] [py"def f(): pass"] =
        .error fs' ∧
    fs'.get? [py"q", py"a.py"] = some (.file [1]) ∧ fs'.get? [py"q", py"paddle_utils.py"] = none :=
  ⟨[([py"p"], .dir), ([py"p", py"a.py"], .file [1]), ([py"p", py"b.py"], .file [2]), ([py"q"], .dir), ([py"q", py"a.py"], .file [1])],
    by decide +kernel, by decide, by decide⟩

example : Proper [py"home", py"u", py"out"] ∧ added (pathLine (pathStr [py"home", py"u", py"out"] ++ py"/paddle_utils.py")) =
    some py"/home/u/out" := by
  refine ⟨?_, by decide +kernel⟩
  unfold Proper
  decide

/-- A script in `out/sub`, which has its own `paddle_utils.py`, does not find the helpers. -/
example : findModule [([py"out", py"paddle_utils.py"], .file [1]), ([py"out", py"sub", py"paddle_utils.py"], .file [2])]
    py"paddle_utils" ([[py"out", py"sub"]] ++ [[py"out"]]) = some [py"out", py"sub", py"paddle_utils.py"] := by decide

example : findModule [([py"out", py"paddle_utils.py"], .file [1]), ([py"out", py"sub", py"x.py"], .file [2])]
    py"paddle_utils" ([[py"out", py"sub"]] ++ [[py"out"]]) = some [py"out", py"paddle_utils.py"] := by decide

end Verif.Complete

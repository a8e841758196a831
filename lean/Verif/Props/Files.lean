import Verif.Lemmas.FilesBlocked
import Verif.Lemmas.Replace

/-!
# C13-C19: the file tree
-/

namespace Verif.Files
open Verif

/-! ## A concrete environment for the examples -/

def dedup (l : List Str) : List Str := l.foldr (fun x acc => if x ∈ acc then acc else x :: acc) []

theorem mem_dedup {l : List Str} {x : Str} : x ∈ dedup l ↔ x ∈ l := by
  induction l with
  | nil => simp [dedup]
  | cons y l ih =>
    have e : dedup (y :: l) = if y ∈ dedup l then dedup l else y :: dedup l := rfl
    rw [e]
    split
    · next h => rw [ih, List.mem_cons]; constructor
                · exact Or.inr
                · rintro (rfl | h')
                  · exact ih.1 h
                  · exact h'
    · rw [List.mem_cons, List.mem_cons, ih]

theorem nodup_dedup (l : List Str) : (dedup l).Nodup := by
  induction l with
  | nil => simp [dedup]
  | cons y l ih =>
    have e : dedup (y :: l) = if y ∈ dedup l then dedup l else y :: dedup l := rfl
    rw [e]
    split
    · exact ih
    · next h => exact List.nodup_cons.2 ⟨h, ih⟩

/-- Text files are one byte per character, patterns are literal, conversion writes `paddle` for `torch`, names
are listed in the order in which they were created. -/
def exEnv : Env where
  decode c := some (c.map fun b => Char.ofNat b.toNat)
  encode s := s.map fun c => UInt8.ofNat c.toNat
  convert _ s := some (Str.replace s py"torch" py"paddle")
  search q s := Str.contains s q
  ls fs p := dedup (fs.keys.filterMap fun k => if k = [] ∨ k.dropLast ≠ p then none else k.getLast?)

theorem exEnv_listing : Listing exEnv := by
  intro fs p
  refine ⟨nodup_dedup _, ?_⟩
  intro n
  show n ∈ dedup _ ↔ _
  rw [mem_dedup, List.mem_filterMap]
  have : (fs.get? (p ++ [n])).isSome = true ↔ p ++ [n] ∈ fs.keys := by
    rw [← Dict.has_iff]; rfl
  rw [this]
  constructor
  · rintro ⟨k, hk, h⟩
    split at h
    · simp at h
    · next hc =>
      simp only [not_or, Decidable.not_not] at hc
      obtain ⟨h1, h2⟩ := hc
      have : k = p ++ [n] := by
        rw [← List.dropLast_concat_getLast h1, h2]
        rw [List.getLast?_eq_some_getLast h1] at h
        rw [Option.some.inj h]
      exact this ▸ hk
  · intro h
    exact ⟨_, h, by simp⟩

def asBytes (s : Str) : Bytes := s.map fun c => UInt8.ofNat c.toNat

/-- A project with a source file, a data file, a hidden directory and a cache directory. -/
def exFS : FS :=
  [([py"p"], .dir), ([py"p", py"a.py"], .file (asBytes py"import torch")), ([py"p", py"d"], .dir),
   ([py"p", py"d", py"w.bin"], .file [0, 255]), ([py"p", py".git"], .dir),
   ([py"p", py".git", py"a.py"], .file []), ([py"p", py"__pycache__"], .dir),
   ([py"p", py"__pycache__", py"a.py"], .file []), ([py"q"], .dir), ([py"q", py"old"], .file [7])]

/-! ## C13: the output mirrors the input -/

/-- **C13.** A run on a directory succeeds whenever the trees are apart, nothing in the output is in the way and
every visible file can be converted. Afterwards, at every relative path, the output has the image of what the
input has there if that is visible, and what it had before otherwise; and outside the output tree nothing
changed, except that missing directories on the way to it may have been created. -/
theorem C13_output_mirrors_input (env : Env) (hls : Listing env) (n fuel : Nat) (fs : FS) (inP outP : Path)
    (exclude : Str) (hdir : fs.get? inP = some .dir)
    (hr : Ready env (patterns exclude) fs inP outP n) (hfuel : n < fuel) :
    ∃ fs', run env fuel fs inP outP exclude = .ok fs' ∧
      (∀ r, r ≠ [] → Mirrors env (patterns exclude) fs fs' inP outP r) ∧
      (∀ p, ¬ outP <+: p → fs'.get? p = fs.get? p ∨ (p <+: outP ∧ fs.get? p = none ∧ fs'.get? p = some .dir)) := by
  obtain ⟨k, rfl⟩ : ∃ k, fuel = k + 1 := ⟨fuel - 1, by omega⟩
  have hr' : Ready env (patterns exclude) fs inP outP k :=
    ⟨hr.apart, hr.tree, hr.compat, hr.reach, hr.conv, fun r h => by have := hr.depth r h; omega⟩
  obtain ⟨fs', h1, h2⟩ := transferDir_done env hls (patterns exclude) k fs inP outP (isDir_of_get hdir)
    (by simp [isFile, hdir]) hr'
  refine ⟨fs', ?_, h2.mirrors, ?_⟩
  · unfold run
    rw [if_neg (by intro e; exact hr.apart.1 (e ▸ List.prefix_refl _)), h1]
    simp [Res.bind, isDir_of_get hdir]
  · intro p hp
    rcases h2.frame p (by rintro r _ rfl; exact hp (List.prefix_append _ _)) with h | ⟨a, b, c⟩
    · exact Or.inl h
    · rcases hr.reach p a b with h | h
      · exact Or.inr ⟨b, h, c⟩
      · exact Or.inl (by rw [h, c])

/-- **C13, one file.** A run on a single file that is not excluded writes exactly its image: into the output
path, or under its own name into the output path if that is a directory. -/
theorem C13_single_file (env : Env) (fuel : Nat) (fs : FS) (inP outP : Path) (exclude : Str) (c c' : Bytes)
    (hf : fs.get? inP = some (.file c)) (hx : excluded env (patterns exclude) inP = false)
    (hc : newContent env inP c = some c') (hne : outP ≠ inP)
    (hcase : (fs.get? outP = some .dir ∧ outP ++ [inP.getLastD []] ≠ inP ∧
        fs.get? (outP ++ [inP.getLastD []]) ≠ some .dir) ∨
      (fs.get? outP ≠ some .dir ∧ outP ≠ [] ∧ (∀ q, q ≠ [] → q <+: outP.dropLast → fs.get? q = some .dir))) :
    ∃ fs', run env (fuel + 1) fs inP outP exclude = .ok fs' ∧
      ∀ p, fs'.get? p = if p = (if isDir fs outP then outP ++ [inP.getLastD []] else outP) then some (.file c')
        else fs.get? p := by
  have hisf : isFile fs inP = true := by simp [isFile, hf]
  have fin : ∀ new : Path, target fs inP outP = new → prepareParent fs new = .ok fs → isDir fs new = false → new ≠ inP →
      ∃ fs', run env (fuel + 1) fs inP outP exclude = .ok fs' ∧
        ∀ p, fs'.get? p = if p = new then some (.file c') else fs.get? p := by
    intro new h1 h2 h3 h4
    refine ⟨fs.set new (.file c'), ?_, ?_⟩
    · simp [run, hne, transferDir, hisf, hx, h1, h2, Res.bind, transferFile, hf, hc, h3, Ne.symm h4]
    · intro p
      rw [Dict.get?_set]
      by_cases h : p = new
      · simp [h]
      · simp [h, Ne.symm h]
  rcases hcase with ⟨a, b, d⟩ | ⟨a, b, d⟩
  · have hd : isDir fs outP = true := isDir_of_get a
    rw [if_pos hd]
    refine fin _ (by simp [target, hd]) ?_ (isDir_false (by simp) d) b
    simp [prepareParent, exists_, hd, Res.bind]
  · have hd : isDir fs outP = false := isDir_false b a
    rw [if_neg (by simp [hd])]
    refine fin _ (by simp [target, hd]) ?_ hd hne
    have hp : isDir fs outP.dropLast = true := by
      by_cases e : outP.dropLast = []
      · simp [isDir, e]
      · exact isDir_of_get (d _ e (List.prefix_refl _))
    simp [prepareParent, exists_, hp, Res.bind]

theorem below_keys {fs : FS} {inP : Path} {P : List Str → Prop}
    (h : ∀ k ∈ fs.keys, inP <+: k → P (k.drop inP.length)) (r : List Str)
    (hr : (fs.get? (inP ++ r)).isSome = true) : P r := by
  have := h _ (Dict.has_iff.1 hr) (List.prefix_append _ _)
  simpa using this

theorem exFS_ready : Ready exEnv (patterns []) exFS [py"p"] [py"q"] 2 := by
  refine ⟨by unfold Apart; decide, ?_, ?_, ?_, ?_, ?_⟩
  · intro r c h
    rw [List.append_assoc] at h
    have := below_keys (fs := exFS) (inP := [py"p"])
      (P := fun r => r.dropLast = [] ∨ exFS.get? ([py"p"] ++ r.dropLast) = some .dir) (by decide) (r ++ [c]) h
    simpa using this
  · intro r _ _
    have key := fun h => below_keys (fs := exFS) (inP := [py"p"])
      (P := fun r => r = [] ∨ exFS.get? ([py"q"] ++ r) = none) (by decide) r h
    constructor
    · intro h
      rcases key (by rw [h]; rfl) with h1 | h1
      · subst h1; exact Or.inr rfl
      · exact Or.inl h1
    · intro c h
      rcases key (by rw [h]; rfl) with h1 | h1
      · subst h1
        have : exFS.get? ([py"p"] ++ []) = some .dir := rfl
        rw [this] at h; simp at h
      · exact Or.inl h1
  · intro q hq hp
    have : q = [py"q"] := by
      cases q with
      | nil => exact absurd rfl hq
      | cons a q => simpa using hp
    rw [this]; exact Or.inr rfl
  · intro r c _ _ _
    simp only [newContent, exEnv]
    split
    · rfl
    · split <;> rfl
  · intro r h
    exact below_keys (fs := exFS) (inP := [py"p"]) (P := fun r => r.length ≤ 2) (by decide) r h

/-- The example project, converted into an output directory that has a file already. -/
example : run exEnv 4 exFS [py"p"] [py"q"] [] = .ok (exFS ++
    [([py"q", py"a.py"], .file (asBytes py"import paddle")), ([py"q", py"d"], .dir),
     ([py"q", py"d", py"w.bin"], .file [0, 255])]) := by rfl

example : run exEnv 1 exFS [py"p", py"a.py"] [py"q"] [] =
    .ok (exFS ++ [([py"q", py"a.py"], .file (asBytes py"import paddle"))]) := by rfl

/-! ## C14: the input is not touched -/

theorem forEach_at {p : Path} (step : Str → FS → Res) (items : List Str)
    (hstep : ∀ x ∈ items, ∀ fs fs', (step x fs).state? = some fs' → fs'.get? p = fs.get? p) (fs fs' : FS)
    (hr : (forEach step items fs).state? = some fs') : fs'.get? p = fs.get? p := by
  induction items generalizing fs with
  | nil => simp [forEach, Res.state?] at hr; rw [hr]
  | cons x xs ih =>
    simp only [forEach] at hr
    rcases bind_state hr with ⟨fs1, h1, h2⟩ | h1
    · rw [ih (fun y hy => hstep y (by simp [hy])) fs1 h2]
      exact hstep x (by simp) fs fs1 (by rw [h1]; rfl)
    · exact hstep x (by simp) fs fs' (by rw [h1]; rfl)

/-- A directory run changes only what lies below, or on the way to, the images of its entries. -/
theorem transferDir_dir_at (env : Env) (pats : List Str) (n : Nat) (fs : FS) (inP outP : Path) (fs' : FS)
    (hnf : isFile fs inP = false) (p : Path)
    (hp : ∀ c ∈ listNoHidden env fs inP, ¬ outP ++ [c] <+: p ∧ ¬ p <+: outP ++ [c])
    (hr : (transferDir env pats n fs inP outP).state? = some fs') : fs'.get? p = fs.get? p := by
  cases n with
  | zero => simp [transferDir, Res.state?] at hr
  | succ n =>
    unfold transferDir at hr
    rw [if_neg (by simp [hnf])] at hr
    split at hr
    · refine forEach_at _ _ ?_ _ _ hr
      intro c hc g g' h
      have hpc := hp c hc
      split at h
      · simp [Res.state?] at h; rw [h]
      · rcases bind_state h with ⟨g1, h1, h2⟩ | h1
        · rw [transferDir_frame env pats n g1 _ _ g' h2 p hpc.1 hpc.2]
          unfold prepareDir at h1
          split at h1
          · exact makedirs_frame (Or.inl (List.prefix_refl _)) (by rw [h1]; rfl) p hpc.1 hpc.2
          · cases h1; rfl
        · unfold prepareDir at h1
          split at h1
          · exact makedirs_frame (Or.inl (List.prefix_refl _)) (by rw [h1]; rfl) p hpc.1 hpc.2
          · simp at h1
    · split at hr <;> simp [Res.state?] at hr <;> rw [hr]

theorem run_state {env : Env} {fuel : Nat} {fs : FS} {inP outP : Path} {exclude : Str} {fs' : FS}
    (h : (run env fuel fs inP outP exclude).state? = some fs') :
    fs' = fs ∨ (transferDir env (patterns exclude) fuel fs inP outP).state? = some fs' := by
  unfold run at h
  split at h
  · simp [Res.state?] at h; exact Or.inl h.symm
  · rcases bind_state h with ⟨g, h1, h2⟩ | h1
    · right
      split at h2 <;> simp [Res.state?] at h2 <;> rw [h1, h2] <;> rfl
    · right; rw [h1]; rfl

/-- **C14.** Whatever the trees contain and whether the run succeeds or stops with an exception: if the output
path is neither inside the input nor above it, nothing at or below the input path is created, changed or
removed. -/
theorem C14_input_untouched (env : Env) (fuel : Nat) (fs : FS) (inP outP : Path) (exclude : Str)
    (ha : Apart inP outP) (fs' : FS) (h : (run env fuel fs inP outP exclude).state? = some fs')
    (p : Path) (hp : inP <+: p) : fs'.get? p = fs.get? p := by
  rcases run_state h with rfl | h
  · rfl
  · obtain ⟨r, rfl⟩ := hp
    have := ha.append_left r
    exact transferDir_frame env _ _ _ _ _ _ h _ this.2 this.1

/-- **C14, output directory above the input.** The same when the input directory lies in the output directory,
provided the input has no entry with the name of the component of its own path that follows the output path. -/
theorem C14_input_untouched_below (env : Env) (hls : Listing env) (fuel : Nat) (fs : FS) (outP : Path) (c : Str)
    (s : List Str) (exclude : Str) (hf : isFile fs (outP ++ c :: s) = false)
    (hc : fs.get? (outP ++ c :: s ++ [c]) = none)
    (fs' : FS) (h : (run env fuel fs (outP ++ c :: s) outP exclude).state? = some fs')
    (p : Path) (hp : outP ++ c :: s <+: p) : fs'.get? p = fs.get? p := by
  rcases run_state h with rfl | h
  · rfl
  · refine transferDir_dir_at env _ _ _ _ _ _ hf p ?_ h
    intro x hx
    have hxc : x ≠ c := by
      rintro rfl
      simp only [listNoHidden, List.mem_filter] at hx
      have := ((hls fs _).2 x).1 hx.1
      rw [hc] at this; simp at this
    obtain ⟨t, rfl⟩ := hp
    constructor
    · intro h2
      have h3 : outP ++ [x] <+: outP ++ c :: (s ++ t) := by simpa using h2
      exact hxc (below_inj h3)
    · intro h2
      have h3 : outP ++ c :: (s ++ t) <+: outP ++ [x] := by simpa using h2
      have := (List.prefix_append_right_inj outP).1 h3
      simp at this
      exact hxc this.1.symm

/-- **C14, the excepted case is real.** Converting one file into the directory it is in overwrites it. -/
theorem C14_parent_negative :
    ∃ fs', run exEnv 1 exFS [py"p", py"a.py"] [py"p"] [] = .ok fs' ∧
      exFS.get? [py"p", py"a.py"] = some (.file (asBytes py"import torch")) ∧
      fs'.get? [py"p", py"a.py"] = some (.file (asBytes py"import paddle")) :=
  ⟨_, rfl, rfl, rfl⟩

example : Apart [py"p"] [py"q"] := by unfold Apart; decide
example : exFS.get? ([] ++ py"p" :: [] ++ [py"p"]) = none ∧
    (run exEnv 4 exFS [py"p"] [] []).state?.isSome = true := by decide +kernel

/-! ## C15: requirements.txt -/

/-- **C15.** The new text of a `requirements.txt` is the old one with the leftmost `torch` replaced again and
again, it is the only such text, it has no `torch` left, and a text without `torch` is unchanged. -/
theorem C15_requirements (s : Str) :
    Str.ReplacedAll py"torch" py"paddlepaddle-gpu" s (convertRequirements s) ∧
    (∀ t, Str.ReplacedAll py"torch" py"paddlepaddle-gpu" s t → t = convertRequirements s) ∧
    (¬ ∃ a b, convertRequirements s = a ++ py"torch" ++ b) ∧
    ((¬ ∃ a b, s = a ++ py"torch" ++ b) → convertRequirements s = s) := by
  have h0 : py"torch" ≠ [] := by simp
  refine ⟨Str.replace_spec h0 _ s, fun t h => Str.replace_eq_of_spec h0 h, ?_, ?_⟩
  · have : Str.contains (convertRequirements s) py"torch" = false := by
      exact Str.not_contains_replace h0 (by simp) (by decide) s
    rintro ⟨a, b, e⟩
    have h := Str.contains_iff.2 ⟨a, b, e⟩
    rw [this] at h; simp at h
  · intro h
    apply Str.replace_of_not_contains
    cases hc : Str.contains s py"torch"
    · rfl
    · exact absurd (Str.contains_iff.1 hc) h

/-- **C15, written file.** A file whose name ends in `requirements.txt` and whose bytes decode gets exactly that
text. -/
theorem C15_requirements_written (env : Env) (old : Path) (c : Bytes) (s : Str)
    (h1 : Str.endsWith (pathStr old) py".py" = false) (h2 : Str.endsWith (pathStr old) py"requirements.txt" = true)
    (hd : env.decode c = some s) : newContent env old c = some (env.encode (convertRequirements s)) := by
  simp [newContent, h1, h2, hd]

example : convertRequirements py"torch==1.0\ntorchvision\nnumpy\n"
    = py"paddlepaddle-gpu==1.0\npaddlepaddle-gpuvision\nnumpy\n" := by rfl

/-! ## C16: other files -/

/-- **C16.** A file of a converted directory whose path ends neither in `.py` nor in `requirements.txt` is in the
output with the same bytes. -/
theorem C16_other_files_copied (env : Env) (hls : Listing env) (n fuel : Nat) (fs : FS) (inP outP : Path)
    (exclude : Str) (hdir : fs.get? inP = some .dir) (hr : Ready env (patterns exclude) fs inP outP n)
    (hfuel : n < fuel) (r : List Str) (c : Bytes) (hv : Visible env (patterns exclude) inP r)
    (hf : fs.get? (inP ++ r) = some (.file c))
    (h1 : Str.endsWith (pathStr (inP ++ r)) py".py" = false)
    (h2 : Str.endsWith (pathStr (inP ++ r)) py"requirements.txt" = false) :
    ∃ fs', run env fuel fs inP outP exclude = .ok fs' ∧ fs'.get? (outP ++ r) = some (.file c) := by
  obtain ⟨fs', e, hm, _⟩ := C13_output_mirrors_input env hls n fuel fs inP outP exclude hdir hr hfuel
  refine ⟨fs', e, ?_⟩
  have hrne : r ≠ [] := by rintro rfl; rw [List.append_nil, hdir] at hf; simp at hf
  obtain ⟨c', h3, h4⟩ := (hm r hrne).2.1 hv c hf
  have : newContent env (inP ++ r) c = some c := by simp [newContent, h1, h2]
  rw [this] at h3
  rw [h4, Option.some.inj h3]

/-- `d/w.bin` of the example project. -/
example : ∃ fs', run exEnv 3 exFS [py"p"] [py"q"] [] = .ok fs' ∧
    fs'.get? ([py"q"] ++ [py"d", py"w.bin"]) = some (.file [0, 255]) :=
  C16_other_files_copied exEnv exEnv_listing 2 3 exFS [py"p"] [py"q"] [] rfl exFS_ready (by decide)
    [py"d", py"w.bin"] [0, 255] (visible_cons.2 ⟨by decide, by decide, visible_cons.2 ⟨by decide, by decide, visible_nil⟩⟩)
    rfl (by decide) (by decide)

/-! ## C17: exclude patterns -/

/-- **C17.** A path is skipped iff one of the comma-separated pieces of the option, or `__pycache__`, is found in
the text of its absolute path. The pieces are given by their defining property: no comma in a piece, and joined
by commas they give the option. -/
theorem C17_exclude_iff (env : Env) (exclude : Str) (pieces : List Str) (hne : exclude ≠ []) (hp0 : pieces ≠ [])
    (hp : Str.join py"," pieces = exclude) (hc : ∀ q ∈ pieces, ',' ∉ q) (p : Path) :
    excluded env (patterns exclude) p = true ↔
      (∃ q ∈ pieces, env.search q (pathStr p) = true) ∨ env.search py"__pycache__" (pathStr p) = true := by
  have : Str.splitOn ',' exclude = pieces := by rw [← hp]; exact Str.splitOn_join hp0 hc
  simp [excluded, patterns, hne, this, or_comm]

theorem C17_no_exclude (env : Env) (p : Path) :
    excluded env (patterns []) p = true ↔ env.search py"__pycache__" (pathStr p) = true := by
  simp [excluded, patterns]

/-- **C17, subtrees.** After a run, nothing of the input below (or at) a relative path with an excluded or hidden
ancestor has reached the output: the output has there what it had before. -/
theorem C17_excluded_subtree (env : Env) (hls : Listing env) (n fuel : Nat) (fs : FS) (inP outP : Path)
    (exclude : Str) (hdir : fs.get? inP = some .dir) (hr : Ready env (patterns exclude) fs inP outP n)
    (hfuel : n < fuel) (a b : List Str) (ha : a ≠ [])
    (hx : excluded env (patterns exclude) (inP ++ a) = true) :
    ∃ fs', run env fuel fs inP outP exclude = .ok fs' ∧ fs'.get? (outP ++ (a ++ b)) = fs.get? (outP ++ (a ++ b)) := by
  obtain ⟨fs', e, hm, _⟩ := C13_output_mirrors_input env hls n fuel fs inP outP exclude hdir hr hfuel
  refine ⟨fs', e, (hm (a ++ b) (by simp [ha])).2.2 (Or.inl ?_)⟩
  intro hv
  have h := (visible_append.1 hv).1.2 (a.length - 1) (by have := List.length_pos_iff.2 ha; omega)
  have hl : a.length - 1 + 1 = a.length := by have := List.length_pos_iff.2 ha; omega
  rw [hl, List.take_length] at h
  rw [hx] at h; simp at h

/-- An option with an empty piece, such as a trailing comma, skips everything, since the empty pattern is found
in every text. -/
theorem C17_trailing_comma (env : Env) (hs : ∀ s, env.search [] s = true) (a : Str) (p : Path) :
    excluded env (patterns (a ++ py",")) p = true := by
  have hsplit : Str.splitOn ',' (a ++ py",") = Str.splitOn ',' a ++ [[]] := by
    induction a with
    | nil => decide
    | cons c cs ih =>
      rw [List.cons_append]
      simp only [Str.splitOn, ih]
      split
      · simp
      · cases h : Str.splitOn ',' cs with
        | nil => exact absurd h (Str.splitOn_ne_nil _ _)
        | cons x xs => simp
  have hp : [] ∈ patterns (a ++ py",") := by simp [patterns, hsplit]
  exact List.any_eq_true.2 ⟨[], hp, hs _⟩

example : excluded exEnv (patterns py"data,") [py"home", py"u", py"x.py"] = true := by decide
example : excluded exEnv (patterns []) ([py"p"] ++ [py"__pycache__"]) = true := by decide
example : excluded exEnv (patterns py"data,tests") [py"p", py"tests", py"x.py"] = true := by decide

/-! ## C18: bad arguments -/

/-- **C18.** An output path equal to the input path, or an input path with nothing (or a dangling link) at it,
ends in an exception with the whole file system as it was. -/
theorem C18_bad_arguments (env : Env) (fuel : Nat) (fs : FS) (inP outP : Path) (exclude : Str)
    (h : outP = inP ∨ (inP ≠ [] ∧ (fs.get? inP = none ∨ fs.get? inP = some .deadLink))) :
    run env (fuel + 1) fs inP outP exclude = .error fs := by
  unfold run
  split
  · rfl
  · next hne =>
    rcases h with h | ⟨h0, h⟩
    · exact absurd h hne
    · have h1 : isFile fs inP = false := by rcases h with h | h <;> simp [isFile, h]
      have h2 : isDir fs inP = false := isDir_false h0 (by rcases h with h | h <;> simp [h])
      unfold transferDir
      rw [if_neg (by simp [h1]), if_neg (by simp [h2])]
      split <;> simp [Res.bind, h1, h2]

example : run exEnv 1 exFS [py"nope"] [py"q"] [] = .error exFS := by rfl
example : run exEnv 1 exFS [py"p"] [py"p"] [] = .error exFS := by rfl

/-! ## C19: the run ends -/

theorem run_ends (env : Env) (fs : FS) (inP outP : Path) (exclude : Str) (a : Option Str) (D : Nat)
    (hout : OutLe env (patterns exclude) inP outP a D) (hD : ∀ p, isDir fs p = true → p.length ≤ D) (hin : inP.length ≤ D)
    (hx : ∀ x ∈ listNoHidden env fs inP, some x ≠ a) (fuel : Nat) (hfuel : D + 2 ≤ fuel) :
    run env fuel fs inP outP exclude ≠ .fuel := by
  have := (transferDir_ends env (patterns exclude) inP outP a D hout fuel fs [] (fun r _ hd => hD _ hd) .nil
    (by simp; omega) (by simp; omega) (by simp) (fun _ => hx)).1
  rw [List.append_nil, List.append_nil] at this
  unfold run
  split
  · simp
  · apply bind_ne_fuel this
    intro g _
    split <;> simp

/-- **C19.** A run on any file system ends, if the output path does not lie in the input directory, or lies in a
part of it that the run does not enter (below a hidden or excluded name), or if the first name on the way from the
input to the output does not exist yet, or is a dangling link, or is a file that is not the output path itself. (In
the last two cases the files below the input have to form a tree.) -/
theorem C19_run_ends_partial (env : Env) (hls : Listing env) (fs : FS) (inP outP : Path) (exclude : Str)
    (h : ¬ inP <+: outP ∨ (∃ s, outP = inP ++ s ∧ ¬ Visible env (patterns exclude) inP s) ∨
      (∃ c s, outP = inP ++ c :: s ∧ fs.get? (inP ++ [c]) = none) ∨
      ∃ c s e, outP = inP ++ c :: s ∧ fs.get? (inP ++ [c]) = some e ∧ e ≠ .dir ∧ (s = [] → e = .deadLink) ∧
        TreeBelow fs inP) :
    ∃ N, ∀ fuel, N ≤ fuel → run env fuel fs inP outP exclude ≠ .fuel := by
  obtain ⟨D0, hD0⟩ := exists_bound fs
  let D := D0 + inP.length + outP.length
  have hD : ∀ p, isDir fs p = true → p.length ≤ D := by
    intro p hp
    have := hD0 p hp
    omega
  refine ⟨D + 2, ?_⟩
  rcases h with h | ⟨s, rfl, hs⟩ | ⟨c, s, rfl, hc⟩ | ⟨c, s, e, rfl, hc, he, hs, ht⟩
  · refine run_ends env fs inP outP exclude none D ?_ hD (by omega) (by simp)
    intro r hv hl q hq hqv
    rcases Nat.le_total inP.length outP.length with hle | hle
    · exact absurd (List.prefix_of_prefix_length_le ((List.prefix_append _ _).trans hq)
        (List.prefix_append _ _) hle) h
    · have := hq.length_le
      simp only [List.length_append] at this hl ⊢
      omega
  · refine run_ends env fs inP (inP ++ s) exclude none D ?_ hD (by omega) (by simp)
    intro r hv hl q hq hqv
    have hq2 : q <+: s ++ r := by
      rw [List.append_assoc] at hq
      exact (List.prefix_append_right_inj inP).1 hq
    rcases Nat.le_total s.length q.length with hle | hle
    · exfalso
      have : s <+: q := List.prefix_of_prefix_length_le (List.prefix_append _ _) hq2 hle
      obtain ⟨t, rfl⟩ := this
      exact hs (visible_append.1 hqv.1).1
    · show (inP ++ q).length ≤ D0 + inP.length + (inP ++ s).length
      rw [List.length_append, List.length_append]
      omega
  · refine run_ends env fs inP (inP ++ c :: s) exclude (some c) D ?_ hD (by omega) ?_
    · intro r hv hl q hq hqv
      have hq2 : q <+: c :: (s ++ r) := by
        rw [List.append_assoc] at hq
        exact (List.prefix_append_right_inj inP).1 hq
      cases q with
      | nil => simp; omega
      | cons d q =>
        obtain ⟨t, ht⟩ := hq2
        simp only [List.cons_append, List.cons.injEq] at ht
        exact absurd (by simp [ht.1]) (hqv.2 (by simp))
    · intro x hx e
      simp only [Option.some.injEq] at e
      subst e
      have := ((hls fs inP).2 x).1 (List.mem_filter.1 hx).1
      rw [hc] at this
      simp at this
  · intro fuel hfuel
    have hnone' : ∀ n r, r.length = n → r ≠ [] → fs.get? (inP ++ c :: r) = none := by
      intro n
      induction n with
      | zero => intro r hl hr; exact absurd (List.length_eq_zero_iff.1 hl) hr
      | succ n ih =>
        intro r hl hr
        obtain ⟨r, x, rfl⟩ := (List.eq_nil_or_concat r).resolve_left hr
        rw [List.concat_eq_append] at hl hr ⊢
        cases h : fs.get? (inP ++ c :: (r ++ [x])) with
        | none => rfl
        | some v =>
          rcases ht (c :: r) x (by simp [h]) with h1 | h1
          · simp at h1
          · by_cases hr : r = []
            · subst hr
              rw [hc] at h1
              exact absurd (Option.some.inj h1) he
            · rw [ih r (by simpa using hl) hr] at h1
              simp at h1
    have hnone := fun r => hnone' _ r rfl
    have hmiss : ∀ p, p ≠ [] → fs.get? p = none ∨ fs.get? p = some .deadLink → exists_ fs p = false := by
      intro p h0 h
      have h2 : isDir fs p = false := isDir_false h0 (by rcases h with h | h <;> rw [h] <;> simp)
      rw [exists_, h2, isFile]
      rcases h with h | h <;> rw [h] <;> rfl
    obtain ⟨m, rfl⟩ : ∃ m, fuel = m + 2 := ⟨fuel - 2, by omega⟩
    have := blocked_ends env (patterns exclude) fs inP (inP ++ c :: s) (inP ++ [c]) e he hc (by simp)
      ((List.prefix_append_right_inj inP).2 (by simp))
      (hmiss _ (by simp) (by
        by_cases h0 : s = []
        · subst h0; right; rw [hc, hs rfl]
        · exact .inl (hnone s h0)))
      (fun x => hmiss _ (by simp) (.inl (by simpa using hnone (s ++ [x]) (by simp)))) m
    unfold run
    split
    · simp
    · apply bind_ne_fuel this
      intro g _
      split <;> simp


theorem endless (env : Env) (hls : Listing env) (hs : ∀ a b, env.search a b = false) (o : Str)
    (ho : Str.startsWith o py"." = false) (pats : List Str) (n : Nat) (fs : FS) (q : Path)
    (h1 : fs.get? q = some .dir) (h2 : fs.get? (q ++ [o]) = some .dir)
    (h3 : ∀ r, (fs.get? (q ++ r)).isSome = true → r = [] ∨ r = [o])
    (h4 : ∀ p, p ≠ [] → p <+: q → fs.get? p = some .dir) :
    transferDir env pats n fs q (q ++ [o]) = .fuel := by
  induction n generalizing fs q with
  | zero => rfl
  | succ n ih =>
    have hex : ∀ p, excluded env pats p = false := by intro p; simp [excluded, hs]
    have hl : listNoHidden env fs q = [o] := by
      have hm : ∀ x, x ∈ env.ls fs q ↔ x = o := by
        intro x
        rw [(hls fs q).2 x]
        constructor
        · intro h; simpa using h3 [x] h
        · rintro rfl; rw [h2]; rfl
      have hnd := (hls fs q).1
      have : env.ls fs q = [o] := by
        generalize env.ls fs q = l at hm hnd
        cases l with
        | nil => exact absurd ((hm o).2 rfl) (by simp)
        | cons a l =>
          have ha := (hm a).1 (by simp)
          subst ha
          cases l with
          | nil => rfl
          | cons b l =>
            have hb := (hm b).1 (by simp)
            subst hb
            simp at hnd
      simp [listNoHidden, this, ho]
    have hnone : fs.get? (q ++ [o] ++ [o]) = none := by
      cases h : fs.get? (q ++ [o] ++ [o]) with
      | none => rfl
      | some e =>
        have := h3 [o, o] (by simp only [List.append_assoc, List.cons_append, List.nil_append] at h; rw [h]; rfl)
        simp at this
    have hreach : Reachable fs (q ++ [o] ++ [o]) := by
      intro p hp hpp
      rcases prefix_concat_iff.1 hpp with h | h
      · exact Or.inl (h ▸ hnone)
      · rcases prefix_concat_iff.1 h with h | h
        · exact Or.inr (h ▸ h2)
        · exact Or.inr (h4 p hp h)
    obtain ⟨g, e1, e2, e3⟩ := makedirs_ok hreach
    have hprep : prepareDir fs (q ++ [o]) (q ++ [o] ++ [o]) = .ok g := by
      have : exists_ fs (q ++ [o] ++ [o]) = false := by
        have h5 : isDir fs (q ++ [o] ++ [o]) = false := isDir_false (by simp) (by rw [hnone]; simp)
        have h6 : isFile fs (q ++ [o] ++ [o]) = false := by unfold isFile; rw [hnone]
        rw [exists_, h5, h6]; rfl
      rw [prepareDir, isDir_of_get h2, this]; exact e1
    have hrec : transferDir env pats n g (q ++ [o]) (q ++ [o] ++ [o]) = .fuel := by
      refine ih g (q ++ [o]) (e2 _ (by simp) (List.prefix_append _ _)) (e2 _ (by simp) (List.prefix_refl _)) ?_ ?_
      · intro r hr
        by_cases hp : q ++ [o] ++ r ≠ [] ∧ q ++ [o] ++ r <+: q ++ [o] ++ [o]
        · have h5 := (List.prefix_append_right_inj (q ++ [o])).1 hp.2
          cases r with
          | nil => exact Or.inl rfl
          | cons a r => simp at h5; right; simp [h5]
        · rw [e3 _ hp] at hr
          have := h3 (o :: r) (by simpa using hr)
          left; simpa using this
      · intro p hp hpp
        exact e2 p hp (hpp.trans (List.prefix_append _ _))
    unfold transferDir
    rw [if_neg (by simp [isFile, h1]), if_pos (isDir_of_get h1), hl]
    simp only [forEach, hex, Bool.false_eq_true, if_false, hprep, Res.bind, hrec]

/-- **C19, the restriction is needed.** An existing, empty output directory inside an input directory that has
nothing else: the run descends into its own output for ever (until the operating system refuses the path). -/
theorem C19_negative (fuel : Nat) :
    run { exEnv with search := fun _ _ => false } fuel [([py"p"], .dir), ([py"p", py"out"], .dir)]
      [py"p"] [py"p", py"out"] [] = .fuel := by
  have hls : Listing { exEnv with search := fun _ _ => false } := exEnv_listing
  have := endless _ hls (fun _ _ => rfl) py"out" (by decide) (patterns []) fuel
    [([py"p"], .dir), ([py"p", py"out"], .dir)] [py"p"] rfl rfl (by
      intro r hr
      have := Dict.has_iff.1 hr
      simpa [Dict.keys] using this) (by
      intro p hp hpp
      have : p = [py"p"] := by
        cases p with
        | nil => exact absurd rfl hp
        | cons a p => simpa using hpp
      rw [this]; rfl)
  unfold run
  rw [if_neg (by decide)]
  have e : [py"p"] ++ [py"out"] = [py"p", py"out"] := rfl
  rw [e] at this
  rw [this]; rfl

/-- **C19, what becomes of all such runs.** If the output path lies in the input directory and the first name on the way is
an existing directory, no run ends well: it does not end, or it stops with an exception. Here no name on the way is hidden,
no path that the run makes on the way is excluded, and none of them is a file or below one. -/
theorem C19_inside_negative (env : Env) (hls : Listing env) (fs : FS) (inP : Path) (s : List Str) (hs : s ≠ []) (exclude : Str)
    (hv : ∀ k, Visible env (patterns exclude) inP (echo s k))
    (hfree : ∀ k, fs.get? (inP ++ echo s k) = none ∨ fs.get? (inP ++ echo s k) = some .dir)
    (htree : ∀ k, isDir fs (inP ++ echo s (k + 1)) = true → isDir fs (inP ++ echo s k) = true)
    (hd : isDir fs (inP ++ s.take 1) = true) (fuel : Nat) (fs' : FS) :
    run env fuel fs inP (inP ++ s) exclude ≠ .ok fs' := by
  have h1 : s.take 1 = echo s 1 := by
    cases s with
    | nil => exact absurd rfl hs
    | cons c s => rfl
  rw [h1] at hd
  unfold run
  split
  · simp
  · intro h
    obtain ⟨g, h2, -⟩ := bind_ok h
    have := inside_never env hls (patterns exclude) inP s hs hv fuel 0 fs ⟨hfree, htree⟩ hd g
    simp only [echo, List.range_zero, List.map_nil, List.append_nil] at this
    exact this h2

example : ¬ [py"p"] <+: [py"q"] := by decide

/-- `p` with the file `a.py` and the directory `lib`. -/
def insideFS : FS := [([py"p"], .dir), ([py"p", py"a.py"], .file []), ([py"p", py"lib"], .dir)]

/-- Converting `p` into `p/lib/out`, where `lib` exists. -/
example : ([py"lib", py"out"] : List Str) ≠ [] ∧
    (∀ k, Visible { exEnv with search := fun _ _ => false } (patterns []) [py"p"] (echo [py"lib", py"out"] k)) ∧
    (∀ k, insideFS.get? ([py"p"] ++ echo [py"lib", py"out"] k) = none ∨
      insideFS.get? ([py"p"] ++ echo [py"lib", py"out"] k) = some .dir) ∧
    (∀ k, isDir insideFS ([py"p"] ++ echo [py"lib", py"out"] (k + 1)) = true →
      isDir insideFS ([py"p"] ++ echo [py"lib", py"out"] k) = true) ∧
    isDir insideFS ([py"p"] ++ [py"lib", py"out"].take 1) = true := by
  have two : ∀ k, insideFS.get? ([py"p"] ++ echo [py"lib", py"out"] (k + 2)) = none := by
    intro k
    have h : ([py"p"] ++ echo [py"lib", py"out"] (k + 2)).length = k + 3 := by simp [echo_length]
    apply Dict.get?_eq_none_iff.2
    intro hm
    simp only [insideFS, Dict.keys, List.map_cons, List.map_nil, List.mem_cons, List.not_mem_nil, or_false] at hm
    rcases hm with e | e | e <;> rw [e] at h <;> simp at h
  refine ⟨by simp, fun k => ⟨?_, ?_⟩, fun k => ?_, fun k => ?_, by decide⟩
  · intro c hc
    obtain ⟨i, -, rfl⟩ := List.mem_map.1 hc
    have : i % 2 = 0 ∨ i % 2 = 1 := by omega
    rcases this with h | h <;> simp [h] <;> decide
  · intro j _
    simp [excluded]
  · match k with
    | 0 => exact .inr (by decide)
    | 1 => exact .inr (by decide)
    | k + 2 => exact .inl (two k)
  · match k with
    | 0 => intro _; decide
    | k + 1 =>
      intro h
      rcases isDir_iff.1 h with h | h
      · simp at h
      · rw [two k] at h; simp at h

/-- **C19, a file at the output path.** If the output path is a visible file in the input directory, no run ends well: the
run deletes this file and makes a directory of it, and then it fails on the missing file or enters its own output. -/
theorem C19_file_negative (env : Env) (hls : Listing env) (fs : FS) (inP : Path) (c : Str) (b : Bytes) (exclude : Str)
    (hv : ∀ k, Visible env (patterns exclude) inP (List.replicate k c)) (hin : fs.get? inP = some .dir)
    (hf : fs.get? (inP ++ [c]) = some (.file b)) (ht : ∀ r, r ≠ [] → fs.get? (inP ++ [c] ++ r) = none)
    (fuel : Nat) (fs' : FS) : run env fuel fs inP (inP ++ [c]) exclude ≠ .ok fs' := by
  have he : ∀ k, echo [c] k = List.replicate k c := by
    intro k
    induction k with
    | zero => rfl
    | succ k ih => rw [echo_one_succ, ih, List.replicate_succ]
  unfold run
  split
  · simp
  · intro h
    obtain ⟨g, h2, -⟩ := bind_ok h
    exact file_never env hls (patterns exclude) inP c (fun k => by rw [he]; exact hv k) fuel fs ⟨hin, ⟨b, hf⟩, ht⟩ g h2

/-- The file is gone even if the run stops: `p/out` was a file of the input. -/
example : run exEnv 3 [([py"p"], .dir), ([py"p", py"out"], .file [1])] [py"p"] [py"p", py"out"] [] =
    .error [([py"p"], .dir), ([py"p", py"out"], .dir)] := by decide +kernel

example : (∀ k, Visible { exEnv with search := fun _ _ => false } (patterns []) [py"p"] (List.replicate k py"out")) ∧
    Dict.get? (κ := Path) [([py"p"], Entry.dir), ([py"p", py"out"], .file [1])] ([py"p"] ++ [py"out"]) = some (.file [1]) ∧
    ∀ r, r ≠ [] → Dict.get? (κ := Path) [([py"p"], Entry.dir), ([py"p", py"out"], .file [1])] ([py"p"] ++ [py"out"] ++ r) = none := by
  refine ⟨fun k => ⟨?_, fun j _ => by simp [excluded]⟩, rfl, ?_⟩
  · intro c hc
    rw [(List.mem_replicate.1 hc).2]
    decide
  · intro r hr
    apply Dict.get?_eq_none_iff.2
    intro hm
    simp [Dict.keys] at hm
    exact hr hm

/-- `p/x` is a file and `p/l` a dangling link: converting `p` into `p/x/out` or into `p/l` ends. -/
example : ∃ c s e, [py"p", py"x", py"out"] = [py"p"] ++ c :: s ∧
    Dict.get? (κ := Path) [([py"p"], Entry.dir), ([py"p", py"x"], .file [1])] ([py"p"] ++ [c]) = some e ∧ e ≠ .dir ∧
    (s = [] → e = .deadLink) := ⟨py"x", [py"out"], _, rfl, rfl, by simp, by simp⟩

example : ∃ c s e, [py"p", py"l"] = [py"p"] ++ c :: s ∧
    Dict.get? (κ := Path) [([py"p"], Entry.dir), ([py"p", py"l"], .deadLink)] ([py"p"] ++ [c]) = some e ∧ e ≠ .dir ∧
    (s = [] → e = .deadLink) := ⟨py"l", [], _, rfl, rfl, by simp, by simp⟩

/-- Converting `p` into `p/out`, where `out` does not exist, ends. -/
example : ∃ c s, [py"p", py"out"] = [py"p"] ++ c :: s ∧ insideFS.get? ([py"p"] ++ [c]) = none :=
  ⟨py"out", [], rfl, by decide⟩

end Verif.Files

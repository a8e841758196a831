import Verif.Model.Direct
import Verif.Spec.Direct
import Verif.Props.Matcher
import Verif.Props.TemplateNegative

/-!
# C101: calls whose matcher reads the arguments itself
-/

namespace Verif.Matcher
open Verif Verif.Spec

/-! ## The keywords of a call -/

/-- A call that Python accepts, with supported keywords: no keyword twice, at most one `**`. -/
def Accepted (cfg : Cfg) (kws : List Kw) : Prop :=
  (kws.map (·.arg)).Nodup ∧ ∀ n ∈ kws, ∀ k, n.arg = some k → k ∉ cfg.unsupport

theorem Accepted.wf {cfg : Cfg} {kws : List Kw} (h : Accepted cfg kws) : Dict.WF (kwBindings kws) := by
  have hm : (kwBindings kws).map Prod.fst = kws.map (·.arg) := by simp [kwBindings]
  simpa [Dict.WF, Dict.keys, hm] using h.1

theorem Accepted.parse {cfg : Cfg} {kws : List Kw} (h : Accepted cfg kws) :
    parseKwargs cfg true kws [] = some (kwBindings kws) := by
  have hm : (kwBindings kws).map Prod.fst = kws.map (·.arg) := by simp [kwBindings]
  rw [parseKwargs_eq h.2, Dict.update_fresh]
  · simp
  · simpa [Dict.keys, hm] using h.1

theorem parse_named {cfg : Cfg} {kws : List Kw} (h : ∀ n ∈ kws, n.arg ≠ none) (d : Kwargs) :
    parseKwargs cfg false kws d = parseKwargs cfg true kws d := by
  induction kws generalizing d with
  | nil => rfl
  | cons n rest ih =>
    have ih' := fun d => ih (fun m hm => h m (by simp [hm])) d
    unfold parseKwargs
    cases hn : n.arg with
    | none => exact absurd hn (h n (by simp))
    | some k => simp only [ih']

theorem get_gives {cfg : Cfg} {kws : List Kw} (h : Accepted cfg kws) {k t : Str} (hg : Gives kws k t) :
    Dict.get? (kwBindings kws) (some k) = some t := by
  obtain ⟨n, hn, h1, h2⟩ := hg
  apply Dict.get?_of_mem h.wf
  exact List.mem_map.2 ⟨n, hn, by rw [h1, h2]⟩

theorem get_omits {kws : List Kw} {k : Str} (ho : Omits kws k) : Dict.get? (kwBindings kws) (some k) = none := by
  rw [Dict.get?_eq_none_iff]
  intro hm
  obtain ⟨kv, hkv, e⟩ := List.mem_map.1 hm
  obtain ⟨n, hn, rfl⟩ := List.mem_map.1 hkv
  exact ho n hn e

theorem gives_or_omits (kws : List Kw) (k : Str) : Omits kws k ∨ ∃ t, Gives kws k t := by
  by_cases h : ∃ n ∈ kws, n.arg = some k
  · obtain ⟨n, hn, e⟩ := h
    exact .inr ⟨n.src, n, hn, e, rfl⟩
  · exact .inl fun n hn e => h ⟨n, hn, e⟩

theorem split_filtered {L : Lexer} {args : List Arg} {kws : List Kw} (p : Option Str → Bool) (ha : ∀ a ∈ args, Closed L a.src)
    (hk : ∀ n ∈ kws, Closed L n.src ∧ ∀ k, n.arg = some k → NameLike k) :
    L.splitArgs (argsAndKwargsToStr (parsePlain args) ((kwBindings kws).filter fun kv => p kv.1))
      = args.map (·.src) ++ (kws.filter fun n => p n.arg).map kwWritten := by
  rw [C45_arguments_emitted]
  · congr 1
    simp only [kwBindings, List.filter_map, List.map_map]
    rfl
  · intro a h
    obtain ⟨x, hx, rfl⟩ := List.mem_map.1 h
    exact ha x hx
  · intro kv h
    obtain ⟨n, hn, rfl⟩ := List.mem_map.1 (List.mem_filter.1 h).1
    exact hk n hn

/-! ## `checkpoint` -/

/-- **C101, `torch.utils.checkpoint.checkpoint`.** The call has the arguments of the source call in their order, without the
three keywords that choose how PyTorch records the function. Missing for the whole of C101: the calls of the theorems
`C101_…_negative`. -/
theorem C101_checkpoint_partial (L : Lexer) (cfg : Cfg) (api : Str) (args : List Arg) (kws : List Kw) (hw : Accepted cfg kws)
    (ha : ∀ a ∈ args, Closed L a.src) (hk : ∀ n ∈ kws, Closed L n.src ∧ ∀ k, n.arg = some k → NameLike k) :
    ∃ inside, checkpoint cfg api args kws = .code (api ++ py"(" ++ inside ++ py")") ∧
      L.splitArgs inside = args.map (·.src) ++ (kws.filter fun n => decide
        (n.arg ≠ some py"context_fn" ∧ n.arg ≠ some py"determinism_check" ∧ n.arg ≠ some py"debug")).map kwWritten := by
  refine ⟨_, by rw [checkpoint, hw.parse], ?_⟩
  rw [dropKeys_eq _ hw.wf]
  rw [split_filtered (fun k => decide (∀ x ∈ checkpointDropped, k ≠ some x)) ha hk]
  simp [checkpointDropped]

example : Accepted {} [⟨some py"use_reentrant", py"(False)", false⟩, ⟨some py"debug", py"(True)", false⟩, ⟨none, py"kw", false⟩] ∧
    checkpoint {} py"paddle.distributed.fleet.utils.recompute" [⟨py"f", false⟩, ⟨py"*xs", true⟩]
      [⟨some py"use_reentrant", py"(False)", false⟩, ⟨some py"debug", py"(True)", false⟩, ⟨none, py"kw", false⟩]
      = .code py"paddle.distributed.fleet.utils.recompute(f, *xs, use_reentrant=(False), **kw)" := by
  constructor
  · simp [Accepted]
  · decide

/-! ## `hub.load` -/

/-- **C101, `torch.hub.load`.** The positional arguments are kept; so are the keywords other than those of PyTorch's loader;
`repo_or_dir` is given at the end under its new name. (The name `repo_dir` is not free for a keyword of the model.) -/
theorem C101_hub_load_partial (L : Lexer) (cfg : Cfg) (api : Str) (args : List Arg) (kws : List Kw) (hw : Accepted cfg kws)
    (hr : Omits kws py"repo_dir") (ha : ∀ a ∈ args, Closed L a.src)
    (hk : ∀ n ∈ kws, Closed L n.src ∧ ∀ k, n.arg = some k → NameLike k) :
    ∃ inside, hubLoad cfg api args kws = .code (api ++ py"(" ++ inside ++ py")") ∧
      L.splitArgs inside = args.map (·.src)
        ++ (kws.filter fun n => decide (n.arg ≠ some py"trust_repo" ∧ n.arg ≠ some py"verbose" ∧
            n.arg ≠ some py"skip_validation" ∧ n.arg ≠ some py"repo_or_dir")).map kwWritten
        ++ (kws.filter fun n => decide (n.arg = some py"repo_or_dir")).map (fun n => py"repo_dir=" ++ n.src) := by
  refine ⟨_, by rw [hubLoad, hw.parse], ?_⟩
  rcases gives_or_omits kws py"repo_or_dir" with ho | ⟨t, hg⟩
  · have e : hubRename (kwBindings kws) = kwBindings kws := by rw [hubRename, get_omits ho]
    rw [e, dropKeys_eq _ hw.wf, split_filtered (fun k => decide (∀ x ∈ hubDropped, k ≠ some x)) ha hk]
    have h2 : (kws.filter fun n => decide (n.arg = some py"repo_or_dir")) = [] := by
      rw [List.filter_eq_nil_iff]
      intro n hn
      simpa using ho n hn
    rw [h2, List.map_nil, List.append_nil]
    congr 2
    apply List.filter_congr
    intro n hn
    have := ho n hn
    simp [hubDropped, this]
  · have hwe : Dict.WF (Dict.erase (kwBindings kws) (some py"repo_or_dir")) := hw.wf.erase _
    have hnm : some py"repo_dir" ∉ Dict.keys (Dict.erase (kwBindings kws) (some py"repo_or_dir")) := by
      intro hm
      have := (Dict.keys_erase_sublist (kwBindings kws) (some py"repo_or_dir")).subset hm
      obtain ⟨kv, hkv, e⟩ := List.mem_map.1 this
      obtain ⟨n, hn, rfl⟩ := List.mem_map.1 hkv
      exact hr n hn e
    have e : hubRename (kwBindings kws)
        = (kwBindings kws).filter (fun kv => decide (kv.1 ≠ some py"repo_or_dir")) ++ [(some py"repo_dir", t)] := by
      rw [hubRename, get_gives hw hg]
      show Dict.set _ _ _ = _
      rw [Dict.set_of_not_mem hnm, erase_eq_filter hw.wf]
    have hwr : Dict.WF (hubRename (kwBindings kws)) := by
      rw [hubRename, get_gives hw hg]
      exact hwe.set _ _
    rw [dropKeys_eq _ hwr, e, List.filter_append, List.filter_filter]
    have h1 : [((some py"repo_dir" : Option Str), t)].filter (fun kv => decide (∀ k ∈ hubDropped, kv.1 ≠ some k))
        = [(some py"repo_dir", t)] := by
      rw [List.filter_eq_self]
      intro kv hkv
      rw [List.mem_singleton] at hkv
      subst hkv
      simp [hubDropped]
    rw [h1]
    obtain ⟨n0, hn0, ha0, hs0⟩ := hg
    have h2 : (kws.filter fun n => decide (n.arg = some py"repo_or_dir")).map (fun n => py"repo_dir=" ++ n.src)
        = [py"repo_dir=" ++ t] := by
      have hone : ∀ (l : List Kw), (l.map (·.arg)).Nodup → n0 ∈ l →
          (l.filter fun n => decide (n.arg = some py"repo_or_dir")) = [n0] := by
        intro l
        induction l with
        | nil => intro _ h; simp at h
        | cons m l ih =>
          intro hnd hm
          rw [List.map_cons, List.nodup_cons] at hnd
          rcases List.mem_cons.1 hm with rfl | hm
          · have : (l.filter fun n => decide (n.arg = some py"repo_or_dir")) = [] := by
              rw [List.filter_eq_nil_iff]
              intro n hn
              simp only [decide_eq_true_eq]
              intro he
              exact hnd.1 (List.mem_map.2 ⟨n, hn, by rw [he, ha0]⟩)
            simp [ha0, this]
          · have hne : m.arg ≠ some py"repo_or_dir" := by
              intro he
              exact hnd.1 (List.mem_map.2 ⟨n0, hm, by rw [he, ha0]⟩)
            simp [hne, ih hnd.2 hm]
      rw [hone kws hw.1 hn0]
      simp [hs0]
    rw [h2, C45_arguments_emitted]
    · rw [List.map_append, List.append_assoc]
      congr 2
      simp only [kwBindings, List.filter_map, List.map_map]
      have : (fun n : Kw => decide (n.arg ≠ some py"trust_repo" ∧ n.arg ≠ some py"verbose" ∧
            n.arg ≠ some py"skip_validation" ∧ n.arg ≠ some py"repo_or_dir"))
          = ((fun a : Option Str × Str => (decide (∀ k ∈ hubDropped, a.1 ≠ some k)) && decide (a.1 ≠ some py"repo_or_dir"))
            ∘ fun n : Kw => (n.arg, n.src)) := by
        funext n
        simp only [Function.comp, hubDropped]
        rw [Bool.eq_iff_iff]
        simp [and_assoc]
      rw [this]
      rfl
    · intro a h
      obtain ⟨x, hx, rfl⟩ := List.mem_map.1 h
      exact ha x hx
    · intro kv h
      rcases List.mem_append.1 h with h | h
      · obtain ⟨n, hn, rfl⟩ := List.mem_map.1 (List.mem_filter.1 h).1
        exact hk n hn
      · rw [List.mem_singleton] at h
        subst h
        refine ⟨hs0 ▸ (hk n0 hn0).1, ?_⟩
        intro k e
        cases e
        intro c hc
        revert c
        decide

example : hubLoad {} py"paddle.hub.load" [] [⟨some py"repo_or_dir", py"r", false⟩, ⟨some py"model", py"m", false⟩,
    ⟨some py"trust_repo", py"(True)", false⟩] = .code py"paddle.hub.load(model=m, repo_dir=r)" := by decide

/-- The parameters of `paddle.hub.load` that can be given by position. -/
def paddleHubParams : List Str := [py"repo_dir", py"model", py"source", py"force_reload"]

/-- The parameters of `torch.hub.load` before its `*args`. -/
def torchHubParams : List Str := [py"repo_or_dir", py"model"]

/-- **C101 is false for `torch.hub.load` with arguments for the model:** a third positional argument, which PyTorch hands to
the model, is passed on in its place, where Paddle takes it for the source. -/
theorem C101_hub_load_negative (L : Lexer) (cfg : Cfg) (api : Str) (args : List Arg) (kws : List Kw) (hw : Accepted cfg kws)
    (hr : Omits kws py"repo_dir") (ha : ∀ a ∈ args, Closed L a.src)
    (hk : ∀ n ∈ kws, Closed L n.src ∧ ∀ k, n.arg = some k → NameLike k) (a : Arg) (h3 : args[2]? = some a) :
    ∃ inside, hubLoad cfg api args kws = .code (api ++ py"(" ++ inside ++ py")") ∧ (L.splitArgs inside)[2]? = some a.src ∧
      torchHubParams[2]? = none ∧ paddleHubParams[2]? = some py"source" := by
  obtain ⟨inside, h1, h2⟩ := C101_hub_load_partial L cfg api args kws hw hr ha hk
  refine ⟨inside, h1, ?_, rfl, rfl⟩
  have hlt : 2 < args.length := by
    rw [List.getElem?_eq_some_iff] at h3
    exact h3.1
  rw [h2, List.append_assoc, List.getElem?_append_left (by simpa using hlt), List.getElem?_map, h3]
  rfl

example : hubLoad {} py"paddle.hub.load" [⟨py"r", false⟩, ⟨py"m", false⟩, ⟨py"x", false⟩] []
    = .code py"paddle.hub.load(r, m, x)" := by decide

/-! ## `Tensor.stft` -/

/-- **C101, `torch.Tensor.stft`.** The method of the same receiver is called with the arguments of the source call, without
`return_complex`, and its result is turned into real numbers exactly if `return_complex` is the constant `False`. -/
theorem C101_stft_partial (L : Lexer) (cfg : Cfg) (recv : Str) (args : List Arg) (kws : List Kw) (hw : Accepted cfg kws)
    (hb : '\\' ∉ recv) (hl : '\n' ∉ recv)
    (ha : ∀ a ∈ args, Closed L a.src) (hk : ∀ n ∈ kws, Closed L n.src ∧ ∀ k, n.arg = some k → NameLike k) :
    ∃ inside tail, tensorStft cfg (recv ++ py".stft") py"paddle.Tensor.stft" args kws
        = .code (recv ++ py".stft(" ++ inside ++ py")" ++ tail) ∧
      L.splitArgs inside = args.map (·.src) ++ (kws.filter fun n => decide (n.arg ≠ some py"return_complex")).map kwWritten ∧
      (Gives kws py"return_complex" py"(False)" → tail = py".as_real()") ∧
      (¬Gives kws py"return_complex" py"(False)" → tail = []) := by
  have hf : parseFunc (recv ++ py".stft") py"paddle.Tensor.stft" = recv ++ py".stft" := by
    have := C50_receiver_kept_partial (recv := recv) (m := py"stft") (p := py"paddle.Tensor") (rest := py".stft")
      (by decide) (by decide) hb (by decide) (no_class_of (by decide))
    have hc : continued recv = recv := by
      clear this hb
      induction recv with
      | nil => rfl
      | cons c s ih =>
        rw [List.mem_cons, not_or] at hl
        have h1 : continued (c :: s) = (if c = '\n' then ['\\', '\n'] else [c]) ++ continued s := by simp [continued]
        rw [h1, ih hl.2, if_neg (fun e => hl.1 e.symm)]
        rfl
    rw [hc] at this
    exact this
  refine ⟨argsAndKwargsToStr (parsePlain args) (Dict.erase (kwBindings kws) (some py"return_complex")),
    if Dict.get? (kwBindings kws) (some py"return_complex") = some py"(False)" then py".as_real()" else [], ?_, ?_, ?_, ?_⟩
  · rw [tensorStft, hw.parse]
    simp only [hf]
    split <;> simp
  · rw [erase_eq_filter hw.wf]
    exact split_filtered (fun k => decide (k ≠ some py"return_complex")) ha hk
  · intro hg
    rw [if_pos (get_gives hw hg)]
  · intro hg
    rw [if_neg]
    intro he
    obtain ⟨n, hn, e⟩ := List.mem_map.1 (Dict.mem_of_get? he)
    apply hg
    exact ⟨n, hn, by simpa using congrArg Prod.fst e, by simpa using congrArg Prod.snd e⟩

example : tensorStft {} py"f(x).stft" py"paddle.Tensor.stft" [⟨py"(4)", false⟩]
    [⟨some py"return_complex", py"(False)", false⟩, ⟨some py"center", py"c", false⟩]
    = .code py"f(x).stft((4), center=c).as_real()" := by decide

/-- The parameters of `paddle.Tensor.stft`. -/
def paddleStftParams : List Str :=
  [py"n_fft", py"hop_length", py"win_length", py"window", py"center", py"pad_mode", py"normalized", py"onesided", py"name"]

/-- The parameters of `torch.Tensor.stft`. -/
def torchStftParams : List Str :=
  [py"n_fft", py"hop_length", py"win_length", py"window", py"center", py"pad_mode", py"normalized", py"onesided",
   py"return_complex"]

/-- **C101 is false for `return_complex` by position:** the ninth argument becomes the name of the operation, and the
result is not turned into real numbers, also if the argument is `False`. -/
theorem C101_stft_positional_negative (L : Lexer) (cfg : Cfg) (recv : Str) (args : List Arg) (kws : List Kw)
    (hw : Accepted cfg kws) (hb : '\\' ∉ recv) (hl : '\n' ∉ recv) (ha : ∀ a ∈ args, Closed L a.src)
    (hk : ∀ n ∈ kws, Closed L n.src ∧ ∀ k, n.arg = some k → NameLike k) (a : Arg) (h9 : args[8]? = some a)
    (hr : Omits kws py"return_complex") :
    ∃ inside, tensorStft cfg (recv ++ py".stft") py"paddle.Tensor.stft" args kws = .code (recv ++ py".stft(" ++ inside ++ py")") ∧
      (L.splitArgs inside)[8]? = some a.src ∧ torchStftParams[8]? = some py"return_complex" ∧
      paddleStftParams[8]? = some py"name" := by
  obtain ⟨inside, tail, h1, h2, _, h4⟩ := C101_stft_partial L cfg recv args kws hw hb hl ha hk
  have ht : tail = [] := h4 (by
    rintro ⟨n, hn, e, _⟩
    exact hr n hn e)
  subst ht
  refine ⟨inside, by simpa using h1, ?_, rfl, rfl⟩
  have hlt : 8 < args.length := by
    rw [List.getElem?_eq_some_iff] at h9
    exact h9.1
  rw [h2, List.getElem?_append_left (by simpa using hlt), List.getElem?_map, h9]
  rfl

example : tensorStft {} py"x.stft" py"paddle.Tensor.stft" ([py"a", py"b", py"c", py"d", py"e", py"f", py"g", py"h",
    py"(False)"].map fun t => ⟨t, false⟩) [] = .code py"x.stft(a, b, c, d, e, f, g, h, (False))" := by decide

/-- **C101 is false for `return_complex=flag`:** the result stays complex, also if the variable is `False`. -/
theorem C101_stft_variable_negative : tensorStft {} py"x.stft" py"paddle.Tensor.stft" [⟨py"n", false⟩]
    [⟨some py"return_complex", py"flag", false⟩] = .code py"x.stft(n)" := by decide

/-! ## `chain_matmul` -/

theorem factors_append (L : Lexer) (s : L.σ) (t rest : Str) (he : L.run s t = L.top)
    (hc : ∀ u v, t = u ++ '@' :: v → L.run s u ≠ L.top) :
    L.factors s (t ++ '@' :: rest) = t :: L.factors L.top rest := by
  induction t generalizing s with
  | nil =>
    have : s = L.top := by simpa [Lexer.run] using he
    subst this
    simp [Lexer.factors]
  | cons c cs ih =>
    have hn : ¬(s = L.top ∧ c = '@') := by
      rintro ⟨e1, e2⟩
      exact hc [] cs (by simp [e2]) (by simpa [Lexer.run] using e1)
    simp only [List.cons_append, Lexer.factors, if_neg hn]
    rw [ih (L.step s c) (by simpa [Lexer.run] using he) (fun u v e => by
      have := hc (c :: u) v (by simp [e])
      simpa [Lexer.run] using this)]

theorem factors_single (L : Lexer) (s : L.σ) (t : Str) (hc : ∀ u v, t = u ++ '@' :: v → L.run s u ≠ L.top) :
    L.factors s t = [t] := by
  induction t generalizing s with
  | nil => simp [Lexer.factors]
  | cons c cs ih =>
    have hn : ¬(s = L.top ∧ c = '@') := by
      rintro ⟨e1, e2⟩
      exact hc [] cs (by simp [e2]) (by simpa [Lexer.run] using e1)
    simp only [Lexer.factors, if_neg hn]
    rw [ih (L.step s c) (fun u v e => by
      have := hc (c :: u) v (by simp [e])
      simpa [Lexer.run] using this)]

theorem step_blank (L : Lexer) : L.step L.top ' ' = L.top := L.plain ' ' (by decide)

theorem noAt_blanks {L : Lexer} {t : Str} (h : Factor L t) (a b : Bool) :
    ∀ u v, (if a then [' '] else []) ++ t ++ (if b then [' '] else []) = u ++ '@' :: v → L.run L.top u ≠ L.top := by
  have base : ∀ u v, t ++ (if b then [' '] else []) = u ++ '@' :: v → L.run L.top u ≠ L.top := by
    intro u v e
    cases b with
    | false => exact h.noAt u v (by simpa using e)
    | true =>
      simp only [if_true] at e
      rcases List.append_eq_append_iff.1 e with ⟨w, h1, h2⟩ | ⟨w, h1, h2⟩
      · have : '@' ∈ [' '] := by rw [h2]; simp
        exact absurd this (by decide)
      · cases w with
        | nil =>
          have : '@' ∈ [' '] := by rw [← List.nil_append [' '], ← h2]; simp
          exact absurd this (by decide)
        | cons d w =>
          simp only [List.cons_append, List.cons.injEq] at h2
          exact h.noAt u w (by rw [h1, ← h2.1])
  intro u v e
  cases a with
  | false => exact base u v (by simpa using e)
  | true =>
    cases u with
    | nil => simp at e
    | cons c u =>
      simp only [if_true, List.cons_append, List.nil_append, List.cons.injEq] at e
      have := base u v e.2
      rw [← e.1]
      simpa [Lexer.run, step_blank] using this

theorem run_blanks {L : Lexer} {t : Str} (h : Factor L t) (a b : Bool) :
    L.run L.top ((if a then [' '] else []) ++ t ++ (if b then [' '] else [])) = L.top := by
  have h1 := h.ends
  simp only [Lexer.run, List.foldl_append] at h1 ⊢
  cases a <;> cases b <;> simp [step_blank, h1]

theorem strip_blanks {t : Str} (h : Str.stripBy (· == ' ') t = t) (a b : Bool) :
    Str.stripBy (· == ' ') ((if a then [' '] else []) ++ t ++ (if b then [' '] else [])) = t := by
  have h1 : Str.stripBy (· == ' ') ((if a then [' '] else []) ++ t ++ (if b then [' '] else []))
      = Str.stripBy (· == ' ') (t ++ (if b then [' '] else [])) := by
    cases a <;> simp [Str.stripBy, Str.lstripBy]
  rw [h1]
  cases b with
  | false => simpa using h
  | true =>
    simp only [if_true]
    have hstrip : ∀ l : Str, Str.rstripBy (· == ' ') (l ++ [' ']) = Str.rstripBy (· == ' ') l := by
      intro l
      simp [Str.rstripBy]
    cases t with
    | nil => decide
    | cons c cs =>
      have hc : c ≠ ' ' := by
        intro e
        subst e
        have hlen := congrArg List.length h
        have h2 : (Str.stripBy (· == ' ') (' ' :: cs)).length ≤ cs.length := by
          simp only [Str.stripBy, Str.lstripBy, Str.rstripBy]
          rw [List.dropWhile_cons_of_pos (by decide), List.length_reverse]
          refine Nat.le_trans (List.dropWhile_sublist _).length_le ?_
          rw [List.length_reverse]
          exact (List.dropWhile_sublist _).length_le
        rw [hlen] at h2
        exact absurd h2 (by simp)
      have e1 : Str.lstripBy (· == ' ') (c :: cs ++ [' ']) = c :: cs ++ [' '] := by
        simp [Str.lstripBy, hc]
      have e2 : Str.lstripBy (· == ' ') (c :: cs) = c :: cs := by
        simp [Str.lstripBy, hc]
      rw [Str.stripBy, e1, hstrip]
      rw [Str.stripBy, e2] at h
      exact h

/-- The product text: a blank and `@` between two operands. -/
theorem operands_fold (L : Lexer) (a : Str) (rest : List Str) (b : Bool) (h : ∀ t ∈ a :: rest, Factor L t) :
    (L.factors L.top ((if b then [' '] else []) ++ rest.foldl (fun code arg => code ++ py" @ " ++ arg) a)).map
      (Str.stripBy (· == ' ')) = a :: rest := by
  have e : ∀ (rest : List Str) (a : Str), rest.foldl (fun code arg => code ++ py" @ " ++ arg) a
      = a ++ rest.flatMap (fun arg => py" @ " ++ arg) := by
    intro rest
    induction rest with
    | nil => intro a; simp
    | cons r rest ih => intro a; rw [List.foldl_cons, ih]; simp
  rw [e]
  clear e
  induction rest generalizing a b with
  | nil =>
    have h0 := h a (by simp)
    have := noAt_blanks h0 b false
    simp only [Bool.false_eq_true, if_false, List.append_nil] at this
    simp only [List.flatMap_nil, List.append_nil]
    rw [factors_single L _ _ this]
    have := strip_blanks h0.strip b false
    simp only [Bool.false_eq_true, if_false, List.append_nil] at this
    simp [this]
  | cons r rest ih =>
    have h0 := h a (by simp)
    have e : (if b then [' '] else []) ++ (a ++ (r :: rest).flatMap (fun arg => py" @ " ++ arg))
        = ((if b then [' '] else []) ++ a ++ (if true then [' '] else [])) ++ '@' ::
          ((if true then [' '] else []) ++ (r ++ rest.flatMap (fun arg => py" @ " ++ arg))) := by
      simp
    rw [e, factors_append L _ _ _ (run_blanks h0 b true) (noAt_blanks h0 b true), List.map_cons,
      strip_blanks h0.strip b true, ih r true (fun t ht => h t (by simp [ht]))]

/-- **C101, `torch.chain_matmul`.** The code is the product of the given matrices in their order; with `out`, it is
assigned to that tensor. -/
theorem C101_chain_matmul_partial (L : Lexer) (cfg : Cfg) (args : List Arg) (kws : List Kw) (hw : Accepted cfg kws)
    (hn : ∀ n ∈ kws, n.arg ≠ none) (h0 : args ≠ []) (hs : ∀ a ∈ args, a.starred = false) (ha : ∀ a ∈ args, Factor L a.src) :
    ∃ product, L.operands product = args.map (·.src) ∧
      ((Omits kws py"out" ∨ Gives kws py"out" py"None") → chainMatmul cfg args kws = .code product) ∧
      (∀ o, Gives kws py"out" o → o ≠ py"None" →
        chainMatmul cfg args kws = .code (py"paddle.assign(" ++ product ++ py", output=" ++ o ++ py")")) := by
  cases args with
  | nil => exact absurd rfl h0
  | cons a rest =>
    refine ⟨(parsePlain rest).foldl (fun code arg => code ++ py" @ " ++ arg) a.src, ?_, ?_⟩
    · have := operands_fold L a.src (parsePlain rest) false (by
        intro t ht
        rcases List.mem_cons.1 ht with rfl | ht
        · exact ha a (by simp)
        · obtain ⟨x, hx, rfl⟩ := List.mem_map.1 ht
          exact ha x (by simp [hx]))
      simpa [Lexer.operands, parsePlain] using this
    · have hany : ¬((a :: rest).length = 1 ∧ (a :: rest).any (·.starred) = true) := by
        rintro ⟨_, h⟩
        obtain ⟨x, hx, h⟩ := List.any_eq_true.1 h
        rw [hs x hx] at h
        cases h
      have hp : parseKwargs cfg false kws [] = some (kwBindings kws) := by rw [parse_named hn, hw.parse]
      have hpp : parsePlain (a :: rest) = a.src :: parsePlain rest := rfl
      constructor
      · rintro (ho | hg)
        · rw [chainMatmul, if_neg hany, hp]
          simp only [hpp, get_omits ho]
        · rw [chainMatmul, if_neg hany, hp]
          simp only [hpp, get_gives hw hg, if_true]
      · intro o hg hne
        rw [chainMatmul, if_neg hany, hp]
        simp only [hpp, get_gives hw hg, if_neg hne]

example : chainMatmul {} [⟨py"(a + b)", false⟩, ⟨py"f(c @ d)", false⟩, ⟨py"e", false⟩] [⟨some py"out", py"o", false⟩]
    = .code py"paddle.assign((a + b) @ f(c @ d) @ e, output=o)" ∧
    simpleLexer.operands py"(a + b) @ f(c @ d) @ e" = [py"(a + b)", py"f(c @ d)", py"e"] := by decide

theorem foldl_assoc {M : Type} {mul : M → M → M} (h : ∀ a b c, mul (mul a b) c = mul a (mul b c)) (l : List M) (a b : M) :
    l.foldl mul (mul a b) = mul a (l.foldl mul b) := by
  induction l generalizing b with
  | nil => rfl
  | cons x l ih => rw [List.foldl_cons, List.foldl_cons, h, ih]

/-- **C101, the value of the product.** Whatever order of the products PyTorch chooses for `chain_matmul`, with an
associative product its value is the one that Python computes from left to right. -/
theorem C101_chain_value {M : Type} {mul : M → M → M} (h : ∀ a b c, mul (mul a b) c = mul a (mul b c)) {l : List M} {v : M}
    (hb : Bracketed mul l v) : leftToRight mul l = some v := by
  induction hb with
  | one a => rfl
  | @mul l r a b _ _ ih1 ih2 =>
    cases l with
    | nil => simp [leftToRight] at ih1
    | cons x l =>
      cases r with
      | nil => simp [leftToRight] at ih2
      | cons y r =>
        simp only [leftToRight, Option.some.injEq] at ih1 ih2
        show some ((l ++ y :: r).foldl mul x) = _
        rw [List.foldl_append, List.foldl_cons, ih1, foldl_assoc h, ih2]

example : Bracketed (M := List Nat) (· ++ ·) [[1], [2], [3]] [1, 2, 3] :=
  .mul (l := [[1]]) (r := [[2], [3]]) (.one _) (.mul (l := [[2]]) (r := [[3]]) (.one _) (.one _))

/-- A single starred argument and a `**` argument are refused. -/
theorem C101_chain_refused (cfg : Cfg) (args : List Arg) (kws : List Kw)
    (h : (∃ a, args = [a] ∧ a.starred = true) ∨ ∃ n ∈ kws, n.arg = none) : chainMatmul cfg args kws = .refuse := by
  rw [chainMatmul]
  split
  · rfl
  · next hne =>
    rcases h with ⟨a, rfl, hs⟩ | h
    · exact absurd ⟨rfl, by simp [hs]⟩ hne
    · have gen : ∀ d, parseKwargs cfg false kws d = none := by
        clear hne
        induction kws with
        | nil => obtain ⟨n, hn, _⟩ := h; simp at hn
        | cons x rest ih =>
          intro d
          obtain ⟨n, hn, e⟩ := h
          unfold parseKwargs
          cases hx : x.arg with
          | none => simp
          | some k =>
            rcases List.mem_cons.1 hn with e' | e'
            · subst e'; rw [hx] at e; cases e
            · simp only []
              split
              · rfl
              · exact ih ⟨n, e', e⟩ _
      rw [gen]

example : chainMatmul {} [⟨py"*ms", true⟩] [] = .refuse := by decide

/-- **C101 is false for a starred argument among others:** `chain_matmul(a, *rest)` becomes the text `a @ *rest`, which
Python does not accept, so the conversion of the file ends with an exception. -/
theorem C101_chain_starred_negative (cfg : Cfg) (a b : Str) :
    chainMatmul cfg [⟨a, false⟩, ⟨'*' :: b, true⟩] [] = .code (a ++ py" @ *" ++ b) := by
  simp [chainMatmul, parseKwargs, parsePlain]

/-! ## `make_tensor` -/

theorem flatMap_repr {q : Char} {t : Str} (h : PlainText t) (hq : q ∉ t) : t.flatMap (reprChar q) = t := by
  induction t with
  | nil => rfl
  | cons c t ih =>
    rw [List.mem_cons, not_or] at hq
    obtain ⟨_, h2, h3, h4, h5⟩ := h c (by simp)
    rw [List.flatMap_cons, ih (fun x hx => h x (by simp [hx])) hq.2]
    simp [reprChar, h2, h3, h4, h5, Ne.symm hq.1]

theorem noQuotes_plain {t : Str} (h : PlainText t) : noQuotes t = t := by
  rw [noQuotes, List.filter_eq_self]
  intro c hc
  simpa using (h c hc).1

theorem noQuotes_repr {t : Str} (h : PlainText t) : noQuotes (reprText t) = t := by
  have hq : '\'' ∉ t := fun hm => (h _ hm).1 rfl
  have e : reprText t = '\'' :: t ++ ['\''] := by
    simp [reprText, hq, flatMap_repr h hq]
  rw [e, noQuotes, List.filter_append, List.filter_cons_of_neg (by decide)]
  show noQuotes t ++ _ = _
  rw [noQuotes_plain h]
  simp

theorem noQuotes_append (s t : Str) : noQuotes (s ++ t) = noQuotes s ++ noQuotes t := by simp [noQuotes]

theorem noQuotes_join (l : List Str) (h : ∀ t ∈ l, PlainText t) :
    noQuotes (Str.join py", " (l.map reprText)) = Str.join py", " l := by
  induction l with
  | nil => rfl
  | cons a l ih =>
    cases l with
    | nil => simpa [Str.join] using noQuotes_repr (h a (by simp))
    | cons b l =>
      have := ih (fun t ht => h t (by simp [ht]))
      rw [List.map_cons, List.map_cons, Str.join_cons_cons, Str.join_cons_cons, noQuotes_append, noQuotes_append,
        noQuotes_repr (h a (by simp)), ← List.map_cons, this]
      rfl

theorem noQuotes_list (l : List Str) (h : ∀ t ∈ l, PlainText t) :
    noQuotes (reprList l) = py"[" ++ Str.join py", " l ++ py"]" := by
  rw [reprList, noQuotes_append, noQuotes_append, noQuotes_join l h]
  rfl

theorem shape_eq {cfg : Cfg} {const : Bool} {args : List Arg} {kws : List Kw} {s : Str} (hw : Accepted cfg kws)
    (h : ShapeIs const args kws s) (hp : ∀ a ∈ args, PlainText a.src) :
    ((Dict.get? (kwBindings kws) (some py"shape")).orElse fun _ => makeShape const args) = some s := by
  rcases h with hg | ⟨ho, h⟩
  · rw [get_gives hw hg]; rfl
  · rw [get_omits ho]
    show makeShape const args = some s
    rcases h with ⟨a, rfl, rfl, h1, h2⟩ | ⟨a, rfl, rfl, h1, rfl⟩ | ⟨h1, rfl⟩
    · have : PlainText s := fun c hc => hp a (by simp) c (by rw [h2]; simp [hc])
      simp [makeShape, h1, h2, noQuotes_plain this]
    · simp [makeShape, h1, noQuotes_plain (hp a (by simp))]
    · have hl := noQuotes_list (args.map (·.src)) (by
        intro t ht
        obtain ⟨a, ha, rfl⟩ := List.mem_map.1 ht
        exact hp a ha)
      match args, h1, hl with
      | [], h1, _ => simp at h1
      | [a], h1, hl =>
        have hc : const = true := by
          rcases h1 with h1 | h1
          · simp at h1
          · exact h1.2
        subst hc
        simp only [makeShape, if_true]
        exact congrArg some hl
      | a :: b :: rest, _, hl =>
        simp only [makeShape]
        exact congrArg some hl

/-- The text given for a keyword, or a default. -/
def textOr (kws : List Kw) (k default t : Str) : Prop := Gives kws k t ∨ (Omits kws k ∧ t = default)

theorem get_textOr {cfg : Cfg} {kws : List Kw} (hw : Accepted cfg kws) {k default t : Str} (h : textOr kws k default t) :
    (Dict.get? (kwBindings kws) (some k)).getD default = t := by
  rcases h with h | ⟨h, rfl⟩
  · rw [get_gives hw h]; rfl
  · rw [get_omits h]; rfl

theorem make_text {cfg : Cfg} {const : Bool} {args : List Arg} {kws : List Kw} (hw : Accepted cfg kws)
    (hn : ∀ n ∈ kws, n.arg ≠ none) {shape dtype low high device : Str} (h1 : ShapeIs const args kws shape)
    (hp : ∀ a ∈ args, PlainText a.src) (h2 : Gives kws py"dtype" dtype) (h3 : Gives kws py"device" device)
    (h4 : textOr kws py"low" py"0" low) (h5 : textOr kws py"high" py"1" high) :
    makeTensor cfg const args kws = match Dict.get? (kwBindings kws) (some py"requires_grad") with
      | none => .code (py"\n" ++ uniformText shape dtype low high device ++ py"\n")
      | some g => .code (py"\nout = " ++ uniformText shape dtype low high device ++ py"\nout.stop_gradient = not " ++ g
          ++ py"\nout\n") := by
  rw [makeTensor, parse_named hn, hw.parse]
  simp only [shape_eq hw h1 hp, get_gives hw h3, get_gives hw h2, Option.getD_some, get_textOr hw h4, get_textOr hw h5]
  cases Dict.get? (kwBindings kws) (some py"requires_grad") <;> rfl

theorem split_uniform {L : Lexer} {shape dtype low high : Str} (c1 : Closed L shape) (c2 : Closed L dtype)
    (c3 : Closed L low) (c4 : Closed L high) :
    L.splitArgs (shape ++ py", dtype=" ++ dtype ++ py", min=" ++ low ++ py", max=" ++ high)
      = [shape, py"dtype=" ++ dtype, py"min=" ++ low, py"max=" ++ high] := by
  have := splitArgs_join L [shape, py"dtype=" ++ dtype, py"min=" ++ low, py"max=" ++ high] (by
    intro p hp
    have hpre : ∀ k : Str, (k = py"dtype=" ∨ k = py"min=" ∨ k = py"max=") →
        ∀ c ∈ k, c ∉ structural ∧ c ≠ ',' ∧ c ≠ ' ' := by
      rintro k (rfl | rfl | rfl) <;> decide
    simp only [List.mem_cons, List.not_mem_nil, or_false] at hp
    rcases hp with rfl | rfl | rfl | rfl
    · exact c1
    · exact Closed.prepend (hpre _ (by simp)) c2
    · exact Closed.prepend (hpre _ (by simp)) c3
    · exact Closed.prepend (hpre _ (by simp)) c4)
  rw [← this]
  congr 1
  simp [Str.join]

/-- **C101, `torch.testing.make_tensor`.** If the bounds are given and `requires_grad` is not, the code makes a tensor of
the written shape and type, between the written bounds, on the written device. The texts of the positional arguments have no
quotes, backslashes or line ends. -/
theorem C101_make_tensor_partial (L : Lexer) (cfg : Cfg) (const : Bool) (args : List Arg) (kws : List Kw)
    (hw : Accepted cfg kws) (hn : ∀ n ∈ kws, n.arg ≠ none) (shape dtype low high device : Str)
    (h1 : ShapeIs const args kws shape) (hp : ∀ a ∈ args, PlainText a.src)
    (h2 : Gives kws py"dtype" dtype) (h3 : Gives kws py"device" device) (h4 : Gives kws py"low" low)
    (h5 : Gives kws py"high" high) (h6 : Omits kws py"requires_grad")
    (c1 : Closed L shape) (c2 : Closed L dtype) (c3 : Closed L low) (c4 : Closed L high) :
    ∃ inside, makeTensor cfg const args kws = .code (py"\npaddle.uniform(" ++ inside ++ py").to(" ++ device ++ py")\n") ∧
      L.splitArgs inside = [shape, py"dtype=" ++ dtype, py"min=" ++ low, py"max=" ++ high] := by
  refine ⟨_, ?_, split_uniform c1 c2 c3 c4⟩
  rw [make_text hw hn h1 hp h2 h3 (.inl h4) (.inl h5), get_omits h6]
  simp [uniformText]

example : makeTensor {} false [⟨py"(2)", false⟩, ⟨py"n", false⟩] [⟨some py"dtype", py"t", false⟩,
    ⟨some py"device", py"d", false⟩, ⟨some py"low", py"a", false⟩, ⟨some py"high", py"b", false⟩]
    = .code py"\npaddle.uniform([(2), n], dtype=t, min=a, max=b).to(d)\n" ∧
    makeTensor {} false [⟨py"*s", true⟩] [⟨some py"dtype", py"t", false⟩, ⟨some py"device", py"d", false⟩,
    ⟨some py"low", py"a", false⟩, ⟨some py"high", py"b", false⟩]
    = .code py"\npaddle.uniform(s, dtype=t, min=a, max=b).to(d)\n" := by decide

/-- The bounds that `torch.testing.make_tensor` takes for floating-point numbers if none are given. -/
def torchBounds : Str × Str := (py"-9", py"9")

/-- **C101 is false without bounds:** the values of every such call are between 0 and 1 instead of -9 and 9. -/
theorem C101_make_tensor_bounds_negative (L : Lexer) (cfg : Cfg) (const : Bool) (args : List Arg) (kws : List Kw)
    (hw : Accepted cfg kws) (hn : ∀ n ∈ kws, n.arg ≠ none) (shape dtype device : Str)
    (h1 : ShapeIs const args kws shape) (hp : ∀ a ∈ args, PlainText a.src)
    (h2 : Gives kws py"dtype" dtype) (h3 : Gives kws py"device" device) (h4 : Omits kws py"low") (h5 : Omits kws py"high")
    (h6 : Omits kws py"requires_grad") (c1 : Closed L shape) (c2 : Closed L dtype) :
    ∃ inside low high, makeTensor cfg const args kws = .code (py"\npaddle.uniform(" ++ inside ++ py").to(" ++ device ++ py")\n") ∧
      L.splitArgs inside = [shape, py"dtype=" ++ dtype, py"min=" ++ low, py"max=" ++ high] ∧ (low, high) = (py"0", py"1") ∧
      (low, high) ≠ torchBounds := by
  have plain : ∀ c : Char, c ∉ structural → c ≠ ',' → c ≠ ' ' → Closed L [c] := by
    intro c hs h1 h2
    refine ⟨by simp, ?_, ?_, ?_⟩
    · intro d u e; cases e; exact h2
    · simp [Lexer.run, L.plain c hs]
    · intro u v e
      cases u with
      | nil => simp at e; exact absurd e.1 h1
      | cons d u => simp at e
  refine ⟨_, py"0", py"1", ?_, split_uniform c1 c2 (plain '0' (by decide) (by decide) (by decide))
    (plain '1' (by decide) (by decide) (by decide)), rfl, by decide⟩
  rw [make_text hw hn h1 hp h2 h3 (.inr ⟨h4, rfl⟩) (.inr ⟨h5, rfl⟩), get_omits h6]
  simp [uniformText]

/-- **C101 is false with `requires_grad`:** the code assigns the tensor to the name `out`, whatever the user has in that
variable. -/
theorem C101_make_tensor_out_negative (cfg : Cfg) (const : Bool) (args : List Arg) (kws : List Kw)
    (hw : Accepted cfg kws) (hn : ∀ n ∈ kws, n.arg ≠ none) (shape dtype low high device grad : Str)
    (h1 : ShapeIs const args kws shape) (hp : ∀ a ∈ args, PlainText a.src)
    (h2 : Gives kws py"dtype" dtype) (h3 : Gives kws py"device" device) (h4 : textOr kws py"low" py"0" low)
    (h5 : textOr kws py"high" py"1" high) (h6 : Gives kws py"requires_grad" grad) :
    ∃ value, makeTensor cfg const args kws
      = .code (py"\nout = " ++ value ++ py"\nout.stop_gradient = not " ++ grad ++ py"\nout\n") := by
  refine ⟨uniformText shape dtype low high device, ?_⟩
  rw [make_text hw hn h1 hp h2 h3 h4 h5, get_gives hw h6]

example : makeTensor {} true [⟨py"(2)", false⟩] [⟨some py"dtype", py"t", false⟩, ⟨some py"device", py"d", false⟩,
    ⟨some py"requires_grad", py"(True)", false⟩]
    = .code py"\nout = paddle.uniform([(2)], dtype=t, min=0, max=1).to(d)\nout.stop_gradient = not (True)\nout\n" := by decide

/-- **C101 is false for three keywords of `make_tensor`:** they change nothing in the code, whatever their values are. -/
theorem C101_make_tensor_ignored_negative (cfg : Cfg) (const : Bool) (args : List Arg) (pre post : List Kw) (n : Kw)
    (hk : n.arg = some py"noncontiguous" ∨ n.arg = some py"exclude_zero" ∨ n.arg = some py"memory_format")
    (hw : Accepted cfg (pre ++ n :: post)) (hn : ∀ m ∈ pre ++ post, m.arg ≠ none) :
    makeTensor cfg const args (pre ++ n :: post) = makeTensor cfg const args (pre ++ post) := by
  have hw' : Accepted cfg (pre ++ post) := by
    refine ⟨?_, fun m hm => hw.2 m ?_⟩
    · have := hw.1
      rw [List.map_append, List.map_cons] at this
      rw [List.map_append]
      exact this.sublist (List.Sublist.append_left (List.sublist_cons_self _ _) _)
    · rcases List.mem_append.1 hm with h | h <;> simp [h]
  have hn' : ∀ m ∈ pre ++ n :: post, m.arg ≠ none := by
    intro m hm
    rcases List.mem_append.1 hm with h | h
    · exact hn m (by simp [h])
    · rcases List.mem_cons.1 h with rfl | h
      · rcases hk with e | e | e <;> rw [e] <;> simp
      · exact hn m (by simp [h])
  have hget : ∀ k : Str, n.arg ≠ some k →
      Dict.get? (kwBindings (pre ++ n :: post)) (some k) = Dict.get? (kwBindings (pre ++ post)) (some k) := by
    intro k hne
    rcases gives_or_omits (pre ++ post) k with ho | ⟨t, hg⟩
    · rw [get_omits ho]
      apply get_omits
      intro m hm
      rcases List.mem_append.1 hm with h | h
      · exact ho m (by simp [h])
      · rcases List.mem_cons.1 h with rfl | h
        · exact hne
        · exact ho m (by simp [h])
    · rw [get_gives hw' hg]
      obtain ⟨m, hm, e1, e2⟩ := hg
      refine get_gives hw ⟨m, ?_, e1, e2⟩
      rcases List.mem_append.1 hm with h | h <;> simp [h]
  have hne : ∀ k ∈ [py"shape", py"device", py"dtype", py"low", py"high", py"requires_grad"], n.arg ≠ some k := by
    intro k hk'
    rcases hk with e | e | e <;> rw [e] <;> intro h <;> cases h <;> revert hk' <;> decide
  rw [makeTensor, makeTensor, parse_named hn', parse_named hn, hw.parse, hw'.parse]
  simp only [hget _ (hne py"shape" (by decide)), hget _ (hne py"device" (by decide)), hget _ (hne py"dtype" (by decide)),
    hget _ (hne py"low" (by decide)), hget _ (hne py"high" (by decide)), hget _ (hne py"requires_grad" (by decide))]

example : makeTensor {} true [⟨py"(2)", false⟩] [⟨some py"dtype", py"t", false⟩, ⟨some py"device", py"d", false⟩,
    ⟨some py"exclude_zero", py"(True)", false⟩] = .code py"\npaddle.uniform([(2)], dtype=t, min=0, max=1).to(d)\n" := by decide

/-- **C101 is false for quotes in the shape:** `make_tensor(d['n'], 3, ...)` gets the list of a string and a number. -/
theorem C101_make_tensor_quotes_negative : makeTensor {} false [⟨py"d['n']", false⟩, ⟨py"(3)", false⟩]
    [⟨some py"dtype", py"t", false⟩, ⟨some py"device", py"c", false⟩]
    = .code py"\npaddle.uniform([\"d[n]\", (3)], dtype=t, min=0, max=1).to(c)\n" := by decide

end Verif.Matcher

/-! ## The entries -/

namespace Verif.Template
open Verif Verif.Matcher

/-- The APIs of C101 with their matchers. -/
def directEntries : List (Str × Str) :=
  [(py"torch.utils.checkpoint.checkpoint", py"CheckPointMatcher"), (py"torch.hub.load", py"HubLoadMatcher"),
   (py"torch.testing.make_tensor", py"MakeTMatcher"), (py"torch.chain_matmul", py"Chain_MatmulMatcher"),
   (py"torch.Tensor.stft", py"TensorStftMatcher")]

set_option maxRecDepth 100000 in
theorem direct_table : (directEntries.all fun p => coded p.1 &&
    someEntry p.1 fun r => decide (r.class = p.2 ∧ r.cfg.unsupport = [])) = true := by decide +kernel

/-- The shipped table names these matchers for the five APIs and lists no unsupported argument for them. -/
theorem C101_entries {p : Str × Str} (hp : p ∈ directEntries) :
    ∃ r ∈ Data.apiTable, r.name = p.1 ∧ r.class = p.2 ∧ r.cfg.unsupport = [] := by
  have h := List.all_eq_true.1 direct_table p hp
  rw [Bool.and_eq_true] at h
  obtain ⟨r, hr, hn, h⟩ := someEntry_sound (by simpa [coded] using h.1) h.2
  rw [decide_eq_true_eq] at h
  exact ⟨r, hr, hn, h⟩

end Verif.Template

import Verif.Props.Negation
import Verif.Spec.Options

namespace Verif.Template
open Verif
open Verif.Spec
open Verif.Matcher (Cfg)

/-! ## C98: parameters that a call leaves out -/

/-- The start of the check of calls without the parameter. -/
def OptRule.start (ru : OptRule) (name : Str) (cfg : Cfg) : A :=
  match ru.flag with
  | none => A.start (params cfg) (required name)
  | some flag => (A.start (params cfg) (required name)).deny flag

def omitOk (ru : OptRule) (fin : Val → A → List Q → Bool) (name : Str) (cfg : Cfg) (g : K) : Bool :=
  g.check ⟨apiVal name cfg, false, none, fin (apiVal name cfg)⟩ (OptRule.start ru name cfg)

/-- The option is written with a constant that has the value. -/
def constFin (o : Str) (v : Value) (a : A) (qs : List Q) : Bool :=
  match a.find o with
  | some e => match e.val with
    | [.code t] => readValue t == some v && setsFin o [.code t] a qs
    | _ => false
  | none => false

def asksFin (ru : OptRule) (v : Value) (api : Val) (a : A) (qs : List Q) : Bool :=
  constFin ru.option v a qs || (ru.paddle == some v && absent ru.option api a qs)

theorem omit_sound {ru : OptRule} {fin : Val → A → List Q → Bool} (h : onApi ru.api (omitOk ru fin) = true) {r : Data.Raw}
    (hr : r ∈ Data.apiTable) (hn : r.name = ru.api) {c : Call} (v : Valid r c) {ps : List Piece}
    (hc : Converts r c (.code ps)) (ht : ∀ k ∈ ru.flag, k ∉ c.args.keys) {P : List Piece → Prop}
    (hP : ∀ a s qs, Rel c a s → fin c.api a qs = true → ∀ w, evalAll c s qs = some w → P w) : P ps := by
  cases hf : ru.flag with
  | none =>
    obtain ⟨m, hm, hcl, ho⟩ := hc
    have hk := onApi_sound h hr hn hm hcl
    rw [omitOk, OptRule.start, hf] at hk
    have := check_sound (P := fun o => ∀ ps, o = .code ps → P ps) (c := c) v.api (fun k hk => by simp at hk) (by simp)
      (by simp)
      (fun a s qs hrel hfin w hw => by
        unfold emitOut at hw
        split at hw
        · next x hx =>
          simp only [Out.code.injEq] at hw
          subst hw
          exact hP a s qs hrel (v.api ▸ hfin) x hx
        · simp at hw)
      (m.2 r.name r.cfg) (Rel.start v.wf (params_nodup hr hm hcl) v.known v.complete) hk
    exact this ps ho
  | some flag =>
    refine flag_absent (a := ru.api) (flag := flag) (fin := fin) ?_ hr hn v hc (ht flag (by simp [hf])) hP
    have : omitOk ru fin = fun name cfg g => g.check ⟨apiVal name cfg, false, none, fin (apiVal name cfg)⟩
        ((A.start (params cfg) (required name)).deny flag) := by
      funext name cfg g
      simp [omitOk, OptRule.start, hf]
    rwa [this] at h

theorem constFin_sound {c : Call} {a : A} {s : St} {qs : List Q} {w : Val} {o : Str} {v : Value} (hrel : Rel c a s)
    (h : constFin o v a qs = true) (hw : evalAll c s qs = some w) : ∃ t, Sets o [.code t] w ∧ readValue t = some v := by
  unfold constFin at h
  split at h
  · split at h
    · next t _ =>
      simp only [Bool.and_eq_true, beq_iff_eq] at h
      exact ⟨t, setsFin_sound hrel h.2 hw, h.1⟩
    · simp at h
  · simp at h

/-- The check of `fin` for calls in which the parameter is given. -/
def optGiven (ru : OptRule) (name : Str) (cfg : Cfg) (g : K) : Bool :=
  match ru.flag with
  | none => true
  | some flag => givenOk flag (setsFin ru.option (ru.given flag)) name cfg g

/-- All checks of the rules for one entry. -/
def ruleOk (key : Nat) (name : Str) (cfg : Cfg) (g : K) : Bool :=
  (optRules.all fun ru => !(Nat.beq key (Data.encode ru.api)) ||
    omitOk ru (asksFin ru ru.torch) name cfg g && optGiven ru name cfg g) &&
  (diffRules.all fun ru => !(Nat.beq key (Data.encode ru.api)) ||
    omitOk ru (absent ru.option) name cfg g && optGiven ru name cfg g)

def ruleApis : List Str := (optRules ++ diffRules).map (·.api) |>.eraseDups

set_option maxRecDepth 100000 in
theorem rule_table : (ruleApis.all fun a => onApi a (ruleOk (Data.encode a))) = true := by decide +kernel

theorem rule_on {ru : OptRule} (hru : ru ∈ optRules ++ diffRules) :
    onApi ru.api (ruleOk (Data.encode ru.api)) = true :=
  List.all_eq_true.1 rule_table _ (List.mem_eraseDups.2 (List.mem_map_of_mem hru))

theorem onApi_mono {a : Str} {f g : Str → Cfg → K → Bool} (h : onApi a f = true) (hfg : ∀ n c k, f n c k = true → g n c k = true) :
    onApi a g = true := by
  simp only [onApi, Bool.and_eq_true, List.all_eq_true, Bool.or_eq_true] at h ⊢
  exact ⟨h.1, fun r hr => (h.2 r hr).imp id fun h m hm => (h m hm).imp id (hfg _ _ _)⟩

theorem opt_rules {ru : OptRule} (hru : ru ∈ optRules) : onApi ru.api (omitOk ru (asksFin ru ru.torch)) = true :=
  onApi_mono (rule_on (List.mem_append_left _ hru)) fun n c k h => by
    simp only [ruleOk, Bool.and_eq_true, List.all_eq_true] at h
    have := h.1 ru hru
    simp only [Nat.beq_refl, Bool.not_true, Bool.false_or, Bool.and_eq_true] at this
    exact this.1

theorem diff_rules {ru : OptRule} (hru : ru ∈ diffRules) : onApi ru.api (omitOk ru (absent ru.option)) = true :=
  onApi_mono (rule_on (List.mem_append_right _ hru)) fun n c k h => by
    simp only [ruleOk, Bool.and_eq_true, List.all_eq_true] at h
    have := h.2 ru hru
    simp only [Nat.beq_refl, Bool.not_true, Bool.false_or, Bool.and_eq_true] at this
    exact this.1

theorem opt_given {ru : OptRule} (hru : ru ∈ optRules ++ diffRules) : onApi ru.api (optGiven ru) = true :=
  onApi_mono (rule_on hru) fun n c k h => by
    simp only [ruleOk, Bool.and_eq_true, List.all_eq_true] at h
    rcases List.mem_append.1 hru with hru | hru
    · have := h.1 ru hru
      simp only [Nat.beq_refl, Bool.not_true, Bool.false_or, Bool.and_eq_true] at this
      exact this.2
    · have := h.2 ru hru
      simp only [Nat.beq_refl, Bool.not_true, Bool.false_or, Bool.and_eq_true] at this
      exact this.2

/-- **C98.** If a call leaves out a parameter of the table, then the code asks for the value that PyTorch takes: the option
is written with this value, or it is not there and Paddle takes the same. -/
theorem C98_omitted_partial {ru : OptRule} (hru : ru ∈ optRules) {r : Data.Raw} (hr : r ∈ Data.apiTable)
    (hn : r.name = ru.api) {c : Call} (v : Valid r c) {ps : List Piece} (hc : Converts r c (.code ps))
    (ht : ∀ k ∈ ru.flag, k ∉ c.args.keys) : Asks ru ru.torch ps := by
  refine omit_sound (opt_rules hru) hr hn v hc ht fun a s qs hrel h w hw => ?_
  simp only [asksFin, Bool.or_eq_true, Bool.and_eq_true, beq_iff_eq] at h
  exact h.imp (fun h => constFin_sound hrel h hw) fun h => ⟨absent_sound hrel h.2 hw, h.1⟩

/-- **C98.** If the parameter is given, the option is what the user wrote, or the part of it that the option is for. -/
theorem C98_given {ru : OptRule} (hru : ru ∈ optRules ++ diffRules) {r : Data.Raw} (hr : r ∈ Data.apiTable)
    (hn : r.name = ru.api) {c : Call} (v : Valid r c) {ps : List Piece} (hc : Converts r c (.code ps)) {flag : Str}
    (hf : ru.flag = some flag) (ht : flag ∈ c.args.keys) : Sets ru.option (ru.given flag) ps := by
  obtain ⟨m, hm, hcl, ho⟩ := hc
  have hk := onApi_sound (opt_given hru) hr hn hm hcl
  simp only [optGiven, hf] at hk
  rw [givenOk, Bool.or_eq_true] at hk
  have hk := hk.resolve_left (by simpa using v.known flag ht)
  have hs : ∀ k ∈ flag :: required r.name, k ∈ c.args.keys := by
    intro k hk
    rcases List.mem_cons.1 hk with rfl | hk
    · exact ht
    · exact v.complete k hk
  have := check_sound (P := fun o => ∀ ps, o = .code ps → Sets ru.option (ru.given flag) ps) (c := c) v.api
    (fun k hk => by simp at hk) (by simp) (by simp)
    (fun a s qs hrel hfin w hw => by
      unfold emitOut at hw
      split at hw
      · next x hx =>
        simp only [Out.code.injEq] at hw
        subst hw
        exact setsFin_sound hrel hfin hx
      · simp at hw)
    (m.2 r.name r.cfg) (Rel.start v.wf (params_nodup hr hm hcl) v.known hs) hk
  exact this ps ho

/-! ## Where it fails -/

set_option maxRecDepth 100000 in
theorem diff_values : (diffRules.all fun ru => !(ru.paddle == some ru.torch)) = true := by decide +kernel

/-- **C98 fails** for these parameters, in every valid call without them: the option is not there, and Paddle takes another
value than PyTorch. -/
theorem C98_negative {ru : OptRule} (hru : ru ∈ diffRules) {r : Data.Raw} (hr : r ∈ Data.apiTable) (hn : r.name = ru.api)
    {c : Call} (v : Valid r c) {ps : List Piece} (hc : Converts r c (.code ps)) (ht : ∀ k ∈ ru.flag, k ∉ c.args.keys) :
    .code (ru.option ++ py"=") ∉ ps ∧ ¬Asks ru ru.torch ps := by
  have h : .code (ru.option ++ py"=") ∉ ps :=
    omit_sound (diff_rules hru) hr hn v hc ht fun a s qs hrel h w hw => absent_sound hrel h hw
  refine ⟨h, ?_⟩
  rintro (⟨t, ⟨s, -, hs⟩, -⟩ | ⟨-, hp⟩)
  · exact h (hs.subset (List.mem_cons_self ..))
  · have := List.all_eq_true.1 diff_values ru hru
    simp [hp] at this

def printOk (name : Str) (cfg : Cfg) (g : K) : Bool :=
  g.check ⟨apiVal name cfg, false, none, constFin py"precision" (.num 4)⟩
    (((A.start (params cfg) (required name)).deny py"profile").deny py"precision")

set_option maxRecDepth 100000 in
theorem print_rule : onApi py"torch.set_printoptions" printOk = true := by decide +kernel

/-- **C98 fails** for `torch.set_printoptions`: PyTorch leaves the precision as it is if the call does not say it, but the
code of every such call sets it to 4. -/
theorem C98_printoptions_negative {r : Data.Raw} (hr : r ∈ Data.apiTable) (hn : r.name = py"torch.set_printoptions")
    {c : Call} (v : Valid r c) {ps : List Piece} (hc : Converts r c (.code ps)) (hp : py"precision" ∉ c.args.keys)
    (hq : py"profile" ∉ c.args.keys) : ∃ t, Sets py"precision" [.code t] ps ∧ readValue t = some (.num 4) := by
  obtain ⟨m, hm, hcl, ho⟩ := hc
  have hk := onApi_sound print_rule hr hn hm hcl
  have no : ∀ {k}, k ∉ c.args.keys → c.args.has k = false := fun h => by rw [← Bool.not_eq_true, Dict.has_iff]; exact h
  have := check_sound (P := fun o => ∀ ps, o = .code ps → ∃ t, Sets py"precision" [.code t] ps ∧ readValue t = some (.num 4))
    (c := c) v.api (fun k hk => by simp at hk) (by simp) (by simp)
    (fun a s qs hrel hfin w hw => by
      unfold emitOut at hw
      split at hw
      · next x hx =>
        simp only [Out.code.injEq] at hw
        subst hw
        exact constFin_sound hrel hfin hx
      · simp at hw)
    (m.2 r.name r.cfg) (((Rel.start v.wf (params_nodup hr hm hcl) v.known v.complete).deny (no hq)).deny (no hp)) hk
  exact this ps ho

/-! ## The table -/

/-- Defaults about which other properties speak: C82, C70, and the precision above. -/
def elsewhere : List (Str × Str) :=
  (negRules.map fun ru => (ru.cls, ru.option)) ++
    [(py"LogSoftmaxMatcher", py"axis"), (py"SoftminMatcher", py"axis"), (py"SetPrintOptionsMatcher", py"precision")]

set_option maxRecDepth 100000 in
theorem default_table : (Data.apiTable.all fun r => r.cfg.defaults.all fun kv =>
    (optRules.any fun ru => Nat.beq (Data.encode ru.api) r.key && ru.option == kv.1) || elsewhere.contains (r.class, kv.1)) = true := by
  decide +kernel

set_option maxRecDepth 100000 in
theorem rules_coded : (optRules.all fun ru => coded ru.api) = true := by decide +kernel

/-- **C98.** Every default for an option in `api_mapping.json` is in the table of parameters, or another property speaks of
it. -/
theorem C98_covered {r : Data.Raw} (hr : r ∈ Data.apiTable) {kv : Str × Str} (hk : kv ∈ r.cfg.defaults) :
    (∃ ru ∈ optRules, ru.api = r.name ∧ ru.option = kv.1) ∨ (r.class, kv.1) ∈ elsewhere := by
  have h := List.all_eq_true.1 (List.all_eq_true.1 default_table r hr) kv hk
  simp only [Bool.or_eq_true, List.any_eq_true, Bool.and_eq_true, beq_iff_eq, List.contains_iff_mem] at h
  refine h.imp (fun ⟨ru, hru, hn, ho⟩ => ⟨ru, hru, ?_, ho⟩) id
  have hc := List.all_eq_true.1 rules_coded ru hru
  exact ((Data.decode_eq_iff (by simpa [coded] using hc)).2 (Nat.beq_eq.mp hn).symm).symm

/-! ## Calls that meet the hypotheses -/

set_option maxRecDepth 100000 in
example : ∃ r ∈ Data.apiTable, r.name = py"torch.optim.RMSprop" ∧ r.class = py"GenericMatcher" ∧ ∃ c ps,
    c.args = [(py"params", py"p"), (py"alpha", py"v")] ∧ Valid r c ∧ Converts r c (.code ps) ∧
    Spec.print c.args c.recv c.fresh ps =
      py"paddle.optimizer.RMSProp(parameters=p, rho=v, weight_decay=0.0, epsilon=1e-08, learning_rate=0.01)" :=
  becomesBy_sound (by decide +kernel)

set_option maxRecDepth 100000 in
example : ∃ r ∈ Data.apiTable, r.name = py"torch.optim.Adamax" ∧ r.class = py"OptimAdamMatcher" ∧ ∃ c ps,
    c.args = [(py"params", py"p"), (py"betas", py"b")] ∧ Valid r c ∧ Converts r c (.code ps) ∧
    Spec.print c.args c.recv c.fresh ps = py"paddle.optimizer.Adamax(parameters=p, beta1=b[0], beta2=b[1])" :=
  becomesBy_sound (by decide +kernel)

set_option maxRecDepth 100000 in
example : ∃ r ∈ Data.apiTable, r.name = py"torch.set_printoptions" ∧ r.class = py"SetPrintOptionsMatcher" ∧ ∃ c ps,
    c.args = [(py"linewidth", py"(100)")] ∧ Valid r c ∧ Converts r c (.code ps) ∧
    Spec.print c.args c.recv c.fresh ps = py"paddle.set_printoptions(linewidth=(100), precision=4)" :=
  becomesBy_sound (by decide +kernel)

example : readValue py"1e-08" = some (.num 1e-8) ∧ readValue py"-3" = some (.num (-3)) ∧ readValue py"0.99" = some (.num 0.99) ∧
    readValue py"'bilinear'" = some (.text py"bilinear") ∧ readValue py"x + 1" = none := by decide +kernel

end Verif.Template

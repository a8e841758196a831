import Verif.Lemmas.TemplateFlag
import Verif.Props.Template
import Verif.Props.TemplateNegative

namespace Verif.Template
open Verif
open Verif.Spec
open Verif.Matcher (Cfg)

/-! ## C81: flags that become options -/

/-- A check on the entries with this name. -/
def onApi (a : Str) (f : Str → Cfg → K → Bool) : Bool := coded a && Data.apiTable.all fun r =>
  !(Nat.beq r.key (Data.encode a)) || matchers.all fun m =>
    !(Nat.beq (Data.encode m.1) r.matcher) || f r.name r.cfg (m.2 r.name r.cfg)

theorem onApi_sound {a : Str} {f : Str → Cfg → K → Bool} (h : onApi a f = true) {r : Data.Raw} (hr : r ∈ Data.apiTable)
    (hn : r.name = a) {m : Str × (Str → Cfg → K)} (hm : m ∈ matchers) (hc : m.1 = r.class) :
    f r.name r.cfg (m.2 r.name r.cfg) = true := by
  simp only [onApi, Bool.and_eq_true, List.all_eq_true] at h
  have h1 := h.2 r hr
  have hk : r.key = Data.encode a := (Data.decode_eq_iff (by simpa [coded] using h.1)).1 hn
  rw [hk, Nat.beq_refl] at h1
  simp only [Bool.not_true, Bool.false_or] at h1
  have h2 := List.all_eq_true.1 h1 m hm
  rw [Bool.or_eq_true] at h2
  refine h2.resolve_left ?_
  have hd := List.all_eq_true.1 class_table m hm
  have : r.matcher = Data.encode m.1 := (Data.decode_eq_iff (by simpa using hd)).1 hc.symm
  simp [this]

/-- What is checked where the code is returned. -/
def selectsFin (ru : FlagRule) (b : Bool) (api : Val) (a : A) (qs : List Q) : Bool :=
  setsFin ru.option [.code (ru.text b)] a qs || (b == ru.dflt && absent ru.option api a qs)

/-- The check of `fin` for calls in which the flag is as the fact says. -/
def flagOk (flag : Str) (f : Fact) (fin : Val → A → List Q → Bool) (name : Str) (cfg : Cfg) (g : K) : Bool :=
  g.probe (apiVal name cfg) (flag, f) (fin (apiVal name cfg)) (A.start (params cfg) (flag :: required name))

theorem flag_sound {a flag : Str} {f : Fact} {fin : Val → A → List Q → Bool} (h : onApi a (flagOk flag f fin) = true)
    {r : Data.Raw} (hr : r ∈ Data.apiTable) (hn : r.name = a) {c : Call} (v : Valid r c) {ps : List Piece}
    (hc : Converts r c (.code ps)) {t : Str} (ht : c.args.get? flag = some t) (hf : f.true t) {P : List Piece → Prop}
    (hP : ∀ a s qs, Rel c a s → fin c.api a qs = true → ∀ w, evalAll c s qs = some w → P w) : P ps := by
  obtain ⟨m, hm, hcl, ho⟩ := hc
  have hk := onApi_sound h hr hn hm hcl
  have hkey : flag ∈ c.args.keys := Dict.has_iff.1 (by simp [Dict.has, ht])
  have hs : ∀ k ∈ flag :: required r.name, k ∈ c.args.keys := by
    intro k hk
    rcases List.mem_cons.1 hk with rfl | hk
    · exact hkey
    · exact v.complete k hk
  have := probe_sound (P := fun o => ∀ ps, o = .code ps → P ps) (c := c) v.api ⟨t, ht, hf⟩ (by simp) (by simp)
    (fun a s qs hrel hfin w hw => by
      unfold emitOut at hw
      split at hw
      · next x hx =>
        simp only [Out.code.injEq] at hw
        subst hw
        exact hP a s qs hrel (v.api ▸ hfin) x hx
      · simp at hw)
    (m.2 r.name r.cfg) (Rel.start v.wf (params_nodup hr hm hcl) v.known hs) hk
  exact this ps ho

/-- The same for calls without the flag. -/
theorem flag_absent {a flag : Str} {fin : Val → A → List Q → Bool}
    (h : onApi a (fun name cfg g => g.check ⟨apiVal name cfg, false, none, fin (apiVal name cfg)⟩
      ((A.start (params cfg) (required name)).deny flag)) = true)
    {r : Data.Raw} (hr : r ∈ Data.apiTable) (hn : r.name = a) {c : Call} (v : Valid r c) {ps : List Piece}
    (hc : Converts r c (.code ps)) (ht : flag ∉ c.args.keys) {P : List Piece → Prop}
    (hP : ∀ a s qs, Rel c a s → fin c.api a qs = true → ∀ w, evalAll c s qs = some w → P w) : P ps := by
  obtain ⟨m, hm, hcl, ho⟩ := hc
  have hk := onApi_sound h hr hn hm hcl
  have hno : c.args.has flag = false := by rw [← Bool.not_eq_true, Dict.has_iff]; exact ht
  have := check_sound (P := fun o => ∀ ps, o = .code ps → P ps) (c := c) v.api (fun k hk => by simp at hk) (by simp) (by simp)
    (fun a s qs hrel hfin w hw => by
      unfold emitOut at hw
      split at hw
      · next x hx =>
        simp only [Out.code.injEq] at hw
        subst hw
        exact hP a s qs hrel (v.api ▸ hfin) x hx
      · simp at hw)
    (m.2 r.name r.cfg) ((Rel.start v.wf (params_nodup hr hm hcl) v.known v.complete).deny hno) hk
  exact this ps ho

theorem selects_of {c : Call} {ru : FlagRule} {b : Bool} (a : A) (s : St) (qs : List Q) (hrel : Rel c a s)
    (h : selectsFin ru b c.api a qs = true) (w : Val) (hw : evalAll c s qs = some w) : Selects ru b w := by
  simp only [selectsFin, Bool.or_eq_true, Bool.and_eq_true, beq_iff_eq] at h
  rcases h with h | h
  · exact .inl (setsFin_sound hrel h hw)
  · exact .inr ⟨h.1, absent_sound hrel h.2 hw⟩

set_option maxRecDepth 100000 in
theorem literal_rules : ((trainRules ++ rnnRules).all fun ru => [true, false].all fun b =>
    onApi ru.api (flagOk ru.flag (.is (boolText b)) (selectsFin ru b))) = true := by decide +kernel

/-- **C81.** `train=True` or `train=False` of a data set, `bidirectional=True` or `bidirectional=False` of a recurrent
layer: in the code of every valid call the option of Paddle asks for the same. -/
theorem C81_literal_flag_partial {ru : FlagRule} (hru : ru ∈ trainRules ++ rnnRules) {r : Data.Raw} (hr : r ∈ Data.apiTable)
    (hn : r.name = ru.api) {c : Call} (v : Valid r c) {ps : List Piece} (hc : Converts r c (.code ps)) {b : Bool}
    (ht : c.args.get? ru.flag = some (boolText b)) : Selects ru b ps := by
  have h := List.all_eq_true.1 (List.all_eq_true.1 literal_rules ru hru) b (by cases b <;> simp)
  exact flag_sound h hr hn v hc ht rfl selects_of

set_option maxRecDepth 100000 in
theorem absent_rules : ((trainRules ++ [qrRule] ++ rnnRules).all fun ru =>
    onApi ru.api (fun name cfg g => g.check ⟨apiVal name cfg, false, none, selectsFin ru ru.torch (apiVal name cfg)⟩
      ((A.start (params cfg) (required name)).deny ru.flag))) = true := by decide +kernel

/-- **C81.** Without the flag, the code asks for what the flag asks for by default. -/
theorem C81_no_flag {ru : FlagRule} (hru : ru ∈ trainRules ++ [qrRule] ++ rnnRules) {r : Data.Raw}
    (hr : r ∈ Data.apiTable) (hn : r.name = ru.api) {c : Call} (v : Valid r c) {ps : List Piece}
    (hc : Converts r c (.code ps)) (ht : ru.flag ∉ c.args.keys) : Selects ru ru.torch ps :=
  flag_absent (fin := selectsFin ru ru.torch) (List.all_eq_true.1 absent_rules ru hru) hr hn v hc ht selects_of

/-- The option is taken from the flag at run time. -/
def byFin (ru : FlagRule) (_ : Val) (a : A) (qs : List Q) : Bool :=
  setsFin ru.option [.code (ru.yes ++ py" if "), .user ru.flag, .code (py" else " ++ ru.no)] a qs

set_option maxRecDepth 100000 in
theorem variable_rules : (trainRules.all fun ru => onApi ru.api (flagOk ru.flag .notPlain (byFin ru))) = true := by
  decide +kernel

/-- **C81.** If `train` is an expression, the code chooses the data set by the value of the expression. -/
theorem C81_variable_flag_partial {ru : FlagRule} (hru : ru ∈ trainRules) {r : Data.Raw} (hr : r ∈ Data.apiTable)
    (hn : r.name = ru.api) {c : Call} (v : Valid r c) {ps : List Piece} (hc : Converts r c (.code ps)) {t : Str}
    (ht : c.args.get? ru.flag = some t) (hp : ¬Plain t) : SelectsBy ru ps :=
  flag_sound (List.all_eq_true.1 variable_rules ru hru) hr hn v hc ht hp
    fun _ _ _ hrel h _ hw => setsFin_sound hrel h hw

/-! ## Where it fails -/

set_option maxRecDepth 100000 in
theorem qr_rules : ([true, false].all fun b => onApi qrRule.api (flagOk qrRule.flag (.is (boolText b))
    fun _ => setsFin qrRule.option [.code (qrRule.text !b)])) = true := by decide +kernel

/-- **C81 fails** for `x.qr(some=True)` and `x.qr(some=False)`, in every valid call: the code asks for the complete
decomposition where PyTorch gives the reduced one, and the other way round. -/
theorem C81_qr_negative {r : Data.Raw} (hr : r ∈ Data.apiTable) (hn : r.name = qrRule.api) {c : Call} (v : Valid r c)
    {ps : List Piece} (hc : Converts r c (.code ps)) {b : Bool} (ht : c.args.get? qrRule.flag = some (boolText b)) :
    Sets qrRule.option [.code (qrRule.text !b)] ps :=
  flag_sound (List.all_eq_true.1 qr_rules b (by cases b <;> simp)) hr hn v hc ht rfl
    fun _ _ _ hrel h _ hw => setsFin_sound hrel h hw

set_option maxRecDepth 100000 in
theorem rnn_rules : (rnnRules.all fun ru => onApi ru.api (flagOk ru.flag .notPlain (absent ru.option))) = true := by
  decide +kernel

/-- **C81 fails** for `bidirectional=v` of the recurrent layers, in every valid call: the code does not give the option, so
the layer goes in one direction whatever the value of `v` is. -/
theorem C81_rnn_negative {ru : FlagRule} (hru : ru ∈ rnnRules) {r : Data.Raw} (hr : r ∈ Data.apiTable)
    (hn : r.name = ru.api) {c : Call} (v : Valid r c) {ps : List Piece} (hc : Converts r c (.code ps)) {t : Str}
    (ht : c.args.get? ru.flag = some t) (hp : ¬Plain t) : .code (ru.option ++ py"=") ∉ ps :=
  flag_sound (List.all_eq_true.1 rnn_rules ru hru) hr hn v hc ht hp fun _ _ _ hrel h _ hw => absent_sound hrel h hw

/-! ## Calls that meet the hypotheses -/

/-- A valid call of the API with these arguments becomes this code. -/
def becomes (a : Str) (args : Dict Str Str) (text : Str) : Bool := coded a && someEntry a fun r =>
  decide (Valid r (callOf r args)) && codeWith r (callOf r args) fun ps =>
    Spec.print args py"r" (fun s => s ++ py"_0") ps == text

theorem becomes_sound {a : Str} {args : Dict Str Str} {text : Str} (h : becomes a args text = true) :
    ∃ r ∈ Data.apiTable, r.name = a ∧ ∃ c ps, c.args = args ∧ Valid r c ∧ Converts r c (.code ps) ∧
      Spec.print c.args c.recv c.fresh ps = text := by
  simp only [becomes, Bool.and_eq_true] at h
  obtain ⟨r, hr, hn, h⟩ := someEntry_sound (by simpa [coded] using h.1) h.2
  simp only [Bool.and_eq_true, decide_eq_true_eq] at h
  obtain ⟨ps, hps, ht⟩ := converts_of h.2
  exact ⟨r, hr, hn, _, ps, rfl, h.1, hps, eq_of_beq ht⟩

set_option maxRecDepth 100000 in
example : ∃ ru ∈ trainRules, ∃ r ∈ Data.apiTable, r.name = ru.api ∧ ∃ c ps, c.args = [(py"root", py"d"), (ru.flag, boolText false)] ∧
    Valid r c ∧ Converts r c (.code ps) ∧ Spec.print c.args c.recv c.fresh ps =
      py"\nimport os\npaddle.vision.datasets.Cifar10(data_file=os.path.join(d, 'cifar-10-python.tar.gz'), mode='test')\n" :=
  ⟨⟨py"torchvision.datasets.CIFAR10", py"train", py"mode", py"'train'", py"'test'", true, true⟩, by simp [trainRules],
    becomes_sound (by decide +kernel)⟩

set_option maxRecDepth 100000 in
example : ∃ ru ∈ trainRules, ¬Plain py"not val" ∧ ∃ r ∈ Data.apiTable, r.name = ru.api ∧ ∃ c ps,
    c.args = [(ru.flag, py"not val")] ∧ Valid r c ∧ Converts r c (.code ps) ∧ Spec.print c.args c.recv c.fresh ps =
      py"\nimport os\npaddle.vision.datasets.MNIST(mode='train' if not val else 'test')\n" :=
  ⟨⟨py"torchvision.datasets.MNIST", py"train", py"mode", py"'train'", py"'test'", true, true⟩, by simp [trainRules], by decide,
    becomes_sound (by decide +kernel)⟩

set_option maxRecDepth 100000 in
example : ∃ r ∈ Data.apiTable, r.name = qrRule.api ∧ ∃ c ps, c.args = [(qrRule.flag, boolText true)] ∧ Valid r c ∧
    Converts r c (.code ps) ∧ Spec.print c.args c.recv c.fresh ps = py"r.qr(mode='complete')" :=
  becomes_sound (by decide +kernel)

set_option maxRecDepth 100000 in
example : ∃ r ∈ Data.apiTable, r.name = qrRule.api ∧ ∃ c ps, c.args = [] ∧ Valid r c ∧
    Converts r c (.code ps) ∧ Spec.print c.args c.recv c.fresh ps = py"r.qr()" :=
  becomes_sound (by decide +kernel)

set_option maxRecDepth 100000 in
example : ∃ ru ∈ rnnRules, ¬Plain py"v" ∧ ∃ r ∈ Data.apiTable, r.name = ru.api ∧ ∃ c ps,
    c.args = [(py"input_size", py"(4)"), (py"hidden_size", py"(8)"), (ru.flag, py"v")] ∧ Valid r c ∧
    Converts r c (.code ps) ∧ Spec.print c.args c.recv c.fresh ps =
      py"paddle.nn.LSTM(input_size=(4), hidden_size=(8), time_major=not False)" :=
  ⟨⟨py"torch.nn.LSTM", py"bidirectional", py"direction", py"'bidirect'", py"'forward'", false, false⟩, by simp [rnnRules],
    by decide, becomes_sound (by decide +kernel)⟩

end Verif.Template

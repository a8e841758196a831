import Verif.Lemmas.TemplateSpelling
import Verif.Props.Template
import Verif.Props.TemplateNegative

namespace Verif.Template
open Verif
open Verif.Spec
open Verif.Matcher (Cfg)

/-! ## C80: how an argument is written does not decide the code -/

/-- **C80.** Two valid calls of an API of the shipped table, with the same arguments in the same order, written differently.
The same happens to both: the same code but for the texts of the arguments, or both are left as they are. Exceptions: the
arguments in `textTable` must be written in the same way; those in `literal` only if they are `None`, a boolean or a string in
one of the calls. The matcher of the API must be modelled. -/
theorem C80_spelling_partial {r : Data.Raw} (hr : r ∈ Data.apiTable) {c c' : Call} (v : Valid r c) (v' : Valid r c')
    (hk : c.args.keys = c'.args.keys) (ht : ∀ k, (r.name, k) ∈ textTable → c.args.get? k = c'.args.get? k)
    (hl : ∀ k, literal r.name k = true → Equivalent (c.args.get? k) (c'.args.get? k)) {o : Out} (h : Converts r c o) :
    Converts r c' o := by
  obtain ⟨m, hm, hc, rfl⟩ := h
  refine ⟨m, hm, hc, ?_⟩
  have hcc : Alike (fun k => textTable.contains (r.name, k)) (literal r.name) c c' :=
    ⟨hk, v.api.trans v'.api.symm, fun k h => ht k (by simpa using h), hl⟩
  have := on_entry same_table hr hm hc
  simp only [sameOk, ← v.api] at this
  have := sameAll_sound hcc (m.2 r.name r.cfg) v.complete v.single
    (Rel.start v.wf (params_nodup hr hm hc) v.known v.complete) this
  rw [hcc.start] at this
  simp only [K.out, ← this, hcc.start]

set_option maxRecDepth 100000 in
example : ∃ r ∈ Data.apiTable, r.name = py"torch.nn.RNN" ∧ ∃ c c' ps, Valid r c ∧ Valid r c' ∧ c.args.keys = c'.args.keys ∧
    (∀ k, (r.name, k) ∈ textTable → c.args.get? k = c'.args.get? k) ∧
    (∀ k, literal r.name k = true → Equivalent (c.args.get? k) (c'.args.get? k)) ∧ Converts r c (.code ps) ∧
    Spec.print c.args c.recv c.fresh ps = py"paddle.nn.SimpleRNN(input_size=n, hidden_size=m, time_major=not False, direction='bidirect')" ∧
    Spec.print c'.args c'.recv c'.fresh ps = py"paddle.nn.SimpleRNN(input_size=f(a), hidden_size=(3), time_major=not False, direction='bidirect')" := by
  obtain ⟨r, hr, hn, h⟩ := someEntry_sound (a := py"torch.nn.RNN") (by decide +kernel) (f := fun r =>
    decide (Valid r (callOf r [(py"input_size", py"n"), (py"hidden_size", py"m"), (py"bidirectional", py"(True)")])) &&
    decide (Valid r (callOf r [(py"input_size", py"f(a)"), (py"hidden_size", py"(3)"), (py"bidirectional", py"(True)")])) &&
      codeWith r (callOf r [(py"input_size", py"n"), (py"hidden_size", py"m"), (py"bidirectional", py"(True)")]) fun ps =>
        Spec.print [(py"input_size", py"n"), (py"hidden_size", py"m"), (py"bidirectional", py"(True)")]
          py"r" (fun s => s ++ py"_0") ps == py"paddle.nn.SimpleRNN(input_size=n, hidden_size=m, time_major=not False, direction='bidirect')" &&
        Spec.print [(py"input_size", py"f(a)"), (py"hidden_size", py"(3)"), (py"bidirectional", py"(True)")]
          py"r" (fun s => s ++ py"_0") ps == py"paddle.nn.SimpleRNN(input_size=f(a), hidden_size=(3), time_major=not False, direction='bidirect')")
    (by decide +kernel)
  simp only [Bool.and_eq_true, decide_eq_true_eq] at h
  obtain ⟨ps, hps, ht⟩ := converts_of h.2
  simp only [Bool.and_eq_true, beq_iff_eq] at ht
  refine ⟨r, hr, hn, _, _, ps, h.1.1, h.1.2, rfl, ?_, ?_, hps, ht.1, ht.2⟩
  · intro k hk
    rw [hn] at hk
    simp [textTable] at hk
  · intro k hk
    rw [hn] at hk
    by_cases h1 : k = py"input_size"
    · subst h1; exact absurd hk (by decide)
    · by_cases h2 : k = py"hidden_size"
      · subst h2; exact absurd hk (by decide)
      · exact .inl (by simp [callOf, Dict.get?, Ne.symm h1, Ne.symm h2])

/-! ## The exceptions -/

/-- The matcher does something with this property to the call. -/
def outWith (r : Data.Raw) (c : Call) (f : Out → Bool) : Bool :=
  matchers.any fun m => Nat.beq (Data.encode m.1) r.matcher && f ((m.2 r.name r.cfg).out c)

theorem converts_out {r : Data.Raw} {c : Call} {f : Out → Bool} (h : outWith r c f = true) :
    ∃ o, Converts r c o ∧ f o = true := by
  obtain ⟨m, hm, h⟩ := List.any_eq_true.1 h
  rw [Bool.and_eq_true] at h
  have hd := List.all_eq_true.1 class_table m hm
  exact ⟨_, ⟨m, hm, ((Data.decode_eq_iff (by simpa using hd)).2 (Nat.beq_eq.mp h.1).symm).symm, rfl⟩, h.2⟩

/-- Nothing else can happen to the call. -/
theorem converts_unique {r : Data.Raw} {c : Call} {o o' : Out} (h : Converts r c o) (h' : Converts r c o') : o = o' := by
  obtain ⟨m, hm, hc, rfl⟩ := h
  obtain ⟨m', hm', hc', rfl⟩ := h'
  have hnd : (matchers.map (·.1)).Nodup := by decide +kernel
  have : m = m' := List.inj_on_of_nodup_map hnd hm hm' (hc.trans hc'.symm)
  rw [this]

/-- Texts that make a difference. -/
def speaking : List ((Str × Str) × Str) := [
  ((py"setuptools.setup", py"cmdclass"), py"{\"\"\"build_ext\"\"\": paddle.utils.cpp_extension.BuildExtension}"),
  ((py"torch.cpu.set_device", py"device"), py"cuda_device"), ((py"torch.index_copy", py"dim"), py"d0m"),
  ((py"torch.nn.RNNBase", py"bidirectional"), py"isTrue"),
  ((py"torch.optim.lr_scheduler.OneCycleLR", py"total_steps"), py"f(None)"), ((py"torch.sparse.sum", py"dim"), py"f(None)"),
  ((py"os.environ.get", py"key"), py"\"\"\"LOCAL_RANK\"\"\""), ((py"torch.Tensor.set_", py"source"), py"None"),
  ((py"torch.linalg.matrix_norm", py"dtype"), py"None"), ((py"torch.nn.LSTM", py"bidirectional"), py"(True)"),
  ((py"torch.nn.RNN", py"bidirectional"), py"(True)"), ((py"torch.nn.RNNBase", py"dtype"), py"None"),
  ((py"torch.nn.functional.softmin", py"dim"), py"None"),
  ((py"torch.set_printoptions", py"profile"), py"\"\"\"full\"\"\""),
  ((py"torchvision.datasets.Flowers102", py"split"), py"\"\"\"train\"\"\"")]

/-- A text for the argument that makes a difference. -/
def speakingText (p : Str × Str) : Str := ((speaking.find? (·.1 == p)).map (·.2)).getD py"(False)"

/-- The calls with only this argument, besides those without which there is no difference. -/
def speakingArgs (p : Str × Str) (t : Str) : Data.Raw → Dict Str Str := fun r =>
  if p == (py"torch.set_printoptions", py"profile") then [(p.2, t)] else (callFor someLost r p.2).args.set p.2 t

/-- The calls give the same arguments, and all but this one are written in the same way. -/
def OnlyDiffer (k : Str) (c c' : Call) : Prop :=
  c.args.keys = c'.args.keys ∧ ∀ j, j ≠ k → c.args.get? j = c'.args.get? j

def speaks (r : Data.Raw) (p : Str × Str) : Bool :=
  let c := callOf r (speakingArgs p (speakingText p) r)
  let c' := callOf r (speakingArgs p py"v" r)
  decide (Valid r c) && decide (Valid r c') && c.args.keys == c'.args.keys &&
    (c.args.keys.all fun j => j == p.2 || c.args.get? j == c'.args.get? j) && c.args.get? p.2 == some (speakingText p) &&
    c'.args.get? p.2 == some py"v" && outWith r c fun o => outWith r c' fun o' => o != o'

set_option maxRecDepth 100000 in
theorem speaking_table : ((textTable ++ literalTable).all fun p => coded p.1 && someEntry p.1 fun r => speaks r p) = true := by
  decide +kernel

theorem speaks_sound {p : Str × Str} (hp : p ∈ textTable ++ literalTable) : ∃ r ∈ Data.apiTable, r.name = p.1 ∧
    ∃ c c' o o', Valid r c ∧ Valid r c' ∧ OnlyDiffer p.2 c c' ∧ c.args.get? p.2 = some (speakingText p) ∧
      c'.args.get? p.2 = some py"v" ∧ Converts r c o ∧ Converts r c' o' ∧ o ≠ o' := by
  have h := List.all_eq_true.1 speaking_table p hp
  rw [Bool.and_eq_true] at h
  obtain ⟨r, hr, hn, h⟩ := someEntry_sound (by simpa [coded] using h.1) h.2
  simp only [speaks, Bool.and_eq_true, decide_eq_true_eq, beq_iff_eq] at h
  obtain ⟨⟨⟨⟨⟨⟨hv, hv'⟩, hk⟩, ha⟩, ht⟩, ht'⟩, hc⟩ := h
  obtain ⟨o, ho, hc⟩ := converts_out hc
  obtain ⟨o', ho', hc⟩ := converts_out hc
  refine ⟨r, hr, hn, _, _, o, o', hv, hv', ⟨hk, fun j hj => ?_⟩, ht, ht', ho, ho', by simpa using hc⟩
  by_cases hm : j ∈ (callOf r (speakingArgs p (speakingText p) r)).args.keys
  · have := List.all_eq_true.1 ha j hm
    simp only [Bool.or_eq_true, beq_iff_eq] at this
    exact this.resolve_left hj
  · have hm' := hm
    rw [hk] at hm'
    have none_of : ∀ d : Dict Str Str, j ∉ d.keys → d.get? j = none := fun d hd => by
      rw [← Dict.has_iff, Dict.has] at hd
      simpa using hd
    rw [none_of _ hm, none_of _ hm']

/-- **C80 fails** for every argument of `textTable`: two calls in which only this argument is written differently, in both
calls neither `None` nor a boolean nor a string, and different things happen to them. `torch.index_copy(x, d0m, i, s)` is taken
for axis 0 and `torch.index_copy(x, v, i, s)` is not; `torch.cpu.set_device(cuda_device)` becomes
`paddle.device.set_device(device=gpu_device)`. -/
theorem C80_text_negative : ∀ p ∈ textTable, ∃ r ∈ Data.apiTable, r.name = p.1 ∧ ∃ c c' t t' o o', Valid r c ∧ Valid r c' ∧
    OnlyDiffer p.2 c c' ∧ c.args.get? p.2 = some t ∧ c'.args.get? p.2 = some t' ∧ ¬Plain t ∧ ¬Plain t' ∧
    Converts r c o ∧ ¬Converts r c' o ∧ Converts r c' o' := by
  intro p hp
  obtain ⟨r, hr, hn, c, c', o, o', hv, hv', hd, ht, ht', ho, ho', hne⟩ := speaks_sound (List.mem_append_left _ hp)
  refine ⟨r, hr, hn, c, c', _, _, o, o', hv, hv', hd, ht, ht', ?_, by decide, ho, fun h => hne (converts_unique h ho'), ho'⟩
  have : (textTable.all fun p => decide (¬Plain (speakingText p))) = true := by decide +kernel
  simpa using List.all_eq_true.1 this p hp

/-- **C80.** The table `literalTable` has no needless entries: for each of its arguments there are two calls in which only this
argument is written differently, a literal in one and a variable in the other, and different things happen to them. -/
theorem C80_literal_needed_partial : ∀ p ∈ literalTable, ∃ r ∈ Data.apiTable, r.name = p.1 ∧ ∃ c c' t t' o o', Valid r c ∧
    Valid r c' ∧ OnlyDiffer p.2 c c' ∧ c.args.get? p.2 = some t ∧ c'.args.get? p.2 = some t' ∧ Plain t ∧ ¬Plain t' ∧
    Converts r c o ∧ ¬Converts r c' o ∧ Converts r c' o' := by
  intro p hp
  obtain ⟨r, hr, hn, c, c', o, o', hv, hv', hd, ht, ht', ho, ho', hne⟩ := speaks_sound (List.mem_append_right _ hp)
  refine ⟨r, hr, hn, c, c', _, _, o, o', hv, hv', hd, ht, ht', ?_, by decide, ho, fun h => hne (converts_unique h ho'), ho'⟩
  have : (literalTable.all fun p => decide (Plain (speakingText p))) = true := by decide +kernel
  simpa using List.all_eq_true.1 this p hp

end Verif.Template

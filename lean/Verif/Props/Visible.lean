import Verif.Lemmas.VisibleTable
import Verif.Props.TemplateCode

/-! # C89: the code of the matchers uses only names that exist -/

namespace Verif.Template
open Verif
open Verif.Spec
open Verif.Spec.Visible
open Verif.Matcher (Cfg)

/-! ## Calls that ask for no helper -/

theorem start_get (c : Call) (k : Str) : c.start.kw.get? k = (c.args.get? k).map fun _ => [.user k] := by
  have : ∀ d : Dict Str Str, Dict.get? (d.map fun kv => (kv.1, [Piece.user kv.1])) k =
      (d.get? k).map fun _ => [Piece.user k] := by
    intro d
    induction d with
    | nil => rfl
    | cons kv d ih =>
      simp only [List.map_cons, Dict.get?]
      split
      · next e => simp [e]
      · exact ih
  exact this c.args

theorem text_user (c : Call) {k t : Str} (h : c.args.get? k = some t) : c.text [.user k] = t := by
  simp [Call.text, Spec.print, Piece.text, h]

theorem fSoftmin_plain {cfg : Cfg} {c : Call} (h : HelperText.noDim c = false) :
    (fSoftmin cfg).out c = (fSoftminPlain cfg).out c := by
  unfold HelperText.noDim at h
  split at h
  · simp at h
  · next t ht =>
    have hkw : ∀ v, Dict.get? (c.start.kw.set py"input" v) py"dim" = some [.user py"dim"] := by
      intro v
      rw [Dict.get?_set_ne _ (by decide), start_get, ht]; rfl
    simp only [K.out, fSoftmin, fSoftminPlain, K.run]
    split
    · split
      · next hv =>
        simp only [has_eq, hkw, Option.isSome_some, if_true, Q.eval, text_user c ht, Tst.holds, h, Bool.false_eq_true, if_false]
      · rfl
    · rfl

theorem device2Str_plain {cfg : Cfg} {c : Call} (h : HelperText.enables py"Device2StrMatcher" c = false) :
    (device2Str cfg).out c = (device2StrPlain cfg).out c := by
  simp only [K.out, device2Str, device2StrPlain, run_has, run_pop, run_ask]
  split
  · next hd =>
    rw [has_eq, start_get] at hd
    obtain ⟨t, ht⟩ : ∃ t, c.args.get? py"device" = some t := by
      cases hg : c.args.get? py"device" with
      | none => simp [hg] at hd
      | some t => exact ⟨t, rfl⟩
    have h : (Tst.holds .digits t || Tst.holds (.contains py"cuda") t) = true := by
      have h' : (!(Tst.holds .digits t || Tst.holds (.contains py"cuda") t)) = false := by
        unfold HelperText.enables at h
        rw [if_neg (by decide), if_pos (by decide), ht] at h
        exact h
      simpa only [Bool.not_eq_false'] using h'
    have hev : evalAll c c.start [.arg py"device"] = some [.user py"device"] := by
      simp only [evalAll, Q.eval, start_get, ht, Option.map_some, List.append_nil]
    rw [hev]
    simp only [Q.eval, Dict.get?_set_self, text_user c ht]
    split
    · rfl
    · next h1 =>
      rw [Bool.or_eq_true] at h
      rw [if_pos (h.resolve_left h1), if_pos (h.resolve_left h1)]
  · rfl

theorem namesIn_sound {r : Data.Raw} (hr : r ∈ Data.apiTable) {c : Call} (v : Valid r c)
    {m : Str × (Str → Cfg → K)} (hm : m ∈ matchers) (hc : m.1 = r.class) {ws ts : List Str} {g : K}
    (hg : namesIn ws ts r.name r.cfg g = true) {ps : List Piece} (h : g.out c = .code ps) :
    unbound (known ++ ws) ps = [] ∧ ∀ w ∈ Assigned.assigned ps, Assigned.Generated w ∨ w ∈ ts := by
  have := checkAll_sound
    (P := fun o => ∀ ps, o = .code ps → unbound (known ++ ws) ps = [] ∧
      ∀ w ∈ Assigned.assigned ps, Assigned.Generated w ∨ w ∈ ts) v.api
    (x := ⟨apiVal r.name r.cfg, false, none, fun a qs => namesFin (known ++ ws) (apiVal r.name r.cfg) a qs &&
      targetsFin ts (apiVal r.name r.cfg) a qs⟩)
    (fun _ h => by simp at h) (by simp) (fun _ => by simp)
    (fun a s qs hrel hfin => by
      intro ps hps
      unfold emitOut at hps
      split at hps
      · next w hw =>
        simp only [Out.code.injEq] at hps
        subst hps
        simp only [← v.api, Bool.and_eq_true] at hfin
        exact ⟨namesFin_sound hrel hfin.1 hw, targetsFin_sound hrel hfin.2 hw⟩
      · simp at hps)
    g v.complete v.single (Rel.start v.wf (params_nodup hr hm hc) v.known v.complete) hg
  exact this ps h

/-- What a call brings into the file: the names that the helper defines for which it asks. -/
def brought (r : Data.Raw) (c : Call) : List Str :=
  match HelperText.request r.class r.cfg c with
  | some t => defined t
  | none => []

theorem names_of {r : Data.Raw} (hr : r ∈ Data.apiTable) {c : Call} (v : Valid r c) {ps : List Piece}
    (h : Converts r c (.code ps)) : unbound (known ++ (brought r c ++ excused r.name)) ps = [] ∧
      ∀ w ∈ Assigned.assigned ps, Assigned.Generated w ∨ w ∈ scratchOf r.class := by
  obtain ⟨m, hm, hc, ho⟩ := h
  have ht := namesOn_entry names_table hr hm hc
  simp only [namesOk, Bool.and_eq_true, Bool.or_eq_true, Bool.not_eq_true', decide_eq_true_eq] at ht
  obtain ⟨⟨⟨hall, hlog⟩, hsoft⟩, hdev⟩ := ht
  rw [← hc]
  cases he : HelperText.enables r.class c with
  | true =>
    have : brought r c = helperNames m.1 r.cfg := by
      simp only [brought, helperNames, HelperText.request, he, if_true, hc]
      cases HelperText.helper r.class r.cfg <;> rfl
    rw [this]
    exact namesIn_sound hr v hm hc hall ho
  | false =>
    have : brought r c = [] := by simp [brought, HelperText.request, he]
    rw [this, List.nil_append]
    by_cases c1 : m.1 = py"FSoftMinMatcher"
    · obtain ⟨hg, hk⟩ := hsoft.resolve_left (by simp [c1])
      refine namesIn_sound hr v hm hc hk ?_
      rw [← fSoftmin_plain (by simpa [HelperText.enables, ← hc, c1] using he), ← hg]; exact ho
    · by_cases c2 : m.1 = py"LogSoftmaxMatcher"
      · exact namesIn_sound hr v hm hc (hlog.resolve_left (by simp [c2])) ho
      · by_cases c3 : m.1 = py"Device2StrMatcher"
        · obtain ⟨hg, hk⟩ := hdev.resolve_left (by simp [c3])
          refine namesIn_sound hr v hm hc hk ?_
          rw [← device2Str_plain (by rw [← c3, hc]; exact he), ← hg]; exact ho
        · simp [HelperText.enables, ← hc, c1, c2, c3] at he

/-- **C89.** Take an API of the shipped table with a modelled matcher, other than `torch.index_copy` and
`torchvision.io.decode_jpeg`, and a valid call of it that is replaced by code. All names that the code uses are words of
Python, packages that PaConvert imports, assigned before in the code, or defined by the helper for which this very call
asks. -/
theorem C89_names_partial {r : Data.Raw} (hr : r ∈ Data.apiTable) {c : Call} (v : Valid r c) {ps : List Piece}
    (h : Converts r c (.code ps)) (h1 : r.name ≠ py"torch.index_copy") (h2 : r.name ≠ py"torchvision.io.decode_jpeg") :
    unbound (known ++ brought r c) ps = [] := by
  have hx : excused r.name = [] := by
    simp only [excused, nameless, Dict.get?, if_neg (Ne.symm h1), if_neg (Ne.symm h2), Option.getD_none]
  have := (names_of hr v h).1
  rwa [hx, List.append_nil] at this

/-- `torch.nn.functional.softmin(x)`: the code uses `_get_softmin_dim`, and the call asks for its helper. -/
example : ∃ r ∈ Data.apiTable, r.name = py"torch.nn.functional.softmin" ∧ ∃ c ps, Valid r c ∧ Converts r c (.code ps) ∧
    c.text ps = py"paddle.nn.functional.softmax(x=-x, axis=_get_softmin_dim(-x.ndim))" ∧
    unbound known ps = [py"_get_softmin_dim"] ∧ brought r c = [py"_get_softmin_dim"] := by
  obtain ⟨r, hr, hn, h⟩ := someEntry_sound (a := py"torch.nn.functional.softmin") (by decide +kernel) (f := fun r =>
    decide (Valid r (callOf r [(py"input", py"x")])) && decide (brought r (callOf r [(py"input", py"x")]) = [py"_get_softmin_dim"]) &&
      codeWith r (callOf r [(py"input", py"x")]) fun ps =>
        decide ((callOf r [(py"input", py"x")]).text ps = py"paddle.nn.functional.softmax(x=-x, axis=_get_softmin_dim(-x.ndim))") &&
          decide (unbound known ps = [py"_get_softmin_dim"])) (by decide +kernel)
  simp only [Bool.and_eq_true, decide_eq_true_eq] at h
  obtain ⟨ps, hps, ht⟩ := converts_of h.2
  simp only [Bool.and_eq_true, decide_eq_true_eq] at ht
  exact ⟨r, hr, hn, _, ps, h.1.1, hps, ht.1, ht.2, h.1.2⟩

/-- With `dim` it asks for none. -/
example : ∃ r ∈ Data.apiTable, r.name = py"torch.nn.functional.softmin" ∧ ∃ c ps, Valid r c ∧ Converts r c (.code ps) ∧
    c.text ps = py"paddle.nn.functional.softmax(x=-x, axis=1)" ∧ brought r c = [] := by
  obtain ⟨r, hr, hn, h⟩ := someEntry_sound (a := py"torch.nn.functional.softmin") (by decide +kernel) (f := fun r =>
    decide (Valid r (callOf r [(py"input", py"x"), (py"dim", py"1")])) &&
      decide (brought r (callOf r [(py"input", py"x"), (py"dim", py"1")]) = []) &&
      codeWith r (callOf r [(py"input", py"x"), (py"dim", py"1")]) fun ps =>
        decide ((callOf r [(py"input", py"x"), (py"dim", py"1")]).text ps = py"paddle.nn.functional.softmax(x=-x, axis=1)"))
    (by decide +kernel)
  simp only [Bool.and_eq_true, decide_eq_true_eq] at h
  obtain ⟨ps, hps, ht⟩ := converts_of h.2
  simp only [decide_eq_true_eq] at ht
  exact ⟨r, hr, hn, _, ps, h.1.1, hps, ht, h.1.2⟩

/-- **C89** is false for `torch.index_copy`: the code reads a variable `index`, whatever the argument is. -/
theorem C89_index_copy_negative : ∃ r ∈ Data.apiTable, r.name = py"torch.index_copy" ∧ ∃ c ps, Valid r c ∧
    Converts r c (.code ps) ∧ c.args = [(py"input", py"x"), (py"dim", py"d"), (py"index", py"j"), (py"source", py"s")] ∧
    py"index" ∈ unbound (known ++ brought r c) ps := by
  obtain ⟨r, hr, hn, h⟩ := someEntry_sound (a := py"torch.index_copy") (by decide +kernel) (f := fun r =>
    decide (Valid r (callOf r [(py"input", py"x"), (py"dim", py"d"), (py"index", py"j"), (py"source", py"s")])) &&
      codeWith r (callOf r [(py"input", py"x"), (py"dim", py"d"), (py"index", py"j"), (py"source", py"s")]) fun ps =>
        decide (py"index" ∈ unbound (known ++
          brought r (callOf r [(py"input", py"x"), (py"dim", py"d"), (py"index", py"j"), (py"source", py"s")])) ps))
    (by decide +kernel)
  simp only [Bool.and_eq_true, decide_eq_true_eq] at h
  obtain ⟨ps, hps, ht⟩ := converts_of h.2
  simp only [decide_eq_true_eq] at ht
  exact ⟨r, hr, hn, _, ps, h.1, hps, rfl, ht⟩

/-- **C89** is false for `torchvision.io.decode_jpeg(x)`: the code is `paddle.vision.ops.decode_jpeg(x=x).to(cpu)`. -/
theorem C89_decode_jpeg_negative : ∃ r ∈ Data.apiTable, r.name = py"torchvision.io.decode_jpeg" ∧ ∃ c ps, Valid r c ∧
    Converts r c (.code ps) ∧ c.args = [(py"input", py"x")] ∧ py"cpu" ∈ unbound (known ++ brought r c) ps := by
  obtain ⟨r, hr, hn, h⟩ := someEntry_sound (a := py"torchvision.io.decode_jpeg") (by decide +kernel) (f := fun r =>
    decide (Valid r (callOf r [(py"input", py"x")])) &&
      codeWith r (callOf r [(py"input", py"x")]) fun ps =>
        decide (py"cpu" ∈ unbound (known ++ brought r (callOf r [(py"input", py"x")])) ps)) (by decide +kernel)
  simp only [Bool.and_eq_true, decide_eq_true_eq] at h
  obtain ⟨ps, hps, ht⟩ := converts_of h.2
  simp only [decide_eq_true_eq] at ht
  exact ⟨r, hr, hn, _, ps, h.1, hps, rfl, ht⟩

end Verif.Template

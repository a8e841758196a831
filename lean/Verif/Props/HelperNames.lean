import Verif.Lemmas.HelperNames
import Verif.Props.Visible

/-! # C90: a helper is found where it is used -/

namespace Verif.HelperText
open Verif
open Verif.Spec
open Verif.Spec.Visible
open Verif.Utils
open Verif.Template (Call Valid Converts brought)

/-- The helper of a matcher of the shipped table. -/
def Shipped (t : List Str) : Prop := ∃ r ∈ Data.apiTable, helper r.class r.cfg = some t

theorem Shipped.mem {t : List Str} (h : Shipped t) : t ∈ allTexts := by
  obtain ⟨r, hr, ht⟩ := h
  exact mem_allTexts hr ht

theorem values_of {hash : Str → Int} {reqs : List (List Str)} {m : CodeMap} (hm : addAll hash [] (reqs.map code) = some m)
    {v : Str} : v ∈ m.values ↔ ∃ t ∈ reqs, v = rstripNl (code t) := by
  rw [C03_helpers_complete hash _ m hm v]
  simp [eq_comm]

theorem values_fresh {hash : Str → Int} {reqs : List (List Str)} (hs : ∀ t ∈ reqs, Shipped t) {m : CodeMap}
    (hm : addAll hash [] (reqs.map code) = some m) : ∀ v ∈ m.values, Fresh (Str.splitOn '\n' v) := by
  intro v hv
  obtain ⟨t, ht, rfl⟩ := (values_of hm).1 hv
  have := text_lines (hs t ht).mem
  rw [this.1]; exact this.2

theorem blocks_last {hash : Str → Int} {reqs : List (List Str)} (hs : ∀ t ∈ reqs, Shipped t) {m : CodeMap}
    (hm : addAll hash [] (reqs.map code) = some m) {t : List Str} (ht : t ∈ reqs) {n : Str} (hn : n ∈ defined t) :
    last (m.values.flatMap fun v => definitions (Str.splitOn '\n' v)) n = lookup t n ∧ (lookup t n).isSome = true := by
  have hsome : (lookup t n).isSome = true := by
    rw [lookup_eq, Option.isSome_iff_ne_none]
    exact fun h => last_eq_none.1 h hn
  refine ⟨?_, hsome⟩
  obtain ⟨d, hd⟩ := Option.isSome_iff_exists.1 hsome
  rw [hd]
  have hv : ∀ u ∈ reqs, last (definitions (Str.splitOn '\n' (rstripNl (code u)))) n = lookup u n := fun u hu => by
    rw [(text_lines (hs u hu).mem).1, definitions_blank]; rfl
  refine last_flatMap _ (fun v hv' => ?_) ⟨rstripNl (code t), (values_of hm).2 ⟨t, ht, rfl⟩, by rw [hv t ht, hd]⟩
  obtain ⟨u, hu, rfl⟩ := (values_of hm).1 hv'
  rw [hv u hu, ← hd]
  exact text_agree (hs u hu).mem (hs t ht).mem hn

/-- **C90, single file.** Let a conversion ask for any helpers of matchers of the shipped table. In the text that is written,
each name of each of them has the definition of this helper, unless the user's own code after the imports defines it again:
no two helpers disagree on a name, and an import of the user does not take it away. -/
theorem C90_single (hash : Str → Int) {reqs : List (List Str)} (hs : ∀ t ∈ reqs, Shipped t) {m : CodeMap}
    (hm : addAll hash [] (reqs.map code) = some m) {isBreak isSpace : Char → Bool} (hb : isBreak '\n' = true) (existing : Str)
    {t : List Str} (ht : t ∈ reqs) {n : Str} (hn : n ∈ defined t)
    (hu : n ∉ defined ((splitLines isBreak existing).drop (findIdx isSpace (splitLines isBreak existing)))) :
    lookup (Str.splitOn '\n' (newContent isBreak isSpace m existing)) n = lookup t n ∧ (lookup t n).isSome = true := by
  obtain ⟨h1, h2⟩ := blocks_last hs hm ht hn
  refine ⟨?_, h2⟩
  rw [lookup_eq, single_definitions hb (values_fresh hs hm), last_append, last_append, h1, last_eq_none.2 hu, Option.none_or]
  obtain ⟨d, hd⟩ := Option.isSome_iff_exists.1 h2
  rw [hd]; rfl

/-- **C90, directory.** In the text of `paddle_utils.py`, each name of each helper has the definition of this helper, and
`import *` brings it if it does not begin with `_`. -/
theorem C90_dir_partial (hash : Str → Int) {reqs : List (List Str)} (hs : ∀ t ∈ reqs, Shipped t) {m : CodeMap}
    (hm : addAll hash [] (reqs.map code) = some m) {t : List Str} (ht : t ∈ reqs) {n : Str} (hn : n ∈ defined t) :
    lookup (Str.splitOn '\n' (insertCode true m)) n = lookup t n ∧ (lookup t n).isSome = true ∧
    (Str.startsWith n py"_" = false → n ∈ starNames (Str.splitOn '\n' (insertCode true m))) := by
  obtain ⟨h1, h2⟩ := blocks_last hs hm ht hn
  have hl : lookup (Str.splitOn '\n' (insertCode true m)) n = lookup t n := by
    rw [lookup_eq, dir_definitions (values_fresh hs hm), ← List.singleton_append, last_append, h1]
    obtain ⟨d, hd⟩ := Option.isSome_iff_exists.1 h2
    rw [hd]; rfl
  refine ⟨hl, h2, fun h => ?_⟩
  refine List.mem_filter.2 ⟨?_, by simp [h]⟩
  by_contra hc
  have := last_eq_none.2 hc
  rw [← lookup_eq, hl] at this
  rw [this] at h2; simp at h2

/-- **C90, the names of the user.** In single-file mode a name that no requested helper defines has the definition that it has
without the helpers. -/
theorem C90_user_single_partial (hash : Str → Int) {reqs : List (List Str)} (hs : ∀ t ∈ reqs, Shipped t) {m : CodeMap}
    (hm : addAll hash [] (reqs.map code) = some m) {isBreak isSpace : Char → Bool} (hb : isBreak '\n' = true) (existing : Str)
    (hf : Fresh ((splitLines isBreak existing).drop (findIdx isSpace (splitLines isBreak existing))))
    {n : Str} (hn : ∀ t ∈ reqs, n ∉ defined t) :
    lookup (Str.splitOn '\n' (newContent isBreak isSpace m existing)) n = lookup (splitLines isBreak existing) n := by
  rw [lookup_eq, single_definitions hb (values_fresh hs hm), last_append, last_append]
  have : last (m.values.flatMap fun v => definitions (Str.splitOn '\n' v)) n = none := by
    rw [last_eq_none]
    intro h
    simp only [List.map_flatMap, List.mem_flatMap] at h
    obtain ⟨v, hv, h⟩ := h
    obtain ⟨t, ht, rfl⟩ := (values_of hm).1 hv
    rw [(text_lines (hs t ht).mem).1, definitions_blank] at h
    exact hn t ht h
  rw [this, Option.none_or, ← last_append, ← definitions_append hf, List.take_append_drop]; rfl

/-- **C90 for calls** (with C89). Take a valid call of an API with a modelled matcher, other than the two of C89, that is
replaced by code, in a conversion that asks for the helper of this call and any others. Each name that the code uses is a
word of Python, a package that PaConvert imports, assigned in the code, or has in the written file the definition of the
helper, if the user's code after the imports does not define it. -/
theorem C90_code_names_partial {r : Data.Raw} (hr : r ∈ Data.apiTable) {c : Call} (v : Valid r c) {ps : List Piece}
    (h : Converts r c (.code ps)) (h1 : r.name ≠ py"torch.index_copy") (h2 : r.name ≠ py"torchvision.io.decode_jpeg")
    (hash : Str → Int) {reqs : List (List Str)} (hs : ∀ t ∈ reqs, Shipped t)
    (hreq : ∀ t, request r.class r.cfg c = some t → t ∈ reqs) {m : CodeMap} (hm : addAll hash [] (reqs.map code) = some m)
    {isBreak isSpace : Char → Bool} (hb : isBreak '\n' = true) (existing : Str) {w : Str} (hw : w ∈ unbound known ps)
    (hu : w ∉ defined ((splitLines isBreak existing).drop (findIdx isSpace (splitLines isBreak existing)))) :
    ∃ t d, request r.class r.cfg c = some t ∧ lookup t w = some d ∧
      lookup (Str.splitOn '\n' (newContent isBreak isSpace m existing)) w = some d := by
  have := unbound_more (Template.C89_names_partial hr v h h1 h2) w hw
  unfold brought at this
  split at this
  · next t ht =>
    obtain ⟨h3, h4⟩ := C90_single hash hs hm hb existing (hreq t ht) this hu
    obtain ⟨d, hd⟩ := Option.isSome_iff_exists.1 h4
    exact ⟨t, d, ht, hd, by rw [h3, hd]⟩
  · simp at this

/-! ## Instances -/

theorem shipped_of {a : Str} (ha : Template.coded a = true) {t : List Str}
    (h : Template.someEntry a (fun r => decide (helper r.class r.cfg = some t)) = true) : Shipped t := by
  obtain ⟨r, hr, -, h⟩ := Template.someEntry_sound (by simpa [Template.coded] using ha) h
  exact ⟨r, hr, by simpa using h⟩

/-- The helpers of `torch.nn.LogSoftmax` and `torch.nn.Softmin` both define `_get_softmax_dim`. -/
example : ∃ m, addAll (fun s => s.length) [] ([logSoftmaxText, softminText].map code) = some m ∧
    (∀ t ∈ [logSoftmaxText, softminText], Shipped t) ∧
    py"_get_softmax_dim" ∈ defined logSoftmaxText ∧ py"_get_softmax_dim" ∈ defined softminText ∧
    (lookup (Str.splitOn '\n' (newContent (· == '\n') Char.isWhitespace m py"import paddle\nx = 1")) py"_get_softmax_dim").isSome = true ∧
    lookup (Str.splitOn '\n' (newContent (· == '\n') Char.isWhitespace m py"import paddle\nx = 1")) py"x" = some [py"x = 1"] := by
  refine ⟨(addAll (fun s => s.length) [] ([logSoftmaxText, softminText].map code)).get (by decide +kernel), by simp, ?_,
    by decide +kernel, by decide +kernel, by decide +kernel, by decide +kernel⟩
  intro t ht
  simp only [List.mem_cons, List.not_mem_nil, or_false] at ht
  rcases ht with rfl | rfl
  · exact shipped_of (a := py"torch.nn.LogSoftmax") (by decide +kernel) (by decide +kernel)
  · exact shipped_of (a := py"torch.nn.Softmin") (by decide +kernel) (by decide +kernel)

theorem star_lost {a : Str} {args : Dict Str Str} {w : Str} (ha : Template.coded a = true) (hw : Str.startsWith w py"_" = true)
    (h : Template.someEntry a (fun r => decide (Valid r (Template.callOf r args)) &&
      Template.codeWith r (Template.callOf r args) fun ps => decide (w ∈ unbound known ps)) = true) :
    ∃ r ∈ Data.apiTable, r.name = a ∧ ∃ c ps, Valid r c ∧ c.args = args ∧ Converts r c (.code ps) ∧ w ∈ unbound known ps ∧
      ∀ m, w ∉ starNames (Str.splitOn '\n' (insertCode true m)) := by
  obtain ⟨r, hr, hn, h⟩ := Template.someEntry_sound (by simpa [Template.coded] using ha) h
  simp only [Bool.and_eq_true, decide_eq_true_eq] at h
  obtain ⟨ps, hps, ht⟩ := Template.converts_of h.2
  simp only [decide_eq_true_eq] at ht
  refine ⟨r, hr, hn, _, ps, h.1, rfl, hps, ht, fun m hm => ?_⟩
  simpa [hw] using (List.mem_filter.1 hm).2

/-- **C90** is false in directory mode for three APIs. The code uses a name that begins with `_`, which
`from paddle_utils import *` never brings. -/
theorem C90_dir_negative : ∀ x ∈ ([(py"torch.set_num_threads", [(py"int", py"2")], py"_set_num_threads"),
      (py"torch.set_num_interop_threads", [(py"int", py"2")], py"_set_num_interop_threads"),
      (py"torch.nn.functional.softmin", [(py"input", py"x")], py"_get_softmin_dim")] : List (Str × Dict Str Str × Str)),
    ∃ r ∈ Data.apiTable, r.name = x.1 ∧ ∃ c ps, Valid r c ∧ c.args = x.2.1 ∧ Converts r c (.code ps) ∧
      x.2.2 ∈ unbound known ps ∧ ∀ m, x.2.2 ∉ starNames (Str.splitOn '\n' (insertCode true m)) := by
  intro x hx
  simp only [List.mem_cons, List.not_mem_nil, or_false] at hx
  rcases hx with rfl | rfl | rfl
  · exact star_lost (by decide +kernel) (by decide +kernel) (by decide +kernel)
  · exact star_lost (by decide +kernel) (by decide +kernel) (by decide +kernel)
  · exact star_lost (by decide +kernel) (by decide +kernel) (by decide +kernel)

/-- **C90** is false if the user's code has a class with the name of a helper: the converted `torch.nn.LSTMCell(...)`, which
is `LSTMCell(...)`, makes an object of the user's class. -/
theorem C90_single_negative : ∃ m, addAll (fun _ => 0) [] ([lstmCellText].map code) = some m ∧ Shipped lstmCellText ∧
    py"LSTMCell" ∈ defined lstmCellText ∧
    lookup (Str.splitOn '\n' (newContent (· == '\n') Char.isWhitespace m py"import paddle\n\nclass LSTMCell:\n    pass")) py"LSTMCell" =
      some [py"class LSTMCell:", py"    pass"] := by
  refine ⟨(addAll (fun _ => 0) [] ([lstmCellText].map code)).get (by decide +kernel), by simp, ?_, by decide +kernel, by decide +kernel⟩
  exact shipped_of (a := py"torch.nn.LSTMCell") (by decide +kernel) (by decide +kernel)

/-- **C90** is false for names of the user that a helper uses: the import of `repeat` in a helper replaces the user's. -/
theorem C90_user_negative : ∃ t m, Shipped t ∧ addAll (fun _ => 0) [] ([t].map code) = some m ∧
    lookup (splitLines (· == '\n') py"from einops import repeat\nx = 1") py"repeat" = some [py"from einops import repeat"] ∧
    lookup (Str.splitOn '\n' (newContent (· == '\n') Char.isWhitespace m py"from einops import repeat\nx = 1")) py"repeat" =
      some [py"from itertools import repeat"] := by
  refine ⟨ntupleText, (addAll (fun _ => 0) [] ([ntupleText].map code)).get (by decide +kernel), ?_, by simp, by decide +kernel, by decide +kernel⟩
  exact shipped_of (a := py"torch.nn.modules.utils._ntuple") (by decide +kernel) (by decide +kernel)

end Verif.HelperText

import Verif.Lemmas.TemplateKept
import Verif.Lemmas.TemplateCalls

namespace Verif.Template
open Verif
open Verif.Spec
open Verif.Matcher (Cfg)

/-! ## Calls for which the claims fail -/

/-- Calls that give only some of the arguments, or special texts. -/
def someLost : List ((Str × Str) × Dict Str Str) := [
  ((py"os.environ.get", py"value"), [(py"key", py"\"\"\"LOCAL_RANK\"\"\""), (py"value", py"f(x)")]),
  ((py"setuptools.setup", py"cmdclass"), [(py"name", py"n"), (py"cmdclass",
    py"{\"\"\"build_ext\"\"\": paddle.utils.cpp_extension.BuildExtension}")]),
  ((py"torch.index_copy", py"dim"), [(py"input", py"x"), (py"dim", py"d0m"), (py"index", py"i"), (py"source", py"s")]),
  ((py"torch.optim.lr_scheduler.OneCycleLR", py"total_steps"), [(py"optimizer", py"o"), (py"max_lr", py"m"),
    (py"total_steps", py"f(None)"), (py"epochs", py"e"), (py"steps_per_epoch", py"s")])]

def someRepeated : List ((Str × Str) × Dict Str Str) := [
  ((py"flash_attn.flash_attn_interface.flash_attn_unpadded_func", py"q"), [(py"q", py"q")]),
  ((py"torch.nn.functional.softmin", py"input"), [(py"input", py"x")])]

/-- A call of the API that gives the argument `k`: one of the list, or all the arguments that can be given together, each
with its name as text. -/
def callFor (some : List ((Str × Str) × Dict Str Str)) (r : Data.Raw) (k : Str) : Call :=
  callOf r (match some.find? fun p => p.1 == (r.name, k) with
    | .some p => p.2
    | none => ((params r.cfg).filter fun j => !(exclusive r.name).any (·.2 == j)).map fun j => (j, j))

set_option maxRecDepth 100000 in
theorem lost_table : (lostTable.all fun p => coded p.1 && someEntry p.1 fun r =>
    decide (Valid r (callFor someLost r p.2)) && ((callFor someLost r p.2).args.get? p.2).any (fun t => decide (¬Plain t)) &&
      !dropped r.cfg p.2 && codeWith r (callFor someLost r p.2) fun ps => times p.2 ps == 0) = true := by decide +kernel

/-- **C75 fails** for every entry of `lostTable`: there is a valid call that gives the argument, with a text that is neither
`None` nor a boolean nor a string, and is replaced by code without it. For example `os.environ.get("LOCAL_RANK", f(x))`
becomes `paddle.distributed.get_rank()`, and `torch.index_copy(x, d0m, i, s)` is taken for axis 0 because of the name of the
variable. -/
theorem C75_lost_negative : ∀ p ∈ lostTable, ∃ r ∈ Data.apiTable, r.name = p.1 ∧ dropped r.cfg p.2 = false ∧
    ∃ c t ps, Valid r c ∧ c.args.get? p.2 = some t ∧ ¬Plain t ∧ Converts r c (.code ps) ∧ times p.2 ps = 0 := by
  intro p hp
  have h := List.all_eq_true.1 lost_table p hp
  rw [Bool.and_eq_true] at h
  obtain ⟨r, hr, hn, h⟩ := someEntry_sound (by simpa [coded] using h.1) h.2
  simp only [Bool.and_eq_true, decide_eq_true_eq, Bool.not_eq_true'] at h
  obtain ⟨⟨⟨hv, ht⟩, hd⟩, hc⟩ := h
  obtain ⟨t, ht, hpl⟩ := (Option.any_eq_true _ _).1 ht
  obtain ⟨ps, hps, hz⟩ := converts_of hc
  exact ⟨r, hr, hn, hd, _, t, ps, hv, ht, by simpa using hpl, hps, by simpa using hz⟩

/-- The matchers of the models. -/
def modelClasses : List Str := [py"WeightsMatcher", py"VGGMatcher"]

set_option maxRecDepth 100000 in
theorem weights_table : (modelClasses.all coded && Data.apiTable.all fun r =>
    !(modelClasses.any fun m => Nat.beq r.matcher (Data.encode m)) || (lost r.name py"weights" &&
      decide (Valid r (callFor someLost r py"weights")) &&
      (callFor someLost r py"weights").args.get? py"weights" == some py"weights" &&
      codeWith r (callFor someLost r py"weights") fun ps => times py"weights" ps == 0)) = true := by decide +kernel

/-- **C75 fails** for the argument `weights` of all the models of torchvision: the model is created with `pretrained=True`
whatever the expression is. -/
theorem C75_weights_negative {r : Data.Raw} (hr : r ∈ Data.apiTable) (hm : r.class ∈ modelClasses) :
    ∃ c t ps, Valid r c ∧ c.args.get? py"weights" = some t ∧ ¬Plain t ∧ Converts r c (.code ps) ∧ times py"weights" ps = 0 := by
  have h := weights_table
  rw [Bool.and_eq_true] at h
  have hd := List.all_eq_true.1 h.1 _ hm
  have hc : r.matcher = Data.encode r.class := (Data.decode_eq_iff (by simpa [coded] using hd)).1 rfl
  have h := List.all_eq_true.1 h.2 r hr
  rw [show (modelClasses.any fun m => Nat.beq r.matcher (Data.encode m)) = true from
    List.any_eq_true.2 ⟨_, hm, Nat.beq_eq.mpr hc⟩] at h
  simp only [Bool.not_true, Bool.false_or, Bool.and_eq_true, decide_eq_true_eq, beq_iff_eq] at h
  obtain ⟨⟨⟨-, hv⟩, ht⟩, hc⟩ := h
  obtain ⟨ps, hps, hz⟩ := converts_of hc
  exact ⟨_, _, ps, hv, ht, by decide, hps, by simpa using hz⟩

set_option maxRecDepth 100000 in
example : ∃ r ∈ Data.apiTable, r.name = py"torchvision.models.vgg16" ∧ r.class ∈ modelClasses := by
  obtain ⟨r, hr, hn, h⟩ := someEntry_sound (a := py"torchvision.models.vgg16") (by decide +kernel)
    (f := fun r => modelClasses.contains r.class) (by decide +kernel)
  exact ⟨r, hr, hn, by simpa using h⟩

set_option maxRecDepth 100000 in
theorem repeated_table : (repeated.all fun p => coded p.1 && someEntry p.1 fun r =>
    decide (Valid r (callFor someRepeated r p.2)) && (callFor someRepeated r p.2).args.has p.2 &&
      codeWith r (callFor someRepeated r p.2) fun ps => decide (2 ≤ times p.2 ps)) = true := by decide +kernel

/-- **C76 fails** for every entry of `repeated`: for a valid call that gives the argument, the code contains its text at
least twice, so that a call in the argument is made twice. For example `torch.special.erfcx(f(x))` becomes
`paddle.exp(f(x) ** 2) * (1.0 - paddle.erf(f(x)))`. -/
theorem C76_repeated_negative : ∀ p ∈ repeated, ∃ r ∈ Data.apiTable, r.name = p.1 ∧ ∃ c ps, Valid r c ∧ p.2 ∈ c.args.keys ∧
    Converts r c (.code ps) ∧ 2 ≤ times p.2 ps := by
  intro p hp
  have h := List.all_eq_true.1 repeated_table p hp
  rw [Bool.and_eq_true] at h
  obtain ⟨r, hr, hn, h⟩ := someEntry_sound (by simpa [coded] using h.1) h.2
  simp only [Bool.and_eq_true, decide_eq_true_eq] at h
  obtain ⟨⟨hv, ht⟩, hc⟩ := h
  obtain ⟨ps, hps, hz⟩ := converts_of hc
  exact ⟨r, hr, hn, _, ps, hv, Dict.has_iff.1 ht, hps, by simpa using hz⟩

set_option maxRecDepth 100000 in
theorem repeatedRecv_table : (repeatedRecv.all fun a => coded a && someEntry a fun r => isMethod r.name &&
    decide (Valid r (callFor someRepeated r [])) && codeWith r (callFor someRepeated r []) fun ps => decide (2 ≤ timesRecv ps)) = true := by
  decide +kernel

/-- **C76 fails** for the receiver of the methods in `repeatedRecv`: `f(x).adjoint()` calls `f` twice. -/
theorem C76_receiver_negative : ∀ a ∈ repeatedRecv, ∃ r ∈ Data.apiTable, r.name = a ∧ isMethod r.name = true ∧
    ∃ c ps, Valid r c ∧ Converts r c (.code ps) ∧ 2 ≤ timesRecv ps := by
  intro a hp
  have h := List.all_eq_true.1 repeatedRecv_table a hp
  rw [Bool.and_eq_true] at h
  obtain ⟨r, hr, hn, h⟩ := someEntry_sound (by simpa [coded] using h.1) h.2
  simp only [Bool.and_eq_true, decide_eq_true_eq] at h
  obtain ⟨⟨hm, hv⟩, hc⟩ := h
  obtain ⟨ps, hps, hz⟩ := converts_of hc
  exact ⟨r, hr, hn, hm, _, ps, hv, hps, by simpa using hz⟩

/-- For each API in `failing`, the arguments of a call. -/
def failingCalls : List (Str × Dict Str Str) :=
  [(py"torch.Tensor.type", [(py"non_blocking", py"w")]), (py"torch.autograd.Function.backward", []),
   (py"torch.optim.lr_scheduler.OneCycleLR", [(py"optimizer", py"o"), (py"max_lr", py"m"), (py"total_steps", py"n"),
     (py"final_div_factor", py"f")])]

set_option maxRecDepth 100000 in
theorem failing_table : (failingCalls.all fun p => coded p.1 && someEntry p.1 fun r => decide (Valid r (callOf r p.2)) &&
    matchers.any fun m => Nat.beq (Data.encode m.1) r.matcher && (m.2 r.name r.cfg).out (callOf r p.2) == .error) = true := by
  decide +kernel

/-- **C77 fails** for the APIs in `failing`. `x.type(non_blocking=w)` asks for the name of the type: `KeyError`. The entry
of `torch.autograd.Function.backward` has no `paddle_api`: `AssertionError`. `OneCycleLR` with `final_div_factor` and no
`div_factor`: `KeyError`. -/
theorem C77_failing_negative : ∀ a ∈ failing, ∃ r ∈ Data.apiTable, r.name = a ∧ ∃ c, Valid r c ∧ Converts r c .error := by
  intro a ha
  obtain ⟨p, hp, rfl⟩ : ∃ p ∈ failingCalls, p.1 = a := by
    have : failing = failingCalls.map (·.1) := by decide
    rw [this] at ha
    exact List.mem_map.1 ha
  have h := List.all_eq_true.1 failing_table p hp
  rw [Bool.and_eq_true] at h
  obtain ⟨r, hr, hn, h⟩ := someEntry_sound (by simpa [coded] using h.1) h.2
  simp only [Bool.and_eq_true, decide_eq_true_eq] at h
  obtain ⟨m, hm, hc⟩ := List.any_eq_true.1 h.2
  rw [Bool.and_eq_true, beq_iff_eq] at hc
  have hd := List.all_eq_true.1 class_table m hm
  have hcls : r.class = m.1 := (Data.decode_eq_iff (by simpa using hd)).2 (Nat.beq_eq.mp hc.1).symm
  exact ⟨r, hr, hn, _, h.1, m, hm, hcls.symm, hc.2⟩

/-! ## How much of the table is modelled -/

set_option maxRecDepth 100000 in
theorem covered_table : (Data.apiTable.all fun r => Nat.beq r.matcher 0 || Nat.beq r.matcher (Data.encode py"ChangePrefixMatcher") ||
    Nat.beq r.matcher (Data.encode py"ChangeAPIMatcher") || (matchers.any fun m => Nat.beq r.matcher (Data.encode m.1)) ||
    notModelled.any fun a => Nat.beq r.key (Data.encode a)) = true := by decide +kernel

set_option maxRecDepth 100000 in
theorem covered_codes : (coded py"ChangePrefixMatcher" && coded py"ChangeAPIMatcher" && notModelled.all coded) = true := by
  decide +kernel

/-- Every entry of the shipped table with a matcher that rewrites calls has a modelled matcher, with ten exceptions. (The
calls of `ChangePrefixMatcher` and `ChangeAPIMatcher` keep their arguments, see C66.) -/
theorem C75_covered {r : Data.Raw} (hr : r ∈ Data.apiTable) (hm : r.matcher ≠ 0) (h1 : r.class ≠ py"ChangePrefixMatcher")
    (h2 : r.class ≠ py"ChangeAPIMatcher") (h3 : r.name ∉ notModelled) : ∃ m ∈ matchers, m.1 = r.class := by
  have hc := covered_codes
  simp only [Bool.and_eq_true, coded, beq_iff_eq, List.all_eq_true] at hc
  have h := List.all_eq_true.1 covered_table r hr
  simp only [Bool.or_eq_true, Nat.beq_eq] at h
  rcases h with (((h | h) | h) | h) | h
  · exact absurd h hm
  · exact absurd ((Data.decode_eq_iff hc.1.1).2 h) h1
  · exact absurd ((Data.decode_eq_iff hc.1.2).2 h) h2
  · obtain ⟨m, hm, h⟩ := List.any_eq_true.1 h
    have hd := List.all_eq_true.1 class_table m hm
    exact ⟨m, hm, ((Data.decode_eq_iff (by simpa using hd)).2 (Nat.beq_eq.mp h)).symm⟩
  · obtain ⟨a, ha, h⟩ := List.any_eq_true.1 h
    have hn : r.name = a := (Data.decode_eq_iff (hc.2 a ha)).2 (Nat.beq_eq.mp h)
    exact absurd (hn ▸ ha) h3

set_option maxRecDepth 100000 in
example : ∃ r ∈ Data.apiTable, r.name = py"torch.histogram" ∧ (r.matcher ≠ 0 ∧ r.class ≠ py"ChangePrefixMatcher" ∧
    r.class ≠ py"ChangeAPIMatcher" ∧ r.name ∉ notModelled) := by
  obtain ⟨r, hr, hn, h⟩ := someEntry_sound (a := py"torch.histogram") (by decide +kernel) (f := fun r => decide (r.matcher ≠ 0 ∧
    r.class ≠ py"ChangePrefixMatcher" ∧ r.class ≠ py"ChangeAPIMatcher" ∧ r.name ∉ notModelled)) (by decide +kernel)
  exact ⟨r, hr, hn, by simpa using h⟩

end Verif.Template

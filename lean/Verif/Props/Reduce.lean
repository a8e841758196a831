import Verif.Spec.Reduce

/-! # C79: `Tensor.max` and `Tensor.min` -/

namespace Verif.Reduce
open Verif

variable {α τ : Type}

theorem parse_named (kws : Dict Str α) : parseKwargs (kws.map fun kv => (some kv.1, kv.2)) = some kws := by
  induction kws with
  | nil => rfl
  | cons kv kws ih => simp [parseKwargs, ih]

theorem flat_length {val : α → Arg τ} {args : List α} (h : ∀ a ∈ args, ∃ v, val a = .one v) :
    (args.flatMap fun a => (val a).vals).length = args.length := by
  induction args with
  | nil => rfl
  | cons a args ih =>
    obtain ⟨v, hv⟩ := h a (List.mem_cons_self ..)
    rw [List.flatMap_cons, List.length_append, ih fun x hx => h x (List.mem_cons_of_mem _ hx), hv]
    simp [Arg.vals]
    omega

theorem map_one {kwVal : α → Val τ} {kws : Dict Str α} {k : Str} {v : Val τ}
    (h : (kws.map fun kv => (kv.1, kwVal kv.2)) = [(k, v)]) : ∃ x, kws = [(k, x)] ∧ kwVal x = v := by
  match kws, h with
  | [(j, x)], h =>
    simp only [List.map_cons, List.map_nil, List.cons.injEq, Prod.mk.injEq, and_true] at h
    exact ⟨x, by rw [h.1], h.2⟩

theorem map_two {kwVal : α → Val τ} {kws : Dict Str α} {k l : Str} {v w : Val τ}
    (h : (kws.map fun kv => (kv.1, kwVal kv.2)) = [(k, v), (l, w)]) :
    ∃ x y, kws = [(k, x), (l, y)] ∧ kwVal x = v ∧ kwVal y = w := by
  match kws, h with
  | [(j, x), (i, y)], h =>
    simp only [List.map_cons, List.map_nil, List.cons.injEq, Prod.mk.injEq, and_true] at h
    exact ⟨x, y, by rw [h.1.1, h.2.1], h.1.2, h.2.2⟩

/-- **C79.** A call of `Tensor.max` or `Tensor.min` without `**`, in any form that PyTorch accepts, is replaced by code that
computes what PyTorch computes, for all values of the arguments. If there are two arguments, none of them may be starred. -/
theorem C79_reduction_partial (val : α → Arg τ) (kwVal : α → Val τ) {args : List α} {kws : Dict Str α} {r : Res τ}
    (ht : Spec.Torch (args.flatMap fun a => (val a).vals) (kws.map fun kv => (kv.1, kwVal kv.2)) r)
    (hs : 2 ≤ args.length + kws.length → ∀ a ∈ args, ∃ v, val a = .one v) :
    ∃ c, nodes args (kws.map fun kv => (some kv.1, kv.2)) = .code c ∧ run val kwVal c = some r := by
  generalize hk : (kws.map fun kv => (kv.1, kwVal kv.2)) = ks at ht
  generalize hv : (args.flatMap fun a => (val a).vals) = vs at ht
  have hl : 2 ≤ args.length + kws.length → args.length = vs.length := fun h => by
    rw [← hv]; exact (flat_length (hs h)).symm
  simp only [nodes, parse_named]
  cases ht with
  | all =>
    have : kws = [] := by simpa using hk
    subst this
    have : args.length ≤ 1 := by
      have : 2 ≤ args.length → args.length = 0 := by simpa using hl
      omega
    refine ⟨.helper args [], ?_, ?_⟩
    · simp [Dict.has, Dict.get?, show ¬2 < args.length by omega, show ¬1 < args.length by omega]
    · simp [run, hv, runHelper, Dict.has, Dict.get?, rename, runAll, bind, axisOf]
  | with1 t =>
    have : kws = [] := by simpa using hk
    subst this
    have : args.length ≤ 1 := by
      have : 2 ≤ args.length → args.length = 1 := by simpa using hl
      omega
    refine ⟨.helper args [], ?_, ?_⟩
    · simp [Dict.has, Dict.get?, show ¬2 < args.length by omega, show ¬1 < args.length by omega]
    · simp [run, hv, runHelper, Dict.has, Dict.get?, runMaximum, bind]
  | with2 t =>
    obtain ⟨x, rfl, hx⟩ := map_one hk
    have : args.length ≤ 1 := by
      have : 1 ≤ args.length → args.length = 0 := fun h => by simpa using hl (by simp; omega)
      omega
    refine ⟨.maximum args [(py"y", x)], ?_, ?_⟩
    · simp [Dict.has, Dict.get?, rename, Dict.erase, Dict.set]; omega
    · simp [run, hv, Dict.get?, runMaximum, bind, hx]
  | along1 n =>
    have : kws = [] := by simpa using hk
    subst this
    have : args.length ≤ 1 := by
      have : 2 ≤ args.length → args.length = 1 := by simpa using hl
      omega
    refine ⟨.helper args [], ?_, ?_⟩
    · simp [Dict.has, Dict.get?, show ¬2 < args.length by omega, show ¬1 < args.length by omega]
    · simp [run, hv, runHelper, Dict.has, Dict.get?, runPair, bind, axisOf, rename]
  | along2 n b =>
    have : kws = [] := by simpa using hk
    subst this
    by_cases h : 2 ≤ args.length
    · have : args.length = 2 := by simpa using hl (by simpa using h)
      refine ⟨.pair args [], ?_, ?_⟩
      · simp [Dict.has, Dict.get?, this]
      · simp [run, hv, Dict.get?, runPair, bind, axisOf]
    · refine ⟨.helper args [], ?_, ?_⟩
      · simp [Dict.has, Dict.get?, show ¬2 < args.length by omega, show ¬1 < args.length by omega]
      · simp [run, hv, runHelper, Dict.has, Dict.get?, runPair, bind, axisOf, rename]
  | along3 n b =>
    obtain ⟨x, rfl, hx⟩ := map_one hk
    have : args.length = 1 := by
      have : 1 ≤ args.length → args.length = 1 := fun h => by simpa using hl (by simp; omega)
      cases args with
      | nil => simp at hv
      | cons a l => simp at this ⊢; exact this
    refine ⟨.helper args [(py"keepdim", x)], ?_, ?_⟩
    · simp [Dict.has, Dict.get?, this]
    · simp [run, hv, runHelper, Dict.has, Dict.get?, runPair, bind, axisOf, rename, hx]
  | along4 n =>
    obtain ⟨x, rfl, hx⟩ := map_one hk
    have : args.length = 0 := by
      have : 1 ≤ args.length → args.length = 0 := fun h => by simpa using hl (by simp; omega)
      omega
    refine ⟨.pair args [(py"axis", x)], ?_, ?_⟩
    · simp [Dict.has, Dict.get?, rename, Dict.erase, Dict.set, this]
    · simp [run, hv, Dict.get?, runPair, bind, axisOf, hx]
  | along5 n b =>
    obtain ⟨x, y, rfl, hx, hy⟩ := map_two hk
    have : args.length = 0 := by simpa using hl (by simp)
    refine ⟨.pair args [(py"keepdim", y), (py"axis", x)], ?_, ?_⟩
    · simp [Dict.has, Dict.get?, rename, Dict.erase, Dict.set, this]
    · simp [run, hv, Dict.get?, runPair, bind, axisOf, hx, hy]
  | along6 n b =>
    obtain ⟨x, y, rfl, hx, hy⟩ := map_two hk
    have : args.length = 0 := by simpa using hl (by simp)
    refine ⟨.pair args [(py"keepdim", x), (py"axis", y)], ?_, ?_⟩
    · simp [Dict.has, Dict.get?, rename, Dict.erase, Dict.set, this]
    · simp [run, hv, Dict.get?, runPair, bind, axisOf, hx, hy]

example : Spec.Torch (τ := Nat) ([Arg.one (.int (-1))].flatMap fun a => (id a).vals)
    ([(py"keepdim", Val.flag true)].map fun kv => (kv.1, id kv.2)) (.along (-1) true) := .along3 _ _

/-- **C79** is false for `**`: `x.max(**kw)` is a `TypeError`, so the file is not converted. -/
theorem C79_double_star_negative (args : List α) (v : α) (kws : List (Option Str × α)) :
    nodes args ((none, v) :: kws) = .typeError := by simp [nodes, parseKwargs]

/-- **C79** is false for two starred arguments: for `x.max(*a, *b)` with `a = (t,)` and `b = ()`, PyTorch takes the elementwise
maximum with `t`, and the code fails. With `a = b = ()` PyTorch takes the maximum of all elements, and the code fails as well. -/
theorem C79_star_negative (t : τ) : ∀ a ∈ [[Val.tensor t], []],
    (∃ r, Spec.Torch ([Arg.star a, .star []].flatMap fun a => (id a).vals) [] r) ∧
    ∃ c, nodes [Arg.star a, .star []] [] = .code c ∧ run id (fun _ => .flag false) c = none := by
  intro a ha
  simp only [List.mem_cons, List.not_mem_nil, or_false] at ha
  rcases ha with rfl | rfl
  · exact ⟨⟨_, .with1 t⟩, .pair [.star [.tensor t], .star []] [], rfl, rfl⟩
  · exact ⟨⟨_, .all⟩, .pair [.star [], .star []] [], rfl, rfl⟩

end Verif.Reduce

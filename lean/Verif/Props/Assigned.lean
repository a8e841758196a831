import Verif.Props.Visible
import Verif.Model.Names

/-! # C91: converted calls overwrite no variables -/

namespace Verif.Template
open Verif
open Verif.Spec
open Verif.Spec.Assigned

/-- **C91, for all matchers.** The code for a valid call assigns only generated names and the variables listed in
`Spec.Assigned.scratch`. -/
theorem C91_assigned {r : Data.Raw} (hr : r ∈ Data.apiTable) {c : Call} (v : Valid r c) {ps : List Piece}
    (h : Converts r c (.code ps)) : ∀ w ∈ assigned ps, Generated w ∨ ∃ ws, scratch.get? r.class = some ws ∧ w ∈ ws := by
  intro w hw
  refine ((names_of hr v h).2 w hw).imp_right fun hs => ?_
  unfold scratchOf at hs
  cases hg : scratch.get? r.class with
  | none => simp [hg] at hs
  | some ws => exact ⟨ws, rfl, by simpa [hg] using hs⟩

/-- **C91.** Outside the matchers of the list, the code assigns only generated names. -/
theorem C91_hygiene_partial {r : Data.Raw} (hr : r ∈ Data.apiTable) {c : Call} (v : Valid r c) {ps : List Piece}
    (h : Converts r c (.code ps)) (hs : scratch.get? r.class = none) : ∀ w ∈ assigned ps, Generated w := by
  intro w hw
  refine (C91_assigned hr v h w hw).resolve_right fun ⟨ws, h1, _⟩ => ?_
  rw [hs] at h1
  exact absurd h1 (by simp)

/-- The assigned name in the code as it is written to the file. -/
def written (c : Call) (w : Str) : Str :=
  match w with
  | '$' :: k => c.fresh k
  | ['#'] => c.recv
  | '#' :: k => (c.args.get? k).getD []
  | w => w

/-- **C91, for a variable of the user.** If the name of a variable does not end with `_` and a number, and if it is not one
of the listed names, then no converted call assigns it; for `torch.index_copy` it has to be known as well that the variable
is not the argument `input`. -/
theorem C91_variable_partial {r : Data.Raw} (hr : r ∈ Data.apiTable) {c : Call} (v : Valid r c) {ps : List Piece}
    (h : Converts r c (.code ps)) (hf : ∀ k, ∃ n, c.fresh k = k ++ '_' :: Str.ofNat n) {x : Str}
    (hx : ∀ k n, x ≠ k ++ '_' :: Str.ofNat n) (hs : ∀ kv ∈ scratch, x ∉ kv.2)
    (hi : c.args.get? py"input" = some x → r.class ≠ py"IndexCopyMatcher") (hne : x ≠ []) :
    x ∉ (assigned ps).map (written c) := by
  intro hm
  obtain ⟨w, hw, rfl⟩ := List.mem_map.1 hm
  rcases C91_assigned hr v h w hw with hg | ⟨ws, hc, hin⟩
  · obtain ⟨k, rfl⟩ : ∃ k, w = '$' :: k := by
      cases w with
      | nil => simp [Generated] at hg
      | cons a w => simp only [Generated, List.head?_cons, Option.some.injEq] at hg; exact ⟨w, by rw [hg]⟩
    obtain ⟨n, hn⟩ := hf k
    exact hx k n (by simpa [written] using hn)
  · have hmem := Dict.mem_of_get? hc
    have key : ∀ kv ∈ scratch, ∀ w ∈ kv.2, written c w = w ∨ w = py"#input" ∧ kv.1 = py"IndexCopyMatcher" := by
      unfold scratch
      simp only [List.forall_mem_cons, List.not_mem_nil, false_imp_iff, implies_true, and_true]
      refine ⟨?_, ?_, ?_, ?_, ?_, ?_, ?_, ?_, ?_, ?_, ?_, ?_, ?_, ?_, ?_, ?_, ?_, ?_, ?_, ?_, ?_, ?_, ?_, ?_, ?_⟩ <;>
        simp [written]
    rcases key _ hmem w hin with he | ⟨rfl, hcl⟩
    · rw [he] at hs
      exact hs _ hmem hin
    · simp only [written] at hi hne
      cases hg : c.args.get? py"input" with
      | none => simp [hg] at hne
      | some t => exact hi (by simp [hg]) hcl

/-- A variable `total` is not overwritten by any call of an API other than `torch.index_copy`. -/
example {r : Data.Raw} (hr : r ∈ Data.apiTable) {c : Call} (v : Valid r c) {ps : List Piece} (h : Converts r c (.code ps))
    (hf : ∀ k, ∃ n, c.fresh k = k ++ '_' :: Str.ofNat n) (hi : r.class ≠ py"IndexCopyMatcher") :
    py"total" ∉ (assigned ps).map (written c) :=
  C91_variable_partial hr v h hf
    (fun k n he => absurd (show '_' ∈ py"total" by rw [he]; simp) (by decide)) (by decide) (fun _ => hi) (by decide)

/-! ## The list is exact -/

/-- A call for each matcher of the list. -/
def overwriting : List (Str × Str × Dict Str Str) :=
  let out (k : Str) : Dict Str Str := [(k, py"x"), (py"out", py"y")]
  let optim : Dict Str Str := [(py"optimizer", py"o")]
  [(py"LuMatcher", py"torch.lu", [(py"A", py"x"), (py"get_infos", py"(True)"), (py"out", py"y")]),
   (py"SvdMatcher", py"torch.svd", [(py"input", py"x")]),
   (py"SLogDetMatcher", py"torch.slogdet", [(py"input", py"x")]),
   (py"HistogramMatcher", py"torch.histogram", [(py"input", py"x"), (py"bins", py"3"), (py"out", py"y")]),
   (py"LinalgLuMatcher", py"torch.linalg.lu", out py"A"),
   (py"Lu_unpackMatcher", py"torch.lu_unpack", [(py"LU_data", py"x"), (py"LU_pivots", py"p"), (py"out", py"y")]),
   (py"TensorInplaceReserveTypeMatcher", py"torch.Tensor.eq_", [(py"other", py"y")]),
   (py"FromBufferMatcher", py"torch.frombuffer", [(py"buffer", py"b"), (py"dtype", py"d")]),
   (py"IndexCopyMatcher", py"torch.index_copy",
     [(py"input", py"x"), (py"dim", py"1"), (py"index", py"j"), (py"source", py"s")]),
   (py"DoubleAssignMatcher", py"torch.linalg.eig", out py"input"),
   (py"TripleAssignMatcher", py"torch.linalg.svd", out py"A"),
   (py"LinalgInvExMatcher", py"torch.linalg.inv_ex", out py"A"),
   (py"LinalgCholeskyExMatcher", py"torch.linalg.cholesky_ex", out py"input"),
   (py"LRSchedulerMatcher", py"torch.optim.lr_scheduler.CyclicLR",
     [(py"optimizer", py"o"), (py"base_lr", py"a"), (py"max_lr", py"b")]),
   (py"Optim2LrSchedulerMatcher", py"torch.optim.lr_scheduler.LinearLR", optim),
   (py"ConstantLRMatcher", py"torch.optim.lr_scheduler.ConstantLR", optim),
   (py"OneCycleLRMatcher", py"torch.optim.lr_scheduler.OneCycleLR",
     [(py"optimizer", py"o"), (py"max_lr", py"a"), (py"total_steps", py"10")]),
   (py"GetNumThreadsMatcher", py"torch.get_num_threads", []),
   (py"GetNumInteropThreadsMatcher", py"torch.get_num_interop_threads", []),
   (py"MPCpuCountMatcher", py"torch.multiprocessing.cpu_count", []),
   (py"MNISTMatcher", py"torchvision.datasets.MNIST", [(py"root", py"r")]),
   (py"CifarMatcher", py"torchvision.datasets.CIFAR10", [(py"root", py"r")]),
   (py"Flowers102Matcher", py"torchvision.datasets.Flowers102", [(py"root", py"r")]),
   (py"GetLoggerMatcher", py"transformers.logging.get_logger", [(py"name", py"n")]),
   (py"FAFlashAttnUnpaddedFuncMatcher", py"flash_attn.flash_attn_interface.flash_attn_unpadded_func", [(py"q", py"q")])]

def overwrites (cls w : Str) : Bool :=
  overwriting.any fun x => decide (x.1 = cls) && coded x.2.1 && someEntry x.2.1 fun r =>
    decide (r.class = cls) && decide (Valid r (callOf r x.2.2)) && codeWith r (callOf r x.2.2) fun ps => (assigned ps).contains w

set_option maxRecDepth 100000 in
theorem overwrites_table : (scratch.all fun kv => kv.2.all (overwrites kv.1)) = true := by decide +kernel

/-- **C91** is false for each name in the list: the matcher has a valid call whose code assigns it. -/
theorem C91_scratch_negative : ∀ kv ∈ scratch, ∀ w ∈ kv.2, ∃ r ∈ Data.apiTable, r.class = kv.1 ∧ ∃ c ps, Valid r c ∧
    Converts r c (.code ps) ∧ w ∈ assigned ps := by
  intro kv hkv w hw
  have h := List.all_eq_true.1 (List.all_eq_true.1 overwrites_table kv hkv) w hw
  obtain ⟨x, _, hx⟩ := List.any_eq_true.1 h
  simp only [Bool.and_eq_true, decide_eq_true_eq] at hx
  obtain ⟨⟨_, hcd⟩, he⟩ := hx
  obtain ⟨r, hr, _, h⟩ := someEntry_sound (by simpa [coded] using hcd) he
  simp only [Bool.and_eq_true, decide_eq_true_eq] at h
  obtain ⟨ps, hps, ht⟩ := converts_of h.2
  exact ⟨r, hr, h.1.1, _, ps, h.1.2, hps, by simpa using ht⟩

/-- `torch.index_copy(x, 1, j, s)` leaves a reshaped tensor in the variable `x` of the user. -/
theorem C91_index_copy_negative : ∃ r ∈ Data.apiTable, r.name = py"torch.index_copy" ∧ ∃ c ps, Valid r c ∧
    Converts r c (.code ps) ∧ c.args = [(py"input", py"x"), (py"dim", py"1"), (py"index", py"j"), (py"source", py"s")] ∧
    py"x" ∈ (assigned ps).map (written c) ∧
    Str.contains (c.text ps) py"\nx, new_t = x.reshape([-1] + temp_shape[1+1:]), " = true := by
  obtain ⟨r, hr, hn, h⟩ := someEntry_sound (a := py"torch.index_copy") (by decide +kernel) (f := fun r =>
    decide (Valid r (callOf r [(py"input", py"x"), (py"dim", py"1"), (py"index", py"j"), (py"source", py"s")])) &&
      codeWith r (callOf r [(py"input", py"x"), (py"dim", py"1"), (py"index", py"j"), (py"source", py"s")]) fun ps =>
        decide (py"x" ∈ (assigned ps).map
          (written (callOf r [(py"input", py"x"), (py"dim", py"1"), (py"index", py"j"), (py"source", py"s")]))) &&
        Str.contains ((callOf r [(py"input", py"x"), (py"dim", py"1"), (py"index", py"j"), (py"source", py"s")]).text ps)
          py"\nx, new_t = x.reshape([-1] + temp_shape[1+1:]), ")
    (by decide +kernel)
  simp only [Bool.and_eq_true, decide_eq_true_eq] at h
  obtain ⟨ps, hps, ht⟩ := converts_of h.2
  simp only [Bool.and_eq_true, decide_eq_true_eq] at ht
  exact ⟨r, hr, hn, _, ps, h.1, hps, rfl, ht.1, ht.2⟩

/-- A generated name can be a variable of the user: the first name for `out` is `out_0`, also when the argument of the
call is a variable `out_0`, and the code `out_0 = ...` overwrites it. -/
theorem C91_generated_negative : ∃ r ∈ Data.apiTable, r.name = py"torch.scalar_tensor" ∧ ∃ c ps, Valid r c ∧
    Converts r c (.code ps) ∧ c.args = [(py"s", py"out_0"), (py"requires_grad", py"g")] ∧
    c.fresh py"out" = (Names.call [] py"out").1 ∧ py"out_0" ∈ (assigned ps).map (written c) := by
  obtain ⟨r, hr, hn, h⟩ := someEntry_sound (a := py"torch.scalar_tensor") (by decide +kernel) (f := fun r =>
    decide (Valid r (callOf r [(py"s", py"out_0"), (py"requires_grad", py"g")])) &&
      codeWith r (callOf r [(py"s", py"out_0"), (py"requires_grad", py"g")]) fun ps =>
        decide (py"out_0" ∈ (assigned ps).map (written (callOf r [(py"s", py"out_0"), (py"requires_grad", py"g")]))))
    (by decide +kernel)
  simp only [Bool.and_eq_true, decide_eq_true_eq] at h
  obtain ⟨ps, hps, ht⟩ := converts_of h.2
  simp only [decide_eq_true_eq] at ht
  exact ⟨r, hr, hn, _, ps, h.1, hps, rfl, rfl, ht⟩

/-- `torch.narrow_copy(x, 0, s, 2)` is outside the list, and its code assigns the generated name `start_0`. -/
example : ∃ r ∈ Data.apiTable, r.name = py"torch.narrow_copy" ∧ scratch.get? r.class = none ∧ ∃ c ps, Valid r c ∧
    Converts r c (.code ps) ∧ (assigned ps).map (written c) = [py"start_0"] := by
  obtain ⟨r, hr, hn, h⟩ := someEntry_sound (a := py"torch.narrow_copy") (by decide +kernel) (f := fun r =>
    decide (scratch.get? r.class = none) &&
    decide (Valid r (callOf r [(py"input", py"x"), (py"dim", py"0"), (py"start", py"s"), (py"length", py"2")])) &&
      codeWith r (callOf r [(py"input", py"x"), (py"dim", py"0"), (py"start", py"s"), (py"length", py"2")]) fun ps =>
        decide ((assigned ps).map
          (written (callOf r [(py"input", py"x"), (py"dim", py"0"), (py"start", py"s"), (py"length", py"2")])) = [py"start_0"]))
    (by decide +kernel)
  simp only [Bool.and_eq_true, decide_eq_true_eq] at h
  obtain ⟨ps, hps, ht⟩ := converts_of h.2
  simp only [decide_eq_true_eq] at ht
  exact ⟨r, hr, hn, h.1.1, _, ps, h.1.2, hps, ht⟩

end Verif.Template

import Verif.Model.Template
import Verif.Model.Tables

/-!
# Matchers that edit the dictionary of the arguments

Models `generate_code` of the matchers of `/repo/paconvert/api_matcher.py` that write the dictionary with `kwargs_to_str`,
among them `GenericMatcher`. A value that is not a string in Python (`True`, `4`) is written as its text; the texts are
only formatted. `if out_v:` is taken to be true for every argument, since the text of an expression is not empty.
-/

namespace Verif.Template
open Verif
open Verif.Matcher (Cfg Change)

/-- `x = kwargs.pop(k)`. -/
abbrev K.pop (k x : Str) (next : K) : K := .save x [.arg k] (.drop k next)

/-- `set_paddle_default_kwargs`; base.py:489-496. -/
def defaults : Dict Str Str → K → K
  | [], next => next
  | (k, d) :: rest, next => .has k (defaults rest next) (.set k [.lit d] (defaults rest next))

/-- `if k in kwargs and k not in kwargs_change_value: x = kwargs.pop(k)`, the variable being named like the argument. The
continuation gets to know whether the variable is set. -/
def special (cfg : Cfg) (k : Str) (f : Bool → K) : K :=
  if .one k ∈ cfg.change.values then f false else .has k (.pop k k (f true)) (f false)

/-- `x != s`, for a variable that is set or else equal to `s`. -/
def differs (b : Bool) (x s : Str) (f : Bool → K) : K :=
  if b then .ask (.var x) (.isText s) (f false) (f true) else f false

/-- The call of the Paddle API in `GenericMatcher.generate_code`; 131-137. -/
def genericCall (api : List Q) (dtype pin : Bool) : List Q :=
  api ++ [.lit py"(", .kws [], .lit py")"] ++
    (if dtype then [.lit py".astype(", .var py"dtype", .lit py")"] else []) ++
    (if pin then [.lit py".pin_memory()"] else [])

/-- The code of `GenericMatcher.generate_code`; 131-166. -/
def genericEmit (api : List Q) (dtype pin grad out : Bool) : List Q :=
  let call := genericCall api dtype pin
  let stop : List Q := [.lit py".stop_gradient = ", .lit py"not ", .edit .strip py"requires_grad", .lit py"\n"]
  if grad && out then
    [.lit py"\npaddle.assign("] ++ call ++ [.lit py", output=", .var py"out", .lit py")\n", .var py"out"] ++ stop ++
      [.var py"out", .lit py"\n"]
  else if grad then
    [.lit py"\n", .fresh py"out", .lit py" = "] ++ call ++ [.lit py"\n", .fresh py"out"] ++ stop ++
      [.fresh py"out", .lit py"\n"]
  else if out then
    [.lit py"\npaddle.assign("] ++ call ++ [.lit py", output=", .var py"out", .lit py")\n"]
  else call

/-- `GenericMatcher.generate_code`; 99-166. `pre` and `post` are texts that another matcher puts around the code.
`stop_gradient_v` is never `"None"` when it is set, because it begins with `not`. -/
def genericWith (cfg : Cfg) (api pre post : List Q) : K :=
  .change cfg.change Matcher.genericUnuse <|
  defaults cfg.defaults <|
  special cfg py"dtype" fun d =>
  special cfg py"pin_memory" fun p =>
  special cfg py"requires_grad" fun g =>
  special cfg py"out" fun o =>
  differs d py"dtype" py"None" fun d =>
  differs p py"pin_memory" py"(False)" fun p =>
  differs o py"out" py"None" fun o =>
  .emit (pre ++ genericEmit api d p g o ++ post)

def generic (cfg : Cfg) : K := genericWith cfg [.api] [] []

/-- `self.change_kwargs(kwargs)`, then `self.set_paddle_default_kwargs(kwargs)`. -/
def changed (cfg : Cfg) (next : K) : K := .change cfg.change [] (defaults cfg.defaults next)

/-- `{}({})` with the API and the arguments. -/
def callAll : List Q := [.api, .lit py"(", .kws [], .lit py")"]

/-! ## The matchers -/

/-- `GenericMatcher`; 94-166. It asserts that the entry has a `paddle_api`; 95-97. -/
def genericMatcher (cfg : Cfg) : K := if cfg.paddleApi.isSome then generic cfg else .fail

/-- `TensorFunc2PaddleFunc`; 233-251. -/
def tensorFunc (cfg : Cfg) : K :=
  .change cfg.change Matcher.genericUnuse <| defaults cfg.defaults <|
  .emit [.api, .lit py"(", .recv, .lit py", ", .kws [], .lit py")"]

/-- `SignalWindowsWatcher`; 633-660. -/
def signalWindows (name : Str) (cfg : Cfg) : K :=
  let rest : K :=
    if Str.contains name py"exponential" then
      .has py"tau"
        (.pop py"tau" py"v" (.front py"window" [.lit py"('exponential', None, ", .var py"v", .lit py")"] (generic cfg)))
        (.front py"window" [.lit py"('exponential', None, 1.0)"] (generic cfg))
    else if Str.contains name py"gaussian" then
      .has py"std"
        (.pop py"std" py"v" (.front py"window" [.lit py"('gaussian', ", .var py"v", .lit py")"] (generic cfg)))
        (.front py"window" [.lit py"('gaussian', 1.0)"] (generic cfg))
    else if Str.contains name py"general_hamming" then
      .has py"alpha"
        (.pop py"alpha" py"v" (.front py"window" [.lit py"('general_hamming', ", .var py"v", .lit py")"] (generic cfg)))
        (.front py"window" [.lit py"('general_hamming', 0.54)"] (generic cfg))
    else if Str.contains name py"general_cosine" then
      .pop py"a" py"v" (.front py"window" [.lit py"('general_cosine', ", .var py"v", .lit py")"] (generic cfg))
    else generic cfg
  .has py"sym" (.pop py"sym" py"v" (.set py"fftbins" [.lit py"not ", .var py"v"] rest)) rest

/-- `LoadMatcher`; 849-852. -/
def load (cfg : Cfg) : K := .pop py"f" py"v" (.set py"path" [.lit py"str(", .var py"v", .lit py")"] (generic cfg))

/-- `EqualMatcher`; 1448-1456. -/
def equal (cfg : Cfg) : K := .change cfg.change [] (.emit ([.lit py"\n"] ++ callAll ++ [.lit py".item()\n"]))

/-- `FAFlashAttnFuncMatcher`; 1459-1461. -/
def flashAttn (cfg : Cfg) : K := genericWith cfg [.api] [] [.lit py"[0]"]

/-- `FAFlashAttnUnpaddedFuncMatcher`; 1464-1483. -/
def flashUnpadded (cfg : Cfg) : K :=
  let guard : Q := .lit py"assert paddle.device.cuda.get_device_capability()[0] >= 8, \"Device capabilities should be at least 8\"\n"
  .change cfg.change [] <|
  .has py"scale"
    (.emit ([.lit py"\n", guard] ++ callAll ++ [.lit py"[0]\n"]))
    (.set py"scale" [.lit py"math.sqrt(", .arg py"query", .lit py".shape[-1])"]
      (.emit ([.lit py"\nimport math\n", guard] ++ callAll ++ [.lit py"[0]\n"])))

/-- `GetLoggerMatcher`; 1486-1494. -/
def getLogger : K := .emit [.lit py"\nimport logging\nlogging.getLogger(", .kws [], .lit py")\n"]

/-- `SparseSoftmaxMatcher`; 1670-1681. -/
def sparseSoftmax (cfg : Cfg) : K :=
  .has py"dtype"
    (.pop py"dtype" py"d" (.save py"i" [.arg py"input"] (.set py"input" [.fresh py"tmp_val"]
      (genericWith cfg [.api]
        [.fresh py"tmp_val", .lit py"=paddle.sparse.cast(", .var py"i", .lit py", value_dtype=", .var py"d", .lit py")\n"] []))))
    (generic cfg)

/-- `SetPrintOptionsMatcher`; 2108-2134. -/
def setPrintOptions (cfg : Cfg) : K :=
  let prof (p t e : Str) : K :=
    defaults [(py"precision", p), (py"threshold", t), (py"edgeitems", e), (py"linewidth", py"80")]
      (.drop py"profile" (generic cfg))
  .has py"profile"
    (.test py"profile" (.isText py"\"\"\"default\"\"\"") (prof py"4" py"1000" py"3")
      (.test py"profile" (.isText py"\"\"\"short\"\"\"") (prof py"2" py"1000" py"2")
        (.test py"profile" (.isText py"\"\"\"full\"\"\"") (prof py"4" py"1000000" py"3")
          (.drop py"profile" (generic cfg)))))
    (generic cfg)

/-- `ReverseMomentumMatcher`; 2505-2509. -/
def reverseMomentum (cfg : Cfg) : K :=
  .has py"momentum" (.pop py"momentum" py"v" (.set py"momentum" [.lit py"1 - ", .var py"v"] (generic cfg))) (generic cfg)

/-- `ReverseAsyncOpMatcher`; 2512-2516. -/
def reverseAsync (cfg : Cfg) : K :=
  .has py"async_op" (.pop py"async_op" py"v" (.set py"sync_op" [.lit py"not ", .var py"v"] (generic cfg))) (generic cfg)

/-- `StdMeanMatcher`, `VarMeanMatcher`; 2772-2805. -/
def statMean (f : Str) : K := .emit
  [.lit (py"\n(paddle." ++ f ++ py"("), .kws [], .lit py"), paddle.mean(", .kws [py"unbiased", py"correction"], .lit py"))\n"]

/-- `AvgPoolMatcher`; 2988-3011. -/
def avgPool : K :=
  let out : K := .emit ([.lit py"\n"] ++ callAll ++ [.lit py"\n"])
  .change [(py"input", .one py"x")] [] <|
  .has py"count_include_pad"
    (.pop py"count_include_pad" py"v" (.set py"exclusive" [.lit py"not ", .var py"v"] out))
    (.set py"exclusive" [.lit py"False"] out)

/-- `FSoftMinMatcher`; 3027-3034. -/
def fSoftmin (cfg : Cfg) : K :=
  let dim : K := .set py"dim" [.lit py"_get_softmin_dim(", .arg py"input", .lit py".ndim)"] (generic cfg)
  .save py"v" [.arg py"input"] <| .set py"input" [.lit py"-", .var py"v"] <|
  .has py"dim" (.test py"dim" (.isText py"None") dim (generic cfg)) dim

/-- `TriangularSolveMatcher`; 3059-3090. -/
def triangularSolve : K :=
  let body (emit : K) : K := .pop py"A" py"x" (.pop py"input" py"y" (.front py"y" [.var py"y"] (.front py"x" [.var py"x"] emit)))
  .has py"out"
    (.pop py"out" py"o" (body (.emit ([.lit py"\npaddle.assign("] ++ callAll ++
      [.lit py", ", .var py"o", .lit py"[0]), paddle.assign(", .arg py"x", .lit py", ", .var py"o", .lit py"[1])\n"]))))
    (body (.emit ([.lit py"\n"] ++ callAll ++ [.lit py", ", .arg py"x", .lit py"\n"])))

/-- `TensorTriangularSolveMatcher`; 3093-3096. -/
def tensorTriangularSolve : K := .set py"input" [.recv] triangularSolve

/-- `AllcloseMatcher`; 3222-3226. -/
def allclose (cfg : Cfg) : K := genericWith cfg [.api] [] [.lit py".item()"]

/-- `TensorSetMatcher`; 3363-3377. -/
def tensorSet (cfg : Cfg) : K :=
  let plain : K := .set py"offset" [.var py"v"] (genericMatcher cfg)
  let rest : K :=
    .has py"storage_offset"
      (.pop py"storage_offset" py"v"
        (.has py"source"
          (.test py"source" (.isText py"None") plain
            (.set py"offset" [.var py"v", .lit py" * ", .arg py"source", .lit py".itemsize()"] (genericMatcher cfg)))
          plain))
      (genericMatcher cfg)
  .has py"size" (.pop py"size" py"s" (.set py"shape" [.var py"s"] rest)) rest

/-- `HistcMatcher`; 3440-3460. -/
def histc : K :=
  let rest : K := ifOut
    (.pop py"out" py"o" (.emit ([.lit py"paddle.assign("] ++ callAll ++
      [.lit py".astype(", .var py"input", .lit py".dtype), output=", .var py"o", .lit py")"])))
    (.emit (callAll ++ [.lit py".astype(", .var py"input", .lit py".dtype)"]))
  .has py"input" (.save py"input" [.arg py"input"] rest) (.save py"input" [.recv] rest)

/-- `DoubleAssignMatcher`; 3622-3639. -/
def doubleAssign (cfg : Cfg) : K :=
  changed cfg <|
  .has py"out"
    (.pop py"out" py"o" (.emit ([.lit py"\nout1, out2 = "] ++ callAll ++
      [.lit py"\npaddle.assign(out1, ", .var py"o", .lit py"[0]), paddle.assign(out2, ", .var py"o", .lit py"[1])\n"])))
    (.emit callAll)

/-- `TripleAssignMatcher`; 3642-3660. -/
def tripleAssign (cfg : Cfg) : K :=
  changed cfg <|
  .has py"out"
    (.pop py"out" py"o" (.emit ([.lit py"\nout1, out2, out3 = "] ++ callAll ++
      [.lit py"\npaddle.assign(out1, ", .var py"o", .lit py"[0]), paddle.assign(out2, ", .var py"o",
       .lit py"[1]), paddle.assign(out3, ", .var py"o", .lit py"[2])\n"])))
    (.emit callAll)

/-- `kwargs["time_major"] = f"not {batch_first}"`; 3696-3700. -/
def timeMajor (next : K) : K :=
  .has py"batch_first" (.pop py"batch_first" py"b" (.set py"time_major" [.lit py"not ", .var py"b"] next))
    (.set py"time_major" [.lit py"not False"] next)

/-- `RNNMatcher`; 3694-3707. -/
def rnn (cfg : Cfg) : K :=
  timeMajor <|
  .has py"bidirectional"
    (.test py"bidirectional" (.isText py"(True)")
      (.set py"direction" [.lit py"'bidirect'"] (.drop py"bidirectional" (generic cfg)))
      (.drop py"bidirectional" (generic cfg)))
    (generic cfg)

/-- `RNNBaseMatcher`; 3710-3725. -/
def rnnBase (cfg : Cfg) : K :=
  timeMajor <|
  .has py"bidirectional"
    (.test py"bidirectional" (.contains py"True")
      (.drop py"bidirectional" (.set py"direction" [.lit py"'bidirect'"] (generic cfg)))
      (.drop py"bidirectional" (.set py"direction" [.lit py"'forward'"] (generic cfg))))
    (.set py"direction" [.lit py"'forward'"] (generic cfg))

/-- `FAApplyRotaryEmbFuncMatcher`; 3860-3867. -/
def rotary : K := .emit [.lit py"\napply_rotary_position_embeddings(", .kws [], .lit py")\n"]

/-- `SortMatcher`; 3897-3918. -/
def sort (cfg : Cfg) : K :=
  let rest : K :=
    .change cfg.change [] <|
    .has py"out"
      (.pop py"out" py"o" (.emit [.lit py"\nout1, out2 = paddle.sort(", .kws [], .lit py"), paddle.argsort(", .kws [],
        .lit py")\npaddle.assign(out1, ", .var py"o", .lit py"[0]), paddle.assign(out2, ", .var py"o", .lit py"[1])\n"]))
      (.emit [.lit py"paddle.sort(", .kws [], .lit py"), paddle.argsort(", .kws [], .lit py")"])
  .has py"input" rest (.set py"x" [.recv] rest)

/-- `NTupleMatcher`; 3952-3970. -/
def ntuple (cfg : Cfg) : K :=
  .has py"x"
    (defaults cfg.defaults (.emit [.lit py"\ncreate_tuple_converter(", .arg py"n", .lit py")(", .arg py"x", .lit py")\n"]))
    (.emit [.lit py"\ncreate_tuple_converter(", .kws [], .lit py")\n"])

/-- `SoftminMatcher`, `GRUCellMatcher`, `LSTMCellMatcher`, `RNNCellMatcher`: `self.paddle_api` is replaced;
4078-4082, 5511-5514, 5528-5531, 5545-5548. -/
def genericAs (api : Str) (cfg : Cfg) : K := genericWith cfg [.lit api] [] []

/-- `OptimAdamMatcher`; 4112-4118. -/
def optimAdam (cfg : Cfg) : K :=
  .has py"betas"
    (.set py"beta1" [.arg py"betas", .lit py"[0]"] (.set py"beta2" [.arg py"betas", .lit py"[1]"]
      (.drop py"betas" (generic cfg))))
    (generic cfg)

/-- `LRSchedulerMatcher`; 4121-4138. -/
def lrScheduler (cfg : Cfg) : K :=
  changed cfg <|
  .pop py"optimizer" py"o" (.emit ([.lit py"\ntmp_lr = "] ++ callAll ++
    [.lit py"\n", .var py"o", .lit py".set_lr_scheduler(tmp_lr)\ntmp_lr\n"]))

/-- `Optim2LrSchedulerMatcher`; 4141-4145. -/
def optim2Lr (cfg : Cfg) : K := .set py"learning_rate" [.arg py"optimizer", .lit py".get_lr()"] (lrScheduler cfg)

/-- `ConstantLRMatcher`; 4148-4164. -/
def constantLr (cfg : Cfg) : K :=
  let rest : K :=
    .has py"total_iters"
      (.pop py"total_iters" py"t" (.set py"boundaries" [.lit py"[", .var py"t", .lit py"]"] (lrScheduler cfg)))
      (.set py"boundaries" [.lit py"[5]"] (lrScheduler cfg))
  .save py"optim" [.arg py"optimizer"] <|
  .has py"factor"
    (.pop py"factor" py"f" (.set py"values"
      [.lit py"[", .var py"f", .lit py"*", .var py"optim", .lit py".get_lr(), ", .var py"optim", .lit py".get_lr()]"] rest))
    (.set py"values" [.lit py"[", .var py"optim", .lit py".get_lr()/3, ", .var py"optim", .lit py".get_lr()]"] rest)

/-- `OneCycleLRMatcher`; 4167-4184. -/
def oneCycleLr (cfg : Cfg) : K :=
  let rest : K :=
    .has py"final_div_factor"
      (.pop py"final_div_factor" py"f" (.set py"end_learning_rate"
        [.lit py"(", .arg py"max_lr", .lit py") * 1. /((", .arg py"div_factor", .lit py") * ", .var py"f", .lit py")"]
        (lrScheduler cfg)))
      (lrScheduler cfg)
  let compute : K := .pop py"steps_per_epoch" py"s" (.pop py"epochs" py"e"
    (.set py"total_steps" [.lit py"(", .var py"s", .lit py")*(", .var py"e", .lit py")"] rest))
  .has py"total_steps" (.test py"total_steps" (.contains py"None") compute rest) compute

/-- `RequireDimMatcher`; 4187-4192. -/
def requireDim (cfg : Cfg) : K := .has py"dim" (.test py"dim" (.contains py"None") .left (generic cfg)) .left

/-- `FunctionalBilinearMatcher`; 4201-4209. -/
def fBilinear : K :=
  let rest : K := .pop py"input1" py"a" (.set py"x1" [.var py"a"] (.pop py"input2" py"b" (.set py"x2" [.var py"b"]
    (.emit callAll))))
  .has py"bias" (.set py"bias" [.arg py"bias", .lit py".unsqueeze(0)"] rest) rest

/-- `LuMatcher`; 4243-4280. -/
def lu (cfg : Cfg) : K :=
  let x (emit : K) : K := .pop py"A" py"a" (.front py"x" [.var py"a"] emit)
  let two : K := x (.emit ([.lit py"\ntmp_lu, tmp_p = "] ++ callAll ++
    [.lit py"\npaddle.assign(tmp_lu, ", .var py"o", .lit py"[0]), paddle.assign(tmp_p, ", .var py"o", .lit py"[1])\n"]))
  let three : K := x (.emit ([.lit py"\ntmp_lu, tmp_p, tmp_info = "] ++ callAll ++
    [.lit py"\npaddle.assign(tmp_lu, ", .var py"o", .lit py"[0]), paddle.assign(tmp_p, ", .var py"o",
     .lit py"[1]), paddle.assign(tmp_info, ", .var py"o", .lit py"[2])\n"]))
  .has py"out"
    (.pop py"out" py"o" (.has py"get_infos" (.test py"get_infos" (.isText py"(False)") two three) two))
    (generic cfg)

/-- `LinalgLuMatcher`; 4283-4314. -/
def linalgLu : K :=
  let x (emit : K) : K := .pop py"A" py"a" (.front py"x" [.var py"a"] emit)
  let first : List Q := [.lit py"\ntmp_lu, tmp_p = paddle.linalg.lu(", .kws [], .lit py")\n"]
  .has py"out"
    (.pop py"out" py"o" (x (.emit (first ++
      [.lit py"P, L, U = paddle.linalg.lu_unpack(tmp_lu, tmp_p)\npaddle.assign(P, ", .var py"o",
       .lit py"[0]), paddle.assign(L, ", .var py"o", .lit py"[1]), paddle.assign(U, ", .var py"o", .lit py"[2])\n"]))))
    (x (.emit (first ++ [.lit py"paddle.linalg.lu_unpack(tmp_lu, tmp_p)\n"])))

/-- `LinalgSolveTriangularMatcher`; 4317-4323. -/
def solveTriangular (cfg : Cfg) : K :=
  .has py"left" (.pop py"left" py"v" (.front py"transpose" [.lit py"not ", .var py"v"] (generic cfg))) (generic cfg)

/-- `QrMatcher`; 4326-4348. -/
def qr (cfg : Cfg) : K :=
  let assign : K := .pop py"input" py"i" (.set py"x" [.var py"i"] (.emit ([.lit py"\ntmp_q, tmp_r = "] ++ callAll ++
    [.lit py"\npaddle.assign(tmp_q, ", .var py"o", .lit py"[0]), paddle.assign(tmp_r, ", .var py"o", .lit py"[1])\n"])))
  let mode (next : K) : K :=
    .has py"some"
      (.pop py"some" py"s" (.ask (.var py"s") (.isText py"(False)") (.set py"mode" [.lit py"'reduced'"] next)
        (.set py"mode" [.lit py"'complete'"] next)))
      next
  .has py"out" (.pop py"out" py"o" (mode assign)) (mode (generic cfg))

/-- `SvdMatcher`; 4351-4391. -/
def svd : K :=
  let rest : K := ifOut
    (.pop py"out" py"o" (.emit ([.lit py"\ntmp_u, tmp_s, tmp_v = "] ++ callAll ++
      [.lit py"\npaddle.assign(tmp_u, ", .var py"o", .lit py"[0]), paddle.assign(tmp_s, ", .var py"o",
       .lit py"[1]), paddle.assign(tmp_v.conj().t(), ", .var py"o", .lit py"[2])\n"])))
    (.emit ([.lit py"\ntmp_u, tmp_s, tmp_v = "] ++ callAll ++ [.lit py"\ntmp_u, tmp_s, tmp_v.conj().t()\n"]))
  let some_ : K :=
    .has py"some" (.pop py"some" py"s" (.set py"full_matrices" [.lit py"not ", .edit .strip py"s"] rest)) rest
  .has py"compute_uv" .left
    (.has py"input" (.pop py"input" py"i" (.set py"x" [.var py"i"] some_)) (.set py"x" [.recv] some_))

/-- `SymeigMatcher`; 4415-4419. -/
def symeig : K :=
  let rest : K := .emit [.lit py"convert_symeig(", .kws [], .lit py")"]
  .has py"input" rest (.set py"input" [.recv] rest)

/-- api_mapping.json: the entries with `"convert_tensor": ["other"]`. -/
def convertTensor : List Str :=
  [py"torch.Tensor.eq_", py"torch.Tensor.ge_", py"torch.Tensor.gt_", py"torch.Tensor.le_", py"torch.Tensor.lt_",
   py"torch.Tensor.ne_"]

/-- `TensorInplaceReserveTypeMatcher`; 4683-4704. -/
def inplaceReserve (name : Str) : K :=
  let rest : K := .emit ([.lit py"\n_x_dtype_ = ", .recv, .lit py".dtype\n"] ++ callAll ++ [.lit py".cast_(_x_dtype_)\n"])
  .has py"other"
    (.pop py"other" py"v"
      (if name ∈ convertTensor then .set py"y" [.lit py"paddle.to_tensor(", .var py"v", .lit py")"] rest
       else .set py"y" [.var py"v"] rest))
    rest

/-- `Func2Attribute`; 4707-4710. -/
def func2Attribute : K := .emit [.api]

/-- `SetUpMatcher`; 4713-4728. -/
def setUp : K :=
  .has py"cmdclass"
    (.test py"cmdclass" (.contains py"paddle.utils.cpp_extension.BuildExtension")
      (.drop py"cmdclass" (.save py"name" [.arg py"name"]
        (.emit [.lit py"paddle.utils.cpp_extension.setup(", .kws [], .lit py")"])))
      .left)
    .left

/-- `Device2StrMatcher`; 4777-4800. -/
def device2Str (cfg : Cfg) : K :=
  .has py"device"
    (.pop py"device" py"d"
      (.ask (.var py"d") .digits (.set py"device" [.lit py"'gpu:", .edit .strip py"d", .lit py"'"] (generic cfg))
        (.ask (.var py"d") (.contains py"cuda") (.set py"device" [.edit .gpu py"d"] (generic cfg))
          (.set py"device" [.lit py"device2str(", .var py"d", .lit py")"] (generic cfg)))))
    (generic cfg)

/-- `ZeroGradMatcher`; 4881-4887. -/
def zeroGrad (cfg : Cfg) : K :=
  .has py"set_to_none"
    (.pop py"set_to_none" py"v" (.set py"set_to_zero" [.lit py"(not ", .var py"v", .lit py")"] (generic cfg)))
    (generic cfg)

/-- `k in kwargs and kwargs[k] == "(False)"`. -/
def isFalse (k : Str) (a b : K) : K := .has k (.test k (.isText py"(False)") a b) b

/-- `Lu_unpackMatcher`; 4998-5032. -/
def luUnpack (cfg : Cfg) : K :=
  let emit (o1 o2 o3 : Str) : K := .emit ([.lit py"\nout1, out2, out3 = "] ++ callAll ++
    [.lit (py"\npaddle.assign(" ++ o1 ++ py", "), .var py"o", .lit (py"[0]), paddle.assign(" ++ o2 ++ py", "), .var py"o",
     .lit (py"[1]), paddle.assign(" ++ o3 ++ py", "), .var py"o", .lit py"[2])\n"])
  let e : Str := py"paddle.paddle.to_tensor([])"
  changed cfg <|
  .has py"out"
    (.pop py"out" py"o"
      (.ask (.var py"o") (.isText py"None") (.emit callAll)
        (isFalse py"unpack_ludata"
          (isFalse py"unpack_pivots" (emit e e e) (emit py"out1" e e))
          (isFalse py"unpack_pivots" (emit e py"out2" py"out3") (emit py"out1" py"out2" py"out3")))))
    (.emit callAll)

/-- `HistogramMatcher`; 5075-5132. -/
def histogram (name : Str) (cfg : Cfg) : K :=
  let edges : Q := .kws [py"weight", py"density"]
  let method : Bool := Str.contains name py"Tensor"
  let obj : Q := if method then .recv else .lit py"paddle"
  let inp : Q := if method then .recv else .arg py"input"
  let rest : K :=
    .has py"out"
      (.pop py"out" py"o" (.emit [.lit py"\nout1, out2 = ", obj, .lit py".histogram(", .kws [], .lit py").cast(", .var py"o",
        .lit py"[0].dtype), ", obj, .lit py".histogram_bin_edges(", edges, .lit py").cast(", .var py"o",
        .lit py"[1].dtype)\npaddle.assign(out1, ", .var py"o", .lit py"[0]), paddle.assign(out2, ", .var py"o",
        .lit py"[1])\n"]))
      (.emit [obj, .lit py".histogram(", .kws [], .lit py").cast(", inp, .lit py".dtype), ", obj,
        .lit py".histogram_bin_edges(", edges, .lit py").cast(", inp, .lit py".dtype)"])
  match cfg.change.get? py"range" with
  | some (.many [a, b]) =>
    .has py"range"
      (.set a [.arg py"range", .lit py"[0]"] (.set b [.arg py"range", .lit py"[1]"] (.drop py"range" rest)))
      rest
  | _ => rest

/-- `RpcRemoteMatcher`; 5166-5175. -/
def rpcRemote : K := .pop py"func" py"f" (.set py"fn" [.var py"f"]
  (.emit [.lit py"\nrpc_remote(paddle.distributed.rpc.rpc_async(", .kws [], .lit py"))\n"]))

/-- The code of the data sets: `import os` and the call; 5268-5274. -/
def datasetEmit : K := .emit ([.lit py"\nimport os\n"] ++ callAll ++ [.lit py"\n"])

/-- `os.path.join({root}, '{file}')`. -/
def joinRoot (file : Str) : List Q := [.lit py"os.path.join(", .var py"root", .lit (py", '" ++ file ++ py"')")]

/-- The parameter `mode` from `train_value`; 5261-5266, 5280-5285. -/
def trainMode (f : Option Bool → K) : K :=
  .ask (.var py"train") (.isText py"(True)") (.set py"mode" [.lit py"'train'"] (f (some true)))
    (.ask (.var py"train") (.isText py"(False)") (.set py"mode" [.lit py"'test'"] (f (some false)))
      (.set py"mode" [.lit py"'train' if ", .var py"train", .lit py" else 'test'"] (f none)))

/-- `CifarMatcher`; 5248-5274. The text of an expression has no blanks around it, so that `strip()` does nothing. -/
def cifar (cfg : Cfg) : K :=
  let file : Str := if Str.contains (cfg.paddleApi.getD []) py"Cifar100" then py"cifar-100-python.tar.gz"
    else py"cifar-10-python.tar.gz"
  let rest : K := .has py"train" (.pop py"train" py"train" (trainMode fun _ => datasetEmit)) datasetEmit
  .has py"root" (.pop py"root" py"root" (.set py"data_file" (joinRoot file) rest)) rest

/-- `MNISTMatcher`; 5277-5328. -/
def mnist (cfg : Cfg) : K :=
  let ds : Str := if Str.contains (cfg.paddleApi.getD []) py"FashionMNIST" then py"FashionMNIST" else py"MNIST"
  let trainI := ds ++ py"/raw/train-images-idx3-ubyte.gz"
  let trainL := ds ++ py"/raw/train-labels-idx1-ubyte.gz"
  let testI := ds ++ py"/raw/t10k-images-idx3-ubyte.gz"
  let testL := ds ++ py"/raw/t10k-labels-idx1-ubyte.gz"
  let root (m : Option Bool) : K :=
    .has py"root"
      (.pop py"root" py"root"
        (match m with
         | some true => .set py"image_path" (joinRoot trainI) (.set py"label_path" (joinRoot trainL) datasetEmit)
         | some false => .set py"image_path" (joinRoot testI) (.set py"label_path" (joinRoot testL) datasetEmit)
         | none => .set py"image_path" (joinRoot trainI ++ [.lit py" if ", .var py"train", .lit py" else "] ++ joinRoot testI)
            (.set py"label_path" (joinRoot trainL ++ [.lit py" if ", .var py"train", .lit py" else "] ++ joinRoot testL)
              datasetEmit)))
      datasetEmit
  .has py"train" (.pop py"train" py"train" (trainMode root)) (.save py"train" [.lit py"(True)"] (trainMode root))

/-- `Flowers102Matcher`; 5331-5360. -/
def flowers : K :=
  let root : K :=
    .has py"root"
      (.pop py"root" py"root" (.set py"data_file" (joinRoot py"flowers-102/102flowers.tgz")
        (.set py"label_file" (joinRoot py"flowers-102/imagelabels.mat")
          (.set py"setid_file" (joinRoot py"flowers-102/setid.mat") datasetEmit))))
      datasetEmit
  let mode : K :=
    .ask (.var py"split") (.isText py"\"\"\"val\"\"\"") (.set py"mode" [.lit py"'valid'"] root)
      (.ask (.var py"split") (.isText py"\"\"\"test\"\"\"") (.set py"mode" [.lit py"'test'"] root)
        (.ask (.var py"split") (.isText py"\"\"\"train\"\"\"") (.set py"mode" [.lit py"'train'"] root)
          (.set py"mode" [.var py"split", .lit py" if ", .var py"split", .lit py" != 'val' else 'valid'"] root)))
  .has py"split" (.pop py"split" py"split" mode) (.save py"split" [.lit py"\"\"\"train\"\"\""] mode)

/-- `VOCDetectionMatcher`; 5392-5400. -/
def voc : K := .emit [.lit py"\nVOCDetection(", .kws [], .lit py")\n"]

/-- `DecodeJpegMatcher`; 5403-5414. -/
def decodeJpeg : K :=
  let rest : K := .emit ([.lit py"\n"] ++ callAll ++ [.lit py".to(", .var py"device", .lit py")\n"])
  .pop py"input" py"i" (.set py"x" [.var py"i"]
    (.has py"device" (.pop py"device" py"device" rest) (.save py"device" [.lit py"cpu"] rest)))

/-- `BoxesConvertMatcher`; 5443-5453. -/
def boxesConvert (cfg : Cfg) : K :=
  .emit [.lit py"\n", .lit (((cfg.paddleApi.getD []).reverse.takeWhile (· != '.')).reverse), .lit py"(", .kws [],
    .lit py")\n"]

/-- `weights = kwargs.pop("weights", None)` and what follows; 5458-5460. -/
def weightsThen (next : K) : K :=
  .has py"weights"
    (.pop py"weights" py"w" (.ask (.var py"w") (.isText py"None") next (.set py"pretrained" [.lit py"True"] next)))
    next

/-- `WeightsMatcher`; 5456-5461. -/
def weights (cfg : Cfg) : K := weightsThen (generic cfg)

/-- `VGGMatcher`; 5491-5497. -/
def vgg (name : Str) (cfg : Cfg) : K :=
  weightsThen (.set py"batch_norm" [.lit (if Str.contains name py"bn" then py"True" else py"False")] (generic cfg))

/-- `StftMatcher`; 5569-5576. -/
def stft (cfg : Cfg) : K :=
  .has py"return_complex"
    (.pop py"return_complex" py"r"
      (.ask (.var py"r") (.isText py"(False)") (genericWith cfg [.api] [] [.lit py".as_real()"]) (generic cfg)))
    (generic cfg)

/-- `Fractional_Max_pool2dMatcher`, `Fractional_Max_pool3dMatcher`; 5579-5624. -/
def fractional (size : List Q) (cfg : Cfg) : K :=
  let rest : K := .change [(py"input", .one py"x"), (py"return_indices", .one py"return_mask")] [] (generic cfg)
  .has py"output_ratio" (.set py"output_size" size (.drop py"output_ratio" rest)) rest

def ratio2 : List Q :=
  [.lit py"[int(paddle.shape(", .arg py"input", .lit py")[-2] * ", .arg py"output_ratio", .lit py"[0]),int(paddle.shape(",
   .arg py"input", .lit py")[-1] * ", .arg py"output_ratio", .lit py"[1])]"]

def ratio3 : List Q :=
  [.lit py"[int(paddle.shape(", .arg py"input", .lit py")[-3] * ", .arg py"output_ratio", .lit py"[0]), int(paddle.shape(",
   .arg py"input", .lit py")[-2] * ", .arg py"output_ratio", .lit py"[1]),int(paddle.shape(",
   .arg py"input", .lit py")[-1] * ", .arg py"output_ratio", .lit py"[2])]"]

/-- `JitSaveMatcher`; 5741-5744. -/
def jitSave (cfg : Cfg) : K :=
  .pop py"f" py"v" (.set py"path" [.var py"v", .lit py".rsplit('.', 1)[0]"] (generic cfg))

/-- `FSModelParallelIsInitializedMatcher`, `MPCpuCountMatcher`, `CudnnIsAvailableMatcher`, `CudaSeedMatcher`,
`GetNumThreadsMatcher`, `GetNumInteropThreadsMatcher`: the code is a fixed text; 308-313, 1138-1146, 1948-1951, 2098-2105,
5178-5199. -/
def fixed (s : Str) : K := .emit [.lit s]

/-! ## The matcher of an entry -/

/-- The class names in `api_mapping.json`, with the model of `generate_code` for an API name and its entry. -/
def matchers : List (Str × (Str → Cfg → K)) :=
  [(py"GenericMatcher", fun _ cfg => genericMatcher cfg),
   (py"TensorFunc2PaddleFunc", fun _ cfg => tensorFunc cfg),
   (py"SignalWindowsWatcher", signalWindows),
   (py"LoadMatcher", fun _ cfg => load cfg),
   (py"EqualMatcher", fun _ cfg => equal cfg),
   (py"FAFlashAttnFuncMatcher", fun _ cfg => flashAttn cfg),
   (py"FAFlashAttnUnpaddedFuncMatcher", fun _ cfg => flashUnpadded cfg),
   (py"GetLoggerMatcher", fun _ _ => getLogger),
   (py"SparseSoftmaxMatcher", fun _ cfg => sparseSoftmax cfg),
   (py"SetPrintOptionsMatcher", fun _ cfg => setPrintOptions cfg),
   (py"ReverseMomentumMatcher", fun _ cfg => reverseMomentum cfg),
   (py"ReverseAsyncOpMatcher", fun _ cfg => reverseAsync cfg),
   (py"StdMeanMatcher", fun _ _ => statMean py"std"),
   (py"VarMeanMatcher", fun _ _ => statMean py"var"),
   (py"AvgPoolMatcher", fun _ _ => avgPool),
   (py"FSoftMinMatcher", fun _ cfg => fSoftmin cfg),
   (py"TriangularSolveMatcher", fun _ _ => triangularSolve),
   (py"TensorTriangularSolveMatcher", fun _ _ => tensorTriangularSolve),
   (py"AllcloseMatcher", fun _ cfg => allclose cfg),
   (py"TensorSetMatcher", fun _ cfg => tensorSet cfg),
   (py"HistcMatcher", fun _ _ => histc),
   (py"DoubleAssignMatcher", fun _ cfg => doubleAssign cfg),
   (py"TripleAssignMatcher", fun _ cfg => tripleAssign cfg),
   (py"RNNMatcher", fun _ cfg => rnn cfg),
   (py"RNNBaseMatcher", fun _ cfg => rnnBase cfg),
   (py"FAApplyRotaryEmbFuncMatcher", fun _ _ => rotary),
   (py"SortMatcher", fun _ cfg => sort cfg),
   (py"NTupleMatcher", fun _ cfg => ntuple cfg),
   (py"LogSoftmaxMatcher", fun _ cfg => generic cfg),
   (py"SoftminMatcher", fun _ cfg => genericAs py"Softmin" cfg),
   (py"OptimAdamMatcher", fun _ cfg => optimAdam cfg),
   (py"LRSchedulerMatcher", fun _ cfg => lrScheduler cfg),
   (py"Optim2LrSchedulerMatcher", fun _ cfg => optim2Lr cfg),
   (py"ConstantLRMatcher", fun _ cfg => constantLr cfg),
   (py"OneCycleLRMatcher", fun _ cfg => oneCycleLr cfg),
   (py"RequireDimMatcher", fun _ cfg => requireDim cfg),
   (py"FunctionalBilinearMatcher", fun _ _ => fBilinear),
   (py"LuMatcher", fun _ cfg => lu cfg),
   (py"LinalgLuMatcher", fun _ _ => linalgLu),
   (py"LinalgSolveTriangularMatcher", fun _ cfg => solveTriangular cfg),
   (py"QrMatcher", fun _ cfg => qr cfg),
   (py"SvdMatcher", fun _ _ => svd),
   (py"SymeigMatcher", fun _ _ => symeig),
   (py"TensorInplaceReserveTypeMatcher", fun name _ => inplaceReserve name),
   (py"Func2Attribute", fun _ _ => func2Attribute),
   (py"SetUpMatcher", fun _ _ => setUp),
   (py"Device2StrMatcher", fun _ cfg => device2Str cfg),
   (py"ZeroGradMatcher", fun _ cfg => zeroGrad cfg),
   (py"Lu_unpackMatcher", fun _ cfg => luUnpack cfg),
   (py"HistogramMatcher", histogram),
   (py"RpcRemoteMatcher", fun _ _ => rpcRemote),
   (py"CifarMatcher", fun _ cfg => cifar cfg),
   (py"MNISTMatcher", fun _ cfg => mnist cfg),
   (py"Flowers102Matcher", fun _ _ => flowers),
   (py"VOCDetectionMatcher", fun _ _ => voc),
   (py"DecodeJpegMatcher", fun _ _ => decodeJpeg),
   (py"BoxesConvertMatcher", fun _ cfg => boxesConvert cfg),
   (py"WeightsMatcher", fun _ cfg => weights cfg),
   (py"VGGMatcher", vgg),
   (py"GRUCellMatcher", fun _ cfg => genericAs py"GRUCell" cfg),
   (py"LSTMCellMatcher", fun _ cfg => genericAs py"LSTMCell" cfg),
   (py"RNNCellMatcher", fun _ cfg => genericAs py"SimpleRNNCell" cfg),
   (py"StftMatcher", fun _ cfg => stft cfg),
   (py"Fractional_Max_pool2dMatcher", fun _ cfg => fractional ratio2 cfg),
   (py"Fractional_Max_pool3dMatcher", fun _ cfg => fractional ratio3 cfg),
   (py"JitSaveMatcher", fun _ cfg => jitSave cfg),
   (py"CUDAAndCppExtensionMatcher", fun _ cfg => genericMatcher cfg),
   (py"FSModelParallelIsInitializedMatcher", fun _ _ => fixed py"paddle.distributed.fleet.base.topology._HYBRID_PARALLEL_GROUP is not None"),
   (py"MPCpuCountMatcher", fun _ _ => fixed py"\nimport os\nos.cpu_count()\n"),
   (py"CudnnIsAvailableMatcher", fun _ _ => fixed py"bool(paddle.device.get_cudnn_version())"),
   (py"CudaSeedMatcher", fun _ _ => fixed py"\npaddle.get_cuda_rng_state()[0].current_seed()\n"),
   (py"GetNumThreadsMatcher", fun _ _ => fixed py"\nimport os\nos.getenv(\"CPU_NUM\",1)\n"),
   (py"GetNumInteropThreadsMatcher", fun _ _ => fixed py"\nimport os\nint(os.environ['OMP_NUM_THREADS'])\n"),
   (py"DetachMatcher", fun _ _ => detach),
   (py"FSInitializeModelParallelMatcher", fun _ _ => fsInit),
   (py"FSParallelEmbeddingMatcher", fun _ _ => fsEmbedding),
   (py"TensorToSparseCooMatcher", fun _ _ => toSparseCoo),
   (py"DimOrderMatcher", fun _ _ => dimOrder),
   (py"TransformsPositiveDefiniteTransformMatcher", fun _ _ => positiveDefinite),
   (py"Is_InferenceMatcher", fun _ _ => isInference),
   (py"NumelMatcher", fun _ _ => numel),
   (py"ADVariableMatcher", fun _ _ => adVariable),
   (py"TensorTypeMatcher", fun _ _ => tensorType),
   (py"NarrowCopyMatcher", fun _ _ => narrowCopy),
   (py"AddCMulMatcher", fun _ _ => addCMul),
   (py"AddCMul_Matcher", fun _ _ => addCMul_),
   (py"AddCDivMatcher", fun _ _ => addCDiv),
   (py"IsNonzeroMatcher", fun _ _ => isNonzero),
   (py"IndexCopyMatcher", fun _ _ => indexCopy),
   (py"ErfCMatcher", fun _ _ => erfc),
   (py"ErfC_Matcher", fun _ _ => erfc_),
   (py"SpecialErfcxMatcher", fun _ _ => erfcx),
   (py"XLogYMatcher", fun _ _ => xlogy),
   (py"XLogY_Matcher", fun _ _ => xlogy_),
   (py"Exp2Matcher", fun _ _ => exp2),
   (py"ExpitMatcher", fun _ _ => expit),
   (py"LogAddExp2Matcher", fun _ _ => logAddExp2),
   (py"AddMRMatcher", fun _ _ => addMR),
   (py"AddBmmMatcher", fun _ _ => addBmm),
   (py"AddBmm_Matcher", fun _ _ => addBmm_),
   (py"LogDetMatcher", fun _ _ => logDet),
   (py"SelectMatcher", fun _ _ => select),
   (py"SLogDetMatcher", fun _ _ => sLogDet),
   (py"SpecialNdtriMatcher", fun _ _ => ndtri),
   (py"SpecialNdtrMatcher", fun _ _ => ndtr),
   (py"LinalgInvExMatcher", fun _ _ => invEx),
   (py"LinalgCholeskyExMatcher", fun _ _ => choleskyEx),
   (py"AdjointMatcher", fun _ _ => adjoint),
   (py"SpecialXLog1pYMatcher", fun _ _ => xlog1py),
   (py"FARmsNorm", fun _ _ => rmsNorm),
   (py"TensorWhereMatcher", fun _ _ => tensorWhere),
   (py"Get_EnumMatcher", fun _ _ => getEnum),
   (py"CanCastMatcher", fun _ _ => canCast),
   (py"FloatPowerMatcher", fun _ _ => floatPower),
   (py"FloatPowerInplaceMatcher", fun _ _ => floatPower_),
   (py"TensorIsSignedMatcher", fun _ _ => isSigned),
   (py"Is_PinnedMatcher", fun _ _ => isPinned),
   (py"OsEnvironGetMatcher", fun _ _ => environGet),
   (py"FromBufferMatcher", fun _ _ => fromBuffer),
   (py"SetNumInteropThreadsMatcher", fun _ _ => setNumInteropThreads),
   (py"SetNumThreadsMatcher", fun _ _ => setNumThreads),
   (py"OnnxExportMatcher", fun _ _ => onnxExport),
   (py"SetPerProcessMemoryFractionMatcher", fun _ _ => memoryFraction),
   (py"DistributedBackendMatcher", fun _ _ => backend),
   (py"ReduceScatterTensorMatcher", fun _ _ => reduceScatter),
   (py"UtilsSetModuleMatcher", fun _ _ => setModule),
   (py"LinalgLuSolveMatcher", fun _ _ => luSolve),
   (py"ForeachMatcher", fun _ _ => foreach),
   (py"ForeachTensorMatcher", fun _ _ => foreachTensor),
   (py"ForeachErfcMatcher", fun _ _ => foreachErfc),
   (py"ForeachErfc_Matcher", fun _ _ => foreachErfc_)]

/-- The prefixes of the names of methods, and of their Paddle names. -/
def methodPrefixes : List (Str × Str) :=
  [(py"torch.Tensor.", py"paddle.Tensor."), (py"torch.nn.Module.", py"paddle.nn.Module."),
   (py"torch.optim.Optimizer.", py"paddle.optimizer.Optimizer.")]

/-- The API is called as a method of an object. -/
def isMethod (name : Str) : Bool := methodPrefixes.any fun p => Str.startsWith name p.1

/-- `get_paddle_api()`. In the call of a method, the class is replaced by the receiver (`parse_func`, base.py:430-442;
`Matcher.parseFunc`). -/
def apiVal (name : Str) (cfg : Cfg) : Val :=
  match cfg.paddleApi with
  | none => [.code py"None"]
  | some a =>
    match methodPrefixes.find? fun p => Str.startsWith name p.1 && Str.startsWith a p.2 with
    | some p => [.recv, .code (a.drop (p.2.length - 1))]
    | none => [.code a]

/-- The names that `parse_args_and_kwargs` can put into the dictionary: those of `args_list` and `overload_args_list` that
are supported. -/
def params (cfg : Cfg) : List Str :=
  ((cfg.argsList ++ cfg.overload).filter fun k => !(k.headD ' ' == '*') && !cfg.unsupport.contains k).eraseDups

end Verif.Template

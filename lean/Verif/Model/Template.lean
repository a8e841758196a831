import Verif.Spec.Template
import Verif.Model.Matcher

/-!
# Matchers that write their code from the arguments

Models `generate_code` of the matchers of `/repo/paconvert/api_matcher.py`. The functions edit the dictionary of the
arguments, ask which arguments are given, compare their texts, and fill in a template at the end, so each is written as a
decision tree `K`. The values in the dictionary are sequences of pieces (`Spec.Piece`), so that one can see in the code
which texts come from the call.

This file has the language and the matchers whose code is a template with arguments; `Verif.Model.Kwargs` has those that
edit the dictionary and write it with `kwargs_to_str`.
-/

namespace Verif.Template
open Verif
open Verif.Spec (Piece Out Edit)

abbrev Val := List Piece

/-- A piece of a template. -/
inductive Q
  | lit (s : Str)
  /-- `kwargs[k]`: a `KeyError` if it is not there -/
  | arg (k : Str)
  /-- `kwargs[k]` after `if k not in kwargs: kwargs[k] = dflt`, or `kwargs.get(k, dflt)` -/
  | argOr (k dflt : Str)
  /-- `kwargs[k]` after `if k not in kwargs: kwargs[k] = self.paddleClass` -/
  | argOrRecv (k : Str)
  /-- a local variable -/
  | var (x : Str)
  /-- a local variable with its text edited -/
  | edit (e : Edit) (x : Str)
  /-- `self.paddleClass` -/
  | recv
  /-- `self.get_paddle_api()` -/
  | api
  /-- a name from `get_unique_name(s)` -/
  | fresh (s : Str)
  /-- `self.kwargs_to_str(kwargs)`, of a copy without these keys -/
  | kws (without : List Str)
  deriving DecidableEq, Repr

/-- A test of a text. -/
inductive Tst
  /-- `t == s` -/
  | isText (s : Str)
  /-- `s in t` -/
  | contains (s : Str)
  /-- `t[1:-1].isdigit() and int(t[1:-1]) == 0` -/
  | midZero
  /-- `t.strip("()").isdigit()` -/
  | digits
  deriving DecidableEq, Repr

/-- `generate_code`. -/
inductive K
  /-- `return` of a filled template -/
  | emit (qs : List Q)
  /-- `kwargs[k] = ` a filled template -/
  | set (k : Str) (qs : List Q) (next : K)
  /-- `new_kwargs = {k: ...}; new_kwargs.update(kwargs); kwargs = new_kwargs` -/
  | front (k : Str) (qs : List Q) (next : K)
  /-- `kwargs.pop(k, None)` -/
  | drop (k : Str) (next : K)
  /-- `x = ` a filled template -/
  | save (x : Str) (qs : List Q) (next : K)
  /-- `kwargs = self.change_kwargs(kwargs, unuse)`, with this `kwargs_change` -/
  | change (tbl : Dict Str Matcher.Change) (unuse : List Str) (next : K)
  /-- `if k in kwargs` -/
  | has (k : Str) (a b : K)
  /-- a test of a text -/
  | ask (q : Q) (t : Tst) (a b : K)
  /-- `if len(kwargs) == 0` -/
  | empty (a b : K)
  /-- `return "misidentify"`, `"unchange"` or `None` -/
  | left
  /-- an exception -/
  | fail
  deriving DecidableEq, Repr

/-- A test of `kwargs[k]`. -/
abbrev K.test (k : Str) (t : Tst) (a b : K) : K := .ask (.arg k) t a b

/-- A call: the texts of the arguments by name (`parse_args_and_kwargs`), the text of the receiver, `get_paddle_api()` and
the names handed out by `get_unique_name`. -/
structure Call where
  args : Dict Str Str
  recv : Str
  api : Val
  fresh : Str → Str

/-- The state of `generate_code`: the dictionary and the local variables. -/
structure St where
  kw : Dict Str Val
  loc : Dict Str Val

/-- `isdigit()` is taken to mean the ASCII digits. -/
def Tst.holds : Tst → Str → Bool
  | .isText s, t => t == s
  | .contains s, t => Str.contains t s
  | .midZero, t =>
    let m := (t.drop 1).dropLast
    !m.isEmpty && m.all (· == '0')
  | .digits, t =>
    let m := Edit.app .strip t
    !m.isEmpty && m.all Char.isDigit

/-- `kwargs_to_str`; base.py:451-456. -/
def kwsVal : Dict Str Val → Val
  | [] => []
  | [(k, v)] => .code (k ++ py"=") :: v
  | (k, v) :: d => .code (k ++ py"=") :: (v ++ .code py", " :: kwsVal d)

/-- The edit of the value of a variable that is the text of one argument or text of the matcher. No other case occurs
(`C77_no_error_partial`). -/
def editVal (e : Edit) : Val → Option Val
  | [.user k] => some [.edited k e]
  | [.code t] => some [.code (e.app t)]
  | _ => none

def Q.eval (c : Call) (s : St) : Q → Option Val
  | .lit t => some [.code t]
  | .arg k => s.kw.get? k
  | .argOr k dflt => some ((s.kw.get? k).getD [.code dflt])
  | .argOrRecv k => some ((s.kw.get? k).getD [.recv])
  | .var x => s.loc.get? x
  | .edit e x => (s.loc.get? x).bind (editVal e)
  | .recv => some [.recv]
  | .api => some c.api
  | .fresh t => some [.name t]
  | .kws ex => some (kwsVal (s.kw.filter fun kv => !ex.contains kv.1))

def evalAll (c : Call) (s : St) : List Q → Option Val
  | [] => some []
  | q :: qs =>
    match q.eval c s, evalAll c s qs with
    | some v, some w => some (v ++ w)
    | _, _ => none

/-- `change_kwargs`; base.py:472-487 (`Matcher.changeStep`, for values that are sequences of pieces). -/
def changeStep (tbl : Dict Str Matcher.Change) (unuse : List Str) (new : Dict Str Val) (kv : Str × Val) : Dict Str Val :=
  match tbl.get? kv.1 with
  | some c => c.targets.foldl (fun d t => d.set t kv.2) new
  | none =>
    let new := new.set kv.1 kv.2
    if kv.1 ∈ unuse then new.erase kv.1 else new

def changeVals (tbl : Dict Str Matcher.Change) (unuse : List Str) (d : Dict Str Val) : Dict Str Val :=
  d.foldl (changeStep tbl unuse) []

def Call.text (c : Call) (v : Val) : Str := Spec.print c.args c.recv c.fresh v

def K.run (c : Call) : K → St → Out
  | .emit qs, s => match evalAll c s qs with
    | some v => .code v
    | none => .error
  | .set k qs next, s => match evalAll c s qs with
    | some v => next.run c { s with kw := s.kw.set k v }
    | none => .error
  | .front k qs next, s => match evalAll c s qs with
    | some v => next.run c { s with kw := Dict.update [(k, v)] s.kw }
    | none => .error
  | .drop k next, s => next.run c { s with kw := s.kw.erase k }
  | .save x qs next, s => match evalAll c s qs with
    | some v => next.run c { s with loc := s.loc.set x v }
    | none => .error
  | .change tbl unuse next, s => next.run c { s with kw := changeVals tbl unuse s.kw }
  | .has k a b, s => if s.kw.has k then a.run c s else b.run c s
  | .ask q t a b, s => match q.eval c s with
    | some v => if t.holds (c.text v) then a.run c s else b.run c s
    | none => .error
  | .empty a b, s => if s.kw.isEmpty then a.run c s else b.run c s
  | .left, _ => .left
  | .fail, _ => .error

/-- The state at the beginning. -/
def Call.start (c : Call) : St := { kw := c.args.map fun kv => (kv.1, [.user kv.1]), loc := [] }

/-- `generate_code(kwargs)`. -/
def K.out (g : K) (c : Call) : Out := g.run c c.start

/-! ## The matchers -/

/-- `if "out" in kwargs and kwargs["out"] != "None"` -/
def ifOut (a b : K) : K := .has py"out" (.test py"out" (.isText py"None") b a) b

/-- `DetachMatcher`; 254-257. -/
def detach : K := .emit [.arg py"input", .lit py".detach()"]

/-- `FSInitializeModelParallelMatcher`; 274-305. -/
def fsInit : K := .emit
  [.lit py"\n", .fresh py"model_parallel_size", .lit py" = int(min(paddle.distributed.get_world_size(),",
   .arg py"model_parallel_size_", .lit py"))\n", .fresh py"data_parallel_size",
   .lit py" = int(paddle.distributed.get_world_size()/ (", .fresh py"model_parallel_size", .lit py" * ",
   .argOr py"pipeline_length" py"1", .lit py"))\n", .fresh py"strategy",
   .lit py" = paddle.distributed.fleet.DistributedStrategy()\n", .fresh py"strategy",
   .lit py".hybrid_configs = dict(dp_degree=", .fresh py"data_parallel_size", .lit py", mp_degree=",
   .fresh py"model_parallel_size", .lit py", pp_degree=", .argOr py"pipeline_length" py"1",
   .lit py")\npaddle.distributed.fleet.init(is_collective=True, strategy=", .fresh py"strategy", .lit py")\n"]

/-- `FSParallelEmbeddingMatcher`; 326-333. The blanks of the continued lines are left out. -/
def fsEmbedding : K := .emit
  [.lit py"paddle.distributed.fleet.meta_parallel.VocabParallelEmbedding(num_embeddings=", .arg py"num_embeddings",
   .lit py",embedding_dim=", .arg py"embedding_dim", .lit py",weight_attr=paddle.nn.initializer.Constant(0))"]

/-- `TensorToSparseCooMatcher`; 558-566. -/
def toSparseCoo : K := .emit [.lit py"\n", .recv, .lit py".to_sparse_coo(len(", .recv, .lit py".shape))\n"]

/-- `DimOrderMatcher`; 569-577. -/
def dimOrder : K := .emit [.lit py"\ntuple([i for i in range(len(", .recv, .lit py".shape))])\n"]

/-- `TransformsPositiveDefiniteTransformMatcher`; 914-921. -/
def positiveDefinite : K := .emit [.lit py"\nPositiveDefiniteTransform()\n"]

/-- `Is_InferenceMatcher`; 924-926. -/
def isInference : K := .emit [.arg py"input", .lit py".stop_gradient"]

/-- `NumelMatcher`; 929-931. -/
def numel : K := .emit [.arg py"input", .lit py".size"]

/-- `ADVariableMatcher`; 1105-1118. -/
def adVariable : K := .has py"requires_grad"
  (.emit [.lit py"\n", .arg py"data", .lit py".stop_gradient = not ", .arg py"requires_grad", .lit py"\n", .arg py"data",
    .lit py"\n"])
  (.emit [.arg py"data"])

/-- `TensorTypeMatcher`; 2068-2078. -/
def tensorType : K := .empty
  (.emit [.lit py"str(", .recv, .lit py".dtype)"])
  (.has py"dst_type"
    (.emit [.recv, .lit py".astype(", .arg py"dst_type", .lit py")"])
    (.emit [.recv, .lit py".astype(", .arg py"dtype", .lit py")"]))

/-- `NarrowCopyMatcher`; 2258-2287. -/
def narrowCopy : K := .emit
  [.lit py"\n", .fresh py"start", .lit py" = (", .argOrRecv py"input", .lit py".shape[", .arg py"dim", .lit py"] + ",
   .arg py"start", .lit py") if ", .arg py"start", .lit py" < 0 else ", .arg py"start", .lit py"\npaddle.assign(paddle.slice(",
   .argOrRecv py"input", .lit py", [", .arg py"dim", .lit py"], [", .fresh py"start", .lit py"], [", .fresh py"start",
   .lit py" + ", .arg py"length", .lit py"]), ", .argOr py"out" py"None", .lit py")\n"]

/-- `AddCMulMatcher`; 2290-2321. -/
def addCMul : K := ifOut
  (.emit [.lit py"\npaddle.assign(", .argOrRecv py"input", .lit py" + ", .argOr py"value" py"1", .lit py" * ",
    .arg py"tensor1", .lit py" * ", .arg py"tensor2", .lit py", output=", .arg py"out", .lit py")\n"])
  (.emit [.lit py"\npaddle.add(", .argOrRecv py"input", .lit py", ", .argOr py"value" py"1", .lit py" * ", .arg py"tensor1",
    .lit py" * ", .arg py"tensor2", .lit py")\n"])

/-- `AddCMul_Matcher`; 2324-2337. -/
def addCMul_ : K := .emit
  [.lit py"\n", .recv, .lit py".add_(", .argOr py"value" py"1", .lit py" * ", .arg py"tensor1", .lit py" * ",
   .arg py"tensor2", .lit py")\n"]

/-- `AddCDivMatcher`; 2340-2371. -/
def addCDiv : K := ifOut
  (.emit [.lit py"\npaddle.assign(", .argOrRecv py"input", .lit py" + ", .argOr py"value" py"1", .lit py" * ",
    .arg py"tensor1", .lit py" / ", .arg py"tensor2", .lit py", output=", .arg py"out", .lit py")\n"])
  (.emit [.lit py"\npaddle.add(", .argOrRecv py"input", .lit py", ", .argOr py"value" py"1", .lit py" * ", .arg py"tensor1",
    .lit py" / ", .arg py"tensor2", .lit py")\n"])

/-- `IsNonzeroMatcher`; 2394-2403. -/
def isNonzero : K := .emit [.lit py"\n", .arg py"input", .lit py".astype(\"bool\").item()\n"]

/-- The first three lines for an axis other than the first; 2457-2460, 2481-2484. -/
def indexCopyHead : List Q :=
  [.lit py"\ntimes, temp_shape, temp_index = paddle.prod(paddle.to_tensor(", .arg py"input", .lit py".shape[:", .arg py"dim",
   .lit py"])), ", .arg py"input", .lit py".shape, ", .arg py"index", .lit py"\n", .arg py"input", .lit py", new_t = ",
   .arg py"input", .lit py".reshape([-1] + temp_shape[", .arg py"dim", .lit py"+1:]), ", .arg py"source",
   .lit py".reshape([-1] + temp_shape[", .arg py"dim",
   .lit py"+1:])\nfor i in range(1, times):\n    temp_index= paddle.concat([temp_index, index+len(index)*i])\n"]

/-- `IndexCopyMatcher`; 2436-2502. -/
def indexCopy : K := .test py"dim" .midZero
  (.has py"out"
    (.emit [.lit py"paddle.assign(paddle.scatter(", .arg py"input", .lit py", ", .arg py"index", .lit py", ", .arg py"source",
      .lit py"), ", .arg py"out", .lit py")"])
    (.emit [.lit py"paddle.scatter(", .arg py"input", .lit py", ", .arg py"index", .lit py", ", .arg py"source", .lit py")"]))
  (.has py"out"
    (.emit (indexCopyHead ++ [.lit py"paddle.assign(paddle.scatter(", .arg py"input",
      .lit py", temp_index, new_t).reshape(temp_shape), ", .arg py"out", .lit py")\n"]))
    (.emit (indexCopyHead ++ [.lit py"paddle.scatter(", .arg py"input", .lit py", temp_index, new_t).reshape(temp_shape)\n"])))

/-- `ErfCMatcher`; 2592-2612. -/
def erfc : K := ifOut
  (.emit [.lit py"\npaddle.assign(1. - paddle.erf(", .argOrRecv py"input", .lit py"), output=", .arg py"out", .lit py")\n"])
  (.emit [.lit py"\n1. - paddle.erf(", .argOrRecv py"input", .lit py")\n"])

/-- `ErfC_Matcher`; 2615-2627. -/
def erfc_ : K := .emit
  [.lit py"\npaddle.erf_(", .argOrRecv py"input", .lit py").multiply_(paddle.to_tensor(-1.)).add_(paddle.to_tensor(1.))\n"]

/-- `SpecialErfcxMatcher`; 2630-2647. -/
def erfcx : K := ifOut
  (.emit [.lit py"\npaddle.assign(paddle.exp(", .arg py"input", .lit py" ** 2) * (1.0 - paddle.erf(", .arg py"input",
    .lit py")), output=", .arg py"out", .lit py")\n"])
  (.emit [.lit py"\npaddle.exp(", .arg py"input", .lit py" ** 2) * (1.0 - paddle.erf(", .arg py"input", .lit py"))\n"])

/-- `XLogYMatcher`; 2650-2673. -/
def xlogy : K := ifOut
  (.emit [.lit py"\npaddle.assign(", .argOrRecv py"input", .lit py" * paddle.log(paddle.to_tensor(", .arg py"other",
    .lit py")), output=", .arg py"out", .lit py")\n"])
  (.emit [.lit py"\n", .argOrRecv py"input", .lit py" * paddle.log(paddle.to_tensor(", .arg py"other", .lit py"))\n"])

/-- `XLogY_Matcher`; 2676-2691. -/
def xlogy_ : K := .emit
  [.lit py"\n", .argOrRecv py"input", .lit py".multiply_(paddle.log(paddle.to_tensor(", .arg py"other", .lit py")))\n"]

/-- `Exp2Matcher`; 2694-2711. -/
def exp2 : K := ifOut
  (.emit [.lit py"\npaddle.assign(2. ** ", .arg py"input", .lit py", output=", .arg py"out", .lit py")\n"])
  (.emit [.lit py"\n2. ** ", .arg py"input", .lit py"\n"])

/-- `ExpitMatcher`; 2714-2736. -/
def expit : K := ifOut
  (.emit [.lit py"\n", .fresh py"exp_v", .lit py" = paddle.exp(", .arg py"input", .lit py")\npaddle.assign(",
    .fresh py"exp_v", .lit py" / (1 + ", .fresh py"exp_v", .lit py"), output=", .arg py"out", .lit py")\n"])
  (.emit [.lit py"\n", .fresh py"exp_v", .lit py" = paddle.exp(", .arg py"input", .lit py")\n", .fresh py"exp_v",
    .lit py" / (1 + ", .fresh py"exp_v", .lit py")\n"])

/-- `LogAddExp2Matcher`; 2749-2769. -/
def logAddExp2 : K := ifOut
  (.emit [.lit py"\npaddle.assign(paddle.log2(2. ** ", .argOrRecv py"input", .lit py" + 2. ** ", .arg py"other",
    .lit py"), output=", .arg py"out", .lit py")\n"])
  (.emit [.lit py"\npaddle.log2(2. ** ", .argOrRecv py"input", .lit py" + 2. ** ", .arg py"other", .lit py")\n"])

/-- The last step of `AddMRMatcher` for the two parameters; 2821-2857. -/
def addMRWith (p1 p2 : Q) : K := ifOut
  (.emit [.lit py"\npaddle.assign(paddle.add(", .argOr py"beta" py"1", .lit py"*", .argOrRecv py"input", .lit py", ",
    .argOr py"alpha" py"1", .lit py"*", .api, .lit py"(", p1, .lit py", ", p2, .lit py")), output=", .arg py"out",
    .lit py")\n"])
  (.emit [.lit py"\npaddle.add(", .argOr py"beta" py"1", .lit py"*", .argOrRecv py"input", .lit py", ",
    .argOr py"alpha" py"1", .lit py"*", .api, .lit py"(", p1, .lit py", ", p2, .lit py"))\n"])

/-- `AddMRMatcher`; 2808-2857. The last pair of names whose first one is given is taken. (If more than one is given, the
code also looks up the second names of the others, which could raise a `KeyError`.) -/
def addMR : K :=
  .has py"batch1" (addMRWith (.arg py"batch1") (.arg py"batch2"))
    (.has py"vec1" (addMRWith (.arg py"vec1") (.arg py"vec2"))
      (.has py"mat" (addMRWith (.arg py"mat") (.arg py"vec"))
        (.has py"mat1" (addMRWith (.arg py"mat1") (.arg py"mat2")) (addMRWith (.lit py"None") (.lit py"None")))))

/-- `AddBmmMatcher`; 2900-2939. -/
def addBmm : K := ifOut
  (.emit [.lit py"\npaddle.assign(paddle.add(", .argOr py"beta" py"1", .lit py"*", .argOrRecv py"input", .lit py", ",
    .argOr py"alpha" py"1", .lit py"*paddle.sum(paddle.bmm(", .arg py"batch1", .lit py", ", .arg py"batch2",
    .lit py"), axis=0)), output=", .arg py"out", .lit py")\n"])
  (.emit [.lit py"\npaddle.add(", .argOr py"beta" py"1", .lit py"*", .argOrRecv py"input", .lit py", ",
    .argOr py"alpha" py"1", .lit py"*paddle.sum(paddle.bmm(", .arg py"batch1", .lit py", ", .arg py"batch2",
    .lit py"), axis=0))\n"])

/-- `AddBmm_Matcher`; 2942-2970. -/
def addBmm_ : K := .emit
  [.lit py"\n", .argOrRecv py"input", .lit py".multiply_(paddle.to_tensor(", .argOr py"beta" py"1", .lit py", dtype=",
   .argOrRecv py"input", .lit py".dtype)).add_(", .argOr py"alpha" py"1", .lit py"*paddle.sum(paddle.bmm(", .arg py"batch1",
   .lit py", ", .arg py"batch2", .lit py"), axis=0))\n"]

/-- `LogDetMatcher`; 2973-2985. -/
def logDet : K := .emit [.lit py"\npaddle.log(paddle.linalg.det(", .argOrRecv py"input", .lit py"))\n"]

/-- `SelectMatcher`; 3380-3394. -/
def select : K := .emit
  [.lit py"\npaddle.index_select(", .argOrRecv py"input", .lit py", index=paddle.to_tensor([", .arg py"index",
   .lit py"]), axis=", .arg py"dim", .lit py").squeeze(", .arg py"dim", .lit py")\n"]

/-- The last step of `SLogDetMatcher`; 3419-3437. -/
def sLogDetWith (x : Q) : K := ifOut
  (.emit [.lit py"\nres = paddle.linalg.slogdet(", x, .lit py")\npaddle.assign(res[0], ", .arg py"out",
    .lit py"[0]), paddle.assign(res[1], ", .arg py"out", .lit py"[1])\n"])
  (.emit [.lit py"\nres = paddle.linalg.slogdet(", x, .lit py")\nres[0], res[1].astype(\"float32\")\n"])

/-- `SLogDetMatcher`; 3410-3437. -/
def sLogDet : K :=
  .has py"input" (sLogDetWith (.arg py"input")) (.has py"A" (sLogDetWith (.arg py"A")) (sLogDetWith .recv))

/-- `SpecialNdtriMatcher`; 3463-3474. -/
def ndtri : K := ifOut
  (.emit [.lit py"paddle.assign(\n2 ** (1/2) * paddle.erfinv(2*", .arg py"input", .lit py"-1)\n, output=", .arg py"out",
    .lit py")"])
  (.emit [.lit py"\n2 ** (1/2) * paddle.erfinv(2*", .arg py"input", .lit py"-1)\n"])

/-- `SpecialNdtrMatcher`; 3477-3488. -/
def ndtr : K := ifOut
  (.emit [.lit py"paddle.assign(\n(paddle.erf(", .arg py"input",
    .lit py"/paddle.sqrt(paddle.to_tensor(2.0)))-paddle.erf(paddle.to_tensor(-float(\"inf\"))))/2\n, output=", .arg py"out",
    .lit py")"])
  (.emit [.lit py"\n(paddle.erf(", .arg py"input",
    .lit py"/paddle.sqrt(paddle.to_tensor(2.0)))-paddle.erf(paddle.to_tensor(-float(\"inf\"))))/2\n"])

/-- `LinalgInvExMatcher`; 3491-3511. -/
def invEx : K := ifOut
  (.emit [.lit py"\nout1 = paddle.linalg.inv(", .arg py"A", .lit py")\nout2 = paddle.zeros(", .arg py"A",
    .lit py".shape[:-2], dtype=\"int32\")\npaddle.assign(out1, output=", .arg py"out",
    .lit py"[0]), paddle.assign(out2, output=", .arg py"out", .lit py"[1])\n"])
  (.emit [.lit py"\n(paddle.linalg.inv(", .arg py"A", .lit py"), paddle.zeros(", .arg py"A",
    .lit py".shape[:-2], dtype=\"int32\"))\n"])

/-- `LinalgCholeskyExMatcher`; 3514-3540. -/
def choleskyEx : K := ifOut
  (.emit [.lit py"\nout1 = paddle.linalg.cholesky(x=", .arg py"input", .lit py", upper=", .argOr py"upper" py"False",
    .lit py")\nout2 = paddle.zeros(", .arg py"input", .lit py".shape[:-2], dtype=\"int32\")\npaddle.assign(out1, output=",
    .arg py"out", .lit py"[0]), paddle.assign(out2, output=", .arg py"out", .lit py"[1])\n"])
  (.emit [.lit py"\n(paddle.linalg.cholesky(x=", .arg py"input", .lit py", upper=", .argOr py"upper" py"False",
    .lit py"), paddle.zeros(", .arg py"input", .lit py".shape[:-2], dtype=\"int32\"))\n"])

/-- `AdjointMatcher`; 3543-3560. -/
def adjoint : K := .emit
  [.lit py"\n", .fresh py"perm", .lit py" = list(range(", .argOrRecv py"input", .lit py".ndim))\n", .fresh py"perm",
   .lit py"[-1], ", .fresh py"perm", .lit py"[-2] = ", .fresh py"perm", .lit py"[-2], ", .fresh py"perm",
   .lit py"[-1]\npaddle.conj(paddle.transpose(", .argOrRecv py"input", .lit py", perm=", .fresh py"perm", .lit py"))\n"]

/-- `SpecialXLog1pYMatcher`; 3608-3619. -/
def xlog1py : K := ifOut
  (.emit [.lit py"paddle.assign(\n", .arg py"input", .lit py" * paddle.log1p(paddle.to_tensor(", .arg py"other",
    .lit py"))\n, output=", .arg py"out", .lit py")"])
  (.emit [.lit py"\n", .arg py"input", .lit py" * paddle.log1p(paddle.to_tensor(", .arg py"other", .lit py"))\n"])

/-- `FARmsNorm`; 3874-3887. -/
def rmsNorm : K := .emit
  [.lit py"\npaddle.incubate.nn.functional.fused_rms_norm(", .arg py"x", .lit py", ", .arg py"weight",
   .lit py", paddle.zeros_like(", .arg py"weight", .lit py"), ", .arg py"epsilon", .lit py",len(", .arg py"x",
   .lit py".shape)-1)[0]\n"]

/-- `TensorWhereMatcher`; 3921-3931. -/
def tensorWhere : K := .emit
  [.lit py"\npaddle.where(", .arg py"condition", .lit py", ", .recv, .lit py", ", .arg py"other", .lit py")\n"]

/-- `Get_EnumMatcher`; 3995-4002. -/
def getEnum : K := .emit [.lit py"\nget_enum(", .arg py"reduction", .lit py")\n"]

/-- `CanCastMatcher`; 4606-4608. -/
def canCast : K := .emit [.lit py"can_cast(from_=", .arg py"from_", .lit py", to=", .arg py"to", .lit py")"]

/-- `FloatPowerMatcher`; 4621-4633. -/
def floatPower : K := .has py"input"
  (.has py"out"
    (.emit [.lit py"paddle.assign(paddle.pow(", .arg py"input", .lit py".cast(paddle.float64), cast_exponent(",
      .arg py"exponent", .lit py")), ", .arg py"out", .lit py")"])
    (.emit [.lit py"paddle.pow(", .arg py"input", .lit py".cast(paddle.float64), cast_exponent(", .arg py"exponent",
      .lit py"))"]))
  (.emit [.recv, .lit py".cast(paddle.float64).pow(cast_exponent(", .arg py"exponent", .lit py"))"])

/-- `FloatPowerInplaceMatcher`; 4636-4640. -/
def floatPower_ : K := .emit [.recv, .lit py".cast_(paddle.float64).pow_(", .arg py"exponent", .lit py")"]

/-- `TensorIsSignedMatcher`; 4652-4655. -/
def isSigned : K := .emit [.recv, .lit py".dtype not in [paddle.uint8]"]

/-- `Is_PinnedMatcher`; 4749-4753. -/
def isPinned : K := .emit [.lit py"'pinned' in str(", .recv, .lit py".place)"]

/-- `OsEnvironGetMatcher`; 4867-4878. -/
def environGet : K := .has py"key"
  (.test py"key" (.isText py"\"\"\"WORLD_SIZE\"\"\"") (.emit [.lit py"paddle.distributed.get_world_size()"])
    (.test py"key" (.isText py"\"\"\"LOCAL_RANK\"\"\"") (.emit [.lit py"paddle.distributed.get_rank()"]) .left))
  .left

/-- `FromBufferMatcher`; 5135-5149. -/
def fromBuffer : K := .emit
  [.lit py"\nimport numpy as np\nbuffer = ", .arg py"buffer", .lit py"\ndtype = ", .arg py"dtype",
   .lit py"\nif isinstance(dtype, paddle.base.core.DataType):\n    dtype = dtype.name.lower()\npaddle.to_tensor(np.frombuffer(np.array(buffer), dtype=dtype))\n"]

/-- `SetNumInteropThreadsMatcher`; 5213-5222. -/
def setNumInteropThreads : K := .emit [.lit py"\n_set_num_interop_threads(", .arg py"int", .lit py")\n"]

/-- `SetNumThreadsMatcher`; 5236-5245. -/
def setNumThreads : K := .emit [.lit py"\n_set_num_threads(", .arg py"int", .lit py")\n"]

/-- `OnnxExportMatcher`; 5644-5653. -/
def onnxExport : K := .emit [.lit py"\nonnx_export(", .arg py"model", .lit py",", .arg py"f", .lit py")\n"]

/-- `SetPerProcessMemoryFractionMatcher`; 5667-5676. -/
def memoryFraction : K := .emit [.lit py"\nset_per_process_memory_fraction(", .arg py"fraction", .lit py")\n"]

/-- `ForeachMatcher`; 5724-5733. -/
def foreach : K := .emit [.lit py"\nforeach_operator(", .api, .lit py", ", .arg py"self", .lit py")\n"]

/-- `DistributedBackendMatcher`; 5736-5738. -/
def backend : K := .emit [.arg py"name", .lit py".lower()"]

/-- `ForeachErfcMatcher`; 5758-5766. -/
def foreachErfc : K := .emit [.lit py"\nforeach_erfc(", .arg py"self", .lit py")\n"]

/-- `ForeachErfc_Matcher`; 5779-5787. -/
def foreachErfc_ : K := .emit [.lit py"\nforeach_erfc_(", .arg py"self", .lit py")\n"]

/-- `ReduceScatterTensorMatcher`; 5808-5822. -/
def reduceScatter : K := .emit
  [.lit py"\nreduce_scatter_tensor(", .arg py"output", .lit py",", .arg py"input", .lit py",", .argOr py"op" py"None",
   .lit py",", .argOr py"group" py"None", .lit py",", .argOr py"async_op" py"None", .lit py")\n"]

/-- `UtilsSetModuleMatcher`; 5835-5843. -/
def setModule : K := .emit [.lit py"\nset_module(", .arg py"obj", .lit py",", .arg py"mod", .lit py")\n"]

/-- `ForeachTensorMatcher`; 5891-5899. -/
def foreachTensor : K := .emit [.lit py"\nforeach_Tensor_(", .arg py"self", .lit py",\"", .api, .lit py"\")\n"]

/-- `LinalgLuSolveMatcher`; 5923-5938. -/
def luSolve : K := .emit
  [.lit py"\nlinalg_lu_solve(", .arg py"LU", .lit py",", .arg py"pivots", .lit py",", .arg py"B", .lit py",",
   .argOr py"left" py"True", .lit py",", .argOr py"adjoint" py"False", .lit py",", .argOr py"out" py"None", .lit py")\n"]

end Verif.Template

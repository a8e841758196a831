import Verif.Py.Dict
import Verif.Py.Str

/-!
# Code made from the arguments of a call

The code that a matcher writes is a sequence of pieces: text of the matcher, and the texts of the arguments that the user
wrote in the call.
-/

namespace Verif.Spec
open Verif

/-- What a matcher does to the text of an argument before it inserts it. -/
inductive Edit
  /-- `t.strip("()")` -/
  | strip
  /-- `t.replace("cuda", "gpu")` -/
  | gpu
  deriving DecidableEq, Repr

def Edit.app : Edit → Str → Str
  | .strip, t => Str.stripBy (fun c => c == '(' || c == ')') t
  | .gpu, t => Str.replace t py"cuda" py"gpu"

inductive Piece
  /-- text of the matcher -/
  | code (s : Str)
  /-- the text of the argument with this name -/
  | user (k : Str)
  /-- the edited text of the argument with this name -/
  | edited (k : Str) (e : Edit)
  /-- the text of the receiver, in the call of a method -/
  | recv
  /-- a new name, made from this text -/
  | name (s : Str)
  deriving DecidableEq, Repr

/-- What happens to a call. -/
inductive Out
  /-- the call is replaced by this code -/
  | code (ps : List Piece)
  /-- the call is left as it is -/
  | left
  /-- the matcher raises an exception -/
  | error
  deriving DecidableEq, Repr

/-- The text of `None`, of `True` or `False`, or of a string: nothing is computed, and a matcher can decide what to write
from the text. -/
def Plain (t : Str) : Prop :=
  t = py"None" ∨ t = py"(True)" ∨ t = py"(False)" ∨
    (Str.startsWith t py"\"\"\"" = true ∧ Str.endsWith t py"\"\"\"" = true)

instance (t : Str) : Decidable (Plain t) := inferInstanceAs (Decidable (_ ∨ _ ∨ _ ∨ _ ∧ _))

/-- What to look for in the code: an argument or the receiver. -/
inductive Focus
  | arg (k : Str)
  | recv
  deriving DecidableEq, Repr

def Piece.shows : Focus → Piece → Bool
  | .arg k, .user j => j == k
  | .arg k, .edited j _ => j == k
  | .recv, .recv => true
  | _, _ => false

/-- How many times the code contains it. -/
def count (f : Focus) (ps : List Piece) : Nat := ps.countP (Piece.shows f)

/-- How many times the code contains the text of the argument. -/
def times (k : Str) (ps : List Piece) : Nat := count (.arg k) ps

/-- How many times the code contains the text of the receiver. -/
def timesRecv (ps : List Piece) : Nat := count .recv ps

/-- A piece as text. -/
def Piece.text (args : Dict Str Str) (recv : Str) (fresh : Str → Str) : Piece → Str
  | .code s => s
  | .user k => (args.get? k).getD []
  | .edited k e => e.app ((args.get? k).getD [])
  | .recv => recv
  | .name s => fresh s

/-- The code as text. -/
def print (args : Dict Str Str) (recv : Str) (fresh : Str → Str) (ps : List Piece) : Str :=
  ps.flatMap (Piece.text args recv fresh)

/-- Arguments that PyTorch requires, for the APIs whose matcher relies on it. -/
def requiredTable : List (Str × List Str) := [
   (py"fairscale.nn.model_parallel.initialize.initialize_model_parallel", [py"model_parallel_size_"]),
   (py"fairscale.nn.model_parallel.layers.ParallelEmbedding", [py"num_embeddings", py"embedding_dim"]),
   (py"flash_attn.flash_attn_interface.flash_attn_unpadded_func", [py"q"]),
   (py"flash_attn.ops.rms_norm.rms_norm", [py"x", py"weight", py"epsilon"]), (py"setuptools.setup", [py"name"]),
   (py"torch.Tensor.addbmm", [py"batch1", py"batch2"]), (py"torch.Tensor.addbmm_", [py"batch1", py"batch2"]),
   (py"torch.Tensor.addcmul", [py"tensor1", py"tensor2"]), (py"torch.Tensor.addcmul_", [py"tensor1", py"tensor2"]),
   (py"torch.Tensor.addmv", [py"mat", py"vec"]), (py"torch.Tensor.addr", [py"vec1", py"vec2"]),
   (py"torch.Tensor.float_power", [py"exponent"]), (py"torch.Tensor.float_power_", [py"exponent"]),
   (py"torch.Tensor.logaddexp2", [py"other"]), (py"torch.Tensor.narrow_copy", [py"dim", py"start", py"length"]),
   (py"torch.Tensor.select", [py"dim", py"index"]), (py"torch.Tensor.triangular_solve", [py"A"]),
   (py"torch.Tensor.where", [py"condition", py"other"]), (py"torch.Tensor.xlogy", [py"other"]),
   (py"torch.Tensor.xlogy_", [py"other"]), (py"torch.addbmm", [py"batch1", py"batch2"]),
   (py"torch.addcdiv", [py"tensor1", py"tensor2"]), (py"torch.addcmul", [py"tensor1", py"tensor2"]),
   (py"torch.adjoint", [py"input"]), (py"torch.autograd.Variable", [py"data"]), (py"torch.can_cast", [py"from_", py"to"]),
   (py"torch.cuda.set_per_process_memory_fraction", [py"fraction"]), (py"torch.detach", [py"input"]),
   (py"torch.distributed.Backend", [py"name"]), (py"torch.distributed.reduce_scatter_tensor", [py"output", py"input"]),
   (py"torch.distributed.rpc.remote", [py"func"]), (py"torch.float_power", [py"input", py"exponent"]),
   (py"torch.frombuffer", [py"buffer", py"dtype"]), (py"torch.histogram", [py"input"]),
   (py"torch.index_copy", [py"input", py"dim", py"index", py"source"]), (py"torch.is_inference", [py"input"]),
   (py"torch.is_nonzero", [py"input"]), (py"torch.jit.save", [py"f"]), (py"torch.linalg.cholesky_ex", [py"input"]),
   (py"torch.linalg.inv_ex", [py"A"]), (py"torch.linalg.lu", [py"A"]),
   (py"torch.linalg.lu_solve", [py"LU", py"pivots", py"B"]), (py"torch.load", [py"f"]),
   (py"torch.logaddexp2", [py"other"]), (py"torch.lu", [py"A"]),
   (py"torch.narrow_copy", [py"input", py"dim", py"start", py"length"]),
   (py"torch.nn.functional._Reduction.get_enum", [py"reduction"]),
   (py"torch.nn.functional.bilinear", [py"input1", py"input2"]),
   (py"torch.nn.functional.fractional_max_pool2d", [py"input"]),
   (py"torch.nn.functional.fractional_max_pool3d", [py"input"]), (py"torch.nn.functional.softmin", [py"input"]),
   (py"torch.numel", [py"input"]), (py"torch.onnx.export", [py"model", py"f"]),
   (py"torch.optim.lr_scheduler.ConstantLR", [py"optimizer"]),
   (py"torch.optim.lr_scheduler.CyclicLR", [py"optimizer"]), (py"torch.optim.lr_scheduler.LinearLR", [py"optimizer"]),
   (py"torch.optim.lr_scheduler.MultiplicativeLR", [py"optimizer"]),
   (py"torch.optim.lr_scheduler.OneCycleLR", [py"optimizer", py"max_lr"]), (py"torch.select", [py"dim", py"index"]),
   (py"torch.set_num_interop_threads", [py"int"]), (py"torch.set_num_threads", [py"int"]),
   (py"torch.signal.windows.general_cosine", [py"a"]), (py"torch.sparse.softmax", [py"input"]),
   (py"torch.special.erfcx", [py"input"]), (py"torch.special.exp2", [py"input"]),
   (py"torch.special.expit", [py"input"]), (py"torch.special.ndtr", [py"input"]),
   (py"torch.special.ndtri", [py"input"]), (py"torch.special.xlog1py", [py"input", py"other"]),
   (py"torch.special.xlogy", [py"other"]), (py"torch.triangular_solve", [py"input", py"A"]),
   (py"torch.utils.set_module", [py"obj", py"mod"]), (py"torchvision.io.decode_jpeg", [py"input"])]

def required (api : Str) : List Str :=
  if Str.startsWith api py"torch._foreach_" then [py"self"]
  else ((requiredTable.find? fun e => e.1 == api).map (·.2)).getD []

/-- Arguments of which PyTorch accepts only one. -/
def exclusive (api : Str) : List (Str × Str) :=
  if Str.startsWith api py"torchvision.models." then [(py"weights", py"pretrained")]
  else if Str.endsWith api py"split" then [(py"indices", py"sections")]
  else if Str.startsWith api py"torch.nn.functional.fractional_max_pool" then [(py"output_ratio", py"output_size")]
  else []

/-- Arguments that only say where and how to compute. -/
def hints : List Str :=
  [py"layout", py"device", py"memory_format", py"inplace", py"generator", py"non_blocking", py"async"]

/-- The arguments that the matchers forget: API and argument. -/
def lostTable : List (Str × Str) := [
   (py"os.environ.get", py"value"), (py"setuptools.setup", py"cmdclass"), (py"torch.Tensor.qr", py"some"),
   (py"torch.frombuffer", py"count"), (py"torch.frombuffer", py"offset"), (py"torch.frombuffer", py"requires_grad"),
   (py"torch.index_copy", py"dim"), (py"torch.linalg.cholesky_ex", py"check_errors"),
   (py"torch.linalg.inv_ex", py"check_errors"), (py"torch.nn.LSTM", py"bidirectional"),
   (py"torch.nn.RNN", py"bidirectional"), (py"torch.nn.RNNBase", py"bidirectional"),
   (py"torch.onnx.export", py"opset_version"), (py"torch.optim.lr_scheduler.OneCycleLR", py"total_steps"),
   (py"torch.scalar_tensor", py"pin_memory"), (py"torch.set_printoptions", py"profile"),
   (py"torch.stft", py"return_complex")]

/-- The argument `weights` of the models of torchvision only decides whether `pretrained=True` is written. -/
def lost (api k : Str) : Bool :=
  lostTable.contains (api, k) || (Str.startsWith api py"torchvision.models." && k == py"weights")

/-- The arguments that are written more than once. -/
def repeated : List (Str × Str) := [
   (py"fairscale.nn.model_parallel.initialize.initialize_model_parallel", py"pipeline_length"),
   (py"flash_attn.flash_attn_interface.flash_attn_unpadded_func", py"q"),
   (py"flash_attn.ops.rms_norm.rms_norm", py"weight"), (py"flash_attn.ops.rms_norm.rms_norm", py"x"),
   (py"torch.Tensor.histogram", py"bins"), (py"torch.Tensor.histogram", py"range"),
   (py"torch.Tensor.narrow_copy", py"dim"), (py"torch.Tensor.narrow_copy", py"start"),
   (py"torch.Tensor.select", py"dim"), (py"torch.Tensor.set_", py"source"), (py"torch.Tensor.sort", py"descending"),
   (py"torch.Tensor.sort", py"dim"), (py"torch.Tensor.sort", py"stable"), (py"torch.Tensor.triangular_solve", py"A"),
   (py"torch.adjoint", py"input"), (py"torch.autograd.Variable", py"data"), (py"torch.histogram", py"bins"),
   (py"torch.histogram", py"input"), (py"torch.histogram", py"out"), (py"torch.histogram", py"range"),
   (py"torch.index_copy", py"dim"), (py"torch.index_copy", py"input"), (py"torch.linalg.cholesky_ex", py"input"),
   (py"torch.linalg.cholesky_ex", py"out"), (py"torch.linalg.eig", py"out"), (py"torch.linalg.inv_ex", py"A"),
   (py"torch.linalg.inv_ex", py"out"), (py"torch.linalg.lu", py"out"), (py"torch.linalg.lu_factor", py"out"),
   (py"torch.linalg.lu_factor_ex", py"out"), (py"torch.linalg.slogdet", py"out"), (py"torch.linalg.svd", py"out"),
   (py"torch.lu", py"out"), (py"torch.lu_unpack", py"out"), (py"torch.narrow_copy", py"dim"),
   (py"torch.narrow_copy", py"input"), (py"torch.narrow_copy", py"start"), (py"torch.nn.GRUCell", py"bias"),
   (py"torch.nn.InstanceNorm1d", py"affine"), (py"torch.nn.InstanceNorm2d", py"affine"),
   (py"torch.nn.InstanceNorm3d", py"affine"), (py"torch.nn.LSTM", py"bias"), (py"torch.nn.LSTMCell", py"bias"),
   (py"torch.nn.RNN", py"bias"), (py"torch.nn.RNNBase", py"bias"), (py"torch.nn.RNNCell", py"bias"),
   (py"torch.nn.SyncBatchNorm", py"affine"), (py"torch.nn.functional.fractional_max_pool2d", py"input"),
   (py"torch.nn.functional.fractional_max_pool2d", py"output_ratio"),
   (py"torch.nn.functional.fractional_max_pool3d", py"input"),
   (py"torch.nn.functional.fractional_max_pool3d", py"output_ratio"), (py"torch.nn.functional.softmin", py"input"),
   (py"torch.nn.modules.batchnorm._BatchNorm", py"affine"), (py"torch.optim.Adam", py"betas"),
   (py"torch.optim.Adamax", py"betas"), (py"torch.optim.NAdam", py"betas"), (py"torch.optim.RAdam", py"betas"),
   (py"torch.optim.lr_scheduler.ConstantLR", py"optimizer"), (py"torch.optim.lr_scheduler.LinearLR", py"optimizer"),
   (py"torch.optim.lr_scheduler.MultiplicativeLR", py"optimizer"),
   (py"torch.optim.lr_scheduler.OneCycleLR", py"div_factor"), (py"torch.optim.lr_scheduler.OneCycleLR", py"max_lr"),
   (py"torch.select", py"dim"), (py"torch.slogdet", py"out"), (py"torch.special.erfcx", py"input"),
   (py"torch.std_mean", py"dim"), (py"torch.std_mean", py"input"), (py"torch.std_mean", py"keepdim"),
   (py"torch.svd", py"out"), (py"torch.triangular_solve", py"A"), (py"torch.triangular_solve", py"out"),
   (py"torch.var_mean", py"dim"), (py"torch.var_mean", py"input"), (py"torch.var_mean", py"keepdim"),
   (py"torchvision.datasets.FashionMNIST", py"root"), (py"torchvision.datasets.FashionMNIST", py"train"),
   (py"torchvision.datasets.Flowers102", py"root"), (py"torchvision.datasets.Flowers102", py"split"),
   (py"torchvision.datasets.MNIST", py"root"), (py"torchvision.datasets.MNIST", py"train")]

/-- The methods whose receiver is written more than once. -/
def repeatedRecv : List Str := [
   py"torch.Tensor.addbmm_", py"torch.Tensor.adjoint", py"torch.Tensor.eq_", py"torch.Tensor.ge_",
   py"torch.Tensor.gt_", py"torch.Tensor.histc", py"torch.Tensor.histogram", py"torch.Tensor.le_",
   py"torch.Tensor.logical_and_", py"torch.Tensor.logical_not_", py"torch.Tensor.logical_or_",
   py"torch.Tensor.logical_xor_", py"torch.Tensor.lt_", py"torch.Tensor.narrow_copy", py"torch.Tensor.ne_",
   py"torch.Tensor.sort", py"torch.Tensor.to_sparse_coo"]

end Verif.Spec

import Verif.Spec.Flags

/-!
# The values of parameters that a call leaves out
-/

namespace Verif.Spec
open Verif

/-- A constant. -/
inductive Value
  | num (q : Rat)
  | bool (b : Bool)
  | text (s : Str)
  | pair (a b : Rat)
  deriving DecidableEq

def digit (c : Char) : Bool := Nat.ble 48 c.toNat && Nat.ble c.toNat 57

/-- A natural number in decimal digits. -/
def readNat (s : Str) : Option Nat :=
  if s.isEmpty || !s.all digit then none else some (s.foldl (fun n c => 10 * n + (c.toNat - 48)) 0)

/-- The power of ten after the `e` of a number. -/
def readExp : Str → Option Rat
  | [] => some 1
  | 'e' :: '-' :: s => (readNat s).map fun n => mkRat 1 (10 ^ n)
  | 'e' :: s => (readNat s).map fun n => ((10 ^ n : Nat) : Int)
  | _ => none

/-- A number without a sign: `5`, `0.99`, `1e-08`. -/
def readAbs (s : Str) : Option Rat :=
  let m := s.takeWhile (· != 'e')
  let i := m.takeWhile (· != '.')
  let f := (m.dropWhile (· != '.')).drop 1
  match readNat (i ++ f), readExp (s.dropWhile (· != 'e')) with
  | some n, some e => some (mkRat n (10 ^ f.length) * e)
  | _, _ => none

/-- The constant that a text in the code is. A type of numbers is known by its name. -/
def readValue (s : Str) : Option Value :=
  if s = py"True" then some (.bool true) else if s = py"False" then some (.bool false)
  else match s with
  | '\'' :: r => if r.getLast? = some '\'' then some (.text r.dropLast) else none
  | 'p' :: 'a' :: 'd' :: 'd' :: 'l' :: 'e' :: '.' :: r => some (.text r)
  | '-' :: r => (readAbs r).map fun q => .num (-q)
  | r => (readAbs r).map .num

/-- A parameter of PyTorch and the option of Paddle for it. -/
structure OptRule where
  api : Str
  /-- the parameter; `none` if PyTorch has no parameter for what the option does -/
  flag : Option Str
  option : Str
  /-- the option is this part of the parameter -/
  part : Str
  /-- what PyTorch takes if the parameter is not given -/
  torch : Value
  /-- what Paddle takes if the option is not given; `none` if it must be given -/
  paddle : Option Value
  deriving DecidableEq

/-- A parameter for which both have the same value. -/
def same (api flag option : Str) (v : Value) : OptRule := ⟨api, some flag, option, [], v, some v⟩

/-- A parameter for which both have their own value. -/
def own (api flag option : Str) (v w : Value) : OptRule := ⟨api, some flag, option, [], v, some w⟩

/-- A parameter that Paddle requires. -/
def need (api flag option : Str) (v : Value) : OptRule := ⟨api, some flag, option, [], v, none⟩

/-- What PyTorch always does, and what Paddle does without the option. -/
def fixed (api option : Str) (v w : Value) : OptRule := ⟨api, none, option, [], v, some w⟩

/-- The two coefficients of an optimizer. -/
def betas (api : Str) : List OptRule :=
  [⟨api, some py"betas", py"beta1", py"[0]", .num 0.9, some (.num 0.9)⟩,
   ⟨api, some py"betas", py"beta2", py"[1]", .num 0.999, some (.num 0.999)⟩]

/-- The optimizers, from the documentation of `torch.optim` and `paddle.optimizer`. Paddle's `weight_decay=None` is a decay
of 0. -/
def optimRules : List OptRule :=
  betas py"torch.optim.Adam" ++ betas py"torch.optim.NAdam" ++ betas py"torch.optim.RAdam" ++ betas py"torch.optim.Adamax" ++
  [own py"torch.optim.Adadelta" py"lr" py"learning_rate" (.num 1) (.num 0.001),
   own py"torch.optim.Adadelta" py"rho" py"rho" (.num 0.9) (.num 0.95),
   same py"torch.optim.Adadelta" py"eps" py"epsilon" (.num 1e-6),
   same py"torch.optim.Adadelta" py"weight_decay" py"weight_decay" (.num 0),
   same py"torch.optim.Adam" py"lr" py"learning_rate" (.num 0.001),
   same py"torch.optim.Adam" py"eps" py"epsilon" (.num 1e-8),
   same py"torch.optim.Adam" py"weight_decay" py"weight_decay" (.num 0),
   same py"torch.optim.NAdam" py"lr" py"learning_rate" (.num 0.002),
   same py"torch.optim.NAdam" py"eps" py"epsilon" (.num 1e-8),
   same py"torch.optim.NAdam" py"weight_decay" py"weight_decay" (.num 0),
   same py"torch.optim.NAdam" py"momentum_decay" py"momentum_decay" (.num 0.004),
   same py"torch.optim.RAdam" py"lr" py"learning_rate" (.num 0.001),
   same py"torch.optim.RAdam" py"eps" py"epsilon" (.num 1e-8),
   same py"torch.optim.RAdam" py"weight_decay" py"weight_decay" (.num 0),
   same py"torch.optim.Adamax" py"eps" py"epsilon" (.num 1e-8),
   same py"torch.optim.Adamax" py"weight_decay" py"weight_decay" (.num 0),
   same py"torch.optim.ASGD" py"weight_decay" py"weight_decay" (.num 0),
   need py"torch.optim.RMSprop" py"lr" py"learning_rate" (.num 0.01),
   own py"torch.optim.RMSprop" py"alpha" py"rho" (.num 0.99) (.num 0.95),
   own py"torch.optim.RMSprop" py"eps" py"epsilon" (.num 1e-8) (.num 1e-6),
   same py"torch.optim.RMSprop" py"weight_decay" py"weight_decay" (.num 0),
   same py"torch.optim.RMSprop" py"momentum" py"momentum" (.num 0),
   same py"torch.optim.RMSprop" py"centered" py"centered" (.bool false),
   same py"torch.optim.Rprop" py"etas" py"etas" (.pair 0.5 1.2),
   same py"torch.optim.LBFGS" py"lr" py"learning_rate" (.num 1),
   same py"torch.optim.LBFGS" py"max_iter" py"max_iter" (.num 20),
   same py"torch.optim.LBFGS" py"tolerance_grad" py"tolerance_grad" (.num 1e-7),
   same py"torch.optim.LBFGS" py"tolerance_change" py"tolerance_change" (.num 1e-9),
   same py"torch.optim.LBFGS" py"history_size" py"history_size" (.num 100),
   need py"torch.optim.lr_scheduler.LinearLR" py"total_iters" py"total_steps" (.num 5),
   same py"torch.optim.lr_scheduler.LinearLR" py"start_factor" py"start_factor" (.num (1 / 3)),
   same py"torch.optim.lr_scheduler.LinearLR" py"end_factor" py"end_factor" (.num 1),
   need py"torch.optim.lr_scheduler.CyclicLR" py"step_size_up" py"step_size_up" (.num 2000),
   same py"torch.optim.lr_scheduler.CyclicLR" py"mode" py"mode" (.text py"triangular"),
   same py"torch.optim.lr_scheduler.CyclicLR" py"gamma" py"exp_gamma" (.num 1),
   same py"torch.optim.lr_scheduler.CyclicLR" py"scale_mode" py"scale_mode" (.text py"cycle")]

/-- The names of the windows of `torch.signal.windows`. -/
def windows : List Str := [py"blackman", py"cosine", py"hamming", py"hann"]

def windowApi (w : Str) : Str := py"torch.signal.windows." ++ w

/-- Functions and layers, from the documentation of PyTorch and Paddle. -/
def funcRules : List OptRule :=
  [own py"fairscale.nn.model_parallel.layers.ColumnParallelLinear" py"bias" py"has_bias" (.bool true) (.bool false),
   own py"fairscale.nn.model_parallel.layers.RowParallelLinear" py"bias" py"has_bias" (.bool true) (.bool false),
   ⟨py"torch.Tensor.fliplr", none, py"axis", [], .num 1, none⟩, ⟨py"torch.Tensor.flipud", none, py"axis", [], .num 0, none⟩,
   ⟨py"torch.fliplr", none, py"axis", [], .num 1, none⟩, ⟨py"torch.flipud", none, py"axis", [], .num 0, none⟩,
   ⟨py"torch.autograd.functional.hessian", none, py"is_batched", [], .bool false, none⟩,
   ⟨py"torch.autograd.functional.jacobian", none, py"is_batched", [], .bool false, none⟩,
   fixed py"torch.corrcoef" py"rowvar" (.bool true) (.bool true),
   need py"torch.distributions.binomial.Binomial" py"total_count" py"total_count" (.num 1),
   need py"torch.distributions.studentT.StudentT" py"loc" py"loc" (.num 0),
   need py"torch.distributions.studentT.StudentT" py"scale" py"scale" (.num 1),
   same py"torch.linalg.diagonal" py"offset" py"offset" (.num 0),
   own py"torch.linalg.diagonal" py"dim1" py"axis1" (.num (-2)) (.num 0),
   own py"torch.linalg.diagonal" py"dim2" py"axis2" (.num (-1)) (.num 1),
   fixed py"torch.linalg.lu_factor_ex" py"get_infos" (.bool true) (.bool false),
   same py"torch.linalg.lu_factor_ex" py"pivot" py"pivot" (.bool true),
   own py"torch.linalg.svd" py"full_matrices" py"full_matrices" (.bool true) (.bool false),
   fixed py"torch.linalg.vander" py"increasing" (.bool true) (.bool false),
   own py"torch.multiprocessing.spawn" py"nprocs" py"nprocs" (.num 1) (.num (-1)),
   same py"torch.multiprocessing.spawn" py"join" py"join" (.bool true),
   same py"torch.multiprocessing.spawn" py"daemon" py"daemon" (.bool false),
   fixed py"torch.nn.Softmax2d" py"axis" (.num (-3)) (.num (-1)),
   need py"torch.nn.TransformerDecoderLayer" py"dim_feedforward" py"dim_feedforward" (.num 2048),
   same py"torch.nn.TransformerDecoderLayer" py"dropout" py"dropout" (.num 0.1),
   same py"torch.nn.TransformerDecoderLayer" py"activation" py"activation" (.text py"relu"),
   same py"torch.nn.TransformerDecoderLayer" py"norm_first" py"normalize_before" (.bool false),
   need py"torch.nn.TransformerEncoderLayer" py"dim_feedforward" py"dim_feedforward" (.num 2048),
   same py"torch.nn.TransformerEncoderLayer" py"dropout" py"dropout" (.num 0.1),
   same py"torch.nn.TransformerEncoderLayer" py"activation" py"activation" (.text py"relu"),
   same py"torch.nn.TransformerEncoderLayer" py"norm_first" py"normalize_before" (.bool false),
   same py"torch.nn.functional.feature_alpha_dropout" py"p" py"p" (.num 0.5),
   own py"torch.nn.functional.feature_alpha_dropout" py"training" py"training" (.bool false) (.bool true),
   same py"torch.nn.functional.alpha_dropout" py"p" py"p" (.num 0.5),
   same py"torch.nn.functional.rrelu" py"lower" py"lower" (.num (1 / 8)),
   same py"torch.nn.functional.rrelu" py"upper" py"upper" (.num (1 / 3)),
   same py"torch.rrelu" py"lower" py"lower" (.num (1 / 8)),
   same py"torch.rrelu" py"upper" py"upper" (.num (1 / 3)),
   fixed py"torch.nn.functional.upsample_bilinear" py"align_corners" (.bool true) (.bool false),
   fixed py"torch.nn.functional.upsample_bilinear" py"mode" (.text py"bilinear") (.text py"nearest"),
   own py"torch.scalar_tensor" py"dtype" py"dtype" (.text py"float32") (.text py"int64"),
   same py"torchvision.transforms.RandomPerspective" py"distortion_scale" py"distortion_scale" (.num 0.5),
   same py"torchvision.transforms.RandomPerspective" py"p" py"prob" (.num 0.5),
   same py"torchvision.ops.roi_align" py"spatial_scale" py"spatial_scale" (.num 1),
   same py"torchvision.ops.roi_align" py"sampling_ratio" py"sampling_ratio" (.num (-1))] ++
  (windows.map fun w => ⟨windowApi w, none, py"window", [], .text w, none⟩) ++
  ((windows ++ [py"exponential", py"gaussian", py"general_cosine", py"general_hamming"]).map fun w =>
    own (windowApi w) py"dtype" py"dtype" (.text py"float32") (.text py"float64"))

def optRules : List OptRule := optimRules ++ funcRules

/-- The parameters whose value in PyTorch is not the one of Paddle's option, and the table says nothing of it. -/
def diffRules : List OptRule :=
  [own py"torch.optim.Adamax" py"lr" py"learning_rate" (.num 0.002) (.num 0.001),
   own py"torch.optim.ASGD" py"lr" py"learning_rate" (.num 0.01) (.num 0.001),
   own py"torch.optim.Rprop" py"lr" py"learning_rate" (.num 0.01) (.num 0.001),
   own py"torch.optim.Rprop" py"step_sizes" py"learning_rate_range" (.pair 1e-6 50) (.pair 1e-5 50),
   own py"torch.nn.functional.affine_grid" py"align_corners" py"align_corners" (.bool false) (.bool true),
   own py"torch.nn.functional.alpha_dropout" py"training" py"training" (.bool false) (.bool true),
   own py"torch.nn.functional.rrelu" py"training" py"training" (.bool false) (.bool true),
   own py"torch.nn.functional.rrelu_" py"training" py"training" (.bool false) (.bool true),
   own py"torch.rrelu" py"training" py"training" (.bool false) (.bool true),
   own py"torchvision.transforms.RandomPerspective" py"interpolation" py"interpolation" (.text py"bilinear") (.text py"nearest"),
   own py"torchvision.ops.roi_align" py"aligned" py"aligned" (.bool false) (.bool true),
   own py"torch.cpu.amp.autocast" py"dtype" py"dtype" (.text py"bfloat16") (.text py"float16"),
   fixed py"torch.Tensor.median" py"mode" (.text py"min") (.text py"avg"),
   fixed py"torch.Tensor.nanmedian" py"mode" (.text py"min") (.text py"avg")] ++
  -- with `weight_attr=None` and `bias_attr=None` the layer has the parameters
  [py"torch.nn.InstanceNorm1d", py"torch.nn.InstanceNorm2d", py"torch.nn.InstanceNorm3d"].flatMap fun a =>
    [own a py"affine" py"weight_attr" (.bool false) (.bool true), own a py"affine" py"bias_attr" (.bool false) (.bool true)]

/-- The text of the option, if the parameter is given. -/
def OptRule.given (ru : OptRule) (flag : Str) : List Piece :=
  .user flag :: if ru.part.isEmpty then [] else [.code ru.part]

/-- The code asks for this value: the option has it, or the option is not given and Paddle takes it. -/
def Asks (ru : OptRule) (v : Value) (ps : List Piece) : Prop :=
  (∃ t, Sets ru.option [.code t] ps ∧ readValue t = some v) ∨ .code (ru.option ++ py"=") ∉ ps ∧ ru.paddle = some v

end Verif.Spec

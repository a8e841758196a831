import Verif.Model.Kwargs

/-!
# The texts of the helpers

The results of `generate_utils_code` in `/repo/paconvert/api_matcher.py`, for the matchers that the shipped tables use:
the lines of the text, after `textwrap.dedent`, without the empty lines at the two ends.
-/

namespace Verif.HelperText
open Verif

/-- `PaddleFlagMatcher`; 476-487. -/
def paddleFlagText : List Str :=
  [py"class PaddleFlag:",
   py"    cudnn_enabled = True",
   py"    cudnn_benchmark = False",
   py"    matmul_allow_tf32 = False",
   py"    cudnn_allow_tf32 = True",
   py"    cudnn_deterministic = False"]

/-- `TRFMPreTrainedModelMatcher`; 581-626. -/
def trfmText : List Str :=
  [py"from typing import Optional",
   py"import paddleformers",
   py"def _convert_head_mask_to_5d(head_mask, num_hidden_layers):",
   py"    if head_mask.dim() == 1:",
   py"        head_mask = head_mask.unsqueeze(0).unsqueeze(0).unsqueeze(-1).unsqueeze(-1)",
   py"        head_mask = head_mask.expand(num_hidden_layers, -1, -1, -1, -1)",
   py"    elif head_mask.dim() == 2:",
   py"        head_mask = head_mask.unsqueeze(1).unsqueeze(-1).unsqueeze(-1)  # We can specify head_mask for each layer",
   py"    assert head_mask.dim() == 5, f\"head_mask.dim != 5, instead {head_mask.dim()}\"",
   py"    head_mask = head_mask.to(dtype=paddle.get_default_dtype())  # switch to float if need + fp16 compatibility",
   py"    return head_mask",
   py"",
   py"def _get_head_mask(",
   py"    self,",
   py"    head_mask: Optional[paddle.Tensor],",
   py"    num_hidden_layers: int,",
   py"    is_attention_chunked: bool = False,",
   py"):",
   py"    if head_mask is not None:",
   py"        head_mask = _convert_head_mask_to_5d(head_mask, num_hidden_layers)",
   py"        if is_attention_chunked is True:",
   py"            head_mask = head_mask.unsqueeze(-1)",
   py"    else:",
   py"        head_mask = [None] * num_hidden_layers",
   py"    return head_mask",
   py"setattr(paddleformers.transformers.model_utils.PretrainedModel, \"get_head_mask\", _get_head_mask)",
   py"",
   py"original_generate = paddleformers.generation.utils.GenerationMixin.generate",
   py"def _generate(self, input_ids, *args, **kwargs):",
   py"    return paddle.concat((input_ids, original_generate(self,input_ids, *args, **kwargs)[0]), axis=-1)",
   py"setattr(paddleformers.generation.utils.GenerationMixin, \"generate\", _generate)",
   py"",
   py"setattr(paddleformers.transformers.model_utils.PretrainedModel, \"device\", None)",
   py"",
   py"def _post_init(self):",
   py"    if hasattr(self, \"init_weights\"):",
   py"        self.init_weights()",
   py"    elif hasattr(self, \"_init_weights\"):",
   py"        self._init_weights()",
   py"setattr(paddleformers.transformers.model_utils.PretrainedModel, \"post_init\", _post_init)"]

/-- `TransformsPositiveDefiniteTransformMatcher`; 899-912. -/
def positiveDefiniteText : List Str :=
  [py"class PositiveDefiniteTransform:",
   py"    def __call__(self, x):",
   py"        x = x.tril(-1) + x.diagonal(axis1=-2, axis2=-1).exp().diag_embed()",
   py"        return x @ x.T",
   py"",
   py"    def inv(self, y):",
   py"        y = paddle.linalg.cholesky(y)",
   py"        return y.tril(-1) + y.diagonal(axis1=-2, axis2=-1).log().diag_embed()"]

/-- `Device2StrBaseMatcher`; 1044-1066. -/
def device2StrText : List Str :=
  [py"def device2str(type=None, index=None, *, device=None):",
   py"    type = device if device else type",
   py"    if isinstance(type, int):",
   py"        type = f'gpu:{type}'",
   py"    elif isinstance(type, str):",
   py"        if 'cuda' in type:",
   py"            type = type.replace('cuda', 'gpu')",
   py"        if 'cpu' in type:",
   py"            type = 'cpu'",
   py"        elif index is not None:",
   py"            type = f'{type}:{index}'",
   py"    elif isinstance(type, paddle.CPUPlace) or (type is None):",
   py"        type = 'cpu'",
   py"    elif isinstance(type, paddle.CUDAPlace):",
   py"        type = f'gpu:{type.get_device_id()}'",
   py"",
   py"    return type"]

/-- `TensorMaxMatcher`; 1325-1348. -/
def tensorMaxText : List Str :=
  [py"def _Tensor_max(self, *args, **kwargs):",
   py"    if \"other\" in kwargs:",
   py"        kwargs[\"y\"] = kwargs.pop(\"other\")",
   py"        ret = paddle.maximum(self, *args, **kwargs)",
   py"    elif len(args) == 1 and isinstance(args[0], paddle.Tensor):",
   py"        ret = paddle.maximum(self, *args, **kwargs)",
   py"    else:",
   py"        if \"dim\" in kwargs:",
   py"            kwargs[\"axis\"] = kwargs.pop(\"dim\")",
   py"",
   py"        if \"axis\" in kwargs or len(args) >= 1:",
   py"            ret = paddle.max(self, *args, **kwargs), paddle.argmax(self, *args, **kwargs)",
   py"        else:",
   py"            ret = paddle.max(self, *args, **kwargs)",
   py"",
   py"    return ret",
   py"",
   py"setattr(paddle.Tensor, \"_max\", _Tensor_max)"]

/-- `TensorMinMatcher`; 1387-1410. -/
def tensorMinText : List Str :=
  [py"def _Tensor_min(self, *args, **kwargs):",
   py"    if \"other\" in kwargs:",
   py"        kwargs[\"y\"] = kwargs.pop(\"other\")",
   py"        ret = paddle.minimum(self, *args, **kwargs)",
   py"    elif len(args) == 1 and isinstance(args[0], paddle.Tensor):",
   py"        ret = paddle.minimum(self, *args, **kwargs)",
   py"    else:",
   py"        if \"dim\" in kwargs:",
   py"            kwargs[\"axis\"] = kwargs.pop(\"dim\")",
   py"",
   py"        if \"axis\" in kwargs or len(args) >= 1:",
   py"            ret = paddle.min(self, *args, **kwargs), paddle.argmin(self, *args, **kwargs)",
   py"        else:",
   py"            ret = paddle.min(self, *args, **kwargs)",
   py"",
   py"    return ret",
   py"",
   py"setattr(paddle.Tensor, \"_min\", _Tensor_min)"]

/-- `FSoftMinMatcher`; 3015-3025. -/
def fSoftminText : List Str :=
  [py"def _get_softmin_dim(axis: int) -> int:",
   py"    if axis == 0 or axis == 1 or axis == 3:",
   py"        return 0",
   py"    else:",
   py"        return 1"]

/-- `TensorSplitMatcher`; 3749-3761. -/
def tensorSplitText : List Str :=
  [py"def _Tensor_split(self, split_size, dim=0):",
   py"    if isinstance(split_size, int):",
   py"        return paddle.split(self, self.shape[dim] // split_size, dim)",
   py"    else:",
   py"        return paddle.split(self, split_size, dim)",
   py"",
   py"setattr(paddle.Tensor, \"split\", _Tensor_split)"]

/-- `FAApplyRotaryEmbFuncMatcher`; 3829-3858. -/
def rotaryText : List Str :=
  [py"def apply_rotary_position_embeddings(x, cos, sin):",
   py"    if not isinstance(cos, paddle.Tensor):",
   py"        cos = paddle.to_tensor(cos)",
   py"    if not isinstance(sin, paddle.Tensor):",
   py"        sin = paddle.to_tensor(sin)",
   py"",
   py"    def _rotate_half(x):",
   py"        from einops import rearrange",
   py"",
   py"        x = rearrange(x, \"... (j d) -> ... j d\", j=2)",
   py"        x1, x2 = x.unbind(axis=-2)",
   py"        return paddle.concat((-x2, x1), axis=-1)",
   py"    # [seq_len,rotary_dim/2] ==>[seq_len, rotary_dim]",
   py"    cos = paddle.concat([cos,cos],axis=-1)",
   py"    # [seq_len, rotary_dim] ==>[1,seq_len, 1,rotary_dim]",
   py"    cos=cos.unsqueeze(axis=1).unsqueeze(axis=0)",
   py"    # [seq_len,rotary_dim/2] ==>[seq_len, rotary_dim]",
   py"    sin = paddle.concat([sin,sin],axis=-1)",
   py"    # [seq_len, rotary_dim] ==>[1,seq_len, 1,rotary_dim]",
   py"    sin=sin.unsqueeze(axis=1).unsqueeze(axis=0)",
   py"    t_rot, t_pass = x[..., :cos.shape[-1]], x[..., cos.shape[-1]:]",
   py"    t_rot = (t_rot * cos) + (_rotate_half(t_rot) * sin)",
   py"",
   py"    return paddle.concat(x=(t_rot, t_pass), axis=-1)"]

/-- `NTupleMatcher`; 3935-3950. -/
def ntupleText : List Str :=
  [py"import collections",
   py"from itertools import repeat",
   py"def create_tuple_converter(n, name=\"parse\"):",
   py"    def convert_to_tuple(x):",
   py"        if isinstance(x, collections.abc.Iterable):",
   py"            return tuple(x)",
   py"        return tuple(repeat(x, n))",
   py"",
   py"    convert_to_tuple.__name__ = name",
   py"    return convert_to_tuple"]

/-- `Get_EnumMatcher`; 3974-3993. -/
def getEnumText : List Str :=
  [py"def get_enum(reduction: str) -> int:",
   py"    if reduction == \"none\":",
   py"        ret = 0",
   py"    elif reduction == \"mean\":",
   py"        ret = 1",
   py"    elif reduction == \"elementwise_mean\":",
   py"        warnings.warn(\"reduction='elementwise_mean' is deprecated, please use reduction='mean' instead.\")",
   py"        ret = 1",
   py"    elif reduction == \"sum\":",
   py"        ret = 2",
   py"    else:",
   py"        ret = -1",
   py"        raise ValueError(\"{} is not a valid value for reduction\".format(reduction))",
   py"    return ret"]

/-- `LogSoftmaxMatcher`; 4032-4049. -/
def logSoftmaxText : List Str :=
  [py"def _get_softmax_dim(axis: int) -> int:",
   py"    if axis == 0 or axis == 1 or axis == 3:",
   py"        ret = 0",
   py"    else:",
   py"        ret = 1",
   py"    return ret",
   py"",
   py"def _log_softmax_forward(self, x):",
   py"    if self._axis is None:",
   py"        return paddle.nn.functional.log_softmax(x, _get_softmax_dim(x.ndim))",
   py"    return paddle.nn.functional.log_softmax(x, self._axis)",
   py"setattr(paddle.nn.LogSoftmax, \"forward\", _log_softmax_forward)"]

/-- `SoftminMatcher`; 4084-4101. -/
def softminText : List Str :=
  [py"def _get_softmax_dim(axis: int) -> int:",
   py"    if axis == 0 or axis == 1 or axis == 3:",
   py"        ret = 0",
   py"    else:",
   py"        ret = 1",
   py"    return ret",
   py"",
   py"class Softmin(paddle.nn.Softmax):",
   py"    def forward(self, x):",
   py"        if self._axis is None:",
   py"            return paddle.nn.functional.softmax(-x, _get_softmax_dim(x.ndim))",
   py"        return paddle.nn.functional.softmax(-x, self._axis)"]

/-- `SymeigMatcher`; 4395-4413. -/
def symeigText : List Str :=
  [py"def convert_symeig(**kwargs):",
   py"    out_v = kwargs.pop(\"out\", None)",
   py"    upper = kwargs.pop(\"upper\", True)",
   py"    UPLO = \"U\" if upper else \"L\"",
   py"    eigenvectors = kwargs.pop(\"eigenvectors\", False)",
   py"    if not eigenvectors:",
   py"        result = (paddle.linalg.eigvalsh(kwargs[\"input\"], UPLO=UPLO),",
   py"                  paddle.to_tensor([], dtype=paddle.complex64))",
   py"    else:",
   py"        result = paddle.linalg.eigh(kwargs[\"input\"], UPLO=UPLO)",
   py"    if out_v:",
   py"        result = paddle.assign(result[0], out_v[0]), paddle.assign(result[1], out_v[1])",
   py"    return result"]

/-- `CanCastMatcher`; 4423-4604. -/
def canCastText : List Str :=
  [py"def can_cast(from_, to):",
   py"    can_cast_dict = {",
   py"        \"bfloat16\": {",
   py"            \"bfloat16\": True,",
   py"            \"float16\": True,",
   py"            \"float32\": True,",
   py"            \"float64\": True,",
   py"            \"complex64\": True,",
   py"            \"complex128\": True,",
   py"            \"uint8\": False,",
   py"            \"int8\": False,",
   py"            \"int16\": False,",
   py"            \"int32\": False,",
   py"            \"int64\": False,",
   py"            \"bool\": False",
   py"        },",
   py"        \"float16\": {",
   py"            \"bfloat16\": True,",
   py"            \"float16\": True,",
   py"            \"float32\": True,",
   py"            \"float64\": True,",
   py"            \"complex64\": True,",
   py"            \"complex128\": True,",
   py"            \"uint8\": False,",
   py"            \"int8\": False,",
   py"            \"int16\": False,",
   py"            \"int32\": False,",
   py"            \"int64\": False,",
   py"            \"bool\": False,",
   py"        },",
   py"        \"float32\": {",
   py"            \"bfloat16\": True,",
   py"            \"float16\": True,",
   py"            \"float32\": True,",
   py"            \"float64\": True,",
   py"            \"complex64\": True,",
   py"            \"complex128\": True,",
   py"            \"uint8\": False,",
   py"            \"int8\": False,",
   py"            \"int16\": False,",
   py"            \"int32\": False,",
   py"            \"int64\": False,",
   py"            \"bool\": False,",
   py"        },",
   py"        \"float64\": {",
   py"            \"bfloat16\": True,",
   py"            \"float16\": True,",
   py"            \"float32\": True,",
   py"            \"float64\": True,",
   py"            \"complex64\": True,",
   py"            \"complex128\": True,",
   py"            \"uint8\": False,",
   py"            \"int8\": False,",
   py"            \"int16\": False,",
   py"            \"int32\": False,",
   py"            \"int64\": False,",
   py"            \"bool\": False,",
   py"        },",
   py"        \"complex64\": {",
   py"            \"bfloat16\": False,",
   py"            \"float16\": False,",
   py"            \"float32\": False,",
   py"            \"float64\": False,",
   py"            \"complex64\": True,",
   py"            \"complex128\": True,",
   py"            \"uint8\": False,",
   py"            \"int8\": False,",
   py"            \"int16\": False,",
   py"            \"int32\": False,",
   py"            \"int64\": False,",
   py"            \"bool\": False,",
   py"        },",
   py"        \"complex128\": {",
   py"            \"bfloat16\": False,",
   py"            \"float16\": False,",
   py"            \"float32\": False,",
   py"            \"float64\": False,",
   py"            \"complex64\": True,",
   py"            \"complex128\": True,",
   py"            \"uint8\": False,",
   py"            \"int8\": False,",
   py"            \"int16\": False,",
   py"            \"int32\": False,",
   py"            \"int64\": False,",
   py"            \"bool\": False,",
   py"        },",
   py"        \"uint8\": {",
   py"            \"bfloat16\": True,",
   py"            \"float16\": True,",
   py"            \"float32\": True,",
   py"            \"float64\": True,",
   py"            \"complex64\": True,",
   py"            \"complex128\": True,",
   py"            \"uint8\": True,",
   py"            \"int8\": True,",
   py"            \"int16\": True,",
   py"            \"int32\": True,",
   py"            \"int64\": True,",
   py"            \"bool\": False,",
   py"        },",
   py"        \"int8\": {",
   py"            \"bfloat16\": True,",
   py"            \"float16\": True,",
   py"            \"float32\": True,",
   py"            \"float64\": True,",
   py"            \"complex64\": True,",
   py"            \"complex128\": True,",
   py"            \"uint8\": True,",
   py"            \"int8\": True,",
   py"            \"int16\": True,",
   py"            \"int32\": True,",
   py"            \"int64\": True,",
   py"            \"bool\": False,",
   py"        },",
   py"        \"int16\": {",
   py"            \"bfloat16\": True,",
   py"            \"float16\": True,",
   py"            \"float32\": True,",
   py"            \"float64\": True,",
   py"            \"complex64\": True,",
   py"            \"complex128\": True,",
   py"            \"uint8\": True,",
   py"            \"int8\": True,",
   py"            \"int16\": True,",
   py"            \"int32\": True,",
   py"            \"int64\": True,",
   py"            \"bool\": False,",
   py"        },",
   py"        \"int32\": {",
   py"            \"bfloat16\": True,",
   py"            \"float16\": True,",
   py"            \"float32\": True,",
   py"            \"float64\": True,",
   py"            \"complex64\": True,",
   py"            \"complex128\": True,",
   py"            \"uint8\": True,",
   py"            \"int8\": True,",
   py"            \"int16\": True,",
   py"            \"int32\": True,",
   py"            \"int64\": True,",
   py"            \"bool\": False,",
   py"        },",
   py"        \"int64\": {",
   py"            \"bfloat16\": True,",
   py"            \"float16\": True,",
   py"            \"float32\": True,",
   py"            \"float64\": True,",
   py"            \"complex64\": True,",
   py"            \"complex128\": True,",
   py"            \"uint8\": True,",
   py"            \"int8\": True,",
   py"            \"int16\": True,",
   py"            \"int32\": True,",
   py"            \"int64\": True,",
   py"            \"bool\": False,",
   py"        },",
   py"        \"bool\": {",
   py"            \"bfloat16\": True,",
   py"            \"float16\": True,",
   py"            \"float32\": True,",
   py"            \"float64\": True,",
   py"            \"complex64\": True,",
   py"            \"complex128\": True,",
   py"            \"uint8\": True,",
   py"            \"int8\": True,",
   py"            \"int16\": True,",
   py"            \"int32\": True,",
   py"            \"int64\": True,",
   py"            \"bool\": True,",
   py"        }",
   py"    }",
   py"    if isinstance(from_, paddle.base.core.DataType):",
   py"        from_ = from_.name.lower()",
   py"    if isinstance(to, paddle.base.core.DataType):",
   py"        to = to.name.lower()",
   py"    return can_cast_dict[from_][to]"]

/-- `FloatPowerMatcher`; 4612-4619. -/
def floatPowerText : List Str :=
  [py"def cast_exponent(exponent):",
   py"    return exponent.cast(paddle.float64) if isinstance(exponent, paddle.Tensor) else exponent"]

/-- `RpcRemoteMatcher`; 5153-5164. -/
def rpcRemoteText : List Str :=
  [py"class rpc_remote:",
   py"    def __init__(self, remote_obj):",
   py"        self.remote = remote_obj",
   py"",
   py"    def to_here(self):",
   py"        return self.remote.wait()"]

/-- `SetNumInteropThreadsMatcher`; 5203-5211. -/
def setNumInteropThreadsText : List Str :=
  [py"import os",
   py"def _set_num_interop_threads(int):",
   py"    os.environ['OMP_NUM_THREADS'] = str(int)"]

/-- `SetNumThreadsMatcher`; 5226-5234. -/
def setNumThreadsText : List Str :=
  [py"import os",
   py"def _set_num_threads(int):",
   py"    os.environ['CPU_NUM'] = str(int)"]

/-- `VOCDetectionMatcher`; 5364-5390. -/
def vocText : List Str :=
  [py"import os",
   py"def VOCDetection(*args, **kwargs):",
   py"    root = kwargs.pop(\"root\")",
   py"    year = kwargs.pop(\"year\", \"2012\")",
   py"    if year != \"2012\":",
   py"        raise ValueError(\"PaddlePaddle only supports VOC2012 dataset\")",
   py"    image_set = kwargs.pop(\"image_set\", \"train\")",
   py"    download = kwargs.pop(\"download\", True)",
   py"    transform = kwargs.pop(\"transform\", None)",
   py"",
   py"    if image_set == \"trainval\":",
   py"        mode = \"train\"",
   py"    elif image_set == \"train\":",
   py"        mode = \"test\"",
   py"    elif image_set == \"val\":",
   py"        mode = \"valid\"",
   py"    else:",
   py"        raise ValueError(\"Only supports image_set in ['trainval', 'train', 'val']\")",
   py"",
   py"    data_file = os.path.join(root, \"VOCtrainval_11-May-2012.tar\")",
   py"    return paddle.vision.datasets.VOC2012(data_file=data_file, mode=mode, transform=transform, " ++
     py"download=download, backend=None)"]

/-- `BoxesConvertMatcher`; 5418-5441. The two `{}` are the last part of the Paddle name. -/
def boxesConvertText (name : Str) : List Str :=
  [py"def " ++ name ++ py"(*args, **kwargs):",
   py"    input = args[0] if len(args) > 0 else kwargs.get(\"input\")",
   py"    boxes = args[1] if len(args) > 1 else kwargs.get(\"boxes\")",
   py"",
   py"    batch_size = input.shape[0]",
   py"    if isinstance(boxes, list):",
   py"        boxes_num = [len(box) for box in boxes] + [0] * (batch_size - len(boxes))",
   py"        boxes = paddle.concat(boxes) if boxes else paddle.zeros([0, 4])",
   py"    else:",
   py"        boxes_num = [(boxes[:, 0] == i).sum() for i in range(batch_size)]",
   py"        boxes = boxes[:, 1:]",
   py"    boxes_num = paddle.to_tensor(boxes_num, dtype=\"int32\")",
   py"",
   py"    kwargs[\"x\"] = kwargs.pop(\"input\")",
   py"    kwargs[\"boxes\"] = boxes",
   py"    kwargs[\"boxes_num\"] = boxes_num",
   py"    return paddle.vision.ops." ++ name ++ py"(**kwargs)"]

/-- `GRUCellMatcher`; 5501-5509. -/
def gruCellText : List Str :=
  [py"class GRUCell(paddle.nn.GRUCell):",
   py"    def forward(self, inputs, states = None):",
   py"        return super().forward(inputs, states)[0]"]

/-- `LSTMCellMatcher`; 5518-5526. -/
def lstmCellText : List Str :=
  [py"class LSTMCell(paddle.nn.LSTMCell):",
   py"    def forward(self, inputs, states = None):",
   py"        return super().forward(inputs, states)[1]"]

/-- `RNNCellMatcher`; 5535-5543. -/
def rnnCellText : List Str :=
  [py"class SimpleRNNCell(paddle.nn.SimpleRNNCell):",
   py"    def forward(self, inputs, states = None):",
   py"        return super().forward(inputs, states)[0]"]

/-- `OnnxExportMatcher`; 5628-5642. -/
def onnxExportText : List Str :=
  [py"def onnx_export(model,f):",
   py"    model = Logic()",
   py"    paddle.jit.to_static(model)",
   py"    last_dot_index = filename.rfind('.')",
   py"    if last_dot_index == -1:",
   py"        path = f",
   py"    else:",
   py"        path = f[:last_dot_index]",
   py"    return paddle.onnx.export(model, path)"]

/-- `SetPerProcessMemoryFractionMatcher`; 5657-5665. -/
def memoryFractionText : List Str :=
  [py"import os",
   py"def set_per_process_memory_fraction(fraction):",
   py"    os.environ['FLAGS_fraction_of_gpu_memory_to_use'] = str(fraction)"]

/-- `ForeachMatcher`; 5714-5722. -/
def foreachText : List Str :=
  [py"def foreach_operator(func, tensors):",
   py"    return [func(x) for x in tensors]"]

/-- `ForeachErfcMatcher`; 5748-5756. -/
def foreachErfcText : List Str :=
  [py"def foreach_erfc(tensors):",
   py"    return [(1-paddle.erf(x)) for x in tensors]"]

/-- `ForeachErfc_Matcher`; 5770-5777. -/
def foreachErfc_Text : List Str :=
  [py"def foreach_erfc_(tensors):",
   py"    return [paddle.assign(1-paddle.erf(x), x) for x in tensors]"]

/-- `ReduceScatterTensorMatcher`; 5791-5806. -/
def reduceScatterText : List Str :=
  [py"def reduce_scatter_tensor(output, input, op, group, async_op):",
   py"    if async_op is not None:",
   py"        async_op = not async_op",
   py"    world_size = paddle.distributed.get_world_size()",
   py"    input_list = []",
   py"    if input.shape[0] == world_size:",
   py"        input_list = paddle.unstack(input, axis=0)",
   py"    else:",
   py"        input_list = paddle.split(input, num_or_sections=world_size, axis=0)",
   py"    paddle.distributed.reduce_scatter(output, input_list, op, group, async_op)"]

/-- `UtilsSetModuleMatcher`; 5826-5833. -/
def setModuleText : List Str :=
  [py"def set_module(obj, mode):",
   py"    obj.__module__ = mode"]

/-- `ForeachTensorMatcher`; 5881-5889. -/
def foreachTensorText : List Str :=
  [py"def foreach_Tensor_(tensors,method_name):",
   py"    method_name = method_name.rpartition('.')[-1]",
   py"    return [getattr(x, method_name)() for x in tensors]"]

/-- `LinalgLuSolveMatcher`; 5903-5921. -/
def luSolveText : List Str :=
  [py"def linalg_lu_solve(LU, pivots, B, left=True, adjoint=False, out=None):",
   py"    if left:",
   py"        trans = 'H' if adjoint else 'N'",
   py"        result = paddle.linalg.lu_solve(lu=LU, pivots=pivots, b=B, trans=trans)",
   py"    else:",
   py"        trans = 'N' if adjoint else 'H'",
   py"        BH = B.conj().T",
   py"        XH = paddle.linalg.lu_solve(lu=LU, pivots=pivots, b=BH, trans=trans)",
   py"        result = XH.conj().T",
   py"    if out is not None:",
   py"        return paddle.assign(result, output=out)",
   py"    else:",
   py"        return result"]

/-! ## Requests -/

/-- The helpers of the matchers that have one, by class. -/
def texts : Dict Str (List Str) :=
  [(py"PaddleFlagMatcher", paddleFlagText), (py"TRFMPreTrainedModelMatcher", trfmText),
   (py"TransformsPositiveDefiniteTransformMatcher", positiveDefiniteText), (py"Device2StrMatcher", device2StrText),
   (py"TensorMaxMatcher", tensorMaxText), (py"TensorMinMatcher", tensorMinText), (py"FSoftMinMatcher", fSoftminText),
   (py"TensorSplitMatcher", tensorSplitText), (py"FAApplyRotaryEmbFuncMatcher", rotaryText),
   (py"NTupleMatcher", ntupleText), (py"Get_EnumMatcher", getEnumText), (py"LogSoftmaxMatcher", logSoftmaxText),
   (py"SoftminMatcher", softminText), (py"SymeigMatcher", symeigText), (py"CanCastMatcher", canCastText),
   (py"FloatPowerMatcher", floatPowerText), (py"RpcRemoteMatcher", rpcRemoteText),
   (py"SetNumInteropThreadsMatcher", setNumInteropThreadsText), (py"SetNumThreadsMatcher", setNumThreadsText),
   (py"VOCDetectionMatcher", vocText), (py"GRUCellMatcher", gruCellText), (py"LSTMCellMatcher", lstmCellText),
   (py"RNNCellMatcher", rnnCellText), (py"OnnxExportMatcher", onnxExportText),
   (py"SetPerProcessMemoryFractionMatcher", memoryFractionText), (py"ForeachMatcher", foreachText),
   (py"ForeachErfcMatcher", foreachErfcText), (py"ForeachErfc_Matcher", foreachErfc_Text),
   (py"ReduceScatterTensorMatcher", reduceScatterText), (py"UtilsSetModuleMatcher", setModuleText),
   (py"ForeachTensorMatcher", foreachTensorText), (py"LinalgLuSolveMatcher", luSolveText)]

/-- The lines of `self.generate_utils_code()`, for a class and its entry; the name of the helper of `BoxesConvertMatcher`
is taken from the entry (5419). -/
def helper (cls : Str) (cfg : Matcher.Cfg) : Option (List Str) :=
  if cls == py"BoxesConvertMatcher" then
    some (boxesConvertText (((cfg.paddleApi.getD []).reverse.takeWhile (· != '.')).reverse))
  else texts.get? cls

/-- `"dim" not in kwargs or kwargs["dim"] == "None"`. -/
def noDim (c : Template.Call) : Bool :=
  match c.args.get? py"dim" with
  | none => true
  | some t => t == py"None"

/-- `generate_code` calls `enable_utils_code`, for a class that has a helper. It is the first statement of the function or
comes right after another one, except in `FSoftMinMatcher` (3029-3030), `LogSoftmaxMatcher` (4052-4053) and
`Device2StrMatcher` (4780-4797). -/
def enables (cls : Str) (c : Template.Call) : Bool :=
  if cls == py"FSoftMinMatcher" || cls == py"LogSoftmaxMatcher" then noDim c
  else if cls == py"Device2StrMatcher" then
    match c.args.get? py"device" with
    | none => false
    | some t => !(Template.Tst.holds .digits t || Template.Tst.holds (.contains py"cuda") t)
  else true

/-- The helper that the conversion of a call asks for: the lines of the text given to `enable_utils_code`;
base.py:513-536. -/
def request (cls : Str) (cfg : Matcher.Cfg) (c : Template.Call) : Option (List Str) :=
  if enables cls c then helper cls cfg else none

/-- The text of a helper as `generate_utils_code` returns it: `textwrap.dedent` of a text that begins and ends with a line
break. -/
def code (t : List Str) : Str := '\n' :: (Str.join py"\n" t ++ py"\n")

end Verif.HelperText

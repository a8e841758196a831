import Verif.Data.Raw

/-!
# The tables shipped with PaConvert

Generated by `tools/gen_tables.py` from `/repo/paconvert/attribute_mapping.json`. Do not edit.
-/

namespace Verif.Data

def attrTable0 : List Raw := [
  E 0x746f7263682e65 0x4368616e67655072656669784d617463686572 /- torch.e -/,
  E 0x746f7263682e7069 0x4368616e67655072656669784d617463686572 /- torch.pi -/,
  E 0x746f7263682e696e66 0x4368616e67655072656669784d617463686572 /- torch.inf -/,
  E 0x746f7263682e696e74 0x4368616e67655072656669784d617463686572 /- torch.int -/,
  E 0x746f7263682e6e616e 0x4368616e67655072656669784d617463686572 /- torch.nan -/,
  E 0x746f7263682e626f6f6c 0x4368616e67655072656669784d617463686572 /- torch.bool -/,
  E 0x746f7263682e68616c66 0x4368616e67655072656669784d617463686572 /- torch.half -/,
  E 0x746f7263682e696e7438 0x4368616e67655072656669784d617463686572 /- torch.int8 -/,
  E 0x746f7263682e6c6f6e67 0x4368616e67655072656669784d617463686572 /- torch.long -/,
  E 0x746f7263682e6474797065 0x4368616e67655072656669784d617463686572 /- torch.dtype -/,
  E 0x746f7263682e666c6f6174 0x4368616e67655072656669784d617463686572 /- torch.float -/,
  E 0x746f7263682e696e743136 0x4368616e67655072656669784d617463686572 /- torch.int16 -/,
  E 0x746f7263682e696e743332 0x4368616e67655072656669784d617463686572 /- torch.int32 -/,
  E 0x746f7263682e696e743634 0x4368616e67655072656669784d617463686572 /- torch.int64 -/,
  E 0x746f7263682e73686f7274 0x4368616e67655072656669784d617463686572 /- torch.short -/,
  E 0x746f7263682e75696e7438 0x4368616e67655072656669784d617463686572 /- torch.uint8 -/,
  E 0x746f7263682e63666c6f6174 0x4368616e67655072656669784d617463686572 /- torch.cfloat -/,
  E 0x746f7263682e646f75626c65 0x4368616e67655072656669784d617463686572 /- torch.double -/,
  E 0x746f7263682e75696e743136 0x4368616e67655072656669784d617463686572 /- torch.uint16 -/,
  E 0x746f7263682e75696e743332 0x4368616e67655072656669784d617463686572 /- torch.uint32 -/,
  E 0x746f7263682e75696e743634 0x4368616e67655072656669784d617463686572 /- torch.uint64 -/,
  E 0x746f7263682e63646f75626c65 0x4368616e67655072656669784d617463686572 /- torch.cdouble -/,
  E 0x746f7263682e666c6f61743136 0x4368616e67655072656669784d617463686572 /- torch.float16 -/,
  E 0x746f7263682e666c6f61743332 0x4368616e67655072656669784d617463686572 /- torch.float32 -/,
  E 0x746f7263682e666c6f61743634 0x4368616e67655072656669784d617463686572 /- torch.float64 -/,
  E 0x746f7263682e6e657761786973 0x4368616e67655072656669784d617463686572 /- torch.newaxis -/,
  E 0x746f7263682e54656e736f722e48 0x4368616e67655072656669784d617463686572 /- torch.Tensor.H -/,
  E 0x746f7263682e54656e736f722e54 0x4368616e67655072656669784d617463686572 /- torch.Tensor.T -/,
  E 0x746f7263682e62666c6f61743136 0x4368616e67655072656669784d617463686572 /- torch.bfloat16 -/,
  E 0x746f7263682e54656e736f722e6d48 0x4368616e67655072656669784d617463686572 /- torch.Tensor.mH -/,
  E 0x746f7263682e54656e736f722e6d54 0x4368616e67655072656669784d617463686572 /- torch.Tensor.mT -/,
  E 0x746f7263682e636f6d706c65783634 0x4368616e67655072656669784d617463686572 /- torch.complex64 -/,
  E 0x746f7263682e636f6d706c6578313238 0x4368616e67655072656669784d617463686572 /- torch.complex128 -/,
  E 0x746f7263682e54656e736f722e64617461 0x4368616e67655072656669784d617463686572 /- torch.Tensor.data -/,
  E 0x746f7263682e54656e736f722e67726164 0x4368616e67655072656669784d617463686572 /- torch.Tensor.grad -/,
  P 0x746f7263682e54656e736f722e696d6167 0x4174747269627574653246756e63 0x706164646c652e54656e736f722e696d6167 /- torch.Tensor.imag -/,
  E 0x746f7263682e54656e736f722e6e64696d 0x4368616e67655072656669784d617463686572 /- torch.Tensor.ndim -/,
  P 0x746f7263682e54656e736f722e7265616c 0x4174747269627574653246756e63 0x706164646c652e54656e736f722e7265616c /- torch.Tensor.real -/,
  E 0x746f7263682e5f5f76657273696f6e5f5f 0x4368616e67655072656669784d617463686572 /- torch.__version__ -/,
  E 0x746f7263682e666c6f6174385f65356d32 0x4368616e67655072656669784d617463686572 /- torch.float8_e5m2 -/,
  E 0x746f7263682e54656e736f722e6474797065 0x4368616e67655072656669784d617463686572 /- torch.Tensor.dtype -/,
  E 0x746f7263682e54656e736f722e6e616d6573 0 /- torch.Tensor.names -/,
  E 0x746f7263682e54656e736f722e7368617065 0x4368616e67655072656669784d617463686572 /- torch.Tensor.shape -/,
  E 0x746f7263682e54656e736f722e646576696365 0x4368616e67655072656669784d617463686572 /- torch.Tensor.device -/,
  E 0x746f7263682e54656e736f722e69735f637075 0x4368616e67655072656669784d617463686572 /- torch.Tensor.is_cpu -/,
  E 0x746f7263682e54656e736f722e6e6279746573 0x4368616e67655072656669784d617463686572 /- torch.Tensor.nbytes -/,
  E 0x746f7263682e626f6f6c2e6974656d73697a65 0x4368616e67655072656669784d617463686572 /- torch.bool.itemsize -/,
  E 0x746f7263682e666c6f6174385f65346d33666e 0x4368616e67655072656669784d617463686572 /- torch.float8_e4m3fn -/,
  E 0x746f7263682e696e74382e6974656d73697a65 0x4368616e67655072656669784d617463686572 /- torch.int8.itemsize -/,
  E 0x746f7263682e6c6f6e672e6974656d73697a65 0x4368616e67655072656669784d617463686572 /- torch.long.itemsize -/,
  E 0x746f7263682e54656e736f722e69735f63756461 0x4368616e67655072656669784d617463686572 /- torch.Tensor.is_cuda -/,
  E 0x746f7263682e54656e736f722e69735f6c656166 0x4368616e67655072656669784d617463686572 /- torch.Tensor.is_leaf -/,
  E 0x746f7263682e54656e736f722e69735f6d657461 0 /- torch.Tensor.is_meta -/,
  E 0x746f7263682e696e7431362e6974656d73697a65 0x4368616e67655072656669784d617463686572 /- torch.int16.itemsize -/,
  E 0x746f7263682e696e7433322e6974656d73697a65 0x4368616e67655072656669784d617463686572 /- torch.int32.itemsize -/,
  E 0x746f7263682e696e7436342e6974656d73697a65 0x4368616e67655072656669784d617463686572 /- torch.int64.itemsize -/,
  E 0x746f7263682e75696e74382e6974656d73697a65 0x4368616e67655072656669784d617463686572 /- torch.uint8.itemsize -/,
  E 0x746f7263682e54656e736f722e6974656d73697a65 0x4368616e67655072656669784d617463686572 /- torch.Tensor.itemsize -/,
  E 0x746f7263682e63666c6f61742e6974656d73697a65 0x4368616e67655072656669784d617463686572 /- torch.cfloat.itemsize -/,
  E 0x746f7263682e646f75626c652e6974656d73697a65 0x4368616e67655072656669784d617463686572 /- torch.double.itemsize -/]

def attrTable1 : List Raw := [
  P 0x746f7263682e54656e736f722e69735f737061727365 0x4174747269627574653246756e63 0x706164646c652e54656e736f722e69735f737061727365 /- torch.Tensor.is_sparse -/,
  E 0x746f7263682e666c6f617431362e6974656d73697a65 0x4368616e67655072656669784d617463686572 /- torch.float16.itemsize -/,
  E 0x746f7263682e666c6f617433322e6974656d73697a65 0x4368616e67655072656669784d617463686572 /- torch.float32.itemsize -/,
  E 0x746f7263682e666c6f617436342e6974656d73697a65 0x4368616e67655072656669784d617463686572 /- torch.float64.itemsize -/,
  E 0x746f7263682e62666c6f617431362e6974656d73697a65 0x4368616e67655072656669784d617463686572 /- torch.bfloat16.itemsize -/,
  E 0x746f7263682e636f6d706c657836342e6974656d73697a65 0x4368616e67655072656669784d617463686572 /- torch.complex64.itemsize -/,
  E 0x746f7263682e54656e736f722e69735f7175616e74697a6564 0 /- torch.Tensor.is_quantized -/,
  E 0x746f7263682e54656e736f722e72657461696e735f67726164 0 /- torch.Tensor.retains_grad -/,
  E 0x746f7263682e636f6d706c65783132382e6974656d73697a65 0x4368616e67655072656669784d617463686572 /- torch.complex128.itemsize -/,
  P 0x746f7263682e54656e736f722e69735f7370617273655f637372 0x4174747269627574653246756e63 0x706164646c652e54656e736f722e69735f7370617273655f637372 /- torch.Tensor.is_sparse_csr -/,
  E 0x746f7263682e54656e736f722e72657175697265735f67726164 0x4368616e67655072656669784d617463686572 /- torch.Tensor.requires_grad -/,
  F 0x746f7263682e6261636b656e64732e6375646e6e2e656e61626c6564 0x506164646c65466c61674d617463686572 0x506164646c65466c61672e6375646e6e5f656e61626c6564 0 [] [] [] [] [] /- torch.backends.cudnn.enabled -/,
  E 0x746f7263682e666c6f6174385f65346d33666e2e6974656d73697a65 0x4368616e67655072656669784d617463686572 /- torch.float8_e4m3fn.itemsize -/,
  E 0x746f7263682e64697374726962757465642e67726f75702e574f524c44 0x4368616e67655072656669784d617463686572 /- torch.distributed.group.WORLD -/,
  F 0x746f7263682e6261636b656e64732e6375646e6e2e62656e63686d61726b 0x506164646c65466c61674d617463686572 0x506164646c65466c61672e6375646e6e5f62656e63686d61726b 0 [] [] [] [] [] /- torch.backends.cudnn.benchmark -/,
  E 0x746f7263682e64697374726962757465642e5265647563654f702e4d4158 0x4368616e67655072656669784d617463686572 /- torch.distributed.ReduceOp.MAX -/,
  E 0x746f7263682e64697374726962757465642e5265647563654f702e4d494e 0x4368616e67655072656669784d617463686572 /- torch.distributed.ReduceOp.MIN -/,
  E 0x746f7263682e64697374726962757465642e5265647563654f702e53554d 0x4368616e67655072656669784d617463686572 /- torch.distributed.ReduceOp.SUM -/,
  F 0x746f7263682e6261636b656e64732e6375646e6e2e616c6c6f775f74663332 0x506164646c65466c61674d617463686572 0x506164646c65466c61672e6375646e6e5f616c6c6f775f74663332 0 [] [] [] [] [] /- torch.backends.cudnn.allow_tf32 -/,
  F 0x746f7263682e6261636b656e64732e6375646e6e2e64657465726d696e6973746963 0x506164646c65466c61674d617463686572 0x506164646c65466c61672e6375646e6e5f64657465726d696e6973746963 0 [] [] [] [] [] /- torch.backends.cudnn.deterministic -/,
  P 0x746f7263682e64697374726962757465642e5265647563654f702e50524f44554354 0x4368616e67654150494d617463686572 0x706164646c652e64697374726962757465642e5265647563654f702e50524f44 /- torch.distributed.ReduceOp.PRODUCT -/,
  E 0x746f7263682e7574696c732e6370705f657874656e73696f6e2e435544415f484f4d45 0x4368616e67655072656669784d617463686572 /- torch.utils.cpp_extension.CUDA_HOME -/,
  E 0x746f7263682e6175746f677261642e46756e6374696f6e2e73617665645f74656e736f7273 0x4368616e67655072656669784d617463686572 /- torch.autograd.Function.saved_tensors -/,
  F 0x746f7263682e6261636b656e64732e637564612e6d61746d756c2e616c6c6f775f74663332 0x506164646c65466c61674d617463686572 0x506164646c65466c61672e6d61746d756c5f616c6c6f775f74663332 0 [] [] [] [] [] /- torch.backends.cuda.matmul.allow_tf32 -/,
  E 0x746f7263682e646973747269627574696f6e732e446973747269627574696f6e2e6d65616e 0 /- torch.distributions.Distribution.mean -/,
  E 0x746f7263682e646973747269627574696f6e732e446973747269627574696f6e2e6d6f6465 0 /- torch.distributions.Distribution.mode -/,
  E 0x746f7263682e646973747269627574696f6e732e446973747269627574696f6e2e737464646576 0 /- torch.distributions.Distribution.stddev -/,
  E 0x746f7263682e646973747269627574696f6e732e446973747269627574696f6e2e76617269616e6365 0 /- torch.distributions.Distribution.variance -/,
  E 0x746f7263682e646973747269627574696f6e732e446973747269627574696f6e2e62617463685f7368617065 0 /- torch.distributions.Distribution.batch_shape -/,
  E 0x746f7263682e646973747269627574696f6e732e446973747269627574696f6e2e6576656e745f7368617065 0 /- torch.distributions.Distribution.event_shape -/,
  E 0x746f7263682e6175746f677261642e70726f66696c65722e70726f66696c652e73656c665f6370755f74696d655f746f74616c 0 /- torch.autograd.profiler.profile.self_cpu_time_total -/,
  E 0x746f7263682e7574696c732e6370705f657874656e73696f6e2e4275696c64457874656e73696f6e2e776974685f6f7074696f6e73 0x4368616e67655072656669784d617463686572 /- torch.utils.cpp_extension.BuildExtension.with_options -/,
  P 0x746f7263682e7574696c732e646174612e5f7574696c732e636f6c6c6174652e6e705f7374725f6f626a5f61727261795f7061747465726e 0x47656e657269634d617463686572 0x72652e636f6d70696c652872275b5361554f5d2729 /- torch.utils.data._utils.collate.np_str_obj_array_pattern -/,
  P 0x746f7263682e7574696c732e646174612e5f7574696c732e636f6c6c6174652e64656661756c745f636f6c6c6174655f6572725f6d73675f666f726d6174 0x47656e657269634d617463686572 0x2764656661756c745f636f6c6c6174653a206261746368206d75737420636f6e7461696e2074656e736f72732c206e756d7079206172726179732c206e756d626572732c206469637473206f72206c697374733b20666f756e64207b7d27 /- torch.utils.data._utils.collate.default_collate_err_msg_format -/]

def attrTable : List Raw :=
  attrTable0 ++ (attrTable1)

end Verif.Data

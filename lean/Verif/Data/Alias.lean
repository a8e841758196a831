/-!
# The tables shipped with PaConvert

Generated by `tools/gen_tables.py` from `/repo/paconvert/api_alias_mapping.json`. Do not edit.
-/

namespace Verif.Data

def aliasTable : List (Nat × Nat) := [
  (0x746f7263682e65726663, 0x746f7263682e7370656369616c2e65726663) /- torch.erfc -> torch.special.erfc -/,
  (0x746f7263682e65787032, 0x746f7263682e7370656369616c2e65787032) /- torch.exp2 -> torch.special.exp2 -/,
  (0x746f7263682e63656c755f, 0x746f7263682e6e6e2e66756e6374696f6e616c2e63656c755f) /- torch.celu_ -> torch.nn.functional.celu_ -/,
  (0x746f7263682e6f72677172, 0x746f7263682e6c696e616c672e686f757365686f6c6465725f70726f64756374) /- torch.orgqr -> torch.linalg.householder_product -/,
  (0x746f7263682e7064697374, 0x746f7263682e6e6e2e66756e6374696f6e616c2e7064697374) /- torch.pdist -> torch.nn.functional.pdist -/,
  (0x746f7263682e7072656c75, 0x746f7263682e6e6e2e66756e6374696f6e616c2e7072656c75) /- torch.prelu -> torch.nn.functional.prelu -/,
  (0x746f7263682e72656c755f, 0x746f7263682e6e6e2e66756e6374696f6e616c2e72656c755f) /- torch.relu_ -> torch.nn.functional.relu_ -/,
  (0x746f7263682e73656c755f, 0x746f7263682e6e6e2e66756e6374696f6e616c2e73656c755f) /- torch.selu_ -> torch.nn.functional.selu_ -/,
  (0x746f7263682e747261707a, 0x746f7263682e74726170657a6f6964) /- torch.trapz -> torch.trapezoid -/,
  (0x746f7263682e786c6f6779, 0x746f7263682e7370656369616c2e786c6f6779) /- torch.xlogy -> torch.special.xlogy -/,
  (0x746f7263682e617263636f73, 0x746f7263682e61636f73) /- torch.arccos -> torch.acos -/,
  (0x746f7263682e61726373696e, 0x746f7263682e6173696e) /- torch.arcsin -> torch.asin -/,
  (0x746f7263682e61726374616e, 0x746f7263682e6174616e) /- torch.arctan -> torch.atan -/,
  (0x746f7263682e657266696e76, 0x746f7263682e7370656369616c2e657266696e76) /- torch.erfinv -> torch.special.erfinv -/,
  (0x746f7263682e6967616d6d61, 0x746f7263682e7370656369616c2e67616d6d61696e63) /- torch.igamma -> torch.special.gammainc -/,
  (0x746f7263682e7272656c755f, 0x746f7263682e6e6e2e66756e6374696f6e616c2e7272656c755f) /- torch.rrelu_ -> torch.nn.functional.rrelu_ -/,
  (0x746f7263682e617263636f7368, 0x746f7263682e61636f7368) /- torch.arccosh -> torch.acosh -/,
  (0x746f7263682e61726373696e68, 0x746f7263682e6173696e68) /- torch.arcsinh -> torch.asinh -/,
  (0x746f7263682e61726374616e32, 0x746f7263682e6174616e32) /- torch.arctan2 -> torch.atan2 -/,
  (0x746f7263682e61726374616e68, 0x746f7263682e6174616e68) /- torch.arctanh -> torch.atanh -/,
  (0x746f7263682e646967616d6d61, 0x746f7263682e7370656369616c2e646967616d6d61) /- torch.digamma -> torch.special.digamma -/,
  (0x746f7263682e6967616d6d6163, 0x746f7263682e7370656369616c2e67616d6d61696e6363) /- torch.igammac -> torch.special.gammaincc -/,
  (0x746f7263682e62696c696e656172, 0x746f7263682e6e6e2e66756e6374696f6e616c2e62696c696e656172) /- torch.bilinear -> torch.nn.functional.bilinear -/,
  (0x746f7263682e636f6e765f746263, 0x746f7263682e6e6e2e66756e6374696f6e616c2e636f6e765f746263) /- torch.conv_tbc -> torch.nn.functional.conv_tbc -/,
  (0x746f7263682e706f6c7967616d6d61, 0x746f7263682e7370656369616c2e706f6c7967616d6d61) /- torch.polygamma -> torch.special.polygamma -/,
  (0x746f7263682e7468726573686f6c64, 0x746f7263682e6e6e2e66756e6374696f6e616c2e7468726573686f6c64) /- torch.threshold -> torch.nn.functional.threshold -/,
  (0x746f7263682e6176675f706f6f6c3164, 0x746f7263682e6e6e2e66756e6374696f6e616c2e6176675f706f6f6c3164) /- torch.avg_pool1d -> torch.nn.functional.avg_pool1d -/,
  (0x746f7263682e68617264736872696e6b, 0x746f7263682e6e6e2e66756e6374696f6e616c2e68617264736872696e6b) /- torch.hardshrink -> torch.nn.functional.hardshrink -/,
  (0x746f7263682e6d61747269785f657870, 0x746f7263682e6c696e616c672e6d61747269785f657870) /- torch.matrix_exp -> torch.linalg.matrix_exp -/,
  (0x746f7263682e7468726573686f6c645f, 0x746f7263682e6e6e2e66756e6374696f6e616c2e7468726573686f6c645f) /- torch.threshold_ -> torch.nn.functional.threshold_ -/,
  (0x746f7263682e746f7263682e7472696c, 0x746f7263682e7472696c) /- torch.torch.tril -> torch.tril -/,
  (0x746f7263682e72616e646f6d2e73656564, 0x746f7263682e73656564) /- torch.random.seed -> torch.seed -/,
  (0x746f7263682e746f7263682e66696e666f, 0x746f7263682e66696e666f) /- torch.torch.finfo -> torch.finfo -/,
  (0x746f7263682e54656e736f722e6c6573735f, 0x746f7263682e54656e736f722e6c745f) /- torch.Tensor.less_ -> torch.Tensor.lt_ -/,
  (0x746f7263682e6d61747269785f706f776572, 0x746f7263682e6c696e616c672e6d61747269785f706f776572) /- torch.matrix_power -> torch.linalg.matrix_power -/,
  (0x746f7263682e6e6e2e4e4c4c4c6f73733264, 0x746f7263682e6e6e2e4e4c4c4c6f7373) /- torch.nn.NLLLoss2d -> torch.nn.NLLLoss -/,
  (0x746f7263682e746f7263682e54656e736f72, 0x746f7263682e54656e736f72) /- torch.torch.Tensor -> torch.Tensor -/,
  (0x746f7263682e54656e736f722e617263636f73, 0x746f7263682e54656e736f722e61636f73) /- torch.Tensor.arccos -> torch.Tensor.acos -/,
  (0x746f7263682e54656e736f722e61726373696e, 0x746f7263682e54656e736f722e6173696e) /- torch.Tensor.arcsin -> torch.Tensor.asin -/,
  (0x746f7263682e54656e736f722e61726374616e, 0x746f7263682e54656e736f722e6174616e) /- torch.Tensor.arctan -> torch.Tensor.atan -/,
  (0x746f7263682e66756e6374696f6e616c2e6c75, 0x746f7263682e6c75) /- torch.functional.lu -> torch.lu -/,
  (0x746f7263682e706978656c5f73687566666c65, 0x746f7263682e6e6e2e66756e6374696f6e616c2e706978656c5f73687566666c65) /- torch.pixel_shuffle -> torch.nn.functional.pixel_shuffle -/,
  (0x746f7263682e54656e736f722e617263636f735f, 0x746f7263682e54656e736f722e61636f735f) /- torch.Tensor.arccos_ -> torch.Tensor.acos_ -/,
  (0x746f7263682e54656e736f722e617263636f7368, 0x746f7263682e54656e736f722e61636f7368) /- torch.Tensor.arccosh -> torch.Tensor.acosh -/,
  (0x746f7263682e54656e736f722e61726373696e5f, 0x746f7263682e54656e736f722e6173696e5f) /- torch.Tensor.arcsin_ -> torch.Tensor.asin_ -/,
  (0x746f7263682e54656e736f722e61726373696e68, 0x746f7263682e54656e736f722e6173696e68) /- torch.Tensor.arcsinh -> torch.Tensor.asinh -/,
  (0x746f7263682e54656e736f722e61726374616e32, 0x746f7263682e54656e736f722e6174616e32) /- torch.Tensor.arctan2 -> torch.Tensor.atan2 -/,
  (0x746f7263682e54656e736f722e61726374616e5f, 0x746f7263682e54656e736f722e6174616e5f) /- torch.Tensor.arctan_ -> torch.Tensor.atan_ -/,
  (0x746f7263682e54656e736f722e61726374616e68, 0x746f7263682e54656e736f722e6174616e68) /- torch.Tensor.arctanh -> torch.Tensor.atanh -/,
  (0x746f7263682e6e6e2e6d6f64756c65732e524e4e, 0x746f7263682e6e6e2e524e4e) /- torch.nn.modules.RNN -> torch.nn.RNN -/,
  (0x746f7263682e54656e736f722e617263636f73685f, 0x746f7263682e54656e736f722e61636f73685f) /- torch.Tensor.arccosh_ -> torch.Tensor.acosh_ -/,
  (0x746f7263682e54656e736f722e61726373696e685f, 0x746f7263682e54656e736f722e6173696e685f) /- torch.Tensor.arcsinh_ -> torch.Tensor.asinh_ -/,
  (0x746f7263682e54656e736f722e61726374616e325f, 0x746f7263682e54656e736f722e6174616e325f) /- torch.Tensor.arctan2_ -> torch.Tensor.atan2_ -/,
  (0x746f7263682e54656e736f722e61726374616e685f, 0x746f7263682e54656e736f722e6174616e685f) /- torch.Tensor.arctanh_ -> torch.Tensor.atanh_ -/,
  (0x746f7263682e54656e736f722e677265617465725f, 0x746f7263682e54656e736f722e67745f) /- torch.Tensor.greater_ -> torch.Tensor.gt_ -/,
  (0x746f7263682e6368616e6e656c5f73687566666c65, 0x746f7263682e6e6e2e66756e6374696f6e616c2e6368616e6e656c5f73687566666c65) /- torch.channel_shuffle -> torch.nn.functional.channel_shuffle -/,
  (0x746f7263682e66756e6374696f6e616c2e73746674, 0x746f7263682e73746674) /- torch.functional.stft -> torch.stft -/,
  (0x746f7263682e6e6e2e6d6f64756c65732e4c53544d, 0x746f7263682e6e6e2e4c53544d) /- torch.nn.modules.LSTM -> torch.nn.LSTM -/,
  (0x746f7263682e706978656c5f756e73687566666c65, 0x746f7263682e6e6e2e66756e6374696f6e616c2e706978656c5f756e73687566666c65) /- torch.pixel_unshuffle -> torch.nn.functional.pixel_unshuffle -/,
  (0x746f7263682e636f6e765f7472616e73706f73653164, 0x746f7263682e6e6e2e66756e6374696f6e616c2e636f6e765f7472616e73706f73653164) /- torch.conv_transpose1d -> torch.nn.functional.conv_transpose1d -/,
  (0x746f7263682e636f6e765f7472616e73706f73653264, 0x746f7263682e6e6e2e66756e6374696f6e616c2e636f6e765f7472616e73706f73653264) /- torch.conv_transpose2d -> torch.nn.functional.conv_transpose2d -/,
  (0x746f7263682e636f6e765f7472616e73706f73653364, 0x746f7263682e6e6e2e66756e6374696f6e616c2e636f6e765f7472616e73706f73653364) /- torch.conv_transpose3d -> torch.nn.functional.conv_transpose3d -/,
  (0x746f7263682e66756e6374696f6e616c2e6364697374, 0x746f7263682e6364697374) /- torch.functional.cdist -> torch.cdist -/,
  (0x746f7263682e66756e6374696f6e616c2e6973746674, 0x746f7263682e6973746674) /- torch.functional.istft -> torch.istft -/,
  (0x746f7263682e54656e736f722e6e6f745f657175616c5f, 0x746f7263682e54656e736f722e6e655f) /- torch.Tensor.not_equal_ -> torch.Tensor.ne_ -/,
  (0x746f7263682e636f73696e655f73696d696c6172697479, 0x746f7263682e6e6e2e66756e6374696f6e616c2e636f73696e655f73696d696c6172697479) /- torch.cosine_similarity -> torch.nn.functional.cosine_similarity -/,
  (0x746f7263682e66756e6374696f6e616c2e756e69717565, 0x746f7263682e756e69717565) /- torch.functional.unique -> torch.unique -/,
  (0x746f7263682e6e6e2e6d6f64756c65732e4c696e656172, 0x746f7263682e6e6e2e4c696e656172) /- torch.nn.modules.Linear -> torch.nn.Linear -/,
  (0x746f7263682e70616972776973655f64697374616e6365, 0x746f7263682e6e6e2e66756e6374696f6e616c2e70616972776973655f64697374616e6365) /- torch.pairwise_distance -> torch.nn.functional.pairwise_distance -/,
  (0x746f7263682e54656e736f722e6c6573735f657175616c5f, 0x746f7263682e54656e736f722e6c655f) /- torch.Tensor.less_equal_ -> torch.Tensor.le_ -/,
  (0x746f7263682e6e6e2e6d6f64756c65732e44726f706f7574, 0x746f7263682e6e6e2e44726f706f7574) /- torch.nn.modules.Dropout -> torch.nn.Dropout -/,
  (0x746f7263682e6e6e2e6d6f64756c65732e524e4e42617365, 0x746f7263682e6e6e2e524e4e42617365) /- torch.nn.modules.RNNBase -> torch.nn.RNNBase -/,
  (0x746f7263682e6e6e2e6d6f64756c65732e524e4e43656c6c, 0x746f7263682e6e6e2e524e4e43656c6c) /- torch.nn.modules.RNNCell -> torch.nn.RNNCell -/,
  (0x746f7263682e6e6e2e6d6f64756c65732e726e6e2e524e4e, 0x746f7263682e6e6e2e524e4e) /- torch.nn.modules.rnn.RNN -> torch.nn.RNN -/,
  (0x746f7263682e72616e646f6d2e6d616e75616c5f73656564, 0x746f7263682e6d616e75616c5f73656564) /- torch.random.manual_seed -> torch.manual_seed -/,
  (0x746f7263682e6e6e2e6d6f64756c65732e726e6e2e4c53544d, 0x746f7263682e6e6e2e4c53544d) /- torch.nn.modules.rnn.LSTM -> torch.nn.LSTM -/,
  (0x746f7263682e646973747269627574696f6e732e436175636879, 0x746f7263682e646973747269627574696f6e732e6361756368792e436175636879) /- torch.distributions.Cauchy -> torch.distributions.cauchy.Cauchy -/,
  (0x746f7263682e646973747269627574696f6e732e47756d62656c, 0x746f7263682e646973747269627574696f6e732e67756d62656c2e47756d62656c) /- torch.distributions.Gumbel -> torch.distributions.gumbel.Gumbel -/,
  (0x746f7263682e66756e6374696f6e616c2e74656e736f72646f74, 0x746f7263682e74656e736f72646f74) /- torch.functional.tensordot -> torch.tensordot -/,
  (0x746f7263682e6e6e2e6d6f64756c65732e417667506f6f6c3164, 0x746f7263682e6e6e2e417667506f6f6c3164) /- torch.nn.modules.AvgPool1d -> torch.nn.AvgPool1d -/,
  (0x746f7263682e6e6e2e6d6f64756c65732e417667506f6f6c3264, 0x746f7263682e6e6e2e417667506f6f6c3264) /- torch.nn.modules.AvgPool2d -> torch.nn.AvgPool2d -/,
  (0x746f7263682e6e6e2e6d6f64756c65732e417667506f6f6c3364, 0x746f7263682e6e6e2e417667506f6f6c3364) /- torch.nn.modules.AvgPool3d -> torch.nn.AvgPool3d -/,
  (0x746f7263682e6e6e2e6d6f64756c65732e47726f75704e6f726d, 0x746f7263682e6e6e2e47726f75704e6f726d) /- torch.nn.modules.GroupNorm -> torch.nn.GroupNorm -/,
  (0x746f7263682e54656e736f722e677265617465725f657175616c5f, 0x746f7263682e54656e736f722e67655f) /- torch.Tensor.greater_equal_ -> torch.Tensor.ge_ -/,
  (0x746f7263682e646973747269627574696f6e732e4c61706c616365, 0x746f7263682e646973747269627574696f6e732e6c61706c6163652e4c61706c616365) /- torch.distributions.Laplace -> torch.distributions.laplace.Laplace -/,
  (0x746f7263682e646973747269627574696f6e732e556e69666f726d, 0x746f7263682e646973747269627574696f6e732e756e69666f726d2e556e69666f726d) /- torch.distributions.Uniform -> torch.distributions.uniform.Uniform -/,
  (0x746f7263682e66756e6374696f6e616c2e626c6f636b5f64696167, 0x746f7263682e626c6f636b5f64696167) /- torch.functional.block_diag -> torch.block_diag -/,
  (0x746f7263682e646973747269627574696f6e732e42696e6f6d69616c, 0x746f7263682e646973747269627574696f6e732e62696e6f6d69616c2e42696e6f6d69616c) /- torch.distributions.Binomial -> torch.distributions.binomial.Binomial -/,
  (0x746f7263682e6e6e2e6d6f64756c65732e42617463684e6f726d3164, 0x746f7263682e6e6e2e42617463684e6f726d3164) /- torch.nn.modules.BatchNorm1d -> torch.nn.BatchNorm1d -/,
  (0x746f7263682e6e6e2e6d6f64756c65732e42617463684e6f726d3264, 0x746f7263682e6e6e2e42617463684e6f726d3264) /- torch.nn.modules.BatchNorm2d -> torch.nn.BatchNorm2d -/,
  (0x746f7263682e6e6e2e6d6f64756c65732e42617463684e6f726d3364, 0x746f7263682e6e6e2e42617463684e6f726d3364) /- torch.nn.modules.BatchNorm3d -> torch.nn.BatchNorm3d -/,
  (0x746f7263682e6e6e2e6d6f64756c65732e524e4e43656c6c42617365, 0x746f7263682e6e6e2e524e4e43656c6c42617365) /- torch.nn.modules.RNNCellBase -> torch.nn.RNNCellBase -/,
  (0x746f7263682e6e6e2e6d6f64756c65732e636f6e762e436f6e763264, 0x746f7263682e6e6e2e436f6e763264) /- torch.nn.modules.conv.Conv2d -> torch.nn.Conv2d -/,
  (0x746f7263682e6e6e2e6d6f64756c65732e726e6e2e524e4e42617365, 0x746f7263682e6e6e2e524e4e42617365) /- torch.nn.modules.rnn.RNNBase -> torch.nn.RNNBase -/,
  (0x746f7263682e6e6e2e6d6f64756c65732e726e6e2e524e4e43656c6c, 0x746f7263682e6e6e2e524e4e43656c6c) /- torch.nn.modules.rnn.RNNCell -> torch.nn.RNNCell -/,
  (0x746f7263682e646973747269627574696f6e732e4265726e6f756c6c69, 0x746f7263682e646973747269627574696f6e732e6265726e6f756c6c692e4265726e6f756c6c69) /- torch.distributions.Bernoulli -> torch.distributions.bernoulli.Bernoulli -/,
  (0x746f7263682e646973747269627574696f6e732e4469726963686c6574, 0x746f7263682e646973747269627574696f6e732e6469726963686c65742e4469726963686c6574) /- torch.distributions.Dirichlet -> torch.distributions.dirichlet.Dirichlet -/,
  (0x746f7263682e646973747269627574696f6e732e47656f6d6574726963, 0x746f7263682e646973747269627574696f6e732e67656f6d65747269632e47656f6d6574726963) /- torch.distributions.Geometric -> torch.distributions.geometric.Geometric -/,
  (0x746f7263682e646973747269627574696f6e732e4c6f674e6f726d616c, 0x746f7263682e646973747269627574696f6e732e6c6f675f6e6f726d616c2e4c6f674e6f726d616c) /- torch.distributions.LogNormal -> torch.distributions.log_normal.LogNormal -/,
  (0x746f7263682e646973747269627574696f6e732e5472616e73666f726d, 0x746f7263682e646973747269627574696f6e732e7472616e73666f726d732e5472616e73666f726d) /- torch.distributions.Transform -> torch.distributions.transforms.Transform -/,
  (0x746f7263682e6e6e2e7574696c732e636c69705f677261645f6e6f726d, 0x746f7263682e6e6e2e7574696c732e636c69705f677261645f6e6f726d5f) /- torch.nn.utils.clip_grad_norm -> torch.nn.utils.clip_grad_norm_ -/,
  (0x746f7263682e6e6e2e6d6f64756c65732e53796e6342617463684e6f726d, 0x746f7263682e6e6e2e53796e6342617463684e6f726d) /- torch.nn.modules.SyncBatchNorm -> torch.nn.SyncBatchNorm -/,
  (0x746f7263682e6e6e2e6d6f64756c65732e6c696e6561722e4c696e656172, 0x746f7263682e6e6e2e4c696e656172) /- torch.nn.modules.linear.Linear -> torch.nn.Linear -/,
  (0x746f7263682e6e6e2e706172616c6c656c2e44617461506172616c6c656c, 0x746f7263682e6e6e2e44617461506172616c6c656c) /- torch.nn.parallel.DataParallel -> torch.nn.DataParallel -/,
  (0x746f7263682e7574696c732e6d6f64656c5f7a6f6f2e6c6f61645f75726c, 0x746f7263682e6875622e6c6f61645f73746174655f646963745f66726f6d5f75726c) /- torch.utils.model_zoo.load_url -> torch.hub.load_state_dict_from_url -/,
  (0x746f7263682e646973747269627574696f6e732e4578706f6e656e7469616c, 0x746f7263682e646973747269627574696f6e732e6578706f6e656e7469616c2e4578706f6e656e7469616c) /- torch.distributions.Exponential -> torch.distributions.exponential.Exponential -/,
  (0x746f7263682e646973747269627574696f6e732e496e646570656e64656e74, 0x746f7263682e646973747269627574696f6e732e696e646570656e64656e742e496e646570656e64656e74) /- torch.distributions.Independent -> torch.distributions.independent.Independent -/,
  (0x746f7263682e646973747269627574696f6e732e4d756c74696e6f6d69616c, 0x746f7263682e646973747269627574696f6e732e6d756c74696e6f6d69616c2e4d756c74696e6f6d69616c) /- torch.distributions.Multinomial -> torch.distributions.multinomial.Multinomial -/,
  (0x746f7263682e66756e6374696f6e616c2e63617274657369616e5f70726f64, 0x746f7263682e63617274657369616e5f70726f64) /- torch.functional.cartesian_prod -> torch.cartesian_prod -/,
  (0x746f7263682e6e6e2e556e696e697469616c697a6564506172616d65746572, 0x746f7263682e6e6e2e706172616d657465722e556e696e697469616c697a6564506172616d65746572) /- torch.nn.UninitializedParameter -> torch.nn.parameter.UninitializedParameter -/,
  (0x74696d6d2e6d6f64656c732e6c61796572732e7472756e635f6e6f726d616c5f, 0x746f7263682e6e6e2e696e69742e7472756e635f6e6f726d616c5f) /- timm.models.layers.trunc_normal_ -> torch.nn.init.trunc_normal_ -/,
  (0x746f7263682e616d702e6175746f636173745f6d6f64652e6175746f63617374, 0x746f7263682e616d702e6175746f63617374) /- torch.amp.autocast_mode.autocast -> torch.amp.autocast -/,
  (0x746f7263682e6175746f677261642e66756e6374696f6e2e46756e6374696f6e, 0x746f7263682e6175746f677261642e46756e6374696f6e) /- torch.autograd.function.Function -> torch.autograd.Function -/,
  (0x746f7263682e646973747269627574696f6e732e4162735472616e73666f726d, 0x746f7263682e646973747269627574696f6e732e7472616e73666f726d732e4162735472616e73666f726d) /- torch.distributions.AbsTransform -> torch.distributions.transforms.AbsTransform -/,
  (0x746f7263682e646973747269627574696f6e732e4361745472616e73666f726d, 0x746f7263682e646973747269627574696f6e732e7472616e73666f726d732e4361745472616e73666f726d) /- torch.distributions.CatTransform -> torch.distributions.transforms.CatTransform -/,
  (0x746f7263682e646973747269627574696f6e732e4578705472616e73666f726d, 0x746f7263682e646973747269627574696f6e732e7472616e73666f726d732e4578705472616e73666f726d) /- torch.distributions.ExpTransform -> torch.distributions.transforms.ExpTransform -/,
  (0x746f7263682e6e6e2e6d6f64756c65732e61637469766174696f6e2e52654c55, 0x746f7263682e6e6e2e52654c55) /- torch.nn.modules.activation.ReLU -> torch.nn.ReLU -/,
  (0x746f7263682e6e6e2e6d6f64756c65732e726e6e2e524e4e43656c6c42617365, 0x746f7263682e6e6e2e524e4e43656c6c42617365) /- torch.nn.modules.rnn.RNNCellBase -> torch.nn.RNNCellBase -/,
  (0x746f7263682e646973747269627574696f6e732e54616e685472616e73666f726d, 0x746f7263682e646973747269627574696f6e732e7472616e73666f726d732e54616e685472616e73666f726d) /- torch.distributions.TanhTransform -> torch.distributions.transforms.TanhTransform -/,
  (0x746f7263682e6e6e2e6d6f64756c65732e436f73696e6553696d696c6172697479, 0x746f7263682e6e6e2e436f73696e6553696d696c6172697479) /- torch.nn.modules.CosineSimilarity -> torch.nn.CosineSimilarity -/,
  (0x746f7263682e6e6e2e6d6f64756c65732e7370617273652e456d62656464696e67, 0x746f7263682e6e6e2e456d62656464696e67) /- torch.nn.modules.sparse.Embedding -> torch.nn.Embedding -/,
  (0x746f7263682e646973747269627574696f6e732e506f7765725472616e73666f726d, 0x746f7263682e646973747269627574696f6e732e7472616e73666f726d732e506f7765725472616e73666f726d) /- torch.distributions.PowerTransform -> torch.distributions.transforms.PowerTransform -/,
  (0x746f7263682e646973747269627574696f6e732e537461636b5472616e73666f726d, 0x746f7263682e646973747269627574696f6e732e7472616e73666f726d732e537461636b5472616e73666f726d) /- torch.distributions.StackTransform -> torch.distributions.transforms.StackTransform -/,
  (0x746f7263682e66756e6374696f6e616c2e62726f6164636173745f74656e736f7273, 0x746f7263682e62726f6164636173745f74656e736f7273) /- torch.functional.broadcast_tensors -> torch.broadcast_tensors -/,
  (0x746f7263682e6e6e2e6d6f64756c65732e706f6f6c696e672e417667506f6f6c3164, 0x746f7263682e6e6e2e417667506f6f6c3164) /- torch.nn.modules.pooling.AvgPool1d -> torch.nn.AvgPool1d -/,
  (0x746f7263682e6e6e2e6d6f64756c65732e706f6f6c696e672e417667506f6f6c3264, 0x746f7263682e6e6e2e417667506f6f6c3264) /- torch.nn.modules.pooling.AvgPool2d -> torch.nn.AvgPool2d -/,
  (0x746f7263682e6e6e2e6d6f64756c65732e706f6f6c696e672e417667506f6f6c3364, 0x746f7263682e6e6e2e417667506f6f6c3364) /- torch.nn.modules.pooling.AvgPool3d -> torch.nn.AvgPool3d -/,
  (0x746f7263682e646973747269627574696f6e732e416666696e655472616e73666f726d, 0x746f7263682e646973747269627574696f6e732e7472616e73666f726d732e416666696e655472616e73666f726d) /- torch.distributions.AffineTransform -> torch.distributions.transforms.AffineTransform -/,
  (0x746f7263682e646973747269627574696f6e732e436f6d706f73655472616e73666f726d, 0x746f7263682e646973747269627574696f6e732e7472616e73666f726d732e436f6d706f73655472616e73666f726d) /- torch.distributions.ComposeTransform -> torch.distributions.transforms.ComposeTransform -/,
  (0x746f7263682e646973747269627574696f6e732e526573686170655472616e73666f726d, 0x746f7263682e646973747269627574696f6e732e7472616e73666f726d732e526573686170655472616e73666f726d) /- torch.distributions.ReshapeTransform -> torch.distributions.transforms.ReshapeTransform -/,
  (0x746f7263682e646973747269627574696f6e732e5369676d6f69645472616e73666f726d, 0x746f7263682e646973747269627574696f6e732e7472616e73666f726d732e5369676d6f69645472616e73666f726d) /- torch.distributions.SigmoidTransform -> torch.distributions.transforms.SigmoidTransform -/,
  (0x746f7263682e646973747269627574696f6e732e536f66746d61785472616e73666f726d, 0x746f7263682e646973747269627574696f6e732e7472616e73666f726d732e536f66746d61785472616e73666f726d) /- torch.distributions.SoftmaxTransform -> torch.distributions.transforms.SoftmaxTransform -/,
  (0x746f7263682e646973747269627574696f6e732e4f6e65486f7443617465676f726963616c, 0x746f7263682e646973747269627574696f6e732e6f6e655f686f745f63617465676f726963616c2e4f6e65486f7443617465676f726963616c) /- torch.distributions.OneHotCategorical -> torch.distributions.one_hot_categorical.OneHotCategorical -/,
  (0x746f7263682e646973747269627574696f6e732e536f6674706c75735472616e73666f726d, 0x746f7263682e646973747269627574696f6e732e7472616e73666f726d732e536f6674706c75735472616e73666f726d) /- torch.distributions.SoftplusTransform -> torch.distributions.transforms.SoftplusTransform -/,
  (0x7472616e73666f726d6572732e7574696c732e6c6f6767696e672e6765745f6c6f67676572, 0x7472616e73666f726d6572732e6c6f6767696e672e6765745f6c6f67676572) /- transformers.utils.logging.get_logger -> transformers.logging.get_logger -/,
  (0x746f7263682e6e6e2e6d6f64756c65732e62617463686e6f726d2e42617463684e6f726d3164, 0x746f7263682e6e6e2e42617463684e6f726d3164) /- torch.nn.modules.batchnorm.BatchNorm1d -> torch.nn.BatchNorm1d -/,
  (0x746f7263682e6e6e2e6d6f64756c65732e62617463686e6f726d2e42617463684e6f726d3264, 0x746f7263682e6e6e2e42617463684e6f726d3264) /- torch.nn.modules.batchnorm.BatchNorm2d -> torch.nn.BatchNorm2d -/,
  (0x746f7263682e6e6e2e6d6f64756c65732e62617463686e6f726d2e42617463684e6f726d3364, 0x746f7263682e6e6e2e42617463684e6f726d3364) /- torch.nn.modules.batchnorm.BatchNorm3d -> torch.nn.BatchNorm3d -/,
  (0x746f7263682e7574696c732e646174612e646174616c6f616465722e446174614c6f61646572, 0x746f7263682e7574696c732e646174612e446174614c6f61646572) /- torch.utils.data.dataloader.DataLoader -> torch.utils.data.DataLoader -/,
  (0x746f7263682e646973747269627574696f6e732e436f6e74696e756f75734265726e6f756c6c69, 0x746f7263682e646973747269627574696f6e732e636f6e74696e756f75735f6265726e6f756c6c692e436f6e74696e756f75734265726e6f756c6c69) /- torch.distributions.ContinuousBernoulli -> torch.distributions.continuous_bernoulli.ContinuousBernoulli -/,
  (0x746f726368766973696f6e2e6d6f64656c732e696e63657074696f6e2e496e63657074696f6e33, 0x746f726368766973696f6e2e6d6f64656c732e496e63657074696f6e33) /- torchvision.models.inception.Inception3 -> torchvision.models.Inception3 -/,
  (0x7472616e73666f726d6572732e67656e65726174696f6e2e4c6f6769747350726f636573736f72, 0x7472616e73666f726d6572732e4c6f6769747350726f636573736f72) /- transformers.generation.LogitsProcessor -> transformers.LogitsProcessor -/,
  (0x746f7263682e646973747269627574696f6e732e496e646570656e64656e745472616e73666f726d, 0x746f7263682e646973747269627574696f6e732e7472616e73666f726d732e496e646570656e64656e745472616e73666f726d) /- torch.distributions.IndependentTransform -> torch.distributions.transforms.IndependentTransform -/,
  (0x746f7263682e6e6e2e6d6f64756c65732e62617463686e6f726d2e53796e6342617463684e6f726d, 0x746f7263682e6e6e2e53796e6342617463684e6f726d) /- torch.nn.modules.batchnorm.SyncBatchNorm -> torch.nn.SyncBatchNorm -/,
  (0x7472616e73666f726d6572732e67656e65726174696f6e2e47656e65726174696f6e436f6e666967, 0x7472616e73666f726d6572732e47656e65726174696f6e436f6e666967) /- transformers.generation.GenerationConfig -> transformers.GenerationConfig -/,
  (0x746f7263682e646973747269627574696f6e732e537469636b427265616b696e675472616e73666f726d, 0x746f7263682e646973747269627574696f6e732e7472616e73666f726d732e537469636b427265616b696e675472616e73666f726d) /- torch.distributions.StickBreakingTransform -> torch.distributions.transforms.StickBreakingTransform -/,
  (0x746f7263682e6e6e2e6d6f64756c65732e64697374616e63652e436f73696e6553696d696c6172697479, 0x746f7263682e6e6e2e436f73696e6553696d696c6172697479) /- torch.nn.modules.distance.CosineSimilarity -> torch.nn.CosineSimilarity -/,
  (0x7472616e73666f726d6572732e746f6b656e697a6174696f6e5f7574696c732e4164646564546f6b656e, 0x7472616e73666f726d6572732e4164646564546f6b656e) /- transformers.tokenization_utils.AddedToken -> transformers.AddedToken -/,
  (0x746f7263682e646973747269627574696f6e732e5472616e73666f726d6564446973747269627574696f6e, 0x746f7263682e646973747269627574696f6e732e7472616e73666f726d65645f646973747269627574696f6e2e5472616e73666f726d6564446973747269627574696f6e) /- torch.distributions.TransformedDistribution -> torch.distributions.transformed_distribution.TransformedDistribution -/,
  (0x7472616e73666f726d6572732e67656e65726174696f6e2e4c6f6769747350726f636573736f724c697374, 0x7472616e73666f726d6572732e4c6f6769747350726f636573736f724c697374) /- transformers.generation.LogitsProcessorList -> transformers.LogitsProcessorList -/,
  (0x7472616e73666f726d6572732e6d6f64656c696e675f7574696c732e507265547261696e65644d6f64656c, 0x7472616e73666f726d6572732e507265547261696e65644d6f64656c) /- transformers.modeling_utils.PreTrainedModel -> transformers.PreTrainedModel -/,
  (0x746f7263682e7574696c732e646174612e73616d706c65722e53756273657452616e646f6d53616d706c6572, 0x746f7263682e7574696c732e646174612e53756273657452616e646f6d53616d706c6572) /- torch.utils.data.sampler.SubsetRandomSampler -> torch.utils.data.SubsetRandomSampler -/,
  (0x7472616e73666f726d6572732e67656e65726174696f6e2e53746f7070696e6743726974657269614c697374, 0x7472616e73666f726d6572732e53746f7070696e6743726974657269614c697374) /- transformers.generation.StoppingCriteriaList -> transformers.StoppingCriteriaList -/,
  (0x746f7263682e7574696c732e646174612e73616d706c65722e576569676874656452616e646f6d53616d706c6572, 0x746f7263682e7574696c732e646174612e576569676874656452616e646f6d53616d706c6572) /- torch.utils.data.sampler.WeightedRandomSampler -> torch.utils.data.WeightedRandomSampler -/,
  (0x7472616e73666f726d6572732e746f6b656e697a6174696f6e5f7574696c735f626173652e4164646564546f6b656e, 0x7472616e73666f726d6572732e4164646564546f6b656e) /- transformers.tokenization_utils_base.AddedToken -> transformers.AddedToken -/,
  (0x7472616e73666f726d6572732e636f6e66696775726174696f6e5f7574696c732e507265747261696e6564436f6e666967, 0x7472616e73666f726d6572732e507265747261696e6564436f6e666967) /- transformers.configuration_utils.PretrainedConfig -> transformers.PretrainedConfig -/,
  (0x746f7263682e646973747269627574696f6e732e43756d756c6174697665446973747269627574696f6e5472616e73666f726d, 0x746f7263682e646973747269627574696f6e732e7472616e73666f726d732e43756d756c6174697665446973747269627574696f6e5472616e73666f726d) /- torch.distributions.CumulativeDistributionTransform -> torch.distributions.transforms.CumulativeDistributionTransform -/,
  (0x7472616e73666f726d6572732e746f6b656e697a6174696f6e5f7574696c732e507265547261696e6564546f6b656e697a6572, 0x7472616e73666f726d6572732e507265547261696e6564546f6b656e697a6572) /- transformers.tokenization_utils.PreTrainedTokenizer -> transformers.PreTrainedTokenizer -/,
  (0x746f7263682e6e6e2e706172616c6c656c2e64697374726962757465642e446973747269627574656444617461506172616c6c656c, 0x746f7263682e6e6e2e706172616c6c656c2e446973747269627574656444617461506172616c6c656c) /- torch.nn.parallel.distributed.DistributedDataParallel -> torch.nn.parallel.DistributedDataParallel -/,
  (0x666c6173685f6174746e2e666c6173685f6174746e5f696e746572666163652e666c6173685f6174746e5f7661726c656e5f66756e63, 0x666c6173685f6174746e2e666c6173685f6174746e5f696e746572666163652e666c6173685f6174746e5f756e7061646465645f66756e63) /- flash_attn.flash_attn_interface.flash_attn_varlen_func -> flash_attn.flash_attn_interface.flash_attn_unpadded_func -/,
  (0x7472616e73666f726d6572732e67656e65726174696f6e2e6c6f676974735f70726f636573732e4c6f6769747350726f636573736f72, 0x7472616e73666f726d6572732e4c6f6769747350726f636573736f72) /- transformers.generation.logits_process.LogitsProcessor -> transformers.LogitsProcessor -/,
  (0x7472616e73666f726d6572732e67656e65726174696f6e2e6c6f676974735f70726f636573732e4c6f6769747350726f636573736f724c697374, 0x7472616e73666f726d6572732e4c6f6769747350726f636573736f724c697374) /- transformers.generation.logits_process.LogitsProcessorList -> transformers.LogitsProcessorList -/,
  (0x7472616e73666f726d6572732e67656e65726174696f6e2e636f6e66696775726174696f6e5f7574696c732e47656e65726174696f6e436f6e666967, 0x7472616e73666f726d6572732e47656e65726174696f6e436f6e666967) /- transformers.generation.configuration_utils.GenerationConfig -> transformers.GenerationConfig -/,
  (0x7472616e73666f726d6572732e67656e65726174696f6e2e73746f7070696e675f63726974657269612e53746f7070696e6743726974657269614c697374, 0x7472616e73666f726d6572732e53746f7070696e6743726974657269614c697374) /- transformers.generation.stopping_criteria.StoppingCriteriaList -> transformers.StoppingCriteriaList -/]

end Verif.Data

import Verif.Data.Raw

/-!
# The tables shipped with PaConvert

Generated by `tools/gen_tables.py` from `/repo/paconvert/api_mapping.json`. Do not edit.
-/

namespace Verif.Data

def apiTable0 : List Raw := [
  E 0x746f7263682e74 0x4368616e67655072656669784d617463686572 /- torch.t -/,
  E 0x746f7263682e6571 0x4368616e67655072656669784d617463686572 /- torch.eq -/,
  E 0x746f7263682e6765 0x4368616e67655072656669784d617463686572 /- torch.ge -/,
  E 0x746f7263682e6774 0x4368616e67655072656669784d617463686572 /- torch.gt -/,
  E 0x746f7263682e6930 0x4368616e67655072656669784d617463686572 /- torch.i0 -/,
  E 0x746f7263682e6c65 0x4368616e67655072656669784d617463686572 /- torch.le -/,
  E 0x746f7263682e6c74 0x4368616e67655072656669784d617463686572 /- torch.lt -/,
  F 0x746f7263682e6c75 0x4c754d617463686572 0x706164646c652e6c696e616c672e6c75 1 [0x41, 0x7069766f74, 0x6765745f696e666f73, 0x6f7574] [] [] [(0x41, false, [0x78])] [] /- torch.lu -/,
  E 0x746f7263682e6d6d 0x4368616e67655072656669784d617463686572 /- torch.mm -/,
  E 0x746f7263682e6d76 0x4368616e67655072656669784d617463686572 /- torch.mv -/,
  E 0x746f7263682e6e65 0x4368616e67655072656669784d617463686572 /- torch.ne -/,
  E 0x746f7263682e7172 0x4368616e67655072656669784d617463686572 /- torch.qr -/,
  E 0x746f7263682e616273 0x4368616e67655072656669784d617463686572 /- torch.abs -/,
  E 0x746f7263682e616464 0x4368616e67655072656669784d617463686572 /- torch.add -/,
  E 0x746f7263682e616c6c 0x4368616e67655072656669784d617463686572 /- torch.all -/,
  E 0x746f7263682e616e79 0x4368616e67655072656669784d617463686572 /- torch.any -/,
  E 0x746f7263682e626d6d 0x4368616e67655072656669784d617463686572 /- torch.bmm -/,
  E 0x746f7263682e636174 0x4368616e67655072656669784d617463686572 /- torch.cat -/,
  E 0x746f7263682e636f73 0x4368616e67655072656669784d617463686572 /- torch.cos -/,
  F 0x746f7263682e636f76 0x47656e657269634d617463686572 0x706164646c652e6c696e616c672e636f76 1 [0x696e707574, 0x2a, 0x636f7272656374696f6e, 0x6677656967687473, 0x6177656967687473] [] [] [(0x696e707574, false, [0x78]), (0x636f7272656374696f6e, false, [0x64646f66])] [] /- torch.cov -/,
  E 0x746f7263682e646574 0x4368616e67655072656669784d617463686572 /- torch.det -/,
  E 0x746f7263682e646976 0x4368616e67655072656669784d617463686572 /- torch.div -/,
  E 0x746f7263682e646f74 0x4368616e67655072656669784d617463686572 /- torch.dot -/,
  F 0x746f7263682e656967 0 0 0 [] [] [] [] [] /- torch.eig -/,
  E 0x746f7263682e657266 0x4368616e67655072656669784d617463686572 /- torch.erf -/,
  E 0x746f7263682e657870 0x4368616e67655072656669784d617463686572 /- torch.exp -/,
  E 0x746f7263682e657965 0x4368616e67655072656669784d617463686572 /- torch.eye -/,
  E 0x746f7263682e666978 0x4368616e67655072656669784d617463686572 /- torch.fix -/,
  E 0x746f7263682e676364 0x4368616e67655072656669784d617463686572 /- torch.gcd -/,
  E 0x746f7263682e676572 0x4368616e67655072656669784d617463686572 /- torch.ger -/,
  E 0x746f7263682e6c636d 0x4368616e67655072656669784d617463686572 /- torch.lcm -/,
  E 0x746f7263682e6c6f67 0x4368616e67655072656669784d617463686572 /- torch.log -/,
  P 0x746f7263682e6d6178 0x4368616e67654150494d617463686572 0x706164646c652e636f6d7061742e6d6178 /- torch.max -/,
  P 0x746f7263682e6d696e 0x4368616e67654150494d617463686572 0x706164646c652e636f6d7061742e6d696e /- torch.min -/,
  E 0x746f7263682e6d756c 0x4368616e67655072656669784d617463686572 /- torch.mul -/,
  E 0x746f7263682e6e6567 0x4368616e67655072656669784d617463686572 /- torch.neg -/,
  E 0x746f7263682e706f77 0x4368616e67655072656669784d617463686572 /- torch.pow -/,
  E 0x746f7263682e73676e 0x4368616e67655072656669784d617463686572 /- torch.sgn -/,
  E 0x746f7263682e73696e 0x4368616e67655072656669784d617463686572 /- torch.sin -/,
  E 0x746f7263682e737464 0x4368616e67655072656669784d617463686572 /- torch.std -/,
  E 0x746f7263682e737562 0x4368616e67655072656669784d617463686572 /- torch.sub -/,
  E 0x746f7263682e73756d 0x4368616e67655072656669784d617463686572 /- torch.sum -/,
  F 0x746f7263682e737664 0x5376644d617463686572 0x706164646c652e6c696e616c672e737664 0 [0x696e707574, 0x736f6d65, 0x636f6d707574655f7576, 0x2a, 0x6f7574] [] [0x636f6d707574655f7576] [(0x696e707574, false, [0x78])] [] /- torch.svd -/,
  E 0x746f7263682e74616e 0x4368616e67655072656669784d617463686572 /- torch.tan -/,
  E 0x746f7263682e766172 0x4368616e67655072656669784d617463686572 /- torch.var -/,
  E 0x746f7263682e53697a65 0x4368616e67655072656669784d617463686572 /- torch.Size -/,
  E 0x746f7263682e6162735f 0x4368616e67655072656669784d617463686572 /- torch.abs_ -/,
  E 0x746f7263682e61636f73 0x4368616e67655072656669784d617463686572 /- torch.acos -/,
  E 0x746f7263682e61646472 0x4368616e67655072656669784d617463686572 /- torch.addr -/,
  E 0x746f7263682e616d6178 0x4368616e67655072656669784d617463686572 /- torch.amax -/,
  E 0x746f7263682e616d696e 0x4368616e67655072656669784d617463686572 /- torch.amin -/,
  E 0x746f7263682e6173696e 0x4368616e67655072656669784d617463686572 /- torch.asin -/,
  E 0x746f7263682e6174616e 0x4368616e67655072656669784d617463686572 /- torch.atan -/,
  E 0x746f7263682e6365696c 0x4368616e67655072656669784d617463686572 /- torch.ceil -/,
  F 0x746f7263682e63656c75 0x47656e657269634d617463686572 0x706164646c652e6e6e2e66756e6374696f6e616c2e63656c75 1 [0x696e707574, 0x616c706861] [] [] [(0x696e707574, false, [0x78])] [] /- torch.celu -/,
  E 0x746f7263682e636c6970 0x4368616e67655072656669784d617463686572 /- torch.clip -/,
  E 0x746f7263682e636f6e6a 0x4368616e67655072656669784d617463686572 /- torch.conj -/,
  E 0x746f7263682e636f735f 0x4368616e67655072656669784d617463686572 /- torch.cos_ -/,
  E 0x746f7263682e636f7368 0x4368616e67655072656669784d617463686572 /- torch.cosh -/,
  E 0x746f7263682e64696167 0x4368616e67655072656669784d617463686572 /- torch.diag -/]

def apiTable1 : List Raw := [
  E 0x746f7263682e64696666 0x4368616e67655072656669784d617463686572 /- torch.diff -/,
  E 0x746f7263682e64697374 0x4368616e67655072656669784d617463686572 /- torch.dist -/,
  E 0x746f7263682e6578705f 0x4368616e67655072656669784d617463686572 /- torch.exp_ -/,
  E 0x746f7263682e666c6970 0x4368616e67655072656669784d617463686572 /- torch.flip -/,
  E 0x746f7263682e666d6178 0x4368616e67655072656669784d617463686572 /- torch.fmax -/,
  E 0x746f7263682e666d696e 0x4368616e67655072656669784d617463686572 /- torch.fmin -/,
  E 0x746f7263682e666d6f64 0x4368616e67655072656669784d617463686572 /- torch.fmod -/,
  E 0x746f7263682e66726163 0x4368616e67655072656669784d617463686572 /- torch.frac -/,
  E 0x746f7263682e66756c6c 0x4368616e67655072656669784d617463686572 /- torch.full -/,
  E 0x746f7263682e696d6167 0x4368616e67655072656669784d617463686572 /- torch.imag -/,
  E 0x746f7263682e6973696e 0x4368616e67655072656669784d617463686572 /- torch.isin -/,
  E 0x746f7263682e6b726f6e 0x4368616e67655072656669784d617463686572 /- torch.kron -/,
  E 0x746f7263682e6c657270 0x4368616e67655072656669784d617463686572 /- torch.lerp -/,
  E 0x746f7263682e6c657373 0x4368616e67655072656669784d617463686572 /- torch.less -/,
  F 0x746f7263682e6c6f6164 0x4c6f61644d617463686572 0x706164646c652e6c6f6164 1 [0x66, 0x6d61705f6c6f636174696f6e, 0x7069636b6c655f6d6f64756c65, 0x2a, 0x776569676874735f6f6e6c79, 0x6d6d6170, 0x2a2a7069636b6c655f6c6f61645f61726773] [] [0x6d6d6170] [(0x66, false, [0x70617468]), (0x6d61705f6c6f636174696f6e, false, [0]), (0x7069636b6c655f6d6f64756c65, false, [0]), (0x776569676874735f6f6e6c79, false, [0]), (0x7069636b6c655f6c6f61645f61726773, false, [0])] [] /- torch.load -/,
  E 0x746f7263682e6c6f6732 0x4368616e67655072656669784d617463686572 /- torch.log2 -/,
  E 0x746f7263682e6d65616e 0x4368616e67655072656669784d617463686572 /- torch.mean -/,
  E 0x746f7263682e6d6f6465 0x4368616e67655072656669784d617463686572 /- torch.mode -/,
  E 0x746f7263682e6e6f726d 0x4368616e67655072656669784d617463686572 /- torch.norm -/,
  E 0x746f7263682e6f6e6573 0x4368616e67655072656669784d617463686572 /- torch.ones -/,
  E 0x746f7263682e70726f64 0x4368616e67655072656669784d617463686572 /- torch.prod -/,
  E 0x746f7263682e72616e64 0x4368616e67655072656669784d617463686572 /- torch.rand -/,
  E 0x746f7263682e7265616c 0x4368616e67655072656669784d617463686572 /- torch.real -/,
  E 0x746f7263682e72656c75 0x4368616e67655072656669784d617463686572 /- torch.relu -/,
  E 0x746f7263682e726f6c6c 0x4368616e67655072656669784d617463686572 /- torch.roll -/,
  F 0x746f7263682e73617665 0x47656e657269634d617463686572 0x706164646c652e73617665 2 [0x6f626a, 0x66, 0x7069636b6c655f6d6f64756c65, 0x7069636b6c655f70726f746f636f6c, 0x5f7573655f6e65775f7a697066696c655f73657269616c697a6174696f6e] [] [] [(0x66, false, [0x70617468]), (0x7069636b6c655f6d6f64756c65, false, [0]), (0x7069636b6c655f70726f746f636f6c, false, [0x70726f746f636f6c]), (0x5f7573655f6e65775f7a697066696c655f73657269616c697a6174696f6e, false, [0])] [] /- torch.save -/,
  P 0x746f7263682e73656564 0x4368616e67654150494d617463686572 0x706164646c652e636f6d7061742e73656564 /- torch.seed -/,
  F 0x746f7263682e73656c75 0x47656e657269634d617463686572 0x706164646c652e6e6e2e66756e6374696f6e616c2e73656c75 1 [0x696e707574] [] [] [(0x696e707574, false, [0x78])] [] /- torch.selu -/,
  E 0x746f7263682e7369676e 0x4368616e67655072656669784d617463686572 /- torch.sign -/,
  E 0x746f7263682e73696e5f 0x4368616e67655072656669784d617463686572 /- torch.sin_ -/,
  E 0x746f7263682e73696e63 0x4368616e67655072656669784d617463686572 /- torch.sinc -/,
  E 0x746f7263682e73696e68 0x4368616e67655072656669784d617463686572 /- torch.sinh -/,
  P 0x746f7263682e736f7274 0x4368616e67654150494d617463686572 0x706164646c652e636f6d7061742e736f7274 /- torch.sort -/,
  E 0x746f7263682e73717274 0x4368616e67655072656669784d617463686572 /- torch.sqrt -/,
  F 0x746f7263682e73746674 0x537466744d617463686572 0x706164646c652e7369676e616c2e73746674 2 [0x696e707574, 0x6e5f666674, 0x686f705f6c656e677468, 0x77696e5f6c656e677468, 0x77696e646f77, 0x63656e746572, 0x7061645f6d6f6465, 0x6e6f726d616c697a6564, 0x6f6e657369646564, 0x72657475726e5f636f6d706c6578] [] [] [(0x696e707574, false, [0x78])] [] /- torch.stft -/,
  E 0x746f7263682e74616b65 0x4368616e67655072656669784d617463686572 /- torch.take -/,
  E 0x746f7263682e74616e5f 0x4368616e67655072656669784d617463686572 /- torch.tan_ -/,
  E 0x746f7263682e74616e68 0x4368616e67655072656669784d617463686572 /- torch.tanh -/,
  E 0x746f7263682e74696c65 0x4368616e67655072656669784d617463686572 /- torch.tile -/,
  E 0x746f7263682e746f706b 0x4368616e67655072656669784d617463686572 /- torch.topk -/,
  E 0x746f7263682e7472696c 0x4368616e67655072656669784d617463686572 /- torch.tril -/,
  E 0x746f7263682e74726975 0x4368616e67655072656669784d617463686572 /- torch.triu -/,
  F 0x746f7263682e76646f74 0x47656e657269634d617463686572 0x706164646c652e646f74 2 [0x696e707574, 0x6f74686572, 0x2a, 0x6f7574] [] [] [(0x696e707574, false, [0x78]), (0x6f74686572, false, [0x79])] [] /- torch.vdot -/,
  E 0x746f7263682e61636f735f 0x4368616e67655072656669784d617463686572 /- torch.acos_ -/,
  E 0x746f7263682e61636f7368 0x4368616e67655072656669784d617463686572 /- torch.acosh -/,
  E 0x746f7263682e6164646d6d 0x4368616e67655072656669784d617463686572 /- torch.addmm -/,
  E 0x746f7263682e6164646d76 0x4368616e67655072656669784d617463686572 /- torch.addmv -/,
  E 0x746f7263682e616e676c65 0x4368616e67655072656669784d617463686572 /- torch.angle -/,
  E 0x746f7263682e6173696e5f 0x4368616e67655072656669784d617463686572 /- torch.asin_ -/,
  E 0x746f7263682e6173696e68 0x4368616e67655072656669784d617463686572 /- torch.asinh -/,
  E 0x746f7263682e6174616e32 0x4368616e67655072656669784d617463686572 /- torch.atan2 -/,
  E 0x746f7263682e6174616e5f 0x4368616e67655072656669784d617463686572 /- torch.atan_ -/,
  E 0x746f7263682e6174616e68 0x4368616e67655072656669784d617463686572 /- torch.atanh -/,
  E 0x746f7263682e6364697374 0x4368616e67655072656669784d617463686572 /- torch.cdist -/,
  E 0x746f7263682e6365696c5f 0x4368616e67655072656669784d617463686572 /- torch.ceil_ -/,
  E 0x746f7263682e6368756e6b 0x4368616e67655072656669784d617463686572 /- torch.chunk -/,
  E 0x746f7263682e636c616d70 0x4368616e67655072656669784d617463686572 /- torch.clamp -/,
  E 0x746f7263682e636c6f6e65 0x4368616e67655072656669784d617463686572 /- torch.clone -/,
  E 0x746f7263682e636f73685f 0x4368616e67655072656669784d617463686572 /- torch.cosh_ -/,
  E 0x746f7263682e63726f7373 0x4368616e67655072656669784d617463686572 /- torch.cross -/]

def apiTable2 : List Raw := [
  E 0x746f7263682e656d707479 0x4368616e67655072656669784d617463686572 /- torch.empty -/,
  P 0x746f7263682e657175616c 0x4368616e67654150494d617463686572 0x706164646c652e636f6d7061742e657175616c /- torch.equal -/,
  E 0x746f7263682e6578706d31 0x4368616e67655072656669784d617463686572 /- torch.expm1 -/,
  E 0x746f7263682e66696e666f 0x4368616e67655072656669784d617463686572 /- torch.finfo -/,
  E 0x746f7263682e666c6f6f72 0x4368616e67655072656669784d617463686572 /- torch.floor -/,
  E 0x746f7263682e6672657870 0x4368616e67655072656669784d617463686572 /- torch.frexp -/,
  E 0x746f7263682e6869737463 0x4368616e67655072656669784d617463686572 /- torch.histc -/,
  E 0x746f7263682e6879706f74 0x4368616e67655072656669784d617463686572 /- torch.hypot -/,
  E 0x746f7263682e69696e666f 0x4368616e67655072656669784d617463686572 /- torch.iinfo -/,
  E 0x746f7263682e696e6e6572 0x4368616e67655072656669784d617463686572 /- torch.inner -/,
  E 0x746f7263682e6973696e66 0x4368616e67655072656669784d617463686572 /- torch.isinf -/,
  E 0x746f7263682e69736e616e 0x4368616e67655072656669784d617463686572 /- torch.isnan -/,
  F 0x746f7263682e6973746674 0x47656e657269634d617463686572 0x706164646c652e7369676e616c2e6973746674 2 [0x696e707574, 0x6e5f666674, 0x686f705f6c656e677468, 0x77696e5f6c656e677468, 0x77696e646f77, 0x63656e746572, 0x6e6f726d616c697a6564, 0x6f6e657369646564, 0x6c656e677468, 0x72657475726e5f636f6d706c6578] [] [] [(0x696e707574, false, [0x78])] [] /- torch.istft -/,
  E 0x746f7263682e6c64657870 0x4368616e67655072656669784d617463686572 /- torch.ldexp -/,
  E 0x746f7263682e6c6f673130 0x4368616e67655072656669784d617463686572 /- torch.log10 -/,
  E 0x746f7263682e6c6f673170 0x4368616e67655072656669784d617463686572 /- torch.log1p -/,
  E 0x746f7263682e6c6f676974 0x4368616e67655072656669784d617463686572 /- torch.logit -/,
  F 0x746f7263682e6c73747371 0 0 2 [] [] [] [] [] /- torch.lstsq -/,
  E 0x746f7263682e6d736f7274 0x4368616e67655072656669784d617463686572 /- torch.msort -/,
  F 0x746f7263682e6e756d656c 0x4e756d656c4d617463686572 0x706164646c652e54656e736f722e73697a65 1 [0x696e707574] [] [] [] [] /- torch.numel -/,
  F 0x746f7263682e6f726d7172 0x47656e657269634d617463686572 0x706164646c652e6c696e616c672e6f726d7172 3 [0x696e707574, 0x696e70757432, 0x696e70757433, 0x6c656674, 0x7472616e73706f7365, 0x2a, 0x6f7574] [] [] [(0x696e707574, false, [0x78]), (0x696e70757432, false, [0x746175]), (0x696e70757433, false, [0x79])] [] /- torch.ormqr -/,
  E 0x746f7263682e6f75746572 0x4368616e67655072656669784d617463686572 /- torch.outer -/,
  E 0x746f7263682e706f6c6172 0x4368616e67655072656669784d617463686572 /- torch.polar -/,
  E 0x746f7263682e72616e646e 0x4368616e67655072656669784d617463686572 /- torch.randn -/,
  E 0x746f7263682e72616e6765 0x4368616e67655072656669784d617463686572 /- torch.range -/,
  E 0x746f7263682e726176656c 0x4368616e67655072656669784d617463686572 /- torch.ravel -/,
  E 0x746f7263682e726f743930 0x4368616e67655072656669784d617463686572 /- torch.rot90 -/,
  E 0x746f7263682e726f756e64 0x4368616e67655072656669784d617463686572 /- torch.round -/,
  F 0x746f7263682e7272656c75 0x47656e657269634d617463686572 0x706164646c652e6e6e2e66756e6374696f6e616c2e7272656c75 1 [0x696e707574, 0x6c6f776572, 0x7570706572, 0x747261696e696e67] [] [] [(0x696e707574, false, [0x78])] [] /- torch.rrelu -/,
  E 0x746f7263682e7273717274 0x4368616e67655072656669784d617463686572 /- torch.rsqrt -/,
  E 0x746f7263682e73696e685f 0x4368616e67655072656669784d617463686572 /- torch.sinh_ -/,
  F 0x746f7263682e736f6c7665 0 0 2 [] [] [] [] [] /- torch.solve -/,
  P 0x746f7263682e73706c6974 0x4368616e67654150494d617463686572 0x706164646c652e636f6d7061742e73706c6974 /- torch.split -/,
  E 0x746f7263682e737172745f 0x4368616e67655072656669784d617463686572 /- torch.sqrt_ -/,
  E 0x746f7263682e737461636b 0x4368616e67655072656669784d617463686572 /- torch.stack -/,
  F 0x746f7263682e7472616365 0x47656e657269634d617463686572 0x706164646c652e7472616365 1 [0x696e707574] [] [] [(0x696e707574, false, [0x78])] [] /- torch.trace -/,
  E 0x746f7263682e7472756e63 0x4368616e67655072656669784d617463686572 /- torch.trunc -/,
  E 0x746f7263682e7768657265 0x4368616e67655072656669784d617463686572 /- torch.where -/,
  E 0x746f7263682e7a65726f73 0x4368616e67655072656669784d617463686572 /- torch.zeros -/,
  E 0x746f7263682e54656e736f72 0x4368616e67655072656669784d617463686572 /- torch.Tensor -/,
  E 0x746f7263682e61636f73685f 0x4368616e67655072656669784d617463686572 /- torch.acosh_ -/,
  F 0x746f7263682e616464626d6d 0x416464426d6d4d617463686572 0 3 [0x696e707574, 0x626174636831, 0x626174636832, 0x2a, 0x62657461, 0x616c706861, 0x6f7574] [] [] [] [] /- torch.addbmm -/,
  E 0x746f7263682e6172616e6765 0x4368616e67655072656669784d617463686572 /- torch.arange -/,
  E 0x746f7263682e6172676d6178 0x4368616e67655072656669784d617463686572 /- torch.argmax -/,
  E 0x746f7263682e6172676d696e 0x4368616e67655072656669784d617463686572 /- torch.argmin -/,
  E 0x746f7263682e6173696e685f 0x4368616e67655072656669784d617463686572 /- torch.asinh_ -/,
  E 0x746f7263682e6174616e685f 0x4368616e67655072656669784d617463686572 /- torch.atanh_ -/,
  E 0x746f7263682e636c616d705f 0x4368616e67655072656669784d617463686572 /- torch.clamp_ -/,
  E 0x746f7263682e636f6e636174 0x4368616e67655072656669784d617463686572 /- torch.concat -/,
  E 0x746f7263682e636f6e763164 0x4368616e67655072656669784d617463686572 /- torch.conv1d -/,
  E 0x746f7263682e636f6e763264 0x4368616e67655072656669784d617463686572 /- torch.conv2d -/,
  E 0x746f7263682e636f6e763364 0x4368616e67655072656669784d617463686572 /- torch.conv3d -/,
  E 0x746f7263682e63756d6d6178 0x4368616e67655072656669784d617463686572 /- torch.cummax -/,
  E 0x746f7263682e63756d6d696e 0x4368616e67655072656669784d617463686572 /- torch.cummin -/,
  E 0x746f7263682e63756d73756d 0x4368616e67655072656669784d617463686572 /- torch.cumsum -/,
  F 0x746f7263682e646574616368 0x4465746163684d617463686572 0 1 [0x696e707574] [] [] [] [] /- torch.detach -/,
  E 0x746f7263682e646576696365 0x4368616e67655072656669784d617463686572 /- torch.device -/,
  E 0x746f7263682e646976696465 0x4368616e67655072656669784d617463686572 /- torch.divide -/,
  F 0x746f7263682e6473706c6974 0x47656e657269634d617463686572 0x706164646c652e6473706c6974 0 [0x696e707574, 0x696e6469636573] [0x73656374696f6e73] [] [(0x696e707574, false, [0x78]), (0x696e6469636573, false, [0x6e756d5f6f725f696e6469636573]), (0x73656374696f6e73, false, [0x6e756d5f6f725f696e6469636573])] [] /- torch.dsplit -/,
  F 0x746f7263682e64737461636b 0x47656e657269634d617463686572 0x706164646c652e64737461636b 1 [0x74656e736f7273, 0x2a, 0x6f7574] [] [] [(0x74656e736f7273, false, [0x78])] [] /- torch.dstack -/]

def apiTable3 : List Raw := [
  E 0x746f7263682e65696e73756d 0x4368616e67655072656669784d617463686572 /- torch.einsum -/,
  E 0x746f7263682e6578706d315f 0x4368616e67655072656669784d617463686572 /- torch.expm1_ -/,
  F 0x746f7263682e666c69706c72 0x47656e657269634d617463686572 0x706164646c652e666c6970 1 [0x696e707574] [] [] [(0x696e707574, false, [0x78])] [(0x61786973, 0x31)] /- torch.fliplr -/,
  F 0x746f7263682e666c69707564 0x47656e657269634d617463686572 0x706164646c652e666c6970 1 [0x696e707574] [] [] [(0x696e707574, false, [0x78])] [(0x61786973, 0x30)] /- torch.flipud -/,
  E 0x746f7263682e666c6f6f725f 0x4368616e67655072656669784d617463686572 /- torch.floor_ -/,
  E 0x746f7263682e676174686572 0x4368616e67655072656669784d617463686572 /- torch.gather -/,
  F 0x746f7263682e6873706c6974 0x47656e657269634d617463686572 0x706164646c652e6873706c6974 0 [0x696e707574, 0x696e6469636573] [0x73656374696f6e73] [] [(0x696e707574, false, [0x78]), (0x696e6469636573, false, [0x6e756d5f6f725f696e6469636573]), (0x73656374696f6e73, false, [0x6e756d5f6f725f696e6469636573])] [] /- torch.hsplit -/,
  E 0x746f7263682e68737461636b 0x4368616e67655072656669784d617463686572 /- torch.hstack -/,
  E 0x746f7263682e69737265616c 0x4368616e67655072656669784d617463686572 /- torch.isreal -/,
  E 0x746f7263682e6b6c5f646976 0 /- torch.kl_div -/,
  F 0x746f7263682e6c67616d6d61 0x47656e657269634d617463686572 0x706164646c652e6c67616d6d61 1 [0x696e707574, 0x2a, 0x6f7574] [] [] [(0x696e707574, false, [0x78])] [] /- torch.lgamma -/,
  E 0x746f7263682e6c6f67646574 0x4368616e67655072656669784d617463686572 /- torch.logdet -/,
  E 0x746f7263682e6d61746d756c 0x4368616e67655072656669784d617463686572 /- torch.matmul -/,
  P 0x746f7263682e6d656469616e 0x4368616e67654150494d617463686572 0x706164646c652e636f6d7061742e6d656469616e /- torch.median -/,
  E 0x746f7263682e6e616e73756d 0x4368616e67655072656669784d617463686572 /- torch.nansum -/,
  E 0x746f7263682e6e6172726f77 0x4368616e67655072656669784d617463686572 /- torch.narrow -/,
  E 0x746f7263682e6e6e2e454c55 0x4368616e67655072656669784d617463686572 /- torch.nn.ELU -/,
  E 0x746f7263682e6e6e2e474c55 0x4368616e67655072656669784d617463686572 /- torch.nn.GLU -/,
  E 0x746f7263682e6e6e2e475255 0x4368616e67655072656669784d617463686572 /- torch.nn.GRU -/,
  F 0x746f7263682e6e6e2e524e4e 0x524e4e4d617463686572 0x706164646c652e6e6e2e53696d706c65524e4e 2 [0x696e7075745f73697a65, 0x68696464656e5f73697a65, 0x6e756d5f6c6179657273, 0x6e6f6e6c696e656172697479, 0x62696173, 0x62617463685f6669727374, 0x64726f706f7574, 0x6269646972656374696f6e616c, 0x646576696365, 0x6474797065] [] [] [(0x6e6f6e6c696e656172697479, false, [0x61637469766174696f6e]), (0x62696173, true, [0x626961735f69685f61747472, 0x626961735f68685f61747472]), (0x646576696365, false, [0]), (0x6474797065, false, [0])] [] /- torch.nn.RNN -/,
  E 0x746f7263682e6e6f726d616c 0x4368616e67655072656669784d617463686572 /- torch.normal -/,
  E 0x746f7263682e72656e6f726d 0x4368616e67655072656669784d617463686572 /- torch.renorm -/,
  E 0x746f7263682e72737172745f 0x4368616e67655072656669784d617463686572 /- torch.rsqrt_ -/,
  F 0x746f7263682e73656c656374 0x53656c6563744d617463686572 0 3 [0x696e707574, 0x64696d, 0x696e646578] [] [] [] [] /- torch.select -/,
  E 0x746f7263682e737175617265 0x4368616e67655072656669784d617463686572 /- torch.square -/,
  F 0x746f7263682e73796d656967 0x53796d6569674d617463686572 0x706164646c652e6c696e616c672e65696768 1 [0x696e707574, 0x656967656e766563746f7273, 0x7570706572, 0x2a, 0x6f7574] [] [] [(0x696e707574, false, [0x78]), (0x7570706572, false, [0x55504c4f])] [] /- torch.symeig -/,
  E 0x746f7263682e74656e736f72 0x4368616e67655072656669784d617463686572 /- torch.tensor -/,
  E 0x746f7263682e756e62696e64 0x4368616e67655072656669784d617463686572 /- torch.unbind -/,
  F 0x746f7263682e756e69717565 0x4368616e67654150494d617463686572 0x706164646c652e636f6d7061742e756e69717565 1 [0x696e707574, 0x736f72746564, 0x72657475726e5f696e7665727365, 0x72657475726e5f636f756e7473, 0x64696d] [] [] [] [] /- torch.unique -/,
  E 0x746f7263682e76616e646572 0x4368616e67655072656669784d617463686572 /- torch.vander -/,
  F 0x746f7263682e7673706c6974 0x47656e657269634d617463686572 0x706164646c652e7673706c6974 0 [0x696e707574, 0x696e6469636573] [0x73656374696f6e73] [] [(0x696e707574, false, [0x78]), (0x696e6469636573, false, [0x6e756d5f6f725f696e6469636573]), (0x73656374696f6e73, false, [0x6e756d5f6f725f696e6469636573])] [] /- torch.vsplit -/,
  E 0x746f7263682e76737461636b 0x4368616e67655072656669784d617463686572 /- torch.vstack -/,
  E 0x746f7263682e5f617373657274 0x4368616e67655072656669784d617463686572 /- torch._assert -/,
  F 0x746f7263682e61646463646976 0x416464434469764d617463686572 0 3 [0x696e707574, 0x74656e736f7231, 0x74656e736f7232, 0x2a, 0x76616c7565, 0x6f7574] [] [] [] [] /- torch.addcdiv -/,
  F 0x746f7263682e616464636d756c 0x416464434d756c4d617463686572 0 3 [0x696e707574, 0x74656e736f7231, 0x74656e736f7232, 0x2a, 0x76616c7565, 0x6f7574] [] [] [] [] /- torch.addcmul -/,
  F 0x746f7263682e61646a6f696e74 0x41646a6f696e744d617463686572 0 1 [0x696e707574] [] [] [] [] /- torch.adjoint -/,
  E 0x746f7263682e616d696e6d6178 0x4368616e67655072656669784d617463686572 /- torch.aminmax -/,
  E 0x746f7263682e617267736f7274 0x4368616e67655072656669784d617463686572 /- torch.argsort -/,
  E 0x746f7263682e61736172726179 0x4368616e67655072656669784d617463686572 /- torch.asarray -/,
  E 0x746f7263682e62616464626d6d 0x4368616e67655072656669784d617463686572 /- torch.baddbmm -/,
  E 0x746f7263682e636f6d706c6578 0x4368616e67655072656669784d617463686572 /- torch.complex -/,
  E 0x746f7263682e63756d70726f64 0x4368616e67655072656669784d617463686572 /- torch.cumprod -/,
  E 0x746f7263682e64656732726164 0x4368616e67655072656669784d617463686572 /- torch.deg2rad -/,
  F 0x746f7263682e64726f706f7574 0x47656e657269634d617463686572 0x706164646c652e6e6e2e66756e6374696f6e616c2e64726f706f7574 3 [0x696e707574, 0x70, 0x747261696e] [] [] [(0x696e707574, false, [0x78]), (0x747261696e, false, [0x747261696e696e67])] [] /- torch.dropout -/,
  E 0x746f7263682e6666742e666674 0x4368616e67655072656669784d617463686572 /- torch.fft.fft -/,
  E 0x746f7263682e666c617474656e 0x4368616e67655072656669784d617463686572 /- torch.flatten -/,
  E 0x746f7263682e67726561746572 0x4368616e67655072656669784d617463686572 /- torch.greater -/,
  E 0x746f7263682e696e7665727365 0x4368616e67655072656669784d617463686572 /- torch.inverse -/,
  E 0x746f7263682e6973636c6f7365 0x4368616e67655072656669784d617463686572 /- torch.isclose -/,
  E 0x746f7263682e6d6178696d756d 0x4368616e67655072656669784d617463686572 /- torch.maximum -/,
  E 0x746f7263682e6d696e696d756d 0x4368616e67655072656669784d617463686572 /- torch.minimum -/,
  E 0x746f7263682e6d6f766564696d 0x4368616e67655072656669784d617463686572 /- torch.movedim -/,
  E 0x746f7263682e6e616e6d65616e 0x4368616e67655072656669784d617463686572 /- torch.nanmean -/,
  F 0x746f7263682e6e6e2e43454c55 0x47656e657269634d617463686572 0x706164646c652e6e6e2e43454c55 0 [0x616c706861, 0x696e706c616365] [] [] [] [] /- torch.nn.CELU -/,
  E 0x746f7263682e6e6e2e466f6c64 0x4368616e67655072656669784d617463686572 /- torch.nn.Fold -/,
  E 0x746f7263682e6e6e2e47454c55 0x4368616e67655072656669784d617463686572 /- torch.nn.GELU -/,
  F 0x746f7263682e6e6e2e4c53544d 0x524e4e4d617463686572 0x706164646c652e6e6e2e4c53544d 2 [0x696e7075745f73697a65, 0x68696464656e5f73697a65, 0x6e756d5f6c6179657273, 0x62696173, 0x62617463685f6669727374, 0x64726f706f7574, 0x6269646972656374696f6e616c, 0x70726f6a5f73697a65, 0x646576696365, 0x6474797065] [] [] [(0x62696173, true, [0x626961735f69685f61747472, 0x626961735f68685f61747472]), (0x646576696365, false, [0]), (0x6474797065, false, [0])] [] /- torch.nn.LSTM -/,
  F 0x746f7263682e6e6e2e4d697368 0x47656e657269634d617463686572 0x706164646c652e6e6e2e4d697368 0 [0x696e706c616365] [] [] [] [] /- torch.nn.Mish -/,
  E 0x746f7263682e6e6e2e52654c55 0x4368616e67655072656669784d617463686572 /- torch.nn.ReLU -/,
  F 0x746f7263682e6e6e2e53454c55 0x47656e657269634d617463686572 0x706164646c652e6e6e2e53454c55 0 [0x696e706c616365] [] [] [] [] /- torch.nn.SELU -/]

def apiTable4 : List Raw := [
  E 0x746f7263682e6e6e2e53694c55 0x4368616e67655072656669784d617463686572 /- torch.nn.SiLU -/,
  E 0x746f7263682e6e6e2e54616e68 0x4368616e67655072656669784d617463686572 /- torch.nn.Tanh -/,
  E 0x746f7263682e6e6f5f67726164 0x4368616e67655072656669784d617463686572 /- torch.no_grad -/,
  E 0x746f7263682e6e6f6e7a65726f 0x4368616e67655072656669784d617463686572 /- torch.nonzero -/,
  E 0x746f7263682e7065726d757465 0x4368616e67655072656669784d617463686572 /- torch.permute -/,
  E 0x746f7263682e706f6973736f6e 0x4368616e67655072656669784d617463686572 /- torch.poisson -/,
  E 0x746f7263682e72616432646567 0x4368616e67655072656669784d617463686572 /- torch.rad2deg -/,
  E 0x746f7263682e72616e64696e74 0x4368616e67655072656669784d617463686572 /- torch.randint -/,
  E 0x746f7263682e72657368617065 0x4368616e67655072656669784d617463686572 /- torch.reshape -/,
  E 0x746f7263682e73636174746572 0x4368616e67655072656669784d617463686572 /- torch.scatter -/,
  E 0x746f7263682e7369676d6f6964 0x4368616e67655072656669784d617463686572 /- torch.sigmoid -/,
  E 0x746f7263682e7369676e626974 0x4368616e67655072656669784d617463686572 /- torch.signbit -/,
  F 0x746f7263682e736c6f67646574 0x534c6f674465744d617463686572 0x706164646c652e6c696e616c672e736c6f67646574 1 [0x696e707574, 0x2a, 0x6f7574] [] [] [] [] /- torch.slogdet -/,
  E 0x746f7263682e736f66746d6178 0x4368616e67655072656669784d617463686572 /- torch.softmax -/,
  E 0x746f7263682e7371756172655f 0x4368616e67655072656669784d617463686572 /- torch.square_ -/,
  E 0x746f7263682e73717565657a65 0x4368616e67655072656669784d617463686572 /- torch.squeeze -/,
  F 0x6f732e656e7669726f6e2e676574 0x4f73456e7669726f6e4765744d617463686572 0 0 [0x6b6579, 0x76616c7565] [] [] [] [] /- os.environ.get -/,
  E 0x746f7263682e54656e736f722e74 0x4368616e67655072656669784d617463686572 /- torch.Tensor.t -/,
  E 0x746f7263682e6162736f6c757465 0x4368616e67655072656669784d617463686572 /- torch.absolute -/,
  P 0x746f7263682e616c6c636c6f7365 0x4368616e67654150494d617463686572 0x706164646c652e636f6d7061742e616c6c636c6f7365 /- torch.allclose -/,
  E 0x746f7263682e6172677768657265 0x4368616e67655072656669784d617463686572 /- torch.argwhere -/,
  E 0x746f7263682e6175746f63617374 0x4368616e67655072656669784d617463686572 /- torch.autocast -/,
  E 0x746f7263682e62696e636f756e74 0x4368616e67655072656669784d617463686572 /- torch.bincount -/,
  F 0x746f7263682e63616e5f63617374 0x43616e436173744d617463686572 0 0 [0x66726f6d5f, 0x746f] [] [] [] [] /- torch.can_cast -/,
  F 0x746f7263682e63686f6c65736b79 0x47656e657269634d617463686572 0x706164646c652e6c696e616c672e63686f6c65736b79 1 [0x696e707574, 0x7570706572, 0x2a, 0x6f7574] [] [] [(0x696e707574, false, [0x78])] [] /- torch.cholesky -/,
  E 0x746f7263682e636f70797369676e 0x4368616e67655072656669784d617463686572 /- torch.copysign -/,
  F 0x746f7263682e636f7272636f6566 0x47656e657269634d617463686572 0x706164646c652e6c696e616c672e636f7272636f6566 1 [0x696e707574] [] [] [(0x696e707574, false, [0x78])] [(0x726f77766172, 0x54727565)] /- torch.corrcoef -/,
  E 0x746f7263682e6374635f6c6f7373 0 /- torch.ctc_loss -/,
  E 0x746f7263682e64696167666c6174 0x4368616e67655072656669784d617463686572 /- torch.diagflat -/,
  E 0x746f7263682e646961676f6e616c 0x4368616e67655072656669784d617463686572 /- torch.diagonal -/,
  E 0x746f7263682e6666742e66667432 0x4368616e67655072656669784d617463686572 /- torch.fft.fft2 -/,
  E 0x746f7263682e6666742e6666746e 0x4368616e67655072656669784d617463686572 /- torch.fft.fftn -/,
  E 0x746f7263682e6666742e68666674 0x4368616e67655072656669784d617463686572 /- torch.fft.hfft -/,
  E 0x746f7263682e6666742e69666674 0x4368616e67655072656669784d617463686572 /- torch.fft.ifft -/,
  E 0x746f7263682e6666742e72666674 0x4368616e67655072656669784d617463686572 /- torch.fft.rfft -/,
  F 0x746f7263682e6875622e68656c70 0x47656e657269634d617463686572 0x706164646c652e6875622e68656c70 2 [0x676974687562, 0x6d6f64656c, 0x666f7263655f72656c6f6164, 0x736b69705f76616c69646174696f6e, 0x74727573745f7265706f] [] [] [(0x676974687562, false, [0x7265706f5f646972]), (0x736b69705f76616c69646174696f6e, false, [0]), (0x74727573745f7265706f, false, [0])] [] /- torch.hub.help -/,
  F 0x746f7263682e6875622e6c697374 0x47656e657269634d617463686572 0x706164646c652e6875622e6c697374 1 [0x676974687562, 0x666f7263655f72656c6f6164, 0x736b69705f76616c69646174696f6e, 0x74727573745f7265706f] [] [] [(0x676974687562, false, [0x7265706f5f646972]), (0x736b69705f76616c69646174696f6e, false, [0]), (0x74727573745f7265706f, false, [0])] [] /- torch.hub.list -/,
  F 0x746f7263682e6875622e6c6f6164 0x4875624c6f61644d617463686572 0x706164646c652e6875622e6c6f6164 2 [] [] [] [] [] /- torch.hub.load -/,
  E 0x746f7263682e697366696e697465 0x4368616e67655072656669784d617463686572 /- torch.isfinite -/,
  E 0x746f7263682e69736e6567696e66 0x4368616e67655072656669784d617463686572 /- torch.isneginf -/,
  E 0x746f7263682e6973706f73696e66 0x4368616e67655072656669784d617463686572 /- torch.isposinf -/,
  F 0x746f7263682e6a69742e6c6f6164 0x47656e657269634d617463686572 0x706164646c652e6a69742e6c6f6164 0 [0x66, 0x6d61705f6c6f636174696f6e, 0x5f65787472615f66696c6573] [] [0x6d61705f6c6f636174696f6e, 0x5f65787472615f66696c6573] [(0x66, false, [0x70617468])] [] /- torch.jit.load -/,
  F 0x746f7263682e6a69742e73617665 0x4a6974536176654d617463686572 0x706164646c652e6a69742e73617665 1 [0x6d, 0x66, 0x5f65787472615f66696c6573] [] [0x5f65787472615f66696c6573] [(0x6d, false, [0x6c61796572]), (0x66, false, [0x70617468])] [] /- torch.jit.save -/,
  E 0x746f7263682e6b746876616c7565 0x4368616e67655072656669784d617463686572 /- torch.kthvalue -/,
  E 0x746f7263682e6c696e7370616365 0x4368616e67655072656669784d617463686572 /- torch.linspace -/,
  E 0x746f7263682e6c6f677370616365 0x4368616e67655072656669784d617463686572 /- torch.logspace -/,
  E 0x746f7263682e6c755f736f6c7665 0 /- torch.lu_solve -/,
  E 0x746f7263682e6d65736867726964 0x4368616e67655072656669784d617463686572 /- torch.meshgrid -/,
  E 0x746f7263682e6d6f766561786973 0x4368616e67655072656669784d617463686572 /- torch.moveaxis -/,
  E 0x746f7263682e6d756c7469706c79 0x4368616e67655072656669784d617463686572 /- torch.multiply -/,
  F 0x746f7263682e6d766c67616d6d61 0x47656e657269634d617463686572 0x706164646c652e6d756c746967616d6d616c6e 2 [0x696e707574, 0x70, 0x2a, 0x6f7574] [] [] [(0x696e707574, false, [0x78])] [] /- torch.mvlgamma -/,
  F 0x746f7263682e6e65676174697665 0x47656e657269634d617463686572 0x706164646c652e6e6567 1 [0x696e707574, 0x2a, 0x6f7574] [] [] [(0x696e707574, false, [0x78])] [] /- torch.negative -/,
  F 0x746f7263682e6e6e2e5052654c55 0x47656e657269634d617463686572 0x706164646c652e6e6e2e5052654c55 0 [0x6e756d5f706172616d6574657273, 0x696e6974, 0x646576696365, 0x6474797065] [] [] [(0x646576696365, false, [0]), (0x6474797065, false, [0])] [] /- torch.nn.PReLU -/,
  F 0x746f7263682e6e6e2e5252654c55 0x47656e657269634d617463686572 0x706164646c652e6e6e2e5252654c55 0 [0x6c6f776572, 0x7570706572, 0x696e706c616365] [] [] [] [] /- torch.nn.RReLU -/,
  E 0x746f7263682e6e6e2e52654c5536 0x4368616e67655072656669784d617463686572 /- torch.nn.ReLU6 -/,
  E 0x746f7263682e70696e7665727365 0x4368616e67655072656669784d617463686572 /- torch.pinverse -/,
  E 0x746f7263682e706f736974697665 0x4368616e67655072656669784d617463686572 /- torch.positive -/,
  E 0x746f7263682e7175616e74696c65 0x4368616e67655072656669784d617463686572 /- torch.quantile -/,
  E 0x746f7263682e72616e647065726d 0x4368616e67655072656669784d617463686572 /- torch.randperm -/,
  E 0x746f7263682e7369676d6f69645f 0x4368616e67655072656669784d617463686572 /- torch.sigmoid_ -/]

def apiTable5 : List Raw := [
  F 0x746f7263682e7374645f6d65616e 0x5374644d65616e4d617463686572 0 1 [0x696e707574, 0x64696d, 0x756e626961736564, 0x6b65657064696d, 0x2a, 0x636f7272656374696f6e] [] [] [] [] /- torch.std_mean -/,
  E 0x746f7263682e7375627472616374 0x4368616e67655072656669784d617463686572 /- torch.subtract -/,
  E 0x746f7263682e7377617061786573 0x4368616e67655072656669784d617463686572 /- torch.swapaxes -/,
  E 0x746f7263682e7377617064696d73 0x4368616e67655072656669784d617463686572 /- torch.swapdims -/,
  F 0x746f7263682e7661725f6d65616e 0x5661724d65616e4d617463686572 0 1 [0x696e707574, 0x64696d, 0x756e626961736564, 0x6b65657064696d, 0x2a, 0x636f7272656374696f6e] [] [] [] [] /- torch.var_mean -/,
  E 0x746f7263682e47656e657261746f72 0x4368616e67655072656669784d617463686572 /- torch.Generator -/,
  E 0x746f7263682e496e7454656e736f72 0x4368616e67655072656669784d617463686572 /- torch.IntTensor -/,
  E 0x746f7263682e54656e736f722e6571 0x4368616e67655072656669784d617463686572 /- torch.Tensor.eq -/,
  E 0x746f7263682e54656e736f722e6765 0x4368616e67655072656669784d617463686572 /- torch.Tensor.ge -/,
  E 0x746f7263682e54656e736f722e6774 0x4368616e67655072656669784d617463686572 /- torch.Tensor.gt -/,
  E 0x746f7263682e54656e736f722e6930 0x4368616e67655072656669784d617463686572 /- torch.Tensor.i0 -/,
  E 0x746f7263682e54656e736f722e6c65 0x4368616e67655072656669784d617463686572 /- torch.Tensor.le -/,
  E 0x746f7263682e54656e736f722e6c74 0x4368616e67655072656669784d617463686572 /- torch.Tensor.lt -/,
  E 0x746f7263682e54656e736f722e6c75 0x4368616e67655072656669784d617463686572 /- torch.Tensor.lu -/,
  E 0x746f7263682e54656e736f722e6d6d 0x4368616e67655072656669784d617463686572 /- torch.Tensor.mm -/,
  E 0x746f7263682e54656e736f722e6d76 0x4368616e67655072656669784d617463686572 /- torch.Tensor.mv -/,
  E 0x746f7263682e54656e736f722e6e65 0x4368616e67655072656669784d617463686572 /- torch.Tensor.ne -/,
  F 0x746f7263682e54656e736f722e7172 0x51724d617463686572 0x706164646c652e54656e736f722e7172 0 [0x736f6d65] [] [] [] [] /- torch.Tensor.qr -/,
  E 0x746f7263682e54656e736f722e745f 0x4368616e67655072656669784d617463686572 /- torch.Tensor.t_ -/,
  E 0x746f7263682e54656e736f722e746f 0x4368616e67655072656669784d617463686572 /- torch.Tensor.to -/,
  E 0x746f7263682e61735f74656e736f72 0x4368616e67655072656669784d617463686572 /- torch.as_tensor -/,
  E 0x746f7263682e6265726e6f756c6c69 0x4368616e67655072656669784d617463686572 /- torch.bernoulli -/,
  E 0x746f7263682e6275636b6574697a65 0x4368616e67655072656669784d617463686572 /- torch.bucketize -/,
  E 0x746f7263682e636c616d705f6d6178 0x4368616e67655072656669784d617463686572 /- torch.clamp_max -/,
  F 0x746f7263682e636c616d705f6d696e 0x47656e657269634d617463686572 0x706164646c652e636c6970 2 [0x696e707574, 0x6d696e, 0x2a, 0x6f7574] [] [] [(0x696e707574, false, [0x78])] [] /- torch.clamp_min -/,
  E 0x746f7263682e656d62656464696e67 0 /- torch.embedding -/,
  E 0x746f7263682e6666742e6866667432 0x4368616e67655072656669784d617463686572 /- torch.fft.hfft2 -/,
  E 0x746f7263682e6666742e686666746e 0x4368616e67655072656669784d617463686572 /- torch.fft.hfftn -/,
  E 0x746f7263682e6666742e6966667432 0x4368616e67655072656669784d617463686572 /- torch.fft.ifft2 -/,
  E 0x746f7263682e6666742e696666746e 0x4368616e67655072656669784d617463686572 /- torch.fft.ifftn -/,
  E 0x746f7263682e6666742e6968666674 0x4368616e67655072656669784d617463686572 /- torch.fft.ihfft -/,
  E 0x746f7263682e6666742e6972666674 0x4368616e67655072656669784d617463686572 /- torch.fft.irfft -/,
  E 0x746f7263682e6666742e7266667432 0x4368616e67655072656669784d617463686572 /- torch.fft.rfft2 -/,
  E 0x746f7263682e6666742e726666746e 0x4368616e67655072656669784d617463686572 /- torch.fft.rfftn -/,
  E 0x746f7263682e66756c6c5f6c696b65 0x4368616e67655072656669784d617463686572 /- torch.full_like -/,
  E 0x746f7263682e686561766973696465 0x4368616e67655072656669784d617463686572 /- torch.heaviside -/,
  F 0x746f7263682e686973746f6772616d 0x486973746f6772616d4d617463686572 0x706164646c652e686973746f6772616d 2 [0x696e707574, 0x62696e73, 0x2a, 0x72616e6765, 0x776569676874, 0x64656e73697479, 0x6f7574] [] [] [(0x72616e6765, true, [0x6d696e, 0x6d6178])] [] /- torch.histogram -/,
  E 0x746f7263682e696e6465785f616464 0x4368616e67655072656669784d617463686572 /- torch.index_add -/,
  E 0x746f7263682e696e6465785f707574 0x4368616e67655072656669784d617463686572 /- torch.index_put -/,
  E 0x746f7263682e69735f74656e736f72 0x4368616e67655072656669784d617463686572 /- torch.is_tensor -/,
  F 0x746f7263682e6c696e616c672e6c75 0x4c696e616c674c754d617463686572 0x706164646c652e6c696e616c672e6c75 1 [0x41, 0x2a, 0x7069766f74, 0x6f7574] [] [] [(0x41, false, [0x78])] [] /- torch.linalg.lu -/,
  E 0x746f7263682e6c696e616c672e7172 0x4368616e67655072656669784d617463686572 /- torch.linalg.qr -/,
  E 0x746f7263682e6c6f67616464657870 0x4368616e67655072656669784d617463686572 /- torch.logaddexp -/,
  E 0x746f7263682e6c6f6773756d657870 0x4368616e67655072656669784d617463686572 /- torch.logsumexp -/,
  F 0x746f7263682e6c755f756e7061636b 0x4c755f756e7061636b4d617463686572 0x706164646c652e6c696e616c672e6c755f756e7061636b 2 [0x4c555f64617461, 0x4c555f7069766f7473, 0x756e7061636b5f64617461, 0x756e7061636b5f7069766f7473, 0x2a, 0x6f7574] [] [] [(0x4c555f64617461, false, [0x78]), (0x4c555f7069766f7473, false, [0x79]), (0x756e7061636b5f64617461, false, [0x756e7061636b5f6c7564617461])] [] /- torch.lu_unpack -/,
  P 0x746f7263682e6e616e6d656469616e 0x4368616e67654150494d617463686572 0x706164646c652e636f6d7061742e6e616e6d656469616e /- torch.nanmedian -/,
  E 0x746f7263682e6e6578746166746572 0x4368616e67655072656669784d617463686572 /- torch.nextafter -/,
  E 0x746f7263682e6e6e2e436f6e763164 0x4368616e67655072656669784d617463686572 /- torch.nn.Conv1d -/,
  E 0x746f7263682e6e6e2e436f6e763264 0x4368616e67655072656669784d617463686572 /- torch.nn.Conv2d -/,
  E 0x746f7263682e6e6e2e436f6e763364 0x4368616e67655072656669784d617463686572 /- torch.nn.Conv3d -/,
  E 0x746f7263682e6e6e2e4c314c6f7373 0x4368616e67655072656669784d617463686572 /- torch.nn.L1Loss -/,
  P 0x746f7263682e6e6e2e4c696e656172 0x4368616e67654150494d617463686572 0x706164646c652e636f6d7061742e6e6e2e4c696e656172 /- torch.nn.Linear -/,
  E 0x746f7263682e6e6e2e4d6f64756c65 0x4368616e67655072656669784d617463686572 /- torch.nn.Module -/,
  P 0x746f7263682e6e6e2e556e666f6c64 0x4368616e67654150494d617463686572 0x706164646c652e636f6d7061742e6e6e2e556e666f6c64 /- torch.nn.Unfold -/,
  E 0x746f7263682e6e6f745f657175616c 0x4368616e67655072656669784d617463686572 /- torch.not_equal -/,
  E 0x746f7263682e6f6e65735f6c696b65 0x4368616e67655072656669784d617463686572 /- torch.ones_like -/,
  E 0x746f7263682e6f7074696d2e534744 0x4368616e67655072656669784d617463686572 /- torch.optim.SGD -/,
  E 0x746f7263682e72616e645f6c696b65 0x4368616e67655072656669784d617463686572 /- torch.rand_like -/,
  E 0x746f7263682e72656d61696e646572 0x4368616e67655072656669784d617463686572 /- torch.remainder -/,
  F 0x746f7263682e726f775f737461636b 0x47656e657269634d617463686572 0x706164646c652e726f775f737461636b 1 [0x74656e736f7273, 0x2a, 0x6f7574] [] [] [(0x74656e736f7273, false, [0x78])] [] /- torch.row_stack -/]

def apiTable6 : List Raw := [
  F 0x746f7263682e7370617273652e6d6d 0x47656e657269634d617463686572 0x706164646c652e7370617273652e6d61746d756c 2 [0x737061727365, 0x64656e7365] [] [] [(0x737061727365, false, [0x78]), (0x64656e7365, false, [0x79])] [] /- torch.sparse.mm -/,
  E 0x746f7263682e74656e736f72646f74 0x4368616e67655072656669784d617463686572 /- torch.tensordot -/,
  E 0x746f7263682e7472616e73706f7365 0x4368616e67655072656669784d617463686572 /- torch.transpose -/,
  E 0x746f7263682e74726170657a6f6964 0x4368616e67655072656669784d617463686572 /- torch.trapezoid -/,
  E 0x746f7263682e756e666c617474656e 0x4368616e67655072656669784d617463686572 /- torch.unflatten -/,
  E 0x746f7263682e756e73717565657a65 0x4368616e67655072656669784d617463686572 /- torch.unsqueeze -/,
  F 0x7365747570746f6f6c732e7365747570 0x53657455704d617463686572 0 0 [0x6e616d65, 0x76657273696f6e, 0x617574686f72, 0x75726c, 0x6465736372697074696f6e, 0x7061636b61676573, 0x6578745f6d6f64756c6573, 0x636d64636c617373, 0x696e7374616c6c5f7265717569726573, 0x656e7472795f706f696e7473] [] [] [] [] /- setuptools.setup -/,
  E 0x746f7263682e426f6f6c54656e736f72 0x4368616e67655072656669784d617463686572 /- torch.BoolTensor -/,
  E 0x746f7263682e4279746554656e736f72 0x4368616e67655072656669784d617463686572 /- torch.ByteTensor -/,
  E 0x746f7263682e4368617254656e736f72 0x4368616e67655072656669784d617463686572 /- torch.CharTensor -/,
  E 0x746f7263682e48616c6654656e736f72 0x4368616e67655072656669784d617463686572 /- torch.HalfTensor -/,
  E 0x746f7263682e4c6f6e6754656e736f72 0x4368616e67655072656669784d617463686572 /- torch.LongTensor -/,
  E 0x746f7263682e54656e736f722e616273 0x4368616e67655072656669784d617463686572 /- torch.Tensor.abs -/,
  E 0x746f7263682e54656e736f722e616464 0x4368616e67655072656669784d617463686572 /- torch.Tensor.add -/,
  E 0x746f7263682e54656e736f722e616c6c 0x4368616e67655072656669784d617463686572 /- torch.Tensor.all -/,
  E 0x746f7263682e54656e736f722e616e79 0x4368616e67655072656669784d617463686572 /- torch.Tensor.any -/,
  E 0x746f7263682e54656e736f722e626d6d 0x4368616e67655072656669784d617463686572 /- torch.Tensor.bmm -/,
  E 0x746f7263682e54656e736f722e636f73 0x4368616e67655072656669784d617463686572 /- torch.Tensor.cos -/,
  F 0x746f7263682e54656e736f722e636f76 0x47656e657269634d617463686572 0x706164646c652e54656e736f722e636f76 0 [0x2a, 0x636f7272656374696f6e, 0x6677656967687473, 0x6177656967687473] [] [] [(0x636f7272656374696f6e, false, [0x64646f66])] [] /- torch.Tensor.cov -/,
  E 0x746f7263682e54656e736f722e637075 0x4368616e67655072656669784d617463686572 /- torch.Tensor.cpu -/,
  E 0x746f7263682e54656e736f722e646574 0x4368616e67655072656669784d617463686572 /- torch.Tensor.det -/,
  E 0x746f7263682e54656e736f722e64696d 0x4368616e67655072656669784d617463686572 /- torch.Tensor.dim -/,
  E 0x746f7263682e54656e736f722e646976 0x4368616e67655072656669784d617463686572 /- torch.Tensor.div -/,
  E 0x746f7263682e54656e736f722e646f74 0x4368616e67655072656669784d617463686572 /- torch.Tensor.dot -/,
  F 0x746f7263682e54656e736f722e656967 0 0 0 [] [] [] [] [] /- torch.Tensor.eig -/,
  F 0x746f7263682e54656e736f722e65715f 0x54656e736f72496e706c61636552657365727665547970654d617463686572 0x706164646c652e54656e736f722e657175616c5f 1 [0x6f74686572] [] [] [(0x6f74686572, false, [0x79])] [] /- torch.Tensor.eq_ -/,
  E 0x746f7263682e54656e736f722e657266 0x4368616e67655072656669784d617463686572 /- torch.Tensor.erf -/,
  E 0x746f7263682e54656e736f722e657870 0x4368616e67655072656669784d617463686572 /- torch.Tensor.exp -/,
  F 0x746f7263682e54656e736f722e666978 0x4368616e67654150494d617463686572 0x706164646c652e54656e736f722e7472756e63 0 [] [] [] [] [] /- torch.Tensor.fix -/,
  E 0x746f7263682e54656e736f722e676364 0x4368616e67655072656669784d617463686572 /- torch.Tensor.gcd -/,
  F 0x746f7263682e54656e736f722e67655f 0x54656e736f72496e706c61636552657365727665547970654d617463686572 0x706164646c652e54656e736f722e677265617465725f657175616c5f 1 [0x6f74686572] [] [] [(0x6f74686572, false, [0x79])] [] /- torch.Tensor.ge_ -/,
  F 0x746f7263682e54656e736f722e676572 0x47656e657269634d617463686572 0x706164646c652e54656e736f722e6f75746572 1 [0x76656332] [] [] [(0x76656332, false, [0x79])] [] /- torch.Tensor.ger -/,
  F 0x746f7263682e54656e736f722e67745f 0x54656e736f72496e706c61636552657365727665547970654d617463686572 0x706164646c652e54656e736f722e677265617465725f7468616e5f 1 [0x6f74686572] [] [] [(0x6f74686572, false, [0x79])] [] /- torch.Tensor.gt_ -/,
  E 0x746f7263682e54656e736f722e69305f 0x4368616e67655072656669784d617463686572 /- torch.Tensor.i0_ -/,
  E 0x746f7263682e54656e736f722e696e74 0x4368616e67655072656669784d617463686572 /- torch.Tensor.int -/,
  E 0x746f7263682e54656e736f722e6c636d 0x4368616e67655072656669784d617463686572 /- torch.Tensor.lcm -/,
  F 0x746f7263682e54656e736f722e6c655f 0x54656e736f72496e706c61636552657365727665547970654d617463686572 0x706164646c652e54656e736f722e6c6573735f657175616c5f 1 [0x6f74686572] [] [] [(0x6f74686572, false, [0x79])] [] /- torch.Tensor.le_ -/,
  E 0x746f7263682e54656e736f722e6c6f67 0x4368616e67655072656669784d617463686572 /- torch.Tensor.log -/,
  F 0x746f7263682e54656e736f722e6c745f 0x54656e736f72496e706c61636552657365727665547970654d617463686572 0x706164646c652e54656e736f722e6c6573735f7468616e5f 1 [0x6f74686572] [] [] [(0x6f74686572, false, [0x79])] [] /- torch.Tensor.lt_ -/,
  F 0x746f7263682e54656e736f722e6d6178 0x54656e736f724d61784d617463686572 0x706164646c652e54656e736f722e6d6178 0 [0x64696d, 0x6b65657064696d, 0x6f74686572] [] [] [(0x64696d, false, [0x61786973]), (0x6f74686572, false, [0x79])] [] /- torch.Tensor.max -/,
  F 0x746f7263682e54656e736f722e6d696e 0x54656e736f724d696e4d617463686572 0x706164646c652e54656e736f722e6d696e 0 [0x64696d, 0x6b65657064696d, 0x6f74686572] [] [] [(0x64696d, false, [0x61786973]), (0x6f74686572, false, [0x79])] [] /- torch.Tensor.min -/,
  E 0x746f7263682e54656e736f722e6d756c 0x4368616e67655072656669784d617463686572 /- torch.Tensor.mul -/,
  F 0x746f7263682e54656e736f722e6e655f 0x54656e736f72496e706c61636552657365727665547970654d617463686572 0x706164646c652e54656e736f722e6e6f745f657175616c5f 1 [0x6f74686572] [] [] [(0x6f74686572, false, [0x79])] [] /- torch.Tensor.ne_ -/,
  E 0x746f7263682e54656e736f722e6e6567 0x4368616e67655072656669784d617463686572 /- torch.Tensor.neg -/,
  E 0x746f7263682e54656e736f722e706f77 0x4368616e67655072656669784d617463686572 /- torch.Tensor.pow -/,
  E 0x746f7263682e54656e736f722e73676e 0x4368616e67655072656669784d617463686572 /- torch.Tensor.sgn -/,
  E 0x746f7263682e54656e736f722e73696e 0x4368616e67655072656669784d617463686572 /- torch.Tensor.sin -/,
  E 0x746f7263682e54656e736f722e736d6d 0 /- torch.Tensor.smm -/,
  E 0x746f7263682e54656e736f722e737464 0x4368616e67655072656669784d617463686572 /- torch.Tensor.std -/,
  E 0x746f7263682e54656e736f722e737562 0x4368616e67655072656669784d617463686572 /- torch.Tensor.sub -/,
  E 0x746f7263682e54656e736f722e73756d 0x4368616e67655072656669784d617463686572 /- torch.Tensor.sum -/,
  F 0x746f7263682e54656e736f722e737664 0x5376644d617463686572 0x706164646c652e6c696e616c672e737664 0 [0x736f6d65, 0x636f6d707574655f7576] [] [0x636f6d707574655f7576] [] [] /- torch.Tensor.svd -/,
  E 0x746f7263682e54656e736f722e74616e 0x4368616e67655072656669784d617463686572 /- torch.Tensor.tan -/,
  E 0x746f7263682e54656e736f722e766172 0x4368616e67655072656669784d617463686572 /- torch.Tensor.var -/,
  E 0x746f7263682e61735f73747269646564 0x4368616e67655072656669784d617463686572 /- torch.as_strided -/,
  E 0x746f7263682e61746c656173745f3164 0x4368616e67655072656669784d617463686572 /- torch.atleast_1d -/,
  E 0x746f7263682e61746c656173745f3264 0x4368616e67655072656669784d617463686572 /- torch.atleast_2d -/,
  E 0x746f7263682e61746c656173745f3364 0x4368616e67655072656669784d617463686572 /- torch.atleast_3d -/,
  E 0x746f7263682e62617463685f6e6f726d 0 /- torch.batch_norm -/,
  E 0x746f7263682e626974776973655f6f72 0x4368616e67655072656669784d617463686572 /- torch.bitwise_or -/]

def apiTable7 : List Raw := [
  E 0x746f7263682e626c6f636b5f64696167 0x4368616e67655072656669784d617463686572 /- torch.block_diag -/,
  E 0x746f7263682e637564612e4576656e74 0x4368616e67655072656669784d617463686572 /- torch.cuda.Event -/,
  E 0x746f7263682e646961675f656d626564 0x4368616e67655072656669784d617463686572 /- torch.diag_embed -/,
  E 0x746f7263682e656d7074795f6c696b65 0x4368616e67655072656669784d617463686572 /- torch.empty_like -/,
  E 0x746f7263682e6666742e696866667432 0x4368616e67655072656669784d617463686572 /- torch.fft.ihfft2 -/,
  E 0x746f7263682e6666742e69686666746e 0x4368616e67655072656669784d617463686572 /- torch.fft.ihfftn -/,
  E 0x746f7263682e6666742e697266667432 0x4368616e67655072656669784d617463686572 /- torch.fft.irfft2 -/,
  E 0x746f7263682e6666742e69726666746e 0x4368616e67655072656669784d617463686572 /- torch.fft.irfftn -/,
  E 0x746f7263682e66726f6d5f6e756d7079 0x4368616e67655072656669784d617463686572 /- torch.from_numpy -/,
  F 0x746f7263682e66726f6d627566666572 0x46726f6d4275666665724d617463686572 0 0 [0x627566666572, 0x2a, 0x6474797065, 0x636f756e74, 0x6f6666736574, 0x72657175697265735f67726164] [] [] [] [] /- torch.frombuffer -/,
  E 0x746f7263682e6765745f646576696365 0x4368616e67655072656669784d617463686572 /- torch.get_device -/,
  E 0x746f7263682e67726f75705f6e6f726d 0x4368616e67655072656669784d617463686572 /- torch.group_norm -/,
  F 0x746f7263682e696e6465785f636f7079 0x496e646578436f70794d617463686572 0 4 [0x696e707574, 0x64696d, 0x696e646578, 0x736f75726365, 0x2a, 0x6f7574] [] [] [] [] /- torch.index_copy -/,
  E 0x746f7263682e696e6465785f66696c6c 0x4368616e67655072656669784d617463686572 /- torch.index_fill -/,
  E 0x746f7263682e69735f636f6d706c6578 0x4368616e67655072656669784d617463686572 /- torch.is_complex -/,
  F 0x746f7263682e69735f6e6f6e7a65726f 0x49734e6f6e7a65726f4d617463686572 0 1 [0x696e707574] [] [] [] [] /- torch.is_nonzero -/,
  F 0x746f7263682e6a69742e69676e6f7265 0x47656e657269634d617463686572 0x706164646c652e6a69742e6e6f745f746f5f737461746963 0 [0x64726f70, 0x2a2a6b7761726773] [] [0x64726f70] [] [] /- torch.jit.ignore -/,
  F 0x746f7263682e6a69742e736372697074 0x47656e657269634d617463686572 0x706164646c652e6a69742e746f5f737461746963 0 [0x6f626a, 0x6f7074696d697a65, 0x5f6672616d65735f7570, 0x5f726362, 0x6578616d706c655f696e70757473] [] [] [(0x6f626a, false, [0x66756e6374696f6e]), (0x6f7074696d697a65, false, [0]), (0x5f6672616d65735f7570, false, [0]), (0x5f726362, false, [0]), (0x6578616d706c655f696e70757473, false, [0x696e7075745f73706563])] [] /- torch.jit.script -/,
  E 0x746f7263682e6c617965725f6e6f726d 0x4368616e67655072656669784d617463686572 /- torch.layer_norm -/,
  E 0x746f7263682e6c6573735f657175616c 0x4368616e67655072656669784d617463686572 /- torch.less_equal -/,
  E 0x746f7263682e6c696e616c672e646574 0x4368616e67655072656669784d617463686572 /- torch.linalg.det -/,
  F 0x746f7263682e6c696e616c672e656967 0x446f75626c6541737369676e4d617463686572 0x706164646c652e6c696e616c672e656967 1 [0x696e707574, 0x2a, 0x6f7574] [] [] [(0x696e707574, false, [0x78])] [] /- torch.linalg.eig -/,
  E 0x746f7263682e6c696e616c672e696e76 0x4368616e67655072656669784d617463686572 /- torch.linalg.inv -/,
  F 0x746f7263682e6c696e616c672e737664 0x547269706c6541737369676e4d617463686572 0x706164646c652e6c696e616c672e737664 1 [0x41, 0x66756c6c5f6d61747269636573, 0x2a, 0x647269766572, 0x6f7574] [] [] [(0x41, false, [0x78]), (0x647269766572, false, [0])] [(0x66756c6c5f6d61747269636573, 0x54727565)] /- torch.linalg.svd -/,
  F 0x746f7263682e6c6f6761646465787032 0x4c6f67416464457870324d617463686572 0 2 [0x696e707574, 0x6f74686572, 0x2a, 0x6f7574] [] [] [] [] /- torch.logaddexp2 -/,
  E 0x746f7263682e6c6f676963616c5f6f72 0x4368616e67655072656669784d617463686572 /- torch.logical_or -/,
  P 0x746f7263682e6d61785f706f6f6c3164 0x4368616e67654150494d617463686572 0x706164646c652e6e6e2e66756e6374696f6e616c2e6d61785f706f6f6c3164 /- torch.max_pool1d -/,
  P 0x746f7263682e6d61785f706f6f6c3264 0x4368616e67654150494d617463686572 0x706164646c652e6e6e2e66756e6374696f6e616c2e6d61785f706f6f6c3264 /- torch.max_pool2d -/,
  P 0x746f7263682e6d61785f706f6f6c3364 0x4368616e67654150494d617463686572 0x706164646c652e6e6e2e66756e6374696f6e616c2e6d61785f706f6f6c3364 /- torch.max_pool3d -/,
  E 0x746f7263682e6e616e5f746f5f6e756d 0x4368616e67655072656669784d617463686572 /- torch.nan_to_num -/,
  E 0x746f7263682e6e6e2e4243454c6f7373 0x4368616e67655072656669784d617463686572 /- torch.nn.BCELoss -/,
  E 0x746f7263682e6e6e2e44726f706f7574 0x4368616e67655072656669784d617463686572 /- torch.nn.Dropout -/,
  E 0x746f7263682e6e6e2e466c617474656e 0x4368616e67655072656669784d617463686572 /- torch.nn.Flatten -/,
  F 0x746f7263682e6e6e2e47525543656c6c 0x47525543656c6c4d617463686572 0x706164646c652e6e6e2e47525543656c6c 2 [0x696e7075745f73697a65, 0x68696464656e5f73697a65, 0x62696173, 0x646576696365, 0x6474797065] [] [] [(0x62696173, true, [0x626961735f69685f61747472, 0x626961735f68685f61747472]), (0x646576696365, false, [0]), (0x6474797065, false, [0])] [] /- torch.nn.GRUCell -/,
  E 0x746f7263682e6e6e2e4d53454c6f7373 0x4368616e67655072656669784d617463686572 /- torch.nn.MSELoss -/,
  E 0x746f7263682e6e6e2e4e4c4c4c6f7373 0x4368616e67655072656669784d617463686572 /- torch.nn.NLLLoss -/,
  F 0x746f7263682e6e6e2e524e4e42617365 0x524e4e426173654d617463686572 0x706164646c652e6e6e2e6c617965722e726e6e2e524e4e42617365 3 [0x6d6f6465, 0x696e7075745f73697a65, 0x68696464656e5f73697a65, 0x6e756d5f6c6179657273, 0x62696173, 0x62617463685f6669727374, 0x64726f706f7574, 0x6269646972656374696f6e616c, 0x70726f6a5f73697a65, 0x646576696365, 0x6474797065] [] [] [(0x62696173, true, [0x626961735f69685f61747472, 0x626961735f68685f61747472])] [] /- torch.nn.RNNBase -/,
  F 0x746f7263682e6e6e2e524e4e43656c6c 0x524e4e43656c6c4d617463686572 0x706164646c652e6e6e2e53696d706c65524e4e43656c6c 2 [0x696e7075745f73697a65, 0x68696464656e5f73697a65, 0x62696173, 0x6e6f6e6c696e656172697479, 0x646576696365, 0x6474797065] [] [] [(0x62696173, true, [0x626961735f69685f61747472, 0x626961735f68685f61747472]), (0x6e6f6e6c696e656172697479, false, [0x61637469766174696f6e]), (0x646576696365, false, [0]), (0x6474797065, false, [0])] [] /- torch.nn.RNNCell -/,
  E 0x746f7263682e6e6e2e5369676d6f6964 0x4368616e67655072656669784d617463686572 /- torch.nn.Sigmoid -/,
  P 0x746f7263682e6e6e2e536f66746d6178 0x4368616e67654150494d617463686572 0x706164646c652e636f6d7061742e6e6e2e536f66746d6178 /- torch.nn.Softmax -/,
  F 0x746f7263682e6e6e2e536f66746d696e 0x536f66746d696e4d617463686572 0x706164646c652e6e6e2e536f66746d6178 0 [0x64696d] [] [] [(0x64696d, false, [0x61786973])] [(0x61786973, 0x4e6f6e65)] /- torch.nn.Softmin -/,
  F 0x746f7263682e6f7074696d2e41534744 0x47656e657269634d617463686572 0x706164646c652e6f7074696d697a65722e41534744 1 [0x706172616d73, 0x6c72, 0x6c616d6264, 0x616c706861, 0x7430, 0x7765696768745f6465636179, 0x666f7265616368, 0x6d6178696d697a65, 0x646966666572656e746961626c65] [] [0x6d6178696d697a65] [(0x706172616d73, false, [0x706172616d6574657273]), (0x6c72, false, [0x6c6561726e696e675f72617465]), (0x6c616d6264, false, [0]), (0x616c706861, false, [0]), (0x7430, false, [0]), (0x666f7265616368, false, [0]), (0x646966666572656e746961626c65, false, [0])] [] /- torch.optim.ASGD -/,
  F 0x746f7263682e6f7074696d2e4164616d 0x4f7074696d4164616d4d617463686572 0x706164646c652e6f7074696d697a65722e4164616d 1 [0x706172616d73, 0x6c72, 0x6265746173, 0x657073, 0x7765696768745f6465636179, 0x616d7367726164, 0x2a, 0x666f7265616368, 0x6d6178696d697a65, 0x63617074757261626c65, 0x646966666572656e746961626c65, 0x6675736564, 0x6465636f75706c65645f7765696768745f6465636179] [] [0x616d7367726164, 0x666f7265616368, 0x6d6178696d697a65, 0x63617074757261626c65, 0x646966666572656e746961626c65, 0x6675736564, 0x6465636f75706c65645f7765696768745f6465636179] [(0x706172616d73, false, [0x706172616d6574657273]), (0x6c72, false, [0x6c6561726e696e675f72617465]), (0x657073, false, [0x657073696c6f6e])] [(0x7765696768745f6465636179, 0x302e30)] /- torch.optim.Adam -/,
  E 0x746f7263682e72616e646e5f6c696b65 0x4368616e67655072656669784d617463686572 /- torch.randn_like -/,
  E 0x746f7263682e7265636970726f63616c 0x4368616e67655072656669784d617463686572 /- torch.reciprocal -/,
  F 0x746f7263682e7370617273652e73756d 0x5265717569726544696d4d617463686572 0x706164646c652e7370617273652e73756d 1 [0x696e707574, 0x64696d, 0x6474797065] [] [0x6474797065] [(0x696e707574, false, [0x78]), (0x64696d, false, [0x61786973])] [] /- torch.sparse.sum -/,
  E 0x746f7263682e7370656369616c2e6930 0x4368616e67655072656669784d617463686572 /- torch.special.i0 -/,
  E 0x746f7263682e7370656369616c2e6931 0x4368616e67655072656669784d617463686572 /- torch.special.i1 -/,
  E 0x746f7263682e7a65726f735f6c696b65 0x4368616e67655072656669784d617463686572 /- torch.zeros_like -/,
  E 0x746f7263682e466c6f617454656e736f72 0x4368616e67655072656669784d617463686572 /- torch.FloatTensor -/,
  E 0x746f7263682e53686f727454656e736f72 0x4368616e67655072656669784d617463686572 /- torch.ShortTensor -/,
  E 0x746f7263682e54656e736f722e6162735f 0x4368616e67655072656669784d617463686572 /- torch.Tensor.abs_ -/,
  E 0x746f7263682e54656e736f722e61636f73 0x4368616e67655072656669784d617463686572 /- torch.Tensor.acos -/,
  E 0x746f7263682e54656e736f722e6164645f 0x4368616e67655072656669784d617463686572 /- torch.Tensor.add_ -/,
  F 0x746f7263682e54656e736f722e61646472 0x4164644d524d617463686572 0x706164646c652e6f75746572 2 [0x76656331, 0x76656332, 0x2a, 0x62657461, 0x616c706861] [] [] [] [] /- torch.Tensor.addr -/,
  E 0x746f7263682e54656e736f722e616d6178 0x4368616e67655072656669784d617463686572 /- torch.Tensor.amax -/,
  E 0x746f7263682e54656e736f722e616d696e 0x4368616e67655072656669784d617463686572 /- torch.Tensor.amin -/,
  E 0x746f7263682e54656e736f722e6173696e 0x4368616e67655072656669784d617463686572 /- torch.Tensor.asin -/,
  E 0x746f7263682e54656e736f722e6174616e 0x4368616e67655072656669784d617463686572 /- torch.Tensor.atan -/,
  E 0x746f7263682e54656e736f722e626f6f6c 0x4368616e67655072656669784d617463686572 /- torch.Tensor.bool -/]

def apiTable8 : List Raw := [
  E 0x746f7263682e54656e736f722e62797465 0x4368616e67655072656669784d617463686572 /- torch.Tensor.byte -/,
  E 0x746f7263682e54656e736f722e6365696c 0x4368616e67655072656669784d617463686572 /- torch.Tensor.ceil -/,
  E 0x746f7263682e54656e736f722e63686172 0x4368616e67655072656669784d617463686572 /- torch.Tensor.char -/,
  E 0x746f7263682e54656e736f722e636c6970 0x4368616e67655072656669784d617463686572 /- torch.Tensor.clip -/,
  E 0x746f7263682e54656e736f722e636f6e6a 0x4368616e67655072656669784d617463686572 /- torch.Tensor.conj -/,
  E 0x746f7263682e54656e736f722e636f735f 0x4368616e67655072656669784d617463686572 /- torch.Tensor.cos_ -/,
  E 0x746f7263682e54656e736f722e636f7368 0x4368616e67655072656669784d617463686572 /- torch.Tensor.cosh -/,
  E 0x746f7263682e54656e736f722e63756461 0x4368616e67655072656669784d617463686572 /- torch.Tensor.cuda -/,
  E 0x746f7263682e54656e736f722e64696167 0x4368616e67655072656669784d617463686572 /- torch.Tensor.diag -/,
  E 0x746f7263682e54656e736f722e64696666 0x4368616e67655072656669784d617463686572 /- torch.Tensor.diff -/,
  E 0x746f7263682e54656e736f722e64697374 0x4368616e67655072656669784d617463686572 /- torch.Tensor.dist -/,
  E 0x746f7263682e54656e736f722e6469765f 0x4368616e67655072656669784d617463686572 /- torch.Tensor.div_ -/,
  E 0x746f7263682e54656e736f722e6572665f 0x4368616e67655072656669784d617463686572 /- torch.Tensor.erf_ -/,
  F 0x746f7263682e54656e736f722e65726663 0x457266434d617463686572 0 0 [] [] [] [] [] /- torch.Tensor.erfc -/,
  E 0x746f7263682e54656e736f722e6578705f 0x4368616e67655072656669784d617463686572 /- torch.Tensor.exp_ -/,
  E 0x746f7263682e54656e736f722e6669785f 0x4368616e67655072656669784d617463686572 /- torch.Tensor.fix_ -/,
  E 0x746f7263682e54656e736f722e666c6970 0x4368616e67655072656669784d617463686572 /- torch.Tensor.flip -/,
  E 0x746f7263682e54656e736f722e666d6178 0x4368616e67655072656669784d617463686572 /- torch.Tensor.fmax -/,
  E 0x746f7263682e54656e736f722e666d696e 0x4368616e67655072656669784d617463686572 /- torch.Tensor.fmin -/,
  E 0x746f7263682e54656e736f722e666d6f64 0x4368616e67655072656669784d617463686572 /- torch.Tensor.fmod -/,
  E 0x746f7263682e54656e736f722e66726163 0x4368616e67655072656669784d617463686572 /- torch.Tensor.frac -/,
  E 0x746f7263682e54656e736f722e6763645f 0x4368616e67655072656669784d617463686572 /- torch.Tensor.gcd_ -/,
  E 0x746f7263682e54656e736f722e68616c66 0x4368616e67655072656669784d617463686572 /- torch.Tensor.half -/,
  E 0x746f7263682e54656e736f722e6974656d 0x4368616e67655072656669784d617463686572 /- torch.Tensor.item -/,
  E 0x746f7263682e54656e736f722e6b726f6e 0x4368616e67655072656669784d617463686572 /- torch.Tensor.kron -/,
  E 0x746f7263682e54656e736f722e6c636d5f 0x4368616e67655072656669784d617463686572 /- torch.Tensor.lcm_ -/,
  E 0x746f7263682e54656e736f722e6c657270 0x4368616e67655072656669784d617463686572 /- torch.Tensor.lerp -/,
  E 0x746f7263682e54656e736f722e6c657373 0x4368616e67655072656669784d617463686572 /- torch.Tensor.less -/,
  E 0x746f7263682e54656e736f722e6c6f6732 0x4368616e67655072656669784d617463686572 /- torch.Tensor.log2 -/,
  E 0x746f7263682e54656e736f722e6c6f675f 0x4368616e67655072656669784d617463686572 /- torch.Tensor.log_ -/,
  E 0x746f7263682e54656e736f722e6c6f6e67 0x4368616e67655072656669784d617463686572 /- torch.Tensor.long -/,
  E 0x746f7263682e54656e736f722e6d61705f 0 /- torch.Tensor.map_ -/,
  E 0x746f7263682e54656e736f722e6d65616e 0x4368616e67655072656669784d617463686572 /- torch.Tensor.mean -/,
  E 0x746f7263682e54656e736f722e6d6f6465 0x4368616e67655072656669784d617463686572 /- torch.Tensor.mode -/,
  E 0x746f7263682e54656e736f722e6d756c5f 0x4368616e67655072656669784d617463686572 /- torch.Tensor.mul_ -/,
  E 0x746f7263682e54656e736f722e6e65675f 0x4368616e67655072656669784d617463686572 /- torch.Tensor.neg_ -/,
  E 0x746f7263682e54656e736f722e6e6f726d 0x4368616e67655072656669784d617463686572 /- torch.Tensor.norm -/,
  E 0x746f7263682e54656e736f722e706f775f 0x4368616e67655072656669784d617463686572 /- torch.Tensor.pow_ -/,
  E 0x746f7263682e54656e736f722e70726f64 0x4368616e67655072656669784d617463686572 /- torch.Tensor.prod -/,
  E 0x746f7263682e54656e736f722e7075745f 0 /- torch.Tensor.put_ -/,
  E 0x746f7263682e54656e736f722e726f6c6c 0x4368616e67655072656669784d617463686572 /- torch.Tensor.roll -/,
  F 0x746f7263682e54656e736f722e7365745f 0x54656e736f725365744d617463686572 0x706164646c652e54656e736f722e7365745f 0 [0x736f75726365, 0x73746f726167655f6f6666736574, 0x73697a65, 0x737472696465] [] [] [] [] /- torch.Tensor.set_ -/,
  E 0x746f7263682e54656e736f722e73676e5f 0 /- torch.Tensor.sgn_ -/,
  E 0x746f7263682e54656e736f722e7369676e 0x4368616e67655072656669784d617463686572 /- torch.Tensor.sign -/,
  E 0x746f7263682e54656e736f722e73696e5f 0x4368616e67655072656669784d617463686572 /- torch.Tensor.sin_ -/,
  E 0x746f7263682e54656e736f722e73696e63 0x4368616e67655072656669784d617463686572 /- torch.Tensor.sinc -/,
  E 0x746f7263682e54656e736f722e73696e68 0x4368616e67655072656669784d617463686572 /- torch.Tensor.sinh -/,
  E 0x746f7263682e54656e736f722e73697a65 0x4368616e67655072656669784d617463686572 /- torch.Tensor.size -/,
  F 0x746f7263682e54656e736f722e736f7274 0x536f72744d617463686572 0x706164646c652e54656e736f722e736f7274 0 [0x64696d, 0x64657363656e64696e67, 0x2a, 0x737461626c65, 0x64696d, 0x64657363656e64696e67] [] [] [(0x64696d, false, [0x61786973])] [] /- torch.Tensor.sort -/,
  E 0x746f7263682e54656e736f722e73717274 0x4368616e67655072656669784d617463686572 /- torch.Tensor.sqrt -/,
  F 0x746f7263682e54656e736f722e73746674 0x54656e736f72537466744d617463686572 0x706164646c652e54656e736f722e73746674 1 [0x6e5f666674, 0x686f705f6c656e677468, 0x77696e5f6c656e677468, 0x77696e646f77, 0x63656e746572, 0x7061645f6d6f6465, 0x6e6f726d616c697a6564, 0x6f6e657369646564, 0x72657475726e5f636f6d706c6578] [] [] [] [] /- torch.Tensor.stft -/,
  E 0x746f7263682e54656e736f722e7375625f 0x4368616e67655072656669784d617463686572 /- torch.Tensor.sub_ -/,
  E 0x746f7263682e54656e736f722e74616b65 0x4368616e67655072656669784d617463686572 /- torch.Tensor.take -/,
  E 0x746f7263682e54656e736f722e74616e5f 0x4368616e67655072656669784d617463686572 /- torch.Tensor.tan_ -/,
  E 0x746f7263682e54656e736f722e74616e68 0x4368616e67655072656669784d617463686572 /- torch.Tensor.tanh -/,
  E 0x746f7263682e54656e736f722e74696c65 0x4368616e67655072656669784d617463686572 /- torch.Tensor.tile -/,
  E 0x746f7263682e54656e736f722e746f706b 0x4368616e67655072656669784d617463686572 /- torch.Tensor.topk -/,
  E 0x746f7263682e54656e736f722e7472696c 0x4368616e67655072656669784d617463686572 /- torch.Tensor.tril -/,
  E 0x746f7263682e54656e736f722e74726975 0x4368616e67655072656669784d617463686572 /- torch.Tensor.triu -/,
  F 0x746f7263682e54656e736f722e74797065 0x54656e736f72547970654d617463686572 0x706164646c652e54656e736f722e617374797065 0 [0x6474797065, 0x6e6f6e5f626c6f636b696e67, 0x2a2a6b7761726773] [] [] [] [] /- torch.Tensor.type -/]

def apiTable9 : List Raw := [
  F 0x746f7263682e54656e736f722e76646f74 0x47656e657269634d617463686572 0x706164646c652e54656e736f722e646f74 1 [0x6f74686572] [] [] [(0x6f74686572, false, [0x79])] [] /- torch.Tensor.vdot -/,
  E 0x746f7263682e54656e736f722e76696577 0x4368616e67655072656669784d617463686572 /- torch.Tensor.view -/,
  E 0x746f7263682e626974776973655f616e64 0x4368616e67655072656669784d617463686572 /- torch.bitwise_and -/,
  E 0x746f7263682e626974776973655f6e6f74 0x4368616e67655072656669784d617463686572 /- torch.bitwise_not -/,
  E 0x746f7263682e626974776973655f786f72 0x4368616e67655072656669784d617463686572 /- torch.bitwise_xor -/,
  E 0x746f7263682e636f6e636174656e617465 0x4368616e67655072656669784d617463686572 /- torch.concatenate -/,
  E 0x746f7263682e637564612e53747265616d 0x4368616e67655072656669784d617463686572 /- torch.cuda.Stream -/,
  E 0x746f7263682e637564612e637564617274 0x4368616e67655072656669784d617463686572 /- torch.cuda.cudart -/,
  E 0x746f7263682e637564612e646576696365 0x4368616e67655072656669784d617463686572 /- torch.cuda.device -/,
  E 0x746f7263682e637564612e73747265616d 0x4368616e67655072656669784d617463686572 /- torch.cuda.stream -/,
  E 0x746f7263682e656e61626c655f67726164 0x4368616e67655072656669784d617463686572 /- torch.enable_grad -/,
  E 0x746f7263682e657870616e645f636f7079 0x4368616e67655072656669784d617463686572 /- torch.expand_copy -/,
  E 0x746f7263682e6666742e66667466726571 0x4368616e67655072656669784d617463686572 /- torch.fft.fftfreq -/,
  F 0x746f7263682e666c6f61745f706f776572 0x466c6f6174506f7765724d617463686572 0 2 [0x696e707574, 0x6578706f6e656e74, 0x2a, 0x6f7574] [] [] [] [] /- torch.float_power -/,
  F 0x746f7263682e66726f6d5f646c7061636b 0x47656e657269634d617463686572 0x706164646c652e7574696c732e646c7061636b2e66726f6d5f646c7061636b 1 [0x6578745f74656e736f72] [] [] [(0x6578745f74656e736f72, false, [0x646c7061636b])] [] /- torch.from_dlpack -/,
  E 0x746f7263682e68616e6e5f77696e646f77 0x4368616e67655072656669784d617463686572 /- torch.hann_window -/,
  F 0x746f7263682e686973746f6772616d6464 0x47656e657269634d617463686572 0x706164646c652e686973746f6772616d6464 2 [0x696e707574, 0x62696e73, 0x2a, 0x72616e6765, 0x776569676874, 0x64656e73697479] [] [] [(0x696e707574, false, [0x78]), (0x72616e6765, false, [0x72616e676573]), (0x776569676874, false, [0x77656967687473])] [] /- torch.histogramdd -/,
  F 0x746f7263682e6c696e616c672e636f6e64 0x47656e657269634d617463686572 0x706164646c652e6c696e616c672e636f6e64 1 [0x696e707574, 0x70, 0x2a, 0x6f7574] [] [] [(0x696e707574, false, [0x78])] [] /- torch.linalg.cond -/,
  E 0x746f7263682e6c696e616c672e65696768 0x4368616e67655072656669784d617463686572 /- torch.linalg.eigh -/,
  E 0x746f7263682e6c696e616c672e6e6f726d 0x4368616e67655072656669784d617463686572 /- torch.linalg.norm -/,
  E 0x746f7263682e6c696e616c672e70696e76 0x4368616e67655072656669784d617463686572 /- torch.linalg.pinv -/,
  E 0x746f7263682e6c6f675f736f66746d6178 0x4368616e67655072656669784d617463686572 /- torch.log_softmax -/,
  E 0x746f7263682e6c6f676963616c5f616e64 0x4368616e67655072656669784d617463686572 /- torch.logical_and -/,
  E 0x746f7263682e6c6f676963616c5f6e6f74 0x4368616e67655072656669784d617463686572 /- torch.logical_not -/,
  E 0x746f7263682e6c6f676963616c5f786f72 0x4368616e67655072656669784d617463686572 /- torch.logical_xor -/,
  E 0x746f7263682e6d616e75616c5f73656564 0x4368616e67655072656669784d617463686572 /- torch.manual_seed -/,
  E 0x746f7263682e6d61736b65645f66696c6c 0x4368616e67655072656669784d617463686572 /- torch.masked_fill -/,
  F 0x746f7263682e6d61747269785f72616e6b 0 0 1 [] [] [] [] [] /- torch.matrix_rank -/,
  E 0x746f7263682e6d756c74696e6f6d69616c 0x4368616e67655072656669784d617463686572 /- torch.multinomial -/,
  E 0x746f7263682e6e616e7175616e74696c65 0x4368616e67655072656669784d617463686572 /- torch.nanquantile -/,
  F 0x746f7263682e6e6172726f775f636f7079 0x4e6172726f77436f70794d617463686572 0 4 [0x696e707574, 0x64696d, 0x7374617274, 0x6c656e677468, 0x2a, 0x6f7574] [] [] [] [] /- torch.narrow_copy -/,
  F 0x746f7263682e6e6e2e42696c696e656172 0x47656e657269634d617463686572 0x706164646c652e6e6e2e42696c696e656172 3 [0x696e315f6665617475726573, 0x696e325f6665617475726573, 0x6f75745f6665617475726573, 0x62696173, 0x646576696365, 0x6474797065] [] [] [(0x62696173, false, [0x626961735f61747472]), (0x646576696365, false, [0]), (0x6474797065, false, [0])] [] /- torch.nn.Bilinear -/,
  F 0x746f7263682e6e6e2e4861726474616e68 0x47656e657269634d617463686572 0x706164646c652e6e6e2e4861726474616e68 0 [0x6d696e5f76616c, 0x6d61785f76616c, 0x696e706c616365] [] [] [(0x6d696e5f76616c, false, [0x6d696e]), (0x6d61785f76616c, false, [0x6d6178])] [] /- torch.nn.Hardtanh -/,
  E 0x746f7263682e6e6e2e4964656e74697479 0x4368616e67655072656669784d617463686572 /- torch.nn.Identity -/,
  E 0x746f7263682e6e6e2e4c50506f6f6c3164 0x4368616e67655072656669784d617463686572 /- torch.nn.LPPool1d -/,
  E 0x746f7263682e6e6e2e4c50506f6f6c3264 0x4368616e67655072656669784d617463686572 /- torch.nn.LPPool2d -/,
  F 0x746f7263682e6e6e2e4c53544d43656c6c 0x4c53544d43656c6c4d617463686572 0x706164646c652e6e6e2e4c53544d43656c6c 2 [0x696e7075745f73697a65, 0x68696464656e5f73697a65, 0x62696173, 0x646576696365, 0x6474797065] [] [] [(0x62696173, true, [0x626961735f69685f61747472, 0x626961735f68685f61747472]), (0x646576696365, false, [0]), (0x6474797065, false, [0])] [] /- torch.nn.LSTMCell -/,
  E 0x746f7263682e6e6e2e536f6674706c7573 0x4368616e67655072656669784d617463686572 /- torch.nn.Softplus -/,
  E 0x746f7263682e6e6e2e536f66747369676e 0x4368616e67655072656669784d617463686572 /- torch.nn.Softsign -/,
  E 0x746f7263682e6e6e2e557073616d706c65 0x4368616e67655072656669784d617463686572 /- torch.nn.Upsample -/,
  F 0x746f7263682e6f6e6e782e6578706f7274 0x4f6e6e784578706f72744d617463686572 0x706164646c652e6f6e6e782e6578706f7274 1 [0x6d6f64656c, 0x61726773, 0x66, 0x6578706f72745f706172616d73, 0x766572626f7365, 0x747261696e696e67, 0x696e7075745f6e616d6573, 0x6f75747075745f6e616d6573, 0x6f70657261746f725f6578706f72745f74797065, 0x6f707365745f76657273696f6e, 0x646f5f636f6e7374616e745f666f6c64696e67, 0x64796e616d69635f61786573, 0x6b6565705f696e697469616c697a6572735f61735f696e70757473, 0x637573746f6d5f6f7073657473, 0x6578706f72745f6d6f64756c65735f61735f66756e6374696f6e73] [] [0x61726773, 0x6578706f72745f706172616d73, 0x766572626f7365, 0x747261696e696e67, 0x696e7075745f6e616d6573, 0x6f75747075745f6e616d6573, 0x6f70657261746f725f6578706f72745f74797065, 0x646f5f636f6e7374616e745f666f6c64696e67, 0x64796e616d69635f61786573, 0x6b6565705f696e697469616c697a6572735f61735f696e70757473, 0x637573746f6d5f6f7073657473, 0x6578706f72745f6d6f64756c65735f61735f66756e6374696f6e73] [(0x6d6f64656c, false, [0x6c61796572]), (0x66, false, [0x70617468])] [] /- torch.onnx.export -/,
  E 0x746f7263682e6f7074696d2e4164616d57 0x4368616e67655072656669784d617463686572 /- torch.optim.AdamW -/,
  F 0x746f7263682e6f7074696d2e4c42464753 0x47656e657269634d617463686572 0x706164646c652e6f7074696d697a65722e4c42464753 1 [0x706172616d73, 0x6c72, 0x6d61785f69746572, 0x6d61785f6576616c, 0x746f6c6572616e63655f67726164, 0x746f6c6572616e63655f6368616e6765, 0x686973746f72795f73697a65, 0x6c696e655f7365617263685f666e] [] [] [(0x706172616d73, false, [0x706172616d6574657273]), (0x6c72, false, [0x6c6561726e696e675f72617465])] [] /- torch.optim.LBFGS -/,
  F 0x746f7263682e6f7074696d2e4e4164616d 0x4f7074696d4164616d4d617463686572 0x706164646c652e6f7074696d697a65722e4e4164616d 1 [0x706172616d73, 0x6c72, 0x6265746173, 0x657073, 0x7765696768745f6465636179, 0x6d6f6d656e74756d5f6465636179, 0x6465636f75706c65645f7765696768745f6465636179, 0x2a, 0x666f7265616368, 0x6d6178696d697a65, 0x63617074757261626c65, 0x646966666572656e746961626c65] [] [0x6465636f75706c65645f7765696768745f6465636179, 0x666f7265616368, 0x6d6178696d697a65, 0x63617074757261626c65, 0x646966666572656e746961626c65] [(0x706172616d73, false, [0x706172616d6574657273]), (0x6c72, false, [0x6c6561726e696e675f72617465]), (0x657073, false, [0x657073696c6f6e])] [(0x7765696768745f6465636179, 0x302e30)] /- torch.optim.NAdam -/,
  F 0x746f7263682e6f7074696d2e524164616d 0x4f7074696d4164616d4d617463686572 0x706164646c652e6f7074696d697a65722e524164616d 1 [0x706172616d73, 0x6c72, 0x6265746173, 0x657073, 0x7765696768745f6465636179, 0x6465636f75706c65645f7765696768745f6465636179, 0x2a, 0x666f7265616368, 0x6d6178696d697a65, 0x63617074757261626c65, 0x646966666572656e746961626c65] [] [0x6465636f75706c65645f7765696768745f6465636179, 0x666f7265616368, 0x6d6178696d697a65, 0x63617074757261626c65, 0x646966666572656e746961626c65] [(0x706172616d73, false, [0x706172616d6574657273]), (0x6c72, false, [0x6c6561726e696e675f72617465]), (0x657073, false, [0x657073696c6f6e])] [(0x7765696768745f6465636179, 0x302e30)] /- torch.optim.RAdam -/,
  F 0x746f7263682e6f7074696d2e5270726f70 0x47656e657269634d617463686572 0x706164646c652e6f7074696d697a65722e5270726f70 1 [0x706172616d73, 0x6c72, 0x65746173, 0x737465705f73697a6573, 0x666f7265616368, 0x6d6178696d697a65, 0x646966666572656e746961626c65] [] [0x6d6178696d697a65] [(0x706172616d73, false, [0x706172616d6574657273]), (0x6c72, false, [0x6c6561726e696e675f72617465]), (0x737465705f73697a6573, false, [0x6c6561726e696e675f726174655f72616e6765]), (0x666f7265616368, false, [0]), (0x646966666572656e746961626c65, false, [0])] [] /- torch.optim.Rprop -/,
  F 0x746f7263682e7063615f6c6f7772616e6b 0x47656e657269634d617463686572 0x706164646c652e6c696e616c672e7063615f6c6f7772616e6b 1 [0x41, 0x71, 0x63656e746572, 0x6e69746572] [] [] [(0x41, false, [0x78])] [] /- torch.pca_lowrank -/,
  E 0x746f7263682e7265636970726f63616c5f 0x4368616e67655072656669784d617463686572 /- torch.reciprocal_ -/,
  E 0x746f7263682e736361747465725f616464 0x4368616e67655072656669784d617463686572 /- torch.scatter_add -/,
  E 0x746f7263682e7370656369616c2e657266 0x4368616e67655072656669784d617463686572 /- torch.special.erf -/,
  E 0x746f7263682e7370656369616c2e693065 0x4368616e67655072656669784d617463686572 /- torch.special.i0e -/,
  E 0x746f7263682e7370656369616c2e693165 0x4368616e67655072656669784d617463686572 /- torch.special.i1e -/,
  F 0x746f7263682e7370656369616c2e707369 0x47656e657269634d617463686572 0x706164646c652e646967616d6d61 1 [0x696e707574, 0x2a, 0x6f7574] [] [] [(0x696e707574, false, [0x78])] [] /- torch.special.psi -/,
  F 0x746f7263682e7376645f6c6f7772616e6b 0x47656e657269634d617463686572 0x706164646c652e6c696e616c672e7376645f6c6f7772616e6b 1 [0x41, 0x71, 0x6e69746572, 0x4d] [] [] [(0x41, false, [0x78])] [] /- torch.svd_lowrank -/,
  E 0x746f7263682e746f7263682e696e743332 0x4368616e67655072656669784d617463686572 /- torch.torch.int32 -/,
  E 0x746f7263682e747275655f646976696465 0x4368616e67655072656669784d617463686572 /- torch.true_divide -/,
  E 0x746f7263682e446f75626c6554656e736f72 0x4368616e67655072656669784d617463686572 /- torch.DoubleTensor -/,
  E 0x746f7263682e54656e736f722e61636f735f 0x4368616e67655072656669784d617463686572 /- torch.Tensor.acos_ -/,
  E 0x746f7263682e54656e736f722e61636f7368 0x4368616e67655072656669784d617463686572 /- torch.Tensor.acosh -/,
  E 0x746f7263682e54656e736f722e6164646d6d 0x4368616e67655072656669784d617463686572 /- torch.Tensor.addmm -/]

def apiTable10 : List Raw := [
  F 0x746f7263682e54656e736f722e6164646d76 0x4164644d524d617463686572 0x706164646c652e6d6d 2 [0x6d6174, 0x766563, 0x2a, 0x62657461, 0x616c706861] [] [] [] [] /- torch.Tensor.addmv -/,
  E 0x746f7263682e54656e736f722e616464725f 0x4368616e67655072656669784d617463686572 /- torch.Tensor.addr_ -/,
  E 0x746f7263682e54656e736f722e616e676c65 0x4368616e67655072656669784d617463686572 /- torch.Tensor.angle -/,
  E 0x746f7263682e54656e736f722e6173696e5f 0x4368616e67655072656669784d617463686572 /- torch.Tensor.asin_ -/,
  E 0x746f7263682e54656e736f722e6173696e68 0x4368616e67655072656669784d617463686572 /- torch.Tensor.asinh -/,
  E 0x746f7263682e54656e736f722e6174616e32 0x4368616e67655072656669784d617463686572 /- torch.Tensor.atan2 -/,
  E 0x746f7263682e54656e736f722e6174616e5f 0x4368616e67655072656669784d617463686572 /- torch.Tensor.atan_ -/,
  E 0x746f7263682e54656e736f722e6174616e68 0x4368616e67655072656669784d617463686572 /- torch.Tensor.atanh -/,
  E 0x746f7263682e54656e736f722e6365696c5f 0x4368616e67655072656669784d617463686572 /- torch.Tensor.ceil_ -/,
  E 0x746f7263682e54656e736f722e6368616c66 0 /- torch.Tensor.chalf -/,
  E 0x746f7263682e54656e736f722e6368756e6b 0x4368616e67655072656669784d617463686572 /- torch.Tensor.chunk -/,
  E 0x746f7263682e54656e736f722e636c616d70 0x4368616e67655072656669784d617463686572 /- torch.Tensor.clamp -/,
  E 0x746f7263682e54656e736f722e636c69705f 0x4368616e67655072656669784d617463686572 /- torch.Tensor.clip_ -/,
  E 0x746f7263682e54656e736f722e636c6f6e65 0x4368616e67655072656669784d617463686572 /- torch.Tensor.clone -/,
  E 0x746f7263682e54656e736f722e636f70795f 0x4368616e67655072656669784d617463686572 /- torch.Tensor.copy_ -/,
  E 0x746f7263682e54656e736f722e636f73685f 0x4368616e67655072656669784d617463686572 /- torch.Tensor.cosh_ -/,
  E 0x746f7263682e54656e736f722e63726f7373 0x4368616e67655072656669784d617463686572 /- torch.Tensor.cross -/,
  F 0x746f7263682e54656e736f722e657175616c 0x457175616c4d617463686572 0x706164646c652e54656e736f722e657175616c5f616c6c 1 [0x6f74686572] [] [] [(0x6f74686572, false, [0x79])] [] /- torch.Tensor.equal -/,
  F 0x746f7263682e54656e736f722e657266635f 0x457266435f4d617463686572 0 0 [] [] [] [] [] /- torch.Tensor.erfc_ -/,
  E 0x746f7263682e54656e736f722e6578706d31 0x4368616e67655072656669784d617463686572 /- torch.Tensor.expm1 -/,
  E 0x746f7263682e54656e736f722e66696c6c5f 0x4368616e67655072656669784d617463686572 /- torch.Tensor.fill_ -/,
  E 0x746f7263682e54656e736f722e666c6f6174 0x4368616e67655072656669784d617463686572 /- torch.Tensor.float -/,
  E 0x746f7263682e54656e736f722e666c6f6f72 0x4368616e67655072656669784d617463686572 /- torch.Tensor.floor -/,
  E 0x746f7263682e54656e736f722e666d6f645f 0x4368616e67655072656669784d617463686572 /- torch.Tensor.fmod_ -/,
  E 0x746f7263682e54656e736f722e667261635f 0x4368616e67655072656669784d617463686572 /- torch.Tensor.frac_ -/,
  E 0x746f7263682e54656e736f722e6672657870 0x4368616e67655072656669784d617463686572 /- torch.Tensor.frexp -/,
  E 0x746f7263682e54656e736f722e6765717266 0 /- torch.Tensor.geqrf -/,
  F 0x746f7263682e54656e736f722e6869737463 0x48697374634d617463686572 0x706164646c652e54656e736f722e686973746f6772616d 0 [0x62696e73, 0x6d696e, 0x6d6178] [] [] [] [] /- torch.Tensor.histc -/,
  E 0x746f7263682e54656e736f722e6879706f74 0x4368616e67655072656669784d617463686572 /- torch.Tensor.hypot -/,
  E 0x746f7263682e54656e736f722e696e6e6572 0x4368616e67655072656669784d617463686572 /- torch.Tensor.inner -/,
  E 0x746f7263682e54656e736f722e6973696e66 0x4368616e67655072656669784d617463686572 /- torch.Tensor.isinf -/,
  E 0x746f7263682e54656e736f722e69736e616e 0x4368616e67655072656669784d617463686572 /- torch.Tensor.isnan -/,
  E 0x746f7263682e54656e736f722e6973746674 0x4368616e67655072656669784d617463686572 /- torch.Tensor.istft -/,
  E 0x746f7263682e54656e736f722e6c64657870 0x4368616e67655072656669784d617463686572 /- torch.Tensor.ldexp -/,
  E 0x746f7263682e54656e736f722e6c6572705f 0x4368616e67655072656669784d617463686572 /- torch.Tensor.lerp_ -/,
  E 0x746f7263682e54656e736f722e6c6f673130 0x4368616e67655072656669784d617463686572 /- torch.Tensor.log10 -/,
  E 0x746f7263682e54656e736f722e6c6f673170 0x4368616e67655072656669784d617463686572 /- torch.Tensor.log1p -/,
  E 0x746f7263682e54656e736f722e6c6f67325f 0x4368616e67655072656669784d617463686572 /- torch.Tensor.log2_ -/,
  E 0x746f7263682e54656e736f722e6c6f676974 0x4368616e67655072656669784d617463686572 /- torch.Tensor.logit -/,
  E 0x746f7263682e54656e736f722e6c73747371 0 /- torch.Tensor.lstsq -/,
  E 0x746f7263682e54656e736f722e6d736f7274 0x4368616e67655072656669784d617463686572 /- torch.Tensor.msort -/,
  F 0x746f7263682e54656e736f722e6e756d656c 0x46756e6332417474726962757465 0x706164646c652e54656e736f722e73697a65 0 [] [] [] [] [] /- torch.Tensor.numel -/,
  E 0x746f7263682e54656e736f722e6e756d7079 0x4368616e67655072656669784d617463686572 /- torch.Tensor.numpy -/,
  F 0x746f7263682e54656e736f722e6f72677172 0x47656e657269634d617463686572 0x706164646c652e54656e736f722e686f757365686f6c6465725f70726f64756374 1 [0x696e70757432] [] [] [(0x696e70757432, false, [0x746175])] [] /- torch.Tensor.orgqr -/,
  F 0x746f7263682e54656e736f722e6f726d7172 0x54656e736f7246756e6332506164646c6546756e63 0x706164646c652e6c696e616c672e6f726d7172 2 [0x696e70757432, 0x696e70757433, 0x6c656674, 0x7472616e73706f7365] [] [] [(0x696e70757432, false, [0x746175]), (0x696e70757433, false, [0x79])] [] /- torch.Tensor.ormqr -/,
  E 0x746f7263682e54656e736f722e6f75746572 0x4368616e67655072656669784d617463686572 /- torch.Tensor.outer -/,
  E 0x746f7263682e54656e736f722e726176656c 0x4368616e67655072656669784d617463686572 /- torch.Tensor.ravel -/,
  E 0x746f7263682e54656e736f722e726f743930 0x4368616e67655072656669784d617463686572 /- torch.Tensor.rot90 -/,
  E 0x746f7263682e54656e736f722e726f756e64 0x4368616e67655072656669784d617463686572 /- torch.Tensor.round -/,
  E 0x746f7263682e54656e736f722e7273717274 0x4368616e67655072656669784d617463686572 /- torch.Tensor.rsqrt -/,
  E 0x746f7263682e54656e736f722e73686f7274 0x4368616e67655072656669784d617463686572 /- torch.Tensor.short -/,
  E 0x746f7263682e54656e736f722e7369676e5f 0x4368616e67655072656669784d617463686572 /- torch.Tensor.sign_ -/,
  E 0x746f7263682e54656e736f722e73696e635f 0x4368616e67655072656669784d617463686572 /- torch.Tensor.sinc_ -/,
  E 0x746f7263682e54656e736f722e73696e685f 0x4368616e67655072656669784d617463686572 /- torch.Tensor.sinh_ -/,
  F 0x746f7263682e54656e736f722e73706c6974 0x54656e736f7253706c69744d617463686572 0x706164646c652e54656e736f722e73706c6974 1 [0x73706c69745f73697a65, 0x64696d] [] [] [(0x73706c69745f73697a65, false, [0x6e756d5f6f725f73656374696f6e73]), (0x64696d, false, [0x61786973])] [] /- torch.Tensor.split -/,
  E 0x746f7263682e54656e736f722e737172745f 0x4368616e67655072656669784d617463686572 /- torch.Tensor.sqrt_ -/,
  E 0x746f7263682e54656e736f722e74616e685f 0x4368616e67655072656669784d617463686572 /- torch.Tensor.tanh_ -/,
  E 0x746f7263682e54656e736f722e7472616365 0x4368616e67655072656669784d617463686572 /- torch.Tensor.trace -/,
  E 0x746f7263682e54656e736f722e7472696c5f 0x4368616e67655072656669784d617463686572 /- torch.Tensor.tril_ -/,
  E 0x746f7263682e54656e736f722e747269755f 0x4368616e67655072656669784d617463686572 /- torch.Tensor.triu_ -/]

def apiTable11 : List Raw := [
  E 0x746f7263682e54656e736f722e7472756e63 0x4368616e67655072656669784d617463686572 /- torch.Tensor.trunc -/,
  F 0x746f7263682e54656e736f722e7768657265 0x54656e736f7257686572654d617463686572 0x706164646c652e7768657265 2 [0x636f6e646974696f6e, 0x6f74686572] [] [] [(0x6f74686572, false, [0x79])] [] /- torch.Tensor.where -/,
  F 0x746f7263682e54656e736f722e786c6f6779 0x584c6f67594d617463686572 0 1 [0x6f74686572] [] [] [] [] /- torch.Tensor.xlogy -/,
  E 0x746f7263682e54656e736f722e7a65726f5f 0x4368616e67655072656669784d617463686572 /- torch.Tensor.zero_ -/,
  F 0x746f7263682e5f666f72656163685f616273 0x466f72656163684d617463686572 0x706164646c652e616273 1 [0x73656c66] [] [] [] [] /- torch._foreach_abs -/,
  F 0x746f7263682e5f666f72656163685f636f73 0x466f72656163684d617463686572 0x706164646c652e636f73 1 [0x73656c66] [] [] [] [] /- torch._foreach_cos -/,
  F 0x746f7263682e5f666f72656163685f657266 0x466f72656163684d617463686572 0x706164646c652e657266 1 [0x73656c66] [] [] [] [] /- torch._foreach_erf -/,
  F 0x746f7263682e5f666f72656163685f657870 0x466f72656163684d617463686572 0x706164646c652e657870 1 [0x73656c66] [] [] [] [] /- torch._foreach_exp -/,
  F 0x746f7263682e5f666f72656163685f6c6f67 0x466f72656163684d617463686572 0x706164646c652e6c6f67 1 [0x73656c66] [] [] [] [] /- torch._foreach_log -/,
  F 0x746f7263682e5f666f72656163685f6e6567 0x466f72656163684d617463686572 0x706164646c652e6e6567 1 [0x73656c66] [] [] [] [] /- torch._foreach_neg -/,
  F 0x746f7263682e5f666f72656163685f73696e 0x466f72656163684d617463686572 0x706164646c652e73696e 1 [0x73656c66] [] [] [] [] /- torch._foreach_sin -/,
  F 0x746f7263682e5f666f72656163685f74616e 0x466f72656163684d617463686572 0x706164646c652e74616e 1 [0x73656c66] [] [] [] [] /- torch._foreach_tan -/,
  E 0x746f7263682e616d702e6175746f63617374 0x4368616e67655072656669784d617463686572 /- torch.amp.autocast -/,
  E 0x746f7263682e62726f6164636173745f746f 0x4368616e67655072656669784d617463686572 /- torch.broadcast_to -/,
  F 0x746f7263682e636861696e5f6d61746d756c 0x436861696e5f4d61746d756c4d617463686572 0 1 [0x2a6d61747269636573, 0x6f7574] [] [] [] [] /- torch.chain_matmul -/,
  F 0x746f7263682e636f6c756d6e5f737461636b 0x47656e657269634d617463686572 0x706164646c652e636f6c756d6e5f737461636b 1 [0x74656e736f7273, 0x2a, 0x6f7574] [] [] [(0x74656e736f7273, false, [0x78])] [] /- torch.column_stack -/,
  E 0x746f7263682e636f6d62696e6174696f6e73 0x4368616e67655072656669784d617463686572 /- torch.combinations -/,
  E 0x746f7263682e6666742e6666747368696674 0x4368616e67655072656669784d617463686572 /- torch.fft.fftshift -/,
  E 0x746f7263682e6666742e7266667466726571 0x4368616e67655072656669784d617463686572 /- torch.fft.rfftfreq -/,
  E 0x746f7263682e666c6f6f725f646976696465 0x4368616e67655072656669784d617463686572 /- torch.floor_divide -/,
  E 0x746f7263682e696e6465785f73656c656374 0x4368616e67655072656669784d617463686572 /- torch.index_select -/,
  E 0x746f7263682e696e697469616c5f73656564 0x4368616e67655072656669784d617463686572 /- torch.initial_seed -/,
  F 0x746f7263682e69735f696e666572656e6365 0x49735f496e666572656e63654d617463686572 0x706164646c652e54656e736f722e73746f705f6772616469656e74 1 [0x696e707574] [] [] [] [] /- torch.is_inference -/,
  E 0x746f7263682e6c696e616c672e63726f7373 0x4368616e67655072656669784d617463686572 /- torch.linalg.cross -/,
  F 0x746f7263682e6c696e616c672e6c73747371 0x47656e657269634d617463686572 0x706164646c652e6c696e616c672e6c73747371 2 [0x696e707574, 0x62, 0x72636f6e64, 0x2a, 0x647269766572] [] [] [(0x696e707574, false, [0x78]), (0x62, false, [0x79])] [] /- torch.linalg.lstsq -/,
  E 0x746f7263682e6c696e616c672e736f6c7665 0x4368616e67655072656669784d617463686572 /- torch.linalg.solve -/,
  E 0x746f7263682e6c6f6763756d73756d657870 0x4368616e67655072656669784d617463686572 /- torch.logcumsumexp -/,
  P 0x746f7263682e6e6e2e417667506f6f6c3164 0x4368616e67654150494d617463686572 0x706164646c652e636f6d7061742e6e6e2e417667506f6f6c3164 /- torch.nn.AvgPool1d -/,
  P 0x746f7263682e6e6e2e417667506f6f6c3264 0x4368616e67654150494d617463686572 0x706164646c652e636f6d7061742e6e6e2e417667506f6f6c3264 /- torch.nn.AvgPool2d -/,
  P 0x746f7263682e6e6e2e417667506f6f6c3364 0x4368616e67654150494d617463686572 0x706164646c652e636f6d7061742e6e6e2e417667506f6f6c3364 /- torch.nn.AvgPool3d -/,
  F 0x746f7263682e6e6e2e44726f706f75743164 0x47656e657269634d617463686572 0x706164646c652e6e6e2e44726f706f7574 0 [0x70, 0x696e706c616365] [] [] [] [] /- torch.nn.Dropout1d -/,
  F 0x746f7263682e6e6e2e44726f706f75743264 0x47656e657269634d617463686572 0x706164646c652e6e6e2e44726f706f75743244 0 [0x70, 0x696e706c616365] [] [] [] [] /- torch.nn.Dropout2d -/,
  F 0x746f7263682e6e6e2e44726f706f75743364 0x47656e657269634d617463686572 0x706164646c652e6e6e2e44726f706f75743344 0 [0x70, 0x696e706c616365] [] [] [] [] /- torch.nn.Dropout3d -/,
  E 0x746f7263682e6e6e2e456d62656464696e67 0x4368616e67655072656669784d617463686572 /- torch.nn.Embedding -/,
  E 0x746f7263682e6e6e2e47726f75704e6f726d 0x4368616e67655072656669784d617463686572 /- torch.nn.GroupNorm -/,
  E 0x746f7263682e6e6e2e486172647377697368 0x4368616e67655072656669784d617463686572 /- torch.nn.Hardswish -/,
  E 0x746f7263682e6e6e2e48756265724c6f7373 0x4368616e67655072656669784d617463686572 /- torch.nn.HuberLoss -/,
  E 0x746f7263682e6e6e2e4b4c4469764c6f7373 0x4368616e67655072656669784d617463686572 /- torch.nn.KLDivLoss -/,
  E 0x746f7263682e6e6e2e4c617965724e6f726d 0x4368616e67655072656669784d617463686572 /- torch.nn.LayerNorm -/,
  E 0x746f7263682e6e6e2e4c65616b7952654c55 0x4368616e67655072656669784d617463686572 /- torch.nn.LeakyReLU -/,
  E 0x746f7263682e6e6e2e4d6178506f6f6c3164 0x4368616e67655072656669784d617463686572 /- torch.nn.MaxPool1d -/,
  E 0x746f7263682e6e6e2e4d6178506f6f6c3264 0x4368616e67655072656669784d617463686572 /- torch.nn.MaxPool2d -/,
  E 0x746f7263682e6e6e2e4d6178506f6f6c3364 0x4368616e67655072656669784d617463686572 /- torch.nn.MaxPool3d -/,
  E 0x746f7263682e6e6e2e4d6f64756c652e746f 0x4368616e67655072656669784d617463686572 /- torch.nn.Module.to -/,
  E 0x746f7263682e6e6e2e506172616d65746572 0x4368616e67655072656669784d617463686572 /- torch.nn.Parameter -/,
  F 0x746f7263682e6e6e2e536f66746d61783264 0x47656e657269634d617463686572 0x706164646c652e6e6e2e536f66746d6178 0 [] [] [] [] [(0x61786973, 0x2d33)] /- torch.nn.Softmax2d -/,
  F 0x746f7263682e6e6e2e5468726573686f6c64 0x47656e657269634d617463686572 0x706164646c652e6e6e2e5468726573686f6c64656452654c55 0 [0x7468726573686f6c64, 0x76616c7565, 0x696e706c616365] [] [] [(0x696e706c616365, false, [0])] [] /- torch.nn.Threshold -/,
  F 0x746f7263682e6e6e2e556e666c617474656e 0x47656e657269634d617463686572 0x706164646c652e6e6e2e556e666c617474656e 2 [0x64696d, 0x756e666c617474656e65645f73697a65] [] [] [(0x64696d, false, [0x61786973]), (0x756e666c617474656e65645f73697a65, false, [0x7368617065])] [] /- torch.nn.Unflatten -/,
  E 0x746f7263682e6e6e2e5a65726f5061643164 0x4368616e67655072656669784d617463686572 /- torch.nn.ZeroPad1d -/,
  E 0x746f7263682e6e6e2e5a65726f5061643264 0x4368616e67655072656669784d617463686572 /- torch.nn.ZeroPad2d -/,
  E 0x746f7263682e6e6e2e5a65726f5061643364 0x4368616e67655072656669784d617463686572 /- torch.nn.ZeroPad3d -/,
  E 0x746f7263682e6e6e2e696e69742e6579655f 0x4368616e67655072656669784d617463686572 /- torch.nn.init.eye_ -/,
  F 0x746f7263682e6f7074696d2e4164616d6178 0x4f7074696d4164616d4d617463686572 0x706164646c652e6f7074696d697a65722e4164616d6178 1 [0x706172616d73, 0x6c72, 0x6265746173, 0x657073, 0x7765696768745f6465636179, 0x666f7265616368, 0x2a, 0x6d6178696d697a65, 0x646966666572656e746961626c65] [] [0x666f7265616368, 0x6d6178696d697a65, 0x646966666572656e746961626c65] [(0x706172616d73, false, [0x706172616d6574657273]), (0x6c72, false, [0x6c6561726e696e675f72617465]), (0x657073, false, [0x657073696c6f6e])] [] /- torch.optim.Adamax -/,
  E 0x746f7263682e72616e64696e745f6c696b65 0x4368616e67655072656669784d617463686572 /- torch.randint_like -/,
  E 0x746f7263682e736561726368736f72746564 0x4368616e67655072656669784d617463686572 /- torch.searchsorted -/,
  F 0x746f7263682e7370617273652e6164646d6d 0x47656e657269634d617463686572 0x706164646c652e7370617273652e6164646d6d 3 [0x696e707574, 0x6d617431, 0x6d617432, 0x2a, 0x62657461, 0x616c706861] [] [] [(0x6d617431, false, [0x78]), (0x6d617432, false, [0x79])] [] /- torch.sparse.addmm -/,
  E 0x746f7263682e7370656369616c2e656e7472 0 /- torch.special.entr -/,
  F 0x746f7263682e7370656369616c2e65726663 0x457266434d617463686572 0 1 [0x696e707574, 0x2a, 0x6f7574] [] [] [(0x696e707574, false, [0x78])] [] /- torch.special.erfc -/,
  F 0x746f7263682e7370656369616c2e65787032 0x457870324d617463686572 0 1 [0x696e707574, 0x2a, 0x6f7574] [] [] [] [] /- torch.special.exp2 -/,
  F 0x746f7263682e7370656369616c2e6e647472 0x5370656369616c4e6474724d617463686572 0 1 [0x696e707574, 0x2a, 0x6f7574] [] [] [] [] /- torch.special.ndtr -/]

def apiTable12 : List Raw := [
  E 0x746f7263682e7370656369616c2e73696e63 0x4368616e67655072656669784d617463686572 /- torch.special.sinc -/,
  E 0x746f7263682e7370656369616c2e7a657461 0 /- torch.special.zeta -/,
  E 0x746f7263682e74656e736f725f73706c6974 0x4368616e67655072656669784d617463686572 /- torch.tensor_split -/,
  E 0x746f7263682e7472696c5f696e6469636573 0x4368616e67655072656669784d617463686572 /- torch.tril_indices -/,
  E 0x746f7263682e747269755f696e6469636573 0x4368616e67655072656669784d617463686572 /- torch.triu_indices -/,
  E 0x746f7263682e766965775f61735f7265616c 0x4368616e67655072656669784d617463686572 /- torch.view_as_real -/,
  E 0x746f7263682e54656e736f722e5f5f65715f5f 0x4368616e67655072656669784d617463686572 /- torch.Tensor.__eq__ -/,
  E 0x746f7263682e54656e736f722e5f5f67655f5f 0x4368616e67655072656669784d617463686572 /- torch.Tensor.__ge__ -/,
  E 0x746f7263682e54656e736f722e5f5f67745f5f 0x4368616e67655072656669784d617463686572 /- torch.Tensor.__gt__ -/,
  E 0x746f7263682e54656e736f722e5f5f6c655f5f 0x4368616e67655072656669784d617463686572 /- torch.Tensor.__le__ -/,
  E 0x746f7263682e54656e736f722e5f5f6c745f5f 0x4368616e67655072656669784d617463686572 /- torch.Tensor.__lt__ -/,
  E 0x746f7263682e54656e736f722e5f5f6e655f5f 0x4368616e67655072656669784d617463686572 /- torch.Tensor.__ne__ -/,
  E 0x746f7263682e54656e736f722e5f5f6f725f5f 0x4368616e67655072656669784d617463686572 /- torch.Tensor.__or__ -/,
  E 0x746f7263682e54656e736f722e61636f73685f 0x4368616e67655072656669784d617463686572 /- torch.Tensor.acosh_ -/,
  F 0x746f7263682e54656e736f722e616464626d6d 0x416464426d6d4d617463686572 0 2 [0x626174636831, 0x626174636832, 0x2a, 0x62657461, 0x616c706861] [] [] [] [] /- torch.Tensor.addbmm -/,
  E 0x746f7263682e54656e736f722e6164646d6d5f 0x4368616e67655072656669784d617463686572 /- torch.Tensor.addmm_ -/,
  E 0x746f7263682e54656e736f722e6164646d765f 0x4368616e67655072656669784d617463686572 /- torch.Tensor.addmv_ -/,
  E 0x746f7263682e54656e736f722e6170706c795f 0x4368616e67655072656669784d617463686572 /- torch.Tensor.apply_ -/,
  E 0x746f7263682e54656e736f722e6172676d6178 0x4368616e67655072656669784d617463686572 /- torch.Tensor.argmax -/,
  E 0x746f7263682e54656e736f722e6172676d696e 0x4368616e67655072656669784d617463686572 /- torch.Tensor.argmin -/,
  E 0x746f7263682e54656e736f722e6173696e685f 0x4368616e67655072656669784d617463686572 /- torch.Tensor.asinh_ -/,
  E 0x746f7263682e54656e736f722e6174616e325f 0 /- torch.Tensor.atan2_ -/,
  E 0x746f7263682e54656e736f722e6174616e685f 0x4368616e67655072656669784d617463686572 /- torch.Tensor.atanh_ -/,
  E 0x746f7263682e54656e736f722e63666c6f6174 0x4368616e67655072656669784d617463686572 /- torch.Tensor.cfloat -/,
  E 0x746f7263682e54656e736f722e636c616d705f 0x4368616e67655072656669784d617463686572 /- torch.Tensor.clamp_ -/,
  E 0x746f7263682e54656e736f722e63756d6d6178 0x4368616e67655072656669784d617463686572 /- torch.Tensor.cummax -/,
  E 0x746f7263682e54656e736f722e63756d6d696e 0x4368616e67655072656669784d617463686572 /- torch.Tensor.cummin -/,
  E 0x746f7263682e54656e736f722e63756d73756d 0x4368616e67655072656669784d617463686572 /- torch.Tensor.cumsum -/,
  E 0x746f7263682e54656e736f722e646574616368 0x4368616e67655072656669784d617463686572 /- torch.Tensor.detach -/,
  E 0x746f7263682e54656e736f722e646976696465 0x4368616e67655072656669784d617463686572 /- torch.Tensor.divide -/,
  E 0x746f7263682e54656e736f722e646f75626c65 0x4368616e67655072656669784d617463686572 /- torch.Tensor.double -/,
  F 0x746f7263682e54656e736f722e6473706c6974 0x47656e657269634d617463686572 0x706164646c652e54656e736f722e6473706c6974 1 [0x696e6469636573] [0x73656374696f6e73] [] [(0x696e6469636573, false, [0x6e756d5f6f725f696e6469636573]), (0x73656374696f6e73, false, [0x6e756d5f6f725f696e6469636573])] [] /- torch.Tensor.dsplit -/,
  E 0x746f7263682e54656e736f722e657266696e76 0x4368616e67655072656669784d617463686572 /- torch.Tensor.erfinv -/,
  E 0x746f7263682e54656e736f722e657870616e64 0x4368616e67655072656669784d617463686572 /- torch.Tensor.expand -/,
  E 0x746f7263682e54656e736f722e6578706d315f 0x4368616e67655072656669784d617463686572 /- torch.Tensor.expm1_ -/,
  F 0x746f7263682e54656e736f722e666c69706c72 0x47656e657269634d617463686572 0x706164646c652e54656e736f722e666c6970 0 [] [] [] [] [(0x61786973, 0x31)] /- torch.Tensor.fliplr -/,
  F 0x746f7263682e54656e736f722e666c69707564 0x47656e657269634d617463686572 0x706164646c652e54656e736f722e666c6970 0 [] [] [] [] [(0x61786973, 0x30)] /- torch.Tensor.flipud -/,
  E 0x746f7263682e54656e736f722e666c6f6f725f 0x4368616e67655072656669784d617463686572 /- torch.Tensor.floor_ -/,
  E 0x746f7263682e54656e736f722e676174686572 0x4368616e67655072656669784d617463686572 /- torch.Tensor.gather -/,
  F 0x746f7263682e54656e736f722e6873706c6974 0x47656e657269634d617463686572 0x706164646c652e54656e736f722e6873706c6974 1 [0x696e6469636573] [0x73656374696f6e73] [] [(0x696e6469636573, false, [0x6e756d5f6f725f696e6469636573]), (0x73656374696f6e73, false, [0x6e756d5f6f725f696e6469636573])] [] /- torch.Tensor.hsplit -/,
  E 0x746f7263682e54656e736f722e6879706f745f 0x4368616e67655072656669784d617463686572 /- torch.Tensor.hypot_ -/,
  F 0x746f7263682e54656e736f722e6967616d6d61 0x47656e657269634d617463686572 0x706164646c652e54656e736f722e67616d6d61696e63 1 [0x6f74686572] [] [] [(0x6f74686572, false, [0x79])] [] /- torch.Tensor.igamma -/,
  E 0x746f7263682e54656e736f722e69737265616c 0x4368616e67655072656669784d617463686572 /- torch.Tensor.isreal -/,
  E 0x746f7263682e54656e736f722e6c646578705f 0x4368616e67655072656669784d617463686572 /- torch.Tensor.ldexp_ -/,
  E 0x746f7263682e54656e736f722e6c67616d6d61 0x4368616e67655072656669784d617463686572 /- torch.Tensor.lgamma -/,
  E 0x746f7263682e54656e736f722e6c6f6731305f 0x4368616e67655072656669784d617463686572 /- torch.Tensor.log10_ -/,
  E 0x746f7263682e54656e736f722e6c6f6731705f 0x4368616e67655072656669784d617463686572 /- torch.Tensor.log1p_ -/,
  F 0x746f7263682e54656e736f722e6c6f67646574 0x4c6f674465744d617463686572 0 0 [] [] [] [] [] /- torch.Tensor.logdet -/,
  E 0x746f7263682e54656e736f722e6c6f6769745f 0x4368616e67655072656669784d617463686572 /- torch.Tensor.logit_ -/,
  E 0x746f7263682e54656e736f722e6d61746d756c 0x4368616e67655072656669784d617463686572 /- torch.Tensor.matmul -/,
  F 0x746f7263682e54656e736f722e6d656469616e 0x47656e657269634d617463686572 0x706164646c652e54656e736f722e6d656469616e 0 [0x64696d, 0x6b65657064696d] [] [0x64696d] [(0x64696d, false, [0x61786973])] [] /- torch.Tensor.median -/,
  E 0x746f7263682e54656e736f722e6e616e73756d 0x4368616e67655072656669784d617463686572 /- torch.Tensor.nansum -/,
  E 0x746f7263682e54656e736f722e6e6172726f77 0x4368616e67655072656669784d617463686572 /- torch.Tensor.narrow -/,
  F 0x746f7263682e54656e736f722e72656e616d65 0x54656e736f7252656e616d654d617463686572 0 0 [0x2a6e616d6573, 0x2a2a72656e616d655f6d6170] [] [] [] [] /- torch.Tensor.rename -/,
  E 0x746f7263682e54656e736f722e72656e6f726d 0x4368616e67655072656669784d617463686572 /- torch.Tensor.renorm -/,
  E 0x746f7263682e54656e736f722e726570656174 0x4368616e67655072656669784d617463686572 /- torch.Tensor.repeat -/,
  E 0x746f7263682e54656e736f722e726f756e645f 0x4368616e67655072656669784d617463686572 /- torch.Tensor.round_ -/,
  E 0x746f7263682e54656e736f722e72737172745f 0x4368616e67655072656669784d617463686572 /- torch.Tensor.rsqrt_ -/,
  F 0x746f7263682e54656e736f722e73656c656374 0x53656c6563744d617463686572 0 2 [0x64696d, 0x696e646578] [] [] [] [] /- torch.Tensor.select -/,
  E 0x746f7263682e54656e736f722e737175617265 0x4368616e67655072656669784d617463686572 /- torch.Tensor.square -/]

def apiTable13 : List Raw := [
  E 0x746f7263682e54656e736f722e737472696465 0x4368616e67655072656669784d617463686572 /- torch.Tensor.stride -/,
  F 0x746f7263682e54656e736f722e73796d656967 0x53796d6569674d617463686572 0x706164646c652e6c696e616c672e65696768 0 [0x656967656e766563746f7273, 0x7570706572] [] [] [(0x7570706572, false, [0x55504c4f])] [] /- torch.Tensor.symeig -/,
  E 0x746f7263682e54656e736f722e746f6c697374 0x4368616e67655072656669784d617463686572 /- torch.Tensor.tolist -/,
  E 0x746f7263682e54656e736f722e7472756e635f 0x4368616e67655072656669784d617463686572 /- torch.Tensor.trunc_ -/,
  E 0x746f7263682e54656e736f722e756e62696e64 0x4368616e67655072656669784d617463686572 /- torch.Tensor.unbind -/,
  E 0x746f7263682e54656e736f722e756e666f6c64 0x4368616e67655072656669784d617463686572 /- torch.Tensor.unfold -/,
  E 0x746f7263682e54656e736f722e756e69717565 0x4368616e67655072656669784d617463686572 /- torch.Tensor.unique -/,
  E 0x746f7263682e54656e736f722e76616c756573 0x4368616e67655072656669784d617463686572 /- torch.Tensor.values -/,
  F 0x746f7263682e54656e736f722e7673706c6974 0x47656e657269634d617463686572 0x706164646c652e54656e736f722e7673706c6974 1 [0x696e6469636573] [0x73656374696f6e73] [] [(0x696e6469636573, false, [0x6e756d5f6f725f696e6469636573]), (0x73656374696f6e73, false, [0x6e756d5f6f725f696e6469636573])] [] /- torch.Tensor.vsplit -/,
  F 0x746f7263682e54656e736f722e786c6f67795f 0x584c6f67595f4d617463686572 0 1 [0x6f74686572] [] [] [] [] /- torch.Tensor.xlogy_ -/,
  F 0x746f7263682e5f666f72656163685f6162735f 0x466f72656163684d617463686572 0x706164646c652e6162735f 1 [0x73656c66] [] [] [] [] /- torch._foreach_abs_ -/,
  F 0x746f7263682e5f666f72656163685f61636f73 0x466f72656163684d617463686572 0x706164646c652e61636f73 1 [0x73656c66] [] [] [] [] /- torch._foreach_acos -/,
  F 0x746f7263682e5f666f72656163685f6173696e 0x466f72656163684d617463686572 0x706164646c652e6173696e 1 [0x73656c66] [] [] [] [] /- torch._foreach_asin -/,
  F 0x746f7263682e5f666f72656163685f6174616e 0x466f72656163684d617463686572 0x706164646c652e6174616e 1 [0x73656c66] [] [] [] [] /- torch._foreach_atan -/,
  F 0x746f7263682e5f666f72656163685f6365696c 0x466f72656163684d617463686572 0x706164646c652e6365696c 1 [0x73656c66] [] [] [] [] /- torch._foreach_ceil -/,
  F 0x746f7263682e5f666f72656163685f636f735f 0x466f72656163684d617463686572 0x706164646c652e636f735f 1 [0x73656c66] [] [] [] [] /- torch._foreach_cos_ -/,
  F 0x746f7263682e5f666f72656163685f636f7368 0x466f72656163684d617463686572 0x706164646c652e636f7368 1 [0x73656c66] [] [] [] [] /- torch._foreach_cosh -/,
  F 0x746f7263682e5f666f72656163685f6572665f 0x466f72656163684d617463686572 0x706164646c652e6572665f 1 [0x73656c66] [] [] [] [] /- torch._foreach_erf_ -/,
  F 0x746f7263682e5f666f72656163685f65726663 0x466f7265616368457266634d617463686572 0 1 [0x73656c66] [] [] [] [] /- torch._foreach_erfc -/,
  F 0x746f7263682e5f666f72656163685f6578705f 0x466f726561636854656e736f724d617463686572 0x706164646c652e54656e736f722e6578705f 1 [0x73656c66] [] [] [] [] /- torch._foreach_exp_ -/,
  F 0x746f7263682e5f666f72656163685f66726163 0x466f72656163684d617463686572 0x706164646c652e66726163 1 [0x73656c66] [] [] [] [] /- torch._foreach_frac -/,
  F 0x746f7263682e5f666f72656163685f6c6f6732 0x466f72656163684d617463686572 0x706164646c652e6c6f6732 1 [0x73656c66] [] [] [] [] /- torch._foreach_log2 -/,
  F 0x746f7263682e5f666f72656163685f6c6f675f 0x466f72656163684d617463686572 0x706164646c652e6c6f675f 1 [0x73656c66] [] [] [] [] /- torch._foreach_log_ -/,
  F 0x746f7263682e5f666f72656163685f6e65675f 0x466f72656163684d617463686572 0x706164646c652e6e65675f 1 [0x73656c66] [] [] [] [] /- torch._foreach_neg_ -/,
  F 0x746f7263682e5f666f72656163685f73696e5f 0x466f72656163684d617463686572 0x706164646c652e73696e5f 1 [0x73656c66] [] [] [] [] /- torch._foreach_sin_ -/,
  F 0x746f7263682e5f666f72656163685f73696e68 0x466f72656163684d617463686572 0x706164646c652e73696e68 1 [0x73656c66] [] [] [] [] /- torch._foreach_sinh -/,
  F 0x746f7263682e5f666f72656163685f73717274 0x466f72656163684d617463686572 0x706164646c652e73717274 1 [0x73656c66] [] [] [] [] /- torch._foreach_sqrt -/,
  F 0x746f7263682e5f666f72656163685f74616e5f 0x466f72656163684d617463686572 0x706164646c652e74616e5f 1 [0x73656c66] [] [] [] [] /- torch._foreach_tan_ -/,
  F 0x746f7263682e616c7068615f64726f706f7574 0x47656e657269634d617463686572 0x706164646c652e6e6e2e66756e6374696f6e616c2e616c7068615f64726f706f7574 3 [0x696e707574, 0x70, 0x747261696e] [] [] [(0x696e707574, false, [0x78]), (0x747261696e, false, [0x747261696e696e67])] [] /- torch.alpha_dropout -/,
  F 0x746f7263682e6175746f677261642e67726164 0x47656e657269634d617463686572 0x706164646c652e67726164 2 [0x6f757470757473, 0x696e70757473, 0x677261645f6f757470757473, 0x72657461696e5f6772617068, 0x6372656174655f6772617068, 0x6f6e6c795f696e70757473, 0x616c6c6f775f756e75736564, 0x69735f67726164735f62617463686564, 0x6d6174657269616c697a655f6772616473] [] [0x6f6e6c795f696e70757473, 0x6d6174657269616c697a655f6772616473] [(0x69735f67726164735f62617463686564, false, [0])] [] /- torch.autograd.grad -/,
  F 0x746f7263682e636f6e6a5f706879736963616c 0x47656e657269634d617463686572 0x706164646c652e636f6e6a 1 [0x696e707574, 0x2a, 0x6f7574] [] [] [(0x696e707574, false, [0x78])] [] /- torch.conj_physical -/,
  E 0x746f7263682e636f756e745f6e6f6e7a65726f 0x4368616e67655072656669784d617463686572 /- torch.count_nonzero -/,
  E 0x746f7263682e656d62656464696e675f626167 0 /- torch.embedding_bag -/,
  E 0x746f7263682e6666742e696666747368696674 0x4368616e67655072656669784d617463686572 /- torch.fft.ifftshift -/,
  E 0x746f7263682e6765745f726e675f7374617465 0x4368616e67655072656669784d617463686572 /- torch.get_rng_state -/,
  E 0x746f7263682e677265617465725f657175616c 0x4368616e67655072656669784d617463686572 /- torch.greater_equal -/,
  E 0x746f7263682e696e7374616e63655f6e6f726d 0 /- torch.instance_norm -/,
  E 0x746f7263682e6b61697365725f77696e646f77 0x4368616e67655072656669784d617463686572 /- torch.kaiser_window -/,
  F 0x746f7263682e6c696e616c672e696e765f6578 0x4c696e616c67496e7645784d617463686572 0x706164646c652e6c696e616c672e696e76 1 [0x41, 0x2a, 0x636865636b5f6572726f7273, 0x6f7574] [] [] [(0x41, false, [0x78])] [] /- torch.linalg.inv_ex -/,
  E 0x746f7263682e6c696e616c672e6d61746d756c 0x4368616e67655072656669784d617463686572 /- torch.linalg.matmul -/,
  F 0x746f7263682e6c696e616c672e76616e646572 0x47656e657269634d617463686572 0x706164646c652e76616e646572 1 [0x78, 0x2a, 0x4e] [] [] [(0x4e, false, [0x6e])] [(0x696e6372656173696e67, 0x54727565)] /- torch.linalg.vander -/,
  F 0x746f7263682e6c696e616c672e766563646f74 0x47656e657269634d617463686572 0x706164646c652e6c696e616c672e766563646f74 1 [0x78, 0x79, 0x2a, 0x64696d, 0x6f7574] [] [] [(0x64696d, false, [0x61786973])] [] /- torch.linalg.vecdot -/,
  E 0x746f7263682e6d61736b65645f73656c656374 0x4368616e67655072656669784d617463686572 /- torch.masked_select -/,
  E 0x746f7263682e6e6e2e48617264736872696e6b 0x4368616e67655072656669784d617463686572 /- torch.nn.Hardshrink -/,
  E 0x746f7263682e6e6e2e4c6f675369676d6f6964 0x4368616e67655072656669784d617463686572 /- torch.nn.LogSigmoid -/,
  F 0x746f7263682e6e6e2e4c6f67536f66746d6178 0x4c6f67536f66746d61784d617463686572 0x706164646c652e6e6e2e4c6f67536f66746d6178 0 [0x64696d] [] [] [(0x64696d, false, [0x61786973])] [(0x61786973, 0x30)] /- torch.nn.LogSoftmax -/,
  E 0x746f7263682e6e6e2e4d6f64756c652e637075 0x4368616e67655072656669784d617463686572 /- torch.nn.Module.cpu -/,
  F 0x746f7263682e6e6e2e4d6f64756c652e697075 0 0 0 [] [] [] [] [] /- torch.nn.Module.ipu -/,
  E 0x746f7263682e6e6e2e4d6f64756c652e787075 0x4368616e67655072656669784d617463686572 /- torch.nn.Module.xpu -/,
  E 0x746f7263682e6e6e2e4d6f64756c6544696374 0x4368616e67655072656669784d617463686572 /- torch.nn.ModuleDict -/,
  E 0x746f7263682e6e6e2e4d6f64756c654c697374 0x4368616e67655072656669784d617463686572 /- torch.nn.ModuleList -/,
  E 0x746f7263682e6e6e2e53657175656e7469616c 0x4368616e67655072656669784d617463686572 /- torch.nn.Sequential -/,
  E 0x746f7263682e6e6e2e536f6674736872696e6b 0x4368616e67655072656669784d617463686572 /- torch.nn.Softshrink -/,
  E 0x746f7263682e6e6e2e54616e68736872696e6b 0x4368616e67655072656669784d617463686572 /- torch.nn.Tanhshrink -/,
  E 0x746f7263682e6e6e2e696e69742e6f6e65735f 0x4368616e67655072656669784d617463686572 /- torch.nn.init.ones_ -/,
  E 0x746f7263682e6f7074696d2e41646167726164 0x4368616e67655072656669784d617463686572 /- torch.optim.Adagrad -/,
  F 0x746f7263682e6f7074696d2e524d5370726f70 0x47656e657269634d617463686572 0x706164646c652e6f7074696d697a65722e524d5350726f70 1 [0x706172616d73, 0x6c72, 0x616c706861, 0x657073, 0x7765696768745f6465636179, 0x6d6f6d656e74756d, 0x63656e7465726564, 0x666f7265616368, 0x6d6178696d697a65, 0x646966666572656e746961626c65] [] [0x666f7265616368, 0x6d6178696d697a65, 0x646966666572656e746961626c65] [(0x706172616d73, false, [0x706172616d6574657273]), (0x6c72, false, [0x6c6561726e696e675f72617465]), (0x616c706861, false, [0x72686f]), (0x657073, false, [0x657073696c6f6e])] [(0x7765696768745f6465636179, 0x302e30), (0x657073696c6f6e, 0x31652d3038), (0x6c6561726e696e675f72617465, 0x302e3031), (0x72686f, 0x302e3939)] /- torch.optim.RMSprop -/,
  E 0x746f7263682e6f7074696d2e7367642e534744 0x4368616e67655072656669784d617463686572 /- torch.optim.sgd.SGD -/,
  F 0x746f7263682e7363616c61725f74656e736f72 0x47656e657269634d617463686572 0x706164646c652e746f5f74656e736f72 1 [0x73, 0x2a, 0x6474797065, 0x6c61796f7574, 0x646576696365, 0x72657175697265735f67726164, 0x70696e5f6d656d6f7279] [] [] [(0x73, false, [0x64617461]), (0x6474797065, false, [0x6474797065]), (0x646576696365, false, [0x706c616365])] [(0x6474797065, 0x706164646c652e666c6f61743332)] /- torch.scalar_tensor -/,
  E 0x746f7263682e7365745f726e675f7374617465 0x4368616e67655072656669784d617463686572 /- torch.set_rng_state -/]

def apiTable14 : List Raw := [
  E 0x746f7263682e736c6963655f73636174746572 0x4368616e67655072656669784d617463686572 /- torch.slice_scatter -/,
  F 0x746f7263682e7370656369616c2e6572666378 0x5370656369616c45726663784d617463686572 0 1 [0x696e707574, 0x2a, 0x6f7574] [] [] [] [] /- torch.special.erfcx -/,
  F 0x746f7263682e7370656369616c2e6578706974 0x45787069744d617463686572 0 1 [0x696e707574, 0x2a, 0x6f7574] [] [] [] [] /- torch.special.expit -/,
  E 0x746f7263682e7370656369616c2e6578706d31 0x4368616e67655072656669784d617463686572 /- torch.special.expm1 -/,
  F 0x746f7263682e7370656369616c2e6c6f673170 0x47656e657269634d617463686572 0x706164646c652e6c6f673170 1 [0x696e707574, 0x2a, 0x6f7574] [] [] [(0x696e707574, false, [0x78])] [] /- torch.special.log1p -/,
  E 0x746f7263682e7370656369616c2e6c6f676974 0x4368616e67655072656669784d617463686572 /- torch.special.logit -/,
  F 0x746f7263682e7370656369616c2e6e64747269 0x5370656369616c4e647472694d617463686572 0 1 [0x696e707574, 0x2a, 0x6f7574] [] [] [] [] /- torch.special.ndtri -/,
  E 0x746f7263682e7370656369616c2e726f756e64 0x4368616e67655072656669784d617463686572 /- torch.special.round -/,
  F 0x746f7263682e7370656369616c2e786c6f6779 0x584c6f67594d617463686572 0 2 [0x696e707574, 0x6f74686572, 0x2a, 0x6f7574] [] [] [] [] /- torch.special.xlogy -/,
  F 0x746f726368766973696f6e2e6f70732e6e6d73 0x47656e657269634d617463686572 0x706164646c652e766973696f6e2e6f70732e6e6d73 0 [0x626f786573, 0x73636f726573, 0x696f755f7468726573686f6c64] [] [] [] [] /- torchvision.ops.nms -/,
  E 0x746f7263682e42466c6f6174313654656e736f72 0x4368616e67655072656669784d617463686572 /- torch.BFloat16Tensor -/,
  E 0x746f7263682e54656e736f722e5f5f6164645f5f 0x4368616e67655072656669784d617463686572 /- torch.Tensor.__add__ -/,
  E 0x746f7263682e54656e736f722e5f5f616e645f5f 0x4368616e67655072656669784d617463686572 /- torch.Tensor.__and__ -/,
  E 0x746f7263682e54656e736f722e5f5f696e745f5f 0x4368616e67655072656669784d617463686572 /- torch.Tensor.__int__ -/,
  E 0x746f7263682e54656e736f722e5f5f696f725f5f 0x4368616e67655072656669784d617463686572 /- torch.Tensor.__ior__ -/,
  E 0x746f7263682e54656e736f722e5f5f6c656e5f5f 0x4368616e67655072656669784d617463686572 /- torch.Tensor.__len__ -/,
  E 0x746f7263682e54656e736f722e5f5f6d756c5f5f 0x4368616e67655072656669784d617463686572 /- torch.Tensor.__mul__ -/,
  E 0x746f7263682e54656e736f722e5f5f6e65675f5f 0x4368616e67655072656669784d617463686572 /- torch.Tensor.__neg__ -/,
  E 0x746f7263682e54656e736f722e5f5f706f775f5f 0x4368616e67655072656669784d617463686572 /- torch.Tensor.__pow__ -/,
  E 0x746f7263682e54656e736f722e5f5f7375625f5f 0x4368616e67655072656669784d617463686572 /- torch.Tensor.__sub__ -/,
  E 0x746f7263682e54656e736f722e5f5f786f725f5f 0x4368616e67655072656669784d617463686572 /- torch.Tensor.__xor__ -/,
  F 0x746f7263682e54656e736f722e616464626d6d5f 0x416464426d6d5f4d617463686572 0 2 [0x626174636831, 0x626174636832, 0x2a, 0x62657461, 0x616c706861] [] [] [] [] /- torch.Tensor.addbmm_ -/,
  E 0x746f7263682e54656e736f722e61646463646976 0x4368616e67655072656669784d617463686572 /- torch.Tensor.addcdiv -/,
  F 0x746f7263682e54656e736f722e616464636d756c 0x416464434d756c4d617463686572 0 2 [0x74656e736f7231, 0x74656e736f7232, 0x2a, 0x76616c7565] [] [] [] [] /- torch.Tensor.addcmul -/,
  F 0x746f7263682e54656e736f722e61646a6f696e74 0x41646a6f696e744d617463686572 0 0 [] [] [] [] [] /- torch.Tensor.adjoint -/,
  E 0x746f7263682e54656e736f722e616d696e6d6178 0x4368616e67655072656669784d617463686572 /- torch.Tensor.aminmax -/,
  E 0x746f7263682e54656e736f722e617267736f7274 0x4368616e67655072656669784d617463686572 /- torch.Tensor.argsort -/,
  E 0x746f7263682e54656e736f722e62616464626d6d 0x4368616e67655072656669784d617463686572 /- torch.Tensor.baddbmm -/,
  E 0x746f7263682e54656e736f722e6361756368795f 0x4368616e67655072656669784d617463686572 /- torch.Tensor.cauchy_ -/,
  E 0x746f7263682e54656e736f722e63646f75626c65 0x4368616e67655072656669784d617463686572 /- torch.Tensor.cdouble -/,
  E 0x746f7263682e54656e736f722e63756d70726f64 0x4368616e67655072656669784d617463686572 /- torch.Tensor.cumprod -/,
  E 0x746f7263682e54656e736f722e63756d73756d5f 0x4368616e67655072656669784d617463686572 /- torch.Tensor.cumsum_ -/,
  E 0x746f7263682e54656e736f722e64656732726164 0x4368616e67655072656669784d617463686572 /- torch.Tensor.deg2rad -/,
  E 0x746f7263682e54656e736f722e6465746163685f 0x4368616e67655072656669784d617463686572 /- torch.Tensor.detach_ -/,
  E 0x746f7263682e54656e736f722e646967616d6d61 0x4368616e67655072656669784d617463686572 /- torch.Tensor.digamma -/,
  E 0x746f7263682e54656e736f722e6469766964655f 0x4368616e67655072656669784d617463686572 /- torch.Tensor.divide_ -/,
  E 0x746f7263682e54656e736f722e657266696e765f 0x4368616e67655072656669784d617463686572 /- torch.Tensor.erfinv_ -/,
  E 0x746f7263682e54656e736f722e666c617474656e 0x4368616e67655072656669784d617463686572 /- torch.Tensor.flatten -/,
  E 0x746f7263682e54656e736f722e67726561746572 0x4368616e67655072656669784d617463686572 /- torch.Tensor.greater -/,
  F 0x746f7263682e54656e736f722e6967616d6d615f 0x47656e657269634d617463686572 0x706164646c652e54656e736f722e67616d6d61696e635f 1 [0x6f74686572] [] [] [(0x6f74686572, false, [0x79])] [] /- torch.Tensor.igamma_ -/,
  F 0x746f7263682e54656e736f722e6967616d6d6163 0x47656e657269634d617463686572 0x706164646c652e54656e736f722e67616d6d61696e6363 1 [0x6f74686572] [] [] [(0x6f74686572, false, [0x79])] [] /- torch.Tensor.igammac -/,
  E 0x746f7263682e54656e736f722e696e6469636573 0x4368616e67655072656669784d617463686572 /- torch.Tensor.indices -/,
  E 0x746f7263682e54656e736f722e696e7665727365 0x4368616e67655072656669784d617463686572 /- torch.Tensor.inverse -/,
  E 0x746f7263682e54656e736f722e69735f636f6e6a 0 /- torch.Tensor.is_conj -/,
  E 0x746f7263682e54656e736f722e6973636c6f7365 0x4368616e67655072656669784d617463686572 /- torch.Tensor.isclose -/,
  E 0x746f7263682e54656e736f722e6c67616d6d615f 0x4368616e67655072656669784d617463686572 /- torch.Tensor.lgamma_ -/,
  E 0x746f7263682e54656e736f722e6d6178696d756d 0x4368616e67655072656669784d617463686572 /- torch.Tensor.maximum -/,
  E 0x746f7263682e54656e736f722e6d696e696d756d 0x4368616e67655072656669784d617463686572 /- torch.Tensor.minimum -/,
  E 0x746f7263682e54656e736f722e6d6f766564696d 0x4368616e67655072656669784d617463686572 /- torch.Tensor.movedim -/,
  E 0x746f7263682e54656e736f722e6e616e6d65616e 0x4368616e67655072656669784d617463686572 /- torch.Tensor.nanmean -/,
  E 0x746f7263682e54656e736f722e6e6f6e7a65726f 0x4368616e67655072656669784d617463686572 /- torch.Tensor.nonzero -/,
  E 0x746f7263682e54656e736f722e6e6f726d616c5f 0x4368616e67655072656669784d617463686572 /- torch.Tensor.normal_ -/,
  E 0x746f7263682e54656e736f722e7065726d757465 0x4368616e67655072656669784d617463686572 /- torch.Tensor.permute -/,
  E 0x746f7263682e54656e736f722e715f7363616c65 0 /- torch.Tensor.q_scale -/,
  E 0x746f7263682e54656e736f722e71736368656d65 0 /- torch.Tensor.qscheme -/,
  E 0x746f7263682e54656e736f722e72616432646567 0x4368616e67655072656669784d617463686572 /- torch.Tensor.rad2deg -/,
  E 0x746f7263682e54656e736f722e72616e646f6d5f 0x4368616e67655072656669784d617463686572 /- torch.Tensor.random_ -/,
  F 0x746f7263682e54656e736f722e72656e616d655f 0 0 0 [] [] [] [] [] /- torch.Tensor.rename_ -/,
  E 0x746f7263682e54656e736f722e72656e6f726d5f 0x4368616e67655072656669784d617463686572 /- torch.Tensor.renorm_ -/,
  E 0x746f7263682e54656e736f722e72657368617065 0x4368616e67655072656669784d617463686572 /- torch.Tensor.reshape -/]

def apiTable15 : List Raw := [
  E 0x746f7263682e54656e736f722e726573697a655f 0x4368616e67655072656669784d617463686572 /- torch.Tensor.resize_ -/,
  E 0x746f7263682e54656e736f722e73636174746572 0x4368616e67655072656669784d617463686572 /- torch.Tensor.scatter -/,
  E 0x746f7263682e54656e736f722e7369676d6f6964 0x4368616e67655072656669784d617463686572 /- torch.Tensor.sigmoid -/,
  E 0x746f7263682e54656e736f722e7369676e626974 0x4368616e67655072656669784d617463686572 /- torch.Tensor.signbit -/,
  F 0x746f7263682e54656e736f722e736c6f67646574 0x534c6f674465744d617463686572 0x706164646c652e6c696e616c672e736c6f67646574 0 [] [] [] [] [] /- torch.Tensor.slogdet -/,
  E 0x746f7263682e54656e736f722e736f66746d6178 0x4368616e67655072656669784d617463686572 /- torch.Tensor.softmax -/,
  E 0x746f7263682e54656e736f722e7371756172655f 0x4368616e67655072656669784d617463686572 /- torch.Tensor.square_ -/,
  E 0x746f7263682e54656e736f722e73717565657a65 0x4368616e67655072656669784d617463686572 /- torch.Tensor.squeeze -/,
  F 0x746f7263682e54656e736f722e73746f72616765 0 0 0 [] [] [] [] [] /- torch.Tensor.storage -/,
  E 0x746f7263682e54656e736f722e747970655f6173 0x4368616e67655072656669784d617463686572 /- torch.Tensor.type_as -/,
  E 0x746f7263682e54656e736f722e766965775f6173 0x4368616e67655072656669784d617463686572 /- torch.Tensor.view_as -/,
  F 0x746f7263682e5f666f72656163685f61636f735f 0x466f72656163684d617463686572 0x706164646c652e61636f735f 1 [0x73656c66] [] [] [] [] /- torch._foreach_acos_ -/,
  F 0x746f7263682e5f666f72656163685f6173696e5f 0x466f72656163684d617463686572 0x706164646c652e6173696e5f 1 [0x73656c66] [] [] [] [] /- torch._foreach_asin_ -/,
  F 0x746f7263682e5f666f72656163685f6174616e5f 0x466f72656163684d617463686572 0x706164646c652e6174616e5f 1 [0x73656c66] [] [] [] [] /- torch._foreach_atan_ -/,
  F 0x746f7263682e5f666f72656163685f6365696c5f 0x466f726561636854656e736f724d617463686572 0x706164646c652e54656e736f722e6365696c5f 1 [0x73656c66] [] [] [] [] /- torch._foreach_ceil_ -/,
  F 0x746f7263682e5f666f72656163685f636f73685f 0x466f72656163684d617463686572 0x706164646c652e636f73685f 1 [0x73656c66] [] [] [] [] /- torch._foreach_cosh_ -/,
  F 0x746f7263682e5f666f72656163685f657266635f 0x466f7265616368457266635f4d617463686572 0 1 [0x73656c66] [] [] [] [] /- torch._foreach_erfc_ -/,
  F 0x746f7263682e5f666f72656163685f6578706d31 0x466f72656163684d617463686572 0x706164646c652e6578706d31 1 [0x73656c66] [] [] [] [] /- torch._foreach_expm1 -/,
  F 0x746f7263682e5f666f72656163685f666c6f6f72 0x466f72656163684d617463686572 0x706164646c652e666c6f6f72 1 [0x73656c66] [] [] [] [] /- torch._foreach_floor -/,
  F 0x746f7263682e5f666f72656163685f667261635f 0x466f72656163684d617463686572 0x706164646c652e667261635f 1 [0x73656c66] [] [] [] [] /- torch._foreach_frac_ -/,
  F 0x746f7263682e5f666f72656163685f6c6f673130 0x466f72656163684d617463686572 0x706164646c652e6c6f673130 1 [0x73656c66] [] [] [] [] /- torch._foreach_log10 -/,
  F 0x746f7263682e5f666f72656163685f6c6f673170 0x466f72656163684d617463686572 0x706164646c652e6c6f673170 1 [0x73656c66] [] [] [] [] /- torch._foreach_log1p -/,
  F 0x746f7263682e5f666f72656163685f6c6f67325f 0x466f72656163684d617463686572 0x706164646c652e6c6f67325f 1 [0x73656c66] [] [] [] [] /- torch._foreach_log2_ -/,
  F 0x746f7263682e5f666f72656163685f726f756e64 0x466f72656163684d617463686572 0x706164646c652e726f756e64 1 [0x73656c66] [] [] [] [] /- torch._foreach_round -/,
  F 0x746f7263682e5f666f72656163685f73696e685f 0x466f72656163684d617463686572 0x706164646c652e73696e685f 1 [0x73656c66] [] [] [] [] /- torch._foreach_sinh_ -/,
  F 0x746f7263682e5f666f72656163685f737172745f 0x466f726561636854656e736f724d617463686572 0x706164646c652e54656e736f722e737172745f 1 [0x73656c66] [] [] [] [] /- torch._foreach_sqrt_ -/,
  F 0x746f7263682e5f666f72656163685f7472756e63 0x466f72656163684d617463686572 0x706164646c652e7472756e63 1 [0x73656c66] [] [] [] [] /- torch._foreach_trunc -/,
  F 0x746f7263682e5f666f72656163685f7a65726f5f 0x466f726561636854656e736f724d617463686572 0x706164646c652e54656e736f722e7a65726f5f 1 [0x73656c66] [] [] [] [] /- torch._foreach_zero_ -/,
  E 0x746f7263682e63617274657369616e5f70726f64 0x4368616e67655072656669784d617463686572 /- torch.cartesian_prod -/,
  F 0x746f7263682e63686f6c65736b795f736f6c7665 0x47656e657269634d617463686572 0x706164646c652e6c696e616c672e63686f6c65736b795f736f6c7665 2 [0x696e707574, 0x696e70757432, 0x7570706572, 0x2a, 0x6f7574] [] [] [(0x696e707574, false, [0x78]), (0x696e70757432, false, [0x79])] [] /- torch.cholesky_solve -/,
  F 0x746f7263682e6370752e7365745f646576696365 0x446576696365325374724d617463686572 0x706164646c652e6465766963652e7365745f646576696365 1 [0x646576696365] [] [] [(0x646576696365, false, [0x646576696365])] [] /- torch.cpu.set_device -/,
  E 0x746f7263682e637564612e435544414772617068 0x4368616e67655072656669784d617463686572 /- torch.cuda.CUDAGraph -/,
  E 0x746f7263682e637564612e496e7454656e736f72 0x4368616e67655072656669784d617463686572 /- torch.cuda.IntTensor -/,
  E 0x746f7263682e68616d6d696e675f77696e646f77 0x4368616e67655072656669784d617463686572 /- torch.hamming_window -/,
  E 0x746f7263682e696e666572656e63655f6d6f6465 0x4368616e67655072656669784d617463686572 /- torch.inference_mode -/,
  F 0x746f7263682e6c696e616c672e65696776616c73 0x47656e657269634d617463686572 0x706164646c652e6c696e616c672e65696776616c73 1 [0x696e707574, 0x2a, 0x6f7574] [] [] [(0x696e707574, false, [0x78])] [] /- torch.linalg.eigvals -/,
  F 0x746f7263682e6c696e616c672e736c6f67646574 0x534c6f674465744d617463686572 0x706164646c652e6c696e616c672e736c6f67646574 1 [0x41, 0x2a, 0x6f7574] [] [] [] [] /- torch.linalg.slogdet -/,
  F 0x746f7263682e6c696e616c672e73766476616c73 0x47656e657269634d617463686572 0x706164646c652e6c696e616c672e73766476616c73 1 [0x41, 0x2a, 0x647269766572, 0x6f7574] [] [] [(0x41, false, [0x78]), (0x647269766572, false, [0])] [] /- torch.linalg.svdvals -/,
  P 0x746f7263682e6e6e2e42617463684e6f726d3164 0x4368616e67654150494d617463686572 0x706164646c652e636f6d7061742e6e6e2e42617463684e6f726d3164 /- torch.nn.BatchNorm1d -/,
  P 0x746f7263682e6e6e2e42617463684e6f726d3264 0x4368616e67654150494d617463686572 0x706164646c652e636f6d7061742e6e6e2e42617463684e6f726d3264 /- torch.nn.BatchNorm2d -/,
  P 0x746f7263682e6e6e2e42617463684e6f726d3364 0x4368616e67654150494d617463686572 0x706164646c652e636f6d7061742e6e6e2e42617463684e6f726d3364 /- torch.nn.BatchNorm3d -/,
  F 0x746f7263682e6e6e2e486172647369676d6f6964 0x47656e657269634d617463686572 0x706164646c652e6e6e2e486172647369676d6f6964 0 [0x696e706c616365] [] [] [] [] /- torch.nn.Hardsigmoid -/,
  E 0x746f7263682e6e6e2e4d6178556e706f6f6c3164 0x4368616e67655072656669784d617463686572 /- torch.nn.MaxUnpool1d -/,
  E 0x746f7263682e6e6e2e4d6178556e706f6f6c3264 0x4368616e67655072656669784d617463686572 /- torch.nn.MaxUnpool2d -/,
  E 0x746f7263682e6e6e2e4d6178556e706f6f6c3364 0x4368616e67655072656669784d617463686572 /- torch.nn.MaxUnpool3d -/,
  E 0x746f7263682e6e6e2e4d6f64756c652e63756461 0x4368616e67655072656669784d617463686572 /- torch.nn.Module.cuda -/,
  E 0x746f7263682e6e6e2e4d6f64756c652e6576616c 0x4368616e67655072656669784d617463686572 /- torch.nn.Module.eval -/,
  E 0x746f7263682e6e6e2e4d6f64756c652e68616c66 0x4368616e67655072656669784d617463686572 /- torch.nn.Module.half -/,
  E 0x746f7263682e6e6e2e4d6f64756c652e74797065 0x4368616e67655072656669784d617463686572 /- torch.nn.Module.type -/,
  F 0x746f7263682e6e6e2e5472616e73666f726d6572 0x47656e657269634d617463686572 0x706164646c652e6e6e2e5472616e73666f726d6572 0 [0x645f6d6f64656c, 0x6e68656164, 0x6e756d5f656e636f6465725f6c6179657273, 0x6e756d5f6465636f6465725f6c6179657273, 0x64696d5f66656564666f7277617264, 0x64726f706f7574, 0x61637469766174696f6e, 0x637573746f6d5f656e636f646572, 0x637573746f6d5f6465636f646572, 0x6c617965725f6e6f726d5f657073, 0x62617463685f6669727374, 0x6e6f726d5f6669727374, 0x62696173, 0x646576696365, 0x6474797065] [] [0x6c617965725f6e6f726d5f657073, 0x62617463685f6669727374] [(0x6e6f726d5f6669727374, false, [0x6e6f726d616c697a655f6265666f7265]), (0x62696173, false, [0x626961735f61747472]), (0x646576696365, false, [0]), (0x6474797065, false, [0])] [] /- torch.nn.Transformer -/,
  E 0x746f7263682e6e6e2e696e69742e64697261635f 0x4368616e67655072656669784d617463686572 /- torch.nn.init.dirac_ -/,
  E 0x746f7263682e6e6e2e696e69742e7a65726f735f 0x4368616e67655072656669784d617463686572 /- torch.nn.init.zeros_ -/,
  F 0x746f7263682e6f7074696d2e41646164656c7461 0x47656e657269634d617463686572 0x706164646c652e6f7074696d697a65722e41646164656c7461 1 [0x706172616d73, 0x6c72, 0x72686f, 0x657073, 0x7765696768745f6465636179, 0x666f7265616368, 0x2a, 0x6d6178696d697a65, 0x646966666572656e746961626c65] [] [0x666f7265616368, 0x6d6178696d697a65, 0x646966666572656e746961626c65] [(0x706172616d73, false, [0x706172616d6574657273]), (0x6c72, false, [0x6c6561726e696e675f72617465]), (0x657073, false, [0x657073696c6f6e])] [(0x72686f, 0x302e39), (0x7765696768745f6465636179, 0x302e30), (0x6c6561726e696e675f72617465, 0x312e30)] /- torch.optim.Adadelta -/,
  E 0x746f7263682e736361747465725f726564756365 0x4368616e67655072656669784d617463686572 /- torch.scatter_reduce -/,
  E 0x746f7263682e73656c6563745f73636174746572 0x4368616e67655072656669784d617463686572 /- torch.select_scatter -/,
  F 0x746f7263682e7370617273652e736f66746d6178 0x537061727365536f66746d61784d617463686572 0x706164646c652e7370617273652e6e6e2e66756e6374696f6e616c2e736f66746d6178 2 [0x696e707574, 0x64696d, 0x2a, 0x6474797065] [] [] [(0x696e707574, false, [0x78]), (0x64696d, false, [0x61786973])] [] /- torch.sparse.softmax -/,
  F 0x746f7263682e7370656369616c2e657266696e76 0x47656e657269634d617463686572 0x706164646c652e657266696e76 1 [0x696e707574, 0x2a, 0x6f7574] [] [] [(0x696e707574, false, [0x78])] [] /- torch.special.erfinv -/,
  E 0x746f7263682e74616b655f616c6f6e675f64696d 0x4368616e67655072656669784d617463686572 /- torch.take_along_dim -/,
  E 0x746f7263682e54656e736f722e5f5f626f6f6c5f5f 0x4368616e67655072656669784d617463686572 /- torch.Tensor.__bool__ -/,
  E 0x746f7263682e54656e736f722e5f5f726164645f5f 0x4368616e67655072656669784d617463686572 /- torch.Tensor.__radd__ -/]

def apiTable16 : List Raw := [
  E 0x746f7263682e54656e736f722e5f5f726d756c5f5f 0x4368616e67655072656669784d617463686572 /- torch.Tensor.__rmul__ -/,
  E 0x746f7263682e54656e736f722e5f5f72706f775f5f 0x4368616e67655072656669784d617463686572 /- torch.Tensor.__rpow__ -/,
  E 0x746f7263682e54656e736f722e5f5f727375625f5f 0x4368616e67655072656669784d617463686572 /- torch.Tensor.__rsub__ -/,
  E 0x746f7263682e54656e736f722e6162736f6c757465 0x4368616e67655072656669784d617463686572 /- torch.Tensor.absolute -/,
  E 0x746f7263682e54656e736f722e616464636469765f 0x4368616e67655072656669784d617463686572 /- torch.Tensor.addcdiv_ -/,
  F 0x746f7263682e54656e736f722e616464636d756c5f 0x416464434d756c5f4d617463686572 0 2 [0x74656e736f7231, 0x74656e736f7232, 0x2a, 0x76616c7565] [] [] [] [] /- torch.Tensor.addcmul_ -/,
  E 0x746f7263682e54656e736f722e616c69676e5f6173 0 /- torch.Tensor.align_as -/,
  F 0x746f7263682e54656e736f722e616c69676e5f746f 0 0 0 [] [] [] [] [] /- torch.Tensor.align_to -/,
  F 0x746f7263682e54656e736f722e616c6c636c6f7365 0x416c6c636c6f73654d617463686572 0x706164646c652e54656e736f722e616c6c636c6f7365 1 [0x6f74686572, 0x72746f6c, 0x61746f6c, 0x657175616c5f6e616e] [] [] [(0x6f74686572, false, [0x79])] [] /- torch.Tensor.allclose -/,
  F 0x746f7263682e54656e736f722e6172677768657265 0x4368616e67654150494d617463686572 0x706164646c652e54656e736f722e6e6f6e7a65726f 0 [] [] [] [] [] /- torch.Tensor.argwhere -/,
  E 0x746f7263682e54656e736f722e6261636b77617264 0x4368616e67655072656669784d617463686572 /- torch.Tensor.backward -/,
  E 0x746f7263682e54656e736f722e62616464626d6d5f 0x4368616e67655072656669784d617463686572 /- torch.Tensor.baddbmm_ -/,
  E 0x746f7263682e54656e736f722e62666c6f61743136 0x4368616e67655072656669784d617463686572 /- torch.Tensor.bfloat16 -/,
  E 0x746f7263682e54656e736f722e62696e636f756e74 0x4368616e67655072656669784d617463686572 /- torch.Tensor.bincount -/,
  E 0x746f7263682e54656e736f722e63686f6c65736b79 0x4368616e67655072656669784d617463686572 /- torch.Tensor.cholesky -/,
  E 0x746f7263682e54656e736f722e636f616c65736365 0x4368616e67655072656669784d617463686572 /- torch.Tensor.coalesce -/,
  E 0x746f7263682e54656e736f722e636f70797369676e 0x4368616e67655072656669784d617463686572 /- torch.Tensor.copysign -/,
  E 0x746f7263682e54656e736f722e636f7272636f6566 0x4368616e67655072656669784d617463686572 /- torch.Tensor.corrcoef -/,
  E 0x746f7263682e54656e736f722e63756d70726f645f 0x4368616e67655072656669784d617463686572 /- torch.Tensor.cumprod_ -/,
  E 0x746f7263682e54656e736f722e646174615f707472 0x4368616e67655072656669784d617463686572 /- torch.Tensor.data_ptr -/,
  E 0x746f7263682e54656e736f722e64696167666c6174 0x4368616e67655072656669784d617463686572 /- torch.Tensor.diagflat -/,
  E 0x746f7263682e54656e736f722e646961676f6e616c 0x4368616e67655072656669784d617463686572 /- torch.Tensor.diagonal -/,
  E 0x746f7263682e54656e736f722e646967616d6d615f 0x4368616e67655072656669784d617463686572 /- torch.Tensor.digamma_ -/,
  F 0x746f7263682e54656e736f722e6967616d6d61635f 0x47656e657269634d617463686572 0x706164646c652e54656e736f722e67616d6d61696e63635f 1 [0x6f74686572] [] [] [(0x6f74686572, false, [0x79])] [] /- torch.Tensor.igammac_ -/,
  E 0x746f7263682e54656e736f722e696e745f72657072 0 /- torch.Tensor.int_repr -/,
  E 0x746f7263682e54656e736f722e697366696e697465 0x4368616e67655072656669784d617463686572 /- torch.Tensor.isfinite -/,
  E 0x746f7263682e54656e736f722e69736e6567696e66 0x4368616e67655072656669784d617463686572 /- torch.Tensor.isneginf -/,
  E 0x746f7263682e54656e736f722e6973706f73696e66 0x4368616e67655072656669784d617463686572 /- torch.Tensor.isposinf -/,
  E 0x746f7263682e54656e736f722e6b746876616c7565 0x4368616e67655072656669784d617463686572 /- torch.Tensor.kthvalue -/,
  F 0x746f7263682e54656e736f722e6c755f736f6c7665 0x54656e736f7246756e6332506164646c6546756e63 0x706164646c652e6c696e616c672e6c755f736f6c7665 0 [0x4c555f64617461, 0x4c555f7069766f7473] [] [] [(0x4c555f64617461, false, [0x6c75]), (0x4c555f7069766f7473, false, [0x7069766f7473])] [] /- torch.Tensor.lu_solve -/,
  E 0x746f7263682e54656e736f722e6d6f766561786973 0x4368616e67655072656669784d617463686572 /- torch.Tensor.moveaxis -/,
  E 0x746f7263682e54656e736f722e6d756c7469706c79 0x4368616e67655072656669784d617463686572 /- torch.Tensor.multiply -/,
  F 0x746f7263682e54656e736f722e6d766c67616d6d61 0x4368616e67654150494d617463686572 0x706164646c652e54656e736f722e6d756c746967616d6d616c6e 1 [] [] [] [] [] /- torch.Tensor.mvlgamma -/,
  F 0x746f7263682e54656e736f722e6e65676174697665 0x4368616e67654150494d617463686572 0x706164646c652e54656e736f722e6e6567 0 [] [] [] [] [] /- torch.Tensor.negative -/,
  E 0x746f7263682e54656e736f722e6e656c656d656e74 0x4368616e67655072656669784d617463686572 /- torch.Tensor.nelement -/,
  E 0x746f7263682e54656e736f722e6e65775f66756c6c 0x4368616e67655072656669784d617463686572 /- torch.Tensor.new_full -/,
  E 0x746f7263682e54656e736f722e6e65775f6f6e6573 0x4368616e67655072656669784d617463686572 /- torch.Tensor.new_ones -/,
  E 0x746f7263682e54656e736f722e70696e7665727365 0x4368616e67655072656669784d617463686572 /- torch.Tensor.pinverse -/,
  E 0x746f7263682e54656e736f722e706f736974697665 0x4368616e67655072656669784d617463686572 /- torch.Tensor.positive -/,
  E 0x746f7263682e54656e736f722e7175616e74696c65 0x4368616e67655072656669784d617463686572 /- torch.Tensor.quantile -/,
  E 0x746f7263682e54656e736f722e736361747465725f 0x4368616e67655072656669784d617463686572 /- torch.Tensor.scatter_ -/,
  E 0x746f7263682e54656e736f722e7369676d6f69645f 0x4368616e67655072656669784d617463686572 /- torch.Tensor.sigmoid_ -/,
  E 0x746f7263682e54656e736f722e73717565657a655f 0x4368616e67655072656669784d617463686572 /- torch.Tensor.squeeze_ -/,
  E 0x746f7263682e54656e736f722e7373706164646d6d 0 /- torch.Tensor.sspaddmm -/,
  E 0x746f7263682e54656e736f722e7375627472616374 0x4368616e67655072656669784d617463686572 /- torch.Tensor.subtract -/,
  E 0x746f7263682e54656e736f722e7377617061786573 0x4368616e67655072656669784d617463686572 /- torch.Tensor.swapaxes -/,
  E 0x746f7263682e54656e736f722e7377617064696d73 0x4368616e67655072656669784d617463686572 /- torch.Tensor.swapdims -/,
  E 0x746f7263682e54656e736f722e746f5f64656e7365 0x4368616e67655072656669784d617463686572 /- torch.Tensor.to_dense -/,
  E 0x746f7263682e54656e736f722e756e69666f726d5f 0x4368616e67655072656669784d617463686572 /- torch.Tensor.uniform_ -/,
  F 0x746f7263682e5f666f72656163685f6578706d315f 0x466f72656163684d617463686572 0x706164646c652e6578706d315f 1 [0x73656c66] [] [] [] [] /- torch._foreach_expm1_ -/,
  F 0x746f7263682e5f666f72656163685f666c6f6f725f 0x466f726561636854656e736f724d617463686572 0x706164646c652e54656e736f722e666c6f6f725f 1 [0x73656c66] [] [] [] [] /- torch._foreach_floor_ -/,
  F 0x746f7263682e5f666f72656163685f6c67616d6d61 0x466f72656163684d617463686572 0x706164646c652e6c67616d6d61 1 [0x73656c66] [] [] [] [] /- torch._foreach_lgamma -/,
  F 0x746f7263682e5f666f72656163685f6c6f6731305f 0x466f72656163684d617463686572 0x706164646c652e6c6f6731305f 1 [0x73656c66] [] [] [] [] /- torch._foreach_log10_ -/,
  F 0x746f7263682e5f666f72656163685f6c6f6731705f 0x466f72656163684d617463686572 0x706164646c652e6c6f6731705f 1 [0x73656c66] [] [] [] [] /- torch._foreach_log1p_ -/,
  F 0x746f7263682e5f666f72656163685f726f756e645f 0x466f726561636854656e736f724d617463686572 0x706164646c652e54656e736f722e726f756e645f 1 [0x73656c66] [] [] [] [] /- torch._foreach_round_ -/,
  F 0x746f7263682e5f666f72656163685f7472756e635f 0x466f72656163684d617463686572 0x706164646c652e7472756e635f 1 [0x73656c66] [] [] [] [] /- torch._foreach_trunc_ -/,
  E 0x746f7263682e626c61636b6d616e5f77696e646f77 0x4368616e67655072656669784d617463686572 /- torch.blackman_window -/,
  E 0x746f7263682e637564612e426f6f6c54656e736f72 0x4368616e67655072656669784d617463686572 /- torch.cuda.BoolTensor -/,
  E 0x746f7263682e637564612e4279746554656e736f72 0x4368616e67655072656669784d617463686572 /- torch.cuda.ByteTensor -/,
  E 0x746f7263682e637564612e4368617254656e736f72 0x4368616e67655072656669784d617463686572 /- torch.cuda.CharTensor -/]

def apiTable17 : List Raw := [
  E 0x746f7263682e637564612e48616c6654656e736f72 0x4368616e67655072656669784d617463686572 /- torch.cuda.HalfTensor -/,
  E 0x746f7263682e637564612e4c6f6e6754656e736f72 0x4368616e67655072656669784d617463686572 /- torch.cuda.LongTensor -/,
  E 0x746f7263682e637564612e7365745f646576696365 0x4368616e67655072656669784d617463686572 /- torch.cuda.set_device -/,
  E 0x746f7263682e637564612e7365745f73747265616d 0x4368616e67655072656669784d617463686572 /- torch.cuda.set_stream -/,
  E 0x746f7263682e66756e6374696f6e616c2e6e6f726d 0x4368616e67655072656669784d617463686572 /- torch.functional.norm -/,
  E 0x746f7263682e6765745f6e756d5f74687265616473 0x4765744e756d546872656164734d617463686572 /- torch.get_num_threads -/,
  E 0x746f7263682e69735f677261645f656e61626c6564 0x4368616e67655072656669784d617463686572 /- torch.is_grad_enabled -/,
  E 0x746f7263682e6c696e616c672e63686f6c65736b79 0x4368616e67655072656669784d617463686572 /- torch.linalg.cholesky -/,
  F 0x746f7263682e6c696e616c672e646961676f6e616c 0x47656e657269634d617463686572 0x706164646c652e646961676f6e616c 1 [0x41, 0x2a, 0x6f6666736574, 0x64696d31, 0x64696d32] [] [] [(0x41, false, [0x78]), (0x64696d31, false, [0x6178697331]), (0x64696d32, false, [0x6178697332])] [(0x6178697331, 0x2d32), (0x6178697332, 0x2d31)] /- torch.linalg.diagonal -/,
  F 0x746f7263682e6c696e616c672e65696776616c7368 0x47656e657269634d617463686572 0x706164646c652e6c696e616c672e65696776616c7368 1 [0x696e707574, 0x55504c4f, 0x2a, 0x6f7574] [] [] [(0x696e707574, false, [0x78])] [] /- torch.linalg.eigvalsh -/,
  F 0x746f7263682e6c696e616c672e6c755f736f6c7665 0x4c696e616c674c75536f6c76654d617463686572 0x706164646c652e6c696e616c672e6c755f736f6c7665 3 [0x4c55, 0x7069766f7473, 0x42, 0x2a, 0x6c656674, 0x61646a6f696e74, 0x6f7574] [] [] [(0x4c55, false, [0x6c75]), (0x42, false, [0x62])] [] /- torch.linalg.lu_solve -/,
  E 0x746f7263682e6c696e616c672e736f6c76655f6578 0 /- torch.linalg.solve_ex -/,
  F 0x746f7263682e6e6e2e416c70686144726f706f7574 0x47656e657269634d617463686572 0x706164646c652e6e6e2e416c70686144726f706f7574 0 [0x70, 0x696e706c616365] [] [] [] [] /- torch.nn.AlphaDropout -/,
  F 0x746f7263682e6e6e2e44617461506172616c6c656c 0x47656e657269634d617463686572 0x706164646c652e44617461506172616c6c656c 0 [0x6d6f64756c65, 0x6465766963655f696473, 0x6f75747075745f646576696365, 0x64696d] [] [0x64696d] [(0x6d6f64756c65, false, [0x6c6179657273]), (0x6465766963655f696473, false, [0]), (0x6f75747075745f646576696365, false, [0])] [] /- torch.nn.DataParallel -/,
  E 0x746f7263682e6e6e2e4d6f64756c652e6170706c79 0x4368616e67655072656669784d617463686572 /- torch.nn.Module.apply -/,
  E 0x746f7263682e6e6e2e4d6f64756c652e666c6f6174 0x4368616e67655072656669784d617463686572 /- torch.nn.Module.float -/,
  E 0x746f7263682e6e6e2e4d6f64756c652e747261696e 0x4368616e67655072656669784d617463686572 /- torch.nn.Module.train -/,
  E 0x746f7263682e6e6e2e506978656c53687566666c65 0x4368616e67655072656669784d617463686572 /- torch.nn.PixelShuffle -/,
  F 0x746f7263682e6e6e2e536d6f6f74684c314c6f7373 0x4368616e67654150494d617463686572 0x706164646c652e636f6d7061742e6e6e2e536d6f6f74684c314c6f7373 0 [0x73697a655f61766572616765, 0x726564756365, 0x726564756374696f6e, 0x62657461] [] [] [] [] /- torch.nn.SmoothL1Loss -/,
  E 0x746f7263682e6e6e2e696e69742e6e6f726d616c5f 0x4368616e67655072656669784d617463686572 /- torch.nn.init.normal_ -/,
  E 0x746f7263682e6e6e2e696e69742e7370617273655f 0x4368616e67655072656669784d617463686572 /- torch.nn.init.sparse_ -/,
  E 0x746f7263682e6f7074696d2e4f7074696d697a6572 0x4368616e67655072656669784d617463686572 /- torch.optim.Optimizer -/,
  F 0x746f7263682e7365745f6e756d5f74687265616473 0x5365744e756d546872656164734d617463686572 0 1 [0x696e74] [] [] [] [] /- torch.set_num_threads -/,
  E 0x746f7263682e7370656369616c2e616972795f6169 0 /- torch.special.airy_ai -/,
  F 0x746f7263682e7370656369616c2e646967616d6d61 0x47656e657269634d617463686572 0x706164646c652e646967616d6d61 1 [0x696e707574, 0x2a, 0x6f7574] [] [] [(0x696e707574, false, [0x78])] [] /- torch.special.digamma -/,
  F 0x746f7263682e7370656369616c2e67616d6d616c6e 0x47656e657269634d617463686572 0x706164646c652e67616d6d616c6e 1 [0x696e707574, 0x2a, 0x6f7574] [] [] [(0x696e707574, false, [0x78])] [] /- torch.special.gammaln -/,
  E 0x746f7263682e7370656369616c2e736f66746d6178 0x4368616e67655072656669784d617463686572 /- torch.special.softmax -/,
  F 0x746f7263682e7370656369616c2e786c6f67317079 0x5370656369616c584c6f673170594d617463686572 0 2 [0x696e707574, 0x6f74686572, 0x2a, 0x6f7574] [] [] [] [] /- torch.special.xlog1py -/,
  E 0x746f7263682e766965775f61735f636f6d706c6578 0x4368616e67655072656669784d617463686572 /- torch.view_as_complex -/,
  E 0x746f7263682e54656e736f722e5f5f61727261795f5f 0x4368616e67655072656669784d617463686572 /- torch.Tensor.__array__ -/,
  E 0x746f7263682e54656e736f722e5f5f696e6465785f5f 0x4368616e67655072656669784d617463686572 /- torch.Tensor.__index__ -/,
  E 0x746f7263682e54656e736f722e6162736f6c7574655f 0x4368616e67655072656669784d617463686572 /- torch.Tensor.absolute_ -/,
  E 0x746f7263682e54656e736f722e6265726e6f756c6c69 0x4368616e67655072656669784d617463686572 /- torch.Tensor.bernoulli -/,
  E 0x746f7263682e54656e736f722e636f70797369676e5f 0x4368616e67655072656669784d617463686572 /- torch.Tensor.copysign_ -/,
  E 0x746f7263682e54656e736f722e64656e73655f64696d 0x4368616e67655072656669784d617463686572 /- torch.Tensor.dense_dim -/,
  E 0x746f7263682e54656e736f722e64696d5f6f72646572 0x44696d4f726465724d617463686572 /- torch.Tensor.dim_order -/,
  E 0x746f7263682e54656e736f722e657870616e645f6173 0x4368616e67655072656669784d617463686572 /- torch.Tensor.expand_as -/,
  F 0x746f7263682e54656e736f722e686561766973696465 0x47656e657269634d617463686572 0x706164646c652e54656e736f722e686561766973696465 1 [0x76616c756573] [] [] [(0x76616c756573, false, [0x79])] [] /- torch.Tensor.heaviside -/,
  F 0x746f7263682e54656e736f722e686973746f6772616d 0x486973746f6772616d4d617463686572 0x706164646c652e54656e736f722e686973746f6772616d 1 [0x62696e73, 0x2a, 0x72616e6765, 0x776569676874, 0x64656e73697479] [] [] [(0x72616e6765, true, [0x6d696e, 0x6d6178])] [] /- torch.Tensor.histogram -/,
  E 0x746f7263682e54656e736f722e696e6465785f616464 0x4368616e67655072656669784d617463686572 /- torch.Tensor.index_add -/,
  E 0x746f7263682e54656e736f722e696e6465785f707574 0x4368616e67655072656669784d617463686572 /- torch.Tensor.index_put -/,
  F 0x746f7263682e54656e736f722e69735f70696e6e6564 0x49735f50696e6e65644d617463686572 0 0 [] [] [] [] [] /- torch.Tensor.is_pinned -/,
  E 0x746f7263682e54656e736f722e69735f7365745f746f 0 /- torch.Tensor.is_set_to -/,
  F 0x746f7263682e54656e736f722e69735f736861726564 0 0 0 [] [] [] [] [] /- torch.Tensor.is_shared -/,
  F 0x746f7263682e54656e736f722e69735f7369676e6564 0x54656e736f7249735369676e65644d617463686572 0 0 [] [] [] [] [] /- torch.Tensor.is_signed -/,
  E 0x746f7263682e54656e736f722e6c6f67616464657870 0x4368616e67655072656669784d617463686572 /- torch.Tensor.logaddexp -/,
  E 0x746f7263682e54656e736f722e6c6f6773756d657870 0x4368616e67655072656669784d617463686572 /- torch.Tensor.logsumexp -/,
  E 0x746f7263682e54656e736f722e6d756c7469706c795f 0x4368616e67655072656669784d617463686572 /- torch.Tensor.multiply_ -/,
  E 0x746f7263682e54656e736f722e6d766c67616d6d615f 0x4368616e67655072656669784d617463686572 /- torch.Tensor.mvlgamma_ -/,
  F 0x746f7263682e54656e736f722e6e616e6d656469616e 0x47656e657269634d617463686572 0x706164646c652e54656e736f722e6e616e6d656469616e 0 [0x64696d, 0x6b65657064696d] [] [0x64696d] [(0x64696d, false, [0x61786973])] [] /- torch.Tensor.nanmedian -/,
  E 0x746f7263682e54656e736f722e6e656761746976655f 0x4368616e67655072656669784d617463686572 /- torch.Tensor.negative_ -/,
  E 0x746f7263682e54656e736f722e6e65775f656d707479 0x4368616e67655072656669784d617463686572 /- torch.Tensor.new_empty -/,
  E 0x746f7263682e54656e736f722e6e65775f7a65726f73 0x4368616e67655072656669784d617463686572 /- torch.Tensor.new_zeros -/,
  E 0x746f7263682e54656e736f722e6e6578746166746572 0x4368616e67655072656669784d617463686572 /- torch.Tensor.nextafter -/,
  E 0x746f7263682e54656e736f722e6e6f745f657175616c 0x4368616e67655072656669784d617463686572 /- torch.Tensor.not_equal -/,
  E 0x746f7263682e54656e736f722e706f6c7967616d6d61 0x4368616e67655072656669784d617463686572 /- torch.Tensor.polygamma -/,
  E 0x746f7263682e54656e736f722e72656d61696e646572 0x4368616e67655072656669784d617463686572 /- torch.Tensor.remainder -/,
  E 0x746f7263682e54656e736f722e73756274726163745f 0x4368616e67655072656669784d617463686572 /- torch.Tensor.subtract_ -/,
  E 0x746f7263682e54656e736f722e746f5f6d6b6c646e6e 0 /- torch.Tensor.to_mkldnn -/,
  E 0x746f7263682e54656e736f722e746f5f737061727365 0x4368616e67655072656669784d617463686572 /- torch.Tensor.to_sparse -/]

def apiTable18 : List Raw := [
  E 0x746f7263682e54656e736f722e7472616e73706f7365 0x4368616e67655072656669784d617463686572 /- torch.Tensor.transpose -/,
  E 0x746f7263682e54656e736f722e756e666c617474656e 0x4368616e67655072656669784d617463686572 /- torch.Tensor.unflatten -/,
  E 0x746f7263682e54656e736f722e756e73717565657a65 0x4368616e67655072656669784d617463686572 /- torch.Tensor.unsqueeze -/,
  F 0x746f7263682e5f666f72656163685f6c67616d6d615f 0x466f72656163684d617463686572 0x706164646c652e6c67616d6d615f 1 [0x73656c66] [] [] [] [] /- torch._foreach_lgamma_ -/,
  F 0x746f7263682e5f666f72656163685f7369676d6f6964 0x466f726561636854656e736f724d617463686572 0x706164646c652e54656e736f722e7369676d6f6964 1 [0x73656c66] [] [] [] [] /- torch._foreach_sigmoid -/,
  E 0x746f7263682e62726f6164636173745f736861706573 0x4368616e67655072656669784d617463686572 /- torch.broadcast_shapes -/,
  F 0x746f7263682e63686f6c65736b795f696e7665727365 0x47656e657269634d617463686572 0x706164646c652e6c696e616c672e63686f6c65736b795f696e7665727365 1 [0x696e707574, 0x7570706572, 0x2a, 0x6f7574] [] [] [(0x696e707574, false, [0x78])] [] /- torch.cholesky_inverse -/,
  F 0x746f7263682e6370752e616d702e6175746f63617374 0x47656e657269634d617463686572 0x706164646c652e616d702e6175746f5f63617374 0 [0x656e61626c6564, 0x6474797065, 0x63616368655f656e61626c6564] [] [] [(0x656e61626c6564, false, [0x656e61626c65]), (0x6474797065, false, [0x6474797065]), (0x63616368655f656e61626c6564, false, [0])] [] /- torch.cpu.amp.autocast -/,
  E 0x746f7263682e637564612e466c6f617454656e736f72 0x4368616e67655072656669784d617463686572 /- torch.cuda.FloatTensor -/,
  E 0x746f7263682e637564612e53686f727454656e736f72 0x4368616e67655072656669784d617463686572 /- torch.cuda.ShortTensor -/,
  E 0x746f7263682e637564612e636865636b5f6572726f72 0x4368616e67655072656669784d617463686572 /- torch.cuda.check_error -/,
  E 0x746f7263682e637564612e656d7074795f6361636865 0x4368616e67655072656669784d617463686572 /- torch.cuda.empty_cache -/,
  E 0x746f7263682e637564612e6970635f636f6c6c656374 0x4368616e67655072656669784d617463686572 /- torch.cuda.ipc_collect -/,
  E 0x746f7263682e637564612e6d616e75616c5f73656564 0x4368616e67655072656669784d617463686572 /- torch.cuda.manual_seed -/,
  E 0x746f7263682e637564612e73796e6368726f6e697a65 0x4368616e67655072656669784d617463686572 /- torch.cuda.synchronize -/,
  E 0x746f7263682e646961676f6e616c5f73636174746572 0x4368616e67655072656669784d617463686572 /- torch.diagonal_scatter -/,
  F 0x746f7263682e64697374726962757465642e72656376 0x47656e657269634d617463686572 0x706164646c652e64697374726962757465642e72656376 1 [0x74656e736f72, 0x737263, 0x67726f7570, 0x746167] [] [0x746167] [] [] /- torch.distributed.recv -/,
  F 0x746f7263682e64697374726962757465642e73656e64 0x47656e657269634d617463686572 0x706164646c652e64697374726962757465642e73656e64 2 [0x74656e736f72, 0x647374, 0x67726f7570, 0x746167] [] [0x746167] [] [] /- torch.distributed.send -/,
  E 0x746f7263682e66756e6374696f6e616c2e73706c6974 0x4368616e67655072656669784d617463686572 /- torch.functional.split -/,
  E 0x746f7263682e6c696e616c672e6c646c5f736f6c7665 0 /- torch.linalg.ldl_solve -/,
  F 0x746f7263682e6c696e616c672e6c755f666163746f72 0x446f75626c6541737369676e4d617463686572 0x706164646c652e6c696e616c672e6c75 1 [0x41, 0x2a, 0x7069766f74, 0x6f7574] [] [] [(0x41, false, [0x78])] [] /- torch.linalg.lu_factor -/,
  F 0x746f7263682e6c696e616c672e6d756c74695f646f74 0x47656e657269634d617463686572 0x706164646c652e6c696e616c672e6d756c74695f646f74 1 [0x74656e736f7273, 0x2a, 0x6f7574] [] [] [(0x74656e736f7273, false, [0x78])] [] /- torch.linalg.multi_dot -/,
  E 0x746f7263682e6c696e616c672e74656e736f72696e76 0 /- torch.linalg.tensorinv -/,
  E 0x746f7263682e6e6e2e43697263756c61725061643164 0x4368616e67655072656669784d617463686572 /- torch.nn.CircularPad1d -/,
  E 0x746f7263682e6e6e2e43697263756c61725061643264 0x4368616e67655072656669784d617463686572 /- torch.nn.CircularPad2d -/,
  E 0x746f7263682e6e6e2e43697263756c61725061643364 0x4368616e67655072656669784d617463686572 /- torch.nn.CircularPad3d -/,
  E 0x746f7263682e6e6e2e436f6e7374616e745061643164 0x4368616e67655072656669784d617463686572 /- torch.nn.ConstantPad1d -/,
  E 0x746f7263682e6e6e2e436f6e7374616e745061643264 0x4368616e67655072656669784d617463686572 /- torch.nn.ConstantPad2d -/,
  E 0x746f7263682e6e6e2e436f6e7374616e745061643364 0x4368616e67655072656669784d617463686572 /- torch.nn.ConstantPad3d -/,
  E 0x746f7263682e6e6e2e4d6f64756c652e646f75626c65 0x4368616e67655072656669784d617463686572 /- torch.nn.Module.double -/,
  E 0x746f7263682e6e6e2e506172616d6574657244696374 0x4368616e67655072656669784d617463686572 /- torch.nn.ParameterDict -/,
  E 0x746f7263682e6e6e2e506172616d657465724c697374 0x4368616e67655072656669784d617463686572 /- torch.nn.ParameterList -/,
  F 0x746f7263682e6e6e2e53796e6342617463684e6f726d 0x526576657273654d6f6d656e74756d4d617463686572 0x706164646c652e6e6e2e53796e6342617463684e6f726d 1 [0x6e756d5f6665617475726573, 0x657073, 0x6d6f6d656e74756d, 0x616666696e65, 0x747261636b5f72756e6e696e675f7374617473, 0x70726f636573735f67726f7570, 0x646576696365, 0x6474797065] [] [] [(0x657073, false, [0x657073696c6f6e]), (0x616666696e65, true, [0x7765696768745f61747472, 0x626961735f61747472]), (0x747261636b5f72756e6e696e675f7374617473, false, [0]), (0x70726f636573735f67726f7570, false, [0]), (0x646576696365, false, [0]), (0x6474797065, false, [0])] [] /- torch.nn.SyncBatchNorm -/,
  E 0x746f7263682e6e6e2e696e69742e756e69666f726d5f 0x4368616e67655072656669784d617463686572 /- torch.nn.init.uniform_ -/,
  E 0x746f7263682e706f6973736f6e5f6e6c6c5f6c6f7373 0 /- torch.poisson_nll_loss -/,
  F 0x746f7263682e70726f66696c65722e70726f66696c65 0 0 0 [] [] [] [] [] /- torch.profiler.profile -/,
  E 0x746f7263682e7365745f677261645f656e61626c6564 0x4368616e67655072656669784d617463686572 /- torch.set_grad_enabled -/,
  F 0x746f7263682e7365745f7072696e746f7074696f6e73 0x5365745072696e744f7074696f6e734d617463686572 0x706164646c652e7365745f7072696e746f7074696f6e73 0 [0x707265636973696f6e, 0x7468726573686f6c64, 0x656467656974656d73, 0x6c696e657769647468, 0x70726f66696c65, 0x7363695f6d6f6465] [] [] [] [(0x707265636973696f6e, 0x34)] /- torch.set_printoptions -/,
  F 0x746f7263682e7370656369616c2e67616d6d61696e63 0x47656e657269634d617463686572 0x706164646c652e67616d6d61696e63 0 [0x696e707574, 0x6f74686572, 0x2a, 0x6f7574] [] [] [(0x696e707574, false, [0x78]), (0x6f74686572, false, [0x79])] [] /- torch.special.gammainc -/,
  E 0x746f7263682e7370656369616c2e6c6f675f6e647472 0 /- torch.special.log_ndtr -/,
  F 0x746f7263682e747269616e67756c61725f736f6c7665 0x547269616e67756c6172536f6c76654d617463686572 0x706164646c652e6c696e616c672e747269616e67756c61725f736f6c7665 2 [0x696e707574, 0x41, 0x7570706572, 0x7472616e73706f7365, 0x756e69747269616e67756c6172, 0x2a, 0x6f7574] [] [] [(0x696e707574, false, [0x79]), (0x41, false, [0x78])] [] /- torch.triangular_solve -/,
  F 0x746f7263682e7574696c732e7365745f6d6f64756c65 0x5574696c735365744d6f64756c654d617463686572 0x706164646c652e696f2e53616d706c6572 2 [0x6f626a, 0x6d6f64] [] [] [] [] /- torch.utils.set_module -/,
  E 0x746f7263682e54656e736f722e5f5f666f726d61745f5f 0x4368616e67655072656669784d617463686572 /- torch.Tensor.__format__ -/,
  E 0x746f7263682e54656e736f722e5f5f696e766572745f5f 0x4368616e67655072656669784d617463686572 /- torch.Tensor.__invert__ -/,
  E 0x746f7263682e54656e736f722e61735f73747269646564 0x4368616e67655072656669784d617463686572 /- torch.Tensor.as_strided -/,
  E 0x746f7263682e54656e736f722e6265726e6f756c6c695f 0x4368616e67655072656669784d617463686572 /- torch.Tensor.bernoulli_ -/,
  E 0x746f7263682e54656e736f722e626974776973655f6f72 0x4368616e67655072656669784d617463686572 /- torch.Tensor.bitwise_or -/,
  E 0x746f7263682e54656e736f722e636f6e746967756f7573 0x4368616e67655072656669784d617463686572 /- torch.Tensor.contiguous -/,
  E 0x746f7263682e54656e736f722e64657175616e74697a65 0 /- torch.Tensor.dequantize -/,
  E 0x746f7263682e54656e736f722e646961675f656d626564 0x4368616e67655072656669784d617463686572 /- torch.Tensor.diag_embed -/,
  E 0x746f7263682e54656e736f722e67656f6d65747269635f 0x4368616e67655072656669784d617463686572 /- torch.Tensor.geometric_ -/,
  E 0x746f7263682e54656e736f722e6765745f646576696365 0x4368616e67655072656669784d617463686572 /- torch.Tensor.get_device -/,
  F 0x746f7263682e54656e736f722e68617264736872696e6b 0x54656e736f7246756e6332506164646c6546756e63 0x706164646c652e6e6e2e66756e6374696f6e616c2e68617264736872696e6b 0 [0x6c616d6264] [] [] [(0x6c616d6264, false, [0x7468726573686f6c64])] [] /- torch.Tensor.hardshrink -/,
  E 0x746f7263682e54656e736f722e696e6465785f6164645f 0x4368616e67655072656669784d617463686572 /- torch.Tensor.index_add_ -/,
  E 0x746f7263682e54656e736f722e696e6465785f636f7079 0 /- torch.Tensor.index_copy -/,
  E 0x746f7263682e54656e736f722e696e6465785f66696c6c 0x4368616e67655072656669784d617463686572 /- torch.Tensor.index_fill -/,
  E 0x746f7263682e54656e736f722e696e6465785f7075745f 0x4368616e67655072656669784d617463686572 /- torch.Tensor.index_put_ -/,
  E 0x746f7263682e54656e736f722e69735f636f6d706c6578 0x4368616e67655072656669784d617463686572 /- torch.Tensor.is_complex -/,
  E 0x746f7263682e54656e736f722e6c6573735f657175616c 0x4368616e67655072656669784d617463686572 /- torch.Tensor.less_equal -/,
  F 0x746f7263682e54656e736f722e6c6f6761646465787032 0x4c6f67416464457870324d617463686572 0 1 [0x6f74686572] [] [] [] [] /- torch.Tensor.logaddexp2 -/]

def apiTable19 : List Raw := [
  E 0x746f7263682e54656e736f722e6c6f676963616c5f6f72 0x4368616e67655072656669784d617463686572 /- torch.Tensor.logical_or -/,
  E 0x746f7263682e54656e736f722e6d61747269785f657870 0x4368616e67655072656669784d617463686572 /- torch.Tensor.matrix_exp -/,
  E 0x746f7263682e54656e736f722e6e616e5f746f5f6e756d 0x4368616e67655072656669784d617463686572 /- torch.Tensor.nan_to_num -/,
  E 0x746f7263682e54656e736f722e6e64696d656e73696f6e 0x4368616e67655072656669784d617463686572 /- torch.Tensor.ndimension -/,
  E 0x746f7263682e54656e736f722e6e65775f74656e736f72 0x4368616e67655072656669784d617463686572 /- torch.Tensor.new_tensor -/,
  E 0x746f7263682e54656e736f722e6e65787461667465725f 0 /- torch.Tensor.nextafter_ -/,
  E 0x746f7263682e54656e736f722e70696e5f6d656d6f7279 0x4368616e67655072656669784d617463686572 /- torch.Tensor.pin_memory -/,
  E 0x746f7263682e54656e736f722e706f6c7967616d6d615f 0x4368616e67655072656669784d617463686572 /- torch.Tensor.polygamma_ -/,
  E 0x746f7263682e54656e736f722e7265636970726f63616c 0x4368616e67655072656669784d617463686572 /- torch.Tensor.reciprocal -/,
  E 0x746f7263682e54656e736f722e72656d61696e6465725f 0x4368616e67655072656669784d617463686572 /- torch.Tensor.remainder_ -/,
  E 0x746f7263682e54656e736f722e726573686170655f6173 0x4368616e67655072656669784d617463686572 /- torch.Tensor.reshape_as -/,
  E 0x746f7263682e54656e736f722e726573697a655f61735f 0x4368616e67655072656669784d617463686572 /- torch.Tensor.resize_as_ -/,
  E 0x746f7263682e54656e736f722e7370617273655f64696d 0x4368616e67655072656669784d617463686572 /- torch.Tensor.sparse_dim -/,
  E 0x746f7263682e54656e736f722e7472616e73706f73655f 0x4368616e67655072656669784d617463686572 /- torch.Tensor.transpose_ -/,
  E 0x746f7263682e54656e736f722e756e73717565657a655f 0x4368616e67655072656669784d617463686572 /- torch.Tensor.unsqueeze_ -/,
  E 0x746f7263682e5f5f76657273696f6e5f5f2e73706c6974 0x4368616e67655072656669784d617463686572 /- torch.__version__.split -/,
  F 0x746f7263682e5f666f72656163685f7369676d6f69645f 0x466f726561636854656e736f724d617463686572 0x706164646c652e54656e736f722e7369676d6f69645f 1 [0x73656c66] [] [] [] [] /- torch._foreach_sigmoid_ -/,
  E 0x746f7263682e6175746f677261642e46756e6374696f6e 0x4368616e67655072656669784d617463686572 /- torch.autograd.Function -/,
  F 0x746f7263682e6175746f677261642e5661726961626c65 0x41445661726961626c654d617463686572 0 1 [0x64617461, 0x72657175697265735f67726164] [] [] [] [] /- torch.autograd.Variable -/,
  F 0x746f7263682e6175746f677261642e6261636b77617264 0x47656e657269634d617463686572 0x706164646c652e6175746f677261642e6261636b77617264 1 [0x74656e736f7273, 0x677261645f74656e736f7273, 0x72657461696e5f6772617068, 0x6372656174655f6772617068, 0x677261645f7661726961626c6573, 0x696e70757473] [] [0x6372656174655f6772617068, 0x677261645f7661726961626c6573, 0x696e70757473] [] [] /- torch.autograd.backward -/,
  E 0x746f7263682e62726f6164636173745f74656e736f7273 0x4368616e67655072656669784d617463686572 /- torch.broadcast_tensors -/,
  E 0x746f7263682e637564612e446f75626c6554656e736f72 0x4368616e67655072656669784d617463686572 /- torch.cuda.DoubleTensor -/,
  E 0x746f7263682e637564612e616d702e6175746f63617374 0x4368616e67655072656669784d617463686572 /- torch.cuda.amp.autocast -/,
  E 0x746f7263682e637564612e6465766963655f636f756e74 0x4368616e67655072656669784d617463686572 /- torch.cuda.device_count -/,
  F 0x746f7263682e637564612e696e697469616c5f73656564 0x43756461536565644d617463686572 0 0 [] [] [] [] [] /- torch.cuda.initial_seed -/,
  E 0x746f7263682e637564612e69735f617661696c61626c65 0x4368616e67655072656669784d617463686572 /- torch.cuda.is_available -/,
  E 0x746f7263682e637564612e6d656d5f6765745f696e666f 0x4368616e67655072656669784d617463686572 /- torch.cuda.mem_get_info -/,
  F 0x746f7263682e64697374726962757465642e5032504f70 0x47656e657269634d617463686572 0x706164646c652e64697374726962757465642e5032504f70 2 [0x6f70, 0x74656e736f72, 0x70656572, 0x67726f7570, 0x746167] [] [0x746167] [] [] /- torch.distributed.P2POp -/,
  F 0x746f7263682e64697374726962757465642e6972656376 0x47656e657269634d617463686572 0x706164646c652e64697374726962757465642e6972656376 1 [0x74656e736f72, 0x737263, 0x67726f7570, 0x746167] [] [0x746167] [] [] /- torch.distributed.irecv -/,
  F 0x746f7263682e64697374726962757465642e6973656e64 0x47656e657269634d617463686572 0x706164646c652e64697374726962757465642e6973656e64 2 [0x74656e736f72, 0x647374, 0x67726f7570, 0x746167] [] [0x746167] [] [] /- torch.distributed.isend -/,
  E 0x746f7263682e66756e6374696f6e616c2e65696e73756d 0x4368616e67655072656669784d617463686572 /- torch.functional.einsum -/,
  E 0x746f7263682e6765745f64656661756c745f6474797065 0x4368616e67655072656669784d617463686572 /- torch.get_default_dtype -/,
  E 0x746f7263682e6765745f6465766963655f6d6f64756c65 0x4368616e67655072656669784d617463686572 /- torch.get_device_module -/,
  E 0x746f7263682e69735f666c6f6174696e675f706f696e74 0x4368616e67655072656669784d617463686572 /- torch.is_floating_point -/,
  E 0x746f7263682e6c696e616c672e6c646c5f666163746f72 0 /- torch.linalg.ldl_factor -/,
  E 0x746f7263682e6c696e616c672e6d61747269785f657870 0 /- torch.linalg.matrix_exp -/,
  E 0x746f7263682e6e6e2e4368616e6e656c53687566666c65 0x4368616e67655072656669784d617463686572 /- torch.nn.ChannelShuffle -/,
  F 0x746f7263682e6e6e2e496e7374616e63654e6f726d3164 0x526576657273654d6f6d656e74756d4d617463686572 0x706164646c652e6e6e2e496e7374616e63654e6f726d3144 1 [0x6e756d5f6665617475726573, 0x657073, 0x6d6f6d656e74756d, 0x616666696e65, 0x747261636b5f72756e6e696e675f7374617473, 0x646576696365, 0x6474797065] [] [] [(0x657073, false, [0x657073696c6f6e]), (0x616666696e65, true, [0x7765696768745f61747472, 0x626961735f61747472]), (0x747261636b5f72756e6e696e675f7374617473, false, [0]), (0x646576696365, false, [0]), (0x6474797065, false, [0])] [] /- torch.nn.InstanceNorm1d -/,
  F 0x746f7263682e6e6e2e496e7374616e63654e6f726d3264 0x526576657273654d6f6d656e74756d4d617463686572 0x706164646c652e6e6e2e496e7374616e63654e6f726d3244 1 [0x6e756d5f6665617475726573, 0x657073, 0x6d6f6d656e74756d, 0x616666696e65, 0x747261636b5f72756e6e696e675f7374617473, 0x646576696365, 0x6474797065] [] [] [(0x657073, false, [0x657073696c6f6e]), (0x616666696e65, true, [0x7765696768745f61747472, 0x626961735f61747472]), (0x747261636b5f72756e6e696e675f7374617473, false, [0]), (0x646576696365, false, [0]), (0x6474797065, false, [0])] [] /- torch.nn.InstanceNorm2d -/,
  F 0x746f7263682e6e6e2e496e7374616e63654e6f726d3364 0x526576657273654d6f6d656e74756d4d617463686572 0x706164646c652e6e6e2e496e7374616e63654e6f726d3344 1 [0x6e756d5f6665617475726573, 0x657073, 0x6d6f6d656e74756d, 0x616666696e65, 0x747261636b5f72756e6e696e675f7374617473, 0x646576696365, 0x6474797065] [] [] [(0x657073, false, [0x657073696c6f6e]), (0x616666696e65, true, [0x7765696768745f61747472, 0x626961735f61747472]), (0x747261636b5f72756e6e696e675f7374617473, false, [0]), (0x646576696365, false, [0]), (0x6474797065, false, [0])] [] /- torch.nn.InstanceNorm3d -/,
  E 0x746f7263682e6e6e2e4d6f64756c652e62756666657273 0x4368616e67655072656669784d617463686572 /- torch.nn.Module.buffers -/,
  E 0x746f7263682e6e6e2e4d6f64756c652e6d6f64756c6573 0x4368616e67655072656669784d617463686572 /- torch.nn.Module.modules -/,
  E 0x746f7263682e6e6e2e506978656c556e73687566666c65 0x4368616e67655072656669784d617463686572 /- torch.nn.PixelUnshuffle -/,
  E 0x746f7263682e6e6e2e506f6973736f6e4e4c4c4c6f7373 0x4368616e67655072656669784d617463686572 /- torch.nn.PoissonNLLLoss -/,
  E 0x746f7263682e6e6e2e536f66744d617267696e4c6f7373 0x4368616e67655072656669784d617463686572 /- torch.nn.SoftMarginLoss -/,
  E 0x746f7263682e6e6e2e66756e6374696f6e616c2e656c75 0x4368616e67655072656669784d617463686572 /- torch.nn.functional.elu -/,
  E 0x746f7263682e6e6e2e66756e6374696f6e616c2e676c75 0x4368616e67655072656669784d617463686572 /- torch.nn.functional.glu -/,
  P 0x746f7263682e6e6e2e66756e6374696f6e616c2e706164 0x4368616e67654150494d617463686572 0x706164646c652e636f6d7061742e6e6e2e66756e6374696f6e616c2e706164 /- torch.nn.functional.pad -/,
  E 0x746f7263682e6e6e2e696e69742e636f6e7374616e745f 0x4368616e67655072656669784d617463686572 /- torch.nn.init.constant_ -/,
  E 0x746f7263682e6e6e2e6d6f64756c65732e4d6f64756c65 0x4368616e67655072656669784d617463686572 /- torch.nn.modules.Module -/,
  F 0x746f7263682e70726f66696c65722e7363686564756c65 0x47656e657269634d617463686572 0x706164646c652e70726f66696c65722e6d616b655f7363686564756c6572 0 [0x2a, 0x77616974, 0x7761726d7570, 0x616374697665, 0x726570656174, 0x736b69705f6669727374] [] [] [(0x77616974, false, [0x636c6f736564]), (0x7761726d7570, false, [0x7265616479]), (0x616374697665, false, [0x7265636f7264])] [] /- torch.profiler.schedule -/,
  E 0x746f7263682e7265706561745f696e7465726c65617665 0x4368616e67655072656669784d617463686572 /- torch.repeat_interleave -/,
  E 0x746f7263682e7365745f64656661756c745f6474797065 0x4368616e67655072656669784d617463686572 /- torch.set_default_dtype -/,
  F 0x746f7263682e7370617273655f636f6f5f74656e736f72 0x47656e657269634d617463686572 0x706164646c652e7370617273652e7370617273655f636f6f5f74656e736f72 2 [0x696e6469636573, 0x76616c756573, 0x73697a65, 0x2a, 0x6474797065, 0x646576696365, 0x72657175697265735f67726164, 0x636865636b5f696e76617269616e7473] [] [] [(0x73697a65, false, [0x7368617065]), (0x6474797065, false, [0x6474797065]), (0x646576696365, false, [0x706c616365]), (0x636865636b5f696e76617269616e7473, false, [0])] [] /- torch.sparse_coo_tensor -/,
  F 0x746f7263682e7370617273655f6373725f74656e736f72 0x47656e657269634d617463686572 0x706164646c652e7370617273652e7370617273655f6373725f74656e736f72 3 [0x63726f775f696e6469636573, 0x636f6c5f696e6469636573, 0x76616c756573, 0x73697a65, 0x2a, 0x6474797065, 0x6c61796f7574, 0x646576696365, 0x70696e5f6d656d6f7279, 0x72657175697265735f67726164, 0x636865636b5f696e76617269616e7473] [] [] [(0x63726f775f696e6469636573, false, [0x63726f7773]), (0x636f6c5f696e6469636573, false, [0x636f6c73]), (0x73697a65, false, [0x7368617065]), (0x6474797065, false, [0x6474797065]), (0x6c61796f7574, false, [0]), (0x646576696365, false, [0x706c616365]), (0x70696e5f6d656d6f7279, false, [0]), (0x636865636b5f696e76617269616e7473, false, [0])] [] /- torch.sparse_csr_tensor -/,
  E 0x746f7263682e7370656369616c2e62657373656c5f6a30 0 /- torch.special.bessel_j0 -/,
  E 0x746f7263682e7370656369616c2e62657373656c5f6a31 0 /- torch.special.bessel_j1 -/,
  E 0x746f7263682e7370656369616c2e62657373656c5f7930 0 /- torch.special.bessel_y0 -/,
  E 0x746f7263682e7370656369616c2e62657373656c5f7931 0 /- torch.special.bessel_y1 -/,
  F 0x746f7263682e7370656369616c2e67616d6d61696e6363 0x47656e657269634d617463686572 0x706164646c652e67616d6d61696e6363 0 [0x696e707574, 0x6f74686572, 0x2a, 0x6f7574] [] [] [(0x696e707574, false, [0x78]), (0x6f74686572, false, [0x79])] [] /- torch.special.gammaincc -/]

def apiTable20 : List Raw := [
  E 0x746f7263682e7370656369616c2e6c6f6773756d657870 0x4368616e67655072656669784d617463686572 /- torch.special.logsumexp -/,
  F 0x746f7263682e7370656369616c2e706f6c7967616d6d61 0x47656e657269634d617463686572 0x706164646c652e706f6c7967616d6d61 2 [0x6e, 0x696e707574, 0x2a, 0x6f7574] [] [] [(0x696e707574, false, [0x78])] [] /- torch.special.polygamma -/,
  E 0x746f7263682e7574696c732e646174612e537562736574 0x4368616e67655072656669784d617463686572 /- torch.utils.data.Subset -/,
  P 0x746f726368766973696f6e2e6f70732e526f49506f6f6c 0x4368616e67654150494d617463686572 0x706164646c652e766973696f6e2e6f70732e526f49506f6f6c /- torchvision.ops.RoIPool -/,
  P 0x7472616e73666f726d6572732e4164646564546f6b656e 0x4368616e67654150494d617463686572 0x706164646c65666f726d6572732e7472616e73666f726d6572732e4164646564546f6b656e /- transformers.AddedToken -/,
  E 0x746f7263682e54656e736f722e5f5f6765746974656d5f5f 0x4368616e67655072656669784d617463686572 /- torch.Tensor.__getitem__ -/,
  E 0x746f7263682e54656e736f722e5f5f7365746974656d5f5f 0x4368616e67655072656669784d617463686572 /- torch.Tensor.__setitem__ -/,
  E 0x746f7263682e54656e736f722e61735f737562636c617373 0 /- torch.Tensor.as_subclass -/,
  E 0x746f7263682e54656e736f722e626974776973655f616e64 0x4368616e67655072656669784d617463686572 /- torch.Tensor.bitwise_and -/,
  E 0x746f7263682e54656e736f722e626974776973655f6e6f74 0x4368616e67655072656669784d617463686572 /- torch.Tensor.bitwise_not -/,
  E 0x746f7263682e54656e736f722e626974776973655f6f725f 0x4368616e67655072656669784d617463686572 /- torch.Tensor.bitwise_or_ -/,
  E 0x746f7263682e54656e736f722e626974776973655f786f72 0x4368616e67655072656669784d617463686572 /- torch.Tensor.bitwise_xor -/,
  E 0x746f7263682e54656e736f722e636f6c5f696e6469636573 0x4368616e67655072656669784d617463686572 /- torch.Tensor.col_indices -/,
  E 0x746f7263682e54656e736f722e657870616e645f636f7079 0x4368616e67655072656669784d617463686572 /- torch.Tensor.expand_copy -/,
  F 0x746f7263682e54656e736f722e666c6f61745f706f776572 0x466c6f6174506f7765724d617463686572 0 1 [0x6578706f6e656e74] [] [] [] [] /- torch.Tensor.float_power -/,
  E 0x746f7263682e54656e736f722e696e6465785f636f70795f 0x4368616e67655072656669784d617463686572 /- torch.Tensor.index_copy_ -/,
  E 0x746f7263682e54656e736f722e696e6465785f66696c6c5f 0x4368616e67655072656669784d617463686572 /- torch.Tensor.index_fill_ -/,
  E 0x746f7263682e54656e736f722e6c6f675f6e6f726d616c5f 0x4368616e67655072656669784d617463686572 /- torch.Tensor.log_normal_ -/,
  E 0x746f7263682e54656e736f722e6c6f676963616c5f616e64 0x4368616e67655072656669784d617463686572 /- torch.Tensor.logical_and -/,
  E 0x746f7263682e54656e736f722e6c6f676963616c5f6e6f74 0x4368616e67655072656669784d617463686572 /- torch.Tensor.logical_not -/,
  F 0x746f7263682e54656e736f722e6c6f676963616c5f6f725f 0x54656e736f72496e706c61636552657365727665547970654d617463686572 0x706164646c652e54656e736f722e6c6f676963616c5f6f725f 1 [0x6f74686572] [] [] [(0x6f74686572, false, [0x79])] [] /- torch.Tensor.logical_or_ -/,
  E 0x746f7263682e54656e736f722e6c6f676963616c5f786f72 0x4368616e67655072656669784d617463686572 /- torch.Tensor.logical_xor -/,
  E 0x746f7263682e54656e736f722e6d61736b65645f66696c6c 0x4368616e67655072656669784d617463686572 /- torch.Tensor.masked_fill -/,
  E 0x746f7263682e54656e736f722e6d6f64756c655f6c6f6164 0 /- torch.Tensor.module_load -/,
  E 0x746f7263682e54656e736f722e6d756c74696e6f6d69616c 0x4368616e67655072656669784d617463686572 /- torch.Tensor.multinomial -/,
  E 0x746f7263682e54656e736f722e6e616e5f746f5f6e756d5f 0x4368616e67655072656669784d617463686572 /- torch.Tensor.nan_to_num_ -/,
  E 0x746f7263682e54656e736f722e6e616e7175616e74696c65 0x4368616e67655072656669784d617463686572 /- torch.Tensor.nanquantile -/,
  F 0x746f7263682e54656e736f722e6e6172726f775f636f7079 0x4e6172726f77436f70794d617463686572 0 3 [0x64696d, 0x7374617274, 0x6c656e677468] [] [] [] [] /- torch.Tensor.narrow_copy -/,
  E 0x746f7263682e54656e736f722e7265636970726f63616c5f 0x4368616e67655072656669784d617463686572 /- torch.Tensor.reciprocal_ -/,
  E 0x746f7263682e54656e736f722e7265736f6c76655f6e6567 0 /- torch.Tensor.resolve_neg -/,
  E 0x746f7263682e54656e736f722e72657461696e5f67726164 0x4368616e67655072656669784d617463686572 /- torch.Tensor.retain_grad -/,
  E 0x746f7263682e54656e736f722e726f775f696e6469636573 0 /- torch.Tensor.row_indices -/,
  E 0x746f7263682e54656e736f722e736361747465725f616464 0x4368616e67655072656669784d617463686572 /- torch.Tensor.scatter_add -/,
  E 0x746f7263682e54656e736f722e7370617273655f6d61736b 0x4368616e67655072656669784d617463686572 /- torch.Tensor.sparse_mask -/,
  E 0x746f7263682e54656e736f722e73756d5f746f5f73697a65 0 /- torch.Tensor.sum_to_size -/,
  E 0x746f7263682e54656e736f722e747275655f646976696465 0x4368616e67655072656669784d617463686572 /- torch.Tensor.true_divide -/,
  E 0x746f7263682e626974776973655f6c6566745f7368696674 0x4368616e67655072656669784d617463686572 /- torch.bitwise_left_shift -/,
  F 0x746f7263682e6370752e63757272656e745f646576696365 0x4368616e67654150494d617463686572 0x706164646c652e6765745f646576696365 0 [] [] [] [] [] /- torch.cpu.current_device -/,
  E 0x746f7263682e637564612e53747265616d436f6e74657874 0x4368616e67655072656669784d617463686572 /- torch.cuda.StreamContext -/,
  E 0x746f7263682e637564612e6765745f726e675f7374617465 0x4368616e67655072656669784d617463686572 /- torch.cuda.get_rng_state -/,
  E 0x746f7263682e637564612e7365745f726e675f7374617465 0x4368616e67655072656669784d617463686572 /- torch.cuda.set_rng_state -/,
  F 0x746f7263682e64697374726962757465642e676174686572 0x526576657273654173796e634f704d617463686572 0x706164646c652e64697374726962757465642e676174686572 1 [0x74656e736f72, 0x6761746865725f6c697374, 0x647374, 0x67726f7570, 0x6173796e635f6f70] [] [] [] [] /- torch.distributed.gather -/,
  F 0x746f7263682e64697374726962757465642e726564756365 0x526576657273654173796e634f704d617463686572 0x706164646c652e64697374726962757465642e726564756365 2 [0x74656e736f72, 0x647374, 0x6f70, 0x67726f7570, 0x6173796e635f6f70] [] [] [] [] /- torch.distributed.reduce -/,
  E 0x746f7263682e646973747269627574696f6e732e42657461 0x4368616e67655072656669784d617463686572 /- torch.distributions.Beta -/,
  E 0x746f7263682e6765745f64656661756c745f646576696365 0x4368616e67655072656669784d617463686572 /- torch.get_default_device -/,
  F 0x746f7263682e6c696e616c672e63686f6c65736b795f6578 0x4c696e616c6743686f6c65736b7945784d617463686572 0x706164646c652e6c696e616c672e63686f6c65736b79 1 [0x696e707574, 0x2a, 0x7570706572, 0x636865636b5f6572726f7273, 0x6f7574] [] [] [(0x696e707574, false, [0x78])] [] /- torch.linalg.cholesky_ex -/,
  F 0x746f7263682e6c696e616c672e6d61747269785f6e6f726d 0x47656e657269634d617463686572 0x706164646c652e6c696e616c672e6d61747269785f6e6f726d 1 [0x696e707574, 0x6f7264, 0x64696d, 0x6b65657064696d, 0x2a, 0x6474797065, 0x6f7574] [] [] [(0x696e707574, false, [0x78]), (0x6f7264, false, [0x70]), (0x64696d, false, [0x61786973])] [] /- torch.linalg.matrix_norm -/,
  F 0x746f7263682e6c696e616c672e6d61747269785f72616e6b 0x47656e657269634d617463686572 0x706164646c652e6c696e616c672e6d61747269785f72616e6b 1 [0x696e707574, 0x746f6c, 0x6865726d697469616e, 0x2a, 0x61746f6c, 0x72746f6c, 0x6865726d697469616e, 0x6f7574] [] [] [(0x696e707574, false, [0x78])] [] /- torch.linalg.matrix_rank -/,
  E 0x746f7263682e6c696e616c672e74656e736f72736f6c7665 0 /- torch.linalg.tensorsolve -/,
  E 0x746f7263682e6c696e616c672e766563746f725f6e6f726d 0x4368616e67655072656669784d617463686572 /- torch.linalg.vector_norm -/,
  E 0x746f7263682e6e6e2e436f6e765472616e73706f73653164 0x4368616e67655072656669784d617463686572 /- torch.nn.ConvTranspose1d -/,
  E 0x746f7263682e6e6e2e436f6e765472616e73706f73653264 0x4368616e67655072656669784d617463686572 /- torch.nn.ConvTranspose2d -/,
  E 0x746f7263682e6e6e2e436f6e765472616e73706f73653364 0x4368616e67655072656669784d617463686572 /- torch.nn.ConvTranspose3d -/,
  E 0x746f7263682e6e6e2e476175737369616e4e4c4c4c6f7373 0x4368616e67655072656669784d617463686572 /- torch.nn.GaussianNLLLoss -/,
  E 0x746f7263682e6e6e2e4d6f64756c652e62666c6f61743136 0x4368616e67655072656669784d617463686572 /- torch.nn.Module.bfloat16 -/,
  E 0x746f7263682e6e6e2e4d6f64756c652e6368696c6472656e 0x4368616e67655072656669784d617463686572 /- torch.nn.Module.children -/,
  E 0x746f7263682e6e6e2e4d6f64756c652e746f5f656d707479 0x4368616e67655072656669784d617463686572 /- torch.nn.Module.to_empty -/,
  E 0x746f7263682e6e6e2e4d756c74694d617267696e4c6f7373 0x4368616e67655072656669784d617463686572 /- torch.nn.MultiMarginLoss -/,
  E 0x746f7263682e6e6e2e5265666c656374696f6e5061643164 0x4368616e67655072656669784d617463686572 /- torch.nn.ReflectionPad1d -/,
  E 0x746f7263682e6e6e2e5265666c656374696f6e5061643264 0x4368616e67655072656669784d617463686572 /- torch.nn.ReflectionPad2d -/]

def apiTable21 : List Raw := [
  E 0x746f7263682e6e6e2e5265666c656374696f6e5061643364 0x4368616e67655072656669784d617463686572 /- torch.nn.ReflectionPad3d -/,
  F 0x746f7263682e6e6e2e66756e6374696f6e616c2e63656c75 0x47656e657269634d617463686572 0x706164646c652e6e6e2e66756e6374696f6e616c2e63656c75 1 [0x696e707574, 0x616c706861, 0x696e706c616365] [] [] [(0x696e707574, false, [0x78])] [] /- torch.nn.functional.celu -/,
  F 0x746f7263682e6e6e2e66756e6374696f6e616c2e656c755f 0x47656e657269634d617463686572 0x706164646c652e6e6e2e66756e6374696f6e616c2e656c755f 1 [0x696e707574, 0x616c706861] [] [] [(0x696e707574, false, [0x78])] [] /- torch.nn.functional.elu_ -/,
  E 0x746f7263682e6e6e2e66756e6374696f6e616c2e666f6c64 0x4368616e67655072656669784d617463686572 /- torch.nn.functional.fold -/,
  E 0x746f7263682e6e6e2e66756e6374696f6e616c2e67656c75 0x4368616e67655072656669784d617463686572 /- torch.nn.functional.gelu -/,
  E 0x746f7263682e6e6e2e66756e6374696f6e616c2e6d697368 0x4368616e67655072656669784d617463686572 /- torch.nn.functional.mish -/,
  E 0x746f7263682e6e6e2e66756e6374696f6e616c2e72656c75 0x4368616e67655072656669784d617463686572 /- torch.nn.functional.relu -/,
  F 0x746f7263682e6e6e2e66756e6374696f6e616c2e73656c75 0x47656e657269634d617463686572 0x706164646c652e6e6e2e66756e6374696f6e616c2e73656c75 1 [0x696e707574, 0x696e706c616365] [] [] [(0x696e707574, false, [0x78])] [] /- torch.nn.functional.selu -/,
  E 0x746f7263682e6e6e2e66756e6374696f6e616c2e73696c75 0x4368616e67655072656669784d617463686572 /- torch.nn.functional.silu -/,
  E 0x746f7263682e6e6e2e66756e6374696f6e616c2e74616e68 0x4368616e67655072656669784d617463686572 /- torch.nn.functional.tanh -/,
  E 0x746f7263682e7365745f64656661756c745f646576696365 0x4368616e67655072656669784d617463686572 /- torch.set_default_device -/,
  F 0x746f7263682e7370617273652e466c6f617454656e736f72 0x47656e657269634d617463686572 0x706164646c652e7370617273652e7370617273655f636f6f5f74656e736f72 3 [0x696e6469636573, 0x76616c756573, 0x73697a65, 0x2a, 0x646576696365] [] [] [(0x73697a65, false, [0x7368617065]), (0x646576696365, false, [0x706c616365])] [] /- torch.sparse.FloatTensor -/,
  E 0x746f7263682e756e697175655f636f6e7365637574697665 0x4368616e67655072656669784d617463686572 /- torch.unique_consecutive -/,
  E 0x746f7263682e7574696c732e646174612e44617461736574 0x4368616e67655072656669784d617463686572 /- torch.utils.data.Dataset -/,
  E 0x746f7263682e7574696c732e646174612e53616d706c6572 0x4368616e67655072656669784d617463686572 /- torch.utils.data.Sampler -/,
  F 0x746f726368766973696f6e2e696f2e726561645f66696c65 0x47656e657269634d617463686572 0x706164646c652e766973696f6e2e6f70732e726561645f66696c65 0 [0x70617468] [] [] [(0x70617468, false, [0x66696c656e616d65])] [] /- torchvision.io.read_file -/,
  F 0x746f726368766973696f6e2e6d6f64656c732e7667673131 0x5647474d617463686572 0x706164646c652e766973696f6e2e6d6f64656c732e7667673131 0 [0x77656967687473, 0x70726f6772657373, 0x707265747261696e6564] [] [] [(0x70726f6772657373, false, [0])] [] /- torchvision.models.vgg11 -/,
  F 0x746f726368766973696f6e2e6d6f64656c732e7667673133 0x5647474d617463686572 0x706164646c652e766973696f6e2e6d6f64656c732e7667673133 0 [0x77656967687473, 0x70726f6772657373, 0x707265747261696e6564] [] [] [(0x70726f6772657373, false, [0])] [] /- torchvision.models.vgg13 -/,
  F 0x746f726368766973696f6e2e6d6f64656c732e7667673136 0x5647474d617463686572 0x706164646c652e766973696f6e2e6d6f64656c732e7667673136 0 [0x77656967687473, 0x70726f6772657373, 0x707265747261696e6564] [] [] [(0x70726f6772657373, false, [0])] [] /- torchvision.models.vgg16 -/,
  F 0x746f726368766973696f6e2e6d6f64656c732e7667673139 0x5647474d617463686572 0x706164646c652e766973696f6e2e6d6f64656c732e7667673139 0 [0x77656967687473, 0x70726f6772657373, 0x707265747261696e6564] [] [] [(0x70726f6772657373, false, [0])] [] /- torchvision.models.vgg19 -/,
  F 0x746f726368766973696f6e2e6f70732e526f49416c69676e 0x47656e657269634d617463686572 0x706164646c652e766973696f6e2e6f70732e526f49416c69676e 0 [0x6f75747075745f73697a65, 0x7370617469616c5f7363616c65, 0x73616d706c696e675f726174696f, 0x616c69676e6564] [] [0x73616d706c696e675f726174696f, 0x616c69676e6564] [] [] /- torchvision.ops.RoIAlign -/,
  F 0x746f726368766973696f6e2e6f70732e726f695f706f6f6c 0x426f786573436f6e766572744d617463686572 0x706164646c652e766973696f6e2e6f70732e726f695f706f6f6c 0 [0x696e707574, 0x626f786573, 0x6f75747075745f73697a65, 0x7370617469616c5f7363616c65] [] [] [] [] /- torchvision.ops.roi_pool -/,
  E 0x746f7263682e54656e736f722e5f5f64656570636f70795f5f 0x4368616e67655072656669784d617463686572 /- torch.Tensor.__deepcopy__ -/,
  E 0x746f7263682e54656e736f722e5f5f666c6f6f726469765f5f 0x4368616e67655072656669784d617463686572 /- torch.Tensor.__floordiv__ -/,
  E 0x746f7263682e54656e736f722e5f5f72747275656469765f5f 0x4368616e67655072656669784d617463686572 /- torch.Tensor.__rtruediv__ -/,
  E 0x746f7263682e54656e736f722e626974776973655f616e645f 0x4368616e67655072656669784d617463686572 /- torch.Tensor.bitwise_and_ -/,
  E 0x746f7263682e54656e736f722e626974776973655f6e6f745f 0x4368616e67655072656669784d617463686572 /- torch.Tensor.bitwise_not_ -/,
  E 0x746f7263682e54656e736f722e626974776973655f786f725f 0x4368616e67655072656669784d617463686572 /- torch.Tensor.bitwise_xor_ -/,
  E 0x746f7263682e54656e736f722e62726f6164636173745f746f 0x4368616e67655072656669784d617463686572 /- torch.Tensor.broadcast_to -/,
  E 0x746f7263682e54656e736f722e63636f6c5f696e6469636573 0 /- torch.Tensor.ccol_indices -/,
  E 0x746f7263682e54656e736f722e63726f775f696e6469636573 0x4368616e67655072656669784d617463686572 /- torch.Tensor.crow_indices -/,
  E 0x746f7263682e54656e736f722e656c656d656e745f73697a65 0x4368616e67655072656669784d617463686572 /- torch.Tensor.element_size -/,
  E 0x746f7263682e54656e736f722e6578706f6e656e7469616c5f 0x4368616e67655072656669784d617463686572 /- torch.Tensor.exponential_ -/,
  F 0x746f7263682e54656e736f722e666c6f61745f706f7765725f 0x466c6f6174506f776572496e706c6163654d617463686572 0 1 [0x6578706f6e656e74] [] [] [] [] /- torch.Tensor.float_power_ -/,
  E 0x746f7263682e54656e736f722e666c6f6f725f646976696465 0x4368616e67655072656669784d617463686572 /- torch.Tensor.floor_divide -/,
  E 0x746f7263682e54656e736f722e696e6465785f726564756365 0 /- torch.Tensor.index_reduce -/,
  E 0x746f7263682e54656e736f722e696e6465785f73656c656374 0x4368616e67655072656669784d617463686572 /- torch.Tensor.index_select -/,
  E 0x746f7263682e54656e736f722e69735f636f616c6573636564 0x4368616e67655072656669784d617463686572 /- torch.Tensor.is_coalesced -/,
  F 0x746f7263682e54656e736f722e69735f696e666572656e6365 0x46756e6332417474726962757465 0x706164646c652e54656e736f722e73746f705f6772616469656e74 0 [] [] [] [] [] /- torch.Tensor.is_inference -/,
  E 0x746f7263682e54656e736f722e6c6f6763756d73756d657870 0x4368616e67655072656669784d617463686572 /- torch.Tensor.logcumsumexp -/,
  F 0x746f7263682e54656e736f722e6c6f676963616c5f616e645f 0x54656e736f72496e706c61636552657365727665547970654d617463686572 0x706164646c652e54656e736f722e6c6f676963616c5f616e645f 1 [0x6f74686572] [] [] [(0x6f74686572, false, [0x79])] [] /- torch.Tensor.logical_and_ -/,
  F 0x746f7263682e54656e736f722e6c6f676963616c5f6e6f745f 0x54656e736f72496e706c61636552657365727665547970654d617463686572 0x706164646c652e54656e736f722e6c6f676963616c5f6e6f745f 0 [] [] [] [] [] /- torch.Tensor.logical_not_ -/,
  F 0x746f7263682e54656e736f722e6c6f676963616c5f786f725f 0x54656e736f72496e706c61636552657365727665547970654d617463686572 0x706164646c652e54656e736f722e6c6f676963616c5f786f725f 1 [0x6f74686572] [] [] [(0x6f74686572, false, [0x79])] [] /- torch.Tensor.logical_xor_ -/,
  E 0x746f7263682e54656e736f722e6d61736b65645f66696c6c5f 0x4368616e67655072656669784d617463686572 /- torch.Tensor.masked_fill_ -/,
  E 0x746f7263682e54656e736f722e6d61747269785f706f776572 0x4368616e67655072656669784d617463686572 /- torch.Tensor.matrix_power -/,
  E 0x746f7263682e54656e736f722e715f7a65726f5f706f696e74 0 /- torch.Tensor.q_zero_point -/,
  F 0x746f7263682e54656e736f722e726566696e655f6e616d6573 0 0 0 [] [] [] [] [] /- torch.Tensor.refine_names -/,
  E 0x746f7263682e54656e736f722e7265736f6c76655f636f6e6a 0 /- torch.Tensor.resolve_conj -/,
  E 0x746f7263682e54656e736f722e736361747465725f6164645f 0x4368616e67655072656669784d617463686572 /- torch.Tensor.scatter_add_ -/,
  F 0x746f7263682e54656e736f722e73746f726167655f74797065 0 0 0 [] [] [] [] [] /- torch.Tensor.storage_type -/,
  E 0x746f7263682e54656e736f722e74656e736f725f73706c6974 0x4368616e67655072656669784d617463686572 /- torch.Tensor.tensor_split -/,
  E 0x746f7263682e54656e736f722e747275655f6469766964655f 0x4368616e67655072656669784d617463686572 /- torch.Tensor.true_divide_ -/,
  F 0x746f7263682e5f666f72656163685f7265636970726f63616c 0x466f72656163684d617463686572 0x706164646c652e7265636970726f63616c 1 [0x73656c66] [] [] [] [] /- torch._foreach_reciprocal -/,
  E 0x746f7263682e61646170746976655f6176675f706f6f6c3164 0x4368616e67655072656669784d617463686572 /- torch.adaptive_avg_pool1d -/,
  E 0x746f7263682e61646170746976655f6d61785f706f6f6c3164 0 /- torch.adaptive_max_pool1d -/,
  E 0x746f7263682e626974776973655f72696768745f7368696674 0x4368616e67655072656669784d617463686572 /- torch.bitwise_right_shift -/,
  E 0x746f7263682e637564612e42466c6f6174313654656e736f72 0x4368616e67655072656669784d617463686572 /- torch.cuda.BFloat16Tensor -/,
  E 0x746f7263682e637564612e616d702e477261645363616c6572 0x4368616e67655072656669784d617463686572 /- torch.cuda.amp.GradScaler -/,
  F 0x746f7263682e637564612e636f6d6d2e62726f616463617374 0x47656e657269634d617463686572 0x706164646c652e64697374726962757465642e62726f616463617374 1 [0x74656e736f72, 0x64657669636573, 0x2a, 0x6f7574] [] [] [(0x64657669636573, false, [0x737263])] [] /- torch.cuda.comm.broadcast -/,
  E 0x746f7263682e637564612e63757272656e745f646576696365 0x4368616e67655072656669784d617463686572 /- torch.cuda.current_device -/]

def apiTable22 : List Raw := [
  E 0x746f7263682e637564612e63757272656e745f73747265616d 0x4368616e67655072656669784d617463686572 /- torch.cuda.current_stream -/,
  E 0x746f7263682e637564612e69735f696e697469616c697a6564 0x4368616e67655072656669784d617463686572 /- torch.cuda.is_initialized -/,
  E 0x746f7263682e637564612e6e7674782e72616e67655f706f70 0x4368616e67655072656669784d617463686572 /- torch.cuda.nvtx.range_pop -/,
  F 0x746f7263682e64697374726962757465642e4261636b656e64 0x44697374726962757465644261636b656e644d617463686572 0x746f7263682e64697374726962757465642e4261636b656e64 1 [0x6e616d65] [] [] [] [] /- torch.distributed.Backend -/,
  F 0x746f7263682e64697374726962757465642e62617272696572 0x47656e657269634d617463686572 0x706164646c652e64697374726962757465642e62617272696572 0 [0x67726f7570, 0x6173796e635f6f70, 0x6465766963655f696473] [] [0x6465766963655f696473] [(0x6173796e635f6f70, false, [0])] [] /- torch.distributed.barrier -/,
  F 0x746f7263682e64697374726962757465642e73636174746572 0x526576657273654173796e634f704d617463686572 0x706164646c652e64697374726962757465642e73636174746572 1 [0x74656e736f72, 0x736361747465725f6c697374, 0x737263, 0x67726f7570, 0x6173796e635f6f70] [] [] [(0x736361747465725f6c697374, false, [0x74656e736f725f6c697374])] [] /- torch.distributed.scatter -/,
  E 0x746f7263682e66756e6374696f6e616c2e6d65736867726964 0x4368616e67655072656669784d617463686572 /- torch.functional.meshgrid -/,
  E 0x746f7263682e69735f6175746f636173745f656e61626c6564 0x4368616e67655072656669784d617463686572 /- torch.is_autocast_enabled -/,
  F 0x746f7263682e6c696e616c672e6c755f666163746f725f6578 0x547269706c6541737369676e4d617463686572 0x706164646c652e6c696e616c672e6c75 1 [0x41, 0x2a, 0x7069766f74, 0x636865636b5f6572726f7273, 0x6f7574] [] [] [(0x41, false, [0x78]), (0x636865636b5f6572726f7273, false, [0])] [(0x6765745f696e666f73, 0x54727565)] /- torch.linalg.lu_factor_ex -/,
  F 0x746f7263682e6c696e616c672e6d61747269785f706f776572 0x47656e657269634d617463686572 0x706164646c652e6c696e616c672e6d61747269785f706f776572 2 [0x696e707574, 0x6e, 0x2a, 0x6f7574] [] [] [(0x696e707574, false, [0x78])] [] /- torch.linalg.matrix_power -/,
  E 0x746f7263682e6d617267696e5f72616e6b696e675f6c6f7373 0 /- torch.margin_ranking_loss -/,
  E 0x746f7263682e6e6e2e436f73696e6553696d696c6172697479 0x4368616e67655072656669784d617463686572 /- torch.nn.CosineSimilarity -/,
  E 0x746f7263682e6e6e2e43726f7373456e74726f70794c6f7373 0x4368616e67655072656669784d617463686572 /- torch.nn.CrossEntropyLoss -/,
  E 0x746f7263682e6e6e2e4d6f64756c652e7a65726f5f67726164 0x4368616e67655072656669784d617463686572 /- torch.nn.Module.zero_grad -/,
  E 0x746f7263682e6e6e2e506169727769736544697374616e6365 0x4368616e67655072656669784d617463686572 /- torch.nn.PairwiseDistance -/,
  E 0x746f7263682e6e6e2e5265706c69636174696f6e5061643164 0x4368616e67655072656669784d617463686572 /- torch.nn.ReplicationPad1d -/,
  E 0x746f7263682e6e6e2e5265706c69636174696f6e5061643264 0x4368616e67655072656669784d617463686572 /- torch.nn.ReplicationPad2d -/,
  E 0x746f7263682e6e6e2e5265706c69636174696f6e5061643364 0x4368616e67655072656669784d617463686572 /- torch.nn.ReplicationPad3d -/,
  F 0x746f7263682e6e6e2e66756e6374696f6e616c2e7064697374 0x47656e657269634d617463686572 0x706164646c652e7064697374 1 [0x696e707574, 0x70] [] [] [(0x696e707574, false, [0x78])] [] /- torch.nn.functional.pdist -/,
  E 0x746f7263682e6e6e2e66756e6374696f6e616c2e7072656c75 0x4368616e67655072656669784d617463686572 /- torch.nn.functional.prelu -/,
  E 0x746f7263682e6e6e2e66756e6374696f6e616c2e72656c7536 0x4368616e67655072656669784d617463686572 /- torch.nn.functional.relu6 -/,
  E 0x746f7263682e6e6e2e66756e6374696f6e616c2e72656c755f 0x4368616e67655072656669784d617463686572 /- torch.nn.functional.relu_ -/,
  F 0x746f7263682e6e6e2e66756e6374696f6e616c2e7272656c75 0x47656e657269634d617463686572 0x706164646c652e6e6e2e66756e6374696f6e616c2e7272656c75 1 [0x696e707574, 0x6c6f776572, 0x7570706572, 0x747261696e696e67, 0x696e706c616365] [] [] [(0x696e707574, false, [0x78])] [] /- torch.nn.functional.rrelu -/,
  E 0x746f7263682e6e6e2e696e69742e6f7274686f676f6e616c5f 0x4368616e67655072656669784d617463686572 /- torch.nn.init.orthogonal_ -/,
  E 0x746f7263682e72616e646f6d2e696e697469616c5f73656564 0x4368616e67655072656669784d617463686572 /- torch.random.initial_seed -/,
  F 0x746f7263682e7369676e616c2e77696e646f77732e68616e6e 0x5369676e616c57696e646f777357617463686572 0x706164646c652e617564696f2e66756e6374696f6e616c2e6765745f77696e646f77 1 [0x4d, 0x2a, 0x73796d, 0x6474797065, 0x6c61796f7574, 0x646576696365, 0x72657175697265735f67726164] [] [] [(0x4d, false, [0x77696e5f6c656e677468]), (0x73796d, false, [0x66667462696e73]), (0x6474797065, false, [0x6474797065])] [(0x6474797065, 0x27666c6f6174333227), (0x66667462696e73, 0x46616c7365), (0x77696e646f77, 0x2768616e6e27)] /- torch.signal.windows.hann -/,
  E 0x746f7263682e7370656369616c2e6c6f675f736f66746d6178 0x4368616e67655072656669784d617463686572 /- torch.special.log_softmax -/,
  F 0x746f7263682e74657374696e672e6d616b655f74656e736f72 0x4d616b65544d617463686572 0 3 [0x2a7368617065, 0x6474797065, 0x646576696365, 0x6c6f77, 0x68696768, 0x72657175697265735f67726164, 0x6e6f6e636f6e746967756f7573, 0x6578636c7564655f7a65726f, 0x6d656d6f72795f666f726d6174] [] [] [] [] /- torch.testing.make_tensor -/,
  E 0x746f7263682e747269706c65745f6d617267696e5f6c6f7373 0 /- torch.triplet_margin_loss -/,
  F 0x746f726368766973696f6e2e6f70732e726f695f616c69676e 0x426f786573436f6e766572744d617463686572 0x706164646c652e766973696f6e2e6f70732e726f695f616c69676e 0 [0x696e707574, 0x626f786573, 0x6f75747075745f73697a65, 0x7370617469616c5f7363616c65, 0x73616d706c696e675f726174696f, 0x616c69676e6564] [] [] [] [] /- torchvision.ops.roi_align -/,
  E 0x746f7263682e54656e736f722e5f5f7265647563655f65785f5f 0x4368616e67655072656669784d617463686572 /- torch.Tensor.__reduce_ex__ -/,
  F 0x746f7263682e54656e736f722e636f6e6a5f706879736963616c 0x4368616e67654150494d617463686572 0x706164646c652e54656e736f722e636f6e6a 0 [] [] [] [] [] /- torch.Tensor.conj_physical -/,
  E 0x746f7263682e54656e736f722e636f756e745f6e6f6e7a65726f 0x4368616e67655072656669784d617463686572 /- torch.Tensor.count_nonzero -/,
  E 0x746f7263682e54656e736f722e666c6f6f725f6469766964655f 0x4368616e67655072656669784d617463686572 /- torch.Tensor.floor_divide_ -/,
  E 0x746f7263682e54656e736f722e677265617465725f657175616c 0x4368616e67655072656669784d617463686572 /- torch.Tensor.greater_equal -/,
  E 0x746f7263682e54656e736f722e696e6465785f7265647563655f 0 /- torch.Tensor.index_reduce_ -/,
  E 0x746f7263682e54656e736f722e69735f636f6e746967756f7573 0x4368616e67655072656669784d617463686572 /- torch.Tensor.is_contiguous -/,
  E 0x746f7263682e54656e736f722e6d61736b65645f73656c656374 0x4368616e67655072656669784d617463686572 /- torch.Tensor.masked_select -/,
  E 0x746f7263682e54656e736f722e7265636f72645f73747265616d 0 /- torch.Tensor.record_stream -/,
  E 0x746f7263682e54656e736f722e72656769737465725f686f6f6b 0x4368616e67655072656669784d617463686572 /- torch.Tensor.register_hook -/,
  F 0x746f7263682e54656e736f722e73686172655f6d656d6f72795f 0 0 0 [] [] [] [] [] /- torch.Tensor.share_memory_ -/,
  E 0x746f7263682e54656e736f722e736c6963655f73636174746572 0x4368616e67655072656669784d617463686572 /- torch.Tensor.slice_scatter -/,
  E 0x746f7263682e54656e736f722e746f5f7370617273655f627363 0 /- torch.Tensor.to_sparse_bsc -/,
  E 0x746f7263682e54656e736f722e746f5f7370617273655f627372 0 /- torch.Tensor.to_sparse_bsr -/,
  P 0x746f7263682e54656e736f722e746f5f7370617273655f636f6f 0x54656e736f72546f537061727365436f6f4d617463686572 0x706164646c652e54656e736f722e746f5f7370617273655f636f6f /- torch.Tensor.to_sparse_coo -/,
  E 0x746f7263682e54656e736f722e746f5f7370617273655f637363 0 /- torch.Tensor.to_sparse_csc -/,
  F 0x746f7263682e54656e736f722e746f5f7370617273655f637372 0x47656e657269634d617463686572 0x706164646c652e54656e736f722e746f5f7370617273655f637372 0 [0x64656e73655f64696d] [] [0x64656e73655f64696d] [] [] /- torch.Tensor.to_sparse_csr -/,
  F 0x746f7263682e5f666f72656163685f7265636970726f63616c5f 0x466f726561636854656e736f724d617463686572 0x706164646c652e54656e736f722e7265636970726f63616c5f 1 [0x73656c66] [] [] [] [] /- torch._foreach_reciprocal_ -/,
  E 0x746f7263682e6175746f677261642e656e61626c655f67726164 0x4368616e67655072656669784d617463686572 /- torch.autograd.enable_grad -/,
  E 0x746f7263682e637564612e6765745f6465766963655f6e616d65 0x4368616e67655072656669784d617463686572 /- torch.cuda.get_device_name -/,
  E 0x746f7263682e637564612e6d616e75616c5f736565645f616c6c 0x4368616e67655072656669784d617463686572 /- torch.cuda.manual_seed_all -/,
  E 0x746f7263682e637564612e6d656d6f72795f7265736572766564 0x4368616e67655072656669784d617463686572 /- torch.cuda.memory_reserved -/,
  E 0x746f7263682e637564612e6e7674782e72616e67655f70757368 0x4368616e67655072656669784d617463686572 /- torch.cuda.nvtx.range_push -/,
  E 0x746f7263682e63756d756c61746976655f74726170657a6f6964 0x4368616e67655072656669784d617463686572 /- torch.cumulative_trapezoid -/,
  E 0x746f7263682e64697374726962757465642e5265647563654f70 0x4368616e67655072656669784d617463686572 /- torch.distributed.ReduceOp -/,
  E 0x746f7263682e64697374726962757465642e6765745f72616e6b 0x4368616e67655072656669784d617463686572 /- torch.distributed.get_rank -/,
  E 0x746f7263682e646973747269627574696f6e732e4e6f726d616c 0x4368616e67655072656669784d617463686572 /- torch.distributions.Normal -/,
  E 0x746f7263682e68696e67655f656d62656464696e675f6c6f7373 0 /- torch.hinge_embedding_loss -/,
  E 0x746f7263682e6c696e616c672e6c646c5f666163746f725f6578 0 /- torch.linalg.ldl_factor_ex -/,
  E 0x746f7263682e6e6e2e4164617074697665417667506f6f6c3164 0x4368616e67655072656669784d617463686572 /- torch.nn.AdaptiveAvgPool1d -/]

def apiTable23 : List Raw := [
  E 0x746f7263682e6e6e2e4164617074697665417667506f6f6c3264 0x4368616e67655072656669784d617463686572 /- torch.nn.AdaptiveAvgPool2d -/,
  E 0x746f7263682e6e6e2e4164617074697665417667506f6f6c3364 0x4368616e67655072656669784d617463686572 /- torch.nn.AdaptiveAvgPool3d -/,
  E 0x746f7263682e6e6e2e41646170746976654d6178506f6f6c3164 0x4368616e67655072656669784d617463686572 /- torch.nn.AdaptiveMaxPool1d -/,
  E 0x746f7263682e6e6e2e41646170746976654d6178506f6f6c3264 0x4368616e67655072656669784d617463686572 /- torch.nn.AdaptiveMaxPool2d -/,
  E 0x746f7263682e6e6e2e41646170746976654d6178506f6f6c3364 0x4368616e67655072656669784d617463686572 /- torch.nn.AdaptiveMaxPool3d -/,
  E 0x746f7263682e6e6e2e424345576974684c6f676974734c6f7373 0x4368616e67655072656669784d617463686572 /- torch.nn.BCEWithLogitsLoss -/,
  E 0x746f7263682e6e6e2e4c6f63616c526573706f6e73654e6f726d 0x4368616e67655072656669784d617463686572 /- torch.nn.LocalResponseNorm -/,
  E 0x746f7263682e6e6e2e4d617267696e52616e6b696e674c6f7373 0x4368616e67655072656669784d617463686572 /- torch.nn.MarginRankingLoss -/,
  E 0x746f7263682e6e6e2e4d6f64756c652e6164645f6d6f64756c65 0x4368616e67655072656669784d617463686572 /- torch.nn.Module.add_module -/,
  E 0x746f7263682e6e6e2e4d6f64756c652e6765745f627566666572 0x4368616e67655072656669784d617463686572 /- torch.nn.Module.get_buffer -/,
  E 0x746f7263682e6e6e2e4d6f64756c652e706172616d6574657273 0x4368616e67655072656669784d617463686572 /- torch.nn.Module.parameters -/,
  E 0x746f7263682e6e6e2e4d6f64756c652e73746174655f64696374 0x4368616e67655072656669784d617463686572 /- torch.nn.Module.state_dict -/,
  E 0x746f7263682e6e6e2e547269706c65744d617267696e4c6f7373 0x4368616e67655072656669784d617463686572 /- torch.nn.TripletMarginLoss -/,
  E 0x746f7263682e6e6e2e66756e6374696f6e616c2e636f6e763164 0x4368616e67655072656669784d617463686572 /- torch.nn.functional.conv1d -/,
  E 0x746f7263682e6e6e2e66756e6374696f6e616c2e636f6e763264 0x4368616e67655072656669784d617463686572 /- torch.nn.functional.conv2d -/,
  E 0x746f7263682e6e6e2e66756e6374696f6e616c2e636f6e763364 0x4368616e67655072656669784d617463686572 /- torch.nn.functional.conv3d -/,
  E 0x746f7263682e6e6e2e66756e6374696f6e616c2e6b6c5f646976 0x4368616e67655072656669784d617463686572 /- torch.nn.functional.kl_div -/,
  P 0x746f7263682e6e6e2e66756e6374696f6e616c2e6c696e656172 0x4368616e67654150494d617463686572 0x706164646c652e636f6d7061742e6e6e2e66756e6374696f6e616c2e6c696e656172 /- torch.nn.functional.linear -/,
  F 0x746f7263682e6e6e2e66756e6374696f6e616c2e7272656c755f 0x47656e657269634d617463686572 0x706164646c652e6e6e2e66756e6374696f6e616c2e7272656c75 1 [0x696e707574, 0x6c6f776572, 0x7570706572, 0x747261696e696e67] [] [] [(0x696e707574, false, [0x78])] [] /- torch.nn.functional.rrelu_ -/,
  P 0x746f7263682e6e6e2e66756e6374696f6e616c2e756e666f6c64 0x4368616e67654150494d617463686572 0x706164646c652e636f6d7061742e6e6e2e66756e6374696f6e616c2e756e666f6c64 /- torch.nn.functional.unfold -/,
  E 0x746f7263682e6e6e2e7574696c732e7765696768745f6e6f726d 0x4368616e67655072656669784d617463686572 /- torch.nn.utils.weight_norm -/,
  E 0x746f7263682e6f7074696d2e4f7074696d697a65722e73746570 0x4368616e67655072656669784d617463686572 /- torch.optim.Optimizer.step -/,
  E 0x746f7263682e72616e646f6d2e6765745f726e675f7374617465 0x4368616e67655072656669784d617463686572 /- torch.random.get_rng_state -/,
  E 0x746f7263682e72616e646f6d2e7365745f726e675f7374617465 0x4368616e67655072656669784d617463686572 /- torch.random.set_rng_state -/,
  F 0x746f7263682e7370656369616c2e6d756c746967616d6d616c6e 0x47656e657269634d617463686572 0x706164646c652e6d756c746967616d6d616c6e 2 [0x696e707574, 0x70, 0x2a, 0x6f7574] [] [] [(0x696e707574, false, [0x78])] [] /- torch.special.multigammaln -/,
  E 0x746f7263682e74657374696e672e6173736572745f636c6f7365 0x4368616e67655072656669784d617463686572 /- torch.testing.assert_close -/,
  F 0x746f726368766973696f6e2e64617461736574732e4d4e495354 0x4d4e4953544d617463686572 0x706164646c652e766973696f6e2e64617461736574732e4d4e495354 0 [0x726f6f74, 0x747261696e, 0x7472616e73666f726d, 0x7461726765745f7472616e73666f726d, 0x646f776e6c6f6164] [] [0x7461726765745f7472616e73666f726d] [] [] /- torchvision.datasets.MNIST -/,
  F 0x746f726368766973696f6e2e696f2e6465636f64655f6a706567 0x4465636f64654a7065674d617463686572 0x706164646c652e766973696f6e2e6f70732e6465636f64655f6a706567 0 [0x696e707574, 0x6d6f6465, 0x646576696365, 0x6170706c795f657869665f6f7269656e746174696f6e] [] [0x6170706c795f657869665f6f7269656e746174696f6e] [(0x696e707574, false, [0x78])] [] /- torchvision.io.decode_jpeg -/,
  F 0x746f726368766973696f6e2e6d6f64656c732e616c65786e6574 0x576569676874734d617463686572 0x706164646c652e766973696f6e2e6d6f64656c732e616c65786e6574 0 [0x77656967687473, 0x70726f6772657373, 0x707265747261696e6564] [] [] [(0x70726f6772657373, false, [0])] [] /- torchvision.models.alexnet -/,
  F 0x746f726368766973696f6e2e7472616e73666f726d732e506164 0x4368616e67654150494d617463686572 0x706164646c652e766973696f6e2e7472616e73666f726d732e506164 0 [0x70616464696e67, 0x66696c6c, 0x70616464696e675f6d6f6465] [] [] [] [] /- torchvision.transforms.Pad -/,
  F 0x746f7263682e54656e736f722e63686f6c65736b795f736f6c7665 0x47656e657269634d617463686572 0x706164646c652e54656e736f722e63686f6c65736b795f736f6c7665 1 [0x696e70757432, 0x7570706572] [] [] [(0x696e70757432, false, [0x79])] [] /- torch.Tensor.cholesky_solve -/,
  E 0x746f7263682e54656e736f722e636f6e6a5f706879736963616c5f 0 /- torch.Tensor.conj_physical_ -/,
  E 0x746f7263682e54656e736f722e66696c6c5f646961676f6e616c5f 0x4368616e67655072656669784d617463686572 /- torch.Tensor.fill_diagonal_ -/,
  E 0x746f7263682e54656e736f722e6d61736b65645f73636174746572 0x4368616e67655072656669784d617463686572 /- torch.Tensor.masked_scatter -/,
  E 0x746f7263682e54656e736f722e72657175697265735f677261645f 0x4368616e67655072656669784d617463686572 /- torch.Tensor.requires_grad_ -/,
  E 0x746f7263682e54656e736f722e736361747465725f726564756365 0x4368616e67655072656669784d617463686572 /- torch.Tensor.scatter_reduce -/,
  E 0x746f7263682e54656e736f722e73656c6563745f73636174746572 0x4368616e67655072656669784d617463686572 /- torch.Tensor.select_scatter -/,
  E 0x746f7263682e54656e736f722e7370617273655f726573697a655f 0 /- torch.Tensor.sparse_resize_ -/,
  E 0x746f7263682e54656e736f722e73746f726167655f6f6666736574 0 /- torch.Tensor.storage_offset -/,
  E 0x746f7263682e54656e736f722e74616b655f616c6f6e675f64696d 0x4368616e67655072656669784d617463686572 /- torch.Tensor.take_along_dim -/,
  E 0x746f7263682e636f73696e655f656d62656464696e675f6c6f7373 0 /- torch.cosine_embedding_loss -/,
  E 0x746f7263682e637564612e4f75744f664d656d6f72794572726f72 0x4368616e67655072656669784d617463686572 /- torch.cuda.OutOfMemoryError -/,
  E 0x746f7263682e637564612e6d656d6f72795f616c6c6f6361746564 0x4368616e67655072656669784d617463686572 /- torch.cuda.memory_allocated -/,
  F 0x746f7263682e64697374726962757465642e62726f616463617374 0x526576657273654173796e634f704d617463686572 0x706164646c652e64697374726962757465642e62726f616463617374 2 [0x74656e736f72, 0x737263, 0x67726f7570, 0x6173796e635f6f70] [] [] [] [] /- torch.distributed.broadcast -/,
  F 0x746f7263682e64697374726962757465642e6e65775f67726f7570 0x47656e657269634d617463686572 0x706164646c652e64697374726962757465642e6e65775f67726f7570 0 [0x72616e6b73, 0x74696d656f7574, 0x6261636b656e64, 0x70675f6f7074696f6e73] [] [0x74696d656f7574, 0x70675f6f7074696f6e73] [] [] /- torch.distributed.new_group -/,
  E 0x746f7263682e666561747572655f616c7068615f64726f706f7574 0 /- torch.feature_alpha_dropout -/,
  E 0x746f7263682e66756e6374696f6e616c2e61746c656173745f3164 0x4368616e67655072656669784d617463686572 /- torch.functional.atleast_1d -/,
  E 0x746f7263682e66756e6374696f6e616c2e61746c656173745f3264 0x4368616e67655072656669784d617463686572 /- torch.functional.atleast_2d -/,
  E 0x746f7263682e66756e6374696f6e616c2e61746c656173745f3364 0x4368616e67655072656669784d617463686572 /- torch.functional.atleast_3d -/,
  F 0x746f7263682e6d756c746970726f63657373696e672e737061776e 0x47656e657269634d617463686572 0x706164646c652e64697374726962757465642e737061776e 1 [0x666e, 0x61726773, 0x6e70726f6373, 0x6a6f696e, 0x6461656d6f6e, 0x73746172745f6d6574686f64] [] [] [(0x666e, false, [0x66756e63]), (0x73746172745f6d6574686f64, false, [0])] [(0x6e70726f6373, 0x31)] /- torch.multiprocessing.spawn -/,
  E 0x746f7263682e6e6e2e48696e6765456d62656464696e674c6f7373 0x4368616e67655072656669784d617463686572 /- torch.nn.HingeEmbeddingLoss -/,
  P 0x746f7263682e6e6e2e4d756c746968656164417474656e74696f6e 0x4368616e67654150494d617463686572 0x706164646c652e636f6d7061742e6e6e2e4d756c746968656164417474656e74696f6e /- torch.nn.MultiheadAttention -/,
  E 0x746f7263682e6e6e2e5472616e73666f726d65724465636f646572 0x4368616e67655072656669784d617463686572 /- torch.nn.TransformerDecoder -/,
  F 0x746f7263682e6e6e2e5472616e73666f726d6572456e636f646572 0x47656e657269634d617463686572 0x706164646c652e6e6e2e5472616e73666f726d6572456e636f646572 2 [0x656e636f6465725f6c61796572, 0x6e756d5f6c6179657273, 0x6e6f726d, 0x656e61626c655f6e65737465645f74656e736f72, 0x6d61736b5f636865636b] [] [] [(0x656e61626c655f6e65737465645f74656e736f72, false, [0]), (0x6d61736b5f636865636b, false, [0])] [] /- torch.nn.TransformerEncoder -/,
  E 0x746f7263682e6e6e2e66756e6374696f6e616c2e64726f706f7574 0x4368616e67655072656669784d617463686572 /- torch.nn.functional.dropout -/,
  E 0x746f7263682e6e6e2e66756e6374696f6e616c2e6c315f6c6f7373 0x4368616e67655072656669784d617463686572 /- torch.nn.functional.l1_loss -/,
  E 0x746f7263682e6e6e2e66756e6374696f6e616c2e6f6e655f686f74 0x4368616e67655072656669784d617463686572 /- torch.nn.functional.one_hot -/,
  E 0x746f7263682e6e6e2e66756e6374696f6e616c2e7369676d6f6964 0x4368616e67655072656669784d617463686572 /- torch.nn.functional.sigmoid -/,
  P 0x746f7263682e6e6e2e66756e6374696f6e616c2e736f66746d6178 0x4368616e67654150494d617463686572 0x706164646c652e636f6d7061742e6e6e2e66756e6374696f6e616c2e736f66746d6178 /- torch.nn.functional.softmax -/,
  F 0x746f7263682e6e6e2e66756e6374696f6e616c2e736f66746d696e 0x46536f66744d696e4d617463686572 0x706164646c652e6e6e2e66756e6374696f6e616c2e736f66746d6178 1 [0x696e707574, 0x64696d, 0x5f737461636b6c6576656c, 0x6474797065] [] [] [(0x696e707574, false, [0x78]), (0x64696d, false, [0x61786973]), (0x5f737461636b6c6576656c, false, [0]), (0x6474797065, false, [0x6474797065])] [] /- torch.nn.functional.softmin -/]

def apiTable24 : List Raw := [
  E 0x746f7263682e6e6e2e696e69742e7472756e635f6e6f726d616c5f 0x4368616e67655072656669784d617463686572 /- torch.nn.init.trunc_normal_ -/,
  E 0x746f7263682e6e6e2e6d6f64756c65732e6c6f73732e5f4c6f7373 0x4368616e67655072656669784d617463686572 /- torch.nn.modules.loss._Loss -/,
  F 0x746f7263682e7369676e616c2e77696e646f77732e636f73696e65 0x5369676e616c57696e646f777357617463686572 0x706164646c652e617564696f2e66756e6374696f6e616c2e6765745f77696e646f77 1 [0x4d, 0x2a, 0x73796d, 0x6474797065, 0x6c61796f7574, 0x646576696365, 0x72657175697265735f67726164] [] [] [(0x4d, false, [0x77696e5f6c656e677468]), (0x73796d, false, [0x66667462696e73]), (0x6474797065, false, [0x6474797065])] [(0x6474797065, 0x27666c6f6174333227), (0x66667462696e73, 0x46616c7365), (0x77696e646f77, 0x27636f73696e6527)] /- torch.signal.windows.cosine -/,
  E 0x746f7263682e7574696c732e646174612e446174614c6f61646572 0x4368616e67655072656669784d617463686572 /- torch.utils.data.DataLoader -/,
  F 0x746f726368766973696f6e2e6d6f64656c732e7265736e65743138 0x576569676874734d617463686572 0x706164646c652e766973696f6e2e6d6f64656c732e7265736e65743138 0 [0x77656967687473, 0x70726f6772657373, 0x707265747261696e6564] [] [] [(0x70726f6772657373, false, [0])] [] /- torchvision.models.resnet18 -/,
  F 0x746f726368766973696f6e2e6d6f64656c732e7265736e65743334 0x576569676874734d617463686572 0x706164646c652e766973696f6e2e6d6f64656c732e7265736e65743334 0 [0x77656967687473, 0x70726f6772657373, 0x707265747261696e6564] [] [] [(0x70726f6772657373, false, [0])] [] /- torchvision.models.resnet34 -/,
  F 0x746f726368766973696f6e2e6d6f64656c732e7265736e65743530 0x576569676874734d617463686572 0x706164646c652e766973696f6e2e6d6f64656c732e7265736e65743530 0 [0x77656967687473, 0x70726f6772657373, 0x707265747261696e6564] [] [] [(0x70726f6772657373, false, [0])] [] /- torchvision.models.resnet50 -/,
  F 0x746f726368766973696f6e2e6d6f64656c732e76676731315f626e 0x5647474d617463686572 0x706164646c652e766973696f6e2e6d6f64656c732e7667673131 0 [0x77656967687473, 0x70726f6772657373, 0x707265747261696e6564] [] [] [(0x70726f6772657373, false, [0])] [] /- torchvision.models.vgg11_bn -/,
  F 0x746f726368766973696f6e2e6d6f64656c732e76676731335f626e 0x5647474d617463686572 0x706164646c652e766973696f6e2e6d6f64656c732e7667673133 0 [0x77656967687473, 0x70726f6772657373, 0x707265747261696e6564] [] [] [(0x70726f6772657373, false, [0])] [] /- torchvision.models.vgg13_bn -/,
  F 0x746f726368766973696f6e2e6d6f64656c732e76676731365f626e 0x5647474d617463686572 0x706164646c652e766973696f6e2e6d6f64656c732e7667673136 0 [0x77656967687473, 0x70726f6772657373, 0x707265747261696e6564] [] [] [(0x70726f6772657373, false, [0])] [] /- torchvision.models.vgg16_bn -/,
  F 0x746f726368766973696f6e2e6d6f64656c732e76676731395f626e 0x5647474d617463686572 0x706164646c652e766973696f6e2e6d6f64656c732e7667673139 0 [0x77656967687473, 0x70726f6772657373, 0x707265747261696e6564] [] [] [(0x70726f6772657373, false, [0])] [] /- torchvision.models.vgg19_bn -/,
  F 0x746f726368766973696f6e2e6f70732e70735f726f695f706f6f6c 0x426f786573436f6e766572744d617463686572 0x706164646c652e766973696f6e2e6f70732e7073726f695f706f6f6c 0 [0x696e707574, 0x626f786573, 0x6f75747075745f73697a65, 0x7370617469616c5f7363616c65] [] [] [] [] /- torchvision.ops.ps_roi_pool -/,
  F 0x666c6173685f6174746e2e5f5f76657273696f6e5f5f2e73706c6974 0x4368616e67654150494d617463686572 0x706164646c652e5f5f76657273696f6e5f5f2e73706c6974 0 [0x736570, 0x6d617873706c6974] [] [] [] [] /- flash_attn.__version__.split -/,
  E 0x746f7263682e54656e736f722e6d61736b65645f736361747465725f 0x4368616e67655072656669784d617463686572 /- torch.Tensor.masked_scatter_ -/,
  E 0x746f7263682e54656e736f722e736361747465725f7265647563655f 0x4368616e67655072656669784d617463686572 /- torch.Tensor.scatter_reduce_ -/,
  E 0x746f7263682e54656e736f722e756e74797065645f73746f72616765 0 /- torch.Tensor.untyped_storage -/,
  F 0x746f7263682e6261636b656e64732e637564612e69735f6275696c74 0x4368616e67654150494d617463686572 0x706164646c652e6465766963652e69735f636f6d70696c65645f776974685f63756461 0 [] [] [] [] [] /- torch.backends.cuda.is_built -/,
  F 0x746f7263682e6261636b656e64732e6375646e6e2e76657273696f6e 0x4368616e67654150494d617463686572 0x706164646c652e6465766963652e6765745f6375646e6e5f76657273696f6e 0 [] [] [] [] [] /- torch.backends.cudnn.version -/,
  F 0x746f7263682e637564612e6765745f726e675f73746174655f616c6c 0x4368616e67654150494d617463686572 0x706164646c652e6765745f726e675f7374617465 0 [] [] [] [] [] /- torch.cuda.get_rng_state_all -/,
  E 0x746f7263682e637564612e69735f626631365f737570706f72746564 0x4368616e67655072656669784d617463686572 /- torch.cuda.is_bf16_supported -/,
  F 0x746f7263682e637564612e7365745f726e675f73746174655f616c6c 0x47656e657269634d617463686572 0x706164646c652e7365745f726e675f7374617465 1 [0x6e65775f737461746573] [] [] [(0x6e65775f737461746573, false, [0x73746174655f6c697374])] [] /- torch.cuda.set_rng_state_all -/,
  F 0x746f7263682e64697374726962757465642e616c6c5f676174686572 0x526576657273654173796e634f704d617463686572 0x706164646c652e64697374726962757465642e616c6c5f676174686572 2 [0x74656e736f725f6c697374, 0x74656e736f72, 0x67726f7570, 0x6173796e635f6f70] [] [] [] [] /- torch.distributed.all_gather -/,
  F 0x746f7263682e64697374726962757465642e616c6c5f726564756365 0x526576657273654173796e634f704d617463686572 0x706164646c652e64697374726962757465642e616c6c5f726564756365 1 [0x74656e736f72, 0x6f70, 0x67726f7570, 0x6173796e635f6f70] [] [] [] [] /- torch.distributed.all_reduce -/,
  F 0x746f7263682e64697374726962757465642e616c6c5f746f5f616c6c 0x47656e657269634d617463686572 0x706164646c652e64697374726962757465642e616c6c746f616c6c 2 [0x6f75747075745f74656e736f725f6c697374, 0x696e7075745f74656e736f725f6c697374, 0x67726f7570, 0x6173796e635f6f70] [] [] [(0x6f75747075745f74656e736f725f6c697374, false, [0x6f75745f74656e736f725f6c697374]), (0x696e7075745f74656e736f725f6c697374, false, [0x696e5f74656e736f725f6c697374]), (0x6173796e635f6f70, false, [0])] [] /- torch.distributed.all_to_all -/,
  F 0x746f7263682e64697374726962757465642e7270632e72656d6f7465 0x52706352656d6f74654d617463686572 0x706164646c652e64697374726962757465642e7270632e7270635f6173796e63 2 [0x746f, 0x66756e63, 0x61726773, 0x6b7761726773, 0x74696d656f7574] [] [] [(0x66756e63, false, [0x666e])] [] /- torch.distributed.rpc.remote -/,
  E 0x746f7263682e6765745f6175746f636173745f6770755f6474797065 0x4368616e67655072656669784d617463686572 /- torch.get_autocast_gpu_dtype -/,
  E 0x746f7263682e6e6e2e436f73696e65456d62656464696e674c6f7373 0x4368616e67655072656669784d617463686572 /- torch.nn.CosineEmbeddingLoss -/,
  F 0x746f7263682e6e6e2e46656174757265416c70686144726f706f7574 0x47656e657269634d617463686572 0x706164646c652e6e6e2e46656174757265416c70686144726f706f7574 0 [0x70, 0x696e706c616365] [] [] [] [] /- torch.nn.FeatureAlphaDropout -/,
  F 0x746f7263682e6e6e2e4672616374696f6e616c4d6178506f6f6c3264 0x47656e657269634d617463686572 0x706164646c652e6e6e2e4672616374696f6e616c4d6178506f6f6c3244 1 [0x6b65726e656c5f73697a65, 0x6f75747075745f73697a65, 0x6f75747075745f726174696f, 0x72657475726e5f696e6469636573, 0x5f72616e646f6d5f73616d706c6573] [] [0x6f75747075745f726174696f, 0x5f72616e646f6d5f73616d706c6573] [] [] /- torch.nn.FractionalMaxPool2d -/,
  F 0x746f7263682e6e6e2e4672616374696f6e616c4d6178506f6f6c3364 0x47656e657269634d617463686572 0x706164646c652e6e6e2e4672616374696f6e616c4d6178506f6f6c3344 1 [0x6b65726e656c5f73697a65, 0x6f75747075745f73697a65, 0x6f75747075745f726174696f, 0x72657475726e5f696e6469636573, 0x5f72616e646f6d5f73616d706c6573] [] [0x6f75747075745f726174696f, 0x5f72616e646f6d5f73616d706c6573] [] [] /- torch.nn.FractionalMaxPool3d -/,
  F 0x746f7263682e6e6e2e4d6f64756c652e73686172655f6d656d6f7279 0 0 0 [] [] [] [] [] /- torch.nn.Module.share_memory -/,
  E 0x746f7263682e6e6e2e557073616d706c696e674e6561726573743264 0x4368616e67655072656669784d617463686572 /- torch.nn.UpsamplingNearest2d -/,
  F 0x746f7263682e6e6e2e66756e6374696f6e616c2e62696c696e656172 0x46756e6374696f6e616c42696c696e6561724d617463686572 0x706164646c652e6e6e2e66756e6374696f6e616c2e62696c696e656172 3 [0x696e70757431, 0x696e70757432, 0x776569676874, 0x62696173] [] [] [(0x696e70757431, false, [0x7831]), (0x696e70757432, false, [0x7832])] [] /- torch.nn.functional.bilinear -/,
  E 0x746f7263682e6e6e2e66756e6374696f6e616c2e6374635f6c6f7373 0 /- torch.nn.functional.ctc_loss -/,
  F 0x746f7263682e6e6e2e66756e6374696f6e616c2e6861726474616e68 0x47656e657269634d617463686572 0x706164646c652e6e6e2e66756e6374696f6e616c2e6861726474616e68 1 [0x696e707574, 0x6d696e5f76616c, 0x6d61785f76616c, 0x696e706c616365] [] [] [(0x696e707574, false, [0x78]), (0x6d696e5f76616c, false, [0x6d696e]), (0x6d61785f76616c, false, [0x6d6178])] [] /- torch.nn.functional.hardtanh -/,
  E 0x746f7263682e6e6e2e66756e6374696f6e616c2e6d73655f6c6f7373 0x4368616e67655072656669784d617463686572 /- torch.nn.functional.mse_loss -/,
  E 0x746f7263682e6e6e2e66756e6374696f6e616c2e6e6c6c5f6c6f7373 0x4368616e67655072656669784d617463686572 /- torch.nn.functional.nll_loss -/,
  E 0x746f7263682e6e6e2e66756e6374696f6e616c2e726d735f6e6f726d 0x4368616e67655072656669784d617463686572 /- torch.nn.functional.rms_norm -/,
  E 0x746f7263682e6e6e2e66756e6374696f6e616c2e736f6674706c7573 0x4368616e67655072656669784d617463686572 /- torch.nn.functional.softplus -/,
  F 0x746f7263682e6e6e2e66756e6374696f6e616c2e736f66747369676e 0x47656e657269634d617463686572 0x706164646c652e6e6e2e66756e6374696f6e616c2e736f66747369676e 1 [0x696e707574] [] [] [(0x696e707574, false, [0x78])] [] /- torch.nn.functional.softsign -/,
  F 0x746f7263682e6e6e2e66756e6374696f6e616c2e757073616d706c65 0x47656e657269634d617463686572 0x706164646c652e6e6e2e66756e6374696f6e616c2e757073616d706c65 1 [0x696e707574, 0x73697a65, 0x7363616c655f666163746f72, 0x6d6f6465, 0x616c69676e5f636f726e657273] [] [0x616c69676e5f636f726e657273] [(0x696e707574, false, [0x78])] [] /- torch.nn.functional.upsample -/,
  E 0x746f7263682e6e6e2e696e69742e63616c63756c6174655f6761696e 0x4368616e67655072656669784d617463686572 /- torch.nn.init.calculate_gain -/,
  E 0x746f7263682e6e6e2e696e69742e7861766965725f6e6f726d616c5f 0x4368616e67655072656669784d617463686572 /- torch.nn.init.xavier_normal_ -/,
  E 0x746f7263682e6e6e2e696e69742e7861766965725f756e69666f726d 0x4368616e67655072656669784d617463686572 /- torch.nn.init.xavier_uniform -/,
  E 0x746f7263682e6e6e2e6d6f64756c65732e6c6f73732e4c314c6f7373 0x4368616e67655072656669784d617463686572 /- torch.nn.modules.loss.L1Loss -/,
  E 0x746f7263682e6e6e2e6d6f64756c65732e7574696c732e5f70616972 0x4368616e67655072656669784d617463686572 /- torch.nn.modules.utils._pair -/,
  E 0x746f7263682e6e6e2e706172616d657465722e506172616d65746572 0x4368616e67655072656669784d617463686572 /- torch.nn.parameter.Parameter -/,
  F 0x746f7263682e6e6e2e7574696c732e737065637472616c5f6e6f726d 0x47656e657269634d617463686572 0x706164646c652e6e6e2e7574696c732e737065637472616c5f6e6f726d 1 [0x6d6f64756c65, 0x6e616d65, 0x6e5f706f7765725f697465726174696f6e73, 0x657073, 0x64696d] [] [] [(0x6d6f64756c65, false, [0x6c61796572])] [] /- torch.nn.utils.spectral_norm -/,
  F 0x746f7263682e7369676e616c2e77696e646f77732e68616d6d696e67 0x5369676e616c57696e646f777357617463686572 0x706164646c652e617564696f2e66756e6374696f6e616c2e6765745f77696e646f77 1 [0x4d, 0x2a, 0x73796d, 0x6474797065, 0x6c61796f7574, 0x646576696365, 0x72657175697265735f67726164] [] [] [(0x4d, false, [0x77696e5f6c656e677468]), (0x73796d, false, [0x66667462696e73]), (0x6474797065, false, [0x6474797065])] [(0x6474797065, 0x27666c6f6174333227), (0x66667462696e73, 0x46616c7365), (0x77696e646f77, 0x2768616d6d696e6727)] /- torch.signal.windows.hamming -/,
  F 0x746f7263682e7574696c732e646c7061636b2e746f5f646c7061636b 0x47656e657269634d617463686572 0x706164646c652e7574696c732e646c7061636b2e746f5f646c7061636b 0 [0x74656e736f72] [] [] [(0x74656e736f72, false, [0x78])] [] /- torch.utils.dlpack.to_dlpack -/,
  F 0x746f726368766973696f6e2e64617461736574732e43494641523130 0x43696661724d617463686572 0x706164646c652e766973696f6e2e64617461736574732e43696661723130 0 [0x726f6f74, 0x747261696e, 0x7472616e73666f726d, 0x7461726765745f7472616e73666f726d, 0x646f776e6c6f6164] [] [0x7461726765745f7472616e73666f726d] [] [] /- torchvision.datasets.CIFAR10 -/,
  F 0x746f726368766973696f6e2e6d6f64656c732e676f6f676c656e6574 0x576569676874734d617463686572 0x706164646c652e766973696f6e2e6d6f64656c732e676f6f676c656e6574 0 [0x77656967687473, 0x70726f6772657373, 0x707265747261696e6564] [] [] [(0x70726f6772657373, false, [0])] [] /- torchvision.models.googlenet -/,
  F 0x746f726368766973696f6e2e6d6f64656c732e7265736e6574313031 0x576569676874734d617463686572 0x706164646c652e766973696f6e2e6d6f64656c732e7265736e6574313031 0 [0x77656967687473, 0x70726f6772657373, 0x707265747261696e6564] [] [] [(0x70726f6772657373, false, [0])] [] /- torchvision.models.resnet101 -/,
  F 0x746f726368766973696f6e2e6d6f64656c732e7265736e6574313532 0x576569676874734d617463686572 0x706164646c652e766973696f6e2e6d6f64656c732e7265736e6574313532 0 [0x77656967687473, 0x70726f6772657373, 0x707265747261696e6564] [] [] [(0x70726f6772657373, false, [0])] [] /- torchvision.models.resnet152 -/,
  F 0x746f726368766973696f6e2e6f70732e4465666f726d436f6e763264 0x47656e657269634d617463686572 0x706164646c652e766973696f6e2e6f70732e4465666f726d436f6e763244 0 [0x696e5f6368616e6e656c73, 0x6f75745f6368616e6e656c73, 0x6b65726e656c5f73697a65, 0x737472696465, 0x70616464696e67, 0x64696c6174696f6e, 0x67726f757073, 0x62696173] [] [] [(0x62696173, false, [0x626961735f61747472])] [] /- torchvision.ops.DeformConv2d -/,
  F 0x7472616e73666f726d6572732e4c6f6769747350726f636573736f72 0x47656e657269634d617463686572 0x706164646c65666f726d6572732e67656e65726174696f6e2e4c6f6769747350726f636573736f72 0 [0x696e7075745f696473, 0x73636f726573] [] [] [(0x73636f726573, false, [0x6c6f67697473])] [] /- transformers.LogitsProcessor -/,
  F 0x7472616e73666f726d6572732e507265547261696e65644d6f64656c 0x5452464d507265547261696e65644d6f64656c4d617463686572 0x706164646c65666f726d6572732e7472616e73666f726d6572732e507265747261696e65644d6f64656c 0 [] [] [] [] [] /- transformers.PreTrainedModel -/,
  E 0x746f7263682e54656e736f722e63686f6c65736b795f696e7665727365 0x4368616e67655072656669784d617463686572 /- torch.Tensor.cholesky_inverse -/,
  E 0x746f7263682e54656e736f722e646961676f6e616c5f73636174746572 0x4368616e67655072656669784d617463686572 /- torch.Tensor.diagonal_scatter -/,
  E 0x746f7263682e54656e736f722e73706c69745f776974685f73697a6573 0x4368616e67655072656669784d617463686572 /- torch.Tensor.split_with_sizes -/]

def apiTable25 : List Raw := [
  F 0x746f7263682e54656e736f722e747269616e67756c61725f736f6c7665 0x54656e736f72547269616e67756c6172536f6c76654d617463686572 0x706164646c652e6c696e616c672e747269616e67756c61725f736f6c7665 1 [0x41, 0x7570706572, 0x7472616e73706f7365, 0x756e69747269616e67756c6172] [] [] [] [] /- torch.Tensor.triangular_solve -/,
  F 0x746f7263682e6175746f677261642e66756e6374696f6e616c2e6a7670 0x47656e657269634d617463686572 0x706164646c652e696e6375626174652e6175746f677261642e6a7670 2 [0x66756e63, 0x696e70757473, 0x76, 0x6372656174655f6772617068, 0x737472696374] [] [0x6372656174655f6772617068, 0x737472696374] [(0x696e70757473, false, [0x7873])] [] /- torch.autograd.functional.jvp -/,
  F 0x746f7263682e6175746f677261642e66756e6374696f6e616c2e766a70 0x47656e657269634d617463686572 0x706164646c652e696e6375626174652e6175746f677261642e766a70 2 [0x66756e63, 0x696e70757473, 0x76, 0x6372656174655f6772617068, 0x737472696374] [] [0x6372656174655f6772617068, 0x737472696374] [(0x696e70757473, false, [0x7873])] [] /- torch.autograd.functional.vjp -/,
  E 0x746f7263682e64697374726962757465642e6765745f6261636b656e64 0x4368616e67655072656669784d617463686572 /- torch.distributed.get_backend -/,
  F 0x746f7263682e646973747269627574696f6e732e626574612e42657461 0x47656e657269634d617463686572 0x706164646c652e646973747269627574696f6e2e42657461 2 [0x636f6e63656e74726174696f6e31, 0x636f6e63656e74726174696f6e30, 0x76616c69646174655f61726773] [] [] [(0x636f6e63656e74726174696f6e31, false, [0x616c706861]), (0x636f6e63656e74726174696f6e30, false, [0x62657461]), (0x76616c69646174655f61726773, false, [0])] [] /- torch.distributions.beta.Beta -/,
  F 0x746f7263682e646973747269627574696f6e732e636869322e43686932 0x47656e657269634d617463686572 0x706164646c652e646973747269627574696f6e2e43686932 1 [0x6466, 0x76616c69646174655f61726773] [] [] [(0x76616c69646174655f61726773, false, [0])] [] /- torch.distributions.chi2.Chi2 -/,
  E 0x746f7263682e6765745f6e756d5f696e7465726f705f74687265616473 0x4765744e756d496e7465726f70546872656164734d617463686572 /- torch.get_num_interop_threads -/,
  F 0x746f7263682e6c696e616c672e736f6c76655f747269616e67756c6172 0x4c696e616c67536f6c7665547269616e67756c61724d617463686572 0x706164646c652e6c696e616c672e747269616e67756c61725f736f6c7665 2 [0x696e707574, 0x42, 0x2a, 0x7570706572, 0x6c656674, 0x756e69747269616e67756c6172, 0x6f7574] [] [] [(0x696e707574, false, [0x78]), (0x42, false, [0x79]), (0x6c656674, false, [0x7472616e73706f7365])] [] /- torch.linalg.solve_triangular -/,
  E 0x746f7263682e6e6e2e4d6f64756c652e6765745f706172616d65746572 0x4368616e67655072656669784d617463686572 /- torch.nn.Module.get_parameter -/,
  E 0x746f7263682e6e6e2e4d6f64756c652e6765745f7375626d6f64756c65 0x4368616e67655072656669784d617463686572 /- torch.nn.Module.get_submodule -/,
  E 0x746f7263682e6e6e2e4d6f64756c652e6e616d65645f62756666657273 0x4368616e67655072656669784d617463686572 /- torch.nn.Module.named_buffers -/,
  E 0x746f7263682e6e6e2e4d6f64756c652e6e616d65645f6d6f64756c6573 0x4368616e67655072656669784d617463686572 /- torch.nn.Module.named_modules -/,
  E 0x746f7263682e6e6e2e4d756c74694c6162656c4d617267696e4c6f7373 0x4368616e67655072656669784d617463686572 /- torch.nn.MultiLabelMarginLoss -/,
  E 0x746f7263682e6e6e2e557073616d706c696e6742696c696e6561723264 0x4368616e67655072656669784d617463686572 /- torch.nn.UpsamplingBilinear2d -/,
  E 0x746f7263682e6e6e2e617474656e74696f6e2e5344504261636b656e64 0x4368616e67655072656669784d617463686572 /- torch.nn.attention.SDPBackend -/,
  E 0x746f7263682e6e6e2e66756e6374696f6e616c2e64726f706f75743164 0x4368616e67655072656669784d617463686572 /- torch.nn.functional.dropout1d -/,
  F 0x746f7263682e6e6e2e66756e6374696f6e616c2e64726f706f75743264 0x47656e657269634d617463686572 0x706164646c652e6e6e2e66756e6374696f6e616c2e64726f706f75743264 1 [0x696e707574, 0x70, 0x747261696e696e67, 0x696e706c616365] [] [] [(0x696e707574, false, [0x78])] [] /- torch.nn.functional.dropout2d -/,
  F 0x746f7263682e6e6e2e66756e6374696f6e616c2e64726f706f75743364 0x47656e657269634d617463686572 0x706164646c652e6e6e2e66756e6374696f6e616c2e64726f706f75743364 1 [0x696e707574, 0x70, 0x747261696e696e67, 0x696e706c616365] [] [] [(0x696e707574, false, [0x78])] [] /- torch.nn.functional.dropout3d -/,
  E 0x746f7263682e6e6e2e66756e6374696f6e616c2e656d62656464696e67 0x4368616e67655072656669784d617463686572 /- torch.nn.functional.embedding -/,
  E 0x746f7263682e6e6e2e66756e6374696f6e616c2e686172647377697368 0x4368616e67655072656669784d617463686572 /- torch.nn.functional.hardswish -/,
  F 0x746f7263682e6e6e2e66756e6374696f6e616c2e6861726474616e685f 0x47656e657269634d617463686572 0x706164646c652e6e6e2e66756e6374696f6e616c2e6861726474616e685f 1 [0x696e707574, 0x6d696e5f76616c, 0x6d61785f76616c] [] [] [(0x696e707574, false, [0x78]), (0x6d696e5f76616c, false, [0x6d696e]), (0x6d61785f76616c, false, [0x6d6178])] [] /- torch.nn.functional.hardtanh_ -/,
  E 0x746f7263682e6e6e2e66756e6374696f6e616c2e6c705f706f6f6c3164 0x4368616e67655072656669784d617463686572 /- torch.nn.functional.lp_pool1d -/,
  E 0x746f7263682e6e6e2e66756e6374696f6e616c2e6c705f706f6f6c3264 0x4368616e67655072656669784d617463686572 /- torch.nn.functional.lp_pool2d -/,
  E 0x746f7263682e6e6e2e66756e6374696f6e616c2e6e6f726d616c697a65 0x4368616e67655072656669784d617463686572 /- torch.nn.functional.normalize -/,
  F 0x746f7263682e6e6e2e66756e6374696f6e616c2e7468726573686f6c64 0x47656e657269634d617463686572 0x706164646c652e6e6e2e66756e6374696f6e616c2e7468726573686f6c6465645f72656c75 3 [0x696e707574, 0x7468726573686f6c64, 0x76616c7565, 0x696e706c616365] [] [] [(0x696e707574, false, [0x78])] [] /- torch.nn.functional.threshold -/,
  E 0x746f7263682e6e6e2e696e69742e6b61696d696e675f6e6f726d616c5f 0x4368616e67655072656669784d617463686572 /- torch.nn.init.kaiming_normal_ -/,
  E 0x746f7263682e6e6e2e696e69742e7861766965725f756e69666f726d5f 0x4368616e67655072656669784d617463686572 /- torch.nn.init.xavier_uniform_ -/,
  E 0x746f7263682e6e6e2e6d6f64756c65732e6c6f73732e4243454c6f7373 0x4368616e67655072656669784d617463686572 /- torch.nn.modules.loss.BCELoss -/,
  E 0x746f7263682e6e6e2e6d6f64756c65732e6c6f73732e4354434c6f7373 0 /- torch.nn.modules.loss.CTCLoss -/,
  E 0x746f7263682e6e6e2e6d6f64756c65732e6c6f73732e4d53454c6f7373 0x4368616e67655072656669784d617463686572 /- torch.nn.modules.loss.MSELoss -/,
  E 0x746f7263682e6e6e2e6d6f64756c65732e6c6f73732e4e4c4c4c6f7373 0x4368616e67655072656669784d617463686572 /- torch.nn.modules.loss.NLLLoss -/,
  E 0x746f7263682e7365745f64656661756c745f74656e736f725f74797065 0x4368616e67655072656669784d617463686572 /- torch.set_default_tensor_type -/,
  F 0x746f7263682e7365745f6e756d5f696e7465726f705f74687265616473 0x5365744e756d496e7465726f70546872656164734d617463686572 0 1 [0x696e74] [] [] [] [] /- torch.set_num_interop_threads -/,
  F 0x746f7263682e7369676e616c2e77696e646f77732e626c61636b6d616e 0x5369676e616c57696e646f777357617463686572 0x706164646c652e617564696f2e66756e6374696f6e616c2e6765745f77696e646f77 1 [0x4d, 0x2a, 0x73796d, 0x6474797065, 0x6c61796f7574, 0x646576696365, 0x72657175697265735f67726164] [] [] [(0x4d, false, [0x77696e5f6c656e677468]), (0x73796d, false, [0x66667462696e73]), (0x6474797065, false, [0x6474797065])] [(0x6474797065, 0x27666c6f6174333227), (0x66667462696e73, 0x46616c7365), (0x77696e646f77, 0x27626c61636b6d616e27)] /- torch.signal.windows.blackman -/,
  F 0x746f7263682e7369676e616c2e77696e646f77732e676175737369616e 0x5369676e616c57696e646f777357617463686572 0x706164646c652e617564696f2e66756e6374696f6e616c2e6765745f77696e646f77 1 [0x4d, 0x2a, 0x737464, 0x73796d, 0x6474797065, 0x6c61796f7574, 0x646576696365, 0x72657175697265735f67726164] [] [] [(0x4d, false, [0x77696e5f6c656e677468]), (0x73796d, false, [0x66667462696e73]), (0x6474797065, false, [0x6474797065])] [(0x6474797065, 0x27666c6f6174333227), (0x66667462696e73, 0x46616c7365)] /- torch.signal.windows.gaussian -/,
  E 0x746f7263682e74657374696e672e6173736572745f616c6c636c6f7365 0x4368616e67655072656669784d617463686572 /- torch.testing.assert_allclose -/,
  E 0x746f7263682e7574696c732e646174612e426174636853616d706c6572 0x4368616e67655072656669784d617463686572 /- torch.utils.data.BatchSampler -/,
  E 0x746f7263682e7574696c732e646174612e436861696e44617461736574 0x4368616e67655072656669784d617463686572 /- torch.utils.data.ChainDataset -/,
  E 0x746f7263682e7574696c732e646174612e72616e646f6d5f73706c6974 0x4368616e67655072656669784d617463686572 /- torch.utils.data.random_split -/,
  F 0x746f726368766973696f6e2e64617461736574732e4349464152313030 0x43696661724d617463686572 0x706164646c652e766973696f6e2e64617461736574732e4369666172313030 0 [0x726f6f74, 0x747261696e, 0x7472616e73666f726d, 0x7461726765745f7472616e73666f726d, 0x646f776e6c6f6164] [] [0x7461726765745f7472616e73666f726d] [] [] /- torchvision.datasets.CIFAR100 -/,
  F 0x746f726368766973696f6e2e6d6f64656c732e496e63657074696f6e33 0x47656e657269634d617463686572 0x706164646c652e766973696f6e2e6d6f64656c732e496e63657074696f6e5633 0 [0x6e756d5f636c6173736573, 0x6175785f6c6f67697473, 0x7472616e73666f726d5f696e707574, 0x696e63657074696f6e5f626c6f636b73, 0x696e69745f77656967687473, 0x64726f706f7574] [] [0x7472616e73666f726d5f696e707574, 0x696e63657074696f6e5f626c6f636b73, 0x64726f706f7574] [(0x6175785f6c6f67697473, false, [0]), (0x696e69745f77656967687473, false, [0])] [] /- torchvision.models.Inception3 -/,
  F 0x746f726368766973696f6e2e6f70732e6465666f726d5f636f6e763264 0x47656e657269634d617463686572 0x706164646c652e766973696f6e2e6f70732e6465666f726d5f636f6e763264 0 [0x696e707574, 0x6f6666736574, 0x776569676874, 0x62696173, 0x737472696465, 0x70616464696e67, 0x64696c6174696f6e, 0x6d61736b] [] [] [(0x696e707574, false, [0x78])] [] /- torchvision.ops.deform_conv2d -/,
  F 0x746f726368766973696f6e2e7472616e73666f726d732e526573697a65 0x47656e657269634d617463686572 0x706164646c652e766973696f6e2e7472616e73666f726d732e526573697a65 0 [0x73697a65, 0x696e746572706f6c6174696f6e, 0x6d61785f73697a65, 0x616e7469616c696173] [] [0x6d61785f73697a65, 0x616e7469616c696173] [] [] /- torchvision.transforms.Resize -/,
  P 0x7472616e73666f726d6572732e47656e65726174696f6e436f6e666967 0x4368616e67654150494d617463686572 0x706164646c65666f726d6572732e67656e65726174696f6e2e47656e65726174696f6e436f6e666967 /- transformers.GenerationConfig -/,
  F 0x7472616e73666f726d6572732e507265747261696e6564436f6e666967 0x4368616e67654150494d617463686572 0x706164646c65666f726d6572732e7472616e73666f726d6572732e507265747261696e6564436f6e666967 0 [] [] [] [] [] /- transformers.PretrainedConfig -/,
  E 0x746f7263682e54656e736f722e69735f666c6f6174696e675f706f696e74 0x4368616e67655072656669784d617463686572 /- torch.Tensor.is_floating_point -/,
  E 0x746f7263682e54656e736f722e7265706561745f696e7465726c65617665 0x4368616e67655072656669784d617463686572 /- torch.Tensor.repeat_interleave -/,
  E 0x746f7263682e637564612e6d61785f6d656d6f72795f7265736572766564 0x4368616e67655072656669784d617463686572 /- torch.cuda.max_memory_reserved -/,
  E 0x746f7263682e64697374726962757465642e50726f6365737347726f7570 0x4368616e67655072656669784d617463686572 /- torch.distributed.ProcessGroup -/,
  E 0x746f7263682e64697374726962757465642e69735f617661696c61626c65 0x4368616e67655072656669784d617463686572 /- torch.distributed.is_available -/,
  F 0x746f7263682e64697374726962757465642e7270632e696e69745f727063 0x47656e657269634d617463686572 0x706164646c652e64697374726962757465642e7270632e696e69745f727063 1 [0x6e616d65, 0x6261636b656e64, 0x72616e6b, 0x776f726c645f73697a65, 0x7270635f6261636b656e645f6f7074696f6e73] [] [0x7270635f6261636b656e645f6f7074696f6e73] [] [] /- torch.distributed.rpc.init_rpc -/,
  F 0x746f7263682e64697374726962757465642e7270632e7270635f73796e63 0x47656e657269634d617463686572 0x706164646c652e64697374726962757465642e7270632e7270635f73796e63 2 [0x746f, 0x66756e63, 0x61726773, 0x6b7761726773, 0x74696d656f7574] [] [0x61726773] [(0x66756e63, false, [0x666e])] [] /- torch.distributed.rpc.rpc_sync -/,
  F 0x746f7263682e64697374726962757465642e7270632e73687574646f776e 0x47656e657269634d617463686572 0x706164646c652e64697374726962757465642e7270632e73687574646f776e 0 [0x677261636566756c, 0x74696d656f7574] [] [] [(0x677261636566756c, false, [0]), (0x74696d656f7574, false, [0])] [] /- torch.distributed.rpc.shutdown -/,
  F 0x746f7263682e6875622e646f776e6c6f61645f75726c5f746f5f66696c65 0x47656e657269634d617463686572 0x706164646c652e7574696c732e646f776e6c6f61642e6765745f776569676874735f706174685f66726f6d5f75726c 2 [0x75726c, 0x647374, 0x686173685f707265666978, 0x70726f6772657373] [] [] [(0x647374, false, [0]), (0x686173685f707265666978, false, [0]), (0x70726f6772657373, false, [0])] [] /- torch.hub.download_url_to_file -/,
  E 0x746f7263682e6e6e2e4d6f64756c652e6e616d65645f6368696c6472656e 0x4368616e67655072656669784d617463686572 /- torch.nn.Module.named_children -/,
  E 0x746f7263682e6e6e2e4d6f64756c652e72657175697265735f677261645f 0x4368616e67655072656669784d617463686572 /- torch.nn.Module.requires_grad_ -/,
  E 0x746f7263682e6e6e2e617474656e74696f6e2e736470615f6b65726e656c 0x4368616e67655072656669784d617463686572 /- torch.nn.attention.sdpa_kernel -/,
  F 0x746f7263682e6e6e2e66756e6374696f6e616c2e6176675f706f6f6c3164 0x417667506f6f6c4d617463686572 0x706164646c652e6e6e2e66756e6374696f6e616c2e6176675f706f6f6c3164 2 [0x696e707574, 0x6b65726e656c5f73697a65, 0x737472696465, 0x70616464696e67, 0x6365696c5f6d6f6465, 0x636f756e745f696e636c7564655f706164] [] [] [] [] /- torch.nn.functional.avg_pool1d -/,
  F 0x746f7263682e6e6e2e66756e6374696f6e616c2e6176675f706f6f6c3264 0x417667506f6f6c4d617463686572 0x706164646c652e6e6e2e66756e6374696f6e616c2e6176675f706f6f6c3264 2 [0x696e707574, 0x6b65726e656c5f73697a65, 0x737472696465, 0x70616464696e67, 0x6365696c5f6d6f6465, 0x636f756e745f696e636c7564655f706164, 0x64697669736f725f6f76657272696465] [] [] [] [] /- torch.nn.functional.avg_pool2d -/,
  F 0x746f7263682e6e6e2e66756e6374696f6e616c2e6176675f706f6f6c3364 0x417667506f6f6c4d617463686572 0x706164646c652e6e6e2e66756e6374696f6e616c2e6176675f706f6f6c3364 2 [0x696e707574, 0x6b65726e656c5f73697a65, 0x737472696465, 0x70616464696e67, 0x6365696c5f6d6f6465, 0x636f756e745f696e636c7564655f706164, 0x64697669736f725f6f76657272696465] [] [] [] [] /- torch.nn.functional.avg_pool3d -/]

def apiTable26 : List Raw := [
  P 0x746f7263682e6e6e2e66756e6374696f6e616c2e62617463685f6e6f726d 0x4368616e67654150494d617463686572 0x706164646c652e636f6d7061742e6e6e2e66756e6374696f6e616c2e62617463685f6e6f726d /- torch.nn.functional.batch_norm -/,
  E 0x746f7263682e6e6e2e66756e6374696f6e616c2e67726f75705f6e6f726d 0x4368616e67655072656669784d617463686572 /- torch.nn.functional.group_norm -/,
  E 0x746f7263682e6e6e2e66756e6374696f6e616c2e68617264736872696e6b 0x4368616e67655072656669784d617463686572 /- torch.nn.functional.hardshrink -/,
  E 0x746f7263682e6e6e2e66756e6374696f6e616c2e68756265725f6c6f7373 0x4368616e67655072656669784d617463686572 /- torch.nn.functional.huber_loss -/,
  E 0x746f7263682e6e6e2e66756e6374696f6e616c2e6c617965725f6e6f726d 0x4368616e67655072656669784d617463686572 /- torch.nn.functional.layer_norm -/,
  E 0x746f7263682e6e6e2e66756e6374696f6e616c2e6c65616b795f72656c75 0x4368616e67655072656669784d617463686572 /- torch.nn.functional.leaky_relu -/,
  E 0x746f7263682e6e6e2e66756e6374696f6e616c2e6c6f677369676d6f6964 0x4368616e67655072656669784d617463686572 /- torch.nn.functional.logsigmoid -/,
  E 0x746f7263682e6e6e2e66756e6374696f6e616c2e6d61785f706f6f6c3164 0x4368616e67655072656669784d617463686572 /- torch.nn.functional.max_pool1d -/,
  E 0x746f7263682e6e6e2e66756e6374696f6e616c2e6d61785f706f6f6c3264 0x4368616e67655072656669784d617463686572 /- torch.nn.functional.max_pool2d -/,
  E 0x746f7263682e6e6e2e66756e6374696f6e616c2e6d61785f706f6f6c3364 0x4368616e67655072656669784d617463686572 /- torch.nn.functional.max_pool3d -/,
  E 0x746f7263682e6e6e2e66756e6374696f6e616c2e736f6674736872696e6b 0x4368616e67655072656669784d617463686572 /- torch.nn.functional.softshrink -/,
  F 0x746f7263682e6e6e2e66756e6374696f6e616c2e74616e68736872696e6b 0x47656e657269634d617463686572 0x706164646c652e6e6e2e66756e6374696f6e616c2e74616e68736872696e6b 1 [0x696e707574] [] [] [(0x696e707574, false, [0x78])] [] /- torch.nn.functional.tanhshrink -/,
  F 0x746f7263682e6e6e2e66756e6374696f6e616c2e7468726573686f6c645f 0x47656e657269634d617463686572 0x706164646c652e6e6e2e66756e6374696f6e616c2e7468726573686f6c6465645f72656c755f 3 [0x696e707574, 0x7468726573686f6c64, 0x76616c7565] [] [] [(0x696e707574, false, [0x78])] [] /- torch.nn.functional.threshold_ -/,
  E 0x746f7263682e6e6e2e696e69742e6b61696d696e675f756e69666f726d5f 0x4368616e67655072656669784d617463686572 /- torch.nn.init.kaiming_uniform_ -/,
  E 0x746f7263682e6e6e2e6d6f64756c65732e6d6f64756c652e4d6f64756c65 0x4368616e67655072656669784d617463686572 /- torch.nn.modules.module.Module -/,
  F 0x746f7263682e6e6e2e6d6f64756c65732e7574696c732e5f6e7475706c65 0x4e5475706c654d617463686572 0 1 [0x6e, 0x6e616d65] [] [] [] [] /- torch.nn.modules.utils._ntuple -/,
  E 0x746f7263682e6e6e2e7574696c732e636c69705f677261645f6e6f726d5f 0x4368616e67655072656669784d617463686572 /- torch.nn.utils.clip_grad_norm_ -/,
  F 0x746f7263682e7574696c732e6370705f657874656e73696f6e2e6c6f6164 0x47656e657269634d617463686572 0x706164646c652e7574696c732e6370705f657874656e73696f6e2e6c6f6164 2 [0x6e616d65, 0x736f7572636573, 0x65787472615f63666c616773, 0x65787472615f637564615f63666c616773, 0x65787472615f6c64666c616773, 0x65787472615f696e636c7564655f7061746873, 0x6275696c645f6469726563746f7279, 0x766572626f7365, 0x776974685f63756461, 0x69735f707974686f6e5f6d6f64756c65, 0x69735f7374616e64616c6f6e65, 0x6b6565705f696e7465726d65646961746573] [] [0x69735f707974686f6e5f6d6f64756c65, 0x69735f7374616e64616c6f6e65] [(0x65787472615f63666c616773, false, [0x65787472615f6378785f63666c616773]), (0x776974685f63756461, false, [0]), (0x6b6565705f696e7465726d65646961746573, false, [0])] [] /- torch.utils.cpp_extension.load -/,
  E 0x746f7263682e7574696c732e646174612e436f6e63617444617461736574 0x4368616e67655072656669784d617463686572 /- torch.utils.data.ConcatDataset -/,
  E 0x746f7263682e7574696c732e646174612e52616e646f6d53616d706c6572 0x4368616e67655072656669784d617463686572 /- torch.utils.data.RandomSampler -/,
  E 0x746f7263682e7574696c732e646174612e54656e736f7244617461736574 0x4368616e67655072656669784d617463686572 /- torch.utils.data.TensorDataset -/,
  F 0x746f7263682e7574696c732e646c7061636b2e66726f6d5f646c7061636b 0x47656e657269634d617463686572 0x706164646c652e7574696c732e646c7061636b2e66726f6d5f646c7061636b 1 [0x6578745f74656e736f72] [] [] [(0x6578745f74656e736f72, false, [0x646c7061636b])] [] /- torch.utils.dlpack.from_dlpack -/,
  F 0x746f726368766973696f6e2e6d6f64656c732e64656e73656e6574313231 0x576569676874734d617463686572 0x706164646c652e766973696f6e2e6d6f64656c732e64656e73656e6574313231 0 [0x77656967687473, 0x70726f6772657373, 0x707265747261696e6564] [] [] [(0x70726f6772657373, false, [0])] [] /- torchvision.models.densenet121 -/,
  F 0x746f726368766973696f6e2e6d6f64656c732e64656e73656e6574313631 0x576569676874734d617463686572 0x706164646c652e766973696f6e2e6d6f64656c732e64656e73656e6574313631 0 [0x77656967687473, 0x70726f6772657373, 0x707265747261696e6564] [] [] [(0x70726f6772657373, false, [0])] [] /- torchvision.models.densenet161 -/,
  F 0x746f726368766973696f6e2e6d6f64656c732e64656e73656e6574313639 0x576569676874734d617463686572 0x706164646c652e766973696f6e2e6d6f64656c732e64656e73656e6574313639 0 [0x77656967687473, 0x70726f6772657373, 0x707265747261696e6564] [] [] [(0x70726f6772657373, false, [0])] [] /- torchvision.models.densenet169 -/,
  F 0x746f726368766973696f6e2e6d6f64656c732e64656e73656e6574323031 0x576569676874734d617463686572 0x706164646c652e766973696f6e2e6d6f64656c732e64656e73656e6574323031 0 [0x77656967687473, 0x70726f6772657373, 0x707265747261696e6564] [] [] [(0x70726f6772657373, false, [0])] [] /- torchvision.models.densenet201 -/,
  P 0x746f726368766973696f6e2e7472616e73666f726d732e436f6d706f7365 0x4368616e67654150494d617463686572 0x706164646c652e766973696f6e2e7472616e73666f726d732e436f6d706f7365 /- torchvision.transforms.Compose -/,
  E 0x746f7263682e54656e736f722e626974776973655f6c6566745f7368696674 0x4368616e67655072656669784d617463686572 /- torch.Tensor.bitwise_left_shift -/,
  E 0x746f7263682e54656e736f722e715f7065725f6368616e6e656c5f61786973 0 /- torch.Tensor.q_per_channel_axis -/,
  E 0x746f7263682e54656e736f722e756e697175655f636f6e7365637574697665 0x4368616e67655072656669784d617463686572 /- torch.Tensor.unique_consecutive -/,
  F 0x746f7263682e6175746f677261642e46756e6374696f6e2e666f7277617264 0x4368616e67654150494d617463686572 0x706164646c652e6175746f677261642e50794c617965722e666f7277617264 1 [] [] [] [] [] /- torch.autograd.Function.forward -/,
  F 0x746f7263682e6175746f677261642e70726f66696c65722e70726f66696c65 0 0 0 [] [] [] [] [] /- torch.autograd.profiler.profile -/,
  E 0x746f7263682e6175746f677261642e7365745f677261645f656e61626c6564 0x4368616e67655072656669784d617463686572 /- torch.autograd.set_grad_enabled -/,
  E 0x746f7263682e637564612e6d61785f6d656d6f72795f616c6c6f6361746564 0x4368616e67655072656669784d617463686572 /- torch.cuda.max_memory_allocated -/,
  F 0x746f7263682e64697374726962757465642e7270632e7270635f6173796e63 0x47656e657269634d617463686572 0x706164646c652e64697374726962757465642e7270632e7270635f6173796e63 2 [0x746f, 0x66756e63, 0x61726773, 0x6b7761726773, 0x74696d656f7574] [] [0x61726773] [(0x66756e63, false, [0x666e])] [] /- torch.distributed.rpc.rpc_async -/,
  P 0x746f7263682e646973747269627574696f6e732e43617465676f726963616c 0x4368616e67654150494d617463686572 0x706164646c652e636f6d7061742e646973747269627574696f6e732e43617465676f726963616c /- torch.distributions.Categorical -/,
  F 0x746f7263682e646973747269627574696f6e732e67616d6d612e47616d6d61 0x47656e657269634d617463686572 0x706164646c652e646973747269627574696f6e2e47616d6d61 2 [0x636f6e63656e74726174696f6e, 0x72617465, 0x76616c69646174655f61726773] [] [] [(0x76616c69646174655f61726773, false, [0])] [] /- torch.distributions.gamma.Gamma -/,
  F 0x746f7263682e6d756c746970726f63657373696e672e6370755f636f756e74 0x4d50437075436f756e744d617463686572 0 0 [] [] [] [] [] /- torch.multiprocessing.cpu_count -/,
  E 0x746f7263682e6e6e2e4d6f64756c652e6765745f65787472615f7374617465 0x4368616e67655072656669784d617463686572 /- torch.nn.Module.get_extra_state -/,
  E 0x746f7263682e6e6e2e4d6f64756c652e6c6f61645f73746174655f64696374 0x4368616e67655072656669784d617463686572 /- torch.nn.Module.load_state_dict -/,
  E 0x746f7263682e6e6e2e4d6f64756c652e72656769737465725f627566666572 0x4368616e67655072656669784d617463686572 /- torch.nn.Module.register_buffer -/,
  E 0x746f7263682e6e6e2e4d6f64756c652e72656769737465725f6d6f64756c65 0x4368616e67655072656669784d617463686572 /- torch.nn.Module.register_module -/,
  E 0x746f7263682e6e6e2e4d6f64756c652e7365745f65787472615f7374617465 0x4368616e67655072656669784d617463686572 /- torch.nn.Module.set_extra_state -/,
  F 0x746f7263682e6e6e2e66756e6374696f6e616c2e616666696e655f67726964 0x47656e657269634d617463686572 0x706164646c652e6e6e2e66756e6374696f6e616c2e616666696e655f67726964 2 [0x7468657461, 0x73697a65, 0x616c69676e5f636f726e657273] [] [] [(0x73697a65, false, [0x6f75745f7368617065])] [] /- torch.nn.functional.affine_grid -/,
  E 0x746f7263682e6e6e2e66756e6374696f6e616c2e677269645f73616d706c65 0x4368616e67655072656669784d617463686572 /- torch.nn.functional.grid_sample -/,
  F 0x746f7263682e6e6e2e66756e6374696f6e616c2e686172647369676d6f6964 0x47656e657269634d617463686572 0x706164646c652e6e6e2e66756e6374696f6e616c2e686172647369676d6f6964 1 [0x696e707574, 0x696e706c616365] [] [] [(0x696e707574, false, [0x78])] [] /- torch.nn.functional.hardsigmoid -/,
  E 0x746f7263682e6e6e2e66756e6374696f6e616c2e696e746572706f6c617465 0x4368616e67655072656669784d617463686572 /- torch.nn.functional.interpolate -/,
  E 0x746f7263682e6e6e2e66756e6374696f6e616c2e6c65616b795f72656c755f 0x4368616e67655072656669784d617463686572 /- torch.nn.functional.leaky_relu_ -/,
  P 0x746f7263682e6e6e2e66756e6374696f6e616c2e6c6f675f736f66746d6178 0x4368616e67654150494d617463686572 0x706164646c652e636f6d7061742e6e6e2e66756e6374696f6e616c2e6c6f675f736f66746d6178 /- torch.nn.functional.log_softmax -/,
  E 0x746f7263682e6e6e2e6d6f64756c65732e6c6f73732e4b4c4469764c6f7373 0x4368616e67655072656669784d617463686572 /- torch.nn.modules.loss.KLDivLoss -/,
  F 0x746f7263682e6e6e2e7574696c732e636c69705f677261645f76616c75655f 0x47656e657269634d617463686572 0x706164646c652e6e6e2e7574696c732e636c69705f677261645f76616c75655f 2 [0x706172616d6574657273, 0x636c69705f76616c7565, 0x666f7265616368] [] [] [(0x666f7265616368, false, [0])] [] /- torch.nn.utils.clip_grad_value_ -/,
  E 0x746f7263682e6e6e2e7574696c732e726e6e2e7061645f73657175656e6365 0x4368616e67655072656669784d617463686572 /- torch.nn.utils.rnn.pad_sequence -/,
  F 0x746f7263682e6f7074696d2e4f7074696d697a65722e7a65726f5f67726164 0x5a65726f477261644d617463686572 0x706164646c652e6f7074696d697a65722e4f7074696d697a65722e636c6561725f6772616469656e7473 0 [0x7365745f746f5f6e6f6e65] [] [] [] [(0x7365745f746f5f7a65726f, 0x46616c7365)] /- torch.optim.Optimizer.zero_grad -/,
  E 0x746f7263682e6f7074696d2e6c725f7363686564756c65722e537465704c52 0x4368616e67655072656669784d617463686572 /- torch.optim.lr_scheduler.StepLR -/,
  F 0x746f726368766973696f6e2e64617461736574732e466c6f77657273313032 0x466c6f776572733130324d617463686572 0x706164646c652e766973696f6e2e64617461736574732e466c6f77657273 0 [0x726f6f74, 0x73706c6974, 0x7472616e73666f726d, 0x7461726765745f7472616e73666f726d, 0x646f776e6c6f6164] [] [0x7461726765745f7472616e73666f726d] [] [] /- torchvision.datasets.Flowers102 -/,
  F 0x746f726368766973696f6e2e6d6f64656c732e696e63657074696f6e5f7633 0x576569676874734d617463686572 0x706164646c652e766973696f6e2e6d6f64656c732e696e63657074696f6e5f7633 0 [0x77656967687473, 0x70726f6772657373, 0x707265747261696e6564, 0x2a2a6b7761726773] [] [0x7472616e73666f726d5f696e707574, 0x696e63657074696f6e5f626c6f636b73, 0x64726f706f7574] [(0x70726f6772657373, false, [0]), (0x6175785f6c6f67697473, false, [0]), (0x696e69745f77656967687473, false, [0])] [] /- torchvision.models.inception_v3 -/,
  F 0x746f726368766973696f6e2e6d6f64656c732e6d6f62696c656e65745f7632 0x576569676874734d617463686572 0x706164646c652e766973696f6e2e6d6f64656c732e6d6f62696c656e65745f7632 0 [0x77656967687473, 0x70726f6772657373, 0x707265747261696e6564] [] [] [(0x70726f6772657373, false, [0])] [] /- torchvision.models.mobilenet_v2 -/,
  P 0x746f726368766973696f6e2e7472616e73666f726d732e546f54656e736f72 0x4368616e67654150494d617463686572 0x706164646c652e766973696f6e2e7472616e73666f726d732e546f54656e736f72 /- torchvision.transforms.ToTensor -/,
  F 0x7472616e73666f726d6572732e6c6f6767696e672e6765745f6c6f67676572 0x4765744c6f676765724d617463686572 0 0 [0x6e616d65] [] [] [] [] /- transformers.logging.get_logger -/,
  F 0x666c6173685f6174746e2e6f70732e726d735f6e6f726d2e726d735f6e6f726d 0x4641526d734e6f726d 0x706164646c652e696e6375626174652e6e6e2e66756e6374696f6e616c2e66757365645f726d735f6e6f726d 3 [0x78, 0x776569676874, 0x657073696c6f6e] [] [] [(0x776569676874, false, [0x6e6f726d5f776569676874])] [] /- flash_attn.ops.rms_norm.rms_norm -/]

def apiTable27 : List Raw := [
  E 0x746f7263682e54656e736f722e626974776973655f6c6566745f73686966745f 0x4368616e67655072656669784d617463686572 /- torch.Tensor.bitwise_left_shift_ -/,
  E 0x746f7263682e54656e736f722e626974776973655f72696768745f7368696674 0x4368616e67655072656669784d617463686572 /- torch.Tensor.bitwise_right_shift -/,
  F 0x746f7263682e6175746f677261642e46756e6374696f6e2e6261636b77617264 0x47656e657269634d617463686572 0 1 [0x637478, 0x2a677261645f6f757470757473] [] [] [(0x677261645f6f757470757473, false, [0x61726773])] [] /- torch.autograd.Function.backward -/,
  E 0x746f7263682e637564612e6765745f6465766963655f6361706162696c697479 0x4368616e67655072656669784d617463686572 /- torch.cuda.get_device_capability -/,
  E 0x746f7263682e637564612e6765745f6465766963655f70726f70657274696573 0x4368616e67655072656669784d617463686572 /- torch.cuda.get_device_properties -/,
  E 0x746f7263682e64697374726962757465642e6765745f776f726c645f73697a65 0x4368616e67655072656669784d617463686572 /- torch.distributed.get_world_size -/,
  E 0x746f7263682e64697374726962757465642e69735f696e697469616c697a6564 0x4368616e67655072656669784d617463686572 /- torch.distributed.is_initialized -/,
  F 0x746f7263682e64697374726962757465642e7265647563655f73636174746572 0x526576657273654173796e634f704d617463686572 0x706164646c652e64697374726962757465642e7265647563655f73636174746572 2 [0x6f7574707574, 0x696e7075745f6c697374, 0x6f70, 0x67726f7570, 0x6173796e635f6f70] [] [] [(0x6f7574707574, false, [0x74656e736f72]), (0x696e7075745f6c697374, false, [0x74656e736f725f6c697374])] [] /- torch.distributed.reduce_scatter -/,
  E 0x746f7263682e646973747269627574696f6e732e446973747269627574696f6e 0x4368616e67655072656669784d617463686572 /- torch.distributions.Distribution -/,
  F 0x746f7263682e6c696e616c672e686f757365686f6c6465725f70726f64756374 0x47656e657269634d617463686572 0x706164646c652e6c696e616c672e686f757365686f6c6465725f70726f64756374 2 [0x696e707574, 0x746175, 0x2a, 0x6f7574] [] [] [(0x696e707574, false, [0x78])] [] /- torch.linalg.householder_product -/,
  E 0x746f7263682e6e6e2e4d6f64756c652e6e616d65645f706172616d6574657273 0x4368616e67655072656669784d617463686572 /- torch.nn.Module.named_parameters -/,
  F 0x746f7263682e6e6e2e5472616e73666f726d65724465636f6465724c61796572 0x47656e657269634d617463686572 0x706164646c652e6e6e2e5472616e73666f726d65724465636f6465724c61796572 2 [0x645f6d6f64656c, 0x6e68656164, 0x64696d5f66656564666f7277617264, 0x64726f706f7574, 0x61637469766174696f6e, 0x6c617965725f6e6f726d5f657073, 0x62617463685f6669727374, 0x6e6f726d5f6669727374, 0x62696173, 0x646576696365, 0x6474797065] [] [0x62617463685f6669727374] [(0x6e6f726d5f6669727374, false, [0x6e6f726d616c697a655f6265666f7265]), (0x62696173, false, [0x626961735f61747472]), (0x646576696365, false, [0]), (0x6474797065, false, [0])] [(0x64696d5f66656564666f7277617264, 0x32303438)] /- torch.nn.TransformerDecoderLayer -/,
  F 0x746f7263682e6e6e2e5472616e73666f726d6572456e636f6465724c61796572 0x47656e657269634d617463686572 0x706164646c652e6e6e2e5472616e73666f726d6572456e636f6465724c61796572 2 [0x645f6d6f64656c, 0x6e68656164, 0x64696d5f66656564666f7277617264, 0x64726f706f7574, 0x61637469766174696f6e, 0x6c617965725f6e6f726d5f657073, 0x62617463685f6669727374, 0x6e6f726d5f6669727374, 0x62696173, 0x646576696365, 0x6474797065] [] [0x62617463685f6669727374] [(0x6e6f726d5f6669727374, false, [0x6e6f726d616c697a655f6265666f7265]), (0x62696173, false, [0x626961735f61747472]), (0x646576696365, false, [0]), (0x6474797065, false, [0])] [(0x64696d5f66656564666f7277617264, 0x32303438)] /- torch.nn.TransformerEncoderLayer -/,
  F 0x746f7263682e6e6e2e66756e6374696f6e616c2e6d61785f756e706f6f6c3164 0x47656e657269634d617463686572 0x706164646c652e6e6e2e66756e6374696f6e616c2e6d61785f756e706f6f6c3164 3 [0x696e707574, 0x696e6469636573, 0x6b65726e656c5f73697a65, 0x737472696465, 0x70616464696e67, 0x6f75747075745f73697a65] [] [] [(0x696e707574, false, [0x78])] [] /- torch.nn.functional.max_unpool1d -/,
  F 0x746f7263682e6e6e2e66756e6374696f6e616c2e6d61785f756e706f6f6c3264 0x47656e657269634d617463686572 0x706164646c652e6e6e2e66756e6374696f6e616c2e6d61785f756e706f6f6c3264 3 [0x696e707574, 0x696e6469636573, 0x6b65726e656c5f73697a65, 0x737472696465, 0x70616464696e67, 0x6f75747075745f73697a65] [] [] [(0x696e707574, false, [0x78])] [] /- torch.nn.functional.max_unpool2d -/,
  F 0x746f7263682e6e6e2e66756e6374696f6e616c2e6d61785f756e706f6f6c3364 0x47656e657269634d617463686572 0x706164646c652e6e6e2e66756e6374696f6e616c2e6d61785f756e706f6f6c3364 3 [0x696e707574, 0x696e6469636573, 0x6b65726e656c5f73697a65, 0x737472696465, 0x70616464696e67, 0x6f75747075745f73697a65] [] [] [(0x696e707574, false, [0x78])] [] /- torch.nn.functional.max_unpool3d -/,
  E 0x746f7263682e6e6e2e7574696c732e726e6e2e7061636b5f73657175656e6365 0x4368616e67655072656669784d617463686572 /- torch.nn.utils.rnn.pack_sequence -/,
  F 0x746f7263682e6f7074696d2e4f7074696d697a65722e73746174655f64696374 0x4368616e67654150494d617463686572 0x706164646c652e6f7074696d697a65722e4f7074696d697a65722e73746174655f64696374 0 [] [] [] [] [] /- torch.optim.Optimizer.state_dict -/,
  F 0x746f7263682e7369676e616c2e77696e646f77732e6578706f6e656e7469616c 0x5369676e616c57696e646f777357617463686572 0x706164646c652e617564696f2e66756e6374696f6e616c2e6765745f77696e646f77 1 [0x4d, 0x2a, 0x63656e746572, 0x746175, 0x73796d, 0x6474797065, 0x6c61796f7574, 0x646576696365, 0x72657175697265735f67726164] [] [0x63656e746572] [(0x4d, false, [0x77696e5f6c656e677468]), (0x73796d, false, [0x66667462696e73]), (0x6474797065, false, [0x6474797065])] [(0x6474797065, 0x27666c6f6174333227), (0x66667462696e73, 0x46616c7365)] /- torch.signal.windows.exponential -/,
  E 0x746f7263682e7574696c732e646174612e4974657261626c6544617461736574 0x4368616e67655072656669784d617463686572 /- torch.utils.data.IterableDataset -/,
  E 0x746f7263682e7574696c732e646174612e646174617365742e44617461736574 0x4368616e67655072656669784d617463686572 /- torch.utils.data.dataset.Dataset -/,
  E 0x746f7263682e7574696c732e646174612e64656661756c745f636f6c6c617465 0x4368616e67655072656669784d617463686572 /- torch.utils.data.default_collate -/,
  E 0x746f7263682e7574696c732e646174612e6765745f776f726b65725f696e666f 0x4368616e67655072656669784d617463686572 /- torch.utils.data.get_worker_info -/,
  E 0x746f7263682e7574696c732e646174612e73616d706c65722e53616d706c6572 0x4368616e67655072656669784d617463686572 /- torch.utils.data.sampler.Sampler -/,
  F 0x746f726368766973696f6e2e64617461736574732e496d616765466f6c646572 0x47656e657269634d617463686572 0x706164646c652e766973696f6e2e64617461736574732e496d616765466f6c646572 0 [0x726f6f74, 0x7472616e73666f726d, 0x7461726765745f7472616e73666f726d, 0x6c6f61646572, 0x69735f76616c69645f66696c65, 0x616c6c6f775f656d707479] [] [0x7461726765745f7472616e73666f726d] [(0x616c6c6f775f656d707479, false, [0])] [] /- torchvision.datasets.ImageFolder -/,
  F 0x746f726368766973696f6e2e696f2e496d616765526561644d6f64652e524742 0x4368616e67654150494d617463686572 0x2772676227 0 [] [] [] [] [] /- torchvision.io.ImageReadMode.RGB -/,
  F 0x746f726368766973696f6e2e6d6f64656c732e73717565657a656e6574315f30 0x576569676874734d617463686572 0x706164646c652e766973696f6e2e6d6f64656c732e73717565657a656e6574315f30 0 [0x77656967687473, 0x70726f6772657373, 0x707265747261696e6564] [] [] [(0x70726f6772657373, false, [0])] [] /- torchvision.models.squeezenet1_0 -/,
  F 0x746f726368766973696f6e2e6d6f64656c732e73717565657a656e6574315f31 0x576569676874734d617463686572 0x706164646c652e766973696f6e2e6d6f64656c732e73717565657a656e6574315f31 0 [0x77656967687473, 0x70726f6772657373, 0x707265747261696e6564] [] [] [(0x70726f6772657373, false, [0])] [] /- torchvision.models.squeezenet1_1 -/,
  F 0x746f726368766973696f6e2e7472616e73666f726d732e477261797363616c65 0x4368616e67654150494d617463686572 0x706164646c652e766973696f6e2e7472616e73666f726d732e477261797363616c65 0 [0x6e756d5f6f75747075745f6368616e6e656c73] [] [] [] [] /- torchvision.transforms.Grayscale -/,
  F 0x746f726368766973696f6e2e7472616e73666f726d732e4e6f726d616c697a65 0x47656e657269634d617463686572 0x706164646c652e766973696f6e2e7472616e73666f726d732e4e6f726d616c697a65 0 [0x6d65616e, 0x737464, 0x696e706c616365] [] [] [] [] /- torchvision.transforms.Normalize -/,
  P 0x7472616e73666f726d6572732e4c6f6769747350726f636573736f724c697374 0x4368616e67654150494d617463686572 0x706164646c65666f726d6572732e67656e65726174696f6e2e4c6f6769747350726f636573736f724c697374 /- transformers.LogitsProcessorList -/,
  E 0x7472616e73666f726d6572732e507265547261696e6564546f6b656e697a6572 0x4368616e67655072656669784d617463686572 /- transformers.PreTrainedTokenizer -/,
  E 0x746f7263682e54656e736f722e626974776973655f72696768745f73686966745f 0x4368616e67655072656669784d617463686572 /- torch.Tensor.bitwise_right_shift_ -/,
  E 0x746f7263682e54656e736f722e715f7065725f6368616e6e656c5f7363616c6573 0 /- torch.Tensor.q_per_channel_scales -/,
  F 0x746f7263682e6175746f677261642e66756e6374696f6e616c2e6865737369616e 0x47656e657269634d617463686572 0x706164646c652e696e6375626174652e6175746f677261642e4865737369616e 2 [0x66756e63, 0x696e70757473, 0x6372656174655f6772617068, 0x737472696374, 0x766563746f72697a65, 0x6f757465725f6a61636f6269616e5f7374726174656779] [] [0x6372656174655f6772617068, 0x737472696374, 0x766563746f72697a65, 0x6f757465725f6a61636f6269616e5f7374726174656779] [(0x696e70757473, false, [0x7873])] [(0x69735f62617463686564, 0x46616c7365)] /- torch.autograd.functional.hessian -/,
  F 0x746f7263682e6261636b656e64732e6375646e6e2e69735f617661696c61626c65 0x4375646e6e4973417661696c61626c654d617463686572 0 0 [] [] [] [] [] /- torch.backends.cudnn.is_available -/,
  F 0x746f7263682e646973747269627574696f6e732e6361756368792e436175636879 0x47656e657269634d617463686572 0x706164646c652e646973747269627574696f6e2e436175636879 2 [0x6c6f63, 0x7363616c65, 0x76616c69646174655f61726773] [] [] [(0x76616c69646174655f61726773, false, [0])] [] /- torch.distributions.cauchy.Cauchy -/,
  F 0x746f7263682e646973747269627574696f6e732e67756d62656c2e47756d62656c 0x47656e657269634d617463686572 0x706164646c652e646973747269627574696f6e2e47756d62656c 2 [0x6c6f63, 0x7363616c65, 0x76616c69646174655f61726773] [] [] [(0x76616c69646174655f61726773, false, [0])] [] /- torch.distributions.gumbel.Gumbel -/,
  E 0x746f7263682e646973747269627574696f6e732e6e6f726d616c2e4e6f726d616c 0x4368616e67655072656669784d617463686572 /- torch.distributions.normal.Normal -/,
  E 0x746f7263682e66756e6374696f6e616c2e62726f6164636173745f736861706573 0x4368616e67655072656669784d617463686572 /- torch.functional.broadcast_shapes -/,
  E 0x746f7263682e6e6e2e4d756c74694c6162656c536f66744d617267696e4c6f7373 0x4368616e67655072656669784d617463686572 /- torch.nn.MultiLabelSoftMarginLoss -/,
  F 0x746f7263682e6e6e2e66756e6374696f6e616c2e616c7068615f64726f706f7574 0x47656e657269634d617463686572 0x706164646c652e6e6e2e66756e6374696f6e616c2e616c7068615f64726f706f7574 1 [0x696e707574, 0x70, 0x747261696e696e67, 0x696e706c616365] [] [] [(0x696e707574, false, [0x78])] [] /- torch.nn.functional.alpha_dropout -/,
  E 0x746f7263682e6e6e2e66756e6374696f6e616c2e63726f73735f656e74726f7079 0x4368616e67655072656669784d617463686572 /- torch.nn.functional.cross_entropy -/,
  E 0x746f7263682e6e6e2e66756e6374696f6e616c2e696e7374616e63655f6e6f726d 0x4368616e67655072656669784d617463686572 /- torch.nn.functional.instance_norm -/,
  E 0x746f7263682e6e6e2e66756e6374696f6e616c2e706978656c5f73687566666c65 0x4368616e67655072656669784d617463686572 /- torch.nn.functional.pixel_shuffle -/,
  F 0x746f7263682e6e6e2e7574696c732e72656d6f76655f7765696768745f6e6f726d 0x47656e657269634d617463686572 0x706164646c652e6e6e2e7574696c732e72656d6f76655f7765696768745f6e6f726d 1 [0x6d6f64756c65, 0x6e616d65] [] [] [(0x6d6f64756c65, false, [0x6c61796572])] [] /- torch.nn.utils.remove_weight_norm -/,
  E 0x746f7263682e6e6e2e7574696c732e726e6e2e5061636b656453657175656e6365 0x4368616e67655072656669784d617463686572 /- torch.nn.utils.rnn.PackedSequence -/,
  E 0x746f7263682e6e6e2e7574696c732e726e6e2e756e7061645f73657175656e6365 0x4368616e67655072656669784d617463686572 /- torch.nn.utils.rnn.unpad_sequence -/,
  F 0x746f7263682e6f7074696d2e6c725f7363686564756c65722e4379636c69634c52 0x4c525363686564756c65724d617463686572 0x706164646c652e6f7074696d697a65722e6c722e4379636c69634c52 3 [0x6f7074696d697a6572, 0x626173655f6c72, 0x6d61785f6c72, 0x737465705f73697a655f7570, 0x737465705f73697a655f646f776e, 0x6d6f6465, 0x67616d6d61, 0x7363616c655f666e, 0x7363616c655f6d6f6465, 0x6379636c655f6d6f6d656e74756d, 0x626173655f6d6f6d656e74756d, 0x6d61785f6d6f6d656e74756d, 0x6c6173745f65706f6368, 0x766572626f7365] [] [0x6379636c655f6d6f6d656e74756d, 0x626173655f6d6f6d656e74756d, 0x6d61785f6d6f6d656e74756d] [(0x626173655f6c72, false, [0x626173655f6c6561726e696e675f72617465]), (0x6d61785f6c72, false, [0x6d61785f6c6561726e696e675f72617465]), (0x67616d6d61, false, [0x6578705f67616d6d61])] [(0x737465705f73697a655f7570, 0x32303030)] /- torch.optim.lr_scheduler.CyclicLR -/,
  E 0x746f7263682e6f7074696d2e6c725f7363686564756c65722e4c616d6264614c52 0x4368616e67655072656669784d617463686572 /- torch.optim.lr_scheduler.LambdaLR -/,
  F 0x746f7263682e6f7074696d2e6c725f7363686564756c65722e4c696e6561724c52 0x4f7074696d324c725363686564756c65724d617463686572 0x706164646c652e6f7074696d697a65722e6c722e4c696e6561724c52 1 [0x6f7074696d697a6572, 0x73746172745f666163746f72, 0x656e645f666163746f72, 0x746f74616c5f6974657273, 0x6c6173745f65706f6368, 0x766572626f7365] [] [] [(0x746f74616c5f6974657273, false, [0x746f74616c5f7374657073])] [(0x746f74616c5f7374657073, 0x35)] /- torch.optim.lr_scheduler.LinearLR -/,
  E 0x746f7263682e7370656369616c2e73706865726963616c5f62657373656c5f6a30 0 /- torch.special.spherical_bessel_j0 -/,
  F 0x746f7263682e7574696c732e636865636b706f696e742e636865636b706f696e74 0x436865636b506f696e744d617463686572 0x706164646c652e64697374726962757465642e666c6565742e7574696c732e7265636f6d70757465 1 [] [] [] [] [] /- torch.utils.checkpoint.checkpoint -/,
  F 0x746f726368766973696f6e2e64617461736574732e46617368696f6e4d4e495354 0x4d4e4953544d617463686572 0x706164646c652e766973696f6e2e64617461736574732e46617368696f6e4d4e495354 0 [0x726f6f74, 0x747261696e, 0x7472616e73666f726d, 0x7461726765745f7472616e73666f726d, 0x646f776e6c6f6164] [] [0x7461726765745f7472616e73666f726d] [] [] /- torchvision.datasets.FashionMNIST -/,
  F 0x746f726368766973696f6e2e64617461736574732e564f43446574656374696f6e 0x564f43446574656374696f6e4d617463686572 0x706164646c652e766973696f6e2e64617461736574732e564f4332303132 0 [0x726f6f74, 0x79656172, 0x696d6167655f736574, 0x646f776e6c6f6164, 0x7472616e73666f726d, 0x7461726765745f7472616e73666f726d, 0x7472616e73666f726d73] [] [0x79656172, 0x7461726765745f7472616e73666f726d, 0x7472616e73666f726d73] [] [] /- torchvision.datasets.VOCDetection -/,
  F 0x746f726368766973696f6e2e696f2e496d616765526561644d6f64652e47524159 0x4368616e67654150494d617463686572 0x276772617927 0 [] [] [] [] [] /- torchvision.io.ImageReadMode.GRAY -/,
  F 0x746f726368766973696f6e2e7472616e73666f726d732e43656e74657243726f70 0x4368616e67654150494d617463686572 0x706164646c652e766973696f6e2e7472616e73666f726d732e43656e74657243726f70 0 [0x73697a65] [] [] [] [] /- torchvision.transforms.CenterCrop -/,
  F 0x746f726368766973696f6e2e7472616e73666f726d732e52616e646f6d43726f70 0x4368616e67654150494d617463686572 0x706164646c652e766973696f6e2e7472616e73666f726d732e52616e646f6d43726f70 0 [0x73697a65, 0x70616464696e67, 0x7061645f69665f6e6565646564, 0x66696c6c, 0x70616464696e675f6d6f6465] [] [] [] [] /- torchvision.transforms.RandomCrop -/,
  F 0x7472616e73666f726d6572732e53746f7070696e6743726974657269614c697374 0x4368616e67654150494d617463686572 0x706164646c65666f726d6572732e67656e65726174696f6e2e53746f7070696e6743726974657269614c697374 0 [] [] [] [] [] /- transformers.StoppingCriteriaList -/,
  F 0x746f7263682e6175746f677261642e66756e6374696f6e616c2e6a61636f6269616e 0x47656e657269634d617463686572 0x706164646c652e696e6375626174652e6175746f677261642e4a61636f6269616e 2 [0x66756e63, 0x696e70757473, 0x6372656174655f6772617068, 0x737472696374, 0x766563746f72697a65, 0x7374726174656779] [] [0x6372656174655f6772617068, 0x737472696374, 0x766563746f72697a65, 0x7374726174656779] [(0x696e70757473, false, [0x7873])] [(0x69735f62617463686564, 0x46616c7365)] /- torch.autograd.functional.jacobian -/]

def apiTable28 : List Raw := [
  F 0x746f7263682e637564612e72657365745f6d61785f6d656d6f72795f636163686564 0x4368616e67654150494d617463686572 0x706164646c652e6465766963652e637564612e72657365745f6d61785f6d656d6f72795f7265736572766564 0 [] [] [] [] [] /- torch.cuda.reset_max_memory_cached -/,
  E 0x746f7263682e637564612e72657365745f7065616b5f6d656d6f72795f7374617473 0x4368616e67655072656669784d617463686572 /- torch.cuda.reset_peak_memory_stats -/,
  F 0x746f7263682e646973747269627574696f6e732e6b6c2e72656769737465725f6b6c 0x47656e657269634d617463686572 0x706164646c652e646973747269627574696f6e2e72656769737465725f6b6c 2 [0x747970655f70, 0x747970655f71] [] [] [(0x747970655f70, false, [0x636c735f70]), (0x747970655f71, false, [0x636c735f71])] [] /- torch.distributions.kl.register_kl -/,
  F 0x746f7263682e6875622e6c6f61645f73746174655f646963745f66726f6d5f75726c 0x47656e657269634d617463686572 0x706164646c652e6875622e6c6f61645f73746174655f646963745f66726f6d5f75726c 1 [0x75726c, 0x6d6f64656c5f646972, 0x6d61705f6c6f636174696f6e, 0x70726f6772657373, 0x636865636b5f68617368, 0x66696c655f6e616d65, 0x776569676874735f6f6e6c79] [] [] [(0x70726f6772657373, false, [0]), (0x776569676874735f6f6e6c79, false, [0])] [] /- torch.hub.load_state_dict_from_url -/,
  E 0x746f7263682e6e6e2e4d6f64756c652e72656769737465725f706172616d65746572 0x4368616e67655072656669784d617463686572 /- torch.nn.Module.register_parameter -/,
  E 0x746f7263682e6e6e2e617474656e74696f6e2e5344504261636b656e642e4d415448 0x4368616e67655072656669784d617463686572 /- torch.nn.attention.SDPBackend.MATH -/,
  E 0x746f7263682e6e6e2e66756e6374696f6e616c2e67756d62656c5f736f66746d6178 0x4368616e67655072656669784d617463686572 /- torch.nn.functional.gumbel_softmax -/,
  F 0x746f7263682e6e6e2e66756e6374696f6e616c2e736d6f6f74685f6c315f6c6f7373 0x4368616e67654150494d617463686572 0x706164646c652e636f6d7061742e6e6e2e66756e6374696f6e616c2e736d6f6f74685f6c315f6c6f7373 2 [0x696e707574, 0x746172676574, 0x73697a655f61766572616765, 0x726564756365, 0x726564756374696f6e, 0x62657461] [] [] [] [] /- torch.nn.functional.smooth_l1_loss -/,
  P 0x746f7263682e6e6e2e6d6f64756c65732e6c6f73732e536d6f6f74684c314c6f7373 0x4368616e67654150494d617463686572 0x706164646c652e636f6d7061742e6e6e2e536d6f6f74684c314c6f7373 /- torch.nn.modules.loss.SmoothL1Loss -/,
  E 0x746f7263682e6e6e2e7574696c732e726e6e2e756e7061636b5f73657175656e6365 0x4368616e67655072656669784d617463686572 /- torch.nn.utils.rnn.unpack_sequence -/,
  E 0x746f7263682e7574696c732e646174612e53657175656e7469616c53616d706c6572 0x4368616e67655072656669784d617463686572 /- torch.utils.data.SequentialSampler -/,
  F 0x746f726368766973696f6e2e6d6f64656c732e7265736e65787435305f3332783464 0x576569676874734d617463686572 0x706164646c652e766973696f6e2e6d6f64656c732e7265736e65787435305f3332783464 0 [0x77656967687473, 0x70726f6772657373, 0x707265747261696e6564] [] [] [(0x70726f6772657373, false, [0])] [] /- torchvision.models.resnext50_32x4d -/,
  F 0x746f726368766973696f6e2e6d6f64656c732e776964655f7265736e657435305f32 0x576569676874734d617463686572 0x706164646c652e766973696f6e2e6d6f64656c732e776964655f7265736e657435305f32 0 [0x77656967687473, 0x70726f6772657373, 0x707265747261696e6564] [] [] [(0x70726f6772657373, false, [0])] [] /- torchvision.models.wide_resnet50_2 -/,
  F 0x746f726368766973696f6e2e7472616e73666f726d732e436f6c6f724a6974746572 0x4368616e67654150494d617463686572 0x706164646c652e766973696f6e2e7472616e73666f726d732e436f6c6f724a6974746572 0 [0x6272696768746e657373, 0x636f6e7472617374, 0x73617475726174696f6e, 0x687565] [] [] [] [] /- torchvision.transforms.ColorJitter -/,
  E 0x746f7263682e6175746f677261642e66756e6374696f6e2e46756e6374696f6e437478 0x4368616e67655072656669784d617463686572 /- torch.autograd.function.FunctionCtx -/,
  E 0x746f7263682e64697374726962757465642e616c6c5f6761746865725f6f626a656374 0x4368616e67655072656669784d617463686572 /- torch.distributed.all_gather_object -/,
  F 0x746f7263682e64697374726962757465642e616c6c5f746f5f616c6c5f73696e676c65 0x526576657273654173796e634f704d617463686572 0x706164646c652e64697374726962757465642e616c6c746f616c6c5f73696e676c65 2 [0x6f7574707574, 0x696e707574, 0x6f75747075745f73706c69745f73697a6573, 0x696e7075745f73706c69745f73697a6573, 0x67726f7570, 0x6173796e635f6f70] [] [] [(0x6f7574707574, false, [0x6f75745f74656e736f72]), (0x696e707574, false, [0x696e5f74656e736f72]), (0x6f75747075745f73706c69745f73697a6573, false, [0x6f75745f73706c69745f73697a6573]), (0x696e7075745f73706c69745f73697a6573, false, [0x696e5f73706c69745f73697a6573])] [] /- torch.distributed.all_to_all_single -/,
  E 0x746f7263682e64697374726962757465642e62617463685f6973656e645f6972656376 0x4368616e67655072656669784d617463686572 /- torch.distributed.batch_isend_irecv -/,
  F 0x746f7263682e64697374726962757465642e69735f6e63636c5f617661696c61626c65 0x4368616e67654150494d617463686572 0x706164646c652e636f72652e69735f636f6d70696c65645f776974685f6e63636c 0 [] [] [] [] [] /- torch.distributed.is_nccl_available -/,
  F 0x746f7263682e64697374726962757465642e6d6f6e69746f7265645f62617272696572 0x47656e657269634d617463686572 0x706164646c652e64697374726962757465642e62617272696572 0 [0x67726f7570, 0x74696d656f7574, 0x776169745f616c6c5f72616e6b73] [] [] [(0x74696d656f7574, false, [0]), (0x776169745f616c6c5f72616e6b73, false, [0])] [] /- torch.distributed.monitored_barrier -/,
  F 0x746f7263682e646973747269627574696f6e732e6c61706c6163652e4c61706c616365 0x47656e657269634d617463686572 0x706164646c652e646973747269627574696f6e2e4c61706c616365 2 [0x6c6f63, 0x7363616c65, 0x76616c69646174655f61726773] [] [] [(0x76616c69646174655f61726773, false, [0])] [] /- torch.distributions.laplace.Laplace -/,
  F 0x746f7263682e646973747269627574696f6e732e706f6973736f6e2e506f6973736f6e 0x47656e657269634d617463686572 0x706164646c652e646973747269627574696f6e2e506f6973736f6e 1 [0x72617465, 0x76616c69646174655f61726773] [] [] [(0x76616c69646174655f61726773, false, [0])] [] /- torch.distributions.poisson.Poisson -/,
  F 0x746f7263682e646973747269627574696f6e732e756e69666f726d2e556e69666f726d 0x47656e657269634d617463686572 0x706164646c652e646973747269627574696f6e2e556e69666f726d 2 [0x6c6f77, 0x68696768, 0x76616c69646174655f61726773] [] [] [(0x76616c69646174655f61726773, false, [0])] [] /- torch.distributions.uniform.Uniform -/,
  E 0x746f7263682e66756e6374696f6e616c2e756e697175655f636f6e7365637574697665 0x4368616e67655072656669784d617463686572 /- torch.functional.unique_consecutive -/,
  E 0x746f7263682e6e6e2e41646170746976654c6f67536f66746d6178576974684c6f7373 0x4368616e67655072656669784d617463686572 /- torch.nn.AdaptiveLogSoftmaxWithLoss -/,
  E 0x746f7263682e6e6e2e617474656e74696f6e2e5344504261636b656e642e4552524f52 0x4368616e67655072656669784d617463686572 /- torch.nn.attention.SDPBackend.ERROR -/,
  F 0x746f7263682e6e6e2e66756e6374696f6e616c2e6368616e6e656c5f73687566666c65 0x47656e657269634d617463686572 0x706164646c652e6e6e2e66756e6374696f6e616c2e6368616e6e656c5f73687566666c65 0 [0x696e707574, 0x67726f757073] [] [] [(0x696e707574, false, [0x78])] [] /- torch.nn.functional.channel_shuffle -/,
  E 0x746f7263682e6e6e2e66756e6374696f6e616c2e706978656c5f756e73687566666c65 0x4368616e67655072656669784d617463686572 /- torch.nn.functional.pixel_unshuffle -/,
  E 0x746f7263682e6e6e2e7574696c732e706172616d65746572735f746f5f766563746f72 0x4368616e67655072656669784d617463686572 /- torch.nn.utils.parameters_to_vector -/,
  E 0x746f7263682e6e6e2e7574696c732e766563746f725f746f5f706172616d6574657273 0x4368616e67655072656669784d617463686572 /- torch.nn.utils.vector_to_parameters -/,
  F 0x746f7263682e6f7074696d2e6c725f7363686564756c65722e436f6e7374616e744c52 0x436f6e7374616e744c524d617463686572 0x706164646c652e6f7074696d697a65722e6c722e5069656365776973654465636179 1 [0x6f7074696d697a6572, 0x666163746f72, 0x746f74616c5f6974657273, 0x6c6173745f65706f6368, 0x766572626f7365] [] [] [] [] /- torch.optim.lr_scheduler.ConstantLR -/,
  F 0x746f7263682e6f7074696d2e6c725f7363686564756c65722e4f6e654379636c654c52 0x4f6e654379636c654c524d617463686572 0x706164646c652e6f7074696d697a65722e6c722e4f6e654379636c654c52 3 [0x6f7074696d697a6572, 0x6d61785f6c72, 0x746f74616c5f7374657073, 0x65706f636873, 0x73746570735f7065725f65706f6368, 0x7063745f7374617274, 0x616e6e65616c5f7374726174656779, 0x6379636c655f6d6f6d656e74756d, 0x626173655f6d6f6d656e74756d, 0x6d61785f6d6f6d656e74756d, 0x6469765f666163746f72, 0x66696e616c5f6469765f666163746f72, 0x74687265655f7068617365, 0x6c6173745f65706f6368, 0x766572626f7365] [] [0x6379636c655f6d6f6d656e74756d, 0x626173655f6d6f6d656e74756d, 0x6d61785f6d6f6d656e74756d] [(0x6d61785f6c72, false, [0x6d61785f6c6561726e696e675f72617465]), (0x7063745f7374617274, false, [0x70686173655f706374]), (0x6469765f666163746f72, false, [0x6469766964655f666163746f72])] [] /- torch.optim.lr_scheduler.OneCycleLR -/,
  F 0x746f7263682e7369676e616c2e77696e646f77732e67656e6572616c5f636f73696e65 0x5369676e616c57696e646f777357617463686572 0x706164646c652e617564696f2e66756e6374696f6e616c2e6765745f77696e646f77 1 [0x4d, 0x2a, 0x61, 0x73796d, 0x6474797065, 0x6c61796f7574, 0x646576696365, 0x72657175697265735f67726164] [] [] [(0x4d, false, [0x77696e5f6c656e677468]), (0x73796d, false, [0x66667462696e73]), (0x6474797065, false, [0x6474797065])] [(0x6474797065, 0x27666c6f6174333227), (0x66667462696e73, 0x46616c7365)] /- torch.signal.windows.general_cosine -/,
  E 0x746f7263682e7574696c732e646174612e446973747269627574656453616d706c6572 0x4368616e67655072656669784d617463686572 /- torch.utils.data.DistributedSampler -/,
  F 0x746f726368766973696f6e2e6d6f64656c732e7265736e6578743130315f3634783464 0x576569676874734d617463686572 0x706164646c652e766973696f6e2e6d6f64656c732e7265736e6578743130315f3634783464 0 [0x77656967687473, 0x70726f6772657373, 0x707265747261696e6564] [] [] [(0x70726f6772657373, false, [0])] [] /- torchvision.models.resnext101_64x4d -/,
  F 0x746f726368766973696f6e2e6d6f64656c732e776964655f7265736e65743130315f32 0x576569676874734d617463686572 0x706164646c652e766973696f6e2e6d6f64656c732e776964655f7265736e65743130315f32 0 [0x77656967687473, 0x70726f6772657373, 0x707265747261696e6564] [] [] [(0x70726f6772657373, false, [0])] [] /- torchvision.models.wide_resnet101_2 -/,
  F 0x746f726368766973696f6e2e7472616e73666f726d732e52616e646f6d416666696e65 0x4368616e67654150494d617463686572 0x706164646c652e766973696f6e2e7472616e73666f726d732e52616e646f6d416666696e65 0 [0x64656772656573, 0x7472616e736c617465, 0x7363616c65, 0x7368656172, 0x696e746572706f6c6174696f6e, 0x66696c6c, 0x63656e746572] [] [] [] [] /- torchvision.transforms.RandomAffine -/,
  E 0x746f7263682e64697374726962757465642e696e69745f70726f636573735f67726f7570 0x4368616e67655072656669784d617463686572 /- torch.distributed.init_process_group -/,
  F 0x746f7263682e646973747269627574696f6e732e6b6c2e6b6c5f646976657267656e6365 0x4368616e67654150494d617463686572 0x706164646c652e646973747269627574696f6e2e6b6c5f646976657267656e6365 2 [] [] [] [] [] /- torch.distributions.kl.kl_divergence -/,
  E 0x746f7263682e6e6e2e66756e6374696f6e616c2e636f6e765f7472616e73706f73653164 0x4368616e67655072656669784d617463686572 /- torch.nn.functional.conv_transpose1d -/,
  E 0x746f7263682e6e6e2e66756e6374696f6e616c2e636f6e765f7472616e73706f73653264 0x4368616e67655072656669784d617463686572 /- torch.nn.functional.conv_transpose2d -/,
  E 0x746f7263682e6e6e2e66756e6374696f6e616c2e636f6e765f7472616e73706f73653364 0x4368616e67655072656669784d617463686572 /- torch.nn.functional.conv_transpose3d -/,
  E 0x746f7263682e6e6e2e66756e6374696f6e616c2e706f6973736f6e5f6e6c6c5f6c6f7373 0x4368616e67655072656669784d617463686572 /- torch.nn.functional.poisson_nll_loss -/,
  E 0x746f7263682e6e6e2e66756e6374696f6e616c2e736f66745f6d617267696e5f6c6f7373 0x4368616e67655072656669784d617463686572 /- torch.nn.functional.soft_margin_loss -/,
  F 0x746f7263682e6e6e2e66756e6374696f6e616c2e757073616d706c655f6e656172657374 0x47656e657269634d617463686572 0x706164646c652e6e6e2e66756e6374696f6e616c2e757073616d706c65 1 [0x696e707574, 0x73697a65, 0x7363616c655f666163746f72] [] [] [(0x696e707574, false, [0x78])] [] /- torch.nn.functional.upsample_nearest -/,
  E 0x746f7263682e6e6e2e6d6f64756c65732e6c6f73732e506f6973736f6e4e4c4c4c6f7373 0x4368616e67655072656669784d617463686572 /- torch.nn.modules.loss.PoissonNLLLoss -/,
  E 0x746f7263682e6e6e2e6d6f64756c65732e6c6f73732e536f66744d617267696e4c6f7373 0x4368616e67655072656669784d617463686572 /- torch.nn.modules.loss.SoftMarginLoss -/,
  E 0x746f7263682e6f7074696d2e6c725f7363686564756c65722e4d756c7469537465704c52 0x4368616e67655072656669784d617463686572 /- torch.optim.lr_scheduler.MultiStepLR -/,
  F 0x746f7263682e7369676e616c2e77696e646f77732e67656e6572616c5f68616d6d696e67 0x5369676e616c57696e646f777357617463686572 0x706164646c652e617564696f2e66756e6374696f6e616c2e6765745f77696e646f77 1 [0x4d, 0x2a, 0x616c706861, 0x73796d, 0x6474797065, 0x6c61796f7574, 0x646576696365, 0x72657175697265735f67726164] [] [] [(0x4d, false, [0x77696e5f6c656e677468]), (0x73796d, false, [0x66667462696e73]), (0x6474797065, false, [0x6474797065])] [(0x6474797065, 0x27666c6f6174333227), (0x66667462696e73, 0x46616c7365)] /- torch.signal.windows.general_hamming -/,
  F 0x746f7263682e7574696c732e646174612e53756273657452616e646f6d53616d706c6572 0x47656e657269634d617463686572 0x706164646c652e696f2e53756273657452616e646f6d53616d706c6572 1 [0x696e6469636573, 0x67656e657261746f72] [] [] [] [] /- torch.utils.data.SubsetRandomSampler -/,
  F 0x746f726368766973696f6e2e7472616e73666f726d732e52616e646f6d45726173696e67 0x47656e657269634d617463686572 0x706164646c652e766973696f6e2e7472616e73666f726d732e52616e646f6d45726173696e67 0 [0x70, 0x7363616c65, 0x726174696f, 0x76616c7565, 0x696e706c616365] [] [] [(0x70, false, [0x70726f62])] [] /- torchvision.transforms.RandomErasing -/,
  E 0x746f7263682e54656e736f722e7370617273655f726573697a655f616e645f636c6561725f 0 /- torch.Tensor.sparse_resize_and_clear_ -/,
  E 0x746f7263682e637564612e616d702e6175746f636173745f6d6f64652e6175746f63617374 0x4368616e67655072656669784d617463686572 /- torch.cuda.amp.autocast_mode.autocast -/,
  F 0x746f7263682e637564612e72657365745f6d61785f6d656d6f72795f616c6c6f6361746564 0x4368616e67654150494d617463686572 0x706164646c652e6465766963652e637564612e72657365745f6d61785f6d656d6f72795f616c6c6f6361746564 0 [] [] [] [] [] /- torch.cuda.reset_max_memory_allocated -/,
  F 0x746f7263682e64697374726962757465642e7270632e6765745f776f726b65725f696e666f 0x47656e657269634d617463686572 0x706164646c652e64697374726962757465642e7270632e6765745f776f726b65725f696e666f 0 [0x776f726b65725f6e616d65] [] [] [(0x776f726b65725f6e616d65, false, [0x6e616d65])] [] /- torch.distributed.rpc.get_worker_info -/,
  F 0x746f7263682e64697374726962757465642e736361747465725f6f626a6563745f6c697374 0x47656e657269634d617463686572 0x706164646c652e64697374726962757465642e736361747465725f6f626a6563745f6c697374 2 [0x736361747465725f6f626a6563745f6f75747075745f6c697374, 0x736361747465725f6f626a6563745f696e7075745f6c697374, 0x737263, 0x67726f7570] [] [] [(0x736361747465725f6f626a6563745f6f75747075745f6c697374, false, [0x6f75745f6f626a6563745f6c697374]), (0x736361747465725f6f626a6563745f696e7075745f6c697374, false, [0x696e5f6f626a6563745f6c697374])] [] /- torch.distributed.scatter_object_list -/,
  E 0x746f7263682e646973747269627574696f6e732e4578706f6e656e7469616c46616d696c79 0x4368616e67655072656669784d617463686572 /- torch.distributions.ExponentialFamily -/,
  F 0x746f7263682e646973747269627574696f6e732e62696e6f6d69616c2e42696e6f6d69616c 0x47656e657269634d617463686572 0x706164646c652e646973747269627574696f6e2e42696e6f6d69616c 0 [0x746f74616c5f636f756e74, 0x70726f6273, 0x6c6f67697473, 0x76616c69646174655f61726773] [] [0x6c6f67697473] [(0x76616c69646174655f61726773, false, [0])] [(0x746f74616c5f636f756e74, 0x31)] /- torch.distributions.binomial.Binomial -/,
  F 0x746f7263682e646973747269627574696f6e732e73747564656e74542e53747564656e7454 0x47656e657269634d617463686572 0x706164646c652e646973747269627574696f6e2e53747564656e7454 1 [0x6466, 0x6c6f63, 0x7363616c65, 0x76616c69646174655f61726773] [] [] [(0x76616c69646174655f61726773, false, [0])] [(0x6c6f63, 0x302e30), (0x7363616c65, 0x312e30)] /- torch.distributions.studentT.StudentT -/,
  F 0x746f7263682e6e6e2e4d6f64756c652e72656769737465725f666f72776172645f686f6f6b 0x47656e657269634d617463686572 0x706164646c652e6e6e2e4d6f64756c652e72656769737465725f666f72776172645f706f73745f686f6f6b 1 [0x686f6f6b, 0x2a, 0x70726570656e64, 0x776974685f6b7761726773, 0x616c776179735f63616c6c] [] [0x70726570656e64, 0x776974685f6b7761726773, 0x616c776179735f63616c6c] [] [] /- torch.nn.Module.register_forward_hook -/]

def apiTable29 : List Raw := [
  E 0x746f7263682e6e6e2e66756e6374696f6e616c2e636f73696e655f73696d696c6172697479 0x4368616e67655072656669784d617463686572 /- torch.nn.functional.cosine_similarity -/,
  E 0x746f7263682e6e6e2e66756e6374696f6e616c2e676175737369616e5f6e6c6c5f6c6f7373 0x4368616e67655072656669784d617463686572 /- torch.nn.functional.gaussian_nll_loss -/,
  E 0x746f7263682e6e6e2e66756e6374696f6e616c2e6d756c74695f6d617267696e5f6c6f7373 0x4368616e67655072656669784d617463686572 /- torch.nn.functional.multi_margin_loss -/,
  E 0x746f7263682e6e6e2e66756e6374696f6e616c2e70616972776973655f64697374616e6365 0x4368616e67655072656669784d617463686572 /- torch.nn.functional.pairwise_distance -/,
  F 0x746f7263682e6e6e2e66756e6374696f6e616c2e757073616d706c655f62696c696e656172 0x47656e657269634d617463686572 0x706164646c652e6e6e2e66756e6374696f6e616c2e757073616d706c65 1 [0x696e707574, 0x73697a65, 0x7363616c655f666163746f72] [] [] [(0x696e707574, false, [0x78])] [(0x616c69676e5f636f726e657273, 0x54727565), (0x6d6f6465, 0x2762696c696e65617227)] /- torch.nn.functional.upsample_bilinear -/,
  F 0x746f7263682e6e6e2e6d6f64756c65732e62617463686e6f726d2e5f42617463684e6f726d 0x526576657273654d6f6d656e74756d4d617463686572 0x706164646c652e6e6e2e6c617965722e6e6f726d2e5f42617463684e6f726d42617365 1 [0x6e756d5f6665617475726573, 0x657073, 0x6d6f6d656e74756d, 0x616666696e65, 0x747261636b5f72756e6e696e675f7374617473, 0x646576696365, 0x6474797065] [] [] [(0x657073, false, [0x657073696c6f6e]), (0x616666696e65, true, [0x7765696768745f61747472, 0x626961735f61747472]), (0x747261636b5f72756e6e696e675f7374617473, false, [0]), (0x646576696365, false, [0]), (0x6474797065, false, [0])] [] /- torch.nn.modules.batchnorm._BatchNorm -/,
  E 0x746f7263682e6e6e2e6d6f64756c65732e6c6f73732e476175737369616e4e4c4c4c6f7373 0x4368616e67655072656669784d617463686572 /- torch.nn.modules.loss.GaussianNLLLoss -/,
  E 0x746f7263682e6e6e2e6d6f64756c65732e6c6f73732e4d756c74694d617267696e4c6f7373 0x4368616e67655072656669784d617463686572 /- torch.nn.modules.loss.MultiMarginLoss -/,
  E 0x746f7263682e6e6e2e7574696c732e726e6e2e696e766572745f7065726d75746174696f6e 0x4368616e67655072656669784d617463686572 /- torch.nn.utils.rnn.invert_permutation -/,
  F 0x746f7263682e6f7074696d2e4f7074696d697a65722e6164645f706172616d5f67726f7570 0x4368616e67654150494d617463686572 0x706164646c652e6f7074696d697a65722e4f7074696d697a65722e5f6164645f706172616d5f67726f7570 1 [] [] [] [] [] /- torch.optim.Optimizer.add_param_group -/,
  F 0x746f7263682e6f7074696d2e4f7074696d697a65722e6c6f61645f73746174655f64696374 0x4368616e67654150494d617463686572 0x706164646c652e6f7074696d697a65722e4f7074696d697a65722e6c6f61645f73746174655f64696374 1 [] [] [] [] [] /- torch.optim.Optimizer.load_state_dict -/,
  E 0x746f7263682e7574696c732e646174612e646174617365742e436861696e44617461736574 0x4368616e67655072656669784d617463686572 /- torch.utils.data.dataset.ChainDataset -/,
  E 0x746f7263682e7574696c732e646174612e73616d706c65722e426174636853616d706c6572 0x4368616e67655072656669784d617463686572 /- torch.utils.data.sampler.BatchSampler -/,
  F 0x746f726368766973696f6e2e6d6f64656c732e6d6f62696c656e65745f76335f6c61726765 0x576569676874734d617463686572 0x706164646c652e766973696f6e2e6d6f64656c732e6d6f62696c656e65745f76335f6c61726765 0 [0x77656967687473, 0x70726f6772657373, 0x707265747261696e6564] [] [] [(0x70726f6772657373, false, [0])] [] /- torchvision.models.mobilenet_v3_large -/,
  F 0x746f726368766973696f6e2e6d6f64656c732e6d6f62696c656e65745f76335f736d616c6c 0x576569676874734d617463686572 0x706164646c652e766973696f6e2e6d6f64656c732e6d6f62696c656e65745f76335f736d616c6c 0 [0x77656967687473, 0x70726f6772657373, 0x707265747261696e6564] [] [] [(0x70726f6772657373, false, [0])] [] /- torchvision.models.mobilenet_v3_small -/,
  F 0x746f726368766973696f6e2e6d6f64656c732e73687566666c656e65745f76325f78305f35 0x576569676874734d617463686572 0x706164646c652e766973696f6e2e6d6f64656c732e73687566666c656e65745f76325f78305f35 0 [0x77656967687473, 0x70726f6772657373, 0x707265747261696e6564] [] [] [(0x70726f6772657373, false, [0])] [] /- torchvision.models.shufflenet_v2_x0_5 -/,
  F 0x746f726368766973696f6e2e6d6f64656c732e73687566666c656e65745f76325f78315f30 0x576569676874734d617463686572 0x706164646c652e766973696f6e2e6d6f64656c732e73687566666c656e65745f76325f78315f30 0 [0x77656967687473, 0x70726f6772657373, 0x707265747261696e6564] [] [] [(0x70726f6772657373, false, [0])] [] /- torchvision.models.shufflenet_v2_x1_0 -/,
  F 0x746f726368766973696f6e2e6d6f64656c732e73687566666c656e65745f76325f78315f35 0x576569676874734d617463686572 0x706164646c652e766973696f6e2e6d6f64656c732e73687566666c656e65745f76325f78315f35 0 [0x77656967687473, 0x70726f6772657373, 0x707265747261696e6564] [] [] [(0x70726f6772657373, false, [0])] [] /- torchvision.models.shufflenet_v2_x1_5 -/,
  F 0x746f726368766973696f6e2e6d6f64656c732e73687566666c656e65745f76325f78325f30 0x576569676874734d617463686572 0x706164646c652e766973696f6e2e6d6f64656c732e73687566666c656e65745f76325f78325f30 0 [0x77656967687473, 0x70726f6772657373, 0x707265747261696e6564] [] [] [(0x70726f6772657373, false, [0])] [] /- torchvision.models.shufflenet_v2_x2_0 -/,
  F 0x746f726368766973696f6e2e7472616e73666f726d732e52616e646f6d526f746174696f6e 0x4368616e67654150494d617463686572 0x706164646c652e766973696f6e2e7472616e73666f726d732e52616e646f6d526f746174696f6e 0 [0x64656772656573, 0x696e746572706f6c6174696f6e, 0x657870616e64, 0x63656e746572, 0x66696c6c] [] [] [] [] /- torchvision.transforms.RandomRotation -/,
  P 0x746f726368766973696f6e2e7472616e73666f726d732e66756e6374696f6e616c2e706164 0x4368616e67654150494d617463686572 0x706164646c652e766973696f6e2e7472616e73666f726d732e706164 /- torchvision.transforms.functional.pad -/,
  F 0x7472616e73666f726d6572732e507265547261696e65644d6f64656c2e67656e6572617465 0x47656e657269634d617463686572 0x706164646c65666f726d6572732e7472616e73666f726d6572732e507265747261696e65644d6f64656c2e67656e6572617465 1 [0x696e707574] [] [] [(0x696e707574, false, [0x696e7075745f696473])] [] /- transformers.PreTrainedModel.generate -/,
  E 0x746f7263682e54656e736f722e715f7065725f6368616e6e656c5f7a65726f5f706f696e7473 0 /- torch.Tensor.q_per_channel_zero_points -/,
  E 0x746f7263682e62696e6172795f63726f73735f656e74726f70795f776974685f6c6f67697473 0 /- torch.binary_cross_entropy_with_logits -/,
  E 0x746f7263682e637564612e69735f63757272656e745f73747265616d5f636170747572696e67 0x4368616e67655072656669784d617463686572 /- torch.cuda.is_current_stream_capturing -/,
  E 0x746f7263682e646973747269627574696f6e732e4d756c7469766172696174654e6f726d616c 0x4368616e67655072656669784d617463686572 /- torch.distributions.MultivariateNormal -/,
  F 0x746f7263682e6e6e2e4d6f64756c652e72656769737465725f6261636b776172645f686f6f6b 0 0 1 [] [] [] [] [] /- torch.nn.Module.register_backward_hook -/,
  E 0x746f7263682e6e6e2e547269706c65744d617267696e5769746844697374616e63654c6f7373 0x4368616e67655072656669784d617463686572 /- torch.nn.TripletMarginWithDistanceLoss -/,
  E 0x746f7263682e6e6e2e6d6f64756c65732e6c6f73732e43726f7373456e74726f70794c6f7373 0x4368616e67655072656669784d617463686572 /- torch.nn.modules.loss.CrossEntropyLoss -/,
  E 0x746f7263682e6e6e2e7574696c732e726e6e2e7061645f7061636b65645f73657175656e6365 0x4368616e67655072656669784d617463686572 /- torch.nn.utils.rnn.pad_packed_sequence -/,
  E 0x746f7263682e6f7074696d2e6c725f7363686564756c65722e4578706f6e656e7469616c4c52 0x4368616e67655072656669784d617463686572 /- torch.optim.lr_scheduler.ExponentialLR -/,
  F 0x746f7263682e7574696c732e6370705f657874656e73696f6e2e437070457874656e73696f6e 0x43554441416e64437070457874656e73696f6e4d617463686572 0x706164646c652e7574696c732e6370705f657874656e73696f6e2e437070457874656e73696f6e 2 [0x6e616d65, 0x736f7572636573, 0x2a61726773, 0x2a2a6b7761726773] [] [] [(0x6e616d65, false, [0])] [] /- torch.utils.cpp_extension.CppExtension -/,
  F 0x746f7263682e7574696c732e646174612e576569676874656452616e646f6d53616d706c6572 0x47656e657269634d617463686572 0x706164646c652e696f2e576569676874656452616e646f6d53616d706c6572 2 [0x77656967687473, 0x6e756d5f73616d706c6573, 0x7265706c6163656d656e74, 0x67656e657261746f72] [] [] [] [] /- torch.utils.data.WeightedRandomSampler -/,
  E 0x746f7263682e7574696c732e646174612e646174616c6f616465722e446174614c6f61646572 0x4368616e67655072656669784d617463686572 /- torch.utils.data.dataloader.DataLoader -/,
  E 0x746f7263682e7574696c732e646174612e646174617365742e436f6e63617444617461736574 0x4368616e67655072656669784d617463686572 /- torch.utils.data.dataset.ConcatDataset -/,
  E 0x746f7263682e7574696c732e646174612e73616d706c65722e52616e646f6d53616d706c6572 0x4368616e67655072656669784d617463686572 /- torch.utils.data.sampler.RandomSampler -/,
  F 0x746f726368766973696f6e2e696f2e496d616765526561644d6f64652e554e4348414e474544 0x4368616e67654150494d617463686572 0x27756e6368616e67656427 0 [] [] [] [] [] /- torchvision.io.ImageReadMode.UNCHANGED -/,
  P 0x746f726368766973696f6e2e7472616e73666f726d732e66756e6374696f6e616c2e63726f70 0x4368616e67654150494d617463686572 0x706164646c652e766973696f6e2e7472616e73666f726d732e63726f70 /- torchvision.transforms.functional.crop -/,
  F 0x746f7263682e64697374726962757465642e62726f6164636173745f6f626a6563745f6c697374 0x47656e657269634d617463686572 0x706164646c652e64697374726962757465642e62726f6164636173745f6f626a6563745f6c697374 1 [0x6f626a6563745f6c697374, 0x737263, 0x67726f7570, 0x646576696365] [] [] [(0x646576696365, false, [0])] [] /- torch.distributed.broadcast_object_list -/,
  F 0x746f7263682e64697374726962757465642e7265647563655f736361747465725f74656e736f72 0x5265647563655363617474657254656e736f724d617463686572 0x706164646c652e64697374726962757465642e7265647563655f73636174746572 2 [0x6f7574707574, 0x696e707574, 0x6f70, 0x67726f7570, 0x6173796e635f6f70] [] [] [(0x6f7574707574, false, [0x74656e736f72]), (0x696e707574, false, [0x74656e736f725f6c697374])] [] /- torch.distributed.reduce_scatter_tensor -/,
  E 0x746f7263682e646973747269627574696f6e732e446973747269627574696f6e2e73616d706c65 0x4368616e67655072656669784d617463686572 /- torch.distributions.Distribution.sample -/,
  F 0x746f7263682e646973747269627574696f6e732e6265726e6f756c6c692e4265726e6f756c6c69 0x47656e657269634d617463686572 0x706164646c652e646973747269627574696f6e2e4265726e6f756c6c69 1 [0x70726f6273, 0x6c6f67697473, 0x76616c69646174655f61726773] [] [0x6c6f67697473] [(0x76616c69646174655f61726773, false, [0])] [] /- torch.distributions.bernoulli.Bernoulli -/,
  F 0x746f7263682e646973747269627574696f6e732e6469726963686c65742e4469726963686c6574 0x47656e657269634d617463686572 0x706164646c652e646973747269627574696f6e2e4469726963686c6574 1 [0x636f6e63656e74726174696f6e, 0x76616c69646174655f61726773] [] [] [(0x76616c69646174655f61726773, false, [0])] [] /- torch.distributions.dirichlet.Dirichlet -/,
  F 0x746f7263682e646973747269627574696f6e732e67656f6d65747269632e47656f6d6574726963 0x47656e657269634d617463686572 0x706164646c652e646973747269627574696f6e2e47656f6d6574726963 1 [0x70726f6273, 0x6c6f67697473, 0x76616c69646174655f61726773] [] [0x6c6f67697473] [(0x76616c69646174655f61726773, false, [0])] [] /- torch.distributions.geometric.Geometric -/,
  F 0x746f7263682e6e6e2e66756e6374696f6e616c2e5f526564756374696f6e2e6765745f656e756d 0x4765745f456e756d4d617463686572 0 1 [0x726564756374696f6e] [] [] [] [] /- torch.nn.functional._Reduction.get_enum -/,
  E 0x746f7263682e6e6e2e66756e6374696f6e616c2e61646170746976655f6176675f706f6f6c3164 0x4368616e67655072656669784d617463686572 /- torch.nn.functional.adaptive_avg_pool1d -/,
  E 0x746f7263682e6e6e2e66756e6374696f6e616c2e61646170746976655f6176675f706f6f6c3264 0x4368616e67655072656669784d617463686572 /- torch.nn.functional.adaptive_avg_pool2d -/,
  E 0x746f7263682e6e6e2e66756e6374696f6e616c2e61646170746976655f6176675f706f6f6c3364 0x4368616e67655072656669784d617463686572 /- torch.nn.functional.adaptive_avg_pool3d -/,
  E 0x746f7263682e6e6e2e66756e6374696f6e616c2e61646170746976655f6d61785f706f6f6c3164 0x4368616e67655072656669784d617463686572 /- torch.nn.functional.adaptive_max_pool1d -/,
  E 0x746f7263682e6e6e2e66756e6374696f6e616c2e61646170746976655f6d61785f706f6f6c3264 0x4368616e67655072656669784d617463686572 /- torch.nn.functional.adaptive_max_pool2d -/,
  E 0x746f7263682e6e6e2e66756e6374696f6e616c2e61646170746976655f6d61785f706f6f6c3364 0x4368616e67655072656669784d617463686572 /- torch.nn.functional.adaptive_max_pool3d -/,
  F 0x746f7263682e6e6e2e66756e6374696f6e616c2e6c6f63616c5f726573706f6e73655f6e6f726d 0x47656e657269634d617463686572 0x706164646c652e6e6e2e66756e6374696f6e616c2e6c6f63616c5f726573706f6e73655f6e6f726d 2 [0x696e707574, 0x73697a65, 0x616c706861, 0x62657461, 0x6b] [] [] [(0x696e707574, false, [0x78])] [] /- torch.nn.functional.local_response_norm -/,
  E 0x746f7263682e6e6e2e66756e6374696f6e616c2e6d617267696e5f72616e6b696e675f6c6f7373 0x4368616e67655072656669784d617463686572 /- torch.nn.functional.margin_ranking_loss -/,
  E 0x746f7263682e6e6e2e66756e6374696f6e616c2e747269706c65745f6d617267696e5f6c6f7373 0x4368616e67655072656669784d617463686572 /- torch.nn.functional.triplet_margin_loss -/,
  E 0x746f7263682e6e6e2e6d6f64756c65732e6c6f73732e424345576974684c6f676974734c6f7373 0x4368616e67655072656669784d617463686572 /- torch.nn.modules.loss.BCEWithLogitsLoss -/,
  E 0x746f7263682e6e6e2e6d6f64756c65732e6c6f73732e4d617267696e52616e6b696e674c6f7373 0x4368616e67655072656669784d617463686572 /- torch.nn.modules.loss.MarginRankingLoss -/,
  E 0x746f7263682e6e6e2e6d6f64756c65732e6c6f73732e547269706c65744d617267696e4c6f7373 0x4368616e67655072656669784d617463686572 /- torch.nn.modules.loss.TripletMarginLoss -/,
  E 0x746f7263682e6e6e2e7574696c732e726e6e2e7061636b5f7061646465645f73657175656e6365 0x4368616e67655072656669784d617463686572 /- torch.nn.utils.rnn.pack_padded_sequence -/,
  E 0x746f7263682e7370656369616c2e7363616c65645f6d6f6469666965645f62657373656c5f6b30 0 /- torch.special.scaled_modified_bessel_k0 -/,
  E 0x746f7263682e7370656369616c2e7363616c65645f6d6f6469666965645f62657373656c5f6b31 0 /- torch.special.scaled_modified_bessel_k1 -/]

def apiTable30 : List Raw := [
  F 0x746f7263682e7574696c732e6370705f657874656e73696f6e2e43554441457874656e73696f6e 0x43554441416e64437070457874656e73696f6e4d617463686572 0x706164646c652e7574696c732e6370705f657874656e73696f6e2e43554441457874656e73696f6e 2 [0x6e616d65, 0x736f7572636573, 0x2a61726773, 0x2a2a6b7761726773] [] [] [(0x6e616d65, false, [0])] [] /- torch.utils.cpp_extension.CUDAExtension -/,
  F 0x746f726368766973696f6e2e6d6f64656c732e696e63657074696f6e2e496e63657074696f6e41 0x47656e657269634d617463686572 0x706164646c652e766973696f6e2e6d6f64656c732e696e63657074696f6e76332e496e63657074696f6e41 2 [0x696e5f6368616e6e656c73, 0x706f6f6c5f6665617475726573, 0x636f6e765f626c6f636b] [] [0x636f6e765f626c6f636b] [(0x696e5f6368616e6e656c73, false, [0x6e756d5f6368616e6e656c73])] [] /- torchvision.models.inception.InceptionA -/,
  F 0x746f726368766973696f6e2e6d6f64656c732e696e63657074696f6e2e496e63657074696f6e42 0x47656e657269634d617463686572 0x706164646c652e766973696f6e2e6d6f64656c732e696e63657074696f6e76332e496e63657074696f6e42 1 [0x696e5f6368616e6e656c73, 0x636f6e765f626c6f636b] [] [0x636f6e765f626c6f636b] [(0x696e5f6368616e6e656c73, false, [0x6e756d5f6368616e6e656c73])] [] /- torchvision.models.inception.InceptionB -/,
  F 0x746f726368766973696f6e2e6d6f64656c732e696e63657074696f6e2e496e63657074696f6e43 0x47656e657269634d617463686572 0x706164646c652e766973696f6e2e6d6f64656c732e696e63657074696f6e76332e496e63657074696f6e43 2 [0x696e5f6368616e6e656c73, 0x6368616e6e656c735f377837, 0x636f6e765f626c6f636b] [] [0x636f6e765f626c6f636b] [(0x696e5f6368616e6e656c73, false, [0x6e756d5f6368616e6e656c73])] [] /- torchvision.models.inception.InceptionC -/,
  F 0x746f726368766973696f6e2e6d6f64656c732e696e63657074696f6e2e496e63657074696f6e44 0x47656e657269634d617463686572 0x706164646c652e766973696f6e2e6d6f64656c732e696e63657074696f6e76332e496e63657074696f6e44 1 [0x696e5f6368616e6e656c73, 0x636f6e765f626c6f636b] [] [0x636f6e765f626c6f636b] [(0x696e5f6368616e6e656c73, false, [0x6e756d5f6368616e6e656c73])] [] /- torchvision.models.inception.InceptionD -/,
  F 0x746f726368766973696f6e2e6d6f64656c732e696e63657074696f6e2e496e63657074696f6e45 0x47656e657269634d617463686572 0x706164646c652e766973696f6e2e6d6f64656c732e696e63657074696f6e76332e496e63657074696f6e45 1 [0x696e5f6368616e6e656c73, 0x636f6e765f626c6f636b] [] [0x636f6e765f626c6f636b] [(0x696e5f6368616e6e656c73, false, [0x6e756d5f6368616e6e656c73])] [] /- torchvision.models.inception.InceptionE -/,
  P 0x746f726368766973696f6e2e7472616e73666f726d732e66756e6374696f6e616c2e6572617365 0x4368616e67654150494d617463686572 0x706164646c652e766973696f6e2e7472616e73666f726d732e6572617365 /- torchvision.transforms.functional.erase -/,
  P 0x746f726368766973696f6e2e7472616e73666f726d732e66756e6374696f6e616c2e68666c6970 0x4368616e67654150494d617463686572 0x706164646c652e766973696f6e2e7472616e73666f726d732e68666c6970 /- torchvision.transforms.functional.hflip -/,
  P 0x746f726368766973696f6e2e7472616e73666f726d732e66756e6374696f6e616c2e76666c6970 0x4368616e67654150494d617463686572 0x706164646c652e766973696f6e2e7472616e73666f726d732e76666c6970 /- torchvision.transforms.functional.vflip -/,
  F 0x746f7263682e6175746f677261642e67726170682e73617665645f74656e736f72735f686f6f6b73 0x4368616e67654150494d617463686572 0x706164646c652e6175746f677261642e73617665645f74656e736f72735f686f6f6b73 2 [] [] [] [] [] /- torch.autograd.graph.saved_tensors_hooks -/,
  F 0x746f7263682e64697374726962757465642e616c6c5f6761746865725f696e746f5f74656e736f72 0x526576657273654173796e634f704d617463686572 0x706164646c652e64697374726962757465642e73747265616d2e616c6c5f676174686572 2 [0x6f75747075745f74656e736f72, 0x696e7075745f74656e736f72, 0x67726f7570, 0x6173796e635f6f70] [] [] [(0x6f75747075745f74656e736f72, false, [0x74656e736f725f6f725f74656e736f725f6c697374]), (0x696e7075745f74656e736f72, false, [0x74656e736f72])] [] /- torch.distributed.all_gather_into_tensor -/,
  E 0x746f7263682e646973747269627574696f6e732e446973747269627574696f6e2e7273616d706c65 0x4368616e67655072656669784d617463686572 /- torch.distributions.Distribution.rsample -/,
  F 0x746f7263682e646973747269627574696f6e732e6c6f675f6e6f726d616c2e4c6f674e6f726d616c 0x47656e657269634d617463686572 0x706164646c652e646973747269627574696f6e2e4c6f674e6f726d616c 2 [0x6c6f63, 0x7363616c65, 0x76616c69646174655f61726773] [] [] [(0x76616c69646174655f61726773, false, [0])] [] /- torch.distributions.log_normal.LogNormal -/,
  F 0x746f7263682e646973747269627574696f6e732e7472616e73666f726d732e5472616e73666f726d 0x47656e657269634d617463686572 0x706164646c652e646973747269627574696f6e2e5472616e73666f726d 0 [0x63616368655f73697a65] [] [] [(0x63616368655f73697a65, false, [0])] [] /- torch.distributions.transforms.Transform -/,
  E 0x746f7263682e6e6e2e66756e6374696f6e616c2e62696e6172795f63726f73735f656e74726f7079 0x4368616e67655072656669784d617463686572 /- torch.nn.functional.binary_cross_entropy -/,
  E 0x746f7263682e6e6e2e66756e6374696f6e616c2e68696e67655f656d62656464696e675f6c6f7373 0x4368616e67655072656669784d617463686572 /- torch.nn.functional.hinge_embedding_loss -/,
  E 0x746f7263682e6e6e2e6d6f64756c65732e6c6f73732e48696e6765456d62656464696e674c6f7373 0x4368616e67655072656669784d617463686572 /- torch.nn.modules.loss.HingeEmbeddingLoss -/,
  E 0x746f7263682e7574696c732e6370705f657874656e73696f6e2e4275696c64457874656e73696f6e 0x4368616e67655072656669784d617463686572 /- torch.utils.cpp_extension.BuildExtension -/,
  E 0x746f7263682e7574696c732e646174612e646174617365742e4974657261626c6544617461736574 0x4368616e67655072656669784d617463686572 /- torch.utils.data.dataset.IterableDataset -/,
  F 0x746f726368766973696f6e2e6d6f64656c732e56474731315f576569676874732e44454641554c54 0x4368616e67654150494d617463686572 0x2744454641554c5427 0 [] [] [] [] [] /- torchvision.models.VGG11_Weights.DEFAULT -/,
  F 0x746f726368766973696f6e2e6d6f64656c732e56474731335f576569676874732e44454641554c54 0x4368616e67654150494d617463686572 0x2744454641554c5427 0 [] [] [] [] [] /- torchvision.models.VGG13_Weights.DEFAULT -/,
  F 0x746f726368766973696f6e2e6d6f64656c732e56474731365f576569676874732e44454641554c54 0x4368616e67654150494d617463686572 0x2744454641554c5427 0 [] [] [] [] [] /- torchvision.models.VGG16_Weights.DEFAULT -/,
  F 0x746f726368766973696f6e2e6d6f64656c732e56474731395f576569676874732e44454641554c54 0x4368616e67654150494d617463686572 0x2744454641554c5427 0 [] [] [] [] [] /- torchvision.models.VGG19_Weights.DEFAULT -/,
  F 0x746f726368766973696f6e2e7472616e73666f726d732e52616e646f6d5065727370656374697665 0x47656e657269634d617463686572 0x706164646c652e766973696f6e2e7472616e73666f726d732e52616e646f6d5065727370656374697665 0 [0x646973746f7274696f6e5f7363616c65, 0x70, 0x696e746572706f6c6174696f6e, 0x66696c6c] [] [] [(0x70, false, [0x70726f62])] [] /- torchvision.transforms.RandomPerspective -/,
  F 0x746f726368766973696f6e2e7472616e73666f726d732e52616e646f6d526573697a656443726f70 0x47656e657269634d617463686572 0x706164646c652e766973696f6e2e7472616e73666f726d732e52616e646f6d526573697a656443726f70 0 [0x73697a65, 0x7363616c65, 0x726174696f, 0x696e746572706f6c6174696f6e, 0x616e7469616c696173] [] [0x616e7469616c696173] [] [] /- torchvision.transforms.RandomResizedCrop -/,
  F 0x746f726368766973696f6e2e7472616e73666f726d732e66756e6374696f6e616c2e616666696e65 0x4368616e67654150494d617463686572 0x706164646c652e766973696f6e2e7472616e73666f726d732e616666696e65 0 [0x696d67, 0x616e676c65, 0x7472616e736c617465, 0x7363616c65, 0x7368656172, 0x696e746572706f6c6174696f6e, 0x66696c6c, 0x63656e746572] [] [] [] [] /- torchvision.transforms.functional.affine -/,
  F 0x746f726368766973696f6e2e7472616e73666f726d732e66756e6374696f6e616c2e726573697a65 0x47656e657269634d617463686572 0x706164646c652e766973696f6e2e7472616e73666f726d732e726573697a65 0 [0x696d67, 0x73697a65, 0x696e746572706f6c6174696f6e, 0x6d61785f73697a65, 0x616e7469616c696173] [] [0x6d61785f73697a65, 0x616e7469616c696173] [] [] /- torchvision.transforms.functional.resize -/,
  F 0x746f726368766973696f6e2e7472616e73666f726d732e66756e6374696f6e616c2e726f74617465 0x4368616e67654150494d617463686572 0x706164646c652e766973696f6e2e7472616e73666f726d732e726f74617465 0 [0x696d67, 0x616e676c65, 0x696e746572706f6c6174696f6e, 0x657870616e64, 0x63656e746572, 0x66696c6c] [] [] [] [] /- torchvision.transforms.functional.rotate -/,
  E 0x746f7263682e6175746f677261642e677261645f6d6f64652e7365745f677261645f656e61626c6564 0x4368616e67655072656669784d617463686572 /- torch.autograd.grad_mode.set_grad_enabled -/,
  E 0x746f7263682e646973747269627574696f6e732e446973747269627574696f6e2e6c6f675f70726f62 0x4368616e67655072656669784d617463686572 /- torch.distributions.Distribution.log_prob -/,
  F 0x746f7263682e6e6e2e4d6f64756c652e72656769737465725f666f72776172645f7072655f686f6f6b 0x47656e657269634d617463686572 0x706164646c652e6e6e2e4d6f64756c652e72656769737465725f666f72776172645f7072655f686f6f6b 1 [0x686f6f6b, 0x2a, 0x70726570656e64, 0x776974685f6b7761726773] [] [0x70726570656e64, 0x776974685f6b7761726773] [] [] /- torch.nn.Module.register_forward_pre_hook -/,
  E 0x746f7263682e6e6e2e66756e6374696f6e616c2e636f73696e655f656d62656464696e675f6c6f7373 0x4368616e67655072656669784d617463686572 /- torch.nn.functional.cosine_embedding_loss -/,
  F 0x746f7263682e6e6e2e66756e6374696f6e616c2e666561747572655f616c7068615f64726f706f7574 0x47656e657269634d617463686572 0x706164646c652e6e6e2e66756e6374696f6e616c2e666561747572655f616c7068615f64726f706f7574 1 [0x696e707574, 0x70, 0x747261696e696e67, 0x696e706c616365] [] [] [(0x696e707574, false, [0x78]), (0x696e706c616365, false, [0])] [(0x747261696e696e67, 0x46616c7365)] /- torch.nn.functional.feature_alpha_dropout -/,
  F 0x746f7263682e6e6e2e66756e6374696f6e616c2e6672616374696f6e616c5f6d61785f706f6f6c3264 0x4672616374696f6e616c5f4d61785f706f6f6c32644d617463686572 0x706164646c652e6e6e2e66756e6374696f6e616c2e6672616374696f6e616c5f6d61785f706f6f6c3264 3 [0x696e707574, 0x6b65726e656c5f73697a65, 0x6f75747075745f73697a65, 0x6f75747075745f726174696f, 0x72657475726e5f696e6469636573, 0x5f72616e646f6d5f73616d706c6573] [] [0x5f72616e646f6d5f73616d706c6573] [] [] /- torch.nn.functional.fractional_max_pool2d -/,
  F 0x746f7263682e6e6e2e66756e6374696f6e616c2e6672616374696f6e616c5f6d61785f706f6f6c3364 0x4672616374696f6e616c5f4d61785f706f6f6c33644d617463686572 0x706164646c652e6e6e2e66756e6374696f6e616c2e6672616374696f6e616c5f6d61785f706f6f6c3364 3 [0x696e707574, 0x6b65726e656c5f73697a65, 0x6f75747075745f73697a65, 0x6f75747075745f726174696f, 0x72657475726e5f696e6469636573, 0x5f72616e646f6d5f73616d706c6573] [] [0x5f72616e646f6d5f73616d706c6573] [] [] /- torch.nn.functional.fractional_max_pool3d -/,
  E 0x746f7263682e6e6e2e6d6f64756c65732e6c6f73732e436f73696e65456d62656464696e674c6f7373 0x4368616e67655072656669784d617463686572 /- torch.nn.modules.loss.CosineEmbeddingLoss -/,
  F 0x746f7263682e6e6e2e706172616c6c656c2e446973747269627574656444617461506172616c6c656c 0x47656e657269634d617463686572 0x706164646c652e44617461506172616c6c656c 1 [0x6d6f64756c65, 0x6465766963655f696473, 0x6f75747075745f646576696365, 0x64696d, 0x62726f6164636173745f62756666657273, 0x70726f636573735f67726f7570, 0x6275636b65745f6361705f6d62, 0x66696e645f756e757365645f706172616d6574657273, 0x636865636b5f726564756374696f6e, 0x6772616469656e745f61735f6275636b65745f76696577, 0x7374617469635f6772617068] [] [0x6f75747075745f646576696365, 0x64696d, 0x62726f6164636173745f62756666657273, 0x70726f636573735f67726f7570, 0x6772616469656e745f61735f6275636b65745f76696577, 0x7374617469635f6772617068] [(0x6d6f64756c65, false, [0x6c6179657273]), (0x6465766963655f696473, false, [0]), (0x6275636b65745f6361705f6d62, false, [0x636f6d6d5f6275666665725f73697a65]), (0x636865636b5f726564756374696f6e, false, [0])] [] /- torch.nn.parallel.DistributedDataParallel -/,
  F 0x746f7263682e6f7074696d2e6c725f7363686564756c65722e4d756c7469706c696361746976654c52 0x4f7074696d324c725363686564756c65724d617463686572 0x706164646c652e6f7074696d697a65722e6c722e4d756c7469706c696361746976654465636179 2 [0x6f7074696d697a6572, 0x6c725f6c616d626461, 0x6c6173745f65706f6368, 0x766572626f7365] [] [] [] [] /- torch.optim.lr_scheduler.MultiplicativeLR -/,
  F 0x746f726368766973696f6e2e7472616e73666f726d732e52616e646f6d566572746963616c466c6970 0x47656e657269634d617463686572 0x706164646c652e766973696f6e2e7472616e73666f726d732e52616e646f6d566572746963616c466c6970 0 [0x70] [] [] [(0x70, false, [0x70726f62])] [] /- torchvision.transforms.RandomVerticalFlip -/,
  F 0x746f7263682e637564612e7365745f7065725f70726f636573735f6d656d6f72795f6672616374696f6e 0x53657450657250726f636573734d656d6f72794672616374696f6e4d617463686572 0 1 [0x6672616374696f6e, 0x646576696365] [] [0x646576696365] [] [] /- torch.cuda.set_per_process_memory_fraction -/,
  P 0x746f7263682e646973747269627574696f6e732e636f6e73747261696e74732e436f6e73747261696e74 0x4368616e67654150494d617463686572 0x706164646c652e646973747269627574696f6e2e636f6e73747261696e742e436f6e73747261696e74 /- torch.distributions.constraints.Constraint -/,
  E 0x746f7263682e6e6e2e617474656e74696f6e2e666c65785f617474656e74696f6e2e6f725f6d61736b73 0x4368616e67655072656669784d617463686572 /- torch.nn.attention.flex_attention.or_masks -/,
  E 0x746f7263682e6e6e2e66756e6374696f6e616c2e6d756c74696c6162656c5f6d617267696e5f6c6f7373 0x4368616e67655072656669784d617463686572 /- torch.nn.functional.multilabel_margin_loss -/,
  E 0x746f7263682e6e6e2e6d6f64756c65732e6c6f73732e4d756c74694c6162656c4d617267696e4c6f7373 0x4368616e67655072656669784d617463686572 /- torch.nn.modules.loss.MultiLabelMarginLoss -/,
  E 0x746f7263682e6f7074696d2e6c725f7363686564756c65722e436f73696e65416e6e65616c696e674c52 0x4368616e67655072656669784d617463686572 /- torch.optim.lr_scheduler.CosineAnnealingLR -/,
  E 0x746f7263682e6f7074696d2e6c725f7363686564756c65722e5265647563654c524f6e506c6174656175 0x4368616e67655072656669784d617463686572 /- torch.optim.lr_scheduler.ReduceLROnPlateau -/,
  E 0x746f7263682e7574696c732e646174612e73616d706c65722e53657175656e7469616c53616d706c6572 0x4368616e67655072656669784d617463686572 /- torch.utils.data.sampler.SequentialSampler -/,
  F 0x746f726368766973696f6e2e6d6f64656c732e416c65784e65745f576569676874732e44454641554c54 0x4368616e67654150494d617463686572 0x2744454641554c5427 0 [] [] [] [] [] /- torchvision.models.AlexNet_Weights.DEFAULT -/,
  E 0x746f7263682e6175746f677261642e66756e6374696f6e2e6f6e63655f646966666572656e746961626c65 0x4368616e67655072656669784d617463686572 /- torch.autograd.function.once_differentiable -/,
  P 0x746f7263682e646973747269627574696f6e732e63617465676f726963616c2e43617465676f726963616c 0x4368616e67654150494d617463686572 0x706164646c652e636f6d7061742e646973747269627574696f6e732e63617465676f726963616c2e43617465676f726963616c /- torch.distributions.categorical.Categorical -/,
  F 0x746f7263682e646973747269627574696f6e732e6578706f6e656e7469616c2e4578706f6e656e7469616c 0x47656e657269634d617463686572 0x706164646c652e646973747269627574696f6e2e4578706f6e656e7469616c 0 [0x72617465, 0x76616c69646174655f61726773] [] [] [(0x76616c69646174655f61726773, false, [0])] [] /- torch.distributions.exponential.Exponential -/,
  F 0x746f7263682e646973747269627574696f6e732e696e646570656e64656e742e496e646570656e64656e74 0x47656e657269634d617463686572 0x706164646c652e646973747269627574696f6e2e496e646570656e64656e74 2 [0x626173655f646973747269627574696f6e, 0x7265696e7465727072657465645f62617463685f6e64696d73, 0x76616c69646174655f61726773] [] [] [(0x626173655f646973747269627574696f6e, false, [0x62617365]), (0x7265696e7465727072657465645f62617463685f6e64696d73, false, [0x7265696e7465727072657465645f62617463685f72616e6b]), (0x76616c69646174655f61726773, false, [0])] [] /- torch.distributions.independent.Independent -/,
  F 0x746f7263682e646973747269627574696f6e732e6d756c74696e6f6d69616c2e4d756c74696e6f6d69616c 0x47656e657269634d617463686572 0x706164646c652e646973747269627574696f6e2e4d756c74696e6f6d69616c 2 [0x746f74616c5f636f756e74, 0x70726f6273, 0x6c6f67697473, 0x76616c69646174655f61726773] [] [0x6c6f67697473] [(0x76616c69646174655f61726773, false, [0])] [] /- torch.distributions.multinomial.Multinomial -/,
  F 0x746f7263682e646973747269627574696f6e732e7472616e73666f726d732e4162735472616e73666f726d 0x47656e657269634d617463686572 0x706164646c652e646973747269627574696f6e2e4162735472616e73666f726d 0 [0x63616368655f73697a65] [] [] [(0x63616368655f73697a65, false, [0])] [] /- torch.distributions.transforms.AbsTransform -/,
  F 0x746f7263682e646973747269627574696f6e732e7472616e73666f726d732e4578705472616e73666f726d 0x47656e657269634d617463686572 0x706164646c652e646973747269627574696f6e2e4578705472616e73666f726d 0 [0x63616368655f73697a65] [] [] [(0x63616368655f73697a65, false, [0])] [] /- torch.distributions.transforms.ExpTransform -/,
  F 0x746f7263682e6e6e2e4d6f64756c652e72656769737465725f66756c6c5f6261636b776172645f686f6f6b 0 0 1 [] [] [] [] [] /- torch.nn.Module.register_full_backward_hook -/,
  E 0x746f7263682e6e6e2e617474656e74696f6e2e666c65785f617474656e74696f6e2e616e645f6d61736b73 0x4368616e67655072656669784d617463686572 /- torch.nn.attention.flex_attention.and_masks -/,
  E 0x746f7263682e6e6e2e696e69742e5f63616c63756c6174655f66616e5f696e5f616e645f66616e5f6f7574 0x4368616e67655072656669784d617463686572 /- torch.nn.init._calculate_fan_in_and_fan_out -/,
  F 0x746f7263682e6e6e2e7574696c732e706172616d657472697a6174696f6e732e7765696768745f6e6f726d 0x47656e657269634d617463686572 0x706164646c652e6e6e2e7574696c732e7765696768745f6e6f726d 1 [0x6d6f64756c65, 0x6e616d65, 0x64696d] [] [] [(0x6d6f64756c65, false, [0x6c61796572])] [] /- torch.nn.utils.parametrizations.weight_norm -/,
  E 0x746f7263682e7574696c732e646174612e646174616c6f616465722e64656661756c745f636f6c6c617465 0x4368616e67655072656669784d617463686572 /- torch.utils.data.dataloader.default_collate -/]

def apiTable31 : List Raw := [
  F 0x746f726368766973696f6e2e6d6f64656c732e5265734e657431385f576569676874732e44454641554c54 0x4368616e67654150494d617463686572 0x2744454641554c5427 0 [] [] [] [] [] /- torchvision.models.ResNet18_Weights.DEFAULT -/,
  F 0x746f726368766973696f6e2e6d6f64656c732e5265734e657433345f576569676874732e44454641554c54 0x4368616e67654150494d617463686572 0x2744454641554c5427 0 [] [] [] [] [] /- torchvision.models.ResNet34_Weights.DEFAULT -/,
  F 0x746f726368766973696f6e2e6d6f64656c732e5265734e657435305f576569676874732e44454641554c54 0x4368616e67654150494d617463686572 0x2744454641554c5427 0 [] [] [] [] [] /- torchvision.models.ResNet50_Weights.DEFAULT -/,
  F 0x746f726368766973696f6e2e6d6f64656c732e56474731315f424e5f576569676874732e44454641554c54 0x4368616e67654150494d617463686572 0x2744454641554c5427 0 [] [] [] [] [] /- torchvision.models.VGG11_BN_Weights.DEFAULT -/,
  F 0x746f726368766973696f6e2e6d6f64656c732e56474731335f424e5f576569676874732e44454641554c54 0x4368616e67654150494d617463686572 0x2744454641554c5427 0 [] [] [] [] [] /- torchvision.models.VGG13_BN_Weights.DEFAULT -/,
  F 0x746f726368766973696f6e2e6d6f64656c732e56474731365f424e5f576569676874732e44454641554c54 0x4368616e67654150494d617463686572 0x2744454641554c5427 0 [] [] [] [] [] /- torchvision.models.VGG16_BN_Weights.DEFAULT -/,
  F 0x746f726368766973696f6e2e6d6f64656c732e56474731395f424e5f576569676874732e44454641554c54 0x4368616e67654150494d617463686572 0x2744454641554c5427 0 [] [] [] [] [] /- torchvision.models.VGG19_BN_Weights.DEFAULT -/,
  F 0x746f726368766973696f6e2e7472616e73666f726d732e52616e646f6d486f72697a6f6e74616c466c6970 0x47656e657269634d617463686572 0x706164646c652e766973696f6e2e7472616e73666f726d732e52616e646f6d486f72697a6f6e74616c466c6970 0 [0x70] [] [] [(0x70, false, [0x70726f62])] [] /- torchvision.transforms.RandomHorizontalFlip -/,
  F 0x746f726368766973696f6e2e7472616e73666f726d732e66756e6374696f6e616c2e6e6f726d616c697a65 0x47656e657269634d617463686572 0x706164646c652e766973696f6e2e7472616e73666f726d732e6e6f726d616c697a65 0 [0x74656e736f72, 0x6d65616e, 0x737464, 0x696e706c616365] [] [] [(0x74656e736f72, false, [0x696d67])] [] /- torchvision.transforms.functional.normalize -/,
  F 0x746f726368766973696f6e2e7472616e73666f726d732e66756e6374696f6e616c2e746f5f74656e736f72 0x4368616e67654150494d617463686572 0x706164646c652e766973696f6e2e7472616e73666f726d732e746f5f74656e736f72 0 [0x706963] [] [] [] [] /- torchvision.transforms.functional.to_tensor -/,
  F 0x746f7263682e64697374726962757465642e6f7074696d2e44697374726962757465644f7074696d697a6572 0x47656e657269634d617463686572 0x706164646c652e64697374726962757465642e666c6565742e64697374726962757465645f6f7074696d697a6572 1 [0x6f7074696d697a65725f636c617373, 0x706172616d735f72726566, 0x2a61726773, 0x2a2a6b7761726773] [] [0x706172616d735f72726566] [(0x6f7074696d697a65725f636c617373, false, [0x6f7074696d697a6572])] [] /- torch.distributed.optim.DistributedOptimizer -/,
  F 0x746f7263682e646973747269627574696f6e732e6c6b6a5f63686f6c65736b792e4c4b4a43686f6c65736b79 0x47656e657269634d617463686572 0x706164646c652e646973747269627574696f6e2e4c4b4a43686f6c65736b79 1 [0x64696d, 0x636f6e63656e74726174696f6e, 0x76616c69646174655f61726773] [] [] [(0x76616c69646174655f61726773, false, [0])] [] /- torch.distributions.lkj_cholesky.LKJCholesky -/,
  F 0x746f7263682e646973747269627574696f6e732e7472616e73666f726d732e54616e685472616e73666f726d 0x47656e657269634d617463686572 0x706164646c652e646973747269627574696f6e2e54616e685472616e73666f726d 0 [0x63616368655f73697a65] [] [] [(0x63616368655f73697a65, false, [0])] [] /- torch.distributions.transforms.TanhTransform -/,
  E 0x746f7263682e6e6e2e617474656e74696f6e2e5f6375725f736470615f6b65726e656c5f6261636b656e6473 0x4368616e67655072656669784d617463686572 /- torch.nn.attention._cur_sdpa_kernel_backends -/,
  F 0x746f726368766973696f6e2e6d6f64656c732e476f6f674c654e65745f576569676874732e44454641554c54 0x4368616e67654150494d617463686572 0x2744454641554c5427 0 [] [] [] [] [] /- torchvision.models.GoogLeNet_Weights.DEFAULT -/,
  F 0x746f726368766973696f6e2e6d6f64656c732e5265734e65743130315f576569676874732e44454641554c54 0x4368616e67654150494d617463686572 0x2744454641554c5427 0 [] [] [] [] [] /- torchvision.models.ResNet101_Weights.DEFAULT -/,
  F 0x746f726368766973696f6e2e6d6f64656c732e5265734e65743135325f576569676874732e44454641554c54 0x4368616e67654150494d617463686572 0x2744454641554c5427 0 [] [] [] [] [] /- torchvision.models.ResNet152_Weights.DEFAULT -/,
  F 0x746f726368766973696f6e2e7472616e73666f726d732e496e746572706f6c6174696f6e4d6f64652e424f58 0x4368616e67654150494d617463686572 0x27626f7827 0 [] [] [] [] [] /- torchvision.transforms.InterpolationMode.BOX -/,
  P 0x746f726368766973696f6e2e7472616e73666f726d732e66756e6374696f6e616c2e61646a7573745f687565 0x4368616e67654150494d617463686572 0x706164646c652e766973696f6e2e7472616e73666f726d732e61646a7573745f687565 /- torchvision.transforms.functional.adjust_hue -/,
  F 0x7472616e73666f726d6572732e67656e65726174696f6e2e7574696c732e47656e65726174654f7574707574 0x4368616e67654150494d617463686572 0x706164646c65666f726d6572732e7472616e73666f726d6572732e6d6f64656c5f6f7574707574732e426173654d6f64656c4f7574707574 0 [] [] [] [] [] /- transformers.generation.utils.GenerateOutput -/,
  E 0x746f7263682e646973747269627574696f6e732e646973747269627574696f6e2e446973747269627574696f6e 0x4368616e67655072656669784d617463686572 /- torch.distributions.distribution.Distribution -/,
  F 0x746f7263682e646973747269627574696f6e732e7472616e73666f726d732e506f7765725472616e73666f726d 0x47656e657269634d617463686572 0x706164646c652e646973747269627574696f6e2e506f7765725472616e73666f726d 1 [0x6578706f6e656e74, 0x63616368655f73697a65] [] [] [(0x6578706f6e656e74, false, [0x706f776572]), (0x63616368655f73697a65, false, [0])] [] /- torch.distributions.transforms.PowerTransform -/,
  F 0x746f7263682e646973747269627574696f6e732e7472616e73666f726d732e537461636b5472616e73666f726d 0x47656e657269634d617463686572 0x706164646c652e646973747269627574696f6e2e537461636b5472616e73666f726d 1 [0x74736571, 0x64696d, 0x63616368655f73697a65] [] [] [(0x74736571, false, [0x7472616e73666f726d73]), (0x64696d, false, [0x61786973]), (0x63616368655f73697a65, false, [0])] [] /- torch.distributions.transforms.StackTransform -/,
  F 0x746f7263682e6e6e2e53796e6342617463684e6f726d2e636f6e766572745f73796e635f62617463686e6f726d 0x47656e657269634d617463686572 0x706164646c652e6e6e2e53796e6342617463684e6f726d2e636f6e766572745f73796e635f62617463686e6f726d 1 [0x6d6f64756c65, 0x70726f636573735f67726f7570] [] [0x70726f636573735f67726f7570] [(0x6d6f64756c65, false, [0x6c61796572])] [] /- torch.nn.SyncBatchNorm.convert_sync_batchnorm -/,
  E 0x746f7263682e6e6e2e617474656e74696f6e2e5344504261636b656e642e464c4153485f415454454e54494f4e 0x4368616e67655072656669784d617463686572 /- torch.nn.attention.SDPBackend.FLASH_ATTENTION -/,
  F 0x746f7263682e6e6e2e7574696c732e706172616d657472697a6174696f6e732e737065637472616c5f6e6f726d 0x47656e657269634d617463686572 0x706164646c652e6e6e2e7574696c732e737065637472616c5f6e6f726d 1 [0x6d6f64756c65, 0x6e616d65, 0x6e5f706f7765725f697465726174696f6e73, 0x657073, 0x64696d] [] [] [(0x6d6f64756c65, false, [0x6c61796572])] [] /- torch.nn.utils.parametrizations.spectral_norm -/,
  P 0x746f726368766973696f6e2e7472616e73666f726d732e66756e6374696f6e616c2e63656e7465725f63726f70 0x4368616e67654150494d617463686572 0x706164646c652e766973696f6e2e7472616e73666f726d732e63656e7465725f63726f70 /- torchvision.transforms.functional.center_crop -/,
  F 0x746f726368766973696f6e2e7472616e73666f726d732e66756e6374696f6e616c2e7065727370656374697665 0x4368616e67654150494d617463686572 0x706164646c652e766973696f6e2e7472616e73666f726d732e7065727370656374697665 0 [0x696d67, 0x7374617274706f696e7473, 0x656e64706f696e7473, 0x696e746572706f6c6174696f6e, 0x66696c6c] [] [] [] [] /- torchvision.transforms.functional.perspective -/,
  F 0x666c6173685f6174746e2e6c61796572732e726f746172792e6170706c795f726f746172795f656d625f66756e63 0x46414170706c79526f74617279456d6246756e634d617463686572 0 0 [0x78, 0x636f73, 0x73696e, 0x696e7465726c6561766564, 0x696e706c616365, 0x7365716c656e5f6f666673657473, 0x63755f7365716c656e73, 0x6d61785f7365716c656e] [] [] [] [] /- flash_attn.layers.rotary.apply_rotary_emb_func -/,
  F 0x746f7263682e6175746f677261642e66756e6374696f6e2e46756e6374696f6e4374782e6d61726b5f6469727479 0 0 0 [] [] [] [] [] /- torch.autograd.function.FunctionCtx.mark_dirty -/,
  F 0x746f7263682e646973747269627574696f6e732e7472616e73666f726d732e416666696e655472616e73666f726d 0x47656e657269634d617463686572 0x706164646c652e646973747269627574696f6e2e416666696e655472616e73666f726d 2 [0x6c6f63, 0x7363616c65, 0x6576656e745f64696d, 0x63616368655f73697a65] [] [] [(0x6576656e745f64696d, false, [0]), (0x63616368655f73697a65, false, [0])] [] /- torch.distributions.transforms.AffineTransform -/,
  E 0x746f7263682e6e6e2e6d6f64756c65732e6c6f73732e4d756c74694c6162656c536f66744d617267696e4c6f7373 0x4368616e67655072656669784d617463686572 /- torch.nn.modules.loss.MultiLabelSoftMarginLoss -/,
  F 0x746f726368766973696f6e2e6d6f64656c732e44656e73654e65743132315f576569676874732e44454641554c54 0x4368616e67654150494d617463686572 0x2744454641554c5427 0 [] [] [] [] [] /- torchvision.models.DenseNet121_Weights.DEFAULT -/,
  F 0x746f726368766973696f6e2e6d6f64656c732e44656e73654e65743136315f576569676874732e44454641554c54 0x4368616e67654150494d617463686572 0x2744454641554c5427 0 [] [] [] [] [] /- torchvision.models.DenseNet161_Weights.DEFAULT -/,
  F 0x746f726368766973696f6e2e6d6f64656c732e44656e73654e65743136395f576569676874732e44454641554c54 0x4368616e67654150494d617463686572 0x2744454641554c5427 0 [] [] [] [] [] /- torchvision.models.DenseNet169_Weights.DEFAULT -/,
  F 0x746f726368766973696f6e2e6d6f64656c732e44656e73654e65743230315f576569676874732e44454641554c54 0x4368616e67654150494d617463686572 0x2744454641554c5427 0 [] [] [] [] [] /- torchvision.models.DenseNet201_Weights.DEFAULT -/,
  F 0x746f726368766973696f6e2e6d6f64656c732e56474731315f576569676874732e494d4147454e4554314b5f5631 0x4368616e67654150494d617463686572 0x27494d4147454e4554314b5f563127 0 [] [] [] [] [] /- torchvision.models.VGG11_Weights.IMAGENET1K_V1 -/,
  F 0x746f726368766973696f6e2e6d6f64656c732e56474731335f576569676874732e494d4147454e4554314b5f5631 0x4368616e67654150494d617463686572 0x27494d4147454e4554314b5f563127 0 [] [] [] [] [] /- torchvision.models.VGG13_Weights.IMAGENET1K_V1 -/,
  F 0x746f726368766973696f6e2e6d6f64656c732e56474731365f576569676874732e494d4147454e4554314b5f5631 0x4368616e67654150494d617463686572 0x27494d4147454e4554314b5f563127 0 [] [] [] [] [] /- torchvision.models.VGG16_Weights.IMAGENET1K_V1 -/,
  F 0x746f726368766973696f6e2e6d6f64656c732e56474731395f576569676874732e494d4147454e4554314b5f5631 0x4368616e67654150494d617463686572 0x27494d4147454e4554314b5f563127 0 [] [] [] [] [] /- torchvision.models.VGG19_Weights.IMAGENET1K_V1 -/,
  P 0x746f726368766973696f6e2e7472616e73666f726d732e66756e6374696f6e616c2e746f5f677261797363616c65 0x4368616e67654150494d617463686572 0x706164646c652e766973696f6e2e7472616e73666f726d732e746f5f677261797363616c65 /- torchvision.transforms.functional.to_grayscale -/,
  F 0x666c6173685f6174746e2e666c6173685f6174746e5f696e746572666163652e666c6173685f6174746e5f66756e63 0x4641466c6173684174746e46756e634d617463686572 0x706164646c652e6e6e2e66756e6374696f6e616c2e666c6173685f617474656e74696f6e2e666c6173685f617474656e74696f6e 0 [0x71, 0x6b, 0x76, 0x64726f706f75745f70, 0x736f66746d61785f7363616c65, 0x63617573616c, 0x77696e646f775f73697a65, 0x736f6674636170, 0x616c6962695f736c6f706573, 0x64657465726d696e6973746963, 0x72657475726e5f6174746e5f70726f6273] [] [0x736f66746d61785f7363616c65, 0x77696e646f775f73697a65, 0x736f6674636170, 0x616c6962695f736c6f706573, 0x64657465726d696e6973746963] [(0x71, false, [0x7175657279]), (0x6b, false, [0x6b6579]), (0x76, false, [0x76616c7565]), (0x64726f706f75745f70, false, [0x64726f706f7574]), (0x72657475726e5f6174746e5f70726f6273, false, [0x72657475726e5f736f66746d6178])] [] /- flash_attn.flash_attn_interface.flash_attn_func -/,
  E 0x746f7263682e54656e736f722e72656769737465725f706f73745f616363756d756c6174655f677261645f686f6f6b 0 /- torch.Tensor.register_post_accumulate_grad_hook -/,
  F 0x746f7263682e646973747269627574696f6e732e7472616e73666f726d732e436f6d706f73655472616e73666f726d 0x47656e657269634d617463686572 0x706164646c652e646973747269627574696f6e2e436861696e5472616e73666f726d 1 [0x7061727473, 0x63616368655f73697a65] [] [] [(0x7061727473, false, [0x7472616e73666f726d73]), (0x63616368655f73697a65, false, [0])] [] /- torch.distributions.transforms.ComposeTransform -/,
  F 0x746f7263682e646973747269627574696f6e732e7472616e73666f726d732e526573686170655472616e73666f726d 0x47656e657269634d617463686572 0x706164646c652e646973747269627574696f6e2e526573686170655472616e73666f726d 2 [0x696e5f7368617065, 0x6f75745f7368617065, 0x63616368655f73697a65] [] [] [(0x696e5f7368617065, false, [0x696e5f6576656e745f7368617065]), (0x6f75745f7368617065, false, [0x6f75745f6576656e745f7368617065]), (0x63616368655f73697a65, false, [0])] [] /- torch.distributions.transforms.ReshapeTransform -/,
  F 0x746f7263682e646973747269627574696f6e732e7472616e73666f726d732e5369676d6f69645472616e73666f726d 0x47656e657269634d617463686572 0x706164646c652e646973747269627574696f6e2e5369676d6f69645472616e73666f726d 0 [0x63616368655f73697a65] [] [] [(0x63616368655f73697a65, false, [0])] [] /- torch.distributions.transforms.SigmoidTransform -/,
  F 0x746f7263682e646973747269627574696f6e732e7472616e73666f726d732e536f66746d61785472616e73666f726d 0x47656e657269634d617463686572 0x706164646c652e646973747269627574696f6e2e536f66746d61785472616e73666f726d 0 [0x63616368655f73697a65] [] [] [(0x63616368655f73697a65, false, [0])] [] /- torch.distributions.transforms.SoftmaxTransform -/,
  F 0x746f7263682e6e6e2e4d6f64756c652e72656769737465725f66756c6c5f6261636b776172645f7072655f686f6f6b 0 0 1 [] [] [] [] [] /- torch.nn.Module.register_full_backward_pre_hook -/,
  E 0x746f7263682e6e6e2e66756e6374696f6e616c2e6d756c74696c6162656c5f736f66745f6d617267696e5f6c6f7373 0x4368616e67655072656669784d617463686572 /- torch.nn.functional.multilabel_soft_margin_loss -/,
  E 0x746f7263682e7574696c732e646174612e5f7574696c732e636f6c6c6174652e64656661756c745f636f6c6c617465 0x4368616e67655072656669784d617463686572 /- torch.utils.data._utils.collate.default_collate -/,
  E 0x746f7263682e7574696c732e646174612e64697374726962757465642e446973747269627574656453616d706c6572 0x4368616e67655072656669784d617463686572 /- torch.utils.data.distributed.DistributedSampler -/,
  F 0x746f726368766973696f6e2e6d6f64656c732e496e63657074696f6e5f56335f576569676874732e44454641554c54 0x4368616e67654150494d617463686572 0x2744454641554c5427 0 [] [] [] [] [] /- torchvision.models.Inception_V3_Weights.DEFAULT -/,
  F 0x746f726368766973696f6e2e6d6f64656c732e4d6f62696c654e65745f56325f576569676874732e44454641554c54 0x4368616e67654150494d617463686572 0x2744454641554c5427 0 [] [] [] [] [] /- torchvision.models.MobileNet_V2_Weights.DEFAULT -/,
  F 0x746f7263682e646973747269627574696f6e732e6578705f66616d696c792e4578706f6e656e7469616c46616d696c79 0x47656e657269634d617463686572 0x706164646c652e646973747269627574696f6e2e4578706f6e656e7469616c46616d696c79 0 [0x62617463685f7368617065, 0x6576656e745f7368617065, 0x76616c69646174655f61726773] [] [] [(0x76616c69646174655f61726773, false, [0])] [] /- torch.distributions.exp_family.ExponentialFamily -/,
  P 0x746f7263682e6e6e2e66756e6374696f6e616c2e7363616c65645f646f745f70726f647563745f617474656e74696f6e 0x4368616e67654150494d617463686572 0x706164646c652e636f6d7061742e6e6e2e66756e6374696f6e616c2e7363616c65645f646f745f70726f647563745f617474656e74696f6e /- torch.nn.functional.scaled_dot_product_attention -/,
  F 0x746f726368766973696f6e2e6d6f64656c732e416c65784e65745f576569676874732e494d4147454e4554314b5f5631 0x4368616e67654150494d617463686572 0x27494d4147454e4554314b5f563127 0 [] [] [] [] [] /- torchvision.models.AlexNet_Weights.IMAGENET1K_V1 -/,
  F 0x746f726368766973696f6e2e6d6f64656c732e53717565657a654e6574315f305f576569676874732e44454641554c54 0x4368616e67654150494d617463686572 0x2744454641554c5427 0 [] [] [] [] [] /- torchvision.models.SqueezeNet1_0_Weights.DEFAULT -/,
  F 0x746f726368766973696f6e2e6d6f64656c732e53717565657a654e6574315f315f576569676874732e44454641554c54 0x4368616e67654150494d617463686572 0x2744454641554c5427 0 [] [] [] [] [] /- torchvision.models.SqueezeNet1_1_Weights.DEFAULT -/,
  F 0x746f726368766973696f6e2e7472616e73666f726d732e496e746572706f6c6174696f6e4d6f64652e42494355424943 0x4368616e67654150494d617463686572 0x276269637562696327 0 [] [] [] [] [] /- torchvision.transforms.InterpolationMode.BICUBIC -/,
  F 0x746f726368766973696f6e2e7472616e73666f726d732e496e746572706f6c6174696f6e4d6f64652e48414d4d494e47 0x4368616e67654150494d617463686572 0x2768616d6d696e6727 0 [] [] [] [] [] /- torchvision.transforms.InterpolationMode.HAMMING -/]

def apiTable32 : List Raw := [
  F 0x746f726368766973696f6e2e7472616e73666f726d732e496e746572706f6c6174696f6e4d6f64652e4c414e435a4f53 0x4368616e67654150494d617463686572 0x276c616e637a6f7327 0 [] [] [] [] [] /- torchvision.transforms.InterpolationMode.LANCZOS -/,
  F 0x746f726368766973696f6e2e7472616e73666f726d732e496e746572706f6c6174696f6e4d6f64652e4e454152455354 0x4368616e67654150494d617463686572 0x276e65617265737427 0 [] [] [] [] [] /- torchvision.transforms.InterpolationMode.NEAREST -/,
  F 0x746f7263682e646973747269627574696f6e732e646973747269627574696f6e2e446973747269627574696f6e2e636466 0x4368616e67655072656669784d617463686572 0 1 [] [] [] [] [] /- torch.distributions.distribution.Distribution.cdf -/,
  E 0x746f7263682e6e6e2e617474656e74696f6e2e5344504261636b656e642e454646494349454e545f415454454e54494f4e 0x4368616e67655072656669784d617463686572 /- torch.nn.attention.SDPBackend.EFFICIENT_ATTENTION -/,
  F 0x746f726368766973696f6e2e6d6f64656c732e5265734e657431385f576569676874732e494d4147454e4554314b5f5631 0x4368616e67654150494d617463686572 0x27494d4147454e4554314b5f563127 0 [] [] [] [] [] /- torchvision.models.ResNet18_Weights.IMAGENET1K_V1 -/,
  F 0x746f726368766973696f6e2e6d6f64656c732e5265734e657433345f576569676874732e494d4147454e4554314b5f5631 0x4368616e67654150494d617463686572 0x27494d4147454e4554314b5f563127 0 [] [] [] [] [] /- torchvision.models.ResNet34_Weights.IMAGENET1K_V1 -/,
  F 0x746f726368766973696f6e2e6d6f64656c732e5265734e657435305f576569676874732e494d4147454e4554314b5f5631 0x4368616e67654150494d617463686572 0x27494d4147454e4554314b5f563127 0 [] [] [] [] [] /- torchvision.models.ResNet50_Weights.IMAGENET1K_V1 -/,
  F 0x746f726368766973696f6e2e6d6f64656c732e5265734e657435305f576569676874732e494d4147454e4554314b5f5632 0x4368616e67654150494d617463686572 0x27494d4147454e4554314b5f563227 0 [] [] [] [] [] /- torchvision.models.ResNet50_Weights.IMAGENET1K_V2 -/,
  F 0x746f726368766973696f6e2e6d6f64656c732e56474731315f424e5f576569676874732e494d4147454e4554314b5f5631 0x4368616e67654150494d617463686572 0x27494d4147454e4554314b5f563127 0 [] [] [] [] [] /- torchvision.models.VGG11_BN_Weights.IMAGENET1K_V1 -/,
  F 0x746f726368766973696f6e2e6d6f64656c732e56474731335f424e5f576569676874732e494d4147454e4554314b5f5631 0x4368616e67654150494d617463686572 0x27494d4147454e4554314b5f563127 0 [] [] [] [] [] /- torchvision.models.VGG13_BN_Weights.IMAGENET1K_V1 -/,
  F 0x746f726368766973696f6e2e6d6f64656c732e56474731365f424e5f576569676874732e494d4147454e4554314b5f5631 0x4368616e67654150494d617463686572 0x27494d4147454e4554314b5f563127 0 [] [] [] [] [] /- torchvision.models.VGG16_BN_Weights.IMAGENET1K_V1 -/,
  F 0x746f726368766973696f6e2e6d6f64656c732e56474731395f424e5f576569676874732e494d4147454e4554314b5f5631 0x4368616e67654150494d617463686572 0x27494d4147454e4554314b5f563127 0 [] [] [] [] [] /- torchvision.models.VGG19_BN_Weights.IMAGENET1K_V1 -/,
  F 0x746f726368766973696f6e2e7472616e73666f726d732e496e746572706f6c6174696f6e4d6f64652e42494c494e454152 0x4368616e67654150494d617463686572 0x2762696c696e65617227 0 [] [] [] [] [] /- torchvision.transforms.InterpolationMode.BILINEAR -/,
  P 0x746f726368766973696f6e2e7472616e73666f726d732e66756e6374696f6e616c2e61646a7573745f636f6e7472617374 0x4368616e67654150494d617463686572 0x706164646c652e766973696f6e2e7472616e73666f726d732e61646a7573745f636f6e7472617374 /- torchvision.transforms.functional.adjust_contrast -/,
  F 0x746f7263682e646973747269627574696f6e732e646973747269627574696f6e2e446973747269627574696f6e2e69636466 0x4368616e67655072656669784d617463686572 0 1 [] [] [] [] [] /- torch.distributions.distribution.Distribution.icdf -/,
  F 0x746f7263682e6e6e2e4d6f64756c652e72656769737465725f6c6f61645f73746174655f646963745f706f73745f686f6f6b 0 0 1 [] [] [] [] [] /- torch.nn.Module.register_load_state_dict_post_hook -/,
  F 0x746f726368766973696f6e2e6d6f64656c732e476f6f674c654e65745f576569676874732e494d4147454e4554314b5f5631 0x4368616e67654150494d617463686572 0x27494d4147454e4554314b5f563127 0 [] [] [] [] [] /- torchvision.models.GoogLeNet_Weights.IMAGENET1K_V1 -/,
  F 0x746f726368766973696f6e2e6d6f64656c732e5265734e65587435305f33325834445f576569676874732e44454641554c54 0x4368616e67654150494d617463686572 0x2744454641554c5427 0 [] [] [] [] [] /- torchvision.models.ResNeXt50_32X4D_Weights.DEFAULT -/,
  F 0x746f726368766973696f6e2e6d6f64656c732e5265734e65743130315f576569676874732e494d4147454e4554314b5f5631 0x4368616e67654150494d617463686572 0x27494d4147454e4554314b5f563127 0 [] [] [] [] [] /- torchvision.models.ResNet101_Weights.IMAGENET1K_V1 -/,
  F 0x746f726368766973696f6e2e6d6f64656c732e5265734e65743130315f576569676874732e494d4147454e4554314b5f5632 0x4368616e67654150494d617463686572 0x27494d4147454e4554314b5f563227 0 [] [] [] [] [] /- torchvision.models.ResNet101_Weights.IMAGENET1K_V2 -/,
  F 0x746f726368766973696f6e2e6d6f64656c732e5265734e65743135325f576569676874732e494d4147454e4554314b5f5631 0x4368616e67654150494d617463686572 0x27494d4147454e4554314b5f563127 0 [] [] [] [] [] /- torchvision.models.ResNet152_Weights.IMAGENET1K_V1 -/,
  F 0x746f726368766973696f6e2e6d6f64656c732e5265734e65743135325f576569676874732e494d4147454e4554314b5f5632 0x4368616e67654150494d617463686572 0x27494d4147454e4554314b5f563227 0 [] [] [] [] [] /- torchvision.models.ResNet152_Weights.IMAGENET1K_V2 -/,
  F 0x746f726368766973696f6e2e6d6f64656c732e576964655f5265734e657435305f325f576569676874732e44454641554c54 0x4368616e67654150494d617463686572 0x2744454641554c5427 0 [] [] [] [] [] /- torchvision.models.Wide_ResNet50_2_Weights.DEFAULT -/,
  F 0x746f7263682e6175746f677261642e70726f66696c65722e70726f66696c652e6578706f72745f6368726f6d655f7472616365 0x47656e657269634d617463686572 0x706164646c652e70726f66696c65722e6578706f72745f6368726f6d655f74726163696e67 1 [0x70617468] [] [] [(0x70617468, false, [0x6469725f6e616d65])] [] /- torch.autograd.profiler.profile.export_chrome_trace -/,
  F 0x746f7263682e646973747269627574696f6e732e7472616e73666f726d732e496e646570656e64656e745472616e73666f726d 0x47656e657269634d617463686572 0x706164646c652e646973747269627574696f6e2e496e646570656e64656e745472616e73666f726d 2 [0x626173655f7472616e73666f726d, 0x7265696e7465727072657465645f62617463685f6e64696d73, 0x63616368655f73697a65] [] [] [(0x626173655f7472616e73666f726d, false, [0x62617365]), (0x7265696e7465727072657465645f62617463685f6e64696d73, false, [0x7265696e7465727072657465645f62617463685f72616e6b]), (0x63616368655f73697a65, false, [0])] [] /- torch.distributions.transforms.IndependentTransform -/,
  E 0x746f7263682e6e6e2e6d6f64756c65732e6c6f73732e547269706c65744d617267696e5769746844697374616e63654c6f7373 0x4368616e67655072656669784d617463686572 /- torch.nn.modules.loss.TripletMarginWithDistanceLoss -/,
  F 0x746f726368766973696f6e2e6d6f64656c732e576964655f5265734e65743130315f325f576569676874732e44454641554c54 0x4368616e67654150494d617463686572 0x2744454641554c5427 0 [] [] [] [] [] /- torchvision.models.Wide_ResNet101_2_Weights.DEFAULT -/,
  P 0x746f726368766973696f6e2e7472616e73666f726d732e66756e6374696f6e616c2e61646a7573745f6272696768746e657373 0x4368616e67654150494d617463686572 0x706164646c652e766973696f6e2e7472616e73666f726d732e61646a7573745f6272696768746e657373 /- torchvision.transforms.functional.adjust_brightness -/,
  F 0x666169727363616c652e6e6e2e6d6f64656c5f706172616c6c656c2e6c61796572732e506172616c6c656c456d62656464696e67 0x4653506172616c6c656c456d62656464696e674d617463686572 0x706164646c652e64697374726962757465642e666c6565742e6d6574615f706172616c6c656c2e566f636162506172616c6c656c456d62656464696e67 0 [0x6e756d5f656d62656464696e6773, 0x656d62656464696e675f64696d, 0x70616464696e675f696478, 0x6d61785f6e6f726d, 0x6e6f726d5f74797065, 0x7363616c655f677261645f62795f66726571, 0x737061727365, 0x696e69745f6d6574686f64, 0x6b6565705f6d61737465725f7765696768745f666f725f74657374] [] [0x70616464696e675f696478, 0x6e6f726d5f74797065, 0x7363616c655f677261645f62795f66726571, 0x737061727365, 0x6d61785f6e6f726d] [(0x696e69745f6d6574686f64, false, [0]), (0x6b6565705f6d61737465725f7765696768745f666f725f74657374, false, [0])] [] /- fairscale.nn.model_parallel.layers.ParallelEmbedding -/,
  F 0x666169727363616c652e6e6e2e6d6f64656c5f706172616c6c656c2e6c61796572732e526f77506172616c6c656c4c696e656172 0x47656e657269634d617463686572 0x706164646c652e64697374726962757465642e666c6565742e6d6574615f706172616c6c656c2e526f77506172616c6c656c4c696e656172 0 [0x696e5f6665617475726573, 0x6f75745f6665617475726573, 0x62696173, 0x696e7075745f69735f706172616c6c656c, 0x696e69745f6d6574686f64, 0x737472696465, 0x6b6565705f6d61737465725f7765696768745f666f725f74657374] [] [0x737472696465] [(0x62696173, false, [0x6861735f62696173]), (0x696e69745f6d6574686f64, false, [0]), (0x6b6565705f6d61737465725f7765696768745f666f725f74657374, false, [0])] [(0x6861735f62696173, 0x54727565)] /- fairscale.nn.model_parallel.layers.RowParallelLinear -/,
  F 0x746f7263682e6175746f677261642e66756e6374696f6e2e46756e6374696f6e4374782e736176655f666f725f666f7277617264 0 0 0 [] [] [] [] [] /- torch.autograd.function.FunctionCtx.save_for_forward -/,
  F 0x746f7263682e646973747269627574696f6e732e646973747269627574696f6e2e446973747269627574696f6e2e657870616e64 0 0 1 [] [] [] [] [] /- torch.distributions.distribution.Distribution.expand -/,
  F 0x746f7263682e646973747269627574696f6e732e646973747269627574696f6e2e446973747269627574696f6e2e73616d706c65 0x4368616e67655072656669784d617463686572 0 0 [] [] [] [] [] /- torch.distributions.distribution.Distribution.sample -/,
  E 0x746f7263682e6e6e2e66756e6374696f6e616c2e62696e6172795f63726f73735f656e74726f70795f776974685f6c6f67697473 0x4368616e67655072656669784d617463686572 /- torch.nn.functional.binary_cross_entropy_with_logits -/,
  E 0x746f7263682e6f7074696d2e6c725f7363686564756c65722e436f73696e65416e6e65616c696e675761726d5265737461727473 0x4368616e67655072656669784d617463686572 /- torch.optim.lr_scheduler.CosineAnnealingWarmRestarts -/,
  F 0x746f726368766973696f6e2e6d6f64656c732e44656e73654e65743132315f576569676874732e494d4147454e4554314b5f5631 0x4368616e67654150494d617463686572 0x27494d4147454e4554314b5f563127 0 [] [] [] [] [] /- torchvision.models.DenseNet121_Weights.IMAGENET1K_V1 -/,
  F 0x746f726368766973696f6e2e6d6f64656c732e44656e73654e65743136315f576569676874732e494d4147454e4554314b5f5631 0x4368616e67654150494d617463686572 0x27494d4147454e4554314b5f563127 0 [] [] [] [] [] /- torchvision.models.DenseNet161_Weights.IMAGENET1K_V1 -/,
  F 0x746f726368766973696f6e2e6d6f64656c732e44656e73654e65743136395f576569676874732e494d4147454e4554314b5f5631 0x4368616e67654150494d617463686572 0x27494d4147454e4554314b5f563127 0 [] [] [] [] [] /- torchvision.models.DenseNet169_Weights.IMAGENET1K_V1 -/,
  F 0x746f726368766973696f6e2e6d6f64656c732e44656e73654e65743230315f576569676874732e494d4147454e4554314b5f5631 0x4368616e67654150494d617463686572 0x27494d4147454e4554314b5f563127 0 [] [] [] [] [] /- torchvision.models.DenseNet201_Weights.IMAGENET1K_V1 -/,
  F 0x746f726368766973696f6e2e6d6f64656c732e56474731365f576569676874732e494d4147454e4554314b5f4645415455524553 0x4368616e67654150494d617463686572 0x27494d4147454e4554314b5f464541545552455327 0 [] [] [] [] [] /- torchvision.models.VGG16_Weights.IMAGENET1K_FEATURES -/,
  F 0x7472616e73666f726d6572732e6d6f64656c696e675f6f7574707574732e43617573616c4c4d4f75747075745769746850617374 0x4368616e67654150494d617463686572 0x706164646c65666f726d6572732e7472616e73666f726d6572732e6d6f64656c5f6f7574707574732e43617573616c4c4d4f75747075745769746850617374 0 [0x6c6f7373, 0x6c6f67697473, 0x706173745f6b65795f76616c756573, 0x68696464656e5f737461746573, 0x617474656e74696f6e73] [] [] [] [] /- transformers.modeling_outputs.CausalLMOutputWithPast -/,
  E 0x746f7263682e6175746f677261642e66756e6374696f6e2e46756e6374696f6e4374782e736176655f666f725f6261636b77617264 0x4368616e67655072656669784d617463686572 /- torch.autograd.function.FunctionCtx.save_for_backward -/,
  F 0x746f7263682e646973747269627574696f6e732e646973747269627574696f6e2e446973747269627574696f6e2e656e74726f7079 0x4368616e67655072656669784d617463686572 0 0 [] [] [] [] [] /- torch.distributions.distribution.Distribution.entropy -/,
  F 0x746f7263682e646973747269627574696f6e732e646973747269627574696f6e2e446973747269627574696f6e2e7273616d706c65 0x4368616e67655072656669784d617463686572 0 0 [] [] [] [] [] /- torch.distributions.distribution.Distribution.rsample -/,
  F 0x746f7263682e646973747269627574696f6e732e7472616e73666f726d732e537469636b427265616b696e675472616e73666f726d 0x47656e657269634d617463686572 0x706164646c652e646973747269627574696f6e2e537469636b427265616b696e675472616e73666f726d 0 [0x63616368655f73697a65] [] [] [(0x63616368655f73697a65, false, [0])] [] /- torch.distributions.transforms.StickBreakingTransform -/,
  E 0x746f7263682e6e6e2e66756e6374696f6e616c2e747269706c65745f6d617267696e5f776974685f64697374616e63655f6c6f7373 0x4368616e67655072656669784d617463686572 /- torch.nn.functional.triplet_margin_with_distance_loss -/,
  F 0x746f726368766973696f6e2e6d6f64656c732e496e63657074696f6e5f56335f576569676874732e494d4147454e4554314b5f5631 0x4368616e67654150494d617463686572 0x27494d4147454e4554314b5f563127 0 [] [] [] [] [] /- torchvision.models.Inception_V3_Weights.IMAGENET1K_V1 -/,
  F 0x746f726368766973696f6e2e6d6f64656c732e4d6f62696c654e65745f56325f576569676874732e494d4147454e4554314b5f5631 0x4368616e67654150494d617463686572 0x27494d4147454e4554314b5f563127 0 [] [] [] [] [] /- torchvision.models.MobileNet_V2_Weights.IMAGENET1K_V1 -/,
  F 0x746f726368766973696f6e2e6d6f64656c732e4d6f62696c654e65745f56325f576569676874732e494d4147454e4554314b5f5632 0x4368616e67654150494d617463686572 0x27494d4147454e4554314b5f563227 0 [] [] [] [] [] /- torchvision.models.MobileNet_V2_Weights.IMAGENET1K_V2 -/,
  F 0x746f726368766973696f6e2e6d6f64656c732e4d6f62696c654e65745f56335f4c617267655f576569676874732e44454641554c54 0x4368616e67654150494d617463686572 0x2744454641554c5427 0 [] [] [] [] [] /- torchvision.models.MobileNet_V3_Large_Weights.DEFAULT -/,
  F 0x746f726368766973696f6e2e6d6f64656c732e4d6f62696c654e65745f56335f536d616c6c5f576569676874732e44454641554c54 0x4368616e67654150494d617463686572 0x2744454641554c5427 0 [] [] [] [] [] /- torchvision.models.MobileNet_V3_Small_Weights.DEFAULT -/,
  F 0x746f726368766973696f6e2e6d6f64656c732e53687566666c654e65745f56325f58305f355f576569676874732e44454641554c54 0x4368616e67654150494d617463686572 0x2744454641554c5427 0 [] [] [] [] [] /- torchvision.models.ShuffleNet_V2_X0_5_Weights.DEFAULT -/,
  F 0x746f726368766973696f6e2e6d6f64656c732e53687566666c654e65745f56325f58315f305f576569676874732e44454641554c54 0x4368616e67654150494d617463686572 0x2744454641554c5427 0 [] [] [] [] [] /- torchvision.models.ShuffleNet_V2_X1_0_Weights.DEFAULT -/,
  F 0x746f726368766973696f6e2e6d6f64656c732e53687566666c654e65745f56325f58315f355f576569676874732e44454641554c54 0x4368616e67654150494d617463686572 0x2744454641554c5427 0 [] [] [] [] [] /- torchvision.models.ShuffleNet_V2_X1_5_Weights.DEFAULT -/,
  F 0x746f726368766973696f6e2e6d6f64656c732e53687566666c654e65745f56325f58325f305f576569676874732e44454641554c54 0x4368616e67654150494d617463686572 0x2744454641554c5427 0 [] [] [] [] [] /- torchvision.models.ShuffleNet_V2_X2_0_Weights.DEFAULT -/,
  F 0x7472616e73666f726d6572732e6d6f64656c696e675f6f7574707574732e426173654d6f64656c4f75747075745769746850617374 0x4368616e67654150494d617463686572 0x706164646c65666f726d6572732e7472616e73666f726d6572732e6d6f64656c5f6f7574707574732e426173654d6f64656c4f75747075745769746850617374 0 [0x6c6173745f68696464656e5f7374617465, 0x706173745f6b65795f76616c756573, 0x68696464656e5f737461746573, 0x617474656e74696f6e73] [] [] [] [] /- transformers.modeling_outputs.BaseModelOutputWithPast -/,
  F 0x746f7263682e646973747269627574696f6e732e646973747269627574696f6e2e446973747269627574696f6e2e6c6f675f70726f62 0x4368616e67655072656669784d617463686572 0 1 [] [] [] [] [] /- torch.distributions.distribution.Distribution.log_prob -/,
  F 0x746f7263682e646973747269627574696f6e732e646973747269627574696f6e2e446973747269627574696f6e2e73616d706c655f6e 0x4368616e67655072656669784d617463686572 0 1 [] [] [] [] [] /- torch.distributions.distribution.Distribution.sample_n -/,
  F 0x746f726368766973696f6e2e6d6f64656c732e53717565657a654e6574315f305f576569676874732e494d4147454e4554314b5f5631 0x4368616e67654150494d617463686572 0x27494d4147454e4554314b5f563127 0 [] [] [] [] [] /- torchvision.models.SqueezeNet1_0_Weights.IMAGENET1K_V1 -/,
  F 0x746f726368766973696f6e2e6d6f64656c732e53717565657a654e6574315f315f576569676874732e494d4147454e4554314b5f5631 0x4368616e67654150494d617463686572 0x27494d4147454e4554314b5f563127 0 [] [] [] [] [] /- torchvision.models.SqueezeNet1_1_Weights.IMAGENET1K_V1 -/]

def apiTable33 : List Raw := [
  F 0x746f726368766973696f6e2e7472616e73666f726d732e496e746572706f6c6174696f6e4d6f64652e4e4541524553545f4558414354 0x4368616e67654150494d617463686572 0x276e6561726573745f657861637427 0 [] [] [] [] [] /- torchvision.transforms.InterpolationMode.NEAREST_EXACT -/,
  F 0x666169727363616c652e6e6e2e6d6f64656c5f706172616c6c656c2e6c61796572732e436f6c756d6e506172616c6c656c4c696e656172 0x47656e657269634d617463686572 0x706164646c652e64697374726962757465642e666c6565742e6d6574615f706172616c6c656c2e436f6c756d6e506172616c6c656c4c696e656172 0 [0x696e5f6665617475726573, 0x6f75745f6665617475726573, 0x62696173, 0x6761746865725f6f7574707574, 0x696e69745f6d6574686f64, 0x737472696465, 0x6b6565705f6d61737465725f7765696768745f666f725f74657374] [] [0x737472696465] [(0x62696173, false, [0x6861735f62696173]), (0x696e69745f6d6574686f64, false, [0]), (0x6b6565705f6d61737465725f7765696768745f666f725f74657374, false, [0])] [(0x6861735f62696173, 0x54727565)] /- fairscale.nn.model_parallel.layers.ColumnParallelLinear -/,
  F 0x746f7263682e6175746f677261642e66756e6374696f6e2e46756e6374696f6e4374782e6d61726b5f7368617265645f73746f72616765 0 0 0 [] [] [] [] [] /- torch.autograd.function.FunctionCtx.mark_shared_storage -/,
  E 0x746f7263682e646973747269627574696f6e732e636f6e73747261696e74732e706f7369746976655f646566696e6974652e636865636b 0x4368616e67655072656669784d617463686572 /- torch.distributions.constraints.positive_definite.check -/,
  F 0x666c6173685f6174746e2e666c6173685f6174746e5f696e746572666163652e666c6173685f6174746e5f756e7061646465645f66756e63 0x4641466c6173684174746e556e70616464656446756e634d617463686572 0x706164646c652e6e6e2e66756e6374696f6e616c2e666c6173685f617474656e74696f6e2e666c6173685f6174746e5f756e706164646564 0 [0x71, 0x6b, 0x76, 0x63755f7365716c656e735f71, 0x63755f7365716c656e735f6b, 0x6d61785f7365716c656e5f71, 0x6d61785f7365716c656e5f6b, 0x64726f706f75745f70, 0x736f66746d61785f7363616c65, 0x63617573616c, 0x77696e646f775f73697a65, 0x736f6674636170, 0x616c6962695f736c6f706573, 0x64657465726d696e6973746963, 0x72657475726e5f6174746e5f70726f6273, 0x626c6f636b5f7461626c65] [] [0x77696e646f775f73697a65, 0x736f6674636170, 0x616c6962695f736c6f706573, 0x64657465726d696e6973746963, 0x626c6f636b5f7461626c65] [(0x71, false, [0x7175657279]), (0x6b, false, [0x6b6579]), (0x76, false, [0x76616c7565]), (0x64726f706f75745f70, false, [0x64726f706f7574]), (0x736f66746d61785f7363616c65, false, [0x7363616c65]), (0x72657475726e5f6174746e5f70726f6273, false, [0x72657475726e5f736f66746d6178])] [] /- flash_attn.flash_attn_interface.flash_attn_unpadded_func -/,
  F 0x746f7263682e646973747269627574696f6e732e646973747269627574696f6e2e446973747269627574696f6e2e706572706c6578697479 0x4368616e67655072656669784d617463686572 0 0 [] [] [] [] [] /- torch.distributions.distribution.Distribution.perplexity -/,
  F 0x746f7263682e646973747269627574696f6e732e7472616e73666f726d732e506f736974697665446566696e6974655472616e73666f726d 0x5472616e73666f726d73506f736974697665446566696e6974655472616e73666f726d4d617463686572 0 0 [0x63616368655f73697a65] [] [] [(0x63616368655f73697a65, false, [0])] [] /- torch.distributions.transforms.PositiveDefiniteTransform -/,
  F 0x746f726368766973696f6e2e6d6f64656c732e5265734e65587435305f33325834445f576569676874732e494d4147454e4554314b5f5631 0x4368616e67654150494d617463686572 0x27494d4147454e4554314b5f563127 0 [] [] [] [] [] /- torchvision.models.ResNeXt50_32X4D_Weights.IMAGENET1K_V1 -/,
  F 0x746f726368766973696f6e2e6d6f64656c732e5265734e65587435305f33325834445f576569676874732e494d4147454e4554314b5f5632 0x4368616e67654150494d617463686572 0x27494d4147454e4554314b5f563227 0 [] [] [] [] [] /- torchvision.models.ResNeXt50_32X4D_Weights.IMAGENET1K_V2 -/,
  F 0x746f726368766973696f6e2e6d6f64656c732e576964655f5265734e657435305f325f576569676874732e494d4147454e4554314b5f5631 0x4368616e67654150494d617463686572 0x27494d4147454e4554314b5f563127 0 [] [] [] [] [] /- torchvision.models.Wide_ResNet50_2_Weights.IMAGENET1K_V1 -/,
  F 0x746f726368766973696f6e2e6d6f64656c732e576964655f5265734e657435305f325f576569676874732e494d4147454e4554314b5f5632 0x4368616e67654150494d617463686572 0x27494d4147454e4554314b5f563227 0 [] [] [] [] [] /- torchvision.models.Wide_ResNet50_2_Weights.IMAGENET1K_V2 -/,
  F 0x7472616e73666f726d6572732e7574696c732e6164645f73746172745f646f63737472696e67735f746f5f6d6f64656c5f666f7277617264 0x4368616e67654150494d617463686572 0x706164646c65666f726d6572732e747261696e65722e7574696c732e6164645f73746172745f646f63737472696e67735f746f5f6d6f64656c5f666f7277617264 0 [0x2a646f63737472] [] [] [] [] /- transformers.utils.add_start_docstrings_to_model_forward -/,
  E 0x746f7263682e6175746f677261642e66756e6374696f6e2e46756e6374696f6e4374782e7365745f6d6174657269616c697a655f6772616473 0x4368616e67655072656669784d617463686572 /- torch.autograd.function.FunctionCtx.set_materialize_grads -/,
  F 0x746f726368766973696f6e2e6d6f64656c732e576964655f5265734e65743130315f325f576569676874732e494d4147454e4554314b5f5631 0x4368616e67654150494d617463686572 0x27494d4147454e4554314b5f563127 0 [] [] [] [] [] /- torchvision.models.Wide_ResNet101_2_Weights.IMAGENET1K_V1 -/,
  F 0x746f726368766973696f6e2e6d6f64656c732e576964655f5265734e65743130315f325f576569676874732e494d4147454e4554314b5f5632 0x4368616e67654150494d617463686572 0x27494d4147454e4554314b5f563227 0 [] [] [] [] [] /- torchvision.models.Wide_ResNet101_2_Weights.IMAGENET1K_V2 -/,
  E 0x746f7263682e646973747269627574696f6e732e6d756c7469766172696174655f6e6f726d616c2e4d756c7469766172696174654e6f726d616c 0x4368616e67655072656669784d617463686572 /- torch.distributions.multivariate_normal.MultivariateNormal -/,
  E 0x746f7263682e6175746f677261642e66756e6374696f6e2e46756e6374696f6e4374782e6d61726b5f6e6f6e5f646966666572656e746961626c65 0x4368616e67655072656669784d617463686572 /- torch.autograd.function.FunctionCtx.mark_non_differentiable -/,
  F 0x746f726368766973696f6e2e6d6f64656c732e4d6f62696c654e65745f56335f4c617267655f576569676874732e494d4147454e4554314b5f5631 0x4368616e67654150494d617463686572 0x27494d4147454e4554314b5f563127 0 [] [] [] [] [] /- torchvision.models.MobileNet_V3_Large_Weights.IMAGENET1K_V1 -/,
  F 0x746f726368766973696f6e2e6d6f64656c732e4d6f62696c654e65745f56335f4c617267655f576569676874732e494d4147454e4554314b5f5632 0x4368616e67654150494d617463686572 0x27494d4147454e4554314b5f563227 0 [] [] [] [] [] /- torchvision.models.MobileNet_V3_Large_Weights.IMAGENET1K_V2 -/,
  F 0x746f726368766973696f6e2e6d6f64656c732e4d6f62696c654e65745f56335f536d616c6c5f576569676874732e494d4147454e4554314b5f5631 0x4368616e67654150494d617463686572 0x27494d4147454e4554314b5f563127 0 [] [] [] [] [] /- torchvision.models.MobileNet_V3_Small_Weights.IMAGENET1K_V1 -/,
  F 0x746f726368766973696f6e2e6d6f64656c732e53687566666c654e65745f56325f58305f355f576569676874732e494d4147454e4554314b5f5631 0x4368616e67654150494d617463686572 0x27494d4147454e4554314b5f563127 0 [] [] [] [] [] /- torchvision.models.ShuffleNet_V2_X0_5_Weights.IMAGENET1K_V1 -/,
  F 0x746f726368766973696f6e2e6d6f64656c732e53687566666c654e65745f56325f58315f305f576569676874732e494d4147454e4554314b5f5631 0x4368616e67654150494d617463686572 0x27494d4147454e4554314b5f563127 0 [] [] [] [] [] /- torchvision.models.ShuffleNet_V2_X1_0_Weights.IMAGENET1K_V1 -/,
  F 0x746f726368766973696f6e2e6d6f64656c732e53687566666c654e65745f56325f58315f355f576569676874732e494d4147454e4554314b5f5631 0x4368616e67654150494d617463686572 0x27494d4147454e4554314b5f563127 0 [] [] [] [] [] /- torchvision.models.ShuffleNet_V2_X1_5_Weights.IMAGENET1K_V1 -/,
  F 0x746f726368766973696f6e2e6d6f64656c732e53687566666c654e65745f56325f58325f305f576569676874732e494d4147454e4554314b5f5631 0x4368616e67654150494d617463686572 0x27494d4147454e4554314b5f563127 0 [] [] [] [] [] /- torchvision.models.ShuffleNet_V2_X2_0_Weights.IMAGENET1K_V1 -/,
  F 0x746f7263682e646973747269627574696f6e732e636f6e74696e756f75735f6265726e6f756c6c692e436f6e74696e756f75734265726e6f756c6c69 0x47656e657269634d617463686572 0x706164646c652e646973747269627574696f6e2e436f6e74696e756f75734265726e6f756c6c69 0 [0x70726f6273, 0x6c6f67697473, 0x6c696d73, 0x76616c69646174655f61726773] [] [0x6c6f67697473] [(0x76616c69646174655f61726773, false, [0])] [] /- torch.distributions.continuous_bernoulli.ContinuousBernoulli -/,
  P 0x666169727363616c652e6e6e2e6d6f64656c5f706172616c6c656c2e696e697469616c697a652e6765745f6d6f64656c5f706172616c6c656c5f72616e6b 0x4368616e67654150494d617463686572 0x706164646c652e64697374726962757465642e666c6565742e626173652e746f706f6c6f67792e5f4859425249445f504152414c4c454c5f47524f55502e6765745f6d6f64656c5f706172616c6c656c5f72616e6b /- fairscale.nn.model_parallel.initialize.get_model_parallel_rank -/,
  F 0x746f7263682e646973747269627574696f6e732e646973747269627574696f6e2e446973747269627574696f6e2e656e756d65726174655f737570706f7274 0x4368616e67655072656669784d617463686572 0 0 [] [] [] [] [] /- torch.distributions.distribution.Distribution.enumerate_support -/,
  F 0x666169727363616c652e6e6e2e6d6f64656c5f706172616c6c656c2e696e697469616c697a652e696e697469616c697a655f6d6f64656c5f706172616c6c656c 0x4653496e697469616c697a654d6f64656c506172616c6c656c4d617463686572 0 1 [0x6d6f64656c5f706172616c6c656c5f73697a655f, 0x706970656c696e655f6c656e677468, 0x2a, 0x6d6f64656c5f706172616c6c656c5f6261636b656e64, 0x706970656c696e655f6261636b656e64, 0x6464705f6261636b656e64] [] [] [(0x6d6f64656c5f706172616c6c656c5f6261636b656e64, false, [0]), (0x706970656c696e655f6261636b656e64, false, [0]), (0x6464705f6261636b656e64, false, [0])] [] /- fairscale.nn.model_parallel.initialize.initialize_model_parallel -/,
  P 0x666169727363616c652e6e6e2e6d6f64656c5f706172616c6c656c2e696e697469616c697a652e6765745f6d6f64656c5f706172616c6c656c5f776f726c645f73697a65 0x46756e6332417474726962757465 0x706164646c652e64697374726962757465642e666c6565742e626173652e746f706f6c6f67792e5f4859425249445f504152414c4c454c5f47524f55502e5f6d705f646567726565 /- fairscale.nn.model_parallel.initialize.get_model_parallel_world_size -/,
  E 0x666169727363616c652e6e6e2e6d6f64656c5f706172616c6c656c2e696e697469616c697a652e6d6f64656c5f706172616c6c656c5f69735f696e697469616c697a6564 0x46534d6f64656c506172616c6c656c4973496e697469616c697a65644d617463686572 /- fairscale.nn.model_parallel.initialize.model_parallel_is_initialized -/,
  F 0x746f7263682e646973747269627574696f6e732e7472616e73666f726d65645f646973747269627574696f6e2e5472616e73666f726d6564446973747269627574696f6e 0x47656e657269634d617463686572 0x706164646c652e646973747269627574696f6e2e5472616e73666f726d6564446973747269627574696f6e 2 [0x626173655f646973747269627574696f6e, 0x7472616e73666f726d73, 0x76616c69646174655f61726773] [] [] [(0x626173655f646973747269627574696f6e, false, [0x62617365]), (0x76616c69646174655f61726773, false, [0])] [] /- torch.distributions.transformed_distribution.TransformedDistribution -/,
  E 0x746f7263682e646973747269627574696f6e732e646973747269627574696f6e2e446973747269627574696f6e2e7365745f64656661756c745f76616c69646174655f61726773 0x4368616e67655072656669784d617463686572 /- torch.distributions.distribution.Distribution.set_default_validate_args -/]

def apiTable : List Raw :=
  apiTable0 ++ (apiTable1 ++ (apiTable2 ++ (apiTable3 ++ (apiTable4 ++ (apiTable5 ++ (apiTable6 ++ (apiTable7 ++ (apiTable8 ++ (apiTable9 ++ (apiTable10 ++ (apiTable11 ++ (apiTable12 ++ (apiTable13 ++ (apiTable14 ++ (apiTable15 ++ (apiTable16 ++ (apiTable17 ++ (apiTable18 ++ (apiTable19 ++ (apiTable20 ++ (apiTable21 ++ (apiTable22 ++ (apiTable23 ++ (apiTable24 ++ (apiTable25 ++ (apiTable26 ++ (apiTable27 ++ (apiTable28 ++ (apiTable29 ++ (apiTable30 ++ (apiTable31 ++ (apiTable32 ++ (apiTable33)))))))))))))))))))))))))))))))))

end Verif.Data

import Verif.Model.Dispatch
import Verif.Model.Matcher
import Verif.Data.Api
import Verif.Data.Attr
import Verif.Data.Alias
import Verif.Data.Classes

/-!
# The shipped tables

The JSON tables of `/repo/paconvert`, which `/repo/paconvert/global_var.py` lines 21-41 loads. The entries themselves
are in `Verif/Data`, with texts written as numbers (`tools/gen_tables.py`); here they are turned into texts.
-/

namespace Verif.Data
open Verif

/-- The base-256 digits of a number, the most significant first, in front of `acc`. -/
def decodeGo : Nat → Nat → Str → Str
  | 0, _, acc => acc
  | fuel + 1, n, acc => if n = 0 then acc else decodeGo fuel (n / 256) (Char.ofNat (n % 256) :: acc)

/-- The text that a number stands for. -/
def decode (n : Nat) : Str := decodeGo n n []

/-- The number that stands for a text. -/
def encode (s : Str) : Nat := s.foldl (fun n c => 256 * n + c.toNat) 0

/-- A value of `kwargs_change`; base.py:477-482. -/
def changeOf (b : Bool × List Nat) : Matcher.Change :=
  if b.1 then .many (b.2.map decode) else .one (decode (b.2.headD 0))

/-- An entry as the argument handling sees it; base.py:337-508. -/
def Raw.cfg (r : Raw) : Matcher.Cfg where
  argsList := r.args.map decode
  overload := r.overload.map decode
  minInput := r.minInput
  unsupport := r.unsupport.map decode
  change := r.change.map fun c => (decode c.1, changeOf c.2)
  defaults := r.defaults.map fun c => (decode c.1, decode c.2)
  paddleApi := if r.paddle = 0 then none else some (decode r.paddle)

/-- The name of an entry. -/
def Raw.name (r : Raw) : Str := decode r.key

/-- The matcher class of an entry; empty if there is none. -/
def Raw.class (r : Raw) : Str := decode r.matcher

/-- An entry as the lookup sees it; basic_transformer.py:799-807. No entry of the two tables has the key `"disable"`
(the generator checks it). -/
def Raw.entry (r : Raw) : Dispatch.Entry where
  matcher := if r.matcher = 0 then none else some r.class

/-- `API_WILDCARD_MAPPING`; api_wildcard_mapping.json. The names are used as regular expressions with `re.match`:
a dot stands for any character but a newline, and the final `.*` matches always. -/
def wildcards : List ((Str → Bool) × Dispatch.Entry) :=
  [(Matcher.matchDots py"einops.layers.torch", { matcher := some py"EinopsTorchMatcher" }),
   (Matcher.matchDots py"transformers", { matcher := some py"TransformersGenericMatcher", disable := true })]

/-- The tables of `GlobalManager`; global_var.py:21-41. -/
def shipped : Dispatch.Tables where
  aliases := aliasTable.map fun a => (decode a.1, decode a.2)
  api := apiTable.map fun r => (r.name, r.entry)
  attr := attrTable.map fun r => (r.name, r.entry)
  wild := wildcards

/-- `TORCH_PACKAGE_MAPPING`; global_var.py:43-68. -/
def torchPackages : Dict Str Str :=
  [(py"torch", py"paddle"), (py"mmseg", py"paddle"), (py"mmcv", py"paddle"), (py"mmdet", py"paddle"),
   (py"mmdet3d", py"paddle"), (py"mmengine", py"paddle"), (py"detectron", py"paddle"), (py"timm", py"paddle"),
   (py"torchvision", py"paddle"), (py"torchaudio", py"paddlespeech"), (py"kornia", py"paddle"),
   (py"fasttext", py"paddle"), (py"pytorch_lightning", py"paddle"), (py"lightning", py"paddle"),
   (py"jieba", py"paddle"), (py"NLTK", py"paddle"), (py"scikit-learn", py"paddle"), (py"fairscale", py"paddle"),
   (py"transformers", py"paddleformers"), (py"datasets", py"paddle"), (py"accelerate", py"paddle"),
   (py"diffusers", py"paddle"), (py"torch_xla", py"paddle"), (py"flash_attn", py"paddle")]

/-- `MAY_TORCH_PACKAGE_LIST`; global_var.py:69-73. -/
def mayPackages : List Str := [py"setuptools", py"os", py"einops"]

/-- Membership in `CHANGE_PREFIX_API`; global_var.py:75-82. -/
def prefixOnly (api : Str) : Bool :=
  (apiTable ++ attrTable).any fun r => r.name == api && r.class == py"ChangePrefixMatcher"

end Verif.Data

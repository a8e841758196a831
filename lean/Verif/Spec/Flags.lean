import Verif.Spec.Template

/-!
# Boolean parameters that become options with a text
-/

namespace Verif.Spec
open Verif

/-- PyTorch has a boolean parameter where Paddle has an option with a text. -/
structure FlagRule where
  api : Str
  flag : Str
  option : Str
  /-- the text of the option for `True` -/
  yes : Str
  /-- the text of the option for `False` -/
  no : Str
  /-- the value of the flag which the option stands for if it is not given -/
  dflt : Bool
  /-- the value of the flag if it is not given -/
  torch : Bool
  deriving DecidableEq

def FlagRule.text (ru : FlagRule) (b : Bool) : Str := if b then ru.yes else ru.no

/-- The argument ends here. -/
def EndsArg (s : Str) : Prop := s.head? = some ',' ∨ s.head? = some ')'

/-- The code has the keyword argument `o=v`. -/
def Sets (o : Str) (v : List Piece) (ps : List Piece) : Prop :=
  ∃ s, EndsArg s ∧ .code (o ++ py"=") :: (v ++ [.code s]) <:+: ps

/-- The code asks for what the flag asks for with the value `b`: the option has this text, or it is not given and that is
what Paddle does without it. -/
def Selects (ru : FlagRule) (b : Bool) (ps : List Piece) : Prop :=
  Sets ru.option [.code (ru.text b)] ps ∨ b = ru.dflt ∧ .code (ru.option ++ py"=") ∉ ps

/-- The code takes the text of the option from the value that the flag has at run time. -/
def SelectsBy (ru : FlagRule) (ps : List Piece) : Prop :=
  Sets ru.option [.code (ru.yes ++ py" if "), .user ru.flag, .code (py" else " ++ ru.no)] ps

/-- The text of a boolean literal as an argument. -/
def boolText (b : Bool) : Str := if b then py"(True)" else py"(False)"

/-- Flags of data sets, from the documentation of `torchvision.datasets` and `paddle.vision.datasets`. -/
def trainRules : List FlagRule :=
  [py"torchvision.datasets.MNIST", py"torchvision.datasets.FashionMNIST", py"torchvision.datasets.CIFAR10",
   py"torchvision.datasets.CIFAR100"].map fun a => ⟨a, py"train", py"mode", py"'train'", py"'test'", true, true⟩

/-- Flags of recurrent layers, from the documentation of `torch.nn.RNN` and `paddle.nn.SimpleRNN` and so on. -/
def rnnRules : List FlagRule :=
  [py"torch.nn.RNN", py"torch.nn.LSTM"].map fun a =>
    ⟨a, py"bidirectional", py"direction", py"'bidirect'", py"'forward'", false, false⟩

/-- `x.qr(some)`: the reduced decomposition for `True`. -/
def qrRule : FlagRule := ⟨py"torch.Tensor.qr", py"some", py"mode", py"'reduced'", py"'complete'", true, true⟩

end Verif.Spec

import Verif.Spec.Template

/-!
# Arguments whose text decides which code is written
-/

namespace Verif.Spec
open Verif

/-- API and argument: the matcher compares the text with `None`, `True`, `False` or a string. -/
def literalTable : List (Str × Str) := [
   (py"os.environ.get", py"key"), (py"torch.Tensor.qr", py"some"), (py"torch.Tensor.set_", py"source"),
   (py"torch.linalg.matrix_norm", py"dtype"), (py"torch.lu", py"get_infos"), (py"torch.lu_unpack", py"unpack_data"),
   (py"torch.lu_unpack", py"unpack_pivots"), (py"torch.nn.LSTM", py"bidirectional"), (py"torch.nn.RNN", py"bidirectional"),
   (py"torch.nn.RNNBase", py"dtype"), (py"torch.nn.functional.softmin", py"dim"), (py"torch.scalar_tensor", py"pin_memory"),
   (py"torch.set_printoptions", py"profile"), (py"torch.stft", py"return_complex"),
   (py"torchvision.datasets.CIFAR10", py"train"), (py"torchvision.datasets.CIFAR100", py"train"),
   (py"torchvision.datasets.FashionMNIST", py"train"), (py"torchvision.datasets.Flowers102", py"split"),
   (py"torchvision.datasets.MNIST", py"train")]

/-- The same for the argument `out` of all APIs, and for `weights` of the models of torchvision. -/
def literal (api k : Str) : Bool :=
  literalTable.contains (api, k) || k == py"out" || (Str.startsWith api py"torchvision.models." && k == py"weights")

/-- API and argument: the matcher looks for something in the text. -/
def textTable : List (Str × Str) := [
   (py"setuptools.setup", py"cmdclass"), (py"torch.cpu.set_device", py"device"), (py"torch.index_copy", py"dim"),
   (py"torch.nn.RNNBase", py"bidirectional"), (py"torch.optim.lr_scheduler.OneCycleLR", py"total_steps"),
   (py"torch.sparse.sum", py"dim")]

/-- Nothing, or nothing but the spelling of an expression that is no literal, distinguishes the two texts. -/
def Equivalent (t u : Option Str) : Prop := t = u ∨ ∃ a b, t = some a ∧ u = some b ∧ ¬Plain a ∧ ¬Plain b

end Verif.Spec

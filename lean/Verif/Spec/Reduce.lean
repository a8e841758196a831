import Verif.Model.Reduce

/-! # What `Tensor.max` and `Tensor.min` do in PyTorch -/

namespace Verif.Reduce.Spec
open Verif

variable {τ : Type}

/-- The three signatures: `max()`, `max(dim, keepdim=False)` and `max(other)`. -/
inductive Torch : List (Val τ) → Dict Str (Val τ) → Res τ → Prop
  | all : Torch [] [] .all
  | with1 (t : τ) : Torch [.tensor t] [] (.with t)
  | with2 (t : τ) : Torch [] [(py"other", .tensor t)] (.with t)
  | along1 (n : Int) : Torch [.int n] [] (.along n false)
  | along2 (n : Int) (b : Bool) : Torch [.int n, .flag b] [] (.along n b)
  | along3 (n : Int) (b : Bool) : Torch [.int n] [(py"keepdim", .flag b)] (.along n b)
  | along4 (n : Int) : Torch [] [(py"dim", .int n)] (.along n false)
  | along5 (n : Int) (b : Bool) : Torch [] [(py"dim", .int n), (py"keepdim", .flag b)] (.along n b)
  | along6 (n : Int) (b : Bool) : Torch [] [(py"keepdim", .flag b), (py"dim", .int n)] (.along n b)

end Verif.Reduce.Spec

import Mathlib.Data.List.Basic

/-!
# `torch.distributed.reduce_scatter_tensor`
-/

namespace Verif.Spec.Scatter

variable {α : Type}

/-- Row `i` of the input of every process. -/
def rows (inputs : List (List α)) (i : Nat) : List α := inputs.filterMap fun l => l[i]?

/-- Process `r` of a group of `k` processes gets `m` rows; row `i` of them combines the rows `r * m + i` of the inputs. -/
def Scattered (f : α → α → α) (m : Nat) (inputs outputs : List (List α)) : Prop :=
  outputs.length = inputs.length ∧ ∀ r o, outputs[r]? = some o → o.length = m ∧
    ∀ i, i < m → o[i]? = (rows inputs (r * m + i)).head?.map fun x => (rows inputs (r * m + i)).tail.foldl f x

end Verif.Spec.Scatter

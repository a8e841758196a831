import Verif.Model.Kwargs
import Verif.Model.Tables

/-!
# The calls about which C75, C76 and C77 speak
-/

namespace Verif.Template
open Verif
open Verif.Spec
open Verif.Matcher (Cfg)

/-- The arguments of the call are as PyTorch wants them, for the API of the entry `r` of `api_mapping.json`. -/
structure Valid (r : Data.Raw) (c : Call) : Prop where
  /-- no name twice -/
  wf : c.args.WF
  /-- only supported parameters -/
  known : ∀ k ∈ c.args.keys, k ∈ params r.cfg
  /-- what PyTorch requires -/
  complete : ∀ k ∈ required r.name, k ∈ c.args.keys
  /-- not both of two arguments that exclude each other -/
  single : ∀ p ∈ exclusive r.name, p.1 ∈ c.args.keys → p.2 ∉ c.args.keys
  /-- `get_paddle_api()` -/
  api : c.api = apiVal r.name r.cfg

instance (r : Data.Raw) (c : Call) : Decidable (Valid r c) :=
  decidable_of_iff (c.args.keys.Nodup ∧ (∀ k ∈ c.args.keys, k ∈ params r.cfg) ∧ (∀ k ∈ required r.name, k ∈ c.args.keys) ∧
      (∀ p ∈ exclusive r.name, p.1 ∈ c.args.keys → p.2 ∉ c.args.keys) ∧ c.api = apiVal r.name r.cfg)
    ⟨fun h => ⟨h.1, h.2.1, h.2.2.1, h.2.2.2.1, h.2.2.2.2⟩, fun h => ⟨h.wf, h.known, h.complete, h.single, h.api⟩⟩

/-- The matcher of the entry does this with the call. -/
def Converts (r : Data.Raw) (c : Call) (o : Out) : Prop :=
  ∃ m ∈ matchers, m.1 = r.class ∧ (m.2 r.name r.cfg).out c = o

/-- The `kwargs_change` of the entry maps the argument to nothing, or it says nothing and the argument is only a hint. -/
def dropped (cfg : Cfg) (k : Str) : Bool :=
  match cfg.change.get? k with
  | some c => c.targets.isEmpty
  | none => hints.contains k

/-- The APIs whose matcher can raise an exception. -/
def failing : List Str :=
  [py"torch.Tensor.type", py"torch.autograd.Function.backward", py"torch.optim.lr_scheduler.OneCycleLR"]

/-- The APIs with a matcher of their own that is not modelled. -/
def notModelled : List Str :=
  [py"torch.utils.checkpoint.checkpoint", py"transformers.PreTrainedModel", py"torch.testing.make_tensor",
   py"torch.Tensor.rename", py"torch.chain_matmul", py"torch.Tensor.split", py"torch.Tensor.stft", py"torch.Tensor.min",
   py"torch.Tensor.max", py"torch.hub.load"]

end Verif.Template

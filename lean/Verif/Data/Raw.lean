/-!
# Shape of the table entries

See `tools/gen_tables.py` for the encoding.
-/

namespace Verif.Data

/-- An entry of `api_mapping.json` or `attribute_mapping.json`; texts as numbers, 0 for a missing or empty text. -/
structure Raw where
  key : Nat
  /-- `"Matcher"` -/
  matcher : Nat
  /-- `"paddle_api"` -/
  paddle : Nat
  /-- `"min_input_args"` -/
  minInput : Nat
  /-- `"args_list"` -/
  args : List Nat
  /-- `"overload_args_list"` -/
  overload : List Nat
  /-- `"unsupport_args"` -/
  unsupport : List Nat
  /-- `"kwargs_change"`; the flag tells whether the value is a list -/
  change : List (Nat × Bool × List Nat)
  /-- `"paddle_default_kwargs"`, values as they are printed -/
  defaults : List (Nat × Nat)

/-- An entry with a matcher only. -/
def E (key matcher : Nat) : Raw := ⟨key, matcher, 0, 0, [], [], [], [], []⟩
/-- An entry with a matcher and a Paddle API. -/
def P (key matcher paddle : Nat) : Raw := ⟨key, matcher, paddle, 0, [], [], [], [], []⟩
/-- A full entry. -/
def F (key matcher paddle minInput : Nat) (args overload unsupport : List Nat) (change : List (Nat × Bool × List Nat))
    (defaults : List (Nat × Nat)) : Raw := ⟨key, matcher, paddle, minInput, args, overload, unsupport, change, defaults⟩

end Verif.Data

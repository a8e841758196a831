import Verif.Spec.Formula
import Mathlib.Analysis.SpecialFunctions.Gaussian.GaussianIntegral
import Mathlib.Analysis.SpecialFunctions.Log.Base

/-!
# Numbers with infinities, and functions of PyTorch on them

Floating-point numbers are real numbers, two infinities and NaN. Results are rounded by a function `rd` on the real numbers.
There is only one zero.
-/

namespace Verif.Spec.Floats
open Verif
open Verif.Spec.Formula (E)

inductive Num
  | nan
  /-- an infinity; `true`: the negative one -/
  | inf (neg : Bool)
  | fin (x : ℝ)

/-- Rounding. -/
abbrev Rd := ℝ → Num

open Classical in
/-- Exact results up to `M`, and overflow above. -/
noncomputable def cut (M : ℝ) : Rd := fun x => if M < x then .inf false else if x < -M then .inf true else .fin x

open Classical in
/-- The infinity with the sign of the number; 0 has none. -/
noncomputable def signed (neg : Bool) (x : ℝ) : Num :=
  if x = 0 then .nan else .inf (xor neg (decide (x < 0)))

/-! ## Arithmetic -/

noncomputable def neg : Num → Num
  | .nan => .nan
  | .inf s => .inf !s
  | .fin x => .fin (-x)

noncomputable def add (rd : Rd) : Num → Num → Num
  | .nan, _ | _, .nan => .nan
  | .inf s, .inf t => if s = t then .inf s else .nan
  | .inf s, .fin _ | .fin _, .inf s => .inf s
  | .fin x, .fin y => rd (x + y)

noncomputable def mul (rd : Rd) : Num → Num → Num
  | .nan, _ | _, .nan => .nan
  | .inf s, .inf t => .inf (xor s t)
  | .inf s, .fin x | .fin x, .inf s => signed s x
  | .fin x, .fin y => rd (x * y)

open Classical in
noncomputable def div (rd : Rd) : Num → Num → Num
  | .nan, _ | _, .nan => .nan
  | .inf _, .inf _ => .nan
  | .inf s, .fin x => .inf (xor s (decide (x < 0)))
  | .fin _, .inf _ => .fin 0
  | .fin x, .fin y => if y = 0 then signed false x else rd (x / y)

/-! ## Functions of Paddle -/

noncomputable def exp (rd : Rd) : Num → Num
  | .nan => .nan
  | .inf s => if s then .fin 0 else .inf false
  | .fin x => rd (Real.exp x)

open Classical in
/-- A logarithm: a function on the positive numbers with the limits of a logarithm. -/
noncomputable def logBy (f : ℝ → ℝ) (rd : Rd) : Num → Num
  | .nan => .nan
  | .inf s => if s then .nan else .inf false
  | .fin x => if 0 < x then rd (f x) else if x = 0 then .inf true else .nan

noncomputable def log : Rd → Num → Num := logBy Real.log

noncomputable def log2 : Rd → Num → Num := logBy (Real.logb 2)

/-- `log(1 + x)`, without an intermediate result. -/
noncomputable def log1p (rd : Rd) : Num → Num
  | .fin x => log rd (.fin (1 + x))
  | v => log rd v

/-- `2 ** x` -/
noncomputable def exp2 (rd : Rd) : Num → Num
  | .nan => .nan
  | .inf s => if s then .fin 0 else .inf false
  | .fin x => rd ((2 : ℝ) ^ x)

/-- The error function. -/
noncomputable def erfR (x : ℝ) : ℝ := 2 / √Real.pi * ∫ t in (0 : ℝ)..x, Real.exp (-t ^ 2)

noncomputable def erf (rd : Rd) : Num → Num
  | .nan => .nan
  | .inf s => .fin (if s then -1 else 1)
  | .fin x => rd (erfR x)

/-- Its inverse on the numbers between -1 and 1. -/
noncomputable def erfinvR : ℝ → ℝ := Function.invFun erfR

open Classical in
noncomputable def erfinv (rd : Rd) : Num → Num
  | .fin y => if |y| < 1 then rd (erfinvR y) else if y = 1 then .inf false else if y = -1 then .inf true else .nan
  | _ => .nan

noncomputable def sqrt (rd : Rd) : Num → Num
  | .fin x => if 0 ≤ x then rd √x else .nan
  | .inf s => if s then .nan else .inf false
  | .nan => .nan

/-! ## The value of an expression -/

/-- What the inserted texts stand for, at one position of the result. -/
structure Env where
  val : Piece → Num
  /-- a product of two tensors (matrices, vectors) by the function with this name -/
  prod : Str → Piece → Piece → Num

/-- The functions with one argument. `paddle.to_tensor` makes a tensor of a number. -/
noncomputable def apply (rd : Rd) (f : Str) (a : Num) : Option Num :=
  if f = py"paddle.exp" then some (exp rd a)
  else if f = py"paddle.log" then some (log rd a)
  else if f = py"paddle.log2" then some (log2 rd a)
  else if f = py"paddle.log1p" then some (log1p rd a)
  else if f = py"paddle.erf" || f = py"paddle.erf_" then some (erf rd a)
  else if f = py"paddle.erfinv" then some (erfinv rd a)
  else if f = py"paddle.sqrt" then some (sqrt rd a)
  else if f = py"paddle.to_tensor" then some a
  else none

/-- The methods with one argument; those that end with `_` change the tensor, and the value is the changed one. -/
noncomputable def applyMethod (rd : Rd) (f : Str) (a b : Num) : Option Num :=
  if f = py"multiply_" then some (mul rd a b) else if f = py"add_" then some (add rd a b) else none

noncomputable def both (f : Num → Num → Num) : Option Num → Option Num → Option Num
  | some a, some b => some (f a b)
  | _, _ => none

/-- A product of two tensors, and the sum of such a product over the first axis. -/
def product (ρ : Env) (f : Str) (a : E) (key : Str) (b : E) : Option Num :=
  match a, b with
  | .leaf p, .leaf q => if key = [] then some (ρ.prod f p q) else none
  | .call2 g (.leaf p) key' (.leaf q), .lit 0 => if key = py"axis" ∧ key' = [] then some (ρ.prod (f ++ py"∘" ++ g) p q) else none
  | _, _ => none

/-- The value of an expression, if its functions are known. Of the powers there are `2 ** (1/2)`, `x ** 2` and `2 ** x`.
`paddle.assign(a, output=b)` has the value of `a`, and so has `paddle.to_tensor(a, dtype=b)`. -/
noncomputable def value (rd : Rd) (ρ : Env) : E → Option Num
  | .leaf p => some (ρ.val p)
  | .lit n => some (.fin n)
  | .infinity => some (.inf false)
  | .neg a => (value rd ρ a).map neg
  | .add a b => both (add rd) (value rd ρ a) (value rd ρ b)
  | .sub a b => both (fun x y => add rd x (neg y)) (value rd ρ a) (value rd ρ b)
  | .mul a b => both (mul rd) (value rd ρ a) (value rd ρ b)
  | .div a b => both (div rd) (value rd ρ a) (value rd ρ b)
  | .pow a b =>
    if a = .lit 2 ∧ b = .div (.lit 1) (.lit 2) then some (rd √2)
    else if b = .lit 2 then (value rd ρ a).map fun x => mul rd x x
    else if a = .lit 2 then (value rd ρ b).map (exp2 rd)
    else none
  | .attr _ _ => none
  | .call f a => (value rd ρ a).bind (apply rd f)
  | .call2 f a key b =>
    if f = py"paddle.assign" ∨ f = py"paddle.to_tensor" then value rd ρ a
    else if f = py"paddle.add" ∧ key = [] then both (add rd) (value rd ρ a) (value rd ρ b)
    else product ρ f a key b
  | .method a f b => (value rd ρ a).bind fun x => (value rd ρ b).bind (applyMethod rd f x)

/-- The code computes this number. -/
def Computes (rd : Rd) (ρ : Env) (ps : List Piece) (v : Num) : Prop :=
  ∃ e, Formula.expr ps = some e ∧ value rd ρ e = some v

/-! ## Functions of PyTorch

After the documentation of PyTorch, with the limits at the infinities. Finite results are rounded once. -/

noncomputable def erfc (rd : Rd) : Num → Num
  | .nan => .nan
  | .inf s => .fin (if s then 2 else 0)
  | .fin x => rd (1 - erfR x)

noncomputable def erfcx (rd : Rd) : Num → Num
  | .nan => .nan
  | .inf s => if s then .inf false else .fin 0
  | .fin x => rd (Real.exp (x ^ 2) * (1 - erfR x))

noncomputable def expit (rd : Rd) : Num → Num
  | .nan => .nan
  | .inf s => .fin (if s then 0 else 1)
  | .fin x => rd (1 / (1 + Real.exp (-x)))

noncomputable def ndtr (rd : Rd) : Num → Num
  | .nan => .nan
  | .inf s => .fin (if s then 0 else 1)
  | .fin x => rd ((1 + erfR (x / √2)) / 2)

open Classical in
/-- The number at which the normal distribution function has the value `p`. -/
noncomputable def ndtri (rd : Rd) : Num → Num
  | .fin p =>
    if h : ∃ z, (1 + erfR (z / √2)) / 2 = p then rd h.choose
    else if p = 0 then .inf true else if p = 1 then .inf false else .nan
  | _ => .nan

open Classical in
/-- `x * g(y)` for a logarithm `g`, where `y` is NaN, not NaN; 0 if `x` is 0 and `y` is not NaN. -/
noncomputable def timesLog (g : Rd → Num → Num) (rd : Rd) (x y : Num) : Num :=
  match y with
  | .nan => .nan
  | y => if x = .fin 0 then .fin 0 else mul rd x (g .fin y)

noncomputable def xlogy : Rd → Num → Num → Num := timesLog log

noncomputable def xlog1py : Rd → Num → Num → Num := timesLog log1p

noncomputable def logaddexp2 (rd : Rd) : Num → Num → Num
  | .nan, _ | _, .nan => .nan
  | .inf false, _ | _, .inf false => .inf false
  | .inf true, v | v, .inf true => v
  | .fin x, .fin y => rd (Real.logb 2 ((2 : ℝ) ^ x + (2 : ℝ) ^ y))

open Classical in
/-- `beta * input + alpha * p`, where `input` does not count if `beta` is 0. -/
noncomputable def addProduct (rd : Rd) (beta input alpha p : Num) : Num :=
  if beta = .fin 0 then mul rd alpha p else add rd (mul rd beta input) (mul rd alpha p)

end Verif.Spec.Floats

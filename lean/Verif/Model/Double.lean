import Mathlib.Data.Int.Log
import Mathlib.Data.Rat.Floor
import Mathlib.Algebra.Order.Floor.Ring
import Mathlib.Algebra.Order.Archimedean.Basic
import Mathlib.Data.Rat.Cast.Order

/-!
The type `double` in which /repo keeps every number, for the parts of the code whose course depends on rounding: IEEE 754
binary64 with rounding to nearest, ties to even.
Simplifications: no overflow to infinity, no NaN, no negative zero.  Intermediate results are rounded after every operation
(`FLT_EVAL_METHOD` 0, as on x86-64).
-/

namespace ThermoFun.Double

/-- The integer nearest to `x`, the even one of two. -/
def roundEven (x : ℚ) : ℤ :=
  if x - ⌊x⌋ < 1 / 2 then ⌊x⌋
  else if 1 / 2 < x - ⌊x⌋ then ⌊x⌋ + 1
  else if ⌊x⌋ % 2 = 0 then ⌊x⌋ else ⌊x⌋ + 1

/-- The power of two that is one unit in the last place (53 binary digits) of `q`: `2^(expo q)`. -/
def expo (q : ℚ) : ℤ := max (Int.log 2 |q| - 52) (-1074)

/-- The double nearest to `q` (result of every arithmetic operation on doubles whose exact result is `q`). -/
def rnd (q : ℚ) : ℚ := roundEven (q / 2 ^ expo q) * 2 ^ expo q

/-- A `double` (e.g. `double t`, ThermoBatch.cpp:149); the arithmetic operators round. -/
structure F64 where
  val : ℚ
deriving DecidableEq

instance : Add F64 := ⟨fun a b => ⟨rnd (a.val + b.val)⟩⟩
instance : Sub F64 := ⟨fun a b => ⟨rnd (a.val - b.val)⟩⟩
instance : Mul F64 := ⟨fun a b => ⟨rnd (a.val * b.val)⟩⟩
instance : Div F64 := ⟨fun a b => ⟨rnd (a.val / b.val)⟩⟩
instance : LT F64 := ⟨fun a b => a.val < b.val⟩
instance : DecidableLT F64 := fun a b => inferInstanceAs (Decidable (a.val < b.val))

/-- A floating point literal of the source, such as `0.1`: the nearest double. -/
def lit (q : ℚ) : F64 := ⟨rnd q⟩

/-- `value * factor(parsed_from)/factor(parsed_to)`, Units.cpp:632, for units whose factors are `fa` and `fb`.  The factors
themselves are parameters. -/
def convertF (fa fb x : F64) : F64 := x * fa / fb

end ThermoFun.Double

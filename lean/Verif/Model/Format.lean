import Mathlib.Data.Nat.Digits.Defs
import Verif.Model.Double

/-!
The text of a number in the files of batch calculations, /repo/ThermoFun/Batch/OutputBatch.cpp:161-166, 199-226:
`stream << std::fixed << std::setprecision(d) << x`.
Simplifications: the default notation only (`isFixed = true`, `isScientific = false`, ThermoBatch.h:35-39); the numbers are
rationals (a double is one), without infinity and NaN.
-/

namespace ThermoFun.Double

/-- A decimal digit as a character. -/
def digitC (k : Nat) : Char := Char.ofNat (48 + k)

/-- The decimal digits of `n`, lowest first, filled up with zeros to at least `w` of them. -/
def padded (w n : Nat) : List Nat := Nat.digits 10 n ++ List.replicate (w - (Nat.digits 10 n).length) 0

/-- `std::fixed` with precision `d` (OutputBatch.cpp:199-226): the nearest multiple of 10^-d (ties to even, as the C library
rounds), with a sign for numbers below zero, at least one digit before the point, and no point for `d = 0`. -/
def fixed (d : Nat) (x : ℚ) : List Char :=
  let L := padded (d + 1) (roundEven (|x| * 10 ^ d)).toNat
  (if x < 0 then ['-'] else []) ++ (L.drop d).reverse.map digitC ++
    (if d = 0 then [] else '.' :: (L.take d).reverse.map digitC)

end ThermoFun.Double

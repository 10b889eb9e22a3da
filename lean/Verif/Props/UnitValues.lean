import Verif.Props.Units

/-!
C149: the values and dimensions of the named units (Units.cpp:97-403) against the accepted ones.  `accepted` is written
down from the SI brochure, NIST SP 811 and CODATA 2018, not from the code.  Where a name is used for several units the
entry follows the one the code means: `gal` the imperial gallon, `ton` the short ton, `acre` the US survey acre,
`cal` the thermochemical and `btu` the International Table unit, `year` the tropical year, `mmHg`, `inHg` and `inH2O`
(4 °C) the conventional columns.
-/

namespace ThermoFun.Units

/-! ### Specification -/

/-- An accepted unit: one `name` is `vn/vd` times the product of the units `num` over the product of the units `den`. -/
structure Accepted where
  name : String
  num : List String
  den : List String
  vn : Nat
  vd : Nat

/-- The SI expression of an accepted unit: `a*b*…/c/d/…`. -/
def Accepted.si (r : Accepted) : UE :=
  r.den.foldl (fun e s => .div e (.sym s.toList))
    (match r.num with
      | [] => .sym ['1']
      | s :: l => l.foldl (fun e s => .mul e (.sym s.toList)) (.sym s.toList))

/-- The accepted value. -/
noncomputable def Accepted.value (r : Accepted) : ℝ := (r.vn : ℝ) / r.vd

/-- The accepted units. -/
def accepted : List Accepted := [
  ⟨"1", ["1"], [], 1, 1⟩,
  ⟨"%%", ["1"], [], 1, 100⟩,
  ⟨"percent", ["1"], [], 1, 100⟩,
  ⟨"%%%%", ["1"], [], 1, 1000⟩,
  ⟨"permil", ["1"], [], 1, 1000⟩,
  ⟨"ppm", ["1"], [], 1, 1000000⟩,
  ⟨"ppb", ["1"], [], 1, 1000000000⟩,
  ⟨"g", ["kg"], [], 1, 1000⟩,
  ⟨"gram", ["kg"], [], 1, 1000⟩,
  ⟨"grams", ["kg"], [], 1, 1000⟩,
  ⟨"kg", ["kg"], [], 1, 1⟩,
  ⟨"kilogram", ["kg"], [], 1, 1⟩,
  ⟨"kilograms", ["kg"], [], 1, 1⟩,
  ⟨"mg", ["kg"], [], 1, 1000000⟩,
  ⟨"ug", ["kg"], [], 1, 1000000000⟩,
  ⟨"ng", ["kg"], [], 1, 1000000000000⟩,
  ⟨"tonne", ["kg"], [], 1000, 1⟩,
  ⟨"lb", ["kg"], [], 45359237, 100000000⟩,
  ⟨"lbm", ["kg"], [], 45359237, 100000000⟩,
  ⟨"amu", ["kg"], [], 8302695333, 5000000000000000000000000000000000000⟩,
  ⟨"ton", ["kg"], [], 45359237, 50000⟩,
  ⟨"m", ["m"], [], 1, 1⟩,
  ⟨"meter", ["m"], [], 1, 1⟩,
  ⟨"meters", ["m"], [], 1, 1⟩,
  ⟨"km", ["m"], [], 1000, 1⟩,
  ⟨"cm", ["m"], [], 1, 100⟩,
  ⟨"mm", ["m"], [], 1, 1000⟩,
  ⟨"um", ["m"], [], 1, 1000000⟩,
  ⟨"nm", ["m"], [], 1, 1000000000⟩,
  ⟨"Angstrom", ["m"], [], 1, 10000000000⟩,
  ⟨"in", ["m"], [], 127, 5000⟩,
  ⟨"inch", ["m"], [], 127, 5000⟩,
  ⟨"inches", ["m"], [], 127, 5000⟩,
  ⟨"mil", ["m"], [], 127, 5000000⟩,
  ⟨"ft", ["m"], [], 381, 1250⟩,
  ⟨"feet", ["m"], [], 381, 1250⟩,
  ⟨"foot", ["m"], [], 381, 1250⟩,
  ⟨"yd", ["m"], [], 1143, 1250⟩,
  ⟨"yard", ["m"], [], 1143, 1250⟩,
  ⟨"yards", ["m"], [], 1143, 1250⟩,
  ⟨"mi", ["m"], [], 201168, 125⟩,
  ⟨"mile", ["m"], [], 201168, 125⟩,
  ⟨"miles", ["m"], [], 201168, 125⟩,
  ⟨"nauticalmile", ["m"], [], 1852, 1⟩,
  ⟨"lightyear", ["m"], [], 9460730472580800, 1⟩,
  ⟨"au", ["m"], [], 149597870700, 1⟩,
  ⟨"s", ["s"], [], 1, 1⟩,
  ⟨"second", ["s"], [], 1, 1⟩,
  ⟨"seconds", ["s"], [], 1, 1⟩,
  ⟨"ms", ["s"], [], 1, 1000⟩,
  ⟨"us", ["s"], [], 1, 1000000⟩,
  ⟨"ns", ["s"], [], 1, 1000000000⟩,
  ⟨"minute", ["s"], [], 60, 1⟩,
  ⟨"minutes", ["s"], [], 60, 1⟩,
  ⟨"hour", ["s"], [], 3600, 1⟩,
  ⟨"hours", ["s"], [], 3600, 1⟩,
  ⟨"day", ["s"], [], 86400, 1⟩,
  ⟨"days", ["s"], [], 86400, 1⟩,
  ⟨"week", ["s"], [], 604800, 1⟩,
  ⟨"weeks", ["s"], [], 604800, 1⟩,
  ⟨"year", ["s"], [], 157784626, 5⟩,
  ⟨"years", ["s"], [], 157784626, 5⟩,
  ⟨"month", ["s"], [], 78892313, 30⟩,
  ⟨"months", ["s"], [], 78892313, 30⟩,
  ⟨"A", ["A"], [], 1, 1⟩,
  ⟨"ampere", ["A"], [], 1, 1⟩,
  ⟨"amperes", ["A"], [], 1, 1⟩,
  ⟨"MA", ["A"], [], 1000000, 1⟩,
  ⟨"kA", ["A"], [], 1000, 1⟩,
  ⟨"mA", ["A"], [], 1, 1000⟩,
  ⟨"uA", ["A"], [], 1, 1000000⟩,
  ⟨"nA", ["A"], [], 1, 1000000000⟩,
  ⟨"pA", ["A"], [], 1, 1000000000000⟩,
  ⟨"mol", ["mol"], [], 1, 1⟩,
  ⟨"mole", ["mol"], [], 1, 1⟩,
  ⟨"moles", ["mol"], [], 1, 1⟩,
  ⟨"mmol", ["mol"], [], 1, 1000⟩,
  ⟨"umol", ["mol"], [], 1, 1000000⟩,
  ⟨"cd", ["cd"], [], 1, 1⟩,
  ⟨"candela", ["cd"], [], 1, 1⟩,
  ⟨"radian", ["radian"], [], 1, 1⟩,
  ⟨"mradian", ["radian"], [], 1, 1000⟩,
  ⟨"uradian", ["radian"], [], 1, 1000000⟩,
  ⟨"deg", ["radian"], [], 3490658503988659, 200000000000000000⟩,
  ⟨"degree", ["radian"], [], 3490658503988659, 200000000000000000⟩,
  ⟨"degrees", ["radian"], [], 3490658503988659, 200000000000000000⟩,
  ⟨"sr", ["sr"], [], 1, 1⟩,
  ⟨"steradian", ["sr"], [], 1, 1⟩,
  ⟨"m2", ["m", "m"], [], 1, 1⟩,
  ⟨"m^2", ["m", "m"], [], 1, 1⟩,
  ⟨"m3", ["m", "m", "m"], [], 1, 1⟩,
  ⟨"m^3", ["m", "m", "m"], [], 1, 1⟩,
  ⟨"mm2", ["m", "m"], [], 1, 1000000⟩,
  ⟨"mm^2", ["m", "m"], [], 1, 1000000⟩,
  ⟨"mm3", ["m", "m", "m"], [], 1, 1000000000⟩,
  ⟨"mm^3", ["m", "m", "m"], [], 1, 1000000000⟩,
  ⟨"cm2", ["m", "m"], [], 1, 10000⟩,
  ⟨"cm^2", ["m", "m"], [], 1, 10000⟩,
  ⟨"cm3", ["m", "m", "m"], [], 1, 1000000⟩,
  ⟨"cm^3", ["m", "m", "m"], [], 1, 1000000⟩,
  ⟨"in2", ["m", "m"], [], 16129, 25000000⟩,
  ⟨"in^2", ["m", "m"], [], 16129, 25000000⟩,
  ⟨"in3", ["m", "m", "m"], [], 2048383, 125000000000⟩,
  ⟨"in^3", ["m", "m", "m"], [], 2048383, 125000000000⟩,
  ⟨"ft2", ["m", "m"], [], 145161, 1562500⟩,
  ⟨"ft^2", ["m", "m"], [], 145161, 1562500⟩,
  ⟨"ft3", ["m", "m", "m"], [], 55306341, 1953125000⟩,
  ⟨"ft^3", ["m", "m", "m"], [], 55306341, 1953125000⟩,
  ⟨"hectare", ["m", "m"], [], 10000, 1⟩,
  ⟨"hectares", ["m", "m"], [], 10000, 1⟩,
  ⟨"acre", ["m", "m"], [], 62726400000, 15499969⟩,
  ⟨"acres", ["m", "m"], [], 62726400000, 15499969⟩,
  ⟨"barn", ["m", "m"], [], 1, 10000000000000000000000000000⟩,
  ⟨"barns", ["m", "m"], [], 1, 10000000000000000000000000000⟩,
  ⟨"l", ["m", "m", "m"], [], 1, 1000⟩,
  ⟨"L", ["m", "m", "m"], [], 1, 1000⟩,
  ⟨"liter", ["m", "m", "m"], [], 1, 1000⟩,
  ⟨"liters", ["m", "m", "m"], [], 1, 1000⟩,
  ⟨"ml", ["m", "m", "m"], [], 1, 1000000⟩,
  ⟨"mL", ["m", "m", "m"], [], 1, 1000000⟩,
  ⟨"cc", ["m", "m", "m"], [], 1, 1000000⟩,
  ⟨"ul", ["m", "m", "m"], [], 1, 1000000000⟩,
  ⟨"uL", ["m", "m", "m"], [], 1, 1000000000⟩,
  ⟨"gal", ["m", "m", "m"], [], 454609, 100000000⟩,
  ⟨"gallon", ["m", "m", "m"], [], 454609, 100000000⟩,
  ⟨"gallons", ["m", "m", "m"], [], 454609, 100000000⟩,
  ⟨"quart", ["m", "m", "m"], [], 454609, 400000000⟩,
  ⟨"mps", ["m"], ["s"], 1, 1⟩,
  ⟨"cmps", ["m"], ["s"], 1, 100⟩,
  ⟨"mph", ["m"], ["s"], 1397, 3125⟩,
  ⟨"knot", ["m"], ["s"], 463, 900⟩,
  ⟨"fps", ["m"], ["s"], 381, 1250⟩,
  ⟨"mpss", ["m"], ["s", "s"], 1, 1⟩,
  ⟨"fpss", ["m"], ["s", "s"], 381, 1250⟩,
  ⟨"gravity", ["m"], ["s", "s"], 196133, 20000⟩,
  ⟨"Hz", ["m"], ["m", "s"], 1, 1⟩,
  ⟨"hertz", ["m"], ["m", "s"], 1, 1⟩,
  ⟨"kHz", ["m"], ["m", "s"], 1000, 1⟩,
  ⟨"MHz", ["m"], ["m", "s"], 1000000, 1⟩,
  ⟨"GHz", ["m"], ["m", "s"], 1000000000, 1⟩,
  ⟨"rpm", ["m"], ["m", "s"], 1, 60⟩,
  ⟨"gps", ["m", "m", "m"], ["s"], 454609, 100000000⟩,
  ⟨"gpm", ["m", "m", "m"], ["s"], 454609, 6000000000⟩,
  ⟨"gph", ["m", "m", "m"], ["s"], 454609, 360000000000⟩,
  ⟨"cfs", ["m", "m", "m"], ["s"], 55306341, 1953125000⟩,
  ⟨"cfm", ["m", "m", "m"], ["s"], 18435447, 39062500000⟩,
  ⟨"lps", ["m", "m", "m"], ["s"], 1, 1000⟩,
  ⟨"lpm", ["m", "m", "m"], ["s"], 1, 60000⟩,
  ⟨"N", ["kg", "m"], ["s", "s"], 1, 1⟩,
  ⟨"newton", ["kg", "m"], ["s", "s"], 1, 1⟩,
  ⟨"newtons", ["kg", "m"], ["s", "s"], 1, 1⟩,
  ⟨"kN", ["kg", "m"], ["s", "s"], 1000, 1⟩,
  ⟨"lbf", ["kg", "m"], ["s", "s"], 8896443230521, 2000000000000⟩,
  ⟨"dyne", ["kg", "m"], ["s", "s"], 1, 100000⟩,
  ⟨"dynes", ["kg", "m"], ["s", "s"], 1, 100000⟩,
  ⟨"Pa", ["kg"], ["m", "s", "s"], 1, 1⟩,
  ⟨"pascal", ["kg"], ["m", "s", "s"], 1, 1⟩,
  ⟨"pascals", ["kg"], ["m", "s", "s"], 1, 1⟩,
  ⟨"kPa", ["kg"], ["m", "s", "s"], 1000, 1⟩,
  ⟨"MPa", ["kg"], ["m", "s", "s"], 1000000, 1⟩,
  ⟨"GPa", ["kg"], ["m", "s", "s"], 1000000000, 1⟩,
  ⟨"atm", ["kg"], ["m", "s", "s"], 101325, 1⟩,
  ⟨"mmHg", ["kg"], ["m", "s", "s"], 26664477483, 200000000⟩,
  ⟨"inHg", ["kg"], ["m", "s", "s"], 21164929, 6250⟩,
  ⟨"psi", ["kg"], ["m", "s", "s"], 8896443230521, 1290320000⟩,
  ⟨"kpsi", ["kg"], ["m", "s", "s"], 8896443230521, 1290320⟩,
  ⟨"Mpsi", ["kg"], ["m", "s", "s"], 222411080763025, 32258⟩,
  ⟨"psf", ["kg"], ["m", "s", "s"], 8896443230521, 185806080000⟩,
  ⟨"bar", ["kg"], ["m", "s", "s"], 100000, 1⟩,
  ⟨"kbar", ["kg"], ["m", "s", "s"], 100000000, 1⟩,
  ⟨"torr", ["kg"], ["m", "s", "s"], 20265, 152⟩,
  ⟨"inH2O", ["kg"], ["m", "s", "s"], 24908891, 100000⟩,
  ⟨"ftH2O", ["kg"], ["m", "s", "s"], 74726673, 25000⟩,
  ⟨"J", ["kg", "m", "m"], ["s", "s"], 1, 1⟩,
  ⟨"joule", ["kg", "m", "m"], ["s", "s"], 1, 1⟩,
  ⟨"joules", ["kg", "m", "m"], ["s", "s"], 1, 1⟩,
  ⟨"kJ", ["kg", "m", "m"], ["s", "s"], 1000, 1⟩,
  ⟨"MJ", ["kg", "m", "m"], ["s", "s"], 1000000, 1⟩,
  ⟨"erg", ["kg", "m", "m"], ["s", "s"], 1, 10000000⟩,
  ⟨"cal", ["kg", "m", "m"], ["s", "s"], 523, 125⟩,
  ⟨"calorie", ["kg", "m", "m"], ["s", "s"], 523, 125⟩,
  ⟨"calories", ["kg", "m", "m"], ["s", "s"], 523, 125⟩,
  ⟨"kcal", ["kg", "m", "m"], ["s", "s"], 4184, 1⟩,
  ⟨"eV", ["kg", "m", "m"], ["s", "s"], 801088317, 5000000000000000000000000000⟩,
  ⟨"keV", ["kg", "m", "m"], ["s", "s"], 801088317, 5000000000000000000000000⟩,
  ⟨"MeV", ["kg", "m", "m"], ["s", "s"], 801088317, 5000000000000000000000⟩,
  ⟨"GeV", ["kg", "m", "m"], ["s", "s"], 801088317, 5000000000000000000⟩,
  ⟨"btu", ["kg", "m", "m"], ["s", "s"], 52752792631, 50000000⟩,
  ⟨"W", ["kg", "m", "m"], ["s", "s", "s"], 1, 1⟩,
  ⟨"watts", ["kg", "m", "m"], ["s", "s", "s"], 1, 1⟩,
  ⟨"C", ["A", "s"], [], 1, 1⟩,
  ⟨"coulomb", ["A", "s"], [], 1, 1⟩,
  ⟨"coulombs", ["A", "s"], [], 1, 1⟩,
  ⟨"mC", ["A", "s"], [], 1, 1000⟩,
  ⟨"V", ["kg", "m", "m"], ["s", "s", "s", "A"], 1, 1⟩,
  ⟨"volt", ["kg", "m", "m"], ["s", "s", "s", "A"], 1, 1⟩,
  ⟨"volts", ["kg", "m", "m"], ["s", "s", "s", "A"], 1, 1⟩,
  ⟨"mV", ["kg", "m", "m"], ["s", "s", "s", "A"], 1, 1000⟩,
  ⟨"ohm", ["kg", "m", "m"], ["s", "s", "s", "A", "A"], 1, 1⟩,
  ⟨"ohms", ["kg", "m", "m"], ["s", "s", "s", "A", "A"], 1, 1⟩,
  ⟨"S", ["s", "s", "s", "A", "A"], ["kg", "m", "m"], 1, 1⟩,
  ⟨"siemens", ["s", "s", "s", "A", "A"], ["kg", "m", "m"], 1, 1⟩,
  ⟨"F", ["s", "s", "s", "s", "A", "A"], ["kg", "m", "m"], 1, 1⟩,
  ⟨"farad", ["s", "s", "s", "s", "A", "A"], ["kg", "m", "m"], 1, 1⟩,
  ⟨"farads", ["s", "s", "s", "s", "A", "A"], ["kg", "m", "m"], 1, 1⟩,
  ⟨"pF", ["s", "s", "s", "s", "A", "A"], ["kg", "m", "m"], 1, 1000000000000⟩,
  ⟨"nF", ["s", "s", "s", "s", "A", "A"], ["kg", "m", "m"], 1, 1000000000⟩,
  ⟨"uF", ["s", "s", "s", "s", "A", "A"], ["kg", "m", "m"], 1, 1000000⟩,
  ⟨"mF", ["s", "s", "s", "s", "A", "A"], ["kg", "m", "m"], 1, 1000⟩,
  ⟨"Wb", ["kg", "m", "m"], ["s", "s", "A"], 1, 1⟩,
  ⟨"weber", ["kg", "m", "m"], ["s", "s", "A"], 1, 1⟩,
  ⟨"webers", ["kg", "m", "m"], ["s", "s", "A"], 1, 1⟩,
  ⟨"T", ["kg"], ["s", "s", "A"], 1, 1⟩,
  ⟨"tesla", ["kg"], ["s", "s", "A"], 1, 1⟩,
  ⟨"teslas", ["kg"], ["s", "s", "A"], 1, 1⟩,
  ⟨"gauss", ["kg"], ["s", "s", "A"], 1, 10000⟩,
  ⟨"H", ["kg", "m", "m"], ["s", "s", "A", "A"], 1, 1⟩,
  ⟨"henry", ["kg", "m", "m"], ["s", "s", "A", "A"], 1, 1⟩,
  ⟨"mH", ["kg", "m", "m"], ["s", "s", "A", "A"], 1, 1000⟩,
  ⟨"uH", ["kg", "m", "m"], ["s", "s", "A", "A"], 1, 1000000⟩,
  ⟨"molal", ["mol"], ["kg"], 1, 1⟩,
  ⟨"molar", ["mol"], ["m", "m", "m"], 1000, 1⟩,
  ⟨"eq", ["eq"], [], 1, 1⟩,
  ⟨"mmolal", ["mol"], ["kg"], 1, 1000⟩,
  ⟨"mmolar", ["mol"], ["m", "m", "m"], 1, 1⟩,
  ⟨"meq", ["eq"], [], 1, 1000⟩,
  ⟨"umolal", ["mol"], ["kg"], 1, 1000000⟩,
  ⟨"umolar", ["mol"], ["m", "m", "m"], 1, 1000⟩,
  ⟨"ueq", ["eq"], [], 1, 1000000⟩,
  ⟨"nmolal", ["mol"], ["kg"], 1, 1000000000⟩,
  ⟨"nmolar", ["mol"], ["m", "m", "m"], 1, 1000000⟩,
  ⟨"neq", ["eq"], [], 1, 1000000000⟩,
  ⟨"K^2", ["K", "K"], [], 1, 1⟩,
  ⟨"K^3", ["K", "K", "K"], [], 1, 1⟩,
  ⟨"K^4", ["K", "K", "K", "K"], [], 1, 1⟩,
  ⟨"K^5", ["K", "K", "K", "K", "K"], [], 1, 1⟩,
  ⟨"bar^2", ["kg", "kg"], ["m", "m", "s", "s", "s", "s"], 10000000000, 1⟩,
  ⟨"bar^3", ["kg", "kg", "kg"], ["m", "m", "m", "s", "s", "s", "s", "s", "s"], 1000000000000000, 1⟩,
  ⟨"bar^4", ["kg", "kg", "kg", "kg"], ["m", "m", "m", "m", "s", "s", "s", "s", "s", "s", "s", "s"], 100000000000000000000, 1⟩,
  ⟨"bar^5", ["kg", "kg", "kg", "kg", "kg"], ["m", "m", "m", "m", "m", "s", "s", "s", "s", "s", "s", "s", "s", "s", "s"], 10000000000000000000000000, 1⟩]

/-- The names whose definition in the table is not that of the unit. -/
def misdefined : List String := ["T", "tesla", "teslas", "gauss", "bar^2", "bar^3", "bar^4", "bar^5"]

/-- The names with a fractional power, for which `accepted` has no entry. -/
def fractionalNames : List String := ["K^0.5", "K^1.5", "bar^0.5"]

/-! ### Rational evaluation of the table -/

/-- Power by repeated multiplication. -/
def powN (q : ℚ) : Nat → ℚ
  | 0 => 1
  | n + 1 => powN q n * q

/-- Integer power. -/
def powZ (q : ℚ) : Int → ℚ
  | .ofNat n => powN q n
  | .negSucc n => 1 / powN q (n + 1)

lemma powN_eq (q : ℚ) (n : Nat) : powN q n = q ^ n := by
  induction n with
  | zero => simp [powN]
  | succ n ih => rw [powN, ih, pow_succ]

lemma powZ_eq (q : ℚ) (z : Int) : powZ q z = q ^ z := by
  cases z with
  | ofNat n => simp [powZ, powN_eq]
  | negSucc n => simp [powZ, powN_eq, zpow_negSucc]

/-- The product over the parts of a definition; `none` when a power is not an integer. -/
def fqLoop (rec : Sym → Option ℚ) : List SU → Option ℚ
  | [] => some 1
  | u :: us =>
    match rec u.sym, fqLoop rec us with
    | some f, some r => if u.pd = 1 then some ((u.num : ℚ) / u.den * powZ f u.pn * r) else none
    | _, _ => none

/-- The factor of a unit as a rational number; `none` when a power is not an integer. -/
def fq : Nat → Sym → Option ℚ
  | 0, _ => none
  | n + 1, s =>
    if isTemp s then some 1
    else match lookup s table with
      | none => none
      | some us => if us.head?.map (·.sym) = some s then some 1 else fqLoop (fq n) us

lemma fqLoop_eq {F : Sym → ℝ} {rec : Sym → Option ℚ} (h : ∀ s q, rec s = some q → F s = q) :
    ∀ (us : List SU) (r : ℚ), fqLoop rec us = some r →
      (us.map (fun u => (u.num : ℝ) / u.den * F u.sym ^ ((u.pn : ℝ) / u.pd))).prod = r
  | [], r, hr => by
    simp only [fqLoop, Option.some.injEq] at hr
    simp [← hr]
  | u :: us, r, hr => by
    rw [fqLoop] at hr
    split at hr
    · rename_i f r' hf hr'
      split at hr
      · rename_i hp
        rw [Option.some.injEq] at hr
        rw [List.map_cons, List.prod_cons, fqLoop_eq h us r' hr', h _ _ hf, hp, Nat.cast_one, div_one,
          Real.rpow_intCast, ← hr, powZ_eq]
        push_cast
        ring
      · simp at hr
    · simp at hr

lemma fq_eq : ∀ (n : Nat) (s : Sym) (q : ℚ), fq n s = some q → fval s = q
  | 0, s, q, h => by simp [fq] at h
  | n + 1, s, q, h => by
    rw [fq] at h
    split at h
    · rename_i ht
      rw [Option.some.injEq] at h
      obtain ⟨t, ht1, ht2⟩ := List.mem_map.mp (isTemp_iff.mp ht)
      rw [← ht2, fval_isFactor.temperature t ht1, ← h]; simp
    · split at h
      · simp at h
      · rename_i us hl
        have hm := mem_of_lookup hl
        split at h
        · rename_i hs
          rw [Option.some.injEq] at h
          rw [fval_isFactor.base _ hm hs, ← h]; simp
        · rename_i hs
          rw [fval_isFactor.derived _ hm hs]
          exact fqLoop_eq (fq_eq n) us q h

/-- The value of an expression as a rational number. -/
def UE.valueQ : UE → Option ℚ
  | .sym s => fq depth s
  | .paren e => e.valueQ
  | .mul l r => match l.valueQ, r.valueQ with
    | some a, some b => some (a * b)
    | _, _ => none
  | .div l r => match l.valueQ, r.valueQ with
    | some a, some b => some (a / b)
    | _, _ => none

lemma valueQ_eq : ∀ (e : UE) (q : ℚ), e.valueQ = some q → e.value fval = q
  | .sym s, q, h => fq_eq _ s q h
  | .paren e, q, h => valueQ_eq e q h
  | .mul l r, q, h => by
    rw [UE.valueQ] at h
    split at h
    · rename_i a b ha hb
      rw [Option.some.injEq] at h
      rw [UE.value, valueQ_eq l a ha, valueQ_eq r b hb, ← h]; push_cast; rfl
    · simp at h
  | .div l r, q, h => by
    rw [UE.valueQ] at h
    split at h
    · rename_i a b ha hb
      rw [Option.some.injEq] at h
      rw [UE.value, valueQ_eq l a ha, valueQ_eq r b hb, ← h]; push_cast; rfl
    · simp at h

/-- Boolean form of `UE.WF`. -/
def UE.wfB : UE → Bool
  | .sym s => !s.isEmpty && s.all (fun c => c != '*' && c != '/' && c != '(' && c != ')')
  | .paren e => e.wfB
  | .mul l r => l.wfB && r.wfB && (match r with | .sym _ => true | .paren _ => true | _ => false)
  | .div l r => l.wfB && r.wfB && (match r with | .sym _ => true | .paren _ => true | _ => false)

lemma isTerm_of {r : UE} (h : (match r with | .sym _ => true | .paren _ => true | _ => false) = true) : r.isTerm := by
  cases r <;> simp_all [UE.isTerm]

lemma wf_of : ∀ e : UE, e.wfB = true → e.WF
  | .sym s, h => by
    simp only [UE.wfB, Bool.and_eq_true, List.all_eq_true, bne_iff_ne, Bool.not_eq_true', List.isEmpty_eq_false_iff] at h
    exact ⟨h.1, fun c hc => ⟨(h.2 c hc).1.1.1, (h.2 c hc).1.1.2, (h.2 c hc).1.2, (h.2 c hc).2⟩⟩
  | .paren e, h => wf_of e h
  | .mul l r, h => by
    simp only [UE.wfB, Bool.and_eq_true] at h
    exact ⟨wf_of l h.1.1, wf_of r h.1.2, isTerm_of h.2⟩
  | .div l r, h => by
    simp only [UE.wfB, Bool.and_eq_true] at h
    exact ⟨wf_of l h.1.1, wf_of r h.1.2, isTerm_of h.2⟩

/-- Whether the dimensions of two expressions are known and equal; `none` when one is not known. -/
def dimAgree (a b : UE) : Option Bool :=
  match dimList (a.terms 1), dimList (b.terms 1) with
  | .ok d, .ok d' => some (sameDim d d')
  | _, _ => none

lemma convert_agree {a b : UE} (ha : a.wfB = true) (hb : b.wfB = true) (ht : isTemp a.render = false)
    (h : dimAgree a b = some true) (x : ℝ) : ∃ y, convert x a.render b.render = .ok y := by
  rw [dimAgree] at h
  split at h
  · rename_i d d' hd hd'
    rw [Option.some.injEq] at h
    exact ⟨_, convert_of (by simp [ht]) (parseUnit_render a (wf_of a ha)) (parseUnit_render b (wf_of b hb)) hd hd' h x⟩
  · simp at h

lemma convert_disagree {a b : UE} (ha : a.wfB = true) (hb : b.wfB = true) (ht : isTemp a.render = false)
    (h : dimAgree a b = some false) (x : ℝ) : convert x a.render b.render = .throw := by
  rw [dimAgree] at h
  split at h
  · rename_i d d' hd hd'
    rw [Option.some.injEq] at h
    rw [convert, if_neg (by simp [ht]), parseUnit_render a (wf_of a ha), parseUnit_render b (wf_of b hb)]
    simp only [Res.ok_bind, hd, hd']
    rw [if_neg (by simp [h])]
  · simp at h

/-- Conversion between two expressions, evaluated. -/
lemma convert_eval {a b : UE} (ha : a.wfB = true) (hb : b.wfB = true) (ht : isTemp a.render = false)
    (h : dimAgree a b = some true) {p q : ℚ} (hp : a.valueQ = some p) (hq : b.valueQ = some q) (x : ℝ) :
    convert x a.render b.render = .ok (x * p / q) := by
  obtain ⟨y, hy⟩ := convert_agree ha hb ht h x
  have := C16_meaning fval fval_isFactor a b (wf_of a ha) (wf_of b hb) (Or.inl ht) hy
  rw [hy, this, valueQ_eq a p hp, valueQ_eq b q hq]

/-- The check of one accepted unit to the relative tolerance 1/10000000. -/
def rowOK (r : Accepted) : Bool :=
  let a : UE := .sym r.name.toList
  a.wfB && r.si.wfB && !isTemp a.render && dimAgree a r.si == some true &&
  match a.valueQ, r.si.valueQ with
  | some p, some q =>
    decide ((p / q - (r.vn : ℚ) / r.vd) * 10000000 ≤ (r.vn : ℚ) / r.vd) &&
    decide (((r.vn : ℚ) / r.vd - p / q) * 10000000 ≤ (r.vn : ℚ) / r.vd)
  | _, _ => false

lemma rowOK_spec {r : Accepted} (h : rowOK r = true) (x : ℝ) :
    ∃ y, convert x r.name.toList r.si.render = .ok y ∧ |y - r.value * x| ≤ r.value * |x| / 10000000 := by
  simp only [rowOK, Bool.and_eq_true, Bool.not_eq_true', beq_iff_eq] at h
  obtain ⟨⟨⟨⟨h1, h2⟩, h3⟩, h4⟩, h5⟩ := h
  split at h5
  · rename_i p q hp hq
    simp only [Bool.and_eq_true, decide_eq_true_eq] at h5
    refine ⟨_, convert_eval h1 h2 h3 h4 hp hq x, ?_⟩
    have e1 : ((p : ℝ) / q - r.value) * 10000000 ≤ r.value := by
      have := (Rat.cast_le (K := ℝ)).mpr h5.1
      push_cast at this; exact this
    have e2 : (r.value - (p : ℝ) / q) * 10000000 ≤ r.value := by
      have := (Rat.cast_le (K := ℝ)).mpr h5.2
      push_cast at this; exact this
    have e3 : |(p : ℝ) / q - r.value| ≤ r.value / 10000000 := by
      rw [abs_le]; constructor <;> linarith
    have : x * p / q - r.value * x = ((p : ℝ) / q - r.value) * x := by ring
    rw [this, abs_mul]
    calc _ ≤ r.value / 10000000 * |x| := mul_le_mul_of_nonneg_right e3 (abs_nonneg x)
      _ = _ := by ring
  · simp at h5

/-! ### C149 -/

set_option maxRecDepth 100000 in
/-- **C149 (part).** Every name of the table has its accepted value: `convert(x, name, SI)` gives x times the accepted
value of the name to one part in ten million, for every number x and every accepted unit outside `misdefined`; and the
accepted units are all names of the table but the three with fractional powers.
Missing: the names of `misdefined`, for which it is false (below), and the three fractional powers (C15, C18). -/
theorem C149_partial :
    (∀ r ∈ accepted, r.name ∉ misdefined → ∀ x : ℝ,
      ∃ y, convert x r.name.toList r.si.render = .ok y ∧ |y - r.value * x| ≤ r.value * |x| / 10000000) ∧
    (∀ e ∈ table, ∃ n ∈ accepted.map (·.name) ++ fractionalNames, n.toList = e.1) := by
  constructor
  · intro r hr hm x
    have h : accepted.all (fun r => decide (r.name ∈ misdefined) || rowOK r) = true := by decide +kernel
    have := List.all_eq_true.mp h r hr
    simp only [Bool.or_eq_true, decide_eq_true_eq] at this
    exact rowOK_spec (this.resolve_left hm) x
  · intro e he
    have h : table.all (fun e => (accepted.map (·.name) ++ fractionalNames).any (fun n => n.toList == e.1)) = true := by
      decide +kernel
    have := List.all_eq_true.mp h e he
    rw [List.any_eq_true] at this
    obtain ⟨n, hn, hn'⟩ := this
    exact ⟨n, hn, by simpa using hn'⟩

/-- The hypotheses are met by most entries: 232 of the 240 accepted units are not misdefined, the pound-force among
them. -/
example : (accepted.filter (fun r => !misdefined.contains r.name)).length = 232 ∧
    (⟨"lbf", ["kg", "m"], ["s", "s"], 8896443230521, 2000000000000⟩ : Accepted).name ∉ misdefined := by
  decide +kernel

set_option maxRecDepth 100000 in
/-- **C149, violation.** For each of the misdefined names the conversion to the unit's own SI expression is refused: the
tesla, its spellings and the gauss are not accepted as kg/(s²·A), nor the powers of the bar as powers of kg/(m·s²). -/
theorem C149_refuted : ∀ r ∈ accepted, r.name ∈ misdefined → ∀ x : ℝ,
    convert x r.name.toList r.si.render = .throw := by
  intro r hr hm x
  have h : accepted.all (fun r => !decide (r.name ∈ misdefined) ||
      ((UE.sym r.name.toList).wfB && r.si.wfB && !isTemp (UE.sym r.name.toList).render &&
        dimAgree (.sym r.name.toList) r.si == some false)) = true := by decide +kernel
  have := List.all_eq_true.mp h r hr
  simp only [Bool.or_eq_true, Bool.not_eq_true', decide_eq_false_iff_not, Bool.and_eq_true, beq_iff_eq] at this
  obtain ⟨⟨⟨h1, h2⟩, h3⟩, h4⟩ := this.resolve_left (fun h => h hm)
  exact convert_disagree h1 h2 h3 h4 x

/-- There are such entries. -/
example : (accepted.filter (fun r => misdefined.contains r.name)).length = 8 := by decide +kernel

/-- **C149, violation (what a tesla is).** A tesla is taken as one weber times a square metre, and refused as one weber
per square metre, for every number. -/
theorem C149_tesla_refuted (x : ℝ) :
    convert x "T".toList (UE.mul (.sym "Wb".toList) (.sym "m2".toList)).render = .ok x ∧
    convert x "T".toList (UE.div (.sym "Wb".toList) (.sym "m2".toList)).render = .throw := by
  constructor
  · have := convert_eval (a := .sym "T".toList) (b := .mul (.sym "Wb".toList) (.sym "m2".toList)) (by decide +kernel)
      (by decide +kernel) (by decide +kernel) (by decide +kernel) (p := 1000) (q := 1000) (by decide +kernel)
      (by decide +kernel) x
    rw [UE.render] at this
    rw [this]
    congr 1
    push_cast
    field_simp
  · exact convert_disagree (a := .sym "T".toList) (b := .div (.sym "Wb".toList) (.sym "m2".toList)) (by decide +kernel)
      (by decide +kernel) (by decide +kernel) (by decide +kernel) x

/-- **C149, violation (acre and foot).** An acre is 43560 square feet; with the table's own foot one acre is more than
43560.17 square feet, because the acre is the survey unit and the foot the international one. -/
theorem C149_acre_refuted : ∃ y, convert 1 "acre".toList "ft2".toList = .ok y ∧ (43560.17 : ℝ) < y := by
  have := convert_eval (a := .sym "acre".toList) (b := .sym "ft2".toList) (by decide +kernel) (by decide +kernel)
    (by decide +kernel) (by decide +kernel) (p := 20234363 / 5000) (q := (3048 / 10000) ^ 2) (by decide +kernel)
    (by decide +kernel) 1
  refine ⟨_, this, ?_⟩
  push_cast
  norm_num

end ThermoFun.Units

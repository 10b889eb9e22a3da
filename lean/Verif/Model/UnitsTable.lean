/-!
The derived-unit table `derivedUnitsMap`, /repo/ThermoFun/Common/Units.cpp:97-403, transcribed by tools/gen_units.py.
Simplifications: unit names are lists of characters; a decimal literal such as `453.59237` or `pi/180` (Units.cpp:77-94)
is the exact rational it denotes, not the nearest double, given as numerator and denominator.
-/

namespace ThermoFun.Units

/-- Unit names and unit strings (`std::string`), as lists of characters. -/
abbrev Sym := List Char

/-- `StringUnit`, Units.cpp:62-67: factor `num/den`, symbol, power `pn/pd`. -/
structure SU where
  num : Nat
  den : Nat
  sym : Sym
  pn : Int
  pd : Nat
deriving DecidableEq, Repr

/-- `derivedUnitsMap`, Units.cpp:97-403 (line of each entry in the comment). -/
def table : List (Sym × List SU) := [
  -- 100: 1
  (['1'], [⟨1, 1, ['1'], 1, 1⟩]),
  -- 101: %%
  (['%', '%'], [⟨1, 100, ['1'], 1, 1⟩]),
  -- 102: percent
  (['p', 'e', 'r', 'c', 'e', 'n', 't'], [⟨1, 100, ['1'], 1, 1⟩]),
  -- 103: %%%%
  (['%', '%', '%', '%'], [⟨1, 1000, ['1'], 1, 1⟩]),
  -- 104: permil
  (['p', 'e', 'r', 'm', 'i', 'l'], [⟨1, 1000, ['1'], 1, 1⟩]),
  -- 105: ppm
  (['p', 'p', 'm'], [⟨1, 1000000, ['1'], 1, 1⟩]),
  -- 106: ppb
  (['p', 'p', 'b'], [⟨1, 1000000000, ['1'], 1, 1⟩]),
  -- 109: g
  (['g'], [⟨1, 1, ['g'], 1, 1⟩]),
  -- 110: kg
  (['k', 'g'], [⟨1000, 1, ['g'], 1, 1⟩]),
  -- 111: mg
  (['m', 'g'], [⟨1, 1000, ['g'], 1, 1⟩]),
  -- 112: ug
  (['u', 'g'], [⟨1, 1000000, ['g'], 1, 1⟩]),
  -- 113: ng
  (['n', 'g'], [⟨1, 1000000000, ['g'], 1, 1⟩]),
  -- 114: tonne
  (['t', 'o', 'n', 'n', 'e'], [⟨1000, 1, ['k', 'g'], 1, 1⟩]),
  -- 115: lb
  (['l', 'b'], [⟨45359237, 100000, ['g'], 1, 1⟩]),
  -- 116: amu
  (['a', 'm', 'u'], [⟨1660538921, 1000000000000000000000000000000000000, ['k', 'g'], 1, 1⟩]),
  -- 117: ton
  (['t', 'o', 'n'], [⟨2000, 1, ['l', 'b'], 1, 1⟩]),
  -- 118: gram
  (['g', 'r', 'a', 'm'], [⟨1, 1, ['g'], 1, 1⟩]),
  -- 119: grams
  (['g', 'r', 'a', 'm', 's'], [⟨1, 1, ['g'], 1, 1⟩]),
  -- 120: kilogram
  (['k', 'i', 'l', 'o', 'g', 'r', 'a', 'm'], [⟨1, 1, ['k', 'g'], 1, 1⟩]),
  -- 121: kilograms
  (['k', 'i', 'l', 'o', 'g', 'r', 'a', 'm', 's'], [⟨1, 1, ['k', 'g'], 1, 1⟩]),
  -- 122: lbm
  (['l', 'b', 'm'], [⟨1, 1, ['l', 'b'], 1, 1⟩]),
  -- 125: m
  (['m'], [⟨1, 1, ['m'], 1, 1⟩]),
  -- 126: km
  (['k', 'm'], [⟨1000, 1, ['m'], 1, 1⟩]),
  -- 127: cm
  (['c', 'm'], [⟨1, 100, ['m'], 1, 1⟩]),
  -- 128: mm
  (['m', 'm'], [⟨1, 1000, ['m'], 1, 1⟩]),
  -- 129: um
  (['u', 'm'], [⟨1, 1000000, ['m'], 1, 1⟩]),
  -- 130: nm
  (['n', 'm'], [⟨1, 1000000000, ['m'], 1, 1⟩]),
  -- 131: Angstrom
  (['A', 'n', 'g', 's', 't', 'r', 'o', 'm'], [⟨1, 10000000000, ['m'], 1, 1⟩]),
  -- 132: in
  (['i', 'n'], [⟨127, 5, ['m', 'm'], 1, 1⟩]),
  -- 133: mil
  (['m', 'i', 'l'], [⟨1, 1000, ['i', 'n'], 1, 1⟩]),
  -- 134: ft
  (['f', 't'], [⟨12, 1, ['i', 'n'], 1, 1⟩]),
  -- 135: yd
  (['y', 'd'], [⟨3, 1, ['f', 't'], 1, 1⟩]),
  -- 136: mi
  (['m', 'i'], [⟨5280, 1, ['f', 't'], 1, 1⟩]),
  -- 137: nauticalmile
  (['n', 'a', 'u', 't', 'i', 'c', 'a', 'l', 'm', 'i', 'l', 'e'], [⟨1852, 1, ['m'], 1, 1⟩]),
  -- 138: lightyear
  (['l', 'i', 'g', 'h', 't', 'y', 'e', 'a', 'r'], [⟨9460730472580800, 1, ['m'], 1, 1⟩]),
  -- 139: au
  (['a', 'u'], [⟨149597870700, 1, ['m'], 1, 1⟩]),
  -- 140: feet
  (['f', 'e', 'e', 't'], [⟨1, 1, ['f', 't'], 1, 1⟩]),
  -- 141: foot
  (['f', 'o', 'o', 't'], [⟨1, 1, ['f', 't'], 1, 1⟩]),
  -- 142: inch
  (['i', 'n', 'c', 'h'], [⟨1, 1, ['i', 'n'], 1, 1⟩]),
  -- 143: inches
  (['i', 'n', 'c', 'h', 'e', 's'], [⟨1, 1, ['i', 'n'], 1, 1⟩]),
  -- 144: meter
  (['m', 'e', 't', 'e', 'r'], [⟨1, 1, ['m'], 1, 1⟩]),
  -- 145: meters
  (['m', 'e', 't', 'e', 'r', 's'], [⟨1, 1, ['m'], 1, 1⟩]),
  -- 146: mile
  (['m', 'i', 'l', 'e'], [⟨1, 1, ['m', 'i'], 1, 1⟩]),
  -- 147: miles
  (['m', 'i', 'l', 'e', 's'], [⟨1, 1, ['m', 'i'], 1, 1⟩]),
  -- 148: yard
  (['y', 'a', 'r', 'd'], [⟨1, 1, ['y', 'd'], 1, 1⟩]),
  -- 149: yards
  (['y', 'a', 'r', 'd', 's'], [⟨1, 1, ['y', 'd'], 1, 1⟩]),
  -- 152: s
  (['s'], [⟨1, 1, ['s'], 1, 1⟩]),
  -- 153: ms
  (['m', 's'], [⟨1, 1000, ['s'], 1, 1⟩]),
  -- 154: us
  (['u', 's'], [⟨1, 1000000, ['s'], 1, 1⟩]),
  -- 155: ns
  (['n', 's'], [⟨1, 1000000000, ['s'], 1, 1⟩]),
  -- 156: minute
  (['m', 'i', 'n', 'u', 't', 'e'], [⟨60, 1, ['s'], 1, 1⟩]),
  -- 157: hour
  (['h', 'o', 'u', 'r'], [⟨3600, 1, ['s'], 1, 1⟩]),
  -- 158: day
  (['d', 'a', 'y'], [⟨24, 1, ['h', 'o', 'u', 'r'], 1, 1⟩]),
  -- 159: week
  (['w', 'e', 'e', 'k'], [⟨7, 1, ['d', 'a', 'y'], 1, 1⟩]),
  -- 160: month
  (['m', 'o', 'n', 't', 'h'], [⟨608737, 20000, ['d', 'a', 'y'], 1, 1⟩]),
  -- 161: year
  (['y', 'e', 'a', 'r'], [⟨1826211, 5000, ['d', 'a', 'y'], 1, 1⟩]),
  -- 162: second
  (['s', 'e', 'c', 'o', 'n', 'd'], [⟨1, 1, ['s'], 1, 1⟩]),
  -- 163: seconds
  (['s', 'e', 'c', 'o', 'n', 'd', 's'], [⟨1, 1, ['s'], 1, 1⟩]),
  -- 164: minutes
  (['m', 'i', 'n', 'u', 't', 'e', 's'], [⟨1, 1, ['m', 'i', 'n', 'u', 't', 'e'], 1, 1⟩]),
  -- 165: hours
  (['h', 'o', 'u', 'r', 's'], [⟨1, 1, ['h', 'o', 'u', 'r'], 1, 1⟩]),
  -- 166: days
  (['d', 'a', 'y', 's'], [⟨1, 1, ['d', 'a', 'y'], 1, 1⟩]),
  -- 167: weeks
  (['w', 'e', 'e', 'k', 's'], [⟨1, 1, ['w', 'e', 'e', 'k'], 1, 1⟩]),
  -- 168: months
  (['m', 'o', 'n', 't', 'h', 's'], [⟨1, 1, ['m', 'o', 'n', 't', 'h'], 1, 1⟩]),
  -- 169: years
  (['y', 'e', 'a', 'r', 's'], [⟨1, 1, ['y', 'e', 'a', 'r'], 1, 1⟩]),
  -- 172: A
  (['A'], [⟨1, 1, ['A'], 1, 1⟩]),
  -- 173: MA
  (['M', 'A'], [⟨1000000, 1, ['A'], 1, 1⟩]),
  -- 174: kA
  (['k', 'A'], [⟨1000, 1, ['A'], 1, 1⟩]),
  -- 175: mA
  (['m', 'A'], [⟨1, 1000, ['A'], 1, 1⟩]),
  -- 176: uA
  (['u', 'A'], [⟨1, 1000000, ['A'], 1, 1⟩]),
  -- 177: nA
  (['n', 'A'], [⟨1, 1000000000, ['A'], 1, 1⟩]),
  -- 178: pA
  (['p', 'A'], [⟨1, 1000000000000, ['A'], 1, 1⟩]),
  -- 179: ampere
  (['a', 'm', 'p', 'e', 'r', 'e'], [⟨1, 1, ['A'], 1, 1⟩]),
  -- 180: amperes
  (['a', 'm', 'p', 'e', 'r', 'e', 's'], [⟨1, 1, ['A'], 1, 1⟩]),
  -- 183: mol
  (['m', 'o', 'l'], [⟨1, 1, ['m', 'o', 'l'], 1, 1⟩]),
  -- 184: mmol
  (['m', 'm', 'o', 'l'], [⟨1, 1000, ['m', 'o', 'l'], 1, 1⟩]),
  -- 185: umol
  (['u', 'm', 'o', 'l'], [⟨1, 1000000, ['m', 'o', 'l'], 1, 1⟩]),
  -- 186: mole
  (['m', 'o', 'l', 'e'], [⟨1, 1, ['m', 'o', 'l'], 1, 1⟩]),
  -- 187: moles
  (['m', 'o', 'l', 'e', 's'], [⟨1, 1, ['m', 'o', 'l'], 1, 1⟩]),
  -- 190: cd
  (['c', 'd'], [⟨1, 1, ['c', 'd'], 1, 1⟩]),
  -- 191: candela
  (['c', 'a', 'n', 'd', 'e', 'l', 'a'], [⟨1, 1, ['c', 'd'], 1, 1⟩]),
  -- 194: radian
  (['r', 'a', 'd', 'i', 'a', 'n'], [⟨1, 1, ['r', 'a', 'd', 'i', 'a', 'n'], 1, 1⟩]),
  -- 195: mradian
  (['m', 'r', 'a', 'd', 'i', 'a', 'n'], [⟨1, 1000, ['r', 'a', 'd', 'i', 'a', 'n'], 1, 1⟩]),
  -- 196: uradian
  (['u', 'r', 'a', 'd', 'i', 'a', 'n'], [⟨1, 1000000, ['r', 'a', 'd', 'i', 'a', 'n'], 1, 1⟩]),
  -- 197: deg
  (['d', 'e', 'g'], [⟨314159265359, 18000000000000, ['r', 'a', 'd', 'i', 'a', 'n'], 1, 1⟩]),
  -- 198: degree
  (['d', 'e', 'g', 'r', 'e', 'e'], [⟨1, 1, ['d', 'e', 'g'], 1, 1⟩]),
  -- 199: degrees
  (['d', 'e', 'g', 'r', 'e', 'e', 's'], [⟨1, 1, ['d', 'e', 'g'], 1, 1⟩]),
  -- 202: sr
  (['s', 'r'], [⟨1, 1, ['s', 'r'], 1, 1⟩]),
  -- 203: steradian
  (['s', 't', 'e', 'r', 'a', 'd', 'i', 'a', 'n'], [⟨1, 1, ['s', 'r'], 1, 1⟩]),
  -- 206: m2
  (['m', '2'], [⟨1, 1, ['m'], 2, 1⟩]),
  -- 207: m^2
  (['m', '^', '2'], [⟨1, 1, ['m'], 2, 1⟩]),
  -- 208: mm2
  (['m', 'm', '2'], [⟨1, 1, ['m', 'm'], 2, 1⟩]),
  -- 209: mm^2
  (['m', 'm', '^', '2'], [⟨1, 1, ['m', 'm'], 2, 1⟩]),
  -- 210: cm2
  (['c', 'm', '2'], [⟨1, 1, ['c', 'm'], 2, 1⟩]),
  -- 211: cm^2
  (['c', 'm', '^', '2'], [⟨1, 1, ['c', 'm'], 2, 1⟩]),
  -- 212: in2
  (['i', 'n', '2'], [⟨1, 1, ['i', 'n'], 2, 1⟩]),
  -- 213: in^2
  (['i', 'n', '^', '2'], [⟨1, 1, ['i', 'n'], 2, 1⟩]),
  -- 214: ft2
  (['f', 't', '2'], [⟨1, 1, ['f', 't'], 2, 1⟩]),
  -- 215: ft^2
  (['f', 't', '^', '2'], [⟨1, 1, ['f', 't'], 2, 1⟩]),
  -- 216: hectare
  (['h', 'e', 'c', 't', 'a', 'r', 'e'], [⟨10000, 1, ['m', '2'], 1, 1⟩]),
  -- 217: acre
  (['a', 'c', 'r', 'e'], [⟨20234363, 5000, ['m', '2'], 1, 1⟩]),
  -- 218: barn
  (['b', 'a', 'r', 'n'], [⟨1, 10000000000000000000000000000, ['m', '2'], 1, 1⟩]),
  -- 219: hectares
  (['h', 'e', 'c', 't', 'a', 'r', 'e', 's'], [⟨1, 1, ['h', 'e', 'c', 't', 'a', 'r', 'e'], 1, 1⟩]),
  -- 220: acres
  (['a', 'c', 'r', 'e', 's'], [⟨1, 1, ['a', 'c', 'r', 'e'], 1, 1⟩]),
  -- 221: barns
  (['b', 'a', 'r', 'n', 's'], [⟨1, 1, ['b', 'a', 'r', 'n'], 1, 1⟩]),
  -- 224: m3
  (['m', '3'], [⟨1, 1, ['m'], 3, 1⟩]),
  -- 225: m^3
  (['m', '^', '3'], [⟨1, 1, ['m'], 3, 1⟩]),
  -- 226: mm3
  (['m', 'm', '3'], [⟨1, 1, ['m', 'm'], 3, 1⟩]),
  -- 227: mm^3
  (['m', 'm', '^', '3'], [⟨1, 1, ['m', 'm'], 3, 1⟩]),
  -- 228: cm3
  (['c', 'm', '3'], [⟨1, 1, ['c', 'm'], 3, 1⟩]),
  -- 229: cm^3
  (['c', 'm', '^', '3'], [⟨1, 1, ['c', 'm'], 3, 1⟩]),
  -- 230: in3
  (['i', 'n', '3'], [⟨1, 1, ['i', 'n'], 3, 1⟩]),
  -- 231: in^3
  (['i', 'n', '^', '3'], [⟨1, 1, ['i', 'n'], 3, 1⟩]),
  -- 232: ft3
  (['f', 't', '3'], [⟨1, 1, ['f', 't'], 3, 1⟩]),
  -- 233: ft^3
  (['f', 't', '^', '3'], [⟨1, 1, ['f', 't'], 3, 1⟩]),
  -- 234: l
  (['l'], [⟨1, 1000, ['m', '3'], 1, 1⟩]),
  -- 235: ml
  (['m', 'l'], [⟨1, 1000, ['l'], 1, 1⟩]),
  -- 236: ul
  (['u', 'l'], [⟨1, 1000000, ['l'], 1, 1⟩]),
  -- 237: L
  (['L'], [⟨1, 1000, ['m', '3'], 1, 1⟩]),
  -- 238: mL
  (['m', 'L'], [⟨1, 1000, ['L'], 1, 1⟩]),
  -- 239: uL
  (['u', 'L'], [⟨1, 1000000, ['L'], 1, 1⟩]),
  -- 240: gal
  (['g', 'a', 'l'], [⟨454609, 100000, ['l'], 1, 1⟩]),
  -- 241: quart
  (['q', 'u', 'a', 'r', 't'], [⟨1, 4, ['g', 'a', 'l'], 1, 1⟩]),
  -- 242: cc
  (['c', 'c'], [⟨1, 1, ['c', 'm', '3'], 1, 1⟩]),
  -- 243: gallon
  (['g', 'a', 'l', 'l', 'o', 'n'], [⟨1, 1, ['g', 'a', 'l'], 1, 1⟩]),
  -- 244: gallons
  (['g', 'a', 'l', 'l', 'o', 'n', 's'], [⟨1, 1, ['g', 'a', 'l'], 1, 1⟩]),
  -- 245: liter
  (['l', 'i', 't', 'e', 'r'], [⟨1, 1, ['l'], 1, 1⟩]),
  -- 246: liters
  (['l', 'i', 't', 'e', 'r', 's'], [⟨1, 1, ['l'], 1, 1⟩]),
  -- 249: mps
  (['m', 'p', 's'], [⟨1, 1, ['m'], 1, 1⟩, ⟨1, 1, ['s'], -1, 1⟩]),
  -- 250: cmps
  (['c', 'm', 'p', 's'], [⟨1, 1, ['c', 'm'], 1, 1⟩, ⟨1, 1, ['s'], -1, 1⟩]),
  -- 251: mph
  (['m', 'p', 'h'], [⟨1, 1, ['m', 'i', 'l', 'e'], 1, 1⟩, ⟨1, 1, ['h', 'o', 'u', 'r'], -1, 1⟩]),
  -- 252: knot
  (['k', 'n', 'o', 't'], [⟨1, 1, ['n', 'a', 'u', 't', 'i', 'c', 'a', 'l', 'm', 'i', 'l', 'e'], 1, 1⟩, ⟨1, 1, ['h', 'o', 'u', 'r'], -1, 1⟩]),
  -- 253: fps
  (['f', 'p', 's'], [⟨1, 1, ['f', 'o', 'o', 't'], 1, 1⟩, ⟨1, 1, ['s'], -1, 1⟩]),
  -- 256: mpss
  (['m', 'p', 's', 's'], [⟨1, 1, ['m', 'p', 's'], 1, 1⟩, ⟨1, 1, ['s'], -1, 1⟩]),
  -- 257: fpss
  (['f', 'p', 's', 's'], [⟨1, 1, ['f', 'p', 's'], 1, 1⟩, ⟨1, 1, ['s'], -1, 1⟩]),
  -- 258: gravity
  (['g', 'r', 'a', 'v', 'i', 't', 'y'], [⟨196133, 20000, ['m', 'p', 's', 's'], 1, 1⟩]),
  -- 261: Hz
  (['H', 'z'], [⟨1, 1, ['s'], -1, 1⟩]),
  -- 262: kHz
  (['k', 'H', 'z'], [⟨1000, 1, ['H', 'z'], 1, 1⟩]),
  -- 263: MHz
  (['M', 'H', 'z'], [⟨1000000, 1, ['H', 'z'], 1, 1⟩]),
  -- 264: GHz
  (['G', 'H', 'z'], [⟨1000000000, 1, ['H', 'z'], 1, 1⟩]),
  -- 265: rpm
  (['r', 'p', 'm'], [⟨1, 1, ['m', 'i', 'n', 'u', 't', 'e'], -1, 1⟩]),
  -- 266: hertz
  (['h', 'e', 'r', 't', 'z'], [⟨1, 1, ['H', 'z'], 1, 1⟩]),
  -- 269: gps
  (['g', 'p', 's'], [⟨1, 1, ['g', 'a', 'l'], 1, 1⟩, ⟨1, 1, ['s'], -1, 1⟩]),
  -- 270: gpm
  (['g', 'p', 'm'], [⟨1, 1, ['g', 'a', 'l'], 1, 1⟩, ⟨1, 1, ['m', 'i', 'n', 'u', 't', 'e'], -1, 1⟩]),
  -- 271: gph
  (['g', 'p', 'h'], [⟨1, 1, ['g', 'a', 'l'], 1, 1⟩, ⟨1, 1, ['h', 'o', 'u', 'r'], -1, 1⟩]),
  -- 272: cfs
  (['c', 'f', 's'], [⟨1, 1, ['f', 't', '3'], 1, 1⟩, ⟨1, 1, ['s'], -1, 1⟩]),
  -- 273: cfm
  (['c', 'f', 'm'], [⟨1, 1, ['f', 't', '3'], 1, 1⟩, ⟨1, 1, ['m', 'i', 'n', 'u', 't', 'e'], -1, 1⟩]),
  -- 274: lps
  (['l', 'p', 's'], [⟨1, 1, ['l', 'i', 't', 'e', 'r'], 1, 1⟩, ⟨1, 1, ['s'], -1, 1⟩]),
  -- 275: lpm
  (['l', 'p', 'm'], [⟨1, 1, ['l', 'i', 't', 'e', 'r'], 1, 1⟩, ⟨1, 1, ['m', 'i', 'n', 'u', 't', 'e'], -1, 1⟩]),
  -- 278: N
  (['N'], [⟨1, 1, ['k', 'g'], 1, 1⟩, ⟨1, 1, ['m'], 1, 1⟩, ⟨1, 1, ['s'], -2, 1⟩]),
  -- 279: kN
  (['k', 'N'], [⟨1000, 1, ['N'], 1, 1⟩]),
  -- 280: lbf
  (['l', 'b', 'f'], [⟨222411081, 50000000, ['N'], 1, 1⟩]),
  -- 281: dyne
  (['d', 'y', 'n', 'e'], [⟨1, 100000, ['N'], 1, 1⟩]),
  -- 282: dynes
  (['d', 'y', 'n', 'e', 's'], [⟨1, 1, ['d', 'y', 'n', 'e'], 1, 1⟩]),
  -- 283: newton
  (['n', 'e', 'w', 't', 'o', 'n'], [⟨1, 1, ['N'], 1, 1⟩]),
  -- 284: newtons
  (['n', 'e', 'w', 't', 'o', 'n', 's'], [⟨1, 1, ['N'], 1, 1⟩]),
  -- 287: Pa
  (['P', 'a'], [⟨1, 1, ['N'], 1, 1⟩, ⟨1, 1, ['m', '2'], -1, 1⟩]),
  -- 288: kPa
  (['k', 'P', 'a'], [⟨1000, 1, ['P', 'a'], 1, 1⟩]),
  -- 289: MPa
  (['M', 'P', 'a'], [⟨1000000, 1, ['P', 'a'], 1, 1⟩]),
  -- 290: GPa
  (['G', 'P', 'a'], [⟨1000000000, 1, ['P', 'a'], 1, 1⟩]),
  -- 291: atm
  (['a', 't', 'm'], [⟨101325, 1, ['P', 'a'], 1, 1⟩]),
  -- 292: mmHg
  (['m', 'm', 'H', 'g'], [⟨13332239, 100000, ['P', 'a'], 1, 1⟩]),
  -- 293: inHg
  (['i', 'n', 'H', 'g'], [⟨16931943, 5000, ['P', 'a'], 1, 1⟩]),
  -- 294: psi
  (['p', 's', 'i'], [⟨1, 1, ['l', 'b', 'f'], 1, 1⟩, ⟨1, 1, ['i', 'n', '2'], -1, 1⟩]),
  -- 295: kpsi
  (['k', 'p', 's', 'i'], [⟨1000, 1, ['p', 's', 'i'], 1, 1⟩]),
  -- 296: Mpsi
  (['M', 'p', 's', 'i'], [⟨1000000, 1, ['p', 's', 'i'], 1, 1⟩]),
  -- 297: psf
  (['p', 's', 'f'], [⟨1, 1, ['l', 'b', 'f'], 1, 1⟩, ⟨1, 1, ['f', 't', '2'], -1, 1⟩]),
  -- 298: bar
  (['b', 'a', 'r'], [⟨100000, 1, ['P', 'a'], 1, 1⟩]),
  -- 299: kbar
  (['k', 'b', 'a', 'r'], [⟨1000, 1, ['b', 'a', 'r'], 1, 1⟩]),
  -- 300: torr
  (['t', 'o', 'r', 'r'], [⟨2083162, 15625, ['P', 'a'], 1, 1⟩]),
  -- 301: inH2O
  (['i', 'n', 'H', '2', 'O'], [⟨24908891, 100000, ['P', 'a'], 1, 1⟩]),
  -- 302: ftH2O
  (['f', 't', 'H', '2', 'O'], [⟨12, 1, ['i', 'n', 'H', '2', 'O'], 1, 1⟩]),
  -- 303: pascal
  (['p', 'a', 's', 'c', 'a', 'l'], [⟨1, 1, ['P', 'a'], 1, 1⟩]),
  -- 304: pascals
  (['p', 'a', 's', 'c', 'a', 'l', 's'], [⟨1, 1, ['P', 'a'], 1, 1⟩]),
  -- 307: J
  (['J'], [⟨1, 1, ['N'], 1, 1⟩, ⟨1, 1, ['m'], 1, 1⟩]),
  -- 308: kJ
  (['k', 'J'], [⟨1000, 1, ['J'], 1, 1⟩]),
  -- 309: MJ
  (['M', 'J'], [⟨1000000, 1, ['J'], 1, 1⟩]),
  -- 310: erg
  (['e', 'r', 'g'], [⟨1, 1, ['d', 'y', 'n', 'e'], 1, 1⟩, ⟨1, 1, ['c', 'm'], 1, 1⟩]),
  -- 311: cal
  (['c', 'a', 'l'], [⟨523, 125, ['J'], 1, 1⟩]),
  -- 312: kcal
  (['k', 'c', 'a', 'l'], [⟨1000, 1, ['c', 'a', 'l'], 1, 1⟩]),
  -- 313: eV
  (['e', 'V'], [⟨160217657, 1000000000000000000000000000, ['J'], 1, 1⟩]),
  -- 314: keV
  (['k', 'e', 'V'], [⟨1000, 1, ['e', 'V'], 1, 1⟩]),
  -- 315: MeV
  (['M', 'e', 'V'], [⟨1000000, 1, ['e', 'V'], 1, 1⟩]),
  -- 316: GeV
  (['G', 'e', 'V'], [⟨1000000000, 1, ['e', 'V'], 1, 1⟩]),
  -- 317: btu
  (['b', 't', 'u'], [⟨21101117, 20000, ['J'], 1, 1⟩]),
  -- 318: calorie
  (['c', 'a', 'l', 'o', 'r', 'i', 'e'], [⟨1, 1, ['c', 'a', 'l'], 1, 1⟩]),
  -- 319: calories
  (['c', 'a', 'l', 'o', 'r', 'i', 'e', 's'], [⟨1, 1, ['c', 'a', 'l'], 1, 1⟩]),
  -- 320: joule
  (['j', 'o', 'u', 'l', 'e'], [⟨1, 1, ['J'], 1, 1⟩]),
  -- 321: joules
  (['j', 'o', 'u', 'l', 'e', 's'], [⟨1, 1, ['J'], 1, 1⟩]),
  -- 324: W
  (['W'], [⟨1, 1, ['J'], 1, 1⟩, ⟨1, 1, ['s'], -1, 1⟩]),
  -- 325: watts
  (['w', 'a', 't', 't', 's'], [⟨1, 1, ['W'], 1, 1⟩]),
  -- 328: C
  (['C'], [⟨1, 1, ['A'], 1, 1⟩, ⟨1, 1, ['s'], 1, 1⟩]),
  -- 329: coulomb
  (['c', 'o', 'u', 'l', 'o', 'm', 'b'], [⟨1, 1, ['C'], 1, 1⟩]),
  -- 330: coulombs
  (['c', 'o', 'u', 'l', 'o', 'm', 'b', 's'], [⟨1, 1, ['C'], 1, 1⟩]),
  -- 331: mC
  (['m', 'C'], [⟨1, 1000, ['C'], 1, 1⟩]),
  -- 334: V
  (['V'], [⟨1, 1, ['J'], 1, 1⟩, ⟨1, 1, ['C'], -1, 1⟩]),
  -- 335: volt
  (['v', 'o', 'l', 't'], [⟨1, 1, ['V'], 1, 1⟩]),
  -- 336: volts
  (['v', 'o', 'l', 't', 's'], [⟨1, 1, ['V'], 1, 1⟩]),
  -- 337: mV
  (['m', 'V'], [⟨1, 1000, ['V'], 1, 1⟩]),
  -- 340: ohm
  (['o', 'h', 'm'], [⟨1, 1, ['V'], 1, 1⟩, ⟨1, 1, ['A'], -1, 1⟩]),
  -- 341: ohms
  (['o', 'h', 'm', 's'], [⟨1, 1, ['o', 'h', 'm'], 1, 1⟩]),
  -- 344: S
  (['S'], [⟨1, 1, ['o', 'h', 'm'], -1, 1⟩]),
  -- 345: siemens
  (['s', 'i', 'e', 'm', 'e', 'n', 's'], [⟨1, 1, ['S'], 1, 1⟩]),
  -- 348: F
  (['F'], [⟨1, 1, ['C'], 1, 1⟩, ⟨1, 1, ['V'], -1, 1⟩]),
  -- 349: pF
  (['p', 'F'], [⟨1, 1000000000000, ['F'], 1, 1⟩]),
  -- 350: nF
  (['n', 'F'], [⟨1, 1000000000, ['F'], 1, 1⟩]),
  -- 351: uF
  (['u', 'F'], [⟨1, 1000000, ['F'], 1, 1⟩]),
  -- 352: mF
  (['m', 'F'], [⟨1, 1000, ['F'], 1, 1⟩]),
  -- 353: farad
  (['f', 'a', 'r', 'a', 'd'], [⟨1, 1, ['F'], 1, 1⟩]),
  -- 354: farads
  (['f', 'a', 'r', 'a', 'd', 's'], [⟨1, 1, ['F'], 1, 1⟩]),
  -- 357: Wb
  (['W', 'b'], [⟨1, 1, ['V'], 1, 1⟩, ⟨1, 1, ['s'], 1, 1⟩]),
  -- 358: weber
  (['w', 'e', 'b', 'e', 'r'], [⟨1, 1, ['W', 'b'], 1, 1⟩]),
  -- 359: webers
  (['w', 'e', 'b', 'e', 'r', 's'], [⟨1, 1, ['W', 'b'], 1, 1⟩]),
  -- 362: T
  (['T'], [⟨1, 1, ['W', 'b'], 1, 1⟩, ⟨1, 1, ['m'], 2, 1⟩]),
  -- 363: gauss
  (['g', 'a', 'u', 's', 's'], [⟨1, 10000, ['T'], 1, 1⟩]),
  -- 364: tesla
  (['t', 'e', 's', 'l', 'a'], [⟨1, 1, ['T'], 1, 1⟩]),
  -- 365: teslas
  (['t', 'e', 's', 'l', 'a', 's'], [⟨1, 1, ['T'], 1, 1⟩]),
  -- 368: H
  (['H'], [⟨1, 1, ['W', 'b'], 1, 1⟩, ⟨1, 1, ['A'], -1, 1⟩]),
  -- 369: mH
  (['m', 'H'], [⟨1, 1000, ['H'], 1, 1⟩]),
  -- 370: uH
  (['u', 'H'], [⟨1, 1000000, ['H'], 1, 1⟩]),
  -- 371: henry
  (['h', 'e', 'n', 'r', 'y'], [⟨1, 1, ['H'], 1, 1⟩]),
  -- 374: molal
  (['m', 'o', 'l', 'a', 'l'], [⟨1, 1, ['m', 'o', 'l'], 1, 1⟩, ⟨1, 1, ['k', 'g'], -1, 1⟩]),
  -- 375: mmolal
  (['m', 'm', 'o', 'l', 'a', 'l'], [⟨1, 1000, ['m', 'o', 'l', 'a', 'l'], 1, 1⟩]),
  -- 376: umolal
  (['u', 'm', 'o', 'l', 'a', 'l'], [⟨1, 1000000, ['m', 'o', 'l', 'a', 'l'], 1, 1⟩]),
  -- 377: nmolal
  (['n', 'm', 'o', 'l', 'a', 'l'], [⟨1, 1000000000, ['m', 'o', 'l', 'a', 'l'], 1, 1⟩]),
  -- 380: molar
  (['m', 'o', 'l', 'a', 'r'], [⟨1, 1, ['m', 'o', 'l'], 1, 1⟩, ⟨1, 1, ['l', 'i', 't', 'e', 'r'], -1, 1⟩]),
  -- 381: mmolar
  (['m', 'm', 'o', 'l', 'a', 'r'], [⟨1, 1000, ['m', 'o', 'l', 'a', 'r'], 1, 1⟩]),
  -- 382: umolar
  (['u', 'm', 'o', 'l', 'a', 'r'], [⟨1, 1000000, ['m', 'o', 'l', 'a', 'r'], 1, 1⟩]),
  -- 383: nmolar
  (['n', 'm', 'o', 'l', 'a', 'r'], [⟨1, 1000000000, ['m', 'o', 'l', 'a', 'r'], 1, 1⟩]),
  -- 386: eq
  (['e', 'q'], [⟨1, 1, ['e', 'q'], 1, 1⟩]),
  -- 387: meq
  (['m', 'e', 'q'], [⟨1, 1000, ['e', 'q'], 1, 1⟩]),
  -- 388: ueq
  (['u', 'e', 'q'], [⟨1, 1000000, ['e', 'q'], 1, 1⟩]),
  -- 389: neq
  (['n', 'e', 'q'], [⟨1, 1000000000, ['e', 'q'], 1, 1⟩]),
  -- 391: K^2
  (['K', '^', '2'], [⟨1, 1, ['K'], 2, 1⟩]),
  -- 392: K^3
  (['K', '^', '3'], [⟨1, 1, ['K'], 3, 1⟩]),
  -- 393: K^4
  (['K', '^', '4'], [⟨1, 1, ['K'], 4, 1⟩]),
  -- 394: K^5
  (['K', '^', '5'], [⟨1, 1, ['K'], 5, 1⟩]),
  -- 395: K^0.5
  (['K', '^', '0', '.', '5'], [⟨1, 1, ['K'], 1, 2⟩]),
  -- 396: K^1.5
  (['K', '^', '1', '.', '5'], [⟨1, 1, ['K'], 3, 2⟩]),
  -- 398: bar^2
  (['b', 'a', 'r', '^', '2'], [⟨1, 1, ['K'], 2, 1⟩]),
  -- 399: bar^3
  (['b', 'a', 'r', '^', '3'], [⟨1, 1, ['K'], 3, 1⟩]),
  -- 400: bar^4
  (['b', 'a', 'r', '^', '4'], [⟨1, 1, ['K'], 4, 1⟩]),
  -- 401: bar^5
  (['b', 'a', 'r', '^', '5'], [⟨1, 1, ['K'], 5, 1⟩]),
  -- 402: bar^0.5
  (['b', 'a', 'r', '^', '0', '.', '5'], [⟨1, 1, ['K'], 1, 2⟩])
]

end ThermoFun.Units

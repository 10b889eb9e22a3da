#!/usr/bin/env python3
"""Write lean/Verif/Model/UnitsTable.lean from derivedUnitsMap in /repo/ThermoFun/Common/Units.cpp:97-403."""
import re, os
from fractions import Fraction
lines = open('/repo/ThermoFun/Common/Units.cpp').read().splitlines()
C = {'atto':'1e-18','femto':'1e-15','pico':'1e-12','nano':'1e-9','micro':'1e-6','milli':'1e-3','centi':'1e-2','deci':'1e-1','deca':'1e1','hecto':'1e2','kilo':'1e3','mega':'1e6','giga':'1e9','tera':'1e12','peta':'1e15','exa':'1e18','pi':'3.14159265359'}
def num(t):
    t = t.strip()
    if '/' in t:
        a, b = t.split('/'); return num(a)/num(b)
    return Fraction(C.get(t, t))
def chars(s): return '[' + ', '.join("'%s'" % c for c in s) + ']'
start = next(i for i,l in enumerate(lines) if l.startswith('map<string, DerivedUnit> derivedUnitsMap'))
ents = []
for i in range(start, len(lines)):
    l = lines[i]
    if l.startswith('};'): break
    m = re.match(r'\s*\{"([^"]*)"\s*,\s*\{(.*)\}\s*\},?\s*$', l)
    if m:
        parts = re.findall(r'\{\s*([^,{}]+?)\s*,\s*"([^"]*)"\s*,\s*([^,{}]+?)\s*\}', m.group(2))
        assert parts, l
        ents.append((i+1, m.group(1), [(num(a), b, Fraction(c)) for a,b,c in parts]))
    elif l.strip() and not l.strip().startswith('//') and l.strip() not in ('{',) and 'derivedUnitsMap' not in l:
        raise SystemExit('unparsed: ' + l)
out = ['''/-!
The derived-unit table `derivedUnitsMap`, /repo/ThermoFun/Common/Units.cpp:97-403, transcribed by tools/gen_units.py.
Simplifications: unit names are lists of characters; a decimal literal such as `453.59237` or `pi/180` (Units.cpp:77-94)
is the exact rational it denotes, not the nearest double, given as numerator and denominator.
-/

namespace ThermoFun.Units

/-- Unit names and unit strings (`std::string`), as lists of characters. -/
abbrev Sym := List Char

/-- `StringUnit`, Units.cpp:62-67: factor `num/den`, symbol, power `pn/pd`. -/
structure SU where
  num : Nat
  den : Nat
  sym : Sym
  pn : Int
  pd : Nat
deriving DecidableEq, Repr

/-- `derivedUnitsMap`, Units.cpp:97-403 (line of each entry in the comment). -/
def table : List (Sym × List SU) := [''']
rows = []
for ln, n, ps in ents:
    rows.append('  -- %d: %s\n  (%s, [%s])' % (ln, n, chars(n), ', '.join('⟨%d, %d, %s, %d, %d⟩' % (f.numerator, f.denominator, chars(s), p.numerator, p.denominator) for f,s,p in ps)))
out.append(',\n'.join(rows) + '\n]')
out.append('\nend ThermoFun.Units\n')
open(os.path.join(os.path.dirname(os.path.abspath(__file__)), '../lean/Verif/Model/UnitsTable.lean'), 'w').write('\n'.join(out))
print(len(ents), len(set(e[1] for e in ents)))

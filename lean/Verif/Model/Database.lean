import Verif.Model.Json
import Mathlib.Data.String.Basic

/-!
# Model of `ThermoFun/Database.cpp`, with the comparisons of `Element.cpp` and `Substance.cpp`

The element table of the ChemicalFun library (`all_elements`) is a map from keys to values in which `addElement` overwrites; its initial
contents and `defaultValence` are parameters.  Logging is left out.
-/

namespace ThermoFun.Js

/-! ### Maps from symbols to records -/

/-- `std::map<std::string, T>` (`SubstancesMap`, `ReactionsMap`, `ElementsMap`, Database.h:17-19): keys and records in the order of the
keys.  Keys are compared by code points, which is the order of the bytes of UTF-8. -/
abbrev SMap (α : Type) := List (String × α)

namespace SMap
variable {α : Type}

/-- `insert({k, x})`: keeps the record that is there, Database.cpp:97, 110, 131. -/
def insert (m : SMap α) (k : String) (x : α) : SMap α :=
  match m with
  | [] => [(k, x)]
  | (a, y) :: t => if k < a then (k, x) :: (a, y) :: t else if a = k then (a, y) :: t else (a, y) :: insert t k x

/-- `map[k] = x`: overwrites, Database.cpp:104, 116, 137, 224, 300, 307, 314. -/
def assign (m : SMap α) (k : String) (x : α) : SMap α :=
  match m with
  | [] => [(k, x)]
  | (a, y) :: t => if k < a then (k, x) :: (a, y) :: t else if a = k then (k, x) :: t else (a, y) :: assign t k x

/-- `count(k) != 0`, Database.cpp:257-270. -/
def contains (m : SMap α) (k : String) : Bool := (find k m).isSome

/-- The list of symbols, Database.cpp:571-600. -/
def keys (m : SMap α) : List String := m.map (·.1)

/-- `collectValues`, Database.cpp:62-70. -/
def values (m : SMap α) : List α := m.map (·.2)

end SMap

/-! ### The element table of the formula parser -/

/-- `ChemicalFun::ElementKey`: symbol, class, isotope (Element.cpp:210). -/
structure EKey where
  symbol : String
  cls : Int
  isotope : Int
  deriving DecidableEq

/-- `ChemicalFun::ElementValues`, as filled in Element.cpp:197-208. -/
structure EVal where
  mass : Option ℝ
  entropy : Option ℝ
  heatCapacity : Option ℝ
  volume : Option ℝ
  valence : Int
  number : Int
  name : String

/-- `Element::toElementKey`: the valence 777 is replaced, in the element too, Element.cpp:202-205. -/
def Elem.filled (dv : String → Int) (e : Elem) : Elem := if e.valence = 777 then { e with valence := dv e.symbol } else e

/-- The key `toElementKey` returns, Element.cpp:210. -/
def Elem.key (e : Elem) : EKey := ⟨e.symbol, e.cls, e.isotope⟩

/-- The values `toElementKey` fills in, Element.cpp:197-208. -/
def Elem.vals (dv : String → Int) (e : Elem) : EVal :=
  ⟨e.molarMass, e.entropy, e.heatCapacity, e.volume, (e.filled dv).valence, e.number, e.symbol⟩

/-- `Element(elementKey, values)`, Element.cpp:60-74. -/
def Elem.ofKey (k : EKey) (v : EVal) : Elem :=
  { name := v.name, symbol := k.symbol, entropy := v.entropy, heatCapacity := v.heatCapacity, volume := v.volume, valence := v.valence,
    molarMass := v.mass, cls := k.cls, isotope := k.isotope, number := v.number }

/-- `all_elements`, Database.cpp:40. -/
abbrev Table := EKey → Option EVal

/-- `all_elements.addElement(key, values)`, Database.cpp:76: overwrites. -/
def Table.add (t : Table) (k : EKey) (v : EVal) : Table := fun x => if x = k then some v else t x

/-! ### The database -/

/-- `Database::Impl`, Database.cpp:28-45. -/
structure DbS where
  subs : SMap Sub := []
  reacs : SMap Rea := []
  elems : SMap Elem := []
  all : Table
  /-- `conventions.water_triple_point_reference` -/
  triple : String := "HKF_HGK_1974"

namespace DbS
variable (dv : String → Int)

/-- `setDBElements` on a copy of the map of elements, Database.cpp:79-85. -/
def setDBElements (d : DbS) (m : SMap Elem) : DbS :=
  { d with all := m.foldl (fun t p => t.add p.2.key (p.2.vals dv)) d.all }

/-- `setDBElement(elements_map[k])`, which also fills in the valence of the stored element, Database.cpp:72-77. -/
def setDBElement (d : DbS) (k : String) : DbS :=
  match find k d.elems with
  | none => d
  | some e => { d with elems := SMap.assign d.elems k (e.filled dv), all := d.all.add e.key (e.vals dv) }

/-- `addElement`, Database.cpp:95-99. -/
def addElement (d : DbS) (e : Elem) : DbS := setDBElement dv { d with elems := SMap.insert d.elems e.symbol e } e.symbol

/-- `setElement`, Database.cpp:101-106. -/
def setElement (d : DbS) (e : Elem) : DbS := setDBElement dv { d with elems := SMap.assign d.elems e.symbol e } e.symbol

/-- `addMapElements`, Database.cpp:119-123: replaces all elements. -/
def addMapElements (d : DbS) (m : SMap Elem) : DbS := setDBElements dv { d with elems := m } m

/-- `addSubstance`, Database.cpp:108-111. -/
def addSubstance (d : DbS) (s : Sub) : DbS := { d with subs := SMap.insert d.subs s.symbol s }

/-- `setSubstance`, Database.cpp:113-117. -/
def setSubstance (d : DbS) (s : Sub) : DbS := { d with subs := SMap.assign d.subs s.symbol s }

/-- `addMapSubstances`, Database.cpp:125-128: replaces all substances. -/
def addMapSubstances (d : DbS) (m : SMap Sub) : DbS := { d with subs := m }

/-- `addReaction`, Database.cpp:130-133. -/
def addReaction (d : DbS) (r : Rea) : DbS := { d with reacs := SMap.insert d.reacs r.symbol r }

/-- `setReaction`, Database.cpp:135-139. -/
def setReaction (d : DbS) (r : Rea) : DbS := { d with reacs := SMap.assign d.reacs r.symbol r }

/-- `addMapReactions`, Database.cpp:141-144: replaces all reactions. -/
def addMapReactions (d : DbS) (m : SMap Rea) : DbS := { d with reacs := m }

/-- `getSubstance`, Database.cpp:184-190: the record or an exception. -/
noncomputable def getSubstance (d : DbS) (k : String) : J Sub :=
  if SMap.contains d.subs k then match find k d.subs with
    | some s => .ok s
    | none => .ok {}
  else .error .other

/-- `substance(symbol)`: the record, created if missing, Database.cpp:216-226. -/
noncomputable def substance (d : DbS) (k : String) : DbS :=
  if SMap.contains d.subs k then d else { d with subs := SMap.assign d.subs k { symbol := k, name := k } }

/-- `reaction(symbol)`: the record, created if missing, Database.cpp:228-239. -/
noncomputable def reaction (d : DbS) (k : String) : DbS :=
  if SMap.contains d.reacs k then d else { d with reacs := SMap.assign d.reacs k { symbol := k, name := k } }

/-- `element(symbol)`: the record, created from the element table if missing, Database.cpp:200-214. -/
def element (d : DbS) (k : String) : DbS :=
  if SMap.contains d.elems k then d
  else match d.all ⟨k, 0, 0⟩ with
    | some v => { d with elems := SMap.assign d.elems k (Elem.ofKey ⟨k, 0, 0⟩ v) }
    | none => { d with elems := SMap.assign d.elems k { symbol := k, name := k } }

/-! ### Loading -/

/-- The label of a record: its own, or that of the list it is in, Database.cpp:289-291. -/
def recordLabel (j : Json) (label : String) : J String :=
  match j.field "_label" with
  | none => .ok label
  | some v => v.getStr

/-- `addRecord`, Database.cpp:282-323.  Writing the record as text and reading it again (`dump`, `json::parse`) changes nothing. -/
noncomputable def addRecord (d : DbS) (j : Json) (label : String) : J DbS := do
  let props := (j.field "properties").getD j
  let label ← recordLabel j label
  if label = "substance" then do
    let s ← parseSubstance props
    .ok { d with subs := SMap.assign d.subs s.symbol s }
  else if label = "reaction" then do
    let r ← parseReaction props
    .ok { d with reacs := SMap.assign d.reacs r.symbol r }
  else if label = "element" then do
    let e ← parseElement props
    .ok { d with elems := SMap.assign d.elems e.symbol e }
  else .error .other

/-- The steps of `addRecords`, Database.cpp:325-331. -/
noncomputable def recordSteps (l : List Json) (label : String) : List (Step DbS) := l.map fun j d => addRecord d j label

/-- `readConventions`, ParseJsonToData.cpp:286-302: a value that is not a string is logged and the default kept. -/
def readConventions (j : Json) : String :=
  match j.field "water_triple_point_reference" with
  | some (.str s) => s
  | _ => "HKF_HGK_1974"

/-- The body of the `try` block of `fromFile`, Database.cpp:352-366, on the value that was read from the file or text. -/
noncomputable def fileSteps (j : Json) : List (Step DbS) :=
  (match j.get? "conventions" with
    | some c => [fun d => .ok { d with triple := readConventions c }]
    | none => []) ++
  (match j.get? "elements" with
    | some l => recordSteps l.elems "element"
    | none => []) ++
  (match j.get? "substances" with
    | some l => recordSteps l.elems "substance"
    | none => []) ++
  (match j.get? "reactions" with
    | some l => recordSteps l.elems "reaction"
    | none => []) ++
  (match j with
    | .arr l => recordSteps l "unknown label"
    | _ => [])

/-- What is left of a failure after the `catch` of `fromFile` and `fromJSONs`, Database.cpp:367-370, 384-387: exceptions of the JSON library
are logged. -/
def swallow : Option Err → Option Err
  | some .json => none
  | e => e

/-- `fromFile`, Database.cpp:335-371: the database and the exception that leaves the function. -/
noncomputable def fromFile (d : DbS) (j : Json) : DbS × Option Err :=
  let r := exec (fileSteps j) d
  (r.1, swallow r.2)

/-- `appendData`, Database.cpp:413-419: the element table is refreshed if the number of elements has changed; not if an exception leaves
`fromFile`. -/
noncomputable def appendData (d : DbS) (j : Json) : DbS × Option Err :=
  let r := fromFile d j
  match r.2 with
  | some e => (r.1, some e)
  | none => if d.elems.length ≠ r.1.elems.length then (setDBElements dv r.1 r.1.elems, none) else (r.1, none)

/-- `Database(filename)`, Database.cpp:50-56, 395-397: an exception leaves no database. -/
noncomputable def ofFile (table : Table) (j : Json) : J DbS :=
  match fromFile { all := table } j with
  | (d, none) => .ok (setDBElements dv d d.elems)
  | (_, some e) => .error e

/-! ### Formulas -/

/-- `elementKeyToElement`, Database.cpp:87-93: the element of a key of the table, or an exception. -/
def elementOf (d : DbS) (k : EKey) : J Elem :=
  match d.all k with
  | some v => .ok (Elem.ofKey k v)
  | none => .error .other

end DbS

/-! ### Comparisons -/

/-- `operator<` of elements, Element.cpp:213-235. -/
def Elem.lt (a b : Elem) : Bool :=
  if a.symbol < b.symbol then true
  else if a.symbol = b.symbol then
    if a.name < b.name then true
    else if a.name = b.name then
      if a.cls < b.cls then true
      else if a.cls = b.cls then
        if a.isotope < b.isotope then true else decide (a.valence < b.valence)
      else false
    else false
  else false

/-- `operator==` of elements, Element.cpp:261-267. -/
def Elem.eq (a b : Elem) : Bool := a.symbol = b.symbol && a.name = b.name && a.cls = b.cls && a.isotope = b.isotope

/-- `operator<` of substances, Substance.cpp:337-347. -/
def Sub.lt (a b : Sub) : Bool :=
  if a.symbol < b.symbol then true
  else if a.symbol = b.symbol then decide (a.name < b.name)
  else false

/-- `operator==` of substances, Substance.cpp:361-365. -/
def Sub.eq (a b : Sub) : Bool := a.symbol = b.symbol && a.name = b.name

/-- `std::map<Element, double>` of `parseSubstanceFormula`, Database.cpp:632-646: `map[e] = x` with the comparison `lt`, on the list of
entries in the order of the map.  The search stops at the first entry that is not less than `e`; for comparisons that are no order the
standard leaves the behaviour undefined. -/
def coefAssign (m : List (Elem × ℝ)) (e : Elem) (x : ℝ) : List (Elem × ℝ) :=
  match m with
  | [] => [(e, x)]
  | (a, y) :: t => if a.lt e then (a, y) :: coefAssign t e x else if e.lt a then (e, x) :: (a, y) :: t else (a, x) :: t

/-- `parseSubstanceFormula`, Database.cpp:632-646, from the keys and coefficients the ChemicalFun parser returns. -/
def DbS.formula (d : DbS) : List (EKey × ℝ) → J (List (Elem × ℝ))
  | [] => .ok []
  | l => l.foldlM (fun m p => do
    let e ← d.elementOf p.1
    .ok (coefAssign m e p.2)) []

end ThermoFun.Js

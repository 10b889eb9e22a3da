import Verif.Model.Database
import Mathlib.Algebra.Order.Round

/-!
# Model of the texts of records and of their setters, with `Database::setSubstancesChargeFromFromula`

`Substance.cpp:83-212, 319-322`, `Reaction.cpp:149-252, 335-338`, `Element.cpp:43-138, 190-193`, `Database.cpp:282-331, 373-388, 654-684`.  A text is the
JSON value it is parsed into; that writing a value as text and parsing it gives the value back is taken for granted (as in Model/Database.lean).
-/

namespace ThermoFun.Js

/-! ### Records with their texts -/

/-- A record and its `jString` (Substance.cpp:76, Reaction.cpp:66, Element.cpp:40); `none` is the empty text a record has that was made in code. -/
structure Rec (α : Type) where
  data : α
  text : Option Json := none

/-- The constructors from text: `Substance(jsonSubstance)`, Substance.cpp:88-94, `Reaction(jsonReaction)`, Reaction.cpp:153-159, and
`Element(jsonElement)`, Element.cpp:48-54. -/
def Rec.ofText {α : Type} (parse : Json → J α) (j : Json) : J (Rec α) := do
  let a ← parse j
  .ok ⟨a, some j⟩

/-- The setters of `Substance`, Substance.cpp:108-207. -/
inductive SubSet
  | name (x : String) | symbol (x : String) | formula (x : String) | reactionSymbol (x : String) | ref (x : TPS) | params (x : ParamS)
  | method (s : Slot) (x : Nat) | cls (x : Int) | state (x : Int) | reacdc (x : Bool) | charge (x : Int) | refT (x : ℝ) | refP (x : ℝ)
  | lowerT (x : ℝ) | lowerP (x : ℝ) | upperT (x : ℝ) | upperP (x : ℝ) | molarMass (x : ℝ)

/-- What they do, Substance.cpp:108-207. -/
def SubSet.apply : SubSet → Sub → Sub
  | .name x, s => { s with name := x }
  | .symbol x, s => { s with symbol := x }
  | .formula x, s => { s with formula := x }
  | .reactionSymbol x, s => { s with reactionSymbol := x }
  | .ref x, s => { s with ref := x }
  | .params x, s => { s with params := x }
  | .method m x, s => { s with methods := s.methods.set m x }
  | .cls x, s => { s with cls := x }
  | .state x, s => { s with state := x }
  | .reacdc x, s => { s with reacdc := x }
  | .charge x, s => { s with charge := x }
  | .refT x, s => { s with refT := x }
  | .refP x, s => { s with refP := x }
  | .lowerT x, s => { s with lowerT := x }
  | .lowerP x, s => { s with lowerP := x }
  | .upperT x, s => { s with upperT := x }
  | .upperP x, s => { s with upperP := x }
  | .molarMass x, s => { s with molarMass := some x }

/-- The setters of `Reaction`, Reaction.cpp:174-247. -/
inductive ReaSet
  | name (x : String) | symbol (x : String) | equation (x : String) | reactants (x : List (String × ℚ)) | ref (x : TPR) | params (x : ParamR)
  | method (s : Slot) (x : Nat) | refT (x : ℝ) | refP (x : ℝ) | lowerT (x : ℝ) | lowerP (x : ℝ) | upperT (x : ℝ) | upperP (x : ℝ)

/-- What they do, Reaction.cpp:174-247. -/
def ReaSet.apply : ReaSet → Rea → Rea
  | .name x, s => { s with name := x }
  | .symbol x, s => { s with symbol := x }
  | .equation x, s => { s with equation := x }
  | .reactants x, s => { s with reactants := x }
  | .ref x, s => { s with ref := x }
  | .params x, s => { s with params := x }
  | .method m x, s => { s with methods := s.methods.set m x }
  | .refT x, s => { s with refT := x }
  | .refP x, s => { s with refP := x }
  | .lowerT x, s => { s with lowerT := x }
  | .lowerP x, s => { s with lowerP := x }
  | .upperT x, s => { s with upperT := x }
  | .upperP x, s => { s with upperP := x }

/-- The setters of `Element`, Element.cpp:85-133. -/
inductive ElemSet
  | name (x : String) | symbol (x : String) | molarMass (x : ℝ) | entropy (x : ℝ) | heatCapacity (x : ℝ) | volume (x : ℝ) | valence (x : Int)
  | cls (x : Int) | isotope (x : Int) | number (x : Int)

/-- What they do, Element.cpp:85-133. -/
def ElemSet.apply : ElemSet → Elem → Elem
  | .name x, s => { s with name := x }
  | .symbol x, s => { s with symbol := x }
  | .molarMass x, s => { s with molarMass := some x }
  | .entropy x, s => { s with entropy := some x }
  | .heatCapacity x, s => { s with heatCapacity := some x }
  | .volume x, s => { s with volume := some x }
  | .valence x, s => { s with valence := x }
  | .cls x, s => { s with cls := x }
  | .isotope x, s => { s with isotope := x }
  | .number x, s => { s with number := x }

/-- A setter applied to a record: `jString` stays, Substance.cpp:108-207, Reaction.cpp:174-247, Element.cpp:85-133. -/
def Rec.edit {α : Type} (f : α → α) (r : Rec α) : Rec α := { r with data := f r.data }

/-! ### The database with the texts of its records -/

/-- `Database::Impl`, Database.cpp:28-45; the element table and the conventions are left out. -/
structure RDb where
  subs : SMap (Rec Sub) := []
  reacs : SMap (Rec Rea) := []
  elems : SMap (Rec Elem) := []

namespace RDb

/-- `addRecord` with `setJsonString(props)`, Database.cpp:282-323. -/
noncomputable def addRecord (d : RDb) (j : Json) (label : String) : J RDb := do
  let props := (j.field "properties").getD j
  let label ← DbS.recordLabel j label
  if label = "substance" then do
    let s ← parseSubstance props
    .ok { d with subs := SMap.assign d.subs s.symbol ⟨s, some props⟩ }
  else if label = "reaction" then do
    let r ← parseReaction props
    .ok { d with reacs := SMap.assign d.reacs r.symbol ⟨r, some props⟩ }
  else if label = "element" then do
    let e ← parseElement props
    .ok { d with elems := SMap.assign d.elems e.symbol ⟨e, some props⟩ }
  else .error .other

/-- The steps of `addRecords`, Database.cpp:325-331. -/
noncomputable def recordSteps (l : List Json) (label : String) : List (Step RDb) := l.map fun j d => addRecord d j label

/-- The body of the `try` block of `fromFile` without the conventions, Database.cpp:355-366. -/
noncomputable def fileSteps (j : Json) : List (Step RDb) :=
  (match j.get? "elements" with
    | some l => recordSteps l.elems "element"
    | none => []) ++
  (match j.get? "substances" with
    | some l => recordSteps l.elems "substance"
    | none => []) ++
  (match j.get? "reactions" with
    | some l => recordSteps l.elems "reaction"
    | none => []) ++
  (match j with
    | .arr l => recordSteps l "unknown label"
    | _ => [])

/-- `fromFile`, Database.cpp:335-371: the database and the exception that leaves the function. -/
noncomputable def fromFile (d : RDb) (j : Json) : RDb × Option Err :=
  let r := exec (fileSteps j) d
  (r.1, DbS.swallow r.2)

/-- `json::parse(text)`, Database.cpp:378, 381: the empty text is not JSON. -/
def parseText (t : Option Json) : J Json :=
  match t with
  | some j => .ok j
  | none => .error .json

/-- `fromJSONs`, Database.cpp:373-388: the first text is parsed once more in front, which changes nothing but the order of failures. -/
noncomputable def fromJSONs (d : RDb) (l : List (Option Json)) (label : String) : RDb × Option Err :=
  let r := exec (l.map fun t d => do
    let j ← parseText t
    addRecord d j label) d
  (r.1, DbS.swallow r.2)

/-- `addSubstance`, Database.cpp:108-111. -/
def addSubstance (d : RDb) (r : Rec Sub) : RDb := { d with subs := SMap.insert d.subs r.data.symbol r }

/-- `setSubstance`, Database.cpp:113-117. -/
def setSubstance (d : RDb) (r : Rec Sub) : RDb := { d with subs := SMap.assign d.subs r.data.symbol r }

/-- `addReaction`, Database.cpp:130-133. -/
def addReaction (d : RDb) (r : Rec Rea) : RDb := { d with reacs := SMap.insert d.reacs r.data.symbol r }

/-- `setReaction`, Database.cpp:135-139. -/
def setReaction (d : RDb) (r : Rec Rea) : RDb := { d with reacs := SMap.assign d.reacs r.data.symbol r }

/-- `setElement`, Database.cpp:101-106, 72-77: `toElementKey` fills in the valence of the stored element. -/
def setElement (dv : String → Int) (d : RDb) (r : Rec Elem) : RDb :=
  { d with elems := SMap.assign d.elems r.data.symbol (r.edit (Elem.filled dv)) }

/-- `substance(symbol)`: the record, created if missing, Database.cpp:216-226. -/
noncomputable def substance (d : RDb) (k : String) : RDb :=
  if SMap.contains d.subs k then d else { d with subs := SMap.assign d.subs k ⟨{ symbol := k, name := k }, none⟩ }

/-- A setter called on the reference `substance(symbol)` returns, Database.cpp:216-226, 540-544. -/
def editSubstance (d : RDb) (k : String) (x : SubSet) : RDb :=
  { d with subs := d.subs.map fun p => if p.1 = k then (p.1, p.2.edit x.apply) else p }

/-- The texts of the substances, in the order of `getSubstances`: `jsonString()`, Substance.cpp:319-322, Database.cpp:62-70. -/
def subTexts (d : RDb) : List (Option Json) := d.subs.map fun p => p.2.text

/-- The texts of the reactions: `jsonString()`, Reaction.cpp:335-338. -/
def reaTexts (d : RDb) : List (Option Json) := d.reacs.map fun p => p.2.text

/-- The texts of the elements: `jsonString()`, Element.cpp:190-193. -/
def elemTexts (d : RDb) : List (Option Json) := d.elems.map fun p => p.2.text

/-- The database without the texts, as in Model/Database.lean; modelling device. -/
def forget (d : RDb) (t : Table) (c : String) : DbS :=
  ⟨d.subs.map fun p => (p.1, p.2.data), d.reacs.map fun p => (p.1, p.2.data), d.elems.map fun p => (p.1, p.2.data), t, c⟩

end RDb

/-! ### Charges from formulas -/

/-- The conversion of a `double` to `int`, Database.cpp:679: towards zero. -/
noncomputable def truncInt (x : ℝ) : Int := if 0 ≤ x then ⌊x⌋ else ⌈x⌉

/-- A warning: the symbol, the charge it calls that of the record, and the one it calls computed, Database.cpp:680. -/
structure Warning where
  symbol : String
  was : Int
  becomes : ℝ

/-- One substance of `setSubstancesChargeFromFromula`, Database.cpp:674-682: the formula is parsed, the charge set if it differs, and a warning
written with the charge the record has by then.  `ch` is the charge the ChemicalFun library computes from a formula, or its exception. -/
noncomputable def chargeStep (ch : String → J ℝ) (r : Rec Sub) : J (Rec Sub × List Warning) := do
  let c ← ch r.data.formula
  if (r.data.charge : ℝ) = c then .ok (r, [])
  else
    let s := r.edit fun s => { s with charge := truncInt c }
    .ok (s, [⟨s.data.symbol, s.data.charge, c⟩])

/-- `setSubstancesChargeFromFromula`, Database.cpp:654-684: the substances, the warnings, and the exception that leaves the loop. -/
noncomputable def setCharges (ch : String → J ℝ) : SMap (Rec Sub) → SMap (Rec Sub) × List Warning × Option Err
  | [] => ([], [], none)
  | (k, r) :: l =>
    match chargeStep ch r with
    | .error e => ((k, r) :: l, [], some e)
    | .ok (s, w) =>
      let (m, ws, e) := setCharges ch l
      ((k, s) :: m, w ++ ws, e)

end ThermoFun.Js

import Verif.Model.Params
import Verif.Model.Units
import Verif.Model.Equation
import Verif.Model.LogK
import Verif.Model.Substance

/-!
# Model of the reading of records, `ThermoFun/Common/ParseJsonToData.cpp`

A record is a JSON value that has been read by the nlohmann::json library; the text of JSON is not modelled.  What the library's accessors
do with values of the wrong kind follows its documentation and is stated at each of them.  A double that was never assigned is modelled
by `none` (reading it is undefined in C++).
-/

namespace ThermoFun.Js

/-- `nlohmann::json`, used throughout ParseJsonToData.cpp:1-680.  Objects are lists of keys and values in the order of the keys (the
library keeps them in a `std::map`).  Numbers are rationals: integers and floating point numbers are not told apart. -/
inductive Json where
  | null
  | bool (b : Bool)
  | num (q : ℚ)
  | str (s : String)
  | arr (l : List Json)
  | obj (l : List (String × Json))

/-- How reading may fail: an exception of the JSON library (`json::exception`, caught in ParseJsonToData.cpp:513-516, 601-604, 670-673
and Database.cpp:367-370, 384-387), another exception (`std::invalid_argument` and `std::out_of_range` of `stoi` and `stod`,
`std::runtime_error` of the unit converter, `RaiseError`), or undefined behaviour. -/
inductive Err | json | other | ub
  deriving DecidableEq, Repr

/-- Outcome of an accessor; modelling device. -/
abbrev J := Except Err

/-- The outcome of a unit conversion or an equation as outcome of reading: its exceptions are not those of the JSON library
(ParseJsonToData.cpp:90, 120, 173, 634). -/
def ofRes {α : Type} : Res α → J α
  | .ok a => .ok a
  | .throw => .error .other
  | .ub => .error .ub

/-- First value of a key in a list of keys and values (`std::map::find`); modelling device. -/
def find {α : Type} (k : String) : List (String × α) → Option α
  | [] => none
  | (a, v) :: l => if a = k then some v else find k l

namespace Json

/-- `j.contains(key)` and then `j[key]`: a value, if `j` is an object with that key (`contains` is false for values that are not objects),
e.g. ParseJsonToData.cpp:78-79. -/
def get? : Json → String → Option Json
  | .obj l, k => find k l
  | _, _ => none

/-- `is_null()`. -/
def isNull : Json → Bool
  | .null => true
  | _ => false

/-- `j.contains(key)` and `!j[key].is_null()`, e.g. ParseJsonToData.cpp:474-476. -/
def field (j : Json) (k : String) : Option Json :=
  match j.get? k with
  | some v => if v.isNull then none else some v
  | none => none

/-- `get<std::string>()` and the implicit conversion to `std::string`: `type_error` 302 unless a string, e.g. ParseJsonToData.cpp:82, 480. -/
def getStr : Json → J String
  | .str s => .ok s
  | _ => .error .json

/-- `get<double>()`: `type_error` 302 unless a number, e.g. ParseJsonToData.cpp:90. -/
def getDouble : Json → J ℝ
  | .num q => .ok (q : ℝ)
  | _ => .error .json

/-- `get<int>()`: truncates, takes booleans for 0 and 1, `type_error` 302 otherwise, e.g. ParseJsonToData.cpp:489.  Numbers beyond `int` are
not modelled. -/
def getInt : Json → J Int
  | .num q => .ok (q.num.tdiv q.den)
  | .bool b => .ok (if b then 1 else 0)
  | _ => .error .json

/-- `empty()`: true for null, the empty array and the empty object. -/
def isEmpty : Json → Bool
  | .null => true
  | .arr l => l.isEmpty
  | .obj l => l.isEmpty
  | _ => false

/-- `is_object()`. -/
def isObj : Json → Bool
  | .obj _ => true
  | _ => false

/-- The values a loop from `begin()` to `end()` visits: those of an array or object, nothing of null, the value itself otherwise, e.g.
ParseJsonToData.cpp:310-312, Database.cpp:327-330. -/
def elems : Json → List Json
  | .null => []
  | .arr l => l
  | .obj l => l.map (·.2)
  | j => [j]

/-- `begin().key()` of a value that is not empty: `invalid_iterator` 207 unless an object, e.g. ParseJsonToData.cpp:319, 503. -/
def firstKey : Json → J String
  | .obj ((k, _) :: _) => .ok k
  | .obj [] => .error .ub
  | _ => .error .json

/-- `get<std::vector<std::string>>()` of an array, ParseJsonToData.cpp:134. -/
def getStrs (l : List Json) : J (List String) := l.mapM getStr

/-- `get<std::vector<double>>()` of an array, ParseJsonToData.cpp:145. -/
def getDoubles (l : List Json) : J (List ℝ) := l.mapM getDouble

end Json

/-- `std::stoi`, as used in ParseJsonToData.cpp:319, 343, 503, 556, 561: leading white space, a sign, decimal digits; `invalid_argument`
without digits, `out_of_range` beyond `int`; the rest of the text is ignored. -/
def stoi (s : String) : J Int :=
  let go := fun (neg : Bool) (u : List Char) => match (Equation.takeDigits 10 u).1 with
    | [] => Except.error Err.other
    | ds =>
      let n : Int := ((Nat.ofDigits 10 ds.reverse : ℕ) : Int)
      let v := if neg then -n else n
      if -2147483648 ≤ v ∧ v ≤ 2147483647 then .ok v else .error .other
  match s.toList.dropWhile Equation.isWs with
  | '-' :: u => go true u
  | '+' :: u => go false u
  | u => go false u

/-- `units::convert` called with unit names. -/
noncomputable def convert (x : ℝ) (a b : String) : J ℝ := ofRes (Units.convert x a.toList b.toList)

/-! ### Values with units -/

/-- The first entry of an array member: `entry.contains(k) && entry[k].is_array() && !entry[k][0].is_null()`, ParseJsonToData.cpp:158,
172.  Indexing the empty array is undefined. -/
def firstOf (entry : Json) (k : String) : J (Option Json) :=
  match entry.get? k with
  | some (.arr []) => .error .ub
  | some (.arr (v :: _)) => .ok (if v.isNull then none else some v)
  | _ => .ok none

/-- The unit and factor after the "temporary fixes", ParseJsonToData.cpp:161-169. -/
def fixUnit (data unit : String) : String × ℚ :=
  if data = "m_expansivity" ∧ unit = "kbar" then ("1/K", 100000)
  else if data = "m_compressibility" ∧ unit = "1e-05/K" then ("kbar", 1)
  else (unit, 1)

/-- `read_value_unit`, ParseJsonToData.cpp:150-176: the value read, `none` if the variable is left alone. -/
noncomputable def readValueUnit (j : Json) (data unitTo : String) : J (Option ℝ) :=
  match j.get? data with
  | none => .ok none
  | some entry => do
    let u ← firstOf entry "units"
    let unitFrom ← match u with
      | none => .ok unitTo
      | some u => u.getStr
    let fx := fixUnit data unitFrom
    let v ← firstOf entry "values"
    match v with
    | none => .ok none
    | some v => do
      let x ← v.getDouble
      let y ← convert (x * fx.2) fx.1 unitTo
      .ok (some y)

/-- The names used for entry `i` of a list: ParseJsonToData.cpp:109-118. -/
def unitPair (unitsFrom unitsTo : List String) (i : Nat) : String × String :=
  let a := unitsFrom.getD i ""
  let b := unitsTo.getD i ""
  let a := if a.isEmpty then b else a
  if a.isEmpty || b.isEmpty then ("1", "1") else (a, b)

/-- The loop of `convert_values_units` from index `i`, ParseJsonToData.cpp:105-123. -/
noncomputable def convertFrom (unitsFrom unitsTo : List String) (i : Nat) : List ℝ → J (List ℝ)
  | [] => .ok []
  | x :: l => do
    let y ← convert x (unitPair unitsFrom unitsTo i).1 (unitPair unitsFrom unitsTo i).2
    let r ← convertFrom unitsFrom unitsTo (i + 1) l
    .ok (y :: r)

/-- An array member of an entry. -/
def arrOf (entry : Json) (k : String) : Option (List Json) :=
  match entry.get? k with
  | some (.arr l) => some l
  | _ => none

/-- The units of the entry, or those of the program; the "temporary fix" for HKF coefficients, ParseJsonToData.cpp:133-142. -/
def unitsOf (entry : Json) (data : String) (unitsTo : List String) : J (List String) :=
  match arrOf entry "units" with
  | none => .ok unitsTo
  | some l => do
    let us ← Json.getStrs l
    .ok (if data = "eos_hkf_coeffs" ∧ 3 ≤ us.length ∧ us.getD 2 "" = "(cal*K)/mol" then unitsTo else us)

/-- `read_values_units`, ParseJsonToData.cpp:125-148: the list read, `none` if the variable is left alone. -/
noncomputable def readValuesUnits (j : Json) (data : String) (unitsTo : List String) : J (Option (List ℝ)) :=
  match j.get? data with
  | none => .ok none
  | some entry => do
    let unitsFrom ← unitsOf entry data unitsTo
    match arrOf entry "values" with
    | none => .ok none
    | some l => do
      let xs ← Json.getDoubles l
      let ys ← convertFrom unitsFrom unitsTo 0 xs
      .ok (some ys)

/-- The first entry of an array member that is not empty, not null, ParseJsonToData.cpp:78-83, 86-92, 95-100. -/
def headOf (entry : Json) (k : String) : Option Json :=
  match entry.get? k with
  | some (.arr (v :: _)) => if v.isNull then none else some v
  | _ => none

/-- `readValueErrorUnit` and the assignment of the status, ParseJsonToData.cpp:72-103, 415-424: a property of the reference state. -/
noncomputable def readProp (j : Json) (data unit : String) : J TS :=
  match j.get? data with
  | none => .ok TS.default
  | some entry => do
    let unitFrom ← match headOf entry "units" with
      | none => .ok unit
      | some u => u.getStr
    let v ← match headOf entry "values" with
      | none => .ok none
      | some x => do
        let x ← x.getDouble
        let y ← convert x unitFrom unit
        .ok (some y)
    let e ← match headOf entry "errors" with
      | none => .ok 0
      | some x => do
        let x ← x.getDouble
        convert x unitFrom unit
    .ok { TS.default with val := v.getD 0, err := e, sta := if v.isSome then .read else .notdefined }

/-! ### Steps of reading -/

/-- One assignment of a reading function; modelling device. -/
abbrev Step (σ : Type) := σ → J σ

/-- The steps in order up to the first that fails: what was read, and the failure.  Modelling device for the bodies of `try` blocks. -/
def exec {σ : Type} : List (Step σ) → σ → σ × Option Err
  | [], s => (s, none)
  | f :: l, s =>
    match f s with
    | .ok t => exec l t
    | .error e => (s, some e)

/-- The `catch` behind the `try` blocks: exceptions of the JSON library are logged and the record is returned as it is,
ParseJsonToData.cpp:513-518, 601-606, 670-675. -/
def caught {σ : Type} : σ × Option Err → J σ
  | (s, none) => .ok s
  | (s, some .json) => .ok s
  | (_, some .other) => .error .other
  | (_, some .ub) => .error .ub

/-- `if (j.contains(k)) if (!j[k].is_null()) set(j[k])` with a conversion `f`, e.g. ParseJsonToData.cpp:535-537. -/
def fieldStep {σ α : Type} (j : Json) (k : String) (f : Json → J α) (set : σ → α → σ) : Step σ := fun s =>
  match j.field k with
  | none => .ok s
  | some v => do
    let x ← f v
    .ok (set s x)

/-- `if (j.contains("properties")) if (!j["properties"].is_null()) j = j["properties"]`, ParseJsonToData.cpp:473-475, 530-532, 617-619. -/
def inner (j : Json) : Json := (j.field "properties").getD j

/-! ### Elements -/

/-- `Element::Impl`, Element.cpp:8-41, as created by `new Impl()`: numbers 0, valence 777. -/
structure Elem where
  name : String := ""
  symbol : String := ""
  entropy : Option ℝ := some 0
  heatCapacity : Option ℝ := some 0
  volume : Option ℝ := some 0
  valence : Int := 777
  molarMass : Option ℝ := some 0
  cls : Int := 0
  isotope : Int := 0
  number : Int := 0

/-- The local variables of `parseElement`: the element and `double val;`, ParseJsonToData.cpp:466, 490. -/
structure ElemW where
  e : Elem := {}
  val : Option ℝ := none

/-- `read_value_unit(j, data, val, unit); set(val)`, ParseJsonToData.cpp:491-498. -/
noncomputable def valStep (j : Json) (data unit : String) (set : Elem → Option ℝ → Elem) : Step ElemW := fun w => do
  let r ← readValueUnit j data unit
  let v := match r with
    | some x => some x
    | none => w.val
  .ok { e := set w.e v, val := v }

/-- The class of an element, ParseJsonToData.cpp:500-506. -/
def classStep (j : Json) : Step ElemW := fun w =>
  match j.get? "class_" with
  | none => .ok w
  | some v =>
    if !v.isNull && !v.isEmpty && v.isObj then do
      let k ← v.firstKey
      let n ← stoi k
      .ok { w with e := { w.e with cls := n } }
    else .ok { w with e := { w.e with cls := 0 } }

/-- The body of the `try` block of `parseElement`, ParseJsonToData.cpp:472-511. -/
noncomputable def elementSteps (j : Json) : List (Step ElemW) := [
  fieldStep j "name" Json.getStr fun w x => { w with e := { w.e with name := x } },
  fieldStep j "symbol" Json.getStr fun w x => { w with e := { w.e with symbol := x } },
  fieldStep j "number" Json.getInt fun w x => { w with e := { w.e with number := x } },
  valStep j "entropy" "J/(mol*K)" fun e x => { e with entropy := x },
  valStep j "heat_capacity" "J/(mol*K)" fun e x => { e with heatCapacity := x },
  valStep j "atomic_mass" "g/mol" fun e x => { e with molarMass := x },
  valStep j "volume" "J/bar" fun e x => { e with volume := x },
  classStep j,
  fieldStep j "isotope_mass" Json.getInt fun w x => { w with e := { w.e with isotope := x } }]

/-- `parseElement`, ParseJsonToData.cpp:464-519. -/
noncomputable def parseElement (j : Json) : J Elem := do
  let w ← caught (exec (elementSteps (inner j)) {})
  .ok w.e

/-! ### Methods -/

/-- Which of the three methods of a record a code sets. -/
inductive Slot | gen | T | P
  deriving DecidableEq, Repr

/-- The cases of `setTPMethods_old` for substances, ParseJsonToData.cpp:225-265. -/
def substSlot (key : Int) : Option Slot :=
  if key ∈ [0, 2, 3, 25, 26, 27, 28] then some .gen
  else if key ∈ [5, 6, 1, 29, 30, 31, 32, 33, 43] then some .T
  else if key ∈ [34, 35, 36, 37, 38, 39, 8, 9, 10, 11, 12, 13, 14, 4, 40] then some .P
  else none

/-- `new_old_s_methodtype`, GlobalVariables.h:514-546. -/
def substCodes : List (Int × Nat) := [
  (0, 100), (2, 101), (3, 119), (25, 117), (26, 118), (27, 120), (28, 121), (5, 201), (6, 202), (1, 203), (29, 206), (30, 207), (31, 221),
  (32, 222), (33, 223), (34, 305), (35, 306), (36, 307), (37, 308), (38, 309), (39, 310), (8, 311), (9, 312), (10, 313), (11, 314), (12, 315),
  (13, 316), (14, 317), (4, 320), (40, 300), (43, 200)]

/-- The cases of `setTPMethods_old` for reactions, ParseJsonToData.cpp:197-222. -/
def reacSlot (key : Int) : Option Slot :=
  if key ∈ [11, 1, 0, 2] then some .gen
  else if key ∈ [3, 4, 5, 6, 7, 8, 9, 10, 14] then some .T
  else if key ∈ [12, 13] then some .P
  else none

/-- `new_old_r_methodtype`, GlobalVariables.h:548-564. -/
def reacCodes : List (Int × Nat) := [
  (11, 100), (1, 105), (0, 102), (2, 104), (3, 208), (4, 209), (5, 210), (6, 211), (7, 212), (8, 213), (9, 214), (10, 216), (12, 306),
  (13, 305), (14, 224)]

/-- `std::map::at` on the table of codes: `out_of_range` for a key that is missing. -/
def codeAt (key : Int) : List (Int × Nat) → J Nat
  | [] => .error .other
  | (k, c) :: l => if k = key then .ok c else codeAt key l

/-- The three method codes of a record; 0 is no method (value-initialised enumerations, Substance.cpp:48-55, Reaction.cpp:36-43). -/
structure Methods where
  gen : Nat := 0
  T : Nat := 0
  P : Nat := 0
  deriving DecidableEq

/-- Assigning one of the methods: `setMethodGenEoS`, `setMethod_T`, `setMethod_P`. -/
def Methods.set (m : Methods) (s : Slot) (c : Nat) : Methods :=
  match s with
  | .gen => { m with gen := c }
  | .T => { m with T := c }
  | .P => { m with P := c }

/-- `setTPMethods_old`, ParseJsonToData.cpp:197-267, with the switch `slot` and the table `codes`; a code without case changes nothing. -/
def setMethods (slot : Int → Option Slot) (codes : List (Int × Nat)) (key : Int) (m : Methods) : J Methods :=
  match slot key with
  | none => .ok m
  | some s => do
    let c ← codeAt key codes
    .ok (m.set s c)

/-- The code and name of an entry of `TPMethods`, ParseJsonToData.cpp:312-320, 336-344; `none` if the entry is passed over. -/
def methodOf (val : Json) : J (Option (Int × String)) :=
  match val.get? "method" with
  | some (.obj ((k, v) :: _)) =>
    if v.isNull then .ok none else do
      let key ← stoi k
      let name ← v.getStr
      .ok (some (key, name))
  | some (.arr (v :: _)) => if v.isNull then .ok none else .error .json
  | _ => .ok none

/-! ### Substances -/

/-- `Substance::Impl`, Substance.cpp:11-80, as created by `new Impl()`: numbers 0 except the reference state. -/
structure Sub where
  name : String := ""
  symbol : String := ""
  formula : String := ""
  reactionSymbol : String := ""
  molarMass : Option ℝ := some 0
  refT : ℝ := 298.15
  refP : ℝ := 1e5
  lowerT : ℝ := 0
  lowerP : ℝ := 0
  upperT : ℝ := 0
  upperP : ℝ := 0
  methods : Methods := {}
  cls : Int := 0
  state : Int := 0
  reacdc : Bool := false
  ref : TPS := TPS.default
  params : ParamS := { compressibility := some 0, expansivity := some 0 }
  charge : Int := 0

/-- The local variables of `parseSubstance` and `getTPMethods`: the substance and the parameters `ps`, ParseJsonToData.cpp:523, 330. -/
structure SubW where
  s : Sub := {}
  ps : ParamS := {}

/-- Assigning a list that was read to a member. -/
def orOld (r : Option (List ℝ)) (old : List ℝ) : List ℝ := r.getD old

/-- The temperature limits of a method, ParseJsonToData.cpp:369-379. -/
def limitsOf (j : Json) : J (List ℝ) :=
  match j.get? "limitsTP" with
  | none => .ok []
  | some l => do
    let a ← match l.field "lowerT" with
      | none => .ok []
      | some v => do
        let x ← v.getDouble
        .ok [x]
    let b ← match l.field "upperT" with
      | none => .ok []
      | some v => do
        let x ← v.getDouble
        .ok [x]
    .ok (a ++ b)

/-- `thermoParamSubst`, ParseJsonToData.cpp:358-393. -/
noncomputable def thermoParamSubst (j : Json) (name : String) (ps : ParamS) : J ParamS := do
  let ad ← readValuesUnits j "eos_akinfiev_diamond_coeffs" ["1", "(cm^3)/g", "(cm^3*K^0.5)/g"]
  let cr ← readValuesUnits j "eos_gas_crit_props" ["K", "bar", "1", "1"]
  let hk ← readValuesUnits j "eos_hkf_coeffs" ["cal/(mol*bar)", "cal/mol", "(cal*K)/(mol*bar)", "(cal*K)/mol", "cal/(mol*K)", "(cal*K)/mol", "cal/mol"]
  let iv ← if name = "cp_ft_equation" then do
      let l ← limitsOf j
      .ok (ps.intervals ++ [l])
    else .ok ps.intervals
  let cp ← readValuesUnits j "m_heat_capacity_ft_coeffs" ["J/(mol*K)", "J/(mol*K^2)", "(J*K)/mol", "J/(mol*K^0.5)", "J/(mol*K^3)",
    "J/(mol*K^4)", "J/(mol*K^5)", "(J*K^2)/mol", "J/mol", "J/(mol*K^1.5)", "J/(mol*K)"]
  let ph ← readValuesUnits j "m_phase_trans_props" ["K", "J/(mol*K)", "J/mol", "J/bar", "K/bar"]
  let la ← readValuesUnits j "m_landau_phase_trans_props" ["degC", "J/(mol*K)", "J/bar"]
  let hp ← readValuesUnits j "solute_holland_powell98_coeff" ["kJ/(mol*K^2)"]
  .ok { ps with
    akinfiev := orOld ad ps.akinfiev, critical := orOld cr ps.critical, hkf := orOld hk ps.hkf, intervals := iv,
    cpCoeffs := if (orOld cp []).isEmpty then ps.cpCoeffs else ps.cpCoeffs ++ [orOld cp []],
    transitions := if (orOld ph []).isEmpty then ps.transitions else ps.transitions ++ [orOld ph []],
    landau := orOld la ps.landau, holland := orOld hp ps.holland }

/-- One entry of `TPMethods` of a substance, ParseJsonToData.cpp:334-348: setting the method, then reading its parameters. -/
noncomputable def substMethodSteps (val : Json) : List (Step SubW) := [
  fun w => do
    let m ← methodOf val
    match m with
    | none => .ok w
    | some (key, _) => do
      let ms ← setMethods substSlot substCodes key w.s.methods
      .ok { w with s := { w.s with methods := ms } },
  fun w => do
    let m ← methodOf val
    match m with
    | none => .ok w
    | some (_, name) => do
      let ps ← thermoParamSubst val name w.ps
      .ok { w with ps := ps }]

/-- `getTPMethods` for substances, ParseJsonToData.cpp:328-356. -/
noncomputable def substMethodsSteps (j : Json) : List (Step SubW) :=
  match j.field "TPMethods" with
  | none => []
  | some ms => ms.elems.flatMap substMethodSteps ++ [
    fun w => do
      let r ← readValueUnit j "m_expansivity" "1/K"
      .ok { w with ps := { w.ps with expansivity := match r with | some x => some x | none => w.ps.expansivity } },
    fun w => do
      let r ← readValueUnit j "m_compressibility" "kbar"
      .ok { w with ps := { w.ps with compressibility := match r with | some x => some x | none => w.ps.compressibility } },
    fun w => .ok { w with s := { w.s with params := w.ps } }]

/-- `thermoRefPropSubst`, ParseJsonToData.cpp:410-427. -/
noncomputable def refPropSubst (j : Json) : J TPS := do
  let cp ← readProp j "sm_heat_capacity_p" "J/K/mol"
  let g ← readProp j "sm_gibbs_energy" "J/mol"
  let h ← readProp j "sm_enthalpy" "J/mol"
  let s ← readProp j "sm_entropy_abs" "J/K/mol"
  let v ← readProp j "sm_volume" "J/bar"
  .ok { TPS.default with Cp := cp, G := g, H := h, S := s, V := v }

/-- The number before a map of one entry like `{"3": "AS_AQUEOUS"}`: `!null && !empty`, then `stoi(begin().key())`,
ParseJsonToData.cpp:553-561. -/
def codeStep {σ : Type} (j : Json) (k : String) (set : σ → Int → σ) : Step σ := fun s =>
  match j.field k with
  | none => .ok s
  | some v =>
    if v.isEmpty then .ok s else do
      let x ← v.firstKey
      let n ← stoi x
      .ok (set s n)

/-- The body of the `try` block of `parseSubstance`, ParseJsonToData.cpp:529-600. -/
noncomputable def substanceSteps (j : Json) : List (Step SubW) := [
  fieldStep j "name" Json.getStr fun w x => { w with s := { w.s with name := x } },
  fieldStep j "symbol" Json.getStr fun w x => { w with s := { w.s with symbol := x } },
  fieldStep j "formula" Json.getStr fun w x => { w with s := { w.s with formula := x } },
  fieldStep j "formula_charge" Json.getInt fun w x => { w with s := { w.s with charge := x } },
  fieldStep j "reaction" Json.getStr fun w x => { w with s := { w.s with reactionSymbol := x } },
  fun w => do
    let r ← readValueUnit j "mass_per_mole" "g/mol"
    .ok { w with s := { w.s with molarMass := r } },
  codeStep j "aggregate_state" fun w n => { w with s := { w.s with state := n } },
  codeStep j "class_" fun w n => { w with s := { w.s with cls := n } },
  fieldStep ((j.field "limitsTP").getD .null) "lowerT" Json.getDouble fun w x => { w with s := { w.s with lowerT := x } },
  fieldStep ((j.field "limitsTP").getD .null) "upperT" Json.getDouble fun w x => { w with s := { w.s with upperT := x } },
  fieldStep j "Tst" Json.getDouble fun w x => { w with s := { w.s with refT := x } },
  fieldStep j "Pst" Json.getDouble fun w x => { w with s := { w.s with refP := x } }]
  ++ substMethodsSteps j ++ [
  fun w => .ok (if (j.get? "TPMethods").isNone ∧ (j.field "reaction").isSome then { w with s := { w.s with reacdc := true } } else w),
  fun w => do
    let r ← refPropSubst j
    .ok { w with s := { w.s with ref := r } }]

/-- `parseSubstance`, ParseJsonToData.cpp:521-607. -/
noncomputable def parseSubstance (j : Json) : J Sub := do
  let w ← caught (exec (substanceSteps (inner j)) {})
  .ok w.s

/-! ### Reactions -/

/-- `Reaction::Impl`, Reaction.cpp:18-66, as created by `new Impl()`. -/
structure Rea where
  name : String := ""
  equation : String := ""
  symbol : String := ""
  reactants : List (String × ℚ) := []
  methods : Methods := {}
  refT : ℝ := 298.15
  refP : ℝ := 1e5
  lowerT : ℝ := 0
  lowerP : ℝ := 0
  upperT : ℝ := 0
  upperP : ℝ := 0
  ref : TPR := TPR.default
  params : ParamR := {}

/-- The local variables of `parseReaction` and `getTPMethods`, ParseJsonToData.cpp:611, 307. -/
structure ReaW where
  r : Rea := {}
  pr : ParamR := {}

/-- `reactants[symbol] = x` on the `std::map` of coefficients, kept in the order of its keys; modelling device. -/
def assign {α : Type} (m : List (String × α)) (k : String) (x : α) : List (String × α) :=
  match m with
  | [] => [(k, x)]
  | (a, y) :: t => if a = k then (k, x) :: t else if k < a then (k, x) :: (a, y) :: t else (a, y) :: assign t k x

/-- `getReactants`, ParseJsonToData.cpp:450-462, from the map read so far. -/
def getReactants : List Json → List (String × ℚ) → J (List (String × ℚ))
  | [], m => .ok m
  | j :: l, m =>
    match j.field "symbol", j.field "coefficient" with
    | some s, some c =>
      match c, s with
      | .num q, .str k => getReactants l (assign m k q)
      | _, _ => .error .json
    | _, _ => getReactants l m

/-- `setEquation` and `fromEquation`, ParseJsonToData.cpp:629-634, Reaction.cpp:116-146: the equation gives the symbol if there is none. -/
noncomputable def equationStep (j : Json) : Step ReaW :=
  fieldStep j "equation" (fun v => do
      let t ← v.getStr
      let m ← ofRes (Equation.fromEquation t.toList [])
      .ok (t, m.map fun p => (String.ofList p.1, p.2)))
    fun w x => { w with r := { w.r with equation := x.1, symbol := if w.r.symbol.isEmpty then x.1 else w.r.symbol, reactants := x.2 } }

/-- `thermoParamReac`, ParseJsonToData.cpp:395-408. -/
noncomputable def thermoParamReac (j : Json) (pr : ParamR) : J ParamR := do
  let k ← readValuesUnits j "logk_ft_coeffs" ["1", "1/K", "K", "1", "K^2", "1/K^2", "K^0.5"]
  let cp ← readValuesUnits j "dr_heat_capacity_ft_coeffs" ["J/(mol*K)", "J/(mol*K^2)", "(J*K)/mol", "J/(mol*K^0.5)", "J/(mol*K^3)"]
  let v ← readValuesUnits j "dr_volume_fpt_coeffs" ["1/K", "1/K^2", "1/K^3", "1/bar", "1/bar^2"]
  let rb ← readValuesUnits j "dr_ryzhenko_coeffs" ["1", "1", "1"]
  let fm ← readValuesUnits j "dr_marshall_franck_coeffs" ["1", "K", "K^2", "K^3", "1", "K", "K^2"]
  let dm ← readValuesUnits j "dr_dolejs_manning10_coeffs" ["kJ/mol", "J/(mol*K)", "J/(mol*K)", "J/(mol*K^2)", "J/(mol*K)"]
  .ok { logK := orOld k pr.logK, cp := orOld cp pr.cp, vol := orOld v pr.vol, rb := orOld rb pr.rb, fm := orOld fm pr.fm, dm := orOld dm pr.dm }

/-- One entry of `TPMethods` of a reaction, ParseJsonToData.cpp:310-324. -/
noncomputable def reacMethodSteps (val : Json) : List (Step ReaW) := [
  fun w => do
    let m ← methodOf val
    match m with
    | none => .ok w
    | some (key, _) => do
      let ms ← setMethods reacSlot reacCodes key w.r.methods
      .ok { w with r := { w.r with methods := ms } },
  fun w => do
    let m ← methodOf val
    match m with
    | none => .ok w
    | some _ => do
      let pr ← thermoParamReac val w.pr
      .ok { w with pr := pr }]

/-- `getTPMethods` for reactions, ParseJsonToData.cpp:305-326. -/
noncomputable def reacMethodsSteps (j : Json) : List (Step ReaW) :=
  match j.field "TPMethods" with
  | none => []
  | some ms => ms.elems.flatMap reacMethodSteps ++ [fun w => .ok { w with r := { w.r with params := w.pr } }]

/-- `thermoRefPropReac`, ParseJsonToData.cpp:429-448. -/
noncomputable def refPropReac (j : Json) : J TPR := do
  let k ← readProp j "logKr" "1"
  let cp ← readProp j "drsm_heat_capacity_p" "J/K/mol"
  let g ← readProp j "drsm_gibbs_energy" "J/mol"
  let h ← readProp j "drsm_enthalpy" "J/mol"
  let s ← readProp j "drsm_entropy" "J/K/mol"
  let v ← readProp j "drsm_volume" "J/bar"
  .ok { TPR.default with logK := k, Cp := cp, G := g, H := h, S := s, V := v }

/-- The body of the `try` block of `parseReaction`, ParseJsonToData.cpp:616-669. -/
noncomputable def reactionSteps (j : Json) : List (Step ReaW) := [
  fieldStep j "name" Json.getStr fun w x => { w with r := { w.r with name := x } },
  fieldStep j "symbol" Json.getStr fun w x => { w with r := { w.r with symbol := x } },
  equationStep j,
  fieldStep ((j.field "limitsTP").getD .null) "lowerT" Json.getDouble fun w x => { w with r := { w.r with lowerT := x } },
  fieldStep ((j.field "limitsTP").getD .null) "upperT" Json.getDouble fun w x => { w with r := { w.r with upperT := x } },
  fieldStep j "Tst" Json.getDouble fun w x => { w with r := { w.r with refT := x } },
  fieldStep j "Pst" Json.getDouble fun w x => { w with r := { w.r with refP := x } },
  fieldStep j "reactants" (fun v => getReactants v.elems []) fun w x => { w with r := { w.r with reactants := x } }]
  ++ reacMethodsSteps j ++ [
  fun w => do
    let r ← refPropReac j
    .ok { w with r := { w.r with ref := r } }]

/-- `parseReaction`, ParseJsonToData.cpp:609-676. -/
noncomputable def parseReaction (j : Json) : J Rea := do
  let w ← caught (exec (reactionSteps (inner j)) {})
  .ok w.r

end ThermoFun.Js

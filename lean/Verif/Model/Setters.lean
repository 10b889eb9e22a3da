import Verif.Model.Equation
import Verif.Model.Records

/-!
# Setters and getters of records

The setters and getters of `Substance`, `Reaction` and `Element` (Substance.cpp, Reaction.cpp, Element.cpp), and `Reaction::fromEquation` on a
reaction that may have reactants already.  The setters themselves are in Model/Records.lean.
-/

namespace ThermoFun.Js

/-- What a getter returns; modelling device. -/
inductive Val
  | text (x : String) | real (x : ℝ) | maybe (x : Option ℝ) | nat (x : Nat) | int (x : Int) | bool (x : Bool) | tps (x : TPS) | tpr (x : TPR)
  | paramS (x : ParamS) | paramR (x : ParamR) | map (x : List (String × ℚ))

/-- The getters of `Substance`, Substance.cpp:213-316, without `thermoProperties`, which no code sets, and `jsonString` (Model/Records.lean). -/
inductive SubGet
  | name | symbol | formula | reactionSymbol | ref | params | method (s : Slot) | cls | state | reacdc | charge | refT | refP | lowerT | lowerP | upperT
  | upperP | molarMass
  deriving DecidableEq

/-- One of the methods: `methodGenEOS`, `method_T`, `method_P`, Substance.cpp:284-297, Reaction.cpp:315-328. -/
def Methods.get (m : Methods) : Slot → Nat
  | .gen => m.gen
  | .T => m.T
  | .P => m.P

/-- What they return, Substance.cpp:213-316. -/
def SubGet.read : SubGet → Sub → Val
  | .name, s => .text s.name
  | .symbol, s => .text s.symbol
  | .formula, s => .text s.formula
  | .reactionSymbol, s => .text s.reactionSymbol
  | .ref, s => .tps s.ref
  | .params, s => .paramS s.params
  | .method m, s => .nat (s.methods.get m)
  | .cls, s => .int s.cls
  | .state, s => .int s.state
  | .reacdc, s => .bool s.reacdc
  | .charge, s => .int s.charge
  | .refT, s => .real s.refT
  | .refP, s => .real s.refP
  | .lowerT, s => .real s.lowerT
  | .lowerP, s => .real s.lowerP
  | .upperT, s => .real s.upperT
  | .upperP, s => .real s.upperP
  | .molarMass, s => .maybe s.molarMass

/-- The getters of `Reaction`, Reaction.cpp:254-333. -/
inductive ReaGet
  | name | symbol | equation | reactants | ref | params | method (s : Slot) | refT | refP | lowerT | lowerP | upperT | upperP
  deriving DecidableEq

/-- What they return, Reaction.cpp:254-333. -/
def ReaGet.read : ReaGet → Rea → Val
  | .name, s => .text s.name
  | .symbol, s => .text s.symbol
  | .equation, s => .text s.equation
  | .reactants, s => .map s.reactants
  | .ref, s => .tpr s.ref
  | .params, s => .paramR s.params
  | .method m, s => .nat (s.methods.get m)
  | .refT, s => .real s.refT
  | .refP, s => .real s.refP
  | .lowerT, s => .real s.lowerT
  | .lowerP, s => .real s.lowerP
  | .upperT, s => .real s.upperT
  | .upperP, s => .real s.upperP

/-- The getters of `Element`, Element.cpp:140-188. -/
inductive ElemGet | name | symbol | molarMass | entropy | heatCapacity | volume | valence | cls | isotope | number
  deriving DecidableEq

/-- What they return, Element.cpp:140-188. -/
def ElemGet.read : ElemGet → Elem → Val
  | .name, s => .text s.name
  | .symbol, s => .text s.symbol
  | .molarMass, s => .maybe s.molarMass
  | .entropy, s => .maybe s.entropy
  | .heatCapacity, s => .maybe s.heatCapacity
  | .volume, s => .maybe s.volume
  | .valence, s => .int s.valence
  | .cls, s => .int s.cls
  | .isotope, s => .int s.isotope
  | .number, s => .int s.number

/-- `Reaction::fromEquation`, Reaction.cpp:116-146 and 340-343: the equation, the symbol if there is none, and the reactants of the equation, added
to those the reaction has.  An exception of `std::stod` leaves the reaction half changed; only the result without exception is modelled. -/
def Rea.fromEquation (text : String) (r : Rea) : Res Rea := do
  let m ← Equation.fromEquation text.toList (r.reactants.map fun e => (e.1.toList, e.2))
  .ok { r with equation := text, symbol := if r.symbol = "" then text else r.symbol, reactants := m.map fun e => (String.ofList e.1, e.2) }

end ThermoFun.Js

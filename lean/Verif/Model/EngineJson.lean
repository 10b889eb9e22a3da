import Verif.Model.Database
import Verif.Model.Engine

/-!
The database the engine works on, from the database that was loaded: the records as the engine reads them.
-/

namespace ThermoFun.Engine

/-- `MethodGenEoS_Thrift` of a code, GlobalVariables.h:279-306; any other number is taken for no method. -/
def GenEoS.ofCode : Nat → GenEoS
  | 99 => .CON | 100 => .CPT | 101 => .HKF | 102 => .REA | 103 => .EOS | 104 => .ISO | 105 => .SOR | 106 => .OFF | 107 => .GAS | 108 => .H2O
  | 109 => .CO2 | 110 => .CH4 | 111 => .N2 | 112 => .H2 | 113 => .O2 | 114 => .AR | 115 => .PO | 116 => .NP | 117 => .WJNR | 118 => .WJNG
  | 119 => .HKFR | 120 => .WSV14 | 121 => .WF97 | 122 => .HP98 | 123 => .AN91 | _ => .unset

/-- `MethodCorrT_Thrift` of a code, GlobalVariables.h:350-379; any other number is taken for no method. -/
def CorrT.ofCode : Nat → CorrT
  | 200 => .CST | 201 => .CHP | 202 => .BER | 203 => .FEI | 204 => .LGX | 205 => .HKF | 206 => .WAT | 207 => .WAS | 208 => .LGK | 209 => .EK0
  | 210 => .EK1 | 211 => .EK2 | 212 => .EK3 | 213 => .IKZ | 214 => .DKR | 215 => .PPE | 216 => .MRB | 217 => .CPG | 218 => .IFG | 219 => .KAS
  | 220 => .DAS | 221 => .WAR | 222 => .WWP | 223 => .WZD | 224 => .DMD | _ => .unset

/-- `MethodCorrP_Thrift` of a code, GlobalVariables.h:436-463; any other number is taken for no method. -/
def CorrP.ofCode : Nat → CorrP
  | 300 => .OFF | 301 => .NUL | 302 => .ONE | 303 => .TWO | 304 => .TRI | 305 => .CON | 306 => .VKE | 307 => .VBE | 308 => .VBM | 309 => .CEH
  | 310 => .VTA | 311 => .GAS | 312 => .PRSV | 313 => .EMP | 314 => .SRK | 315 => .STP | 316 => .PR78 | 317 => .CORK | 318 => .REFL
  | 319 => .HKF | 320 => .AKI | 321 => .PCR | 322 => .INK | _ => .unset

/-- `SubstanceClass` of a code, GlobalVariables.h:603-614. -/
def SClass.ofCode : Int → SClass
  | 1 => .GASFLUID | 2 => .AQSOLUTE | 3 => .AQSOLVENT | _ => .other

/-- A substance as the engine reads it through the accessors, Substance.cpp:214-330; the aggregate state `GAS` is 0, GlobalVariables.h:638. -/
noncomputable def ofSub (s : Js.Sub) : Subst :=
  ⟨s.symbol, s.formula, s.reactionSymbol, s.refT, s.refP, .ofCode s.methods.gen, .ofCode s.methods.T, .ofCode s.methods.P, .ofCode s.cls,
    s.state = 0, s.reacdc, s.ref, s.charge, s.params⟩

/-- A reaction as the engine reads it through the accessors, Reaction.cpp:254-328. -/
noncomputable def ofRea (r : Js.Rea) : Reac :=
  ⟨r.symbol, r.reactants.map fun p => (p.1, (p.2 : ℝ)), r.refT, r.refP, .ofCode r.methods.gen, .ofCode r.methods.T, .ofCode r.methods.P, r.ref,
    r.params⟩

/-- The database the engine is constructed from, ThermoEngine.cpp:82-86: a copy.  The entropy of the elements in a formula
(Database.cpp:648-652, computed by the ChemicalFun library) stays a parameter. -/
noncomputable def ofDb (d : Js.DbS) (elemEntropy : String → ℝ) : Db :=
  ⟨d.subs.map fun p => (p.1, ofSub p.2), d.reacs.map fun p => (p.1, ofRea p.2), elemEntropy, d.triple⟩

end ThermoFun.Engine

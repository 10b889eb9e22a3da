import Verif.Model.Memo
import Verif.Model.Substance
import Verif.Model.Equation
import Verif.Model.WaterState
import Verif.Model.Params

/-!
# Model of /repo/ThermoFun/ThermoEngine.cpp

The calculations for substances, solvents and reactions, with the mutable preferences and the four caches as state.  The numeric models
the engine calls are parameters (`Models`); several of them are modelled in the other files.

Simplifications, for the whole file:
* The pressure is passed by value: the cases where a model writes the saturation pressure back through the reference (P = 0) are not
  covered here (see C11), and the third component of the cache keys, the reference itself, is left out.
* Arguments of a C++ call are evaluated from left to right; C++ leaves that order open.
* Status messages and log lines are left out.
-/

namespace ThermoFun.Engine

/-! ### Method codes -/

/-- `MethodGenEoS_Thrift`, GlobalVariables.h:279-306; `unset` is the value 0 of a value-initialised record (Substance.cpp:83-85). -/
inductive GenEoS
  | unset | CON | CPT | HKF | REA | EOS | ISO | SOR | OFF | GAS | H2O | CO2 | CH4 | N2 | H2 | O2 | AR | PO | NP
  | WJNR | WJNG | HKFR | WSV14 | WF97 | HP98 | AN91
  deriving DecidableEq, Repr

/-- `MethodCorrT_Thrift`, GlobalVariables.h:350-379; `unset` is 0. -/
inductive CorrT
  | unset | CST | CHP | BER | FEI | LGX | HKF | WAT | WAS | LGK | EK0 | EK1 | EK2 | EK3 | IKZ | DKR | PPE | MRB | CPG | IFG | KAS | DAS
  | WAR | WWP | WZD | DMD
  deriving DecidableEq, Repr

/-- `MethodCorrP_Thrift`, GlobalVariables.h:436-463; `unset` is 0. -/
inductive CorrP
  | unset | OFF | NUL | ONE | TWO | TRI | CON | VKE | VBE | VBM | CEH | VTA | GAS | PRSV | EMP | SRK | STP | PR78 | CORK | REFL | HKF | AKI
  | PCR | INK
  deriving DecidableEq, Repr

/-- `SubstanceClass`, GlobalVariables.h:603-614; only the classes the engine and the models ask for are told apart. -/
inductive SClass
  | AQSOLUTE | AQSOLVENT | GASFLUID | other
  deriving DecidableEq, Repr

/-! ### Records -/

/-- The fields of `Substance::Impl` the engine and the models read, Substance.cpp:11-80; `charge` and `params`, the model parameters, are
read by the numeric models only. -/
structure Subst where
  symbol : String
  formula : String
  reactionSymbol : String
  refT : ℝ
  refP : ℝ
  gen : GenEoS
  mT : CorrT
  mP : CorrP
  cls : SClass
  /-- the aggregate state is `GAS` -/
  gas : Bool
  /-- the calculation type is `REACDC` -/
  reacdc : Bool
  ref : TPS
  charge : Int
  params : ParamS

/-- The fields of `Reaction::Impl` the engine and the models read, Reaction.cpp:49-114; `reactants` is the `std::map` of coefficients. -/
structure Reac where
  symbol : String
  reactants : List (String × ℝ)
  refT : ℝ
  refP : ℝ
  gen : GenEoS
  mT : CorrT
  mP : CorrP
  ref : TPR
  params : ParamR

/-- `Database::Impl`, Database.cpp:21-60: the maps of substances and reactions, as association lists in the order of the map, and
`elementalEntropyFormula` (Database.cpp:648-652), which asks the ChemicalFun library. -/
structure Db where
  subs : List (String × Subst)
  reacs : List (String × Reac)
  elemEntropy : String → ℝ
  tripleRef : String

/-- Outcome of an engine call: a value, an exception, undefined behaviour in a numeric model, or a recursion deeper than the allowed
depth (`deep`; the C++ stack).  Modelling device. -/
inductive Out (α : Type) where
  | ok (a : α)
  | throw
  | ub
  | deep

/-! ### Numeric models -/

/-- The numeric models the engine calls; `PS` and `EPS` are `PropertiesSolvent` and `ElectroPropertiesSolvent`, `ps0` and `eps0` their
default-constructed values (ThermoProperties.h:82-201).  The line is the one of the call in ThermoEngine.cpp. -/
structure Models (PS EPS : Type) where
  ps0 : PS
  eps0 : EPS
  /-- `EmpiricalCpIntegration`, 266, 430 -/
  cpt : Subst → ℝ → ℝ → Res TPS
  /-- `SoluteHKFgems`, 271 -/
  hkf : Subst → ℝ → ℝ → PS → EPS → Res TPS
  /-- `SoluteHKFreaktoro`, 276 -/
  hkfr : Subst → ℝ → ℝ → PS → EPS → Res TPS
  /-- `SoluteHollandPowell98`, 283 -/
  hp98 : Subst → ℝ → ℝ → PS → PS → Res TPS
  /-- `SoluteAnderson91`, 290 -/
  an91 : Subst → ℝ → ℝ → PS → PS → Res TPS
  /-- `HPLandau`, 304 -/
  chp : Subst → ℝ → ℝ → TPS → Res TPS
  /-- `EntropyCpIntegration`, 310 -/
  cst : Subst → ℝ → ℝ → Res TPS
  /-- `SoluteAkinfievDiamondEOS`, 326 -/
  aki : Subst → ℝ → ℝ → TPS → TPS → TPS → PS → TPS → TPS → PS → Res TPS
  /-- `WaterIdealGasWoolley`, 327, 330 -/
  woolley : Subst → ℝ → ℝ → Res TPS
  /-- `MinMurnaghanEOSHP98`, 336 -/
  ceh : Subst → ℝ → ℝ → TPS → Res TPS
  /-- `MinBerman88`, 341 -/
  vbe : Subst → ℝ → ℝ → TPS → Res TPS
  /-- `MinBMGottschalk`, 346 -/
  vbm : Subst → ℝ → ℝ → TPS → Res TPS
  /-- `GasCORK`, 351 -/
  cork : Subst → ℝ → ℝ → TPS → Bool → Res TPS
  /-- `GasPRSV`, 356 -/
  prsv : Subst → ℝ → ℝ → TPS → Bool → Res TPS
  /-- `GasCGF`, 361 -/
  emp : Subst → ℝ → ℝ → TPS → Bool → Res TPS
  /-- `GasSRK`, 366 -/
  srk : Subst → ℝ → ℝ → TPS → Bool → Res TPS
  /-- `GasPR78`, 371 -/
  pr78 : Subst → ℝ → ℝ → TPS → Bool → Res TPS
  /-- `GasSTP`, 376 -/
  stp : Subst → ℝ → ℝ → TPS → Bool → Res TPS
  /-- `IdealGasLawVol`, 381 -/
  off : Subst → ℝ → ℝ → TPS → Bool → Res TPS
  /-- `ConMolVol`, 386, 651 -/
  con : Subst → ℝ → ℝ → TPS → Res TPS
  /-- `WaterHGK::thermoPropertiesSubstance`, 407 -/
  wat : Subst → ℝ → ℝ → Int → String → Res TPS
  /-- `WaterHGKreaktoro::thermoPropertiesSubstance`, 412 -/
  war : Subst → ℝ → ℝ → Int → String → Res TPS
  /-- `WaterWP95reaktoro::thermoPropertiesSubstance`, 417 -/
  wwp : Subst → ℝ → ℝ → Int → String → Res TPS
  /-- `WaterZhangDuan2005::thermoPropertiesSubstance`, 422 -/
  wzd : Subst → ℝ → ℝ → Int → Res TPS
  /-- `WaterHGK::propertiesSolvent`, 557 -/
  watPS : Subst → ℝ → ℝ → Int → Res PS
  /-- `WaterHGKreaktoro::propertiesSolvent`, 562 -/
  warPS : Subst → ℝ → ℝ → Int → Res PS
  /-- `WaterWP95reaktoro::propertiesSolvent`, 567 -/
  wwpPS : Subst → ℝ → ℝ → Int → Res PS
  /-- `WaterZhangDuan2005::propertiesSolvent`, 572 -/
  wzdPS : Subst → ℝ → ℝ → Int → Res PS
  /-- `WaterJNreaktoro`, 513 -/
  wjnr : Subst → ℝ → ℝ → PS → Int → Res EPS
  /-- `WaterJNgems`, 518 -/
  wjng : Subst → ℝ → ℝ → Int → Res EPS
  /-- `WaterElectroSverjensky2014`, 523 -/
  wsv14 : Subst → ℝ → ℝ → Int → Res EPS
  /-- `WaterElectroFernandez1997`, 528 -/
  wf97 : Subst → ℝ → ℝ → Int → Res EPS
  /-- `Reaction_LogK_fT`, 701 -/
  logk : Reac → ℝ → ℝ → CorrT → Res TPR
  /-- `ReactionDolejsManning10`, 706 -/
  dmd : Reac → ℝ → ℝ → PS → Res TPR
  /-- `ReactionFrantzMarshall`, 711 -/
  dkr : Reac → ℝ → ℝ → PS → Res TPR
  /-- `ReactionRyzhenkoBryzgalin`, 716 -/
  mrb : Reac → ℝ → ℝ → PS → Res TPR
  /-- `Reaction_Vol_fT`, 736 -/
  volft : Reac → ℝ → ℝ → Res TPR

/-- What stays the same during a query: database, numeric models, `EngineConventions` and `fallback_to_reference_properties`
(ThermoEngine.h:14-32), and the cache size and switch with which `set_fn` built the caches (ThermoEngine.cpp:113-126). -/
structure Env (PS EPS : Type) where
  db : Db
  mods : Models PS EPS
  waterProperties : String
  apparentProperties : String
  fallback : Bool
  memo : Bool
  maxCache : Nat

/-! ### State -/

/-- Cache key of substances and reactions, `std::tuple<double,double,double&,std::string>` (ThermoEngine.cpp:50-60). -/
structure Key where
  T : ℝ
  P : ℝ
  sym : String

/-- Cache key of solvent properties, with the state, ThermoEngine.cpp:53-57. -/
structure SKey where
  T : ℝ
  P : ℝ
  sym : String
  state : Int

noncomputable instance : DecidableEq Key := Classical.decEq _
noncomputable instance : DecidableEq SKey := Classical.decEq _

/-- The mutable part of an engine: `preferences.solvent_state`, `solvent_symbol`, `apply_pressure_correction_to_gas_props`
(ThermoEngine.h:24-32) and the state of the four cached functions (ThermoEngine.cpp:71-77). -/
structure ESt (PS EPS : Type) where
  solventState : Int
  solventSymbol : String
  pcorr : Bool
  subC : Cache Key TPS
  reacC : Cache Key TPR
  psC : Cache SKey PS
  elC : Cache SKey EPS

/-- A new engine, ThermoEngine.h:24-32 and ThermoEngine.cpp:79-89. -/
def ESt.init {PS EPS : Type} : ESt PS EPS := ⟨0, "H2O@", false, ⟨[], []⟩, ⟨[], []⟩, ⟨[], []⟩, ⟨[], []⟩⟩

/-- A calculation that reads and changes the engine's state; the changes stay when it raises.  Modelling device. -/
def EM (PS EPS α : Type) := ESt PS EPS → Out α × ESt PS EPS

variable {PS EPS : Type}

namespace EM

/-- Sequencing of statements.  Modelling device. -/
def bind {α β : Type} (m : EM PS EPS α) (f : α → EM PS EPS β) : EM PS EPS β := fun s =>
  match m s with
  | (.ok a, s') => f a s'
  | (.throw, s') => (.throw, s')
  | (.ub, s') => (.ub, s')
  | (.deep, s') => (.deep, s')

instance : Monad (EM PS EPS) where
  pure a := fun s => (.ok a, s)
  bind := bind

/-- Raise an exception.  Modelling device. -/
def raise {α : Type} : EM PS EPS α := fun s => (.throw, s)
/-- The recursion limit is reached.  Modelling device. -/
def tooDeep {α : Type} : EM PS EPS α := fun s => (.deep, s)
/-- Call of a numeric model, which does not touch the engine's state.  Modelling device. -/
def lift {α : Type} (o : Res α) : EM PS EPS α := fun s =>
  match o with
  | .ok a => (.ok a, s)
  | .throw => (.throw, s)
  | .ub => (.ub, s)
/-- Read from the state.  Modelling device. -/
def read {α : Type} (f : ESt PS EPS → α) : EM PS EPS α := fun s => (.ok (f s), s)
/-- Change the state.  Modelling device. -/
def change (f : ESt PS EPS → ESt PS EPS) : EM PS EPS Unit := fun s => (.ok (), f s)

end EM

/-- One call of a cached function (OptimizationUtils.h:58-78, see Model/Memo.lean), where the cache is a part of the state and the
calculation `m` may change that state, including this cache.  With `memo = false` the function is called directly
(ThermoEngine.cpp:113).  The functions are wrapped once, when the engine is built (`set_fn`, ThermoEngine.cpp:79-127), at which time the
preferences have their default values, so that `memo = true` and `maxCache = 1000000` in every engine; the unlimited cache of
`max_cache_size == 0` (ThermoEngine.cpp:84-95) is not modelled. -/
def cached {K V : Type} [DecidableEq K] (env : Env PS EPS) (get : ESt PS EPS → Cache K V) (set : Cache K V → ESt PS EPS → ESt PS EPS)
    (k : K) (m : EM PS EPS V) : EM PS EPS V := fun s =>
  if env.memo then
    let s := set (Cache.evict env.maxCache (get s)) s
    match (get s).find k with
    | some v => (.ok v, s)
    | none =>
      match m s with
      | (.ok v, s') => (.ok v, set ((get s').insert k v) s')
      | r => r
  else m s

/-! ### Preferences -/

/-- `getSubstance`, Database.cpp:184-190. -/
def getSub (env : Env PS EPS) (x : String) : EM PS EPS Subst :=
  match env.db.subs.lookup x with
  | some v => pure v
  | none => EM.raise

/-- `getReaction`, Database.cpp:192-198. -/
def getReac (env : Env PS EPS) (x : String) : EM PS EPS Reac :=
  match env.db.reacs.lookup x with
  | some v => pure v
  | none => EM.raise

/-- `isH2Ovapor`, ThermoEngine.cpp:175-179. -/
def Subst.isVapor (x : Subst) : Bool := x.gen = .HKF ∧ x.mP = .GAS
/-- `isH2OSolvent`, ThermoEngine.cpp:181-185. -/
def Subst.isSolvent (x : Subst) : Bool := x.cls = .AQSOLVENT
/-- `noMethods`, ThermoEngine.cpp:193-196, and the test in 806. -/
def Subst.noMethods (x : Subst) : Bool := x.gen = .unset ∧ x.mP = .unset ∧ x.mT = .unset
/-- `isReacDC`, ThermoEngine.cpp:198-210. -/
def Subst.isReacDC (x : Subst) : Bool := x.reacdc ∨ x.noMethods ∨ (x.gen = .unset ∧ x.mP = .CON ∧ x.mT = .unset)

/-- The solvent the search of ThermoEngine.cpp:216-222 ends with: the last `AQSOLVENT` of the map, if there is one. -/
def lastSolvent (db : Db) : Option String := ((db.subs.filter fun e => e.2.isSolvent).getLast?).map Prod.fst

/-- The changes `getThermoPreferencesSubstance` makes to the engine's preferences, ThermoEngine.cpp:187-191 and 212-224. -/
def setPrefs (env : Env PS EPS) (x : Subst) : EM PS EPS Unit := EM.change fun s =>
  let s := { s with solventState := if x.gas then 1 else 0 }
  if x.cls = .AQSOLUTE ∧ (env.db.subs.lookup s.solventSymbol).isNone then
    match lastSolvent env.db with
    | some y => { s with solventSymbol := y }
    | none => s
  else s

/-- Lines 502-503 and 547-548 of ThermoEngine.cpp: a state 0 or 1 replaces the one from the record. -/
def setState (state : Int) : EM PS EPS Unit := EM.change fun s =>
  if -1 < state ∧ state < 2 then { s with solventState := state } else s

/-- `preferences.apply_pressure_correction_to_gas_props = b`, ThermoEngine.cpp:592, 643, 796, 834. -/
def setFlag (b : Bool) : EM PS EPS Unit := EM.change fun s => { s with pcorr := b }

/-! ### Solvent -/

/-- `propertiesSolvent(T, P, const Substance&, state)`, ThermoEngine.cpp:544-581. -/
def propsSolventRec (env : Env PS EPS) (T P : ℝ) (x : Subst) (state : Int) : EM PS EPS PS := do
  setPrefs env x
  setState state
  let st ← EM.read (·.solventState)
  if x.isSolvent then
    match x.mT with
    | .WAT => EM.lift (env.mods.watPS x T P st)
    | .WAR => EM.lift (env.mods.warPS x T P st)
    | .WWP => EM.lift (env.mods.wwpPS x T P st)
    | .WZD => EM.lift (env.mods.wzdPS x T P st)
    | _ => pure env.mods.ps0
  else pure env.mods.ps0

/-- `properties_solvent_fn`, ThermoEngine.cpp:103-106, 539-542. -/
noncomputable def propsSolvent (env : Env PS EPS) (T P : ℝ) (x : String) (state : Int) : EM PS EPS PS :=
  cached env (·.psC) (fun c s => { s with psC := c }) ⟨T, P, x, state⟩ do
    let v ← getSub env x
    propsSolventRec env T P v state

/-- `electroPropertiesSolvent(T, P, const Substance&, state)`, ThermoEngine.cpp:499-537. -/
def electroRec (env : Env PS EPS) (T P : ℝ) (x : Subst) (state : Int) : EM PS EPS EPS := do
  setPrefs env x
  setState state
  let st ← EM.read (·.solventState)
  let ps ← propsSolventRec env T P x st
  let st ← EM.read (·.solventState)
  if x.isSolvent then
    match x.gen with
    | .WJNR => EM.lift (env.mods.wjnr x T P ps st)
    | .WJNG => EM.lift (env.mods.wjng x T P st)
    | .WSV14 => EM.lift (env.mods.wsv14 x T P st)
    | .WF97 => EM.lift (env.mods.wf97 x T P st)
    | _ => pure env.mods.eps0
  else pure env.mods.eps0

/-- `electro_properties_solvent_fn`, ThermoEngine.cpp:98-101, 494-497. -/
noncomputable def electro (env : Env PS EPS) (T P : ℝ) (x : String) (state : Int) : EM PS EPS EPS :=
  cached env (·.elC) (fun c s => { s with elC := c }) ⟨T, P, x, state⟩ do
    let v ← getSub env x
    electroRec env T P v state

/-- Properties of the solvent in use, with state -1, ThermoEngine.cpp:271, 276, 283, 290, 328, 331, 706, 711, 716. -/
noncomputable def solventPS (env : Env PS EPS) (T P : ℝ) : EM PS EPS PS := do
  let sy ← EM.read (·.solventSymbol)
  propsSolvent env T P sy (-1)

/-- Electrochemical properties of the solvent in use, with state -1, ThermoEngine.cpp:271, 276. -/
noncomputable def solventEPS (env : Env PS EPS) (T P : ℝ) : EM PS EPS EPS := do
  let sy ← EM.read (·.solventSymbol)
  electro env T P sy (-1)

/-- `database.getSubstance(preferences.solvent_symbol)`, ThermoEngine.cpp:281-282, 288-289, 324-325, 327, 330. -/
def solventRec (env : Env PS EPS) : EM PS EPS Subst := do
  let sy ← EM.read (·.solventSymbol)
  getSub env sy

/-! ### Substances -/

/-- The functions a calculation may call recursively: `thermo_properties_substance_fn`, `thermo_properties_reaction_fn`, and
`thermoPropertiesSubstance(T, P, const Substance&)` (ThermoEngine.cpp:326, 329, 598, 615, 639, 812). -/
structure Rec (PS EPS : Type) where
  sub : ℝ → ℝ → String → EM PS EPS TPS
  reac : ℝ → ℝ → String → EM PS EPS TPR
  direct : ℝ → ℝ → Subst → EM PS EPS TPS

/-- A property set to 0.0, ThermoScalar.hpp:96-104. -/
noncomputable def zeroTS : TS := TS.assign TS.default 0

/-- The properties of the hydrogen ion, ThermoEngine.cpp:239-250. -/
noncomputable def zeroTPS : TPS := ⟨zeroTS, zeroTS, zeroTS, zeroTS, zeroTS, zeroTS, zeroTS, zeroTS⟩

/-- The switch over `method_genEOS`, ThermoEngine.cpp:256-296. -/
noncomputable def eosStep (env : Env PS EPS) (T P : ℝ) (x : Subst) : EM PS EPS TPS :=
  match x.gen with
  | .CON => pure x.ref
  | .CPT => EM.lift (env.mods.cpt x T P)
  | .HKF => do
    let ps ← solventPS env T P
    let es ← solventEPS env T P
    EM.lift (env.mods.hkf x T P ps es)
  | .HKFR => do
    let ps ← solventPS env T P
    let es ← solventEPS env T P
    EM.lift (env.mods.hkfr x T P ps es)
  | .HP98 => do
    let w ← solventRec env
    let psr ← solventPS env w.refT w.refP
    let ps ← solventPS env T P
    EM.lift (env.mods.hp98 x T P psr ps)
  | .AN91 => do
    let w ← solventRec env
    let psr ← solventPS env w.refT w.refP
    let ps ← solventPS env T P
    EM.lift (env.mods.an91 x T P psr ps)
  | _ => pure TPS.default

/-- The switch over `method_T`, ThermoEngine.cpp:298-316. -/
def tStep (env : Env PS EPS) (T P : ℝ) (x : Subst) (tps : TPS) : EM PS EPS TPS :=
  if x.gen = .CON then pure tps
  else match x.mT with
    | .CHP => EM.lift (env.mods.chp x T P tps)
    | .CST => if x.gen ≠ .CPT then EM.lift (env.mods.cst x T P) else pure tps
    | _ => pure tps

/-- The Akinfiev-Diamond case, ThermoEngine.cpp:322-333. -/
noncomputable def akiStep (env : Env PS EPS) (r : Rec PS EPS) (T P : ℝ) (x : Subst) (tps : TPS) : EM PS EPS TPS := do
  let w ← solventRec env
  let sy ← EM.read (·.solventSymbol)
  let wtp ← r.sub T P sy
  let wig ← EM.lift (env.mods.woolley w T P)
  let wp ← solventPS env T P
  let wtpr ← r.sub w.refT w.refP sy
  let wigr ← EM.lift (env.mods.woolley w w.refT w.refP)
  let wpr ← solventPS env w.refT w.refP
  EM.lift (env.mods.aki x T P tps wtp wig wp wtpr wigr wpr)

/-- The switch over `method_P`, ThermoEngine.cpp:318-392. -/
noncomputable def pStep (env : Env PS EPS) (r : Rec PS EPS) (T P : ℝ) (x : Subst) (tps : TPS) : EM PS EPS TPS := do
  let fl ← EM.read (·.pcorr)
  if x.gen = .CON then pure tps
  else match x.mP with
    | .AKI => akiStep env r T P x tps
    | .CEH => EM.lift (env.mods.ceh x T P tps)
    | .VBE => EM.lift (env.mods.vbe x T P tps)
    | .VBM => EM.lift (env.mods.vbm x T P tps)
    | .CORK => EM.lift (env.mods.cork x T P tps fl)
    | .PRSV => EM.lift (env.mods.prsv x T P tps fl)
    | .EMP => EM.lift (env.mods.emp x T P tps fl)
    | .SRK => EM.lift (env.mods.srk x T P tps fl)
    | .PR78 => EM.lift (env.mods.pr78 x T P tps fl)
    | .STP => EM.lift (env.mods.stp x T P tps fl)
    | .OFF => EM.lift (env.mods.off x T P tps fl)
    | .CON => EM.lift (env.mods.con x T P tps)
    | _ => pure tps

/-- The water branch, ThermoEngine.cpp:397-439. -/
noncomputable def waterStep (env : Env PS EPS) (T P : ℝ) (x : Subst) : EM PS EPS TPS := do
  let st ← EM.read (·.solventState)
  if x.gen = .CON then pure x.ref
  else match x.mT with
    | .WAT => EM.lift (env.mods.wat x T P st env.db.tripleRef)
    | .WAR => EM.lift (env.mods.war x T P st env.db.tripleRef)
    | .WWP => EM.lift (env.mods.wwp x T P st env.db.tripleRef)
    | .WZD => EM.lift (env.mods.wzd x T P st)
    | _ => if x.gen = .CPT then EM.lift (env.mods.cpt x T P) else pure TPS.default

/-- `tolower` in the C locale, used in ThermoEngine.cpp:26. -/
def lower (c : Char) : Char := if 'A' ≤ c ∧ c ≤ 'Z' then Char.ofNat (c.toNat + 32) else c

/-- The loop of `iequals`, ThermoEngine.cpp:25-27, on strings of equal length. -/
def iequalsGo : List Char → List Char → Bool
  | a :: as, b :: bs => if lower a ≠ lower b then false else iequalsGo as bs
  | _, _ => true

/-- `iequals`, ThermoEngine.cpp:20-29.  Characters are those of a `List Char`; bytes above 127, for which the C++ result depends on the
locale, are not changed. -/
def iequals (a b : List Char) : Bool := if a.length ≠ b.length then false else iequalsGo a b

/-- `toSteamTables`, ThermoEngine.cpp:129-136. -/
noncomputable def toSteamTables (tps : TPS) (w : Triple) : TPS :=
  { tps with G := TS.subAssignD tps.G w.Gtr, H := TS.subAssignD tps.H w.Htr, S := TS.subAssignD tps.S w.Str
             A := TS.subAssignD tps.A w.Atr, U := TS.subAssignD tps.U w.Utr }

/-- `toBermanBrown`, ThermoEngine.cpp:138-143. -/
noncomputable def toBermanBrown (tps : TPS) (x : Subst) (elemEntropy : String → ℝ) : TPS :=
  { tps with G := TS.subAssignD tps.G (x.refT * elemEntropy x.formula) }

/-- The conversion of conventions, ThermoEngine.cpp:441-455; `at` throws for an unknown reference. -/
noncomputable def convStep (env : Env PS EPS) (x : Subst) (tps : TPS) : EM PS EPS TPS :=
  if x.isSolvent then
    if iequals env.waterProperties.toList "STEAM_TABLES".toList then
      match waterTripleData env.db.tripleRef with
      | some w => pure (toSteamTables tps w)
      | none => EM.raise
    else pure tps
  else if iequals env.apparentProperties.toList "BERMAN_BROWN".toList then pure (toBermanBrown tps x env.db.elemEntropy)
  else pure tps

/-- The body of the branch `!pref.isReacDC`, ThermoEngine.cpp:252-456. -/
noncomputable def methodsStep (env : Env PS EPS) (r : Rec PS EPS) (T P : ℝ) (x : Subst) : EM PS EPS TPS := do
  let tps ← (if x.isSolvent = false ∧ x.isVapor = false then do
      let a ← eosStep env T P x
      let b ← tStep env T P x a
      pStep env r T P x b
    else waterStep env T P x)
  convStep env x tps

/-- One line of `fallbackThermoPropertiesSubstance`, e.g. ThermoEngine.cpp:474-475. -/
noncomputable def fillTS (a ref : TS) : TS := if a.sta = .notdefined then ref else a

/-- `fallbackThermoPropertiesSubstance`, ThermoEngine.cpp:468-492. -/
noncomputable def fallback (on : Bool) (tps : TPS) (x : Subst) : TPS :=
  if on then
    { V := fillTS tps.V x.ref.V, G := fillTS tps.G x.ref.G, H := fillTS tps.H x.ref.H, S := fillTS tps.S x.ref.S
      Cp := fillTS tps.Cp x.ref.Cp, Cv := fillTS tps.Cv x.ref.Cv, U := fillTS tps.U x.ref.U, A := fillTS tps.A x.ref.A }
  else tps

/-- ThermoEngine.cpp:600-607. -/
def ofReaction (t : TPR) : TPS :=
  { H := t.H, S := t.S, G := t.G, Cp := t.Cp, Cv := t.Cv, A := t.A, U := t.U, V := t.V }

/-- ThermoEngine.cpp:616-623. -/
noncomputable def subScaled (t y : TPS) (c : ℝ) : TPS :=
  { H := TS.subAssign t.H (y.H * c), S := TS.subAssign t.S (y.S * c), G := TS.subAssign t.G (y.G * c)
    Cp := TS.subAssign t.Cp (y.Cp * c), Cv := TS.subAssign t.Cv (y.Cv * c), A := TS.subAssign t.A (y.A * c)
    U := TS.subAssign t.U (y.U * c), V := TS.subAssign t.V (y.V * c) }

/-- ThermoEngine.cpp:627-634. -/
noncomputable def divAll (t : TPS) (c : ℝ) : TPS :=
  { H := t.H / c, S := t.S / c, G := t.G / c, Cp := t.Cp / c, Cv := t.Cv / c, A := t.A / c, U := t.U / c, V := t.V / c }

/-- The loop over the other reactants, ThermoEngine.cpp:611-625. -/
noncomputable def subtractOthers (r : Rec PS EPS) (T P : ℝ) (own : String) : List (String × ℝ) → TPS → EM PS EPS TPS
  | [], t => pure t
  | (y, c) :: l, t =>
    if y ≠ own then do
      let ty ← r.sub T P y
      subtractOthers r T P own l (subScaled t ty c)
    else subtractOthers r T P own l t

/-- `reacDCthermoProperties`, ThermoEngine.cpp:583-655.  `reactants[subst.symbol()]` is 0 when the reaction does not contain the substance;
the division by 0 is then Lean's instead of an infinity. -/
noncomputable def reacDC (env : Env PS EPS) (r : Rec PS EPS) (T P : ℝ) (x : Subst) : EM PS EPS TPS := do
  setFlag true
  if x.reactionSymbol ≠ "" then do
    let re ← getReac env x.reactionSymbol
    let tpr ← r.reac T P x.reactionSymbol
    let t ← subtractOthers r T P x.symbol re.reactants (ofReaction tpr)
    setFlag false
    let t := divAll t ((re.reactants.lookup x.symbol).getD 0)
    if x.mP = .CON ∧ (re.mP = .OFF ∨ re.mP = .unset) then EM.lift (env.mods.con x T P (fallback env.fallback t x))
    else pure t
  else r.direct T P { x with gen := .CON }

/-- `thermoPropertiesSubstance(T, P, const Substance&)`, ThermoEngine.cpp:234-466. -/
noncomputable def substRec (env : Env PS EPS) (r : Rec PS EPS) (T P : ℝ) (x : Subst) : EM PS EPS TPS := do
  setPrefs env x
  if x.symbol = "H+" then pure zeroTPS
  else do
    let t ← (if x.isReacDC then reacDC env r T P x else methodsStep env r T P x)
    pure (fallback env.fallback t x)

/-! ### Reactions -/

/-- `isReacFromReactants`, ThermoEngine.cpp:154-156. -/
def Reac.fromReactants (x : Reac) : Bool := x.gen = .unset ∧ x.mP = .unset ∧ x.mT = .unset

/-- The properties before the loop, ThermoEngine.cpp:784-794. -/
noncomputable def zeroTPR : TPR := ⟨zeroTS, zeroTS, zeroTS, zeroTS, zeroTS, zeroTS, zeroTS, zeroTS, zeroTS, zeroTS⟩

/-- The body of the loop over the reactants, ThermoEngine.cpp:814-823. -/
noncomputable def addScaled (T : ℝ) (t : TPR) (y : TPS) (c : ℝ) : TPR :=
  let G := TS.addAssign t.G (y.G * c)
  let lnK := G / (-(Rgas * T))
  { Cp := TS.addAssign t.Cp (y.Cp * c), G := G, H := TS.addAssign t.H (y.H * c), S := TS.addAssign t.S (y.S * c)
    V := TS.addAssign t.V (y.V * c), lnK := lnK, logK := lnK * lnToLg
    Cv := y.Cv * c, U := y.U * c, A := y.A * c }

/-- The loop over the reactants, ThermoEngine.cpp:800-832. -/
noncomputable def sumReactants (env : Env PS EPS) (r : Rec PS EPS) (T P : ℝ) (sym : String) : List (String × ℝ) → TPR → EM PS EPS TPR
  | [], t => pure t
  | (y, c) :: l, t => do
    let s ← getSub env y
    if s.noMethods ∧ s.reactionSymbol = sym then EM.raise
    else do
      let ty ← r.sub T P y
      sumReactants env r T P sym l (addScaled T t ty c)

/-- `thermoPropertiesReactionFromReactants`, ThermoEngine.cpp:777-836. -/
noncomputable def reacFromReactants (env : Env PS EPS) (r : Rec PS EPS) (T P : ℝ) (x : Reac) : EM PS EPS TPR := do
  setFlag true
  let t ← sumReactants env r T P x.symbol x.reactants zeroTPR
  setFlag false
  pure t

/-- The pressure step `CPM_NUL`, `CPM_CON` of a reaction, ThermoEngine.cpp:739-756. -/
noncomputable def reacCon (T P : ℝ) (x : Reac) (t : TPR) : TPR :=
  let Pref := x.refP / 1e5
  let P_ := P / 1e5
  let VP := t.V * (P_ - Pref)
  let G := TS.addAssign t.G VP
  let H := TS.addAssign t.H VP
  let logK := TS.subAssign t.logK (x.ref.V * (P_ - Pref) / (Rgas * T) / lgToLn)
  let S := (H - G) / T
  let U := H - P_ * t.V
  { t with G := G, H := H, logK := logK, S := S, U := U, A := U - T * S }

/-- The switch over `method_P` of a reaction, ThermoEngine.cpp:728-760. -/
noncomputable def reacPStep (env : Env PS EPS) (T P : ℝ) (x : Reac) (t : TPR) : EM PS EPS TPR :=
  match x.mP with
  | .VKE => EM.lift (env.mods.volft x T P)
  | .VBE => EM.lift (env.mods.volft x T P)
  | .NUL => pure (reacCon T P x t)
  | .CON => pure (reacCon T P x t)
  | _ => pure t

/-- `pref.method_T` after the first switch, ThermoEngine.cpp:684-688. -/
def Reac.effT (x : Reac) : CorrT := if x.gen = .REA then .LGK else x.mT

/-- `thermoPropertiesReaction(T, P, const Reaction&)`, ThermoEngine.cpp:670-775. -/
noncomputable def reacRec (env : Env PS EPS) (r : Rec PS EPS) (T P : ℝ) (x : Reac) : EM PS EPS TPR :=
  if x.fromReactants then reacFromReactants env r T P x
  else if x.gen = .CON then pure x.ref
  else match x.effT with
    | .LGX => do reacPStep env T P x (← EM.lift (env.mods.logk x T P .LGX))
    | .LGK => do reacPStep env T P x (← EM.lift (env.mods.logk x T P .LGK))
    | .EK0 => do reacPStep env T P x (← EM.lift (env.mods.logk x T P .EK0))
    | .EK1 => do reacPStep env T P x (← EM.lift (env.mods.logk x T P .EK1))
    | .EK3 => do reacPStep env T P x (← EM.lift (env.mods.logk x T P .EK3))
    | .EK2 => do reacPStep env T P x (← EM.lift (env.mods.logk x T P .EK2))
    | .DMD => do
      let ps ← solventPS env T P
      reacPStep env T P x (← EM.lift (env.mods.dmd x T P ps))
    | .DKR => do
      let ps ← solventPS env T P
      reacPStep env T P x (← EM.lift (env.mods.dkr x T P ps))
    | .MRB => do
      let ps ← solventPS env T P
      EM.lift (env.mods.mrb x T P ps)
    | _ => reacPStep env T P x TPR.default

/-- A reaction made from its equation, ThermoEngine.cpp:662-664 with Reaction.cpp:116-149 (all methods unset). -/
noncomputable def ofEquation (sym : String) : EM PS EPS Reac :=
  match Equation.fromEquation sym.toList [] with
  | .ok m => pure ⟨sym, m.map fun e => (String.ofList e.1, (e.2 : ℝ)), 298.15, 1e5, .unset, .unset, .unset, TPR.default, {}⟩
  | .throw => EM.raise
  | .ub => EM.lift .ub

/-- `thermoPropertiesReaction(T, P, std::string)`, ThermoEngine.cpp:657-668. -/
noncomputable def reacSym (env : Env PS EPS) (r : Rec PS EPS) (T P : ℝ) (x : String) : EM PS EPS TPR :=
  if (env.db.reacs.lookup x).isNone ∧ x.toList.contains '=' then do
    let re ← ofEquation x
    reacRec env r T P re
  else do
    let re ← getReac env x
    reacRec env r T P re

/-! ### Recursion -/

/-- The engine with recursion depth at most `n`: at depth 0 every recursive call ends with `deep`.  The cached functions are
`thermo_properties_substance_fn` and `thermo_properties_reaction_fn`, ThermoEngine.cpp:91-127, 229-232. -/
noncomputable def run (env : Env PS EPS) : Nat → Rec PS EPS
  | 0 => ⟨fun _ _ _ => EM.tooDeep, fun _ _ _ => EM.tooDeep, fun _ _ _ => EM.tooDeep⟩
  | n + 1 =>
    { sub := fun T P x => cached env (·.subC) (fun c s => { s with subC := c }) ⟨T, P, x⟩ do
        let v ← getSub env x
        substRec env (run env n) T P v
      reac := fun T P x => cached env (·.reacC) (fun c s => { s with reacC := c }) ⟨T, P, x⟩ (reacSym env (run env n) T P x)
      direct := fun T P x => substRec env (run env n) T P x }

/-! ### Queries -/

/-- The property queries of the public interface, ThermoEngine.cpp:856-909. -/
inductive Query
  | sub (T P : ℝ) (x : String)
  | subRec (T P : ℝ) (x : Subst)
  | reac (T P : ℝ) (x : String)
  | reacRec (T P : ℝ) (x : Reac)
  | fromR (T P : ℝ) (x : String)
  | fromRRec (T P : ℝ) (x : Reac)
  | props (T P : ℝ) (x : String) (state : Int)
  | propsRec (T P : ℝ) (x : Subst) (state : Int)
  | electro (T P : ℝ) (x : String) (state : Int)
  | electroRec (T P : ℝ) (x : Subst) (state : Int)

/-- What a query returns. -/
inductive Answer (PS EPS : Type)
  | sub (t : TPS)
  | reac (t : TPR)
  | props (t : PS)
  | electro (t : EPS)

/-- One query on an engine, with recursion depth at most `n`, ThermoEngine.cpp:856-909. -/
noncomputable def ask (env : Env PS EPS) (n : Nat) : Query → EM PS EPS (Answer PS EPS)
  | .sub T P x => do return .sub (← (run env n).sub T P x)
  | .subRec T P x => do return .sub (← (run env n).direct T P x)
  | .reac T P x => do return .reac (← (run env n).reac T P x)
  | .reacRec T P x => do return .reac (← reacRec env (run env n) T P x)
  | .fromR T P x => do return .reac (← reacFromReactants env (run env n) T P (← getReac env x))
  | .fromRRec T P x => do return .reac (← reacFromReactants env (run env n) T P x)
  | .props T P x st => do return .props (← propsSolvent env T P x st)
  | .propsRec T P x st => do return .props (← propsSolventRec env T P x st)
  | .electro T P x st => do return .electro (← electro env T P x st)
  | .electroRec T P x st => do return .electro (← electroRec env T P x st)

/-- The state after a sequence of queries, failing ones included. -/
noncomputable def after (env : Env PS EPS) (n : Nat) (s : ESt PS EPS) : List Query → ESt PS EPS
  | [] => s
  | q :: qs => after env n (ask env n q s).2 qs

end ThermoFun.Engine

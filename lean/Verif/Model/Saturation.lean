import Verif.Model.Engine
import Verif.Model.WaterSat

/-!
# Model of /repo/ThermoFun/ThermoEngine.cpp with the pressure passed by reference

A pressure of 0 asks for the saturation pressure of water.  The models of water then calculate this pressure and store it in the caller's
variable, which every nested calculation of the same query shares.  Model/Engine.lean passes the pressure by value and evaluates the
arguments of a call from left to right; here the variable is a part of the state and the order of the arguments is a parameter.

Simplifications, for the whole file:
* No caches.  Within one query on a new engine they find nothing that would be calculated otherwise: a key contains the pressure, and after
  the pressure has been stored the variable is no longer 0 (for later queries see C11).
* Status messages and log lines are left out.
-/

namespace ThermoFun.Sat

open Engine

/-- The mutable part of an engine (ThermoEngine.h:24-32) and the caller's variable `P`, a `double &` in all calculations
(ThermoEngine.cpp:229, 234, 494, 499, 539, 544, 583, 657, 670, 777, 782). -/
structure St where
  P : ℝ
  solventState : Int
  solventSymbol : String
  pcorr : Bool

/-- A new engine (ThermoEngine.h:24-32) and a variable holding `P`. -/
def St.init (P : ℝ) : St := ⟨P, 0, "H2O@", false⟩

/-- A calculation that reads and changes the state; the changes stay when it raises.  Modelling device. -/
def SM (α : Type) := St → Out α × St

namespace SM

/-- Sequencing of statements.  Modelling device. -/
def bind {α β : Type} (m : SM α) (f : α → SM β) : SM β := fun s =>
  match m s with
  | (.ok a, s') => f a s'
  | (.throw, s') => (.throw, s')
  | (.ub, s') => (.ub, s')
  | (.deep, s') => (.deep, s')

instance : Monad SM where
  pure a := fun s => (.ok a, s)
  bind := bind

/-- Raise an exception.  Modelling device. -/
def raise {α : Type} : SM α := fun s => (.throw, s)
/-- The recursion limit is reached.  Modelling device. -/
def tooDeep {α : Type} : SM α := fun s => (.deep, s)
/-- Call of a numeric model.  Modelling device. -/
def lift {α : Type} (o : Res α) : SM α := fun s =>
  match o with
  | .ok a => (.ok a, s)
  | .throw => (.throw, s)
  | .ub => (.ub, s)
/-- Read from the state.  Modelling device. -/
def read {α : Type} (f : St → α) : SM α := fun s => (.ok (f s), s)
/-- Change the state.  Modelling device. -/
def change (f : St → St) : SM Unit := fun s => (.ok (), f s)
/-- A calculation on a variable of its own, which holds `p` (`double Pr = …`, ThermoEngine.cpp:281, 288, 324).  Modelling device. -/
def onLocal {α : Type} (p : ℝ) (m : SM α) : SM α := fun s =>
  match m { s with P := p } with
  | (r, s') => (r, { s' with P := s.P })

end SM

/-- The value of the variable. -/
def getP : SM ℝ := SM.read (·.P)

/-- Assignment to the variable. -/
def setP (p : ℝ) : SM Unit := SM.change fun s => { s with P := p }

/-! ### The order of arguments -/

/-- An order of three arguments.  C++ leaves open in which order the arguments of a call are evaluated. -/
inductive Ord3
  | abc | acb | bac | bca | cab | cba
  deriving DecidableEq, Repr

/-- Evaluation of three arguments in the given order.  Modelling device. -/
def args3 {α β γ : Type} (o : Ord3) (a : SM α) (b : SM β) (c : SM γ) : SM (α × β × γ) :=
  match o with
  | .abc => do let x ← a; let y ← b; let z ← c; pure (x, y, z)
  | .acb => do let x ← a; let z ← c; let y ← b; pure (x, y, z)
  | .bac => do let y ← b; let x ← a; let z ← c; pure (x, y, z)
  | .bca => do let y ← b; let z ← c; let x ← a; pure (x, y, z)
  | .cab => do let z ← c; let x ← a; let y ← b; pure (x, y, z)
  | .cba => do let z ← c; let y ← b; let x ← a; pure (x, y, z)

/-- Evaluation of two arguments, from right to left if `rl`.  Modelling device. -/
def args2 {α β : Type} (rl : Bool) (a : SM α) (b : SM β) : SM (α × β) :=
  if rl then do let y ← b; let x ← a; pure (x, y)
  else do let x ← a; let y ← b; pure (x, y)

/-- What the compiler chooses: the order of the arguments `P`, first and second solvent property of the solute models
(ThermoEngine.cpp:271, 276, 283, 290); whether the arguments of the Akinfiev-Diamond model (326-331) and of the reaction models
(706, 711, 716) are evaluated from right to left.  Simplification: for the Akinfiev-Diamond model only these two orders. -/
structure Orders where
  hkf : Ord3
  ref : Ord3
  aki : Bool
  reac : Bool

/-- All arguments from left to right. -/
def Orders.ltr : Orders := ⟨.abc, .abc, false, false⟩
/-- All arguments from right to left. -/
def Orders.rtl : Orders := ⟨.cba, .cba, true, true⟩

/-- The engine: what stays the same (Model/Engine.lean), what the compiler chose, and the pressure `WaterHGK` leaves in the variable
(ThermoModelsSolvent.cpp:72-91; see Model/SatGems.lean): `gemsP` if it returns, `gemsE` if it raises. -/
structure Eng (PS EPS : Type) where
  env : Env PS EPS
  ord : Orders
  gemsP : ℝ → ℝ → ℝ
  gemsE : ℝ → ℝ → ℝ

variable {PS EPS : Type}

/-! ### Water -/

/-- The saturation pressure of Wagner and Pruss, as called in ThermoModelsSolvent.cpp:120, 131, 171, 183. -/
noncomputable def psat (T : ℝ) : ℝ := (WP.satPressure (TS.temperature T)).val

open Classical in
/-- The pressure at which the reaktoro models calculate and which they leave in the variable: `if (P==0) p = …; …; P = p.val`,
ThermoModelsSolvent.cpp:117-121, 128-132, 168-173, 180-185. -/
noncomputable def atSat (T P : ℝ) : ℝ := if P = 0 then psat T else P

/-- A water model that leaves `p'` in the variable if it returns and `pe` if it raises.  The reaktoro models assign to the variable after the
calculation and leave it alone if that raises (ThermoModelsSolvent.cpp:121, 132, 173, 185); `WaterHGK` divides it by 1e5 before the calculation
and multiplies it after (74, 77, 84, 88).  Modelling device. -/
def writing {α : Type} (m : Res α) (p' pe : ℝ) : SM α := fun s =>
  match m with
  | .ok v => (.ok v, { s with P := p' })
  | .throw => (.throw, { s with P := pe })
  | .ub => (.ub, s)

/-- `getSubstance`, Database.cpp:184-190. -/
def getSub (e : Eng PS EPS) (x : String) : SM Subst :=
  match e.env.db.subs.lookup x with
  | some v => pure v
  | none => SM.raise

/-- `getReaction`, Database.cpp:192-198. -/
def getReac (e : Eng PS EPS) (x : String) : SM Reac :=
  match e.env.db.reacs.lookup x with
  | some v => pure v
  | none => SM.raise

/-- The changes `getThermoPreferencesSubstance` makes to the engine's preferences, ThermoEngine.cpp:187-191 and 212-224. -/
def setPrefs (e : Eng PS EPS) (x : Subst) : SM Unit := SM.change fun s =>
  let s := { s with solventState := if x.gas then 1 else 0 }
  if x.cls = .AQSOLUTE ∧ (e.env.db.subs.lookup s.solventSymbol).isNone then
    match lastSolvent e.env.db with
    | some y => { s with solventSymbol := y }
    | none => s
  else s

/-- Lines 502-503 and 547-548 of ThermoEngine.cpp. -/
def setState (state : Int) : SM Unit := SM.change fun s =>
  if -1 < state ∧ state < 2 then { s with solventState := state } else s

/-- `preferences.apply_pressure_correction_to_gas_props = b`, ThermoEngine.cpp:592, 643, 796, 834. -/
def setFlag (b : Bool) : SM Unit := SM.change fun s => { s with pcorr := b }

/-- `propertiesSolvent(T, P, const Substance&, state)`, ThermoEngine.cpp:544-581, with ThermoModelsSolvent.cpp:72-80, 113-124, 164-176,
217-230; `WaterZhangDuan2005` takes the pressure by value. -/
noncomputable def propsSolventRec (e : Eng PS EPS) (T : ℝ) (x : Subst) (state : Int) : SM PS := do
  setPrefs e x
  setState state
  let st ← SM.read (·.solventState)
  let P ← getP
  if x.isSolvent then
    match x.mT with
    | .WAT => writing (e.env.mods.watPS x T P st) (e.gemsP T P) (e.gemsE T P)
    | .WAR => writing (e.env.mods.warPS x T (atSat T P) st) (atSat T P) P
    | .WWP => writing (e.env.mods.wwpPS x T (atSat T P) st) (atSat T P) P
    | .WZD => SM.lift (e.env.mods.wzdPS x T P st)
    | _ => pure e.env.mods.ps0
  else pure e.env.mods.ps0

/-- `properties_solvent_fn`, ThermoEngine.cpp:103-106, 539-542. -/
noncomputable def propsSolvent (e : Eng PS EPS) (T : ℝ) (x : String) (state : Int) : SM PS := do
  let v ← getSub e x
  propsSolventRec e T v state

/-- `electroPropertiesSolvent(T, P, const Substance&, state)`, ThermoEngine.cpp:499-537; the electrochemical models take the pressure, as the
calculation of the solvent properties left it, by value (ElectroModelsSolvent.cpp:40-61, 91-100, 129-137, 164-172). -/
noncomputable def electroRec (e : Eng PS EPS) (T : ℝ) (x : Subst) (state : Int) : SM EPS := do
  setPrefs e x
  setState state
  let st ← SM.read (·.solventState)
  let ps ← propsSolventRec e T x st
  let st ← SM.read (·.solventState)
  let P ← getP
  if x.isSolvent then
    match x.gen with
    | .WJNR => SM.lift (e.env.mods.wjnr x T P ps st)
    | .WJNG => SM.lift (e.env.mods.wjng x T P st)
    | .WSV14 => SM.lift (e.env.mods.wsv14 x T P st)
    | .WF97 => SM.lift (e.env.mods.wf97 x T P st)
    | _ => pure e.env.mods.eps0
  else pure e.env.mods.eps0

/-- `electro_properties_solvent_fn`, ThermoEngine.cpp:98-101, 494-497. -/
noncomputable def electro (e : Eng PS EPS) (T : ℝ) (x : String) (state : Int) : SM EPS := do
  let v ← getSub e x
  electroRec e T v state

/-- Properties of the solvent in use, with state -1, ThermoEngine.cpp:271, 276, 283, 290, 328, 331, 706, 711, 716. -/
noncomputable def solventPS (e : Eng PS EPS) (T : ℝ) : SM PS := do
  let sy ← SM.read (·.solventSymbol)
  propsSolvent e T sy (-1)

/-- Electrochemical properties of the solvent in use, with state -1, ThermoEngine.cpp:271, 276. -/
noncomputable def solventEPS (e : Eng PS EPS) (T : ℝ) : SM EPS := do
  let sy ← SM.read (·.solventSymbol)
  electro e T sy (-1)

/-- `database.getSubstance(preferences.solvent_symbol)`, ThermoEngine.cpp:281-282, 288-289, 324-325, 327, 330. -/
def solventRec (e : Eng PS EPS) : SM Subst := do
  let sy ← SM.read (·.solventSymbol)
  getSub e sy

/-! ### Substances -/

/-- The functions a calculation may call recursively (ThermoEngine.cpp:326, 329, 598, 615, 639, 812); all of them on the caller's
variable. -/
structure Rec where
  sub : ℝ → String → SM TPS
  reac : ℝ → String → SM TPR
  direct : ℝ → Subst → SM TPS

/-- The switch over `method_genEOS`, ThermoEngine.cpp:256-296. -/
noncomputable def eosStep (e : Eng PS EPS) (T : ℝ) (x : Subst) : SM TPS :=
  match x.gen with
  | .CON => pure x.ref
  | .CPT => do
    let P ← getP
    SM.lift (e.env.mods.cpt x T P)
  | .HKF => do
    let (P, ps, es) ← args3 e.ord.hkf getP (solventPS e T) (solventEPS e T)
    SM.lift (e.env.mods.hkf x T P ps es)
  | .HKFR => do
    let (P, ps, es) ← args3 e.ord.hkf getP (solventPS e T) (solventEPS e T)
    SM.lift (e.env.mods.hkfr x T P ps es)
  | .HP98 => do
    let w ← solventRec e
    let (P, psr, ps) ← args3 e.ord.ref getP (SM.onLocal w.refP (solventPS e w.refT)) (solventPS e T)
    SM.lift (e.env.mods.hp98 x T P psr ps)
  | .AN91 => do
    let w ← solventRec e
    let (P, psr, ps) ← args3 e.ord.ref getP (SM.onLocal w.refP (solventPS e w.refT)) (solventPS e T)
    SM.lift (e.env.mods.an91 x T P psr ps)
  | _ => pure TPS.default

/-- The switch over `method_T`, ThermoEngine.cpp:298-316. -/
def tStep (e : Eng PS EPS) (T : ℝ) (x : Subst) (tps : TPS) : SM TPS := do
  let P ← getP
  if x.gen = .CON then pure tps
  else match x.mT with
    | .CHP => SM.lift (e.env.mods.chp x T P tps)
    | .CST => if x.gen ≠ .CPT then SM.lift (e.env.mods.cst x T P) else pure tps
    | _ => pure tps

/-- `WaterIdealGasWoolley(…).thermoProperties(T, P)`, with the pressure by value, ThermoEngine.cpp:327, 330. -/
def woolleyArg (e : Eng PS EPS) (w : Subst) (T : ℝ) : SM TPS := do
  let P ← getP
  SM.lift (e.env.mods.woolley w T P)

/-- The Akinfiev-Diamond case, ThermoEngine.cpp:322-333.  Simplification: each of the three calculations at the reference pressure has its
own copy of `Pr`, which makes no difference unless the reference pressure of the solvent is 0. -/
noncomputable def akiStep (e : Eng PS EPS) (r : Rec) (T : ℝ) (x : Subst) (tps : TPS) : SM TPS := do
  let w ← solventRec e
  let sy ← SM.read (·.solventSymbol)
  if e.ord.aki then do
    let wpr ← SM.onLocal w.refP (solventPS e w.refT)
    let wigr ← SM.onLocal w.refP (woolleyArg e w w.refT)
    let wtpr ← SM.onLocal w.refP (r.sub w.refT sy)
    let wp ← solventPS e T
    let wig ← woolleyArg e w T
    let wtp ← r.sub T sy
    let P ← getP
    SM.lift (e.env.mods.aki x T P tps wtp wig wp wtpr wigr wpr)
  else do
    let P ← getP
    let wtp ← r.sub T sy
    let wig ← woolleyArg e w T
    let wp ← solventPS e T
    let wtpr ← SM.onLocal w.refP (r.sub w.refT sy)
    let wigr ← SM.onLocal w.refP (woolleyArg e w w.refT)
    let wpr ← SM.onLocal w.refP (solventPS e w.refT)
    SM.lift (e.env.mods.aki x T P tps wtp wig wp wtpr wigr wpr)

/-- The switch over `method_P`, ThermoEngine.cpp:318-392. -/
noncomputable def pStep (e : Eng PS EPS) (r : Rec) (T : ℝ) (x : Subst) (tps : TPS) : SM TPS := do
  let fl ← SM.read (·.pcorr)
  let P ← getP
  if x.gen = .CON then pure tps
  else match x.mP with
    | .AKI => akiStep e r T x tps
    | .CEH => SM.lift (e.env.mods.ceh x T P tps)
    | .VBE => SM.lift (e.env.mods.vbe x T P tps)
    | .VBM => SM.lift (e.env.mods.vbm x T P tps)
    | .CORK => SM.lift (e.env.mods.cork x T P tps fl)
    | .PRSV => SM.lift (e.env.mods.prsv x T P tps fl)
    | .EMP => SM.lift (e.env.mods.emp x T P tps fl)
    | .SRK => SM.lift (e.env.mods.srk x T P tps fl)
    | .PR78 => SM.lift (e.env.mods.pr78 x T P tps fl)
    | .STP => SM.lift (e.env.mods.stp x T P tps fl)
    | .OFF => SM.lift (e.env.mods.off x T P tps fl)
    | .CON => SM.lift (e.env.mods.con x T P tps)
    | _ => pure tps

/-- The water branch, ThermoEngine.cpp:397-439, with ThermoModelsSolvent.cpp:82-91, 126-137, 178-190, 232-245. -/
noncomputable def waterStep (e : Eng PS EPS) (T : ℝ) (x : Subst) : SM TPS := do
  let st ← SM.read (·.solventState)
  let P ← getP
  if x.gen = .CON then pure x.ref
  else match x.mT with
    | .WAT => writing (e.env.mods.wat x T P st e.env.db.tripleRef) (e.gemsP T P) (e.gemsE T P)
    | .WAR => writing (e.env.mods.war x T (atSat T P) st e.env.db.tripleRef) (atSat T P) P
    | .WWP => writing (e.env.mods.wwp x T (atSat T P) st e.env.db.tripleRef) (atSat T P) P
    | .WZD => SM.lift (e.env.mods.wzd x T P st)
    | _ => if x.gen = .CPT then SM.lift (e.env.mods.cpt x T P) else pure TPS.default

/-- The conversion of conventions, ThermoEngine.cpp:441-455. -/
noncomputable def convStep (e : Eng PS EPS) (x : Subst) (tps : TPS) : SM TPS :=
  if x.isSolvent then
    if iequals e.env.waterProperties.toList "STEAM_TABLES".toList then
      match waterTripleData e.env.db.tripleRef with
      | some w => pure (toSteamTables tps w)
      | none => SM.raise
    else pure tps
  else if iequals e.env.apparentProperties.toList "BERMAN_BROWN".toList then pure (toBermanBrown tps x e.env.db.elemEntropy)
  else pure tps

/-- The body of the branch `!pref.isReacDC`, ThermoEngine.cpp:252-456. -/
noncomputable def methodsStep (e : Eng PS EPS) (r : Rec) (T : ℝ) (x : Subst) : SM TPS := do
  let tps ← (if x.isSolvent = false ∧ x.isVapor = false then do
      let a ← eosStep e T x
      let b ← tStep e T x a
      pStep e r T x b
    else waterStep e T x)
  convStep e x tps

/-- The loop over the other reactants, ThermoEngine.cpp:611-625. -/
noncomputable def subtractOthers (r : Rec) (T : ℝ) (own : String) : List (String × ℝ) → TPS → SM TPS
  | [], t => pure t
  | (y, c) :: l, t =>
    if y ≠ own then do
      let ty ← r.sub T y
      subtractOthers r T own l (subScaled t ty c)
    else subtractOthers r T own l t

/-- `reacDCthermoProperties`, ThermoEngine.cpp:583-655. -/
noncomputable def reacDC (e : Eng PS EPS) (r : Rec) (T : ℝ) (x : Subst) : SM TPS := do
  setFlag true
  if x.reactionSymbol ≠ "" then do
    let re ← getReac e x.reactionSymbol
    let tpr ← r.reac T x.reactionSymbol
    let t ← subtractOthers r T x.symbol re.reactants (ofReaction tpr)
    setFlag false
    let t := divAll t ((re.reactants.lookup x.symbol).getD 0)
    let P ← getP
    if x.mP = .CON ∧ (re.mP = .OFF ∨ re.mP = .unset) then SM.lift (e.env.mods.con x T P (fallback e.env.fallback t x))
    else pure t
  else r.direct T { x with gen := .CON }

/-- `thermoPropertiesSubstance(T, P, const Substance&)`, ThermoEngine.cpp:234-466. -/
noncomputable def substRec (e : Eng PS EPS) (r : Rec) (T : ℝ) (x : Subst) : SM TPS := do
  setPrefs e x
  if x.symbol = "H+" then pure zeroTPS
  else do
    let t ← (if x.isReacDC then reacDC e r T x else methodsStep e r T x)
    pure (fallback e.env.fallback t x)

/-! ### Reactions -/

/-- The loop over the reactants, ThermoEngine.cpp:800-832. -/
noncomputable def sumReactants (e : Eng PS EPS) (r : Rec) (T : ℝ) (sym : String) : List (String × ℝ) → TPR → SM TPR
  | [], t => pure t
  | (y, c) :: l, t => do
    let s ← getSub e y
    if s.noMethods ∧ s.reactionSymbol = sym then SM.raise
    else do
      let ty ← r.sub T y
      sumReactants e r T sym l (addScaled T t ty c)

/-- `thermoPropertiesReactionFromReactants`, ThermoEngine.cpp:777-836. -/
noncomputable def reacFromReactants (e : Eng PS EPS) (r : Rec) (T : ℝ) (x : Reac) : SM TPR := do
  setFlag true
  let t ← sumReactants e r T x.symbol x.reactants zeroTPR
  setFlag false
  pure t

/-- The switch over `method_P` of a reaction, ThermoEngine.cpp:728-760. -/
noncomputable def reacPStep (e : Eng PS EPS) (T : ℝ) (x : Reac) (t : TPR) : SM TPR := do
  let P ← getP
  match x.mP with
  | .VKE => SM.lift (e.env.mods.volft x T P)
  | .VBE => SM.lift (e.env.mods.volft x T P)
  | .NUL => pure (reacCon T P x t)
  | .CON => pure (reacCon T P x t)
  | _ => pure t

/-- `Reaction_LogK_fT`, ThermoEngine.cpp:701. -/
def logkStep (e : Eng PS EPS) (T : ℝ) (x : Reac) (m : Engine.CorrT) : SM TPR := do
  let P ← getP
  SM.lift (e.env.mods.logk x T P m)

/-- `thermoPropertiesReaction(T, P, const Reaction&)`, ThermoEngine.cpp:670-775. -/
noncomputable def reacRec (e : Eng PS EPS) (r : Rec) (T : ℝ) (x : Reac) : SM TPR :=
  if x.fromReactants then reacFromReactants e r T x
  else if x.gen = .CON then pure x.ref
  else match x.effT with
    | .LGX => do reacPStep e T x (← logkStep e T x .LGX)
    | .LGK => do reacPStep e T x (← logkStep e T x .LGK)
    | .EK0 => do reacPStep e T x (← logkStep e T x .EK0)
    | .EK1 => do reacPStep e T x (← logkStep e T x .EK1)
    | .EK3 => do reacPStep e T x (← logkStep e T x .EK3)
    | .EK2 => do reacPStep e T x (← logkStep e T x .EK2)
    | .DMD => do
      let (P, ps) ← args2 e.ord.reac getP (solventPS e T)
      reacPStep e T x (← SM.lift (e.env.mods.dmd x T P ps))
    | .DKR => do
      let (P, ps) ← args2 e.ord.reac getP (solventPS e T)
      reacPStep e T x (← SM.lift (e.env.mods.dkr x T P ps))
    | .MRB => do
      let (P, ps) ← args2 e.ord.reac getP (solventPS e T)
      SM.lift (e.env.mods.mrb x T P ps)
    | _ => reacPStep e T x TPR.default

/-- A reaction made from its equation, ThermoEngine.cpp:662-664 with Reaction.cpp:116-149 (all methods unset). -/
noncomputable def ofEquation (sym : String) : SM Reac :=
  match Equation.fromEquation sym.toList [] with
  | .ok m => pure ⟨sym, m.map fun e => (String.ofList e.1, (e.2 : ℝ)), 298.15, 1e5, .unset, .unset, .unset, TPR.default, {}⟩
  | .throw => SM.raise
  | .ub => SM.lift .ub

/-- `thermoPropertiesReaction(T, P, std::string)`, ThermoEngine.cpp:657-668. -/
noncomputable def reacSym (e : Eng PS EPS) (r : Rec) (T : ℝ) (x : String) : SM TPR :=
  if (e.env.db.reacs.lookup x).isNone ∧ x.toList.contains '=' then do
    let re ← ofEquation x
    reacRec e r T re
  else do
    let re ← getReac e x
    reacRec e r T re

/-- The engine with recursion depth at most `n`, ThermoEngine.cpp:91-111, 229-232. -/
noncomputable def run (e : Eng PS EPS) : Nat → Rec
  | 0 => ⟨fun _ _ => SM.tooDeep, fun _ _ => SM.tooDeep, fun _ _ => SM.tooDeep⟩
  | n + 1 =>
    { sub := fun T x => do
        let v ← getSub e x
        substRec e (run e n) T v
      reac := fun T x => reacSym e (run e n) T x
      direct := fun T x => substRec e (run e n) T x }

/-! ### Queries -/

/-- The property queries by symbol, ThermoEngine.cpp:856-894, all with a variable for the pressure. -/
inductive Query
  | sub (T : ℝ) (x : String)
  | reac (T : ℝ) (x : String)
  | fromR (T : ℝ) (x : String)
  | props (T : ℝ) (x : String) (state : Int)
  | electro (T : ℝ) (x : String) (state : Int)

/-- One query, with recursion depth at most `n`, ThermoEngine.cpp:856-894. -/
noncomputable def ask (e : Eng PS EPS) (n : Nat) : Query → SM (Answer PS EPS)
  | .sub T x => do return .sub (← (run e n).sub T x)
  | .reac T x => do return .reac (← (run e n).reac T x)
  | .fromR T x => do return .reac (← reacFromReactants e (run e n) T (← getReac e x))
  | .props T x st => do return .props (← propsSolvent e T x st)
  | .electro T x st => do return .electro (← electro e T x st)

/-- A query on a new engine with a variable that holds `P`: the answer, and what the variable holds then. -/
noncomputable def query (e : Eng PS EPS) (n : Nat) (q : Query) (P : ℝ) : Out (Answer PS EPS) × ℝ :=
  match ask e n q (St.init P) with
  | (r, s) => (r, s.P)

end ThermoFun.Sat

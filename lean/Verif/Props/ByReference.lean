import Verif.Model.SatGems
import Verif.Props.Saturation
import Verif.Props.EngineHist
import Verif.Props.WaterRange
import Mathlib.Analysis.Complex.ExponentialBounds

/-!
# C160: the pressure is passed by reference

For a pressure other than 0 a query answers as if the pressure had been passed by value, and leaves the caller's variable as it was.
-/

namespace ThermoFun.Sat

open Engine

variable {PS EPS : Type} {α β γ : Type}

/-- The state of the engine of Model/Engine.lean without caches, with a variable that holds `P`. -/
def proj (P : ℝ) (s : ESt PS EPS) : St := ⟨P, s.solventState, s.solventSymbol, s.pcorr⟩

/-- A calculation with the pressure by reference does what one with the pressure by value does, and leaves the variable as it was, unless
it raises and `W`. -/
def Sim (W : Prop) (P : ℝ) (m : EM PS EPS α) (m' : SM α) : Prop :=
  ∀ s, ∃ P', m' (proj P s) = ((m s).1, proj P' (m s).2) ∧ (P' = P ∨ (m s).1 = .throw ∧ W)

variable {W : Prop} {P : ℝ}

lemma Sim.bind {m : EM PS EPS α} {m' : SM α} {f : α → EM PS EPS β} {f' : α → SM β} (hm : Sim W P m m') (hf : ∀ a, Sim W P (f a) (f' a)) :
    Sim W P (m >>= f) (m' >>= f') := by
  intro s
  obtain ⟨P', e, h⟩ := hm s
  change ∃ P'', SM.bind m' f' (proj P s) = ((EM.bind m f s).1, proj P'' (EM.bind m f s).2) ∧ (P'' = P ∨ (EM.bind m f s).1 = .throw ∧ W)
  unfold SM.bind EM.bind
  rw [e]
  rcases hms : m s with ⟨r, s1⟩
  rw [hms] at e h
  cases r with
  | ok a =>
    rcases h with rfl | ⟨h, -⟩
    · exact hf a s1
    · cases h
  | throw => exact ⟨P', rfl, h.imp id fun h => ⟨rfl, h.2⟩⟩
  | ub => exact ⟨P', rfl, h.imp id fun h => nomatch h.1⟩
  | deep => exact ⟨P', rfl, h.imp id fun h => nomatch h.1⟩

lemma bind_assoc' (m : SM α) (f : α → SM β) (g : β → SM γ) : ((m >>= f) >>= g) = m >>= fun a => f a >>= g := by
  funext s
  show SM.bind (SM.bind m f) g s = SM.bind m (fun a => SM.bind (f a) g) s
  unfold SM.bind
  rcases m s with ⟨r, s1⟩
  cases r <;> rfl

lemma pure_bind' (a : α) (f : α → SM β) : (Pure.pure a >>= f) = f a := rfl

lemma Sim.pure (a : α) : Sim W P (Pure.pure a : EM PS EPS α) (Pure.pure a) := fun _ => ⟨P, rfl, .inl rfl⟩
lemma Sim.raise : Sim W P (EM.raise : EM PS EPS α) SM.raise := fun _ => ⟨P, rfl, .inl rfl⟩
lemma Sim.deep : Sim W P (EM.tooDeep : EM PS EPS α) SM.tooDeep := fun _ => ⟨P, rfl, .inl rfl⟩
lemma Sim.lift (r : Res α) : Sim W P (EM.lift r : EM PS EPS α) (SM.lift r) := fun _ => ⟨P, by cases r <;> rfl, .inl rfl⟩
lemma Sim.read {f : ESt PS EPS → α} {f' : St → α} (h : ∀ s, f' (proj P s) = f s) : Sim W P (EM.read f) (SM.read f') := fun s =>
  ⟨P, by show (Out.ok (f' (proj P s)), proj P s) = _; rw [h]; rfl, .inl rfl⟩
lemma Sim.change {f : ESt PS EPS → ESt PS EPS} {f' : St → St} (h : ∀ s, f' (proj P s) = proj P (f s)) : Sim W P (EM.change f) (SM.change f') :=
  fun s => ⟨P, by show (Out.ok (), f' (proj P s)) = _; rw [h]; rfl, .inl rfl⟩

/-- Reading the variable. -/
lemma Sim.getP {m : EM PS EPS β} {f' : ℝ → SM β} (h : Sim W P m (f' P)) : Sim W P m (getP >>= f') := by
  intro s
  obtain ⟨P', e, hp⟩ := h s
  exact ⟨P', by rw [bind_at (show Sat.getP (proj P s) = (.ok P, proj P s) from rfl), e], hp⟩

lemma Sim.writing (r : Res α) {p pe : ℝ} (hp : p = P) (hpe : pe = P ∨ W) : Sim W P (EM.lift r : EM PS EPS α) (writing r p pe) := by
  subst hp
  intro s
  cases r with
  | ok v => exact ⟨p, rfl, .inl rfl⟩
  | throw => exact ⟨pe, rfl, hpe.imp id fun h => ⟨rfl, h⟩⟩
  | ub => exact ⟨p, rfl, .inl rfl⟩

/-- A calculation on a variable of its own leaves the caller's alone. -/
lemma Sim.local {p : ℝ} {m : EM PS EPS α} {m' : SM α} (h : Sim W p m m') : Sim W P m (SM.onLocal p m') := by
  intro s
  obtain ⟨P', e, -⟩ := h s
  refine ⟨P, ?_, .inl rfl⟩
  unfold SM.onLocal
  rw [show ({ proj P s with P := p } : St) = proj p s from rfl, e]
  rfl

/-! ### The parts of the engine -/

/-- The engine without caches that goes with `e`. -/
def val (e : Eng PS EPS) : Env PS EPS := { e.env with memo := false }

/-- Some record uses `WaterHGK`. -/
def UsesGems (e : Eng PS EPS) : Prop := ∃ y x, e.env.db.subs.lookup y = some x ∧ x.mT = .WAT

/-- `WaterHGK`, if a record uses it, leaves the given pressure as it is when it returns. -/
structure Stays (e : Eng PS EPS) (T P : ℝ) : Prop where
  ne : P ≠ 0
  gems : UsesGems e → e.gemsP T P = P

variable {e : Eng PS EPS} {T : ℝ}

lemma Stays.atSat (h : Stays e T P) : Sat.atSat T P = P := if_neg h.ne

lemma sim_cached {K V : Type} [DecidableEq K] {get : ESt PS EPS → Cache K V} {set : Cache K V → ESt PS EPS → ESt PS EPS} {k : K}
    {m : EM PS EPS V} {m' : SM V} (h : Sim W P m m') : Sim W P (cached (val e) get set k m) m' := by
  have : cached (val e) get set k m = m := by
    funext s
    unfold cached
    rw [if_neg (show ¬ (val e).memo = true from Bool.false_ne_true)]
  rw [this]
  exact h

lemma sim_getSub (y : String) : Sim W P (Engine.getSub (val e) y) (getSub e y) := by
  unfold Engine.getSub getSub
  show Sim W P (match e.env.db.subs.lookup y with | some v => Pure.pure v | none => EM.raise) _
  cases e.env.db.subs.lookup y
  · exact .raise
  · exact .pure _

lemma sim_getReac (y : String) : Sim W P (Engine.getReac (val e) y) (getReac e y) := by
  unfold Engine.getReac getReac
  show Sim W P (match e.env.db.reacs.lookup y with | some v => Pure.pure v | none => EM.raise) _
  cases e.env.db.reacs.lookup y
  · exact .raise
  · exact .pure _

/-- A search that keeps what it found. -/
lemma sim_getSub_bind {y : String} {f : Subst → EM PS EPS β} {f' : Subst → SM β}
    (h : ∀ x, e.env.db.subs.lookup y = some x → Sim W P (f x) (f' x)) : Sim W P (Engine.getSub (val e) y >>= f) (getSub e y >>= f') := by
  unfold Engine.getSub getSub
  show Sim W P ((match e.env.db.subs.lookup y with | some v => Pure.pure v | none => EM.raise) >>= f) _
  cases hv : e.env.db.subs.lookup y with
  | none => exact fun s => ⟨P, rfl, .inl rfl⟩
  | some x => exact h x hv

lemma sim_prefs (x : Subst) : Sim W P (Engine.setPrefs (val e) x) (setPrefs e x) := by
  apply Sim.change
  intro s
  show (if x.cls = .AQSOLUTE ∧ (e.env.db.subs.lookup s.solventSymbol).isNone then _ else _) =
    proj P (if x.cls = .AQSOLUTE ∧ (e.env.db.subs.lookup s.solventSymbol).isNone then _ else _)
  split
  · show (match lastSolvent e.env.db with | some y => _ | none => _) = proj P (match lastSolvent e.env.db with | some y => _ | none => _)
    cases lastSolvent e.env.db <;> rfl
  · rfl

lemma sim_state (st : Int) : Sim W P (Engine.setState st : EM PS EPS Unit) (setState st) := by
  apply Sim.change
  intro s
  by_cases hs : -1 < st ∧ st < 2
  · rw [if_pos hs, if_pos hs]; rfl
  · rw [if_neg hs, if_neg hs]

lemma sim_flag (b : Bool) : Sim W P (Engine.setFlag b : EM PS EPS Unit) (setFlag b) := Sim.change fun _ => rfl

lemma sim_propsRec (h : Stays e T P) (x : Subst) (hx : x.mT = .WAT → UsesGems e) (state : Int) :
    Sim (UsesGems e) P (Engine.propsSolventRec (val e) T P x state) (propsSolventRec e T x state) := by
  unfold Engine.propsSolventRec propsSolventRec
  refine (sim_prefs x).bind fun _ => (sim_state state).bind fun _ => (Sim.read fun _ => rfl).bind fun st => .getP ?_
  rw [h.atSat]
  split
  · cases hm : x.mT with
    | WAT => exact .writing _ (h.gems (hx hm)) (.inr (hx hm))
    | WAR => exact .writing _ rfl (.inl rfl)
    | WWP => exact .writing _ rfl (.inl rfl)
    | WZD => exact .lift _
    | _ => exact .pure _
  · exact .pure _

lemma sim_props (h : Stays e T P) (y : String) (state : Int) :
    Sim (UsesGems e) P (Engine.propsSolvent (val e) T P y state) (propsSolvent e T y state) :=
  sim_cached (sim_getSub_bind fun x hx => sim_propsRec h x (fun hm => ⟨y, x, hx, hm⟩) state)

lemma sim_electroRec (h : Stays e T P) (x : Subst) (hx : x.mT = .WAT → UsesGems e) (state : Int) :
    Sim (UsesGems e) P (Engine.electroRec (val e) T P x state) (electroRec e T x state) := by
  unfold Engine.electroRec electroRec
  refine (sim_prefs x).bind fun _ => (sim_state state).bind fun _ => (Sim.read fun _ => rfl).bind fun st =>
    (sim_propsRec h x hx st).bind fun ps => (Sim.read fun _ => rfl).bind fun st => .getP ?_
  split
  · cases x.gen <;> first | exact .lift _ | exact .pure _
  · exact .pure _

lemma sim_electro (h : Stays e T P) (y : String) (state : Int) :
    Sim (UsesGems e) P (Engine.electro (val e) T P y state) (electro e T y state) :=
  sim_cached (sim_getSub_bind fun x hx => sim_electroRec h x (fun hm => ⟨y, x, hx, hm⟩) state)

lemma sim_solventPS (h : Stays e T P) : Sim (UsesGems e) P (Engine.solventPS (val e) T P) (solventPS e T) :=
  (Sim.read fun _ => rfl).bind fun y => sim_props h y _

lemma sim_solventEPS (h : Stays e T P) : Sim (UsesGems e) P (Engine.solventEPS (val e) T P) (solventEPS e T) :=
  (Sim.read fun _ => rfl).bind fun y => sim_electro h y _

/-- The records have a reference state at which the models of water leave the pressure alone. -/
def RefStays (e : Eng PS EPS) : Prop := ∀ y w, e.env.db.subs.lookup y = some w → Stays e w.refT w.refP

lemma sim_solventRec {f : Subst → EM PS EPS β} {f' : Subst → SM β}
    (h : ∀ y w, e.env.db.subs.lookup y = some w → Sim W P (f w) (f' w)) : Sim W P (Engine.solventRec (val e) >>= f) (solventRec e >>= f') := by
  have := (Sim.read (W := W) (P := P) (f := fun s : ESt PS EPS => s.solventSymbol) (f' := (·.solventSymbol)) fun _ => rfl).bind
    (fun y => sim_getSub_bind (e := e) (y := y) fun x hx => h y x hx)
  intro s
  obtain ⟨P', h1, h2⟩ := this s
  exact ⟨P', h1, h2⟩

/-- The arguments of a solute model, from left to right. -/
lemma sim_args3 {b : EM PS EPS β} {b' : SM β} {c : EM PS EPS γ} {c' : SM γ} {f : β → γ → EM PS EPS α} {f' : ℝ × β × γ → SM α}
    (hb : Sim W P b b') (hc : Sim W P c c') (hf : ∀ y z, Sim W P (f y z) (f' (P, y, z))) :
    Sim W P (b >>= fun y => c >>= fun z => f y z) (args3 .abc getP b' c' >>= f') := by
  have key : args3 .abc getP b' c' >>= f' = getP >>= fun p => b' >>= fun y => c' >>= fun z => f' (p, y, z) := by
    simp only [args3, bind_assoc', pure_bind']
  rw [key]
  exact .getP (hb.bind fun y => hc.bind fun z => hf y z)

/-- The arguments of a reaction model, from left to right. -/
lemma sim_args2 {b : EM PS EPS β} {b' : SM β} {f : β → EM PS EPS α} {f' : ℝ × β → SM α}
    (hb : Sim W P b b') (hf : ∀ y, Sim W P (f y) (f' (P, y))) : Sim W P (b >>= f) (args2 false getP b' >>= f') := by
  have key : args2 false getP b' >>= f' = getP >>= fun p => b' >>= fun y => f' (p, y) := by
    simp only [args2, Bool.false_eq_true, if_false, bind_assoc', pure_bind']
  rw [key]
  exact .getP (hb.bind hf)

lemma sim_eos (ho : e.ord = .ltr) (h : Stays e T P) (hr : RefStays e) (x : Subst) :
    Sim (UsesGems e) P (Engine.eosStep (val e) T P x) (eosStep e T x) := by
  have h1 : e.ord.hkf = .abc := by rw [ho]; rfl
  have h2 : e.ord.ref = .abc := by rw [ho]; rfl
  unfold Engine.eosStep eosStep
  rw [h1, h2]
  cases x.gen with
  | CPT => exact .getP (.lift _)
  | HKF => exact sim_args3 (sim_solventPS h) (sim_solventEPS h) fun _ _ => .lift _
  | HKFR => exact sim_args3 (sim_solventPS h) (sim_solventEPS h) fun _ _ => .lift _
  | HP98 => exact sim_solventRec fun y w hw => sim_args3 (.local (sim_solventPS (hr y w hw))) (sim_solventPS h) fun _ _ => .lift _
  | AN91 => exact sim_solventRec fun y w hw => sim_args3 (.local (sim_solventPS (hr y w hw))) (sim_solventPS h) fun _ _ => .lift _
  | _ => exact .pure _

lemma sim_t (x : Subst) (t : TPS) : Sim W P (Engine.tStep (val e) T P x t) (tStep e T x t) := by
  unfold Engine.tStep tStep
  refine .getP ?_
  split
  · exact .pure _
  · cases x.mT <;> first | exact .pure _ | exact .lift _ | skip
    dsimp only
    split
    · exact .lift _
    · exact .pure _

/-- The recursive calls. -/
structure RecSim (e : Eng PS EPS) (r : Engine.Rec PS EPS) (r' : Rec) : Prop where
  sub : ∀ T P y, Stays e T P → Sim (UsesGems e) P (r.sub T P y) (r'.sub T y)
  reac : ∀ T P y, Stays e T P → Sim (UsesGems e) P (r.reac T P y) (r'.reac T y)
  direct : ∀ T P x, Stays e T P → (x.mT = .WAT → UsesGems e) → Sim (UsesGems e) P (r.direct T P x) (r'.direct T x)

lemma sim_aki (ho : e.ord = .ltr) (h : Stays e T P) (hr : RefStays e) {r : Engine.Rec PS EPS} {r' : Rec} (hrec : RecSim e r r') (x : Subst) (t : TPS) :
    Sim (UsesGems e) P (Engine.akiStep (val e) r T P x t) (akiStep e r' T x t) := by
  have h1 : e.ord.aki = false := by rw [ho]; rfl
  unfold Engine.akiStep akiStep
  rw [h1]
  refine sim_solventRec fun y w hw => (Sim.read fun _ => rfl).bind fun sy => .getP ((hrec.sub T P sy h).bind fun _ => ?_)
  refine Sim.bind (.getP (.lift _)) fun _ => (sim_solventPS h).bind fun _ => ?_
  refine Sim.bind (.local (hrec.sub _ _ sy (hr y w hw))) fun _ => Sim.bind (.local (.getP (.lift _))) fun _ => ?_
  exact Sim.bind (.local (sim_solventPS (hr y w hw))) fun _ => .lift _

lemma sim_p (ho : e.ord = .ltr) (h : Stays e T P) (hr : RefStays e) {r : Engine.Rec PS EPS} {r' : Rec} (hrec : RecSim e r r') (x : Subst) (t : TPS) :
    Sim (UsesGems e) P (Engine.pStep (val e) r T P x t) (pStep e r' T x t) := by
  unfold Engine.pStep pStep
  refine (Sim.read fun _ => rfl).bind fun fl => .getP ?_
  split
  · exact .pure _
  · cases x.mP <;> first | exact sim_aki ho h hr hrec x t | exact .lift _ | exact .pure _

lemma sim_water (h : Stays e T P) (x : Subst) (hx : x.mT = .WAT → UsesGems e) :
    Sim (UsesGems e) P (Engine.waterStep (val e) T P x) (waterStep e T x) := by
  unfold Engine.waterStep waterStep
  refine (Sim.read fun _ => rfl).bind fun st => .getP ?_
  rw [h.atSat]
  split
  · exact .pure _
  · cases hm : x.mT with
    | WAT => exact .writing _ (h.gems (hx hm)) (.inr (hx hm))
    | WAR => exact .writing _ rfl (.inl rfl)
    | WWP => exact .writing _ rfl (.inl rfl)
    | WZD => exact .lift _
    | _ =>
      dsimp only
      split
      · exact .lift _
      · exact .pure _

lemma sim_conv (x : Subst) (t : TPS) : Sim W P (Engine.convStep (val e) x t) (convStep e x t) := by
  unfold Engine.convStep convStep
  show Sim W P (if x.isSolvent then if iequals e.env.waterProperties.toList "STEAM_TABLES".toList then
      match waterTripleData e.env.db.tripleRef with | some w => Pure.pure (toSteamTables t w) | none => EM.raise else Pure.pure t
    else if iequals e.env.apparentProperties.toList "BERMAN_BROWN".toList then Pure.pure (toBermanBrown t x e.env.db.elemEntropy) else Pure.pure t) _
  split
  · split
    · cases waterTripleData e.env.db.tripleRef
      · exact .raise
      · exact .pure _
    · exact .pure _
  · split <;> exact .pure _

lemma sim_methods (ho : e.ord = .ltr) (h : Stays e T P) (hr : RefStays e) {r : Engine.Rec PS EPS} {r' : Rec} (hrec : RecSim e r r') (x : Subst)
    (hx : x.mT = .WAT → UsesGems e) : Sim (UsesGems e) P (Engine.methodsStep (val e) r T P x) (methodsStep e r' T x) := by
  unfold Engine.methodsStep methodsStep
  refine Sim.bind ?_ fun t => sim_conv x t
  split
  · exact (sim_eos ho h hr x).bind fun a => (sim_t x a).bind fun b => sim_p ho h hr hrec x b
  · exact sim_water h x hx

lemma sim_subtract (h : Stays e T P) {r : Engine.Rec PS EPS} {r' : Rec} (hrec : RecSim e r r') (own : String) (l : List (String × ℝ)) (t : TPS) :
    Sim (UsesGems e) P (Engine.subtractOthers r T P own l t) (subtractOthers r' T own l t) := by
  induction l generalizing t with
  | nil => exact .pure _
  | cons a l ih =>
    obtain ⟨y, c⟩ := a
    unfold Engine.subtractOthers subtractOthers
    split
    · exact (hrec.sub T P y h).bind fun _ => ih _
    · exact ih _

lemma sim_reacDC (h : Stays e T P) {r : Engine.Rec PS EPS} {r' : Rec} (hrec : RecSim e r r') (x : Subst) (hx : x.mT = .WAT → UsesGems e) :
    Sim (UsesGems e) P (Engine.reacDC (val e) r T P x) (reacDC e r' T x) := by
  unfold Engine.reacDC reacDC
  refine (sim_flag true).bind fun _ => ?_
  split
  · refine (sim_getReac _).bind fun re => (hrec.reac T P _ h).bind fun tpr => (sim_subtract h hrec _ _ _).bind fun t =>
      (sim_flag false).bind fun _ => .getP ?_
    split
    · exact .lift _
    · exact .pure _
  · exact hrec.direct T P _ h hx

lemma sim_substRec (ho : e.ord = .ltr) (h : Stays e T P) (hr : RefStays e) {r : Engine.Rec PS EPS} {r' : Rec} (hrec : RecSim e r r') (x : Subst)
    (hx : x.mT = .WAT → UsesGems e) : Sim (UsesGems e) P (Engine.substRec (val e) r T P x) (substRec e r' T x) := by
  unfold Engine.substRec substRec
  refine (sim_prefs x).bind fun _ => ?_
  split
  · exact .pure _
  · refine Sim.bind ?_ fun t => .pure _
    split
    · exact sim_reacDC h hrec x hx
    · exact sim_methods ho h hr hrec x hx

lemma sim_sum (h : Stays e T P) {r : Engine.Rec PS EPS} {r' : Rec} (hrec : RecSim e r r') (sym : String) (l : List (String × ℝ)) (t : TPR) :
    Sim (UsesGems e) P (Engine.sumReactants (val e) r T P sym l t) (sumReactants e r' T sym l t) := by
  induction l generalizing t with
  | nil => exact .pure _
  | cons a l ih =>
    obtain ⟨y, c⟩ := a
    unfold Engine.sumReactants sumReactants
    refine (sim_getSub y).bind fun x => ?_
    split
    · exact .raise
    · exact (hrec.sub T P y h).bind fun _ => ih _

lemma sim_fromR (h : Stays e T P) {r : Engine.Rec PS EPS} {r' : Rec} (hrec : RecSim e r r') (x : Reac) :
    Sim (UsesGems e) P (Engine.reacFromReactants (val e) r T P x) (reacFromReactants e r' T x) :=
  (sim_flag true).bind fun _ => (sim_sum h hrec _ _ _).bind fun t => (sim_flag false).bind fun _ => .pure _

lemma sim_reacP (x : Reac) (t : TPR) : Sim W P (Engine.reacPStep (val e) T P x t) (reacPStep e T x t) := by
  unfold Engine.reacPStep reacPStep
  refine .getP ?_
  cases x.mP <;> first | exact .lift _ | exact .pure _

lemma sim_reacRec (ho : e.ord = .ltr) (h : Stays e T P) {r : Engine.Rec PS EPS} {r' : Rec} (hrec : RecSim e r r') (x : Reac) :
    Sim (UsesGems e) P (Engine.reacRec (val e) r T P x) (reacRec e r' T x) := by
  have h1 : e.ord.reac = false := by rw [ho]; rfl
  unfold Engine.reacRec reacRec
  rw [h1]
  split
  · exact sim_fromR h hrec x
  · split
    · exact .pure _
    · cases x.effT <;> first
        | exact Sim.bind (.getP (.lift _)) fun _ => sim_reacP x _
        | exact sim_args2 (sim_solventPS h) fun _ => (Sim.lift _).bind fun _ => sim_reacP x _
        | exact sim_args2 (sim_solventPS h) fun _ => Sim.lift _
        | exact sim_reacP x _

lemma sim_ofEquation (y : String) : Sim W P (Engine.ofEquation y : EM PS EPS Reac) (ofEquation y) := by
  unfold Engine.ofEquation ofEquation
  cases Equation.fromEquation y.toList []
  · exact .pure _
  · exact .raise
  · exact .lift _

lemma sim_reacSym (ho : e.ord = .ltr) (h : Stays e T P) {r : Engine.Rec PS EPS} {r' : Rec} (hrec : RecSim e r r') (y : String) :
    Sim (UsesGems e) P (Engine.reacSym (val e) r T P y) (reacSym e r' T y) := by
  unfold Engine.reacSym reacSym
  show Sim (UsesGems e) P (if (e.env.db.reacs.lookup y).isNone ∧ y.toList.contains '=' then _ else _) _
  split
  · exact (sim_ofEquation y).bind fun re => sim_reacRec ho h hrec re
  · exact (sim_getReac y).bind fun re => sim_reacRec ho h hrec re

lemma sim_run (ho : e.ord = .ltr) (hr : RefStays e) (n : Nat) : RecSim e (Engine.run (val e) n) (run e n) := by
  induction n with
  | zero => exact ⟨fun _ _ _ _ => .deep, fun _ _ _ _ => .deep, fun _ _ _ _ _ => .deep⟩
  | succ n ih =>
    refine ⟨fun T P y h => ?_, fun T P y h => ?_, fun T P x h hx => ?_⟩
    · show Sim _ P (cached (val e) ESt.subC (fun c s => { s with subC := c }) ⟨T, P, y⟩
        (Engine.getSub (val e) y >>= fun v => Engine.substRec (val e) (Engine.run (val e) n) T P v)) (getSub e y >>= fun v => substRec e (run e n) T v)
      exact sim_cached (sim_getSub_bind fun x hx => sim_substRec ho h hr ih x fun hm => ⟨y, x, hx, hm⟩)
    · show Sim _ P (cached (val e) ESt.reacC (fun c s => { s with reacC := c }) ⟨T, P, y⟩ (Engine.reacSym (val e) (Engine.run (val e) n) T P y))
        (reacSym e (run e n) T y)
      exact sim_cached (sim_reacSym ho h ih y)
    · exact sim_substRec ho h hr ih x hx

/-- The query with the pressure given by value. -/
def Query.at (P : ℝ) : Query → Engine.Query
  | .sub T x => .sub T P x
  | .reac T x => .reac T P x
  | .fromR T x => .fromR T P x
  | .props T x st => .props T P x st
  | .electro T x st => .electro T P x st

/-- The temperature asked for. -/
def Query.temp : Query → ℝ
  | .sub T _ => T
  | .reac T _ => T
  | .fromR T _ => T
  | .props T _ _ => T
  | .electro T _ _ => T

lemma sim_ask (ho : e.ord = .ltr) (hr : RefStays e) (n : Nat) (q : Query) (h : Stays e q.temp P) :
    Sim (UsesGems e) P (Engine.ask (val e) n (q.at P)) (ask e n q) := by
  cases q with
  | sub T x => exact ((sim_run ho hr n).sub T P x h).bind fun _ => .pure _
  | reac T x => exact ((sim_run ho hr n).reac T P x h).bind fun _ => .pure _
  | fromR T x => exact (sim_getReac x).bind fun re => (sim_fromR h (sim_run ho hr n) re).bind fun _ => .pure _
  | props T x st => exact (sim_props h x st).bind fun _ => .pure _
  | electro T x st => exact (sim_electro h x st).bind fun _ => .pure _

/-! ### The theorems -/

/-- **C160 (partial)** (full statement: for every pressure other than 0, also when an error is raised.)  If the models of water leave the pressure
alone when they return (`Stays`: the reaktoro models do so for every pressure other than 0), then a query with a variable for the pressure has the
outcome, an answer or an error, of the query with the pressure by value.  The variable then holds what it held before, unless an
error was raised and some record uses `WaterHGK`.  Missing: these errors (`C160_error_refuted`), low pressures
(`C160_low_refuted`), and other orders of arguments than from left to right (see C153). -/
theorem C160_partial (e : Eng PS EPS) (ho : e.ord = .ltr) (hr : RefStays e) (n : Nat) (q : Query) (P : ℝ) (h : Stays e q.temp P) :
    (query e n q P).1 = (Engine.ask { e.env with memo := false } n (q.at P) ESt.init).1 ∧
      ((query e n q P).2 = P ∨ (query e n q P).1 = .throw ∧ ∃ y x, e.env.db.subs.lookup y = some x ∧ x.mT = .WAT) := by
  obtain ⟨P', h1, h2⟩ := sim_ask ho hr n q h ESt.init
  have : query e n q P = ((Engine.ask (val e) n (q.at P) ESt.init).1, P') := by
    unfold query
    rw [show St.init P = proj P (ESt.init : ESt PS EPS) from rfl, h1]
    rfl
  rw [this]
  exact ⟨rfl, h2⟩

/-- **C160, with caches and after other queries (partial)** (full statement: as C45.)  If moreover the database is as in C45, the outcome is that
of the engine with caches after any history of queries. -/
theorem C160_history_partial (e : Eng PS EPS) (ho : e.ord = .ltr) (hr : RefStays e) (hw : (e.env.db.subs.lookup "H2O@").isSome)
    (hf : ∀ y v, e.env.db.subs.lookup y = some v → NoGasModel v) {rk : String → Nat} (hrk : Engine.Ranked e.env rk) {R : Nat} (hR : ∀ y, rk y ≤ R)
    {N K : Nat} (hN : 2 * R + 4 ≤ N) (q : Query) (hq : QNamed (q.at P)) (qs : List Engine.Query) (hqs : ∀ q ∈ qs, NoGasQuery q)
    (h : Stays e q.temp P) :
    (query e (2 * R + 4) q P).1 = (Engine.ask e.env N (q.at P) (after e.env K ESt.init qs)).1 := by
  rw [(C160_partial e ho hr _ q P h).1]
  have hq' : NoGasQuery (q.at P) := by cases q <;> trivial
  exact (C45_history_partial hw hf hrk hR hN hN hq' hq hqs hqs (K' := K)).2.symm

/-- Several queries on one engine, all with the same variable: their outcomes, and the state at the end. -/
noncomputable def asks (e : Eng PS EPS) (n : Nat) : List Query → St → List (Out (Answer PS EPS)) × St
  | [], s => ([], s)
  | q :: qs, s => ((ask e n q s).1 :: (asks e n qs (ask e n q s).2).1, (asks e n qs (ask e n q s).2).2)

/-- Several queries on one engine with the pressure by value: their outcomes. -/
noncomputable def outcomes (env : Env PS EPS) (n : Nat) : List Engine.Query → ESt PS EPS → List (Out (Answer PS EPS))
  | [], _ => []
  | q :: qs, s => (Engine.ask env n q s).1 :: outcomes env n qs (Engine.ask env n q s).2

/-- **C160 for a sequence of queries (partial)** (full statement: also with `WaterHGK`.)  If no record uses `WaterHGK`, queries that share a variable
have the outcomes of the queries at its first value, errors included, and the variable keeps this value. -/
theorem C160_sequence_partial (e : Eng PS EPS) (ho : e.ord = .ltr) (hno : ∀ y x, e.env.db.subs.lookup y = some x → x.mT ≠ .WAT ∧ x.refP ≠ 0)
    (n : Nat) (qs : List Query) (hP : P ≠ 0) :
    (asks e n qs (St.init P)).1 = outcomes { e.env with memo := false } n (qs.map (·.at P)) ESt.init ∧ (asks e n qs (St.init P)).2.P = P := by
  have hg : ¬ UsesGems e := fun ⟨y, x, h1, h2⟩ => (hno y x h1).1 h2
  have hst : ∀ T P, P ≠ 0 → Stays e T P := fun T P h => ⟨h, fun h => absurd h hg⟩
  have hr : RefStays e := fun y w h => hst _ _ (hno y w h).2
  have key : ∀ (qs : List Query) (s : ESt PS EPS),
      (asks e n qs (proj P s)).1 = outcomes (val e) n (qs.map (·.at P)) s ∧ (asks e n qs (proj P s)).2.P = P := by
    intro qs
    induction qs with
    | nil => exact fun s => ⟨rfl, rfl⟩
    | cons q qs ih =>
      intro s
      obtain ⟨P', h1, h2⟩ := sim_ask ho hr n q (hst q.temp P hP) s
      obtain rfl : P' = P := h2.resolve_right fun h => hg h.2
      obtain ⟨i1, i2⟩ := ih (Engine.ask (val e) n (q.at P') s).2
      unfold asks
      rw [h1]
      exact ⟨congrArg _ i1, i2⟩
  exact key qs ESt.init

/-- The engine of the examples, where no record uses `WaterHGK` and the reference pressures are 1 bar. -/
lemma exSat_records (o : Orders) : ∀ y x, (exSat o).env.db.subs.lookup y = some x → x.mT ≠ .WAT ∧ x.refP ≠ 0 := by
  intro y x h
  have := mem_of_lookup h
  simp only [exSat, exSatEnv, exAq, List.mem_cons, Prod.mk.injEq, List.not_mem_nil, or_false] at this
  rcases this with ⟨-, rfl⟩ | ⟨-, rfl⟩ | ⟨-, rfl⟩ | ⟨-, rfl⟩ | ⟨-, rfl⟩ | ⟨-, rfl⟩ <;>
    exact ⟨by simp [exAqWater, exSolute, exMineral], by norm_num [exAqWater, exSolute, exMineral]⟩

/-- The hypotheses of the three theorems, with an answer: the neutral solute N at 280 K and any pressure other than 0. -/
example (P : ℝ) (hP : P ≠ 0) : RefStays (exSat .ltr) ∧ Stays (exSat .ltr) 280 P ∧ (∃ t, query (exSat .ltr) 2 (.sub 280 "N") P = (.ok (.sub t), P)) ∧
    QNamed (Query.at P (.sub 280 "N")) ∧ ((exSat .ltr).env.db.subs.lookup "H2O@").isSome ∧
    (∀ y v, (exSat .ltr).env.db.subs.lookup y = some v → NoGasModel v) ∧ Engine.Ranked (exSat .ltr).env (fun _ => 0) := by
  have hno : ∀ y v, (exSat .ltr).env.db.subs.lookup y = some v → NoGasModel v := (exAq_regular "BENSON_HELGESON").noGas
  have hown : ∀ y v, (exSat .ltr).env.db.subs.lookup y = some v → v.isReacDC = false ∧ v.mP ≠ .AKI := by
    intro y x h
    have := mem_of_lookup h
    simp only [exSat, exSatEnv, exAq, List.mem_cons, Prod.mk.injEq, List.not_mem_nil, or_false] at this
    rcases this with ⟨-, rfl⟩ | ⟨-, rfl⟩ | ⟨-, rfl⟩ | ⟨-, rfl⟩ | ⟨-, rfl⟩ | ⟨-, rfl⟩ <;>
      simp [exAqWater, exSolute, exMineral, Subst.isReacDC, Subst.noMethods]
  have hg : ¬ UsesGems (exSat .ltr) := fun ⟨y, x, h1, h2⟩ => (exSat_records .ltr y x h1).1 h2
  refine ⟨fun y w h => ⟨(exSat_records .ltr y w h).2, fun h => absurd h hg⟩, ⟨hP, fun h => absurd h hg⟩, ?_, trivial, rfl, ?_, ?_⟩
  · obtain ⟨C, h⟩ := exSat_N
    obtain ⟨t, h1, -⟩ := h .ltr 1 P
    rw [show atSat 280 P = P from if_neg hP] at h1
    exact ⟨t, h1⟩
  · exact hno
  · refine ⟨fun y z hz => ?_, fun y v hy hd => ?_⟩
    · cases hz with
      | other v re hy _ hd => rw [(hown y v hy).1] at hd; cases hd
      | species v re hy _ hd => rw [(hown y v hy).1] at hd; cases hd
      | solvent v hy _ _ ha => exact absurd ha (hown y v hy).2
    · have := (hown y v hy).1
      simp [Subst.isReacDC, hd] at this

/-! ### The gems code -/

/-- The branch of `calculateWaterHGKgems` for a given pressure. -/
lemma calculate_given {l : Gems.Lvs} {wtr : Gems.Triple} {fuel : ℕ} {T P : ℝ} (hP : 6.11732e-3 ≤ P)
    (hs : 647.067 < T + 273.15 ∨ 1e-14 ≤ |P - (|Gems.PsHGK (T + 273.15) * 10|)|) :
    Gems.calculate l wtr fuel T P = none ∨ Gems.calculate l wtr fuel T P = some (.error P) ∨ ∃ s, Gems.calculate l wtr fuel T P = some (.done s P) := by
  have hP0 : 0 < P := by linarith [(by norm_num : (0 : ℝ) < 6.11732e-3)]
  have e3 : ¬ (|P| = 0 ∨ |(|P| - |if T + 273.15 ≤ 647.067e0 then Gems.PsHGK (T + 273.15) * 10 else 0|)| < 1e-14) := by
    rw [abs_of_pos hP0]
    rintro (h | h)
    · exact hP0.ne' h
    · rcases hs with hs | hs
      · rw [if_neg (by norm_num at hs ⊢; linarith), abs_zero, sub_zero, abs_of_pos hP0] at h
        norm_num at h hP; linarith
      · split at h
        · norm_num at h hs; linarith
        · rw [abs_zero, sub_zero, abs_of_pos hP0] at h
          norm_num at h hP; linarith
  unfold Gems.calculate
  dsimp only
  rw [if_neg (not_lt.2 hP), if_neg e3]
  generalize (if T < 0.01 ∧ T ≥ 0 then (0.01 : ℝ) else T) = T'
  split
  · exact .inr (.inl rfl)
  · have key : ∀ o : Option Gems.Sta, o.map (Gems.Calc.done · P) = none ∨ o.map (Gems.Calc.done · P) = some (.error P) ∨
        ∃ s, o.map (Gems.Calc.done · P) = some (.done s P) := by
      intro o
      cases o with
      | none => exact .inl rfl
      | some s => exact .inr (.inr ⟨s, rfl⟩)
    exact key _

/-- `WaterHGK` keeps a pressure from that of the triple point on and away from the saturation pressure, if it returns, and leaves the pressure in
bar if it raises. -/
lemma hgk_keeps {l : Gems.Lvs} {wtr : Gems.Triple} {fuel : ℕ} {T P : ℝ} (hP : 6.11732e-3 ≤ P / 1e05)
    (hs : 647.067 < T - 273.15 + 273.15 ∨ 1e-14 ≤ |P / 1e05 - (|Gems.PsHGK (T - 273.15 + 273.15) * 10|)|) :
    hgkP l wtr fuel T P = P ∧ (∀ st, hgkThermo l wtr fuel T P st = .throw → hgkE l wtr fuel T P = P / 1e5) := by
  unfold hgkP hgkE hgkThermo Gems.waterHGK
  rcases calculate_given (l := l) (wtr := wtr) (fuel := fuel) hP hs with h | h | ⟨s, h⟩ <;> rw [h] <;> refine ⟨?_, fun st h => ?_⟩
  · rfl
  · cases h
  · rfl
  · rfl
  · dsimp only; ring
  · cases h

/-- The conditions at 25 °C and 100 bar (also in the liquid at -10 °C and 1000 bar, and in steam above 647.067 K at any higher pressure). -/
example : 6.11732e-3 ≤ (1e7 : ℝ) / 1e05 ∧ 1e-14 ≤ |(1e7 : ℝ) / 1e05 - (|Gems.PsHGK (298.15 - 273.15 + 273.15) * 10|)| := by
  obtain ⟨_, -, -, h3, -⟩ := Gems.hyp_25 1 le_rfl
  have hps : 0 < Gems.PsHGK (25 + 273.15) := by
    unfold Gems.PsHGK
    split_ifs <;> positivity
  rw [show (298.15 - 273.15 + 273.15 : ℝ) = 25 + 273.15 by norm_num, show (1e7 / 1e05 : ℝ) = 100 by norm_num]
  refine ⟨by norm_num, ?_⟩
  rw [abs_of_pos (show 0 < Gems.PsHGK (25 + 273.15) * 10 by positivity), abs_of_nonneg (by norm_num at h3 ⊢; linarith)]
  linarith

/-- Water with `WaterHGK`, and the mineral A. -/
noncomputable def exGems (l : Gems.Lvs) (wtr : Gems.Triple) (fuel : ℕ) : Eng PSolv ESolv :=
  ⟨{ exSatEnv with
      db := { exSatEnv.db with subs := [("H2O@", { exAqWater with mT := .WAT }), ("A", exMineral "A" 300 (-1000) 40 2)] }
      mods := { exSatEnv.mods with wat := fun _ T P st _ => hgkThermo l wtr fuel T P st } },
    .ltr, hgkP l wtr fuel, hgkE l wtr fuel⟩

lemma exGems_conv {l : Gems.Lvs} {wtr : Gems.Triple} {fuel : ℕ} {x : Subst} {t : TPS} : convStep (exGems l wtr fuel) x t = pure t := by
  have h1 : iequals (exGems l wtr fuel).env.waterProperties.toList "STEAM_TABLES".toList = false := by
    show iequals "GEOCHEMICAL".toList "STEAM_TABLES".toList = false
    decide +kernel
  have h2 : iequals (exGems l wtr fuel).env.apparentProperties.toList "BERMAN_BROWN".toList = false := by
    show iequals "BENSON_HELGESON".toList "BERMAN_BROWN".toList = false
    decide +kernel
  unfold convStep
  rw [h1, h2]
  simp

/-- The answer for the mineral A: G grows with the pressure in the variable. -/
lemma exGems_A : ∃ C : ℝ, ∀ (l : Gems.Lvs) (wtr : Gems.Triple) (fuel n : ℕ) (s : St), s.solventSymbol = "H2O@" → ∃ t : TPS,
    ask (exGems l wtr fuel) (n + 1) (.sub 280 "A") s = (.ok (.sub t), { s with solventState := 0 }) ∧ t.G.val = C + 2 * (s.P / 1e5) := by
  let x := exMineral "A" 300 (-1000) 40 2
  have hs : Sound (exAq "BENSON_HELGESON") 298.15 280 x := by
    refine ⟨rfl, ⟨twoIntervals, 0, ⟨rfl, rfl, rfl⟩, twoIntervals_ok, ⟨by decide, Or.inl ?_⟩, ?_, ?_⟩, ?_⟩
    · norm_num [twoIntervals]
    · simp [twoIntervals, CpTable.coefs]
    · intro j hj; omega
    · simp [x, exMineral, asg, exAq]
  obtain ⟨r, hr⟩ := (mineral_ev hs).self_of_nhds
  refine ⟨r.G.val - 2, fun l wtr fuel n s hsy => ?_⟩
  let tA := conMolVol 280 s.P x.ref x.refP r
  refine ⟨tA, ?_, ?_⟩
  · refine bind_ok.2 ⟨tA, _, ?_, rfl⟩
    refine bind_ok.2 ⟨x, _, getSub_ok.2 ⟨rfl, rfl⟩, ?_⟩
    have hm : methodsStep (exGems l wtr fuel) (run (exGems l wtr fuel) n) 280 x { s with solventState := 0 } = (.ok tA, { s with solventState := 0 }) := by
      unfold methodsStep
      refine bind_ok.2 ⟨tA, _, ?_, by rw [exGems_conv]; rfl⟩
      rw [if_pos ⟨rfl, rfl⟩]
      refine bind_ok.2 ⟨r, { s with solventState := 0 }, ?_, bind_ok.2 ⟨r, _, rfl, rfl⟩⟩
      show (getP >>= fun P => SM.lift (empCpIntegration x.cpData 280)) _ = _
      exact bind_ok.2 ⟨s.P, _, rfl, lift_ok.2 ⟨hr, rfl⟩⟩
    unfold substRec
    rw [bind_at (setPrefs_found (by rw [hsy]; rfl)), if_neg (by decide),
      show x.isReacDC = false by simp [Subst.isReacDC, Subst.noMethods, x, exMineral], if_neg Bool.false_ne_true]
    exact bind_ok.2 ⟨tA, _, hm, rfl⟩
  · have hV : x.ref.V.has := by simp [x, exMineral, asg, TS.has]
    simp only [tA, conMolVol, if_pos hV, TS.val_addAssign, TS.op_val_mul, TS.op_val_subR, val_pbar]
    simp only [x, exMineral, asg]
    norm_num
    ring

lemma bind_thr {m : SM α} {f : α → SM β} {s s1 : St} (h : m s = (.throw, s1)) : (m >>= f) s = (.throw, s1) := by
  change SM.bind m f s = _
  unfold SM.bind
  rw [h]

lemma bind_ub {m : SM α} {f : α → SM β} {s s1 : St} (h : m s = (.ub, s1)) : (m >>= f) s = (.ub, s1) := by
  change SM.bind m f s = _
  unfold SM.bind
  rw [h]

/-- What a query for water does. -/
lemma exGems_W (l : Gems.Lvs) (wtr : Gems.Triple) (fuel n : ℕ) (T : ℝ) (s : St) (hsy : s.solventSymbol = "H2O@") :
    ask (exGems l wtr fuel) (n + 1) (.sub T "H2O@") s =
      match hgkThermo l wtr fuel T s.P 0 with
      | .ok t => (.ok (.sub t), { s with solventState := 0, P := hgkP l wtr fuel T s.P })
      | .throw => (.throw, { s with solventState := 0, P := hgkE l wtr fuel T s.P })
      | .ub => (.ub, { s with solventState := 0 }) := by
  have hw : waterStep (exGems l wtr fuel) T { exAqWater with mT := .WAT } { s with solventState := 0 } =
      writing (hgkThermo l wtr fuel T s.P 0) (hgkP l wtr fuel T s.P) (hgkE l wtr fuel T s.P) { s with solventState := 0 } := rfl
  have hm : methodsStep (exGems l wtr fuel) (run (exGems l wtr fuel) n) T { exAqWater with mT := .WAT } =
      (waterStep (exGems l wtr fuel) T { exAqWater with mT := .WAT } >>= fun t => pure t) := by
    unfold methodsStep
    rw [if_neg (by intro h; exact absurd h.1 (by decide))]
    congr 1
    funext t
    exact exGems_conv
  have hg : getSub (exGems l wtr fuel) "H2O@" s = (.ok { exAqWater with mT := .WAT }, s) := rfl
  have hx : ask (exGems l wtr fuel) (n + 1) (.sub T "H2O@") s =
      ((waterStep (exGems l wtr fuel) T { exAqWater with mT := .WAT } >>= fun t => pure t) >>= fun t =>
        pure (fallback (exGems l wtr fuel).env.fallback t { exAqWater with mT := .WAT }) >>= fun t => pure (Answer.sub t)) { s with solventState := 0 } := by
    show ((getSub (exGems l wtr fuel) "H2O@" >>= fun v => substRec (exGems l wtr fuel) (run (exGems l wtr fuel) n) T v) >>= fun t => pure (Answer.sub t)) s = _
    rw [bind_assoc', bind_at hg]
    unfold substRec
    rw [bind_assoc', bind_at (setPrefs_found (by rw [hsy]; rfl)), if_neg (by decide),
      show ({ exAqWater with mT := .WAT } : Subst).isReacDC = false by simp [Subst.isReacDC, Subst.noMethods, exAqWater], if_neg Bool.false_ne_true, hm,
      bind_assoc']
    rfl
  rw [hx]
  cases hv : hgkThermo l wtr fuel T s.P 0 with
  | ok t =>
    rw [hv] at hw
    have hw' : waterStep (exGems l wtr fuel) T { exAqWater with mT := .WAT } { s with solventState := 0 } =
        (.ok t, { s with solventState := 0, P := hgkP l wtr fuel T s.P }) := hw
    exact (bind_at ((bind_at hw').trans rfl)).trans rfl
  | throw =>
    rw [hv] at hw
    exact bind_thr (bind_thr hw)
  | ub =>
    rw [hv] at hw
    exact bind_ub (bind_ub hw)

/-- **C160, violation.**  `WaterHGK` divides the caller's pressure by 1e5 before the calculation and multiplies it by 1e5 after it, which an
error skips.  Asked for water at -16 °C and 1 bar, outside its range, it raises and leaves 1 instead of 100000 Pa in the variable.  The mineral A, asked for
next with the same variable, gets the answer for 1 Pa. -/
theorem C160_error_refuted (l : Gems.Lvs) (wtr : Gems.Triple) (fuel : ℕ) : ∃ t t' : TPS, ∃ s : St,
    asks (exGems l wtr fuel) 2 [.sub 257.15 "H2O@", .sub 280 "A"] (St.init 1e5) = ([.throw, .ok (.sub t)], s) ∧ s.P = 1 ∧
      query (exGems l wtr fuel) 2 (.sub 280 "A") 1e5 = (.ok (.sub t'), 1e5) ∧ t.G.val ≠ t'.G.val := by
  have hc : Gems.waterHGK l wtr fuel 257.15 1e5 = some (.error 1) := by
    unfold Gems.waterHGK
    rw [show (257.15 - 273.15 : ℝ) = -16 by norm_num, show (1e5 / 1e05 : ℝ) = 1 by norm_num]
    refine (Gems.C159_gems_partial l wtr fuel (-16) 1 (.inl (by norm_num)) (by norm_num) (.inr ?_)).1 ?_
    · have hx : (257.15 : ℝ) ^ (-0.6e0 : ℝ) ≤ 0.04 := by
        have h0 : (0 : ℝ) ≤ (257.15 : ℝ) ^ (-0.6e0 : ℝ) := by positivity
        refine le_of_not_gt fun h => ?_
        have h5 : ((257.15 : ℝ) ^ (-0.6e0 : ℝ)) ^ 5 = 1 / 257.15 ^ 3 := by
          rw [← Real.rpow_natCast, ← Real.rpow_mul (by norm_num), show (-0.6e0 : ℝ) * ((5 : ℕ) : ℝ) = -((3 : ℕ) : ℝ) by norm_num,
            Real.rpow_neg (by norm_num), Real.rpow_natCast, one_div]
        have := pow_le_pow_left₀ (by norm_num) h.le 5
        rw [h5] at this
        norm_num at this
      have h1 : Gems.PsHGK (-16 + 273.15) * 10 ≤ 0.5 := by
        rw [show (-16 + 273.15 : ℝ) = 257.15 by norm_num]
        unfold Gems.PsHGK
        rw [if_pos (by norm_num)]
        have : Real.exp (6.3573118e0 - 8858.843e0 / 257.15 + 607.56335e0 * (257.15 : ℝ) ^ (-0.6e0 : ℝ)) ≤ Real.exp (-1) := by
          apply Real.exp_le_exp.2
          norm_num at hx ⊢
          linarith
        have h2 := Real.exp_neg_one_lt_half
        generalize Real.exp (6.3573118e0 - 8858.843e0 / 257.15 + 607.56335e0 * (257.15 : ℝ) ^ (-0.6e0 : ℝ)) = E at this ⊢
        norm_num
        linarith
      have h2 : 0 ≤ Gems.PsHGK (-16 + 273.15) * 10 := by
        unfold Gems.PsHGK
        split_ifs <;> positivity
      rw [abs_of_nonneg h2, abs_of_nonneg (by norm_num at h1 ⊢; linarith)]
      norm_num at h1 ⊢
      linarith
    · unfold Gems.HgkRange Gems.meltT; norm_num
  have e1 : ask (exGems l wtr fuel) 2 (.sub 257.15 "H2O@") (St.init 1e5) = (.throw, ⟨1, 0, "H2O@", false⟩) := by
    rw [exGems_W l wtr fuel 1 257.15 (St.init 1e5) rfl]
    unfold hgkThermo hgkE
    rw [show (St.init 1e5).P = 1e5 from rfl, hc]
    rfl
  obtain ⟨C, h⟩ := exGems_A
  obtain ⟨t, h1, h2⟩ := h l wtr fuel 1 ⟨1, 0, "H2O@", false⟩ rfl
  obtain ⟨t', h3, h4⟩ := h l wtr fuel 1 (St.init 1e5) rfl
  refine ⟨t, t', ⟨1, 0, "H2O@", false⟩, ?_, rfl, query_ok.2 ⟨_, h3, rfl⟩, ?_⟩
  · unfold asks
    rw [e1]
    unfold asks
    rw [h1]
    rfl
  · rw [h2, h4]
    simp only [St.init]
    norm_num

/-- **C160, violation.**  A pressure below 611.732 Pa is replaced by the saturation pressure: asked for water at 25 °C and 500 Pa, `WaterHGK` answers for
3169 Pa and leaves this pressure in the variable. -/
theorem C160_low_refuted (l : Gems.Lvs) (wtr : Gems.Triple) (fuel : ℕ) (hf : 1 ≤ fuel) : ∃ (t : TPS) (p : ℝ),
    query (exGems l wtr fuel) 2 (.sub 298.15 "H2O@") 500 = (.ok (.sub t), p) ∧ 3160 < p := by
  obtain ⟨s, Q, h1, h2, -⟩ := (Gems.C159_gems_refuted l wtr fuel).2 hf
  have hc : Gems.waterHGK l wtr fuel 298.15 500 = some (.done s Q) := by
    unfold Gems.waterHGK
    rw [show (298.15 - 273.15 : ℝ) = 25 by norm_num, show (500 / 1e05 : ℝ) = 0.005 by norm_num, h1]
  have e := exGems_W l wtr fuel 1 298.15 (St.init 500) rfl
  unfold hgkThermo hgkP at e
  rw [show (St.init 500).P = 500 from rfl, hc] at e
  exact ⟨_, _, query_ok.2 ⟨_, e, rfl⟩, by show 3160 < Q * 1e5; norm_num at h2 ⊢; linarith⟩

end ThermoFun.Sat

import Verif.Props.Aqueous
import Verif.Props.Database
import Verif.Props.Solutes

/-!
# Records that do not matter

Theorems about the engine (Model/Engine.lean) and the loading of files (Model/Database.lean): an answer does not change when records are added to
the database, and the order of the records in a file does not matter (C156).
-/

namespace ThermoFun.Engine

variable {PS EPS : Type} {α β : Type}

/-- `db'` has all the records of `db`, unchanged, and possibly others. -/
structure Within (db db' : Db) : Prop where
  subs : ∀ y x, db.subs.lookup y = some x → db'.subs.lookup y = some x
  reacs : ∀ y x, db.reacs.lookup y = some x → db'.reacs.lookup y = some x
  elements : db'.elemEntropy = db.elemEntropy
  triple : db'.tripleRef = db.tripleRef

/-- The solvent of the preferences is in the database. -/
def Known (db : Db) (s : ESt PS EPS) : Prop := (db.subs.lookup s.solventSymbol).isSome

/-- The answers of `m` are answers of `m'`, with the same effect on the engine, and the solvent stays known. -/
def Keeps (db : Db) (m m' : EM PS EPS α) : Prop :=
  ∀ s a s', Known db s → m s = (.ok a, s') → m' s = (.ok a, s') ∧ Known db s'

lemma Keeps.bind {db : Db} {m m' : EM PS EPS α} {f f' : α → EM PS EPS β} (hm : Keeps db m m') (hf : ∀ a, Keeps db (f a) (f' a)) :
    Keeps db (m >>= f) (m' >>= f') := by
  intro s b s' hk h
  obtain ⟨a, s1, h1, h2⟩ := of_bind_run h
  obtain ⟨g1, e1⟩ := hm s a s1 hk h1
  obtain ⟨g2, e2⟩ := hf a s1 b s' e1 h2
  exact ⟨by rw [bind_run g1, g2], e2⟩

lemma Keeps.pure {db : Db} (a : α) : Keeps db (Pure.pure a : EM PS EPS α) (Pure.pure a) := fun s b s' hk h => by
  refine ⟨h, ?_⟩
  injection h with h1 h2
  rw [← h2]; exact hk
lemma Keeps.raise {db : Db} {m : EM PS EPS α} : Keeps db (EM.raise : EM PS EPS α) m := fun s b s' _ h => by
  injection h with h; cases h
lemma Keeps.deep {db : Db} {m : EM PS EPS α} : Keeps db (EM.tooDeep : EM PS EPS α) m := fun s b s' _ h => by
  injection h with h; cases h
lemma Keeps.read {db : Db} (f : ESt PS EPS → α) : Keeps db (EM.read f) (EM.read f) := fun s b s' hk h => by
  refine ⟨h, ?_⟩
  injection h with h1 h2
  rw [← h2]; exact hk
lemma Keeps.lift {db : Db} (r : Res α) : Keeps db (EM.lift r : EM PS EPS α) (EM.lift r) := fun s b s' hk h => by
  refine ⟨h, ?_⟩
  unfold EM.lift at h
  cases r <;> injection h with h1 h2 <;> rw [← h2] <;> exact hk
lemma Keeps.change {db : Db} {f : ESt PS EPS → ESt PS EPS} (hf : ∀ s, (f s).solventSymbol = s.solventSymbol) :
    Keeps db (EM.change f) (EM.change f) := fun s b s' hk h => by
  refine ⟨h, ?_⟩
  injection h with h1 h2
  rw [← h2]
  unfold Known
  rw [hf]
  exact hk
lemma Keeps.ite {db : Db} {c : Prop} [Decidable c] {m m' n n' : EM PS EPS α} (h1 : c → Keeps db m m') (h2 : ¬ c → Keeps db n n') :
    Keeps db (if c then m else n) (if c then m' else n') := by
  by_cases h : c
  · rw [if_pos h, if_pos h]; exact h1 h
  · rw [if_neg h, if_neg h]; exact h2 h

variable {env : Env PS EPS} {db' : Db}

/-- The engine on another database. -/
abbrev Env.on (env : Env PS EPS) (db : Db) : Env PS EPS := { env with db := db }

lemma keeps_getSub (h : Within env.db db') (y : String) : Keeps env.db (getSub env y) (getSub (env.on db') y) := by
  unfold getSub
  cases e : env.db.subs.lookup y with
  | none => exact Keeps.raise
  | some x =>
    have := h.subs y x e
    simp only [this]
    exact Keeps.pure x

lemma keeps_getReac (h : Within env.db db') (y : String) : Keeps env.db (getReac env y) (getReac (env.on db') y) := by
  unfold getReac
  cases e : env.db.reacs.lookup y with
  | none => exact Keeps.raise
  | some x =>
    have := h.reacs y x e
    simp only [this]
    exact Keeps.pure x

lemma keeps_setPrefs (h : Within env.db db') (x : Subst) : Keeps env.db (setPrefs env x) (setPrefs (env.on db') x) := by
  intro s b s' hk hs
  obtain ⟨w, hw⟩ := Option.isSome_iff_exists.1 hk
  have hw' := h.subs _ _ hw
  have e1 : setPrefs env x s = (.ok (), { s with solventState := if x.gas then 1 else 0 }) := by
    unfold setPrefs EM.change
    simp [hw]
  have e2 : setPrefs (env.on db') x s = (.ok (), { s with solventState := if x.gas then 1 else 0 }) := by
    unfold setPrefs EM.change
    simp [hw']
  rw [e1] at hs
  rw [e2]
  refine ⟨hs, ?_⟩
  injection hs with h1 h2
  rw [← h2]; exact hk

lemma keeps_setState {db : Db} (st : Int) : Keeps db (setState st : EM PS EPS Unit) (setState st) :=
  Keeps.change fun s => by split <;> rfl
lemma keeps_setFlag {db : Db} (b : Bool) : Keeps db (setFlag b : EM PS EPS Unit) (setFlag b) := Keeps.change fun _ => rfl

lemma keeps_cached {K V : Type} [DecidableEq K] {get : ESt PS EPS → Cache K V} {set : Cache K V → ESt PS EPS → ESt PS EPS}
    (hset : ∀ c s, (set c s).solventSymbol = s.solventSymbol) (k : K) {m m' : EM PS EPS V} (h : Keeps env.db m m') :
    Keeps env.db (cached env get set k m) (cached (env.on db') get set k m') := by
  intro s b s' hk hs
  unfold cached at hs ⊢
  show (if env.memo then _ else _) = _ ∧ _
  by_cases hm : env.memo
  · rw [if_pos hm] at hs ⊢
    have hk' : Known env.db (set (Cache.evict env.maxCache (get s)) s) := by unfold Known; rw [hset]; exact hk
    dsimp only at hs ⊢
    cases hf : (get (set (Cache.evict env.maxCache (get s)) s)).find k with
    | some v =>
      simp only [hf] at hs ⊢
      refine ⟨hs, ?_⟩
      injection hs with h1 h2
      rw [← h2]; exact hk'
    | none =>
      simp only [hf] at hs ⊢
      rcases hms : m (set (Cache.evict env.maxCache (get s)) s) with ⟨o, t⟩
      rw [hms] at hs
      cases o with
      | ok v =>
        obtain ⟨g1, g2⟩ := h _ v t hk' hms
        rw [g1]
        refine ⟨hs, ?_⟩
        injection hs with h1 h2
        rw [← h2]
        unfold Known
        rw [hset]
        exact g2
      | throw => injection hs with h1 h2; cases h1
      | ub => injection hs with h1 h2; cases h1
      | deep => injection hs with h1 h2; cases h1
  · rw [if_neg hm] at hs ⊢
    exact h s b s' hk hs

lemma keeps_propsRec (h : Within env.db db') (T P : ℝ) (x : Subst) (st : Int) :
    Keeps env.db (propsSolventRec env T P x st) (propsSolventRec (env.on db') T P x st) := by
  unfold propsSolventRec
  refine (keeps_setPrefs h x).bind fun _ => (keeps_setState st).bind fun _ => (Keeps.read _).bind fun st => Keeps.ite (fun _ => ?_) fun _ => Keeps.pure _
  cases x.mT <;> first | exact Keeps.lift _ | exact Keeps.pure _

lemma keeps_props (h : Within env.db db') (T P : ℝ) (x : String) (st : Int) :
    Keeps env.db (propsSolvent env T P x st) (propsSolvent (env.on db') T P x st) :=
  keeps_cached (set := fun c s => { s with psC := c }) (fun _ _ => rfl) _ ((keeps_getSub h x).bind fun v => keeps_propsRec h T P v st)

lemma keeps_electroRec (h : Within env.db db') (T P : ℝ) (x : Subst) (st : Int) :
    Keeps env.db (electroRec env T P x st) (electroRec (env.on db') T P x st) := by
  unfold electroRec
  refine (keeps_setPrefs h x).bind fun _ => (keeps_setState st).bind fun _ => (Keeps.read _).bind fun st => (keeps_propsRec h T P x st).bind fun ps =>
    (Keeps.read _).bind fun st => Keeps.ite (fun _ => ?_) fun _ => Keeps.pure _
  cases x.gen <;> first | exact Keeps.lift _ | exact Keeps.pure _

lemma keeps_electro (h : Within env.db db') (T P : ℝ) (x : String) (st : Int) :
    Keeps env.db (electro env T P x st) (electro (env.on db') T P x st) :=
  keeps_cached (set := fun c s => { s with elC := c }) (fun _ _ => rfl) _ ((keeps_getSub h x).bind fun v => keeps_electroRec h T P v st)

lemma keeps_solventPS (h : Within env.db db') (T P : ℝ) : Keeps env.db (solventPS env T P) (solventPS (env.on db') T P) :=
  (Keeps.read _).bind fun sy => keeps_props h T P sy (-1)
lemma keeps_solventEPS (h : Within env.db db') (T P : ℝ) : Keeps env.db (solventEPS env T P) (solventEPS (env.on db') T P) :=
  (Keeps.read _).bind fun sy => keeps_electro h T P sy (-1)
lemma keeps_solventRec (h : Within env.db db') : Keeps env.db (solventRec env) (solventRec (env.on db')) :=
  (Keeps.read _).bind fun sy => keeps_getSub h sy

lemma keeps_eos (h : Within env.db db') (T P : ℝ) (x : Subst) : Keeps env.db (eosStep env T P x) (eosStep (env.on db') T P x) := by
  unfold eosStep
  cases x.gen with
  | CON => exact Keeps.pure _
  | CPT => exact Keeps.lift _
  | HKF => exact (keeps_solventPS h T P).bind fun ps => (keeps_solventEPS h T P).bind fun es => Keeps.lift _
  | HKFR => exact (keeps_solventPS h T P).bind fun ps => (keeps_solventEPS h T P).bind fun es => Keeps.lift _
  | HP98 => exact (keeps_solventRec h).bind fun w => (keeps_solventPS h _ _).bind fun psr => (keeps_solventPS h T P).bind fun ps => Keeps.lift _
  | AN91 => exact (keeps_solventRec h).bind fun w => (keeps_solventPS h _ _).bind fun psr => (keeps_solventPS h T P).bind fun ps => Keeps.lift _
  | _ => exact Keeps.pure _

lemma keeps_tStep (T P : ℝ) (x : Subst) (t : TPS) : Keeps env.db (tStep env T P x t) (tStep (env.on db') T P x t) := by
  unfold tStep
  refine Keeps.ite (fun _ => Keeps.pure _) fun _ => ?_
  cases x.mT <;> first | exact Keeps.lift _ | exact Keeps.pure _ | exact Keeps.ite (fun _ => Keeps.lift _) fun _ => Keeps.pure _

/-- The recursive calls of one engine and of the other; a reaction may be asked for by the symbol of a record of the first database, or by a text
the second has no record of. -/
structure KeepsRec (env : Env PS EPS) (db' : Db) (r r' : Rec PS EPS) : Prop where
  sub : ∀ T P y, Keeps env.db (r.sub T P y) (r'.sub T P y)
  reac : ∀ T P y, (env.db.reacs.lookup y).isSome ∨ (db'.reacs.lookup y).isNone → Keeps env.db (r.reac T P y) (r'.reac T P y)
  direct : ∀ T P x, Keeps env.db (r.direct T P x) (r'.direct T P x)

variable {r r' : Rec PS EPS}

lemma keeps_pStep (h : Within env.db db') (hr : KeepsRec env db' r r') (T P : ℝ) (x : Subst) (t : TPS) :
    Keeps env.db (pStep env r T P x t) (pStep (env.on db') r' T P x t) := by
  unfold pStep
  refine (Keeps.read _).bind fun fl => Keeps.ite (fun _ => Keeps.pure _) fun _ => ?_
  cases x.mP with
  | AKI =>
    exact (keeps_solventRec h).bind fun w => (Keeps.read _).bind fun sy => (hr.sub _ _ _).bind fun a => (Keeps.lift _).bind fun b =>
      (keeps_solventPS h _ _).bind fun c => (hr.sub _ _ _).bind fun d => (Keeps.lift _).bind fun e => (keeps_solventPS h _ _).bind fun f => Keeps.lift _
  | _ => first | exact Keeps.lift _ | exact Keeps.pure _

lemma keeps_water (h : Within env.db db') (T P : ℝ) (x : Subst) : Keeps env.db (waterStep env T P x) (waterStep (env.on db') T P x) := by
  unfold waterStep
  refine (Keeps.read _).bind fun st => Keeps.ite (fun _ => Keeps.pure _) fun _ => ?_
  show Keeps env.db _ (match x.mT with | .WAT => _ | .WAR => _ | .WWP => _ | .WZD => _ | _ => _)
  rw [h.triple]
  cases x.mT <;> first | exact Keeps.lift _ | exact Keeps.ite (fun _ => Keeps.lift _) fun _ => Keeps.pure _

lemma keeps_conv (h : Within env.db db') (x : Subst) (t : TPS) : Keeps env.db (convStep env x t) (convStep (env.on db') x t) := by
  have : convStep (env.on db') x t = convStep env x t := by
    unfold convStep
    show (if _ then if _ then (match waterTripleData db'.tripleRef with | some w => _ | none => _) else _ else if _ then Pure.pure (toBermanBrown t x db'.elemEntropy) else _) = _
    rw [h.triple, h.elements]
    rfl
  rw [this]
  unfold convStep
  refine Keeps.ite (fun _ => Keeps.ite (fun _ => ?_) fun _ => Keeps.pure _) fun _ => Keeps.ite (fun _ => Keeps.pure _) fun _ => Keeps.pure _
  cases waterTripleData env.db.tripleRef with
  | none => exact Keeps.raise
  | some w => exact Keeps.pure _

lemma keeps_methods (h : Within env.db db') (hr : KeepsRec env db' r r') (T P : ℝ) (x : Subst) :
    Keeps env.db (methodsStep env r T P x) (methodsStep (env.on db') r' T P x) := by
  unfold methodsStep
  refine Keeps.bind (Keeps.ite (fun _ => ?_) fun _ => keeps_water h T P x) fun t => keeps_conv h x t
  exact (keeps_eos h T P x).bind fun a => (keeps_tStep T P x a).bind fun b => keeps_pStep h hr T P x b

lemma keeps_others (hr : KeepsRec env db' r r') (T P : ℝ) (own : String) (l : List (String × ℝ)) :
    ∀ t, Keeps env.db (subtractOthers r T P own l t) (subtractOthers r' T P own l t) := by
  induction l with
  | nil => exact fun t => Keeps.pure _
  | cons e l ih =>
    intro t
    obtain ⟨y, c⟩ := e
    unfold subtractOthers
    exact Keeps.ite (fun _ => (hr.sub T P y).bind fun ty => ih _) fun _ => ih _

lemma keeps_reacDC (h : Within env.db db') (hr : KeepsRec env db' r r') (T P : ℝ) (x : Subst) :
    Keeps env.db (reacDC env r T P x) (reacDC (env.on db') r' T P x) := by
  unfold reacDC
  refine (keeps_setFlag true).bind fun _ => Keeps.ite (fun _ => ?_) fun _ => hr.direct T P _
  by_cases hs : (env.db.reacs.lookup x.reactionSymbol).isSome
  · refine (keeps_getReac h _).bind fun re => (hr.reac T P _ (Or.inl hs)).bind fun t => (keeps_others hr T P _ _ _).bind fun u =>
      (keeps_setFlag false).bind fun _ => Keeps.ite (fun _ => Keeps.lift _) fun _ => Keeps.pure _
  · intro s b s' _ hb
    obtain ⟨a, s1, h1, -⟩ := of_bind_run hb
    have : env.db.reacs.lookup x.reactionSymbol = none := Option.not_isSome_iff_eq_none.1 hs
    unfold getReac at h1
    rw [this] at h1
    injection h1 with h1
    cases h1

lemma keeps_substRec (h : Within env.db db') (hr : KeepsRec env db' r r') (T P : ℝ) (x : Subst) :
    Keeps env.db (substRec env r T P x) (substRec (env.on db') r' T P x) := by
  unfold substRec
  refine (keeps_setPrefs h x).bind fun _ => Keeps.ite (fun _ => Keeps.pure _) fun _ => Keeps.bind (Keeps.ite (fun _ => keeps_reacDC h hr T P x)
    fun _ => keeps_methods h hr T P x) fun t => Keeps.pure _

lemma keeps_sum (h : Within env.db db') (hr : KeepsRec env db' r r') (T P : ℝ) (sym : String) (l : List (String × ℝ)) :
    ∀ t, Keeps env.db (sumReactants env r T P sym l t) (sumReactants (env.on db') r' T P sym l t) := by
  induction l with
  | nil => exact fun t => Keeps.pure _
  | cons e l ih =>
    intro t
    obtain ⟨y, c⟩ := e
    unfold sumReactants
    exact (keeps_getSub h y).bind fun s => Keeps.ite (fun _ => Keeps.raise) fun _ => (hr.sub T P y).bind fun ty => ih _

lemma keeps_fromR (h : Within env.db db') (hr : KeepsRec env db' r r') (T P : ℝ) (x : Reac) :
    Keeps env.db (reacFromReactants env r T P x) (reacFromReactants (env.on db') r' T P x) := by
  unfold reacFromReactants
  exact (keeps_setFlag true).bind fun _ => (keeps_sum h hr T P _ _ _).bind fun t => (keeps_setFlag false).bind fun _ => Keeps.pure _

lemma keeps_reacP (T P : ℝ) (x : Reac) (t : TPR) : Keeps env.db (reacPStep env T P x t) (reacPStep (env.on db') T P x t) := by
  unfold reacPStep
  cases x.mP <;> first | exact Keeps.lift _ | exact Keeps.pure _

lemma keeps_reacRec (h : Within env.db db') (hr : KeepsRec env db' r r') (T P : ℝ) (x : Reac) :
    Keeps env.db (reacRec env r T P x) (reacRec (env.on db') r' T P x) := by
  unfold reacRec
  refine Keeps.ite (fun _ => keeps_fromR h hr T P x) fun _ => Keeps.ite (fun _ => Keeps.pure _) fun _ => ?_
  cases x.effT with
  | DMD => exact (keeps_solventPS h T P).bind fun ps => (Keeps.lift _).bind fun t => keeps_reacP T P x t
  | DKR => exact (keeps_solventPS h T P).bind fun ps => (Keeps.lift _).bind fun t => keeps_reacP T P x t
  | MRB => exact (keeps_solventPS h T P).bind fun ps => Keeps.lift _
  | _ => first | exact (Keeps.lift _).bind fun t => keeps_reacP T P x t | exact keeps_reacP T P x _

lemma keeps_ofEquation {db : Db} (y : String) : Keeps db (ofEquation y : EM PS EPS Reac) (ofEquation y) := by
  unfold ofEquation
  cases Equation.fromEquation y.toList [] with
  | ok m => exact Keeps.pure _
  | throw => exact Keeps.raise
  | ub => exact Keeps.lift _

lemma keeps_reacSym (h : Within env.db db') (hr : KeepsRec env db' r r') (T P : ℝ) (y : String)
    (hy : (env.db.reacs.lookup y).isSome ∨ (db'.reacs.lookup y).isNone) :
    Keeps env.db (reacSym env r T P y) (reacSym (env.on db') r' T P y) := by
  unfold reacSym
  have e : (db'.reacs.lookup y).isNone = (env.db.reacs.lookup y).isNone := by
    cases hl : env.db.reacs.lookup y with
    | some x => rw [h.reacs y x hl]
    | none => rw [hl] at hy; simpa using hy
  show Keeps env.db _ (if (db'.reacs.lookup y).isNone ∧ _ then _ else _)
  rw [e]
  exact Keeps.ite (fun _ => (keeps_ofEquation y).bind fun re => keeps_reacRec h hr T P re) fun _ => (keeps_getReac h y).bind fun re => keeps_reacRec h hr T P re

lemma keeps_run (h : Within env.db db') : ∀ n, KeepsRec env db' (run env n) (run (env.on db') n)
  | 0 => ⟨fun _ _ _ => Keeps.deep, fun _ _ _ _ => Keeps.deep, fun _ _ _ => Keeps.deep⟩
  | n + 1 =>
    ⟨fun T P y => keeps_cached (set := fun c s => { s with subC := c }) (fun _ _ => rfl) _ ((keeps_getSub h y).bind fun v => keeps_substRec h (keeps_run h n) T P v),
      fun T P y hy => keeps_cached (set := fun c s => { s with reacC := c }) (fun _ _ => rfl) _ (keeps_reacSym h (keeps_run h n) T P y hy),
      fun T P x => keeps_substRec h (keeps_run h n) T P x⟩

/-- The query is not for a reaction by an equation that is the symbol of a record added. -/
def Query.NotAdded (db db' : Db) : Query → Prop
  | .reac _ _ y => (db.reacs.lookup y).isSome ∨ (db'.reacs.lookup y).isNone
  | _ => True

lemma keeps_ask (h : Within env.db db') (n : Nat) (q : Query) (hq : q.NotAdded env.db db') :
    Keeps env.db (ask env n q) (ask (env.on db') n q) := by
  have hr := keeps_run h n
  cases q with
  | sub T P x => exact (hr.sub T P x).bind fun t => Keeps.pure _
  | subRec T P x => exact (hr.direct T P x).bind fun t => Keeps.pure _
  | reac T P x => exact (hr.reac T P x hq).bind fun t => Keeps.pure _
  | reacRec T P x => exact (keeps_reacRec h hr T P x).bind fun t => Keeps.pure _
  | fromR T P x => exact (keeps_getReac h x).bind fun re => (keeps_fromR h hr T P re).bind fun t => Keeps.pure _
  | fromRRec T P x => exact (keeps_fromR h hr T P x).bind fun t => Keeps.pure _
  | props T P x st => exact (keeps_props h T P x st).bind fun t => Keeps.pure _
  | propsRec T P x st => exact (keeps_propsRec h T P x st).bind fun t => Keeps.pure _
  | electro T P x st => exact (keeps_electro h T P x st).bind fun t => Keeps.pure _
  | electroRec T P x st => exact (keeps_electroRec h T P x st).bind fun t => Keeps.pure _

/-- **C156, the part that holds.**  When the solvent of the engine's preferences ("H2O@" in a new engine) is in the database, adding records of
substances and reactions changes no answer: whatever was asked before, a query that was answered is answered the same by the engine with the
larger database, and leaves the engine in the same state - so that this goes on for all the queries that follow.  Left out are reactions asked for by
an equation that is the symbol of a record added.  Missing: databases without the solvent of the preferences, where it fails (below). -/
theorem C156_partial (env : Env PS EPS) (db' : Db) (h : Within env.db db') (n : Nat) (q : Query) (hq : q.NotAdded env.db db')
    (s s' : ESt PS EPS) (a : Answer PS EPS) (hk : Known env.db s) (ha : ask env n q s = (.ok a, s')) :
    ask (env.on db') n q s = (.ok a, s') ∧ Known env.db s' :=
  keeps_ask h n q hq s a s' hk ha

/-- **C156, the order of records.**  Two databases with the same records, in whatever order, give the same answers to the same queries. -/
theorem C156_order_partial (env : Env PS EPS) (db' : Db) (hs : ∀ y, db'.subs.lookup y = env.db.subs.lookup y)
    (hr : ∀ y, db'.reacs.lookup y = env.db.reacs.lookup y) (he : db'.elemEntropy = env.db.elemEntropy) (ht : db'.tripleRef = env.db.tripleRef)
    (n : Nat) (q : Query) (s s' : ESt PS EPS) (a : Answer PS EPS) (hk : Known env.db s) :
    ask env n q s = (.ok a, s') ↔ ask (env.on db') n q s = (.ok a, s') := by
  have h1 : Within env.db db' := ⟨fun y x h => by rw [hs, h], fun y x h => by rw [hr, h], he, ht⟩
  have h2 : Within (env.on db').db env.db := ⟨fun y x h => by rw [← hs]; exact h, fun y x h => by rw [← hr]; exact h, he.symm, ht.symm⟩
  have hq : ∀ {a b : Db}, (∀ y, a.reacs.lookup y = b.reacs.lookup y) → q.NotAdded a b := by
    intro a b hab
    cases q <;> try trivial
    rename_i y
    show (a.reacs.lookup y).isSome ∨ (b.reacs.lookup y).isNone
    rw [hab]
    cases b.reacs.lookup y <;> simp
  constructor
  · exact fun h => (keeps_ask h1 n q (hq fun y => (hr y).symm) s a s' hk h).1
  · exact fun h => (keeps_ask (env := env.on db') h2 n q (hq hr) s a s' (by unfold Known; rw [hs]; exact hk) h).1

/-! ### Two solvents -/

/-- Water whose expansivity is proportional to the temperature. -/
noncomputable def linearWater (T : ℝ) : PSolv :=
  ⟨⟨.ofVal 1000, .ofVal (1e-6 * T), .ofVal 0, .ofVal 1e-6⟩, TS.default, TS.default, TS.default, TS.default, TS.default⟩
/-- Water whose expansivity is proportional to the square of the temperature. -/
noncomputable def squareWater (T : ℝ) : PSolv :=
  ⟨⟨.ofVal 1000, .ofVal (1e-9 * T ^ 2), .ofVal 0, .ofVal (2e-9 * T)⟩, TS.default, TS.default, TS.default, TS.default, TS.default⟩

/-- Models of the two kinds of water. -/
noncomputable def twoWaters : Models PSolv ESolv :=
  { noWater with warPS := fun _ T _ _ => .ok (linearWater T), wwpPS := fun _ T _ _ => .ok (squareWater T) }

/-- A solvent. -/
noncomputable def exSolvent (sym : String) (m : CorrT) : Subst :=
  ⟨sym, sym, "", 298.15, 1e5, .WJNR, m, .unset, .AQSOLVENT, false, false, TPS.default, 0, {}⟩

/-- A solute of the density model of Anderson et al. -/
noncomputable def exDensity : Subst :=
  ⟨"X", "X", "", 298.15, 1e5, .AN91, .unset, .unset, .AQSOLUTE, false, false,
    { TPS.default with G := asg (-1000), H := asg (-2000), S := asg 50, Cp := asg 80, V := asg 2 }, 0, {}⟩

/-- An engine with these models on a database. -/
noncomputable def exWaters (subs : List (String × Subst)) : Env PSolv ESolv :=
  ⟨⟨subs, [], fun _ => 0, "NEA_HGK"⟩, real twoWaters, "GEOCHEMICAL", "BENSON_HELGESON", false, true, 1000000⟩

/-- What an engine on a database without "H2O@" answers for the solute. -/
lemma exWaters_answer {subs : List (String × Subst)} {sym : String} {m : CorrT} {f : ℝ → PSolv} (hX : subs.lookup "X" = some exDensity)
    (hH : subs.lookup "H2O@" = none) (hl : lastSolvent (exWaters subs).db = some sym) (hs : subs.lookup sym = some (exSolvent sym m))
    (hf : ∀ T P (s : ESt PSolv ESolv), s.solventSymbol = sym →
      propsSolventRec (exWaters subs) T P (exSolvent sym m) (-1) s = (.ok (f T), { s with solventState := 0 })) :
    (ask (exWaters subs) 4 (.sub 596.3 1e5 "X") ESt.init).1 =
      .ok (.sub (anderson91Entry 596.3 1e5 298.15 exDensity.ref (f 298.15).toSolv (f 596.3).toSolv)) := by
  set env := exWaters subs with henv
  have hget : ∀ (y : String) (x : Subst) (s : ESt PSolv ESolv), subs.lookup y = some x → getSub env y s = (.ok x, s) := by
    intro y x s h
    unfold getSub
    rw [show env.db.subs.lookup y = some x from h]
    rfl
  set s0 : ESt PSolv ESolv := { ESt.init with solventSymbol := sym } with hs0
  have e1 : setPrefs env exDensity ESt.init = (.ok (), s0) := by
    have hl' : lastSolvent env.db = some sym := hl
    have hH' : env.db.subs.lookup "H2O@" = none := hH
    unfold setPrefs EM.change
    simp [exDensity, ESt.init, hH', hl', hs0]
  have hps : ∀ T P (s : ESt PSolv ESolv), s.solventSymbol = sym → s.psC.entries.length < 1000000 → s.psC.find ⟨T, P, sym, -1⟩ = none →
      solventPS env T P s = (.ok (f T), { s with solventState := 0, psC := s.psC.insert ⟨T, P, sym, -1⟩ (f T) }) := by
    intro T P s hsym hlen hk
    unfold solventPS
    rw [bind_run (show EM.read (·.solventSymbol) s = (.ok sym, s) by unfold EM.read; simp only [hsym])]
    unfold propsSolvent
    have em : (do
        let v ← getSub env sym
        propsSolventRec env T P v (-1) : EM PSolv ESolv PSolv) s = (.ok (f T), { s with solventState := 0 }) := by
      rw [bind_run (hget sym _ s hs), hf T P s hsym]
    exact cached_miss (env := env) (get := ESt.psC) (set := fun c s => { s with psC := c }) (fun _ => rfl) hlen rfl hk em
  set s1 : ESt PSolv ESolv := { s0 with psC := s0.psC.insert ⟨298.15, 1e5, sym, -1⟩ (f 298.15) } with hs1
  have g1 : solventPS env 298.15 1e5 s0 = (.ok (f 298.15), s1) := by
    rw [hps 298.15 1e5 s0 rfl (by simp [hs0, ESt.init]) rfl]
    rfl
  obtain ⟨s2, g2⟩ : ∃ s2, solventPS env 596.3 1e5 s1 = (.ok (f 596.3), s2) := by
    refine ⟨_, hps 596.3 1e5 s1 rfl ?_ ?_⟩
    · simp [hs1, hs0, ESt.init, Cache.insert, Cache.erase]
    · have : ((⟨596.3, 1e5, sym, -1⟩ : SKey) == ⟨298.15, 1e5, sym, -1⟩) = false := by
        simp only [beq_eq_false_iff_ne, ne_eq, SKey.mk.injEq, not_and]
        intro h
        norm_num at h
      simp [hs1, hs0, ESt.init, Cache.insert, Cache.erase, Cache.find, List.lookup, this]
  have e2 : ∀ r : Rec PSolv ESolv, ∃ s', substRec env r 596.3 1e5 exDensity ESt.init =
      (.ok (anderson91Entry 596.3 1e5 298.15 exDensity.ref (f 298.15).toSolv (f 596.3).toSolv), s') := by
    intro r
    refine ⟨s2, ?_⟩
    unfold substRec
    rw [bind_run e1, if_neg (by simp [exDensity])]
    have hd : exDensity.isReacDC = false := by simp [Subst.isReacDC, Subst.noMethods, exDensity]
    rw [hd]
    have em : methodsStep env r 596.3 1e5 exDensity s0 =
        (.ok (anderson91Entry 596.3 1e5 298.15 exDensity.ref (f 298.15).toSolv (f 596.3).toSolv), s2) := by
      have he : eosStep env 596.3 1e5 exDensity s0 =
          (.ok (anderson91Entry 596.3 1e5 298.15 exDensity.ref (f 298.15).toSolv (f 596.3).toSolv), s2) := by
        show (solventRec env >>= fun w => solventPS env w.refT w.refP >>= fun psr => solventPS env 596.3 1e5 >>= fun ps =>
          EM.lift (env.mods.an91 exDensity 596.3 1e5 psr ps)) s0 = _
        have hw : solventRec env s0 = (.ok (exSolvent sym m), s0) := by
          unfold solventRec
          rw [bind_run (show EM.read (·.solventSymbol) s0 = (.ok sym, s0) from rfl), hget sym _ s0 hs]
        rw [bind_run hw, bind_run (show solventPS env (exSolvent sym m).refT (exSolvent sym m).refP s0 = _ from g1), bind_run g2]
        rfl
      unfold methodsStep
      rw [if_pos ⟨by simp [Subst.isSolvent, exDensity], by simp [Subst.isVapor, exDensity]⟩]
      have hp : ∀ t, pStep env r 596.3 1e5 exDensity t s2 = (.ok t, s2) := fun t => by
        unfold pStep
        rw [bind_run (show EM.read (·.pcorr) s2 = (.ok s2.pcorr, s2) from rfl)]
        rfl
      have h3 : (do
          let a ← eosStep env 596.3 1e5 exDensity
          let b ← tStep env 596.3 1e5 exDensity a
          pStep env r 596.3 1e5 exDensity b : EM PSolv ESolv TPS) s0 =
          (.ok (anderson91Entry 596.3 1e5 298.15 exDensity.ref (f 298.15).toSolv (f 596.3).toSolv), s2) := by
        rw [bind_run he, bind_run (show tStep env 596.3 1e5 exDensity _ s2 = (.ok _, s2) from rfl), hp]
      rw [bind_run h3]
      unfold convStep
      have hb : iequals env.apparentProperties.toList "BERMAN_BROWN".toList = false := by
        show iequals "BENSON_HELGESON".toList "BERMAN_BROWN".toList = false; decide
      rw [hb, show exDensity.isSolvent = false by simp [Subst.isSolvent, exDensity]]
      rfl
    have e6 : (if (false : Bool) then reacDC env r 596.3 1e5 exDensity else methodsStep env r 596.3 1e5 exDensity) = methodsStep env r 596.3 1e5 exDensity := rfl
    rw [e6, bind_run em]
    rfl
  obtain ⟨s', hs'⟩ := e2 (run env 3)
  have hrun : ∃ s'', (run env 4).sub 596.3 1e5 "X" ESt.init =
      (.ok (anderson91Entry 596.3 1e5 298.15 exDensity.ref (f 298.15).toSolv (f 596.3).toSolv), s'') := by
    have em : (do
        let v ← getSub env "X"
        substRec env (run env 3) 596.3 1e5 v : EM PSolv ESolv TPS) ESt.init =
        (.ok (anderson91Entry 596.3 1e5 298.15 exDensity.ref (f 298.15).toSolv (f 596.3).toSolv), s') := by
      rw [bind_run (hget "X" _ _ hX), hs']
    exact ⟨_, cached_miss (env := env) (get := ESt.subC) (set := fun c s => { s with subC := c }) (fun _ => rfl) (by simp [ESt.init, henv, exWaters]) rfl
      rfl em⟩
  obtain ⟨s'', h4⟩ := hrun
  show (((run env 4).sub 596.3 1e5 "X" >>= fun t => Pure.pure (Answer.sub t)) ESt.init).1 = _
  rw [bind_run h4]
  rfl

/-- **C156 refuted.**  A database need not have the solvent "H2O@" of the preferences: the engine then takes the last aqueous solvent of the
database, in the order of the symbols, without a word.  With one solvent, "W1", a solute has the entropy 130 J/(mol K) at 596.3 K; adding a second
solvent, "W2", which nothing refers to, makes it 170. -/
theorem C156_refuted : ∃ (env : Env PSolv ESolv) (db' : Db) (q : Query) (a b : TPS), Within env.db db' ∧ q.NotAdded env.db db' ∧
    (ask env 4 q ESt.init).1 = .ok (.sub a) ∧ (ask (env.on db') 4 q ESt.init).1 = .ok (.sub b) ∧ a.S.val = 130 ∧ b.S.val = 170 := by
  set subs : List (String × Subst) := [("W1", exSolvent "W1" .WAR), ("X", exDensity)] with h1
  set subs' : List (String × Subst) := [("W1", exSolvent "W1" .WAR), ("W2", exSolvent "W2" .WWP), ("X", exDensity)] with h2
  have hf1 : ∀ T P (s : ESt PSolv ESolv), s.solventSymbol = "W1" →
      propsSolventRec (exWaters subs) T P (exSolvent "W1" .WAR) (-1) s = (.ok (linearWater T), { s with solventState := 0 }) := by
    intro T P s _
    rfl
  have hf2 : ∀ T P (s : ESt PSolv ESolv), s.solventSymbol = "W2" →
      propsSolventRec (exWaters subs') T P (exSolvent "W2" .WWP) (-1) s = (.ok (squareWater T), { s with solventState := 0 }) := by
    intro T P s _
    rfl
  have a1 := exWaters_answer (subs := subs) (sym := "W1") (m := .WAR) rfl rfl (by simp [lastSolvent, exWaters, h1, Subst.isSolvent, exSolvent, exDensity]) rfl hf1
  have a2 := exWaters_answer (subs := subs') (sym := "W2") (m := .WWP) rfl rfl (by simp [lastSolvent, exWaters, h2, Subst.isSolvent, exSolvent, exDensity]) rfl hf2
  refine ⟨exWaters subs, (exWaters subs').db, .sub 596.3 1e5 "X", _, _, ⟨?_, fun y x h => h, rfl, rfl⟩, trivial, a1, a2, ?_, ?_⟩
  · intro y x h
    show subs'.lookup y = some x
    have h : subs.lookup y = some x := h
    simp only [h1, h2, List.lookup_cons, List.lookup_nil] at h ⊢
    by_cases hy : (y == "W2") = true
    · rw [beq_iff_eq] at hy
      subst hy
      simp at h
    · simp only [Bool.not_eq_true] at hy
      rw [hy]
      exact h
  · rw [(an91_vals _ _ _ _ _ _).2.2.1]
    simp only [exDensity, asg, linearWater, TS.val_ofVal]
    norm_num
  · rw [(an91_vals _ _ _ _ _ _).2.2.1]
    simp only [exDensity, asg, squareWater, TS.val_ofVal]
    norm_num

/-- The database of the two minerals with a third, a gas and a reaction added, and the one with its records in another order: at 1000 K the mineral "A"
has the properties it had. -/
example (P : ℝ) :
    let db := (exMin "BERMAN_BROWN").db
    let more : Db := { db with subs := ("C", exMineral "C" 1 2 3 4) :: ("D", conSub "D" 7) :: db.subs, reacs := db.reacs ++ [("z", fromR "z" [("C", 1)])] }
    let other : Db := { db with subs := db.subs.reverse }
    let a : Answer PSolv ESolv := .sub (mineralTPS (exMin "BERMAN_BROWN") (exMineral "A" 10 (-1000) 40 2) 1000 P)
    (ask (exMin "BERMAN_BROWN") 4 (.sub 1000 P "A") ESt.init).1 = .ok a ∧
      (ask ((exMin "BERMAN_BROWN").on more) 4 (.sub 1000 P "A") ESt.init).1 = .ok a ∧
      (ask ((exMin "BERMAN_BROWN").on other) 4 (.sub 1000 P "A") ESt.init).1 = .ok a := by
  intro db more other a
  have hm := exMineral_ok "BERMAN_BROWN" "A" (by decide) 10 (-1000) 40 2 1000 rfl (by norm_num)
  have h0 : (ask (exMin "BERMAN_BROWN") 4 (.sub 1000 P "A") ESt.init).1 = .ok a :=
    answer_mineral rfl (exMin_regular _) rfl rfl hm.1 (mineral_ev hm.2).self_of_nhds
  have hk : Known (exMin "BERMAN_BROWN").db (ESt.init : ESt PSolv ESolv) := by
    show (List.lookup "H2O@" (exMin "BERMAN_BROWN").db.subs).isSome = true
    rfl
  have h1 : ask (exMin "BERMAN_BROWN") 4 (.sub 1000 P "A") ESt.init = (.ok a, (ask (exMin "BERMAN_BROWN") 4 (.sub 1000 P "A") ESt.init).2) :=
    Prod.ext h0 rfl
  refine ⟨h0, ?_, ?_⟩
  · refine congrArg Prod.fst (C156_partial _ more ⟨fun y x hy => ?_, fun y x hy => ?_, rfl, rfl⟩ 4 (.sub 1000 P "A") trivial _ _ _ hk h1).1
    · show List.lookup y (("C", _) :: ("D", _) :: db.subs) = some x
      have hc : (y == "C") = false := by
        rw [beq_eq_false_iff_ne]; rintro rfl
        have : (exMin "BERMAN_BROWN").db.subs.lookup "C" = none := rfl
        rw [this] at hy; cases hy
      have hd : (y == "D") = false := by
        rw [beq_eq_false_iff_ne]; rintro rfl
        have : (exMin "BERMAN_BROWN").db.subs.lookup "D" = none := rfl
        rw [this] at hy; cases hy
      rw [List.lookup_cons, hc]
      show List.lookup y (("D", _) :: db.subs) = some x
      rw [List.lookup_cons, hd]
      exact hy
    · show List.lookup y (db.reacs ++ _) = some x
      rw [List.lookup_append, show List.lookup y db.reacs = some x from hy]
      rfl
  · refine congrArg Prod.fst ((C156_order_partial _ other (fun y => ?_) (fun _ => rfl) rfl rfl 4 (.sub 1000 P "A") _ _ _ hk).1 h1)
    show List.lookup y [("B", _), ("A", _), ("H2O@", _)] = List.lookup y [("H2O@", _), ("A", _), ("B", _)]
    by_cases ha : y = "A"
    · subst ha; rfl
    by_cases hb : y = "B"
    · subst hb; rfl
    by_cases hh : y = "H2O@"
    · subst hh; rfl
    simp [List.lookup_cons, beq_eq_false_iff_ne.2 ha, beq_eq_false_iff_ne.2 hb, beq_eq_false_iff_ne.2 hh]

end ThermoFun.Engine

namespace ThermoFun.Js

lemma mem_of_lastOf {α : Type} {k : String} {x : α} : ∀ {l : List (String × α)}, lastOf k l = some x → (k, x) ∈ l
  | [], h => by cases h
  | p :: l, h => by
    unfold lastOf at h
    cases hl : lastOf k l with
    | some y =>
      rw [hl] at h
      simp only [Option.some_or, Option.some.injEq] at h
      subst h
      exact List.mem_cons_of_mem _ (mem_of_lastOf hl)
    | none =>
      rw [hl] at h
      simp only [Option.none_or] at h
      split at h
      · rename_i hk
        simp only [Option.some.injEq] at h
        subst hk h
        exact List.mem_cons_self
      · cases h

lemma lastOf_of_mem {α : Type} {k : String} {x : α} : ∀ {l : List (String × α)}, (l.map Prod.fst).Nodup → (k, x) ∈ l → lastOf k l = some x
  | p :: l, hn, h => by
    rw [List.map_cons, List.nodup_cons] at hn
    unfold lastOf
    rcases List.mem_cons.1 h with rfl | h
    · cases hl : lastOf k l with
      | some y => exact absurd (List.mem_map_of_mem (f := Prod.fst) (mem_of_lastOf hl)) hn.1
      | none => simp
    · rw [lastOf_of_mem hn.2 h]
      rfl

lemma lastOf_perm {α : Type} {k : String} {l l' : List (String × α)} (h : l.Perm l') (hn : (l.map Prod.fst).Nodup) : lastOf k l = lastOf k l' := by
  have hn' : (l'.map Prod.fst).Nodup := (h.map Prod.fst).nodup_iff.1 hn
  cases e : lastOf k l with
  | some x => exact (lastOf_of_mem hn' (h.subset (mem_of_lastOf e))).symm
  | none =>
    cases e' : lastOf k l' with
    | some x => rw [lastOf_of_mem hn (h.symm.subset (mem_of_lastOf e'))] at e; cases e
    | none => rfl

/-- The records of a list that can be read. -/
noncomputable def readOnes (l : List (Json × String)) : List Record := l.filterMap fun r => (readRecord r).toOption

lemma readAll_readOnes : ∀ {l : List (Json × String)}, (∀ r ∈ l, ∃ x, readRecord r = .ok x) → readAll l = (readOnes l, none)
  | [], _ => rfl
  | r :: l, h => by
    obtain ⟨x, hx⟩ := h r (by simp)
    have ih := readAll_readOnes (l := l) fun r hr => h r (by simp [hr])
    unfold readAll readOnes
    rw [hx, ih, List.filterMap_cons, hx]
    rfl

/-- **C156, files.**  The order of the records in a file does not matter: if all its records can be read and no two substances, reactions or
elements have the same symbol, a file with the same records in another order, and the same conventions, leaves the same database, from whatever
database one starts.  (Of two records of one symbol the later one wins, C90; after a record that cannot be read nothing is read, C52.) -/
theorem C156_files (d : DbS) (f : Spec) (h : Models d f) (j j' : Json) (hp : (recordsOf j).Perm (recordsOf j'))
    (hc : j.get? "conventions" = j'.get? "conventions") (hr : ∀ r ∈ recordsOf j, ∃ x, readRecord r = .ok x)
    (hs : ((subsIn (readOnes (recordsOf j))).map Prod.fst).Nodup) (hre : ((reacsIn (readOnes (recordsOf j))).map Prod.fst).Nodup)
    (hel : ((elemsIn (readOnes (recordsOf j))).map Prod.fst).Nodup) : d.fromFile j = d.fromFile j' := by
  have hr' : ∀ r ∈ recordsOf j', ∃ x, readRecord r = .ok x := fun r hm => hr r (hp.symm.subset hm)
  have hpr : (readOnes (recordsOf j)).Perm (readOnes (recordsOf j')) := hp.filterMap _
  have ht : tripleOf d.triple j = tripleOf d.triple j' := by unfold tripleOf; rw [hc]
  rw [fromFile_eq, fromFile_eq, readAll_readOnes hr, readAll_readOnes hr', ht]
  refine Prod.ext ?_ rfl
  have m1 := models_puts (t := tripleOf d.triple j') h (readOnes (recordsOf j))
  have m2 := models_puts (t := tripleOf d.triple j') h (readOnes (recordsOf j'))
  have e : (readOnes (recordsOf j)).foldl Spec.put f = (readOnes (recordsOf j')).foldl Spec.put f := by
    rw [puts_eq, puts_eq]
    simp only [Spec.mk.injEq]
    refine ⟨funext fun k => ?_, funext fun k => ?_, funext fun k => ?_⟩
    · rw [lastOf_perm (l' := subsIn (readOnes (recordsOf j'))) (by unfold subsIn; exact hpr.filterMap _) hs]
    · rw [lastOf_perm (l' := reacsIn (readOnes (recordsOf j'))) (by unfold reacsIn; exact hpr.filterMap _) hre]
    · rw [lastOf_perm (l' := elemsIn (readOnes (recordsOf j'))) (by unfold elemsIn; exact hpr.filterMap _) hel]
  rw [e] at m1
  exact models_ext m1 m2 (by rw [(put_rest _ _).1, (put_rest _ _).1]) (by rw [(put_rest _ _).2, (put_rest _ _).2])

/-- Two substances in either order. -/
example (d : DbS) (f : Spec) (h : Models d f) :
    let a : Json := .obj [("symbol", .str "A"), ("name", .str "x")]
    let b : Json := .obj [("symbol", .str "B"), ("name", .str "y")]
    d.fromFile (.obj [("substances", .arr [a, b])]) = d.fromFile (.obj [("substances", .arr [b, a])]) := by
  intro a b
  have h1 : recordsOf (.obj [("substances", .arr [a, b])]) = [(a, "substance"), (b, "substance")] := rfl
  have h2 : recordsOf (.obj [("substances", .arr [b, a])]) = [(b, "substance"), (a, "substance")] := rfl
  obtain ⟨x, hx, hxs⟩ : ∃ x, readRecord (a, "substance") = .ok (.sub x) ∧ x.symbol = "A" := ⟨_, rfl, rfl⟩
  obtain ⟨y, hy, hys⟩ : ∃ x, readRecord (b, "substance") = .ok (.sub x) ∧ x.symbol = "B" := ⟨_, rfl, rfl⟩
  have hl : readOnes [(a, "substance"), (b, "substance")] = [.sub x, .sub y] := by
    simp [readOnes, hx, hy, Except.toOption]
  refine C156_files d f h _ _ (by rw [h1, h2]; exact List.Perm.swap _ _ _) rfl ?_ ?_ ?_ ?_
  · rw [h1]
    intro r hr
    rcases List.mem_cons.1 hr with rfl | hr
    · exact ⟨_, hx⟩
    · rw [List.mem_singleton.1 hr]; exact ⟨_, hy⟩
  · rw [h1, hl]; simp [subsIn, hxs, hys]
  · rw [h1, hl]; simp [reacsIn]
  · rw [h1, hl]; simp [elemsIn]

end ThermoFun.Js

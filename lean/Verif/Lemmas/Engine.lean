import Verif.Model.Engine
import Verif.Props.Memo

/-!
Reasoning about the engine's state: properties of states that every calculation keeps, and calculations that agree.
-/

namespace ThermoFun.Engine

variable {PS EPS : Type}

/-- Not `deep`. -/
def Out.fine {α : Type} : Out α → Prop
  | .deep => False
  | _ => True

lemma EM.bind_of_ok {α β : Type} {m : EM PS EPS α} {f : α → EM PS EPS β} {s : ESt PS EPS} {a : α} (h : (m s).1 = .ok a) :
    (m >>= f) s = f a (m s).2 := by
  show EM.bind m f s = _
  unfold EM.bind
  rcases he : m s with ⟨o, t⟩
  rw [he] at h
  simp only at h
  subst h
  rfl

lemma EM.of_bind_ok {α β : Type} {m : EM PS EPS α} {f : α → EM PS EPS β} {s : ESt PS EPS} {b : β} (h : ((m >>= f) s).1 = .ok b) :
    ∃ a, (m s).1 = .ok a ∧ (f a (m s).2).1 = .ok b := by
  have h : (EM.bind m f s).1 = .ok b := h
  unfold EM.bind at h
  rcases he : m s with ⟨o, t⟩
  rw [he] at h
  cases o with
  | ok a => exact ⟨a, rfl, h⟩
  | throw => cases h
  | ub => cases h
  | deep => cases h

/-- `m` keeps `I`, and (if `d`) does not run too deep. -/
def U (I : ESt PS EPS → Prop) (d : Prop) {α : Type} (m : EM PS EPS α) : Prop :=
  ∀ s, I s → I (m s).2 ∧ (d → (m s).1.fine)

namespace U

variable {I : ESt PS EPS → Prop} {d : Prop} {α β : Type}

lemma pure (a : α) : U I d (Pure.pure a : EM PS EPS α) := fun _ h => ⟨h, fun _ => trivial⟩
lemma raise : U I d (EM.raise : EM PS EPS α) := fun _ h => ⟨h, fun _ => trivial⟩
lemma lift (o : Res α) : U I d (EM.lift o : EM PS EPS α) := fun s h => by
  cases o <;> exact ⟨h, fun _ => trivial⟩
lemma read (f : ESt PS EPS → α) : U I d (EM.read f) := fun _ h => ⟨h, fun _ => trivial⟩
lemma change {f : ESt PS EPS → ESt PS EPS} (hf : ∀ s, I s → I (f s)) : U I d (EM.change f) := fun s h => ⟨hf s h, fun _ => trivial⟩

lemma bind' {m : EM PS EPS α} {f : α → EM PS EPS β} (hm : U I d m)
    (hf : ∀ s a, I s → (m s).1 = .ok a → I (f a (m s).2).2 ∧ (d → (f a (m s).2).1.fine)) : U I d (m >>= f) := by
  intro s h
  have h1 := hm s h
  have h2 := hf s
  show I (EM.bind m f s).2 ∧ (d → (EM.bind m f s).1.fine)
  unfold EM.bind
  rcases he : m s with ⟨o, s'⟩
  rw [he] at h1 h2
  cases o with
  | ok a => exact h2 a h rfl
  | throw => exact ⟨h1.1, fun _ => trivial⟩
  | ub => exact ⟨h1.1, fun _ => trivial⟩
  | deep => exact ⟨h1.1, fun hd => (h1.2 hd).elim⟩

lemma bind {m : EM PS EPS α} {f : α → EM PS EPS β} (hm : U I d m) (hf : ∀ a, U I d (f a)) : U I d (m >>= f) :=
  bind' hm fun s a h _ => hf a _ (hm s h).1

/-- The value read from the state may be used with what `I` says about the state. -/
lemma bind_read {g : ESt PS EPS → α} {f : α → EM PS EPS β} (hf : ∀ s, I s → U I d (f (g s))) : U I d (EM.read g >>= f) :=
  bind' (read g) fun s a h ha => by
    have : g s = a := by simpa [EM.read] using ha
    subst this
    exact hf s h s h

lemma cached {K V : Type} [DecidableEq K] (env : Env PS EPS) {get : ESt PS EPS → Cache K V} {set : Cache K V → ESt PS EPS → ESt PS EPS}
    (hget : ∀ c s, get (set c s) = c) {k : K} {m : EM PS EPS V} (hm : U I d m)
    (hev : ∀ s, I s → I (set (Cache.evict env.maxCache (get s)) s))
    (hins : ∀ s v, I s → (m s).1 = .ok v → I (set ((get (m s).2).insert k v) (m s).2)) : U I d (cached env get set k m) := by
  intro s h
  unfold Engine.cached
  split
  · simp only [hget]
    have h' := hev s h
    split
    · exact ⟨h', fun _ => trivial⟩
    · have h1 := hm _ h'
      have h2 := fun v => hins _ v h'
      split
      · rename_i v s' he
        rw [he] at h2
        exact ⟨h2 v rfl, fun _ => trivial⟩
      · exact h1
  · exact hm s h

end U

/-- A property of states that does not depend on the caches of solvent properties and is kept by the changes of the solvent. -/
structure Quiet (env : Env PS EPS) (I : ESt PS EPS → Prop) : Prop where
  prefs : ∀ x s, I s → I (setPrefs env x s).2
  state : ∀ n s, I s → I { s with solventState := n }
  ps : ∀ c s, I s → I { s with psC := c }
  el : ∀ c s, I s → I { s with elC := c }

/-- The same, and kept by the changes of the pressure correction flag. -/
structure Stable (env : Env PS EPS) (I : ESt PS EPS → Prop) : Prop extends Quiet env I where
  flag : ∀ b s, I s → I { s with pcorr := b }

section Unary

variable {env : Env PS EPS} {I : ESt PS EPS → Prop} {d : Prop} (hI : Quiet env I)

include hI

lemma u_setPrefs (x : Subst) : U I d (setPrefs env x) := fun s h => ⟨hI.prefs x s h, fun _ => trivial⟩
lemma u_setState (n : Int) : U I d (setState n : EM PS EPS Unit) := fun s h => ⟨by
  simp only [setState, EM.change]; split
  · exact hI.state _ _ h
  · exact h, fun _ => trivial⟩
omit hI in
lemma u_getSub (x : String) : U I d (getSub env x) := by
  unfold getSub; split
  · exact U.pure _
  · exact U.raise
omit hI in
lemma u_bind_getSub {α : Type} (x : String) {f : Subst → EM PS EPS α} (hf : ∀ v, env.db.subs.lookup x = some v → U I d (f v)) :
    U I d (getSub env x >>= f) := by
  unfold getSub; split
  · rename_i v hv; exact hf v hv
  · exact U.raise
omit hI in
lemma u_bind_getReac {α : Type} (x : String) {f : Reac → EM PS EPS α} (hf : ∀ v, env.db.reacs.lookup x = some v → U I d (f v)) :
    U I d (getReac env x >>= f) := by
  unfold getReac; split
  · rename_i v hv; exact hf v hv
  · exact U.raise
omit hI in
lemma u_getReac (x : String) : U I d (getReac env x) := by
  unfold getReac; split
  · exact U.pure _
  · exact U.raise

lemma u_propsSolventRec (T P : ℝ) (x : Subst) (n : Int) : U I d (propsSolventRec env T P x n) := by
  unfold propsSolventRec
  refine (u_setPrefs hI x).bind fun _ => (u_setState hI n).bind fun _ => (U.read _).bind fun st => ?_
  split
  · split <;> first | exact U.lift _ | exact U.pure _
  · exact U.pure _

lemma u_propsSolvent (T P : ℝ) (x : String) (n : Int) : U I d (propsSolvent env T P x n) :=
  U.cached env (fun _ _ => rfl) ((u_getSub x).bind fun v => u_propsSolventRec hI T P v n) (fun s h => hI.ps _ s h)
    (fun s _ h _ => hI.ps _ _ (((u_getSub (d := d) x).bind fun v => u_propsSolventRec hI T P v n) s h).1)

lemma u_electroRec (T P : ℝ) (x : Subst) (n : Int) : U I d (electroRec env T P x n) := by
  unfold electroRec
  refine (u_setPrefs hI x).bind fun _ => (u_setState hI n).bind fun _ => (U.read _).bind fun st =>
    (u_propsSolventRec hI T P x st).bind fun ps => (U.read _).bind fun st => ?_
  split
  · split <;> first | exact U.lift _ | exact U.pure _
  · exact U.pure _

lemma u_electro (T P : ℝ) (x : String) (n : Int) : U I d (electro env T P x n) :=
  U.cached env (fun _ _ => rfl) ((u_getSub x).bind fun v => u_electroRec hI T P v n) (fun s h => hI.el _ s h)
    (fun s _ h _ => hI.el _ _ (((u_getSub (d := d) x).bind fun v => u_electroRec hI T P v n) s h).1)

lemma u_solventPS (T P : ℝ) : U I d (solventPS env T P) := (U.read _).bind fun y => u_propsSolvent hI T P y _
lemma u_solventEPS (T P : ℝ) : U I d (solventEPS env T P) := (U.read _).bind fun y => u_electro hI T P y _
omit hI in
lemma u_solventRec : U I d (solventRec env) := (U.read _).bind fun y => u_getSub y

lemma u_eosStep (T P : ℝ) (x : Subst) : U I d (eosStep env T P x) := by
  unfold eosStep
  split
  · exact U.pure _
  · exact U.lift _
  · exact (u_solventPS hI T P).bind fun _ => (u_solventEPS hI T P).bind fun _ => U.lift _
  · exact (u_solventPS hI T P).bind fun _ => (u_solventEPS hI T P).bind fun _ => U.lift _
  · exact u_solventRec.bind fun w => (u_solventPS hI _ _).bind fun _ => (u_solventPS hI T P).bind fun _ => U.lift _
  · exact u_solventRec.bind fun w => (u_solventPS hI _ _).bind fun _ => (u_solventPS hI T P).bind fun _ => U.lift _
  · exact U.pure _

omit hI in
lemma u_tStep (T P : ℝ) (x : Subst) (t : TPS) : U I d (tStep env T P x t) := by
  unfold tStep
  split
  · exact U.pure _
  · split
    · exact U.lift _
    · split
      · exact U.lift _
      · exact U.pure _
    · exact U.pure _

/-- The recursive calls the Akinfiev-Diamond case makes are fine. -/
lemma u_akiStep {r : Rec PS EPS} (hr : ∀ s, I s → ∀ T P, U I d (r.sub T P s.solventSymbol)) (T P : ℝ) (x : Subst) (t : TPS) :
    U I d (akiStep env r T P x t) := by
  unfold akiStep
  refine u_solventRec.bind fun w => U.bind_read fun s hs => (hr s hs T P).bind fun _ => (U.lift _).bind fun _ =>
    (u_solventPS hI T P).bind fun _ => (hr s hs _ _).bind fun _ => (U.lift _).bind fun _ => (u_solventPS hI _ _).bind fun _ => U.lift _

lemma u_pStep {r : Rec PS EPS} (T P : ℝ) (x : Subst) (t : TPS)
    (hr : x.gen ≠ .CON → x.mP = .AKI → ∀ s, I s → ∀ T P, U I d (r.sub T P s.solventSymbol)) : U I d (pStep env r T P x t) := by
  unfold pStep
  refine (U.read _).bind fun fl => ?_
  split
  · exact U.pure _
  · rename_i hg
    split <;> first | exact U.lift _ | exact U.pure _ | exact u_akiStep hI (hr hg (by assumption)) T P x t

omit hI in
lemma u_waterStep (T P : ℝ) (x : Subst) : U I d (waterStep env T P x) := by
  unfold waterStep
  refine (U.read _).bind fun st => ?_
  split
  · exact U.pure _
  · split <;> first | exact U.lift _ | (split <;> first | exact U.lift _ | exact U.pure _)

omit hI in
lemma u_convStep (x : Subst) (t : TPS) : U I d (convStep env x t) := by
  unfold convStep
  split
  · split
    · split
      · exact U.pure _
      · exact U.raise
    · exact U.pure _
  · split <;> exact U.pure _

lemma u_methodsStep {r : Rec PS EPS} (T P : ℝ) (x : Subst)
    (hr : x.gen ≠ .CON → x.mP = .AKI → ∀ s, I s → ∀ T P, U I d (r.sub T P s.solventSymbol)) : U I d (methodsStep env r T P x) := by
  unfold methodsStep
  refine U.bind ?_ fun t => u_convStep x t
  split
  · exact (u_eosStep hI T P x).bind fun a => (u_tStep T P x a).bind fun b => u_pStep hI T P x b hr
  · exact u_waterStep T P x

end Unary

section UnaryFlag

variable {env : Env PS EPS} {I : ESt PS EPS → Prop} {d : Prop} (hI : Stable env I)

include hI

lemma u_setFlag (b : Bool) : U I d (setFlag b : EM PS EPS Unit) := fun s h => ⟨hI.flag b s h, fun _ => trivial⟩

omit hI in
lemma u_subtractOthers {r : Rec PS EPS} (T P : ℝ) (own : String) (l : List (String × ℝ)) (t : TPS)
    (hr : ∀ e ∈ l, e.1 ≠ own → U I d (r.sub T P e.1)) : U I d (subtractOthers r T P own l t) := by
  induction l generalizing t with
  | nil => exact U.pure _
  | cons e l ih =>
    obtain ⟨y, c⟩ := e
    unfold subtractOthers
    have h' : ∀ e ∈ l, e.1 ≠ own → U I d (r.sub T P e.1) := fun e he => hr e (List.mem_cons_of_mem _ he)
    split
    · exact (hr (y, c) List.mem_cons_self (by assumption)).bind fun _ => ih _ h'
    · exact ih _ h'

/-- The recursive calls for a substance defined by a reaction are fine. -/
structure DCok (env : Env PS EPS) (I : ESt PS EPS → Prop) (d : Prop) (r : Rec PS EPS) (T P : ℝ) (x : Subst) : Prop where
  reac : x.reactionSymbol ≠ "" → ∀ re, env.db.reacs.lookup x.reactionSymbol = some re → U I d (r.reac T P x.reactionSymbol)
  others : x.reactionSymbol ≠ "" → ∀ re, env.db.reacs.lookup x.reactionSymbol = some re → ∀ e ∈ re.reactants, e.1 ≠ x.symbol → U I d (r.sub T P e.1)
  direct : x.reactionSymbol = "" → U I d (r.direct T P { x with gen := .CON })

lemma u_reacDC {r : Rec PS EPS} (T P : ℝ) (x : Subst) (hr : DCok env I d r T P x) : U I d (reacDC env r T P x) := by
  unfold reacDC
  refine (u_setFlag hI true).bind fun _ => ?_
  split
  · rename_i hne
    refine u_bind_getReac _ fun re hre => (hr.reac hne re hre).bind fun tpr => (u_subtractOthers T P _ _ _ (hr.others hne re hre)).bind fun t =>
      (u_setFlag hI false).bind fun _ => ?_
    simp only
    split
    · exact U.lift _
    · exact U.pure _
  · rename_i hne
    exact hr.direct (not_not.mp hne)

lemma u_substRec {r : Rec PS EPS} (T P : ℝ) (x : Subst) (hdc : x.symbol ≠ "H+" → x.isReacDC → DCok env I d r T P x)
    (hr : x.symbol ≠ "H+" → x.isReacDC = false → x.gen ≠ .CON → x.mP = .AKI → ∀ s, I s → ∀ T P, U I d (r.sub T P s.solventSymbol)) :
    U I d (substRec env r T P x) := by
  unfold substRec
  refine (u_setPrefs hI.toQuiet x).bind fun _ => ?_
  split
  · exact U.pure _
  · rename_i hH
    refine U.bind ?_ fun t => U.pure _
    split
    · rename_i h; exact u_reacDC hI T P x (hdc hH h)
    · rename_i h; exact u_methodsStep hI.toQuiet T P x (hr hH (by simpa using h))

omit hI in
lemma u_sumReactants {r : Rec PS EPS} (T P : ℝ) (sym : String) (l : List (String × ℝ)) (t : TPR)
    (hr : ∀ e ∈ l, (∀ v, env.db.subs.lookup e.1 = some v → ¬ (v.noMethods ∧ v.reactionSymbol = sym)) → U I d (r.sub T P e.1)) :
    U I d (sumReactants env r T P sym l t) := by
  induction l generalizing t with
  | nil => exact U.pure _
  | cons e l ih =>
    obtain ⟨y, c⟩ := e
    unfold sumReactants
    refine u_bind_getSub _ fun v hv => ?_
    split
    · exact U.raise
    · rename_i hn
      refine (hr (y, c) List.mem_cons_self ?_).bind fun ty => ih _ fun e he => hr e (List.mem_cons_of_mem _ he)
      intro w hw
      rw [hv] at hw
      injection hw with hw
      exact hw ▸ hn

/-- The recursive calls for a reaction computed from its reactants are fine. -/
def FRok (env : Env PS EPS) (I : ESt PS EPS → Prop) (d : Prop) (r : Rec PS EPS) (T P : ℝ) (x : Reac) : Prop :=
  ∀ e ∈ x.reactants, (∀ v, env.db.subs.lookup e.1 = some v → ¬ (v.noMethods ∧ v.reactionSymbol = x.symbol)) → U I d (r.sub T P e.1)

lemma u_reacFromReactants {r : Rec PS EPS} (T P : ℝ) (x : Reac) (hr : FRok env I d r T P x) : U I d (reacFromReactants env r T P x) :=
  (u_setFlag hI true).bind fun _ => (u_sumReactants T P _ _ _ hr).bind fun _ => (u_setFlag hI false).bind fun _ => U.pure _

omit hI in
lemma u_reacPStep (T P : ℝ) (x : Reac) (t : TPR) : U I d (reacPStep env T P x t) := by
  unfold reacPStep; split <;> first | exact U.lift _ | exact U.pure _

lemma u_reacRec {r : Rec PS EPS} (T P : ℝ) (x : Reac) (hr : x.fromReactants → FRok env I d r T P x) : U I d (reacRec env r T P x) := by
  unfold reacRec
  split
  · rename_i h; exact u_reacFromReactants hI T P x (hr h)
  · split
    · exact U.pure _
    · split <;> first
      | exact (U.lift _).bind fun _ => u_reacPStep T P x _
      | exact (u_solventPS hI.toQuiet T P).bind fun _ => (U.lift _).bind fun _ => u_reacPStep T P x _
      | exact (u_solventPS hI.toQuiet T P).bind fun _ => U.lift _
      | exact u_reacPStep T P x _

omit hI in
lemma u_ofEquation (x : String) : U I d (ofEquation x : EM PS EPS Reac) := by
  unfold ofEquation; split <;> first | exact U.pure _ | exact U.raise | exact U.lift _

/-- The reaction a query by symbol works on: the record of that name, or the one made from the text. -/
inductive Denotes (env : Env PS EPS) (x : String) : Reac → Prop
  | record (re : Reac) (h : env.db.reacs.lookup x = some re) : Denotes env x re
  | text (m : Equation.RMap) (h : env.db.reacs.lookup x = none) (he : '=' ∈ x.toList) (hm : Equation.fromEquation x.toList [] = .ok m) :
      Denotes env x ⟨x, m.map fun e => (String.ofList e.1, (e.2 : ℝ)), 298.15, 1e5, .unset, .unset, .unset, TPR.default, {}⟩

lemma u_reacSym {r : Rec PS EPS} (T P : ℝ) (x : String)
    (hr : ∀ re, Denotes env x re → re.fromReactants → FRok env I d r T P re) : U I d (reacSym env r T P x) := by
  unfold reacSym
  split
  · rename_i h
    have hn : env.db.reacs.lookup x = none := by simpa using h.1
    have he : '=' ∈ x.toList := by simpa using h.2
    unfold ofEquation
    split
    · rename_i m hm
      exact u_reacRec hI T P _ (hr _ (.text m hn he hm))
    · exact U.raise
    · exact fun s h => ⟨h, fun _ => trivial⟩
  · exact u_bind_getReac _ fun re hre => u_reacRec hI T P re (hr re (.record re hre))

/-- What a query for a substance does on a cache miss. -/
noncomputable def subBody (env : Env PS EPS) (n : Nat) (T P : ℝ) (y : String) : EM PS EPS TPS := do
  let v ← getSub env y
  substRec env (run env n) T P v

/-- A property of states kept by all calculations, whatever the depth. -/
lemma u_run (hev : ∀ s, I s → I { s with subC := Cache.evict env.maxCache s.subC }) (hreac : ∀ c s, I s → I { s with reacC := c })
    (hins : ∀ n T P y s v s', I s → I s' → (subBody env n T P y s).1 = .ok v → I { s' with subC := s'.subC.insert ⟨T, P, y⟩ v }) (n : Nat) :
    (∀ T P y, U I False ((run env n).sub T P y)) ∧ (∀ T P y, U I False ((run env n).reac T P y)) ∧
      (∀ T P x, U I False ((run env n).direct T P x)) := by
  induction n with
  | zero =>
    refine ⟨fun _ _ _ s h => ⟨h, fun h => h.elim⟩, fun _ _ _ s h => ⟨h, fun h => h.elim⟩, fun _ _ _ s h => ⟨h, fun h => h.elim⟩⟩
  | succ n ih =>
    obtain ⟨h1, h2, h3⟩ := ih
    have hs : ∀ T P x, U I False (substRec env (run env n) T P x) := fun T P x =>
      u_substRec hI T P x (fun _ _ => ⟨fun _ _ _ => h2 _ _ _, fun _ _ _ _ _ _ => h1 _ _ _, fun _ => h3 _ _ _⟩) (fun _ _ _ _ _ _ _ _ => h1 _ _ _)
    have hb : ∀ T P y, U I False (subBody env n T P y) := fun T P y => (u_getSub y).bind fun v => hs T P v
    refine ⟨fun T P y => U.cached env (fun _ _ => rfl) (hb T P y) hev ?_, fun T P y => U.cached env (fun _ _ => rfl)
      (u_reacSym hI T P y fun _ _ _ _ _ _ => h1 _ _ _) (fun s h => hreac _ s h) ?_, fun T P x => hs T P x⟩
    · intro s v h hv
      exact hins n T P y s v _ h (hb T P y s h).1 hv
    · intro s v h _
      exact hreac _ _ (u_reacSym hI T P y (fun _ _ _ _ _ _ => h1 _ _ _) s h).1

/-- Such a property holds after any history of queries. -/
lemma u_ask (hr : ∀ n, (∀ T P y, U I False ((run env n).sub T P y)) ∧ (∀ T P y, U I False ((run env n).reac T P y)) ∧
      (∀ T P x, U I False ((run env n).direct T P x))) (n : Nat) (q : Query) : U I False (ask env n q) := by
  obtain ⟨h1, h2, h3⟩ := hr n
  cases q <;> unfold ask
  · exact (h1 _ _ _).bind fun _ => U.pure _
  · exact (h3 _ _ _).bind fun _ => U.pure _
  · exact (h2 _ _ _).bind fun _ => U.pure _
  · exact (u_reacRec hI _ _ _ fun _ _ _ _ => h1 _ _ _).bind fun _ => U.pure _
  · exact (u_getReac _).bind fun _ => (u_reacFromReactants hI _ _ _ fun _ _ _ => h1 _ _ _).bind fun _ => U.pure _
  · exact (u_reacFromReactants hI _ _ _ fun _ _ _ => h1 _ _ _).bind fun _ => U.pure _
  · exact (u_propsSolvent hI.toQuiet _ _ _ _).bind fun _ => U.pure _
  · exact (u_propsSolventRec hI.toQuiet _ _ _ _).bind fun _ => U.pure _
  · exact (u_electro hI.toQuiet _ _ _ _).bind fun _ => U.pure _
  · exact (u_electroRec hI.toQuiet _ _ _ _).bind fun _ => U.pure _

omit hI in
lemma after_keeps (n : Nat) (h : ∀ q, U I False (ask env n q)) (qs : List Query) (s : ESt PS EPS) (hs : I s) : I (after env n s qs) := by
  induction qs generalizing s with
  | nil => exact hs
  | cons q qs ih => exact ih _ (h q s hs).1

end UnaryFlag

end ThermoFun.Engine

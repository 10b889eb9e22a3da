import Verif.Lemmas.Engine

/-!
Agreement of the engine with caches and the engine without caches.
-/

namespace ThermoFun.Engine

variable {PS EPS : Type}

/-- The same engine without caches. -/
def off (env : Env PS EPS) : Env PS EPS := { env with memo := false }

/-- `m` agrees with the calculations `m' j` for recursion depth `j`: from states with `G1` and `p`, and `G2` and `p`,
* (if `a`) a result of `m` is the result of `m' j` for all large `j`,
* a result of `m' n` is the result of `m`,
* the properties `G1`, `G2` of the states are kept. -/
def RL (a : Prop) (n : Nat) (G1 G2 p : ESt PS EPS → Prop) {α : Type} (m : EM PS EPS α) (m' : Nat → EM PS EPS α) : Prop :=
  ∀ s, G1 s → p s → G1 (m s).2 ∧
    (a → (m s).1.fine → ∃ j0, ∀ j ≥ j0, ∀ s', G2 s' → p s' → (m' j s').1 = (m s).1) ∧
    (∀ s', G2 s' → p s' → (m' n s').1.fine → (m s).1 = (m' n s').1) ∧
    (∀ j s', G2 s' → p s' → G2 (m' j s').2)

namespace RL

variable {a : Prop} {n : Nat} {G1 G2 p : ESt PS EPS → Prop} {α β : Type}

lemma const {o : Out α} : RL a n G1 G2 p (fun s => (o, s)) (fun _ s => (o, s)) := fun _ h _ =>
  ⟨h, fun _ _ => ⟨0, fun _ _ _ _ _ => rfl⟩, fun _ _ _ _ => rfl, fun _ _ h _ => h⟩
lemma pure (v : α) : RL a n G1 G2 p (Pure.pure v) (fun _ => Pure.pure v) := const
lemma raise : RL a n G1 G2 p (EM.raise : EM PS EPS α) (fun _ => EM.raise) := const
lemma lift (o : Res α) : RL a n G1 G2 p (EM.lift o : EM PS EPS α) (fun _ => EM.lift o) := by
  cases o <;> exact const

lemma weaken {m : EM PS EPS α} {m' : Nat → EM PS EPS α} (h : RL a n G1 G2 (fun _ => True) m m') : RL a n G1 G2 p m m' := by
  intro s h1 _
  obtain ⟨x, y, z, w⟩ := h s h1 trivial
  exact ⟨x, fun ha hf => (y ha hf).imp fun j0 hj j hl s' h2 _ => hj j hl s' h2 trivial, fun s' h2 _ => z s' h2 trivial,
    fun j s' h2 _ => w j s' h2 trivial⟩

lemma bind {m : EM PS EPS α} {m' : Nat → EM PS EPS α} {f : α → EM PS EPS β} {f' : Nat → α → EM PS EPS β}
    (hm : RL a n G1 G2 p m m') (hf : ∀ v, RL a n G1 G2 (fun _ => True) (f v) (fun j => f' j v)) :
    RL a n G1 G2 p (m >>= f) (fun j => m' j >>= f' j) := by
  intro s h1 hp
  obtain ⟨x, y, z, w⟩ := hm s h1 hp
  show G1 (EM.bind m f s).2 ∧ (a → (EM.bind m f s).1.fine → ∃ j0, ∀ j ≥ j0, ∀ s', G2 s' → p s' →
    (EM.bind (m' j) (f' j) s').1 = (EM.bind m f s).1) ∧
    (∀ s', G2 s' → p s' → (EM.bind (m' n) (f' n) s').1.fine → (EM.bind m f s).1 = (EM.bind (m' n) (f' n) s').1) ∧
    (∀ j s', G2 s' → p s' → G2 (EM.bind (m' j) (f' j) s').2)
  have hw : ∀ j s', G2 s' → p s' → G2 (EM.bind (m' j) (f' j) s').2 := by
    intro j s' h2 hp'
    have := w j s' h2 hp'
    unfold EM.bind
    rcases he : m' j s' with ⟨o, t⟩
    rw [he] at this
    cases o with
    | ok v => exact (hf v s h1 trivial |>.2.2.2) j t this trivial
    | throw => exact this
    | ub => exact this
    | deep => exact this
  refine ⟨?_, ?_, ?_, hw⟩
  · unfold EM.bind
    rcases he : m s with ⟨o, t⟩
    rw [he] at x
    cases o with
    | ok v => exact (hf v t x trivial).1
    | throw => exact x
    | ub => exact x
    | deep => exact x
  · intro ha hfine
    unfold EM.bind at hfine ⊢
    rcases he : m s with ⟨o, t⟩
    rw [he] at x y hfine
    cases o with
    | ok v =>
      obtain ⟨j1, hj1⟩ := y ha trivial
      obtain ⟨j2, hj2⟩ := (hf v t x trivial).2.1 ha hfine
      refine ⟨max j1 j2, fun j hj s' h2 hp' => ?_⟩
      have e1 := hj1 j (le_trans (le_max_left _ _) hj) s' h2 hp'
      have e3 := w j s' h2 hp'
      rcases he' : m' j s' with ⟨o', t'⟩
      rw [he'] at e1 e3
      simp only at e1
      subst e1
      exact hj2 j (le_trans (le_max_right _ _) hj) t' e3 trivial
    | throw =>
      obtain ⟨j1, hj1⟩ := y ha trivial
      refine ⟨j1, fun j hj s' h2 hp' => ?_⟩
      have e1 := hj1 j hj s' h2 hp'
      rcases he' : m' j s' with ⟨o', t'⟩
      rw [he'] at e1
      simp only at e1
      subst e1
      rfl
    | ub =>
      obtain ⟨j1, hj1⟩ := y ha trivial
      refine ⟨j1, fun j hj s' h2 hp' => ?_⟩
      have e1 := hj1 j hj s' h2 hp'
      rcases he' : m' j s' with ⟨o', t'⟩
      rw [he'] at e1
      simp only at e1
      subst e1
      rfl
    | deep => exact hfine.elim
  · intro s' h2 hp' hfine
    have e1 := z s' h2 hp'
    have e3 := w n s' h2 hp'
    unfold EM.bind at hfine ⊢
    rcases he' : m' n s' with ⟨o', t'⟩
    rcases he : m s with ⟨o, t⟩
    rw [he'] at e1 e3 hfine
    rw [he] at e1 x
    cases o' with
    | ok v =>
      have e1 := e1 trivial
      simp only at e1
      subst e1
      exact (hf v t x trivial).2.2.1 t' e3 trivial hfine
    | throw => have e1 := e1 trivial; simp only at e1; subst e1; rfl
    | ub => have e1 := e1 trivial; simp only at e1; subst e1; rfl
    | deep => exact hfine.elim

/-- A value both states agree on is read. -/
lemma bind_read {g : ESt PS EPS → α} {c : α} {f : α → EM PS EPS β} {f' : Nat → α → EM PS EPS β} (h1 : ∀ s, G1 s → p s → g s = c)
    (h2 : ∀ s, G2 s → p s → g s = c) (hf : RL a n G1 G2 p (f c) (fun j => f' j c)) :
    RL a n G1 G2 p (EM.read g >>= f) (fun j => EM.read g >>= f' j) := by
  have e1 : ∀ s, G1 s → p s → (EM.read g >>= f) s = f c s := fun s h hp => by
    show EM.bind (EM.read g) f s = _
    simp only [EM.bind, EM.read, h1 s h hp]
  have e2 : ∀ j s, G2 s → p s → (EM.read g >>= f' j) s = f' j c s := fun j s h hp => by
    show EM.bind (EM.read g) (f' j) s = _
    simp only [EM.bind, EM.read, h2 s h hp]
  intro s h hp
  obtain ⟨x, y, z, w⟩ := hf s h hp
  rw [e1 s h hp]
  refine ⟨x, fun ha hfi => ?_, fun s' hs hp' hfi => ?_, fun j s' hs hp' => ?_⟩
  · obtain ⟨j0, hj⟩ := y ha hfi
    exact ⟨j0, fun j hl s' hs hp' => (congrArg Prod.fst (e2 j s' hs hp')).trans (hj j hl s' hs hp')⟩
  · have e := congrArg Prod.fst (e2 n s' hs hp')
    exact (z s' hs hp' (e ▸ hfi)).trans e.symm
  · have e := congrArg Prod.snd (e2 j s' hs hp')
    exact e ▸ w j s' hs hp'

/-- A value that does not matter is read. -/
lemma bind_read_any {g : ESt PS EPS → α} {f : α → EM PS EPS β} {f' : Nat → α → EM PS EPS β} {F : EM PS EPS β} {F' : Nat → EM PS EPS β}
    (e : ∀ c, f c = F) (e' : ∀ j c, f' j c = F' j) (hf : RL a n G1 G2 p F F') :
    RL a n G1 G2 p (EM.read g >>= f) (fun j => EM.read g >>= f' j) := by
  have e1 : (EM.read g >>= f) = F := by
    funext s
    show EM.bind (EM.read g) f s = _
    simp only [EM.bind, EM.read, e]
  have e2 : ∀ j, (EM.read g >>= f' j) = F' j := fun j => by
    funext s
    show EM.bind (EM.read g) (f' j) s = _
    simp only [EM.bind, EM.read, e']
  rw [e1]
  simp only [e2]
  exact hf

end RL

/-- Properties of states kept by the changes of preferences, which fix the solvent symbol. -/
structure Fixes (env : Env PS EPS) (w : String) (G : ESt PS EPS → Prop) : Prop where
  prefs : ∀ x s, G s → G (setPrefs env x s).2
  state : ∀ n s, G s → G { s with solventState := n }
  flag : ∀ b s, G s → G { s with pcorr := b }
  sym : ∀ s, G s → s.solventSymbol = w

/-- The state of the solvent after `getThermoPreferencesSubstance` and the override by the argument. -/
def stOf (x : Subst) (n : Int) : Int := if -1 < n ∧ n < 2 then n else if x.gas then 1 else 0

/-- The gas models a record uses do not look at the flag. -/
structure FlagFree (mods : Models PS EPS) (x : Subst) : Prop where
  cork : x.mP = .CORK → ∀ T P t b, mods.cork x T P t b = mods.cork x T P t false
  prsv : x.mP = .PRSV → ∀ T P t b, mods.prsv x T P t b = mods.prsv x T P t false
  emp : x.mP = .EMP → ∀ T P t b, mods.emp x T P t b = mods.emp x T P t false
  srk : x.mP = .SRK → ∀ T P t b, mods.srk x T P t b = mods.srk x T P t false
  pr78 : x.mP = .PR78 → ∀ T P t b, mods.pr78 x T P t b = mods.pr78 x T P t false
  stp : x.mP = .STP → ∀ T P t b, mods.stp x T P t b = mods.stp x T P t false
  off : x.mP = .OFF → ∀ T P t b, mods.off x T P t b = mods.off x T P t false

/-- Outcome of a numeric model. -/
def ofRes {α : Type} : Res α → Out α
  | .ok a => .ok a
  | .throw => .throw
  | .ub => .ub

/-- The answer of `propertiesSolvent`, whatever the state of the engine. -/
def propsVal (env : Env PS EPS) (T P : ℝ) (x : Subst) (n : Int) : Out PS :=
  if x.isSolvent then
    match x.mT with
    | .WAT => ofRes (env.mods.watPS x T P (stOf x n))
    | .WAR => ofRes (env.mods.warPS x T P (stOf x n))
    | .WWP => ofRes (env.mods.wwpPS x T P (stOf x n))
    | .WZD => ofRes (env.mods.wzdPS x T P (stOf x n))
    | _ => .ok env.mods.ps0
  else .ok env.mods.ps0

lemma lift_apply {α : Type} (o : Res α) (s : ESt PS EPS) : EM.lift o s = (ofRes o, s) := by cases o <;> rfl

lemma setPrefs_state (env : Env PS EPS) (x : Subst) (s : ESt PS EPS) : (setPrefs env x s).2.solventState = if x.gas then 1 else 0 := by
  simp only [setPrefs, EM.change]
  split
  · split <;> rfl
  · rfl

/-- The state after `getThermoPreferencesSubstance` and the override. -/
def prefState (env : Env PS EPS) (x : Subst) (n : Int) (s : ESt PS EPS) : ESt PS EPS :=
  { (setPrefs env x s).2 with solventState := stOf x n }

lemma setState_after (env : Env PS EPS) (x : Subst) (n : Int) (s : ESt PS EPS) :
    (setState n (setPrefs env x s).2).2 = prefState env x n s := by
  have h := setPrefs_state env x s
  simp only [setState, EM.change, prefState, stOf]
  split
  · rfl
  · rw [← h]

lemma propsSolventRec_apply (env : Env PS EPS) (T P : ℝ) (x : Subst) (n : Int) (s : ESt PS EPS) :
    propsSolventRec env T P x n s = (propsVal env T P x n, prefState env x n s) := by
  have h : propsSolventRec env T P x n s = (if x.isSolvent then
    match x.mT with
    | .WAT => EM.lift (env.mods.watPS x T P (setState n (setPrefs env x s).2).2.solventState)
    | .WAR => EM.lift (env.mods.warPS x T P (setState n (setPrefs env x s).2).2.solventState)
    | .WWP => EM.lift (env.mods.wwpPS x T P (setState n (setPrefs env x s).2).2.solventState)
    | .WZD => EM.lift (env.mods.wzdPS x T P (setState n (setPrefs env x s).2).2.solventState)
    | _ => Pure.pure env.mods.ps0
    else Pure.pure env.mods.ps0 : EM PS EPS PS) (setState n (setPrefs env x s).2).2 := rfl
  rw [h, setState_after]
  simp only [propsVal]
  have h0 : (prefState env x n s).solventState = stOf x n := rfl
  rw [h0]
  split
  · cases x.mT <;> first | exact lift_apply _ _ | rfl
  · rfl

/-- The answer of `electroPropertiesSolvent`, whatever the state of the engine. -/
def electroVal (env : Env PS EPS) (T P : ℝ) (x : Subst) (n : Int) : Out EPS :=
  match propsVal env T P x (stOf x n) with
  | .ok ps =>
    if x.isSolvent then
      match x.gen with
      | .WJNR => ofRes (env.mods.wjnr x T P ps (stOf x n))
      | .WJNG => ofRes (env.mods.wjng x T P (stOf x n))
      | .WSV14 => ofRes (env.mods.wsv14 x T P (stOf x n))
      | .WF97 => ofRes (env.mods.wf97 x T P (stOf x n))
      | _ => .ok env.mods.eps0
    else .ok env.mods.eps0
  | .throw => .throw
  | .ub => .ub
  | .deep => .deep

lemma stOf_stOf (x : Subst) (n : Int) : stOf x (stOf x n) = stOf x n := by
  unfold stOf
  split
  · rfl
  · cases x.gas <;> simp

lemma electroRec_apply (env : Env PS EPS) (T P : ℝ) (x : Subst) (n : Int) (s : ESt PS EPS) :
    electroRec env T P x n s = (electroVal env T P x n, prefState env x (stOf x n) (prefState env x n s)) := by
  have h : electroRec env T P x n s = EM.bind (propsSolventRec env T P x (setState n (setPrefs env x s).2).2.solventState)
    (fun ps s => (if x.isSolvent then
    match x.gen with
    | .WJNR => EM.lift (env.mods.wjnr x T P ps s.solventState)
    | .WJNG => EM.lift (env.mods.wjng x T P s.solventState)
    | .WSV14 => EM.lift (env.mods.wsv14 x T P s.solventState)
    | .WF97 => EM.lift (env.mods.wf97 x T P s.solventState)
    | _ => Pure.pure env.mods.eps0
    else Pure.pure env.mods.eps0 : EM PS EPS EPS) s) (setState n (setPrefs env x s).2).2 := rfl
  rw [h, setState_after]
  have h0 : (prefState env x n s).solventState = stOf x n := rfl
  rw [h0]
  simp only [EM.bind, propsSolventRec_apply, electroVal]
  have h1 : ∀ s, (prefState env x (stOf x n) s).solventState = stOf x n := fun s => stOf_stOf x n
  split
  · rename_i a t he
    injection he with ha ht
    subst ht
    simp only [h1, ha]
    split
    · cases x.gen <;> first | exact lift_apply _ _ | rfl
    · rfl
  · rename_i t he
    injection he with ha ht
    simp only [ha, ← ht]
  · rename_i t he
    injection he with ha ht
    simp only [ha, ← ht]
  · rename_i t he
    injection he with ha ht
    simp only [ha, ← ht]

/-- Abbreviation: no condition on the states. -/
abbrev RT (a : Prop) (n : Nat) (G1 G2 : ESt PS EPS → Prop) {α : Type} (m : EM PS EPS α) (m' : Nat → EM PS EPS α) : Prop :=
  RL a n G1 G2 (fun _ => True) m m'

section Walk

variable {env : Env PS EPS} {a : Prop} {n : Nat} {G1 G2 : ESt PS EPS → Prop} {w : String}

lemma rl_change {f : ESt PS EPS → ESt PS EPS} (h1 : ∀ s, G1 s → G1 (f s)) (h2 : ∀ s, G2 s → G2 (f s)) :
    RT a n G1 G2 (EM.change f) (fun _ => EM.change f) := fun s h _ =>
  ⟨h1 s h, fun _ _ => ⟨0, fun _ _ _ _ _ => rfl⟩, fun _ _ _ _ => rfl, fun _ s h _ => h2 s h⟩

lemma rl_setFlag (h1 : Fixes env w G1) (h2 : Fixes env w G2) (b : Bool) : RT a n G1 G2 (setFlag b) (fun _ => setFlag b) :=
  rl_change (h1.flag b) (h2.flag b)

lemma rl_bind_getSub {α : Type} (x : String) {f : Subst → EM PS EPS α} {f' : Nat → Subst → EM PS EPS α}
    (hf : ∀ v, env.db.subs.lookup x = some v → RT a n G1 G2 (f v) (fun j => f' j v)) :
    RT a n G1 G2 (getSub env x >>= f) (fun j => getSub (off env) x >>= f' j) := by
  have e : getSub (off env) x = getSub env x := rfl
  rw [e]
  unfold getSub; split
  · rename_i v hv; exact hf v hv
  · exact RL.raise

lemma rl_bind_getReac {α : Type} (x : String) {f : Reac → EM PS EPS α} {f' : Nat → Reac → EM PS EPS α}
    (hf : ∀ v, env.db.reacs.lookup x = some v → RT a n G1 G2 (f v) (fun j => f' j v)) :
    RT a n G1 G2 (getReac env x >>= f) (fun j => getReac (off env) x >>= f' j) := by
  have e : getReac (off env) x = getReac env x := rfl
  rw [e]
  unfold getReac; split
  · rename_i v hv; exact hf v hv
  · exact RL.raise

lemma rl_propsSolventRec (h1 : Fixes env w G1) (h2 : Fixes env w G2) (T P : ℝ) (x : Subst) (k : Int) :
    RT a n G1 G2 (propsSolventRec env T P x k) (fun _ => propsSolventRec (off env) T P x k) := by
  intro s h _
  have e : ∀ s, propsSolventRec (off env) T P x k s = propsSolventRec env T P x k s := fun _ => rfl
  refine ⟨?_, fun _ _ => ⟨0, fun _ _ s' _ _ => ?_⟩, fun s' _ _ _ => ?_, fun _ s' h' _ => ?_⟩
  · exact (congrArg (fun z => G1 z.2) (propsSolventRec_apply env T P x k s)).mpr (h1.state _ _ (h1.prefs x s h))
  · exact (congrArg Prod.fst (e s')).trans ((congrArg Prod.fst (propsSolventRec_apply env T P x k s')).trans (congrArg Prod.fst (propsSolventRec_apply env T P x k s)).symm)
  · exact (congrArg Prod.fst (propsSolventRec_apply env T P x k s)).trans ((congrArg Prod.fst (e s')).trans (congrArg Prod.fst (propsSolventRec_apply env T P x k s'))).symm
  · exact (congrArg (fun z => G2 z.2) ((e s').trans (propsSolventRec_apply env T P x k s'))).mpr (h2.state _ _ (h2.prefs x s' h'))

lemma rl_electroRec (h1 : Fixes env w G1) (h2 : Fixes env w G2) (T P : ℝ) (x : Subst) (k : Int) :
    RT a n G1 G2 (electroRec env T P x k) (fun _ => electroRec (off env) T P x k) := by
  intro s h _
  have e : ∀ s, electroRec (off env) T P x k s = electroRec env T P x k s := fun _ => rfl
  refine ⟨?_, fun _ _ => ⟨0, fun _ _ s' _ _ => ?_⟩, fun s' _ _ _ => ?_, fun _ s' h' _ => ?_⟩
  · exact (congrArg (fun z => G1 z.2) (electroRec_apply env T P x k s)).mpr (h1.state _ _ (h1.prefs x _ (h1.state _ _ (h1.prefs x s h))))
  · exact (congrArg Prod.fst (e s')).trans ((congrArg Prod.fst (electroRec_apply env T P x k s')).trans (congrArg Prod.fst (electroRec_apply env T P x k s)).symm)
  · exact (congrArg Prod.fst (electroRec_apply env T P x k s)).trans ((congrArg Prod.fst (e s')).trans (congrArg Prod.fst (electroRec_apply env T P x k s'))).symm
  · exact (congrArg (fun z => G2 z.2) ((e s').trans (electroRec_apply env T P x k s'))).mpr (h2.state _ _ (h2.prefs x _ (h2.state _ _ (h2.prefs x s' h'))))

/-- What the walk needs: the fixed solvent, and agreement of the cached solvent functions and of the recursive calls. -/
structure Ctx (env : Env PS EPS) (a : Prop) (n : Nat) (G1 G2 : ESt PS EPS → Prop) (w : String) (r : Rec PS EPS) (r' : Nat → Rec PS EPS) :
    Prop where
  g1 : Fixes env w G1
  g2 : Fixes env w G2
  ps : ∀ T P y k, RT a n G1 G2 (propsSolvent env T P y k) (fun _ => propsSolvent (off env) T P y k)
  el : ∀ T P y k, RT a n G1 G2 (electro env T P y k) (fun _ => electro (off env) T P y k)
  sub : ∀ T P y, RT a n G1 G2 (r.sub T P y) (fun j => (r' j).sub T P y)
  reac : ∀ T P y, RT a n G1 G2 (r.reac T P y) (fun j => (r' j).reac T P y)
  direct : ∀ T P x, FlagFree env.mods x ∨ x.gen = .CON → RT a n G1 G2 (r.direct T P x) (fun j => (r' j).direct T P x)

variable {r : Rec PS EPS} {r' : Nat → Rec PS EPS} (c : Ctx env a n G1 G2 w r r')

include c

lemma rl_bind_sym {β : Type} {f : String → EM PS EPS β} {f' : Nat → String → EM PS EPS β}
    (hf : RT a n G1 G2 (f w) (fun j => f' j w)) :
    RT a n G1 G2 (EM.read (·.solventSymbol) >>= f) (fun j => EM.read (·.solventSymbol) >>= f' j) :=
  RL.bind_read (fun s h _ => c.g1.sym s h) (fun s h _ => c.g2.sym s h) hf

lemma rl_solventPS (T P : ℝ) : RT a n G1 G2 (solventPS env T P) (fun _ => solventPS (off env) T P) :=
  rl_bind_sym c (c.ps T P w (-1))
lemma rl_solventEPS (T P : ℝ) : RT a n G1 G2 (solventEPS env T P) (fun _ => solventEPS (off env) T P) :=
  rl_bind_sym c (c.el T P w (-1))

lemma rl_solventRec : RT a n G1 G2 (solventRec env) (fun _ => solventRec (off env)) := by
  refine rl_bind_sym c (f := getSub env) (f' := fun _ => getSub (off env)) ?_
  have e : getSub (off env) w = getSub env w := rfl
  rw [e]
  unfold getSub; split
  · exact RL.pure _
  · exact RL.raise

lemma rl_eosStep (T P : ℝ) (x : Subst) : RT a n G1 G2 (eosStep env T P x) (fun _ => eosStep (off env) T P x) := by
  unfold eosStep
  split
  · exact RL.pure _
  · exact RL.lift _
  · exact (rl_solventPS c T P).bind fun _ => (rl_solventEPS c T P).bind fun _ => RL.lift _
  · exact (rl_solventPS c T P).bind fun _ => (rl_solventEPS c T P).bind fun _ => RL.lift _
  · exact (rl_solventRec c).bind fun w => (rl_solventPS c _ _).bind fun _ => (rl_solventPS c T P).bind fun _ => RL.lift _
  · exact (rl_solventRec c).bind fun w => (rl_solventPS c _ _).bind fun _ => (rl_solventPS c T P).bind fun _ => RL.lift _
  · exact RL.pure _

omit c in
lemma rl_tStep (T P : ℝ) (x : Subst) (t : TPS) : RT a n G1 G2 (tStep env T P x t) (fun _ => tStep (off env) T P x t) := by
  unfold tStep
  split
  · exact RL.pure _
  · split
    · exact RL.lift _
    · split
      · exact RL.lift _
      · exact RL.pure _
    · exact RL.pure _

lemma rl_akiStep (T P : ℝ) (x : Subst) (t : TPS) :
    RT a n G1 G2 (akiStep env r T P x t) (fun j => akiStep (off env) (r' j) T P x t) := by
  unfold akiStep
  exact (rl_solventRec c).bind fun v => rl_bind_sym c <| (c.sub T P w).bind fun _ => (RL.lift _).bind fun _ =>
    (rl_solventPS c T P).bind fun _ => (c.sub _ _ _).bind fun _ => (RL.lift _).bind fun _ => (rl_solventPS c _ _).bind fun _ => RL.lift _

lemma rl_pStep (T P : ℝ) (x : Subst) (t : TPS) (hx : FlagFree env.mods x ∨ x.gen = .CON) :
    RT a n G1 G2 (pStep env r T P x t) (fun j => pStep (off env) (r' j) T P x t) := by
  have e : ∀ (E : Env PS EPS), E.mods = env.mods → ∀ (b : Bool) (r : Rec PS EPS), (if x.gen = .CON then (pure t : EM PS EPS TPS)
      else match x.mP with
        | .AKI => akiStep E r T P x t
        | .CEH => EM.lift (E.mods.ceh x T P t)
        | .VBE => EM.lift (E.mods.vbe x T P t)
        | .VBM => EM.lift (E.mods.vbm x T P t)
        | .CORK => EM.lift (E.mods.cork x T P t b)
        | .PRSV => EM.lift (E.mods.prsv x T P t b)
        | .EMP => EM.lift (E.mods.emp x T P t b)
        | .SRK => EM.lift (E.mods.srk x T P t b)
        | .PR78 => EM.lift (E.mods.pr78 x T P t b)
        | .STP => EM.lift (E.mods.stp x T P t b)
        | .OFF => EM.lift (E.mods.off x T P t b)
        | .CON => EM.lift (E.mods.con x T P t)
        | _ => pure t) = (if x.gen = .CON then (pure t : EM PS EPS TPS)
      else match x.mP with
        | .AKI => akiStep E r T P x t
        | .CEH => EM.lift (E.mods.ceh x T P t)
        | .VBE => EM.lift (E.mods.vbe x T P t)
        | .VBM => EM.lift (E.mods.vbm x T P t)
        | .CORK => EM.lift (E.mods.cork x T P t false)
        | .PRSV => EM.lift (E.mods.prsv x T P t false)
        | .EMP => EM.lift (E.mods.emp x T P t false)
        | .SRK => EM.lift (E.mods.srk x T P t false)
        | .PR78 => EM.lift (E.mods.pr78 x T P t false)
        | .STP => EM.lift (E.mods.stp x T P t false)
        | .OFF => EM.lift (E.mods.off x T P t false)
        | .CON => EM.lift (E.mods.con x T P t)
        | _ => pure t) := by
    intro E hE b r
    split
    · rfl
    · rename_i hg
      have hx := hx.resolve_right hg
      rw [← hE] at hx
      split <;> first
        | rfl
        | rw [hx.cork (by assumption)]
        | rw [hx.prsv (by assumption)]
        | rw [hx.emp (by assumption)]
        | rw [hx.srk (by assumption)]
        | rw [hx.pr78 (by assumption)]
        | rw [hx.stp (by assumption)]
        | rw [hx.off (by assumption)]
  unfold pStep
  refine RL.bind_read_any (fun b => e env rfl b r) (fun j b => e (off env) rfl b (r' j)) ?_
  split
  · exact RL.pure _
  · split <;> first | exact RL.lift _ | exact RL.pure _ | exact rl_akiStep c T P x t

omit c in
/-- The water branch, in states with the same solvent state. -/
lemma rl_waterStep (T P : ℝ) (x : Subst) (k : Int) :
    RL a n G1 G2 (fun s => s.solventState = k) (waterStep env T P x) (fun _ => waterStep (off env) T P x) := by
  unfold waterStep
  refine RL.bind_read (c := k) (fun s _ h => h) (fun s _ h => h) ?_
  split
  · exact RL.pure _
  · split <;> first | exact RL.lift _ | (split <;> first | exact RL.lift _ | exact RL.pure _)

omit c in
lemma rl_convStep (x : Subst) (t : TPS) : RT a n G1 G2 (convStep env x t) (fun _ => convStep (off env) x t) := by
  have e : convStep (off env) x t = convStep env x t := rfl
  rw [e]
  have : ∃ o, convStep env x t = fun s => (o, s) := by
    unfold convStep
    split
    · split
      · split
        · exact ⟨_, rfl⟩
        · exact ⟨_, rfl⟩
      · exact ⟨_, rfl⟩
    · split <;> exact ⟨_, rfl⟩
  obtain ⟨o, ho⟩ := this
  rw [ho]
  exact RL.const

lemma rl_methodsStep (T P : ℝ) (x : Subst) (hx : FlagFree env.mods x ∨ x.gen = .CON) (k : Int) :
    RL a n G1 G2 (fun s => s.solventState = k) (methodsStep env r T P x) (fun j => methodsStep (off env) (r' j) T P x) := by
  unfold methodsStep
  refine RL.bind ?_ fun t => rl_convStep x t
  split
  · exact RL.weaken ((rl_eosStep c T P x).bind fun a => (rl_tStep T P x a).bind fun b => rl_pStep c T P x b hx)
  · exact rl_waterStep T P x k

lemma rl_subtractOthers (T P : ℝ) (own : String) (l : List (String × ℝ)) (t : TPS) :
    RT a n G1 G2 (subtractOthers r T P own l t) (fun j => subtractOthers (r' j) T P own l t) := by
  induction l generalizing t with
  | nil => exact RL.pure _
  | cons e l ih =>
    obtain ⟨y, q⟩ := e
    unfold subtractOthers
    split
    · exact (c.sub T P y).bind fun _ => ih _
    · exact ih _

lemma rl_reacDC (T P : ℝ) (x : Subst) : RT a n G1 G2 (reacDC env r T P x) (fun j => reacDC (off env) (r' j) T P x) := by
  unfold reacDC
  refine (rl_setFlag c.g1 c.g2 true).bind fun _ => ?_
  split
  · refine rl_bind_getReac _ fun re _ => (c.reac T P _).bind fun tpr => (rl_subtractOthers c T P _ _ _).bind fun t =>
      (rl_setFlag c.g1 c.g2 false).bind fun _ => ?_
    simp only
    split
    · exact RL.lift _
    · exact RL.pure _
  · exact c.direct T P _ (Or.inr rfl)

lemma rl_substRec (T P : ℝ) (x : Subst) (hx : FlagFree env.mods x ∨ x.gen = .CON) :
    RT a n G1 G2 (substRec env r T P x) (fun j => substRec (off env) (r' j) T P x) := by
  have key : RL a n G1 G2 (fun s => s.solventState = if x.gas then 1 else 0)
      (if x.symbol = "H+" then pure zeroTPS else do
        let t ← (if x.isReacDC then reacDC env r T P x else methodsStep env r T P x)
        pure (fallback env.fallback t x))
      (fun j => if x.symbol = "H+" then pure zeroTPS else do
        let t ← (if x.isReacDC then reacDC (off env) (r' j) T P x else methodsStep (off env) (r' j) T P x)
        pure (fallback env.fallback t x)) := by
    by_cases hH : x.symbol = "H+"
    · simp only [if_pos hH]; exact RL.pure _
    · simp only [if_neg hH]
      refine RL.bind ?_ fun t => RL.pure _
      by_cases hR : x.isReacDC = true
      · simp only [if_pos hR]; exact RL.weaken (rl_reacDC c T P x)
      · simp only [if_neg hR]; exact rl_methodsStep c T P x hx _
  intro s h _
  obtain ⟨x1, y, z, v⟩ := key _ (c.g1.prefs x s h) (setPrefs_state env x s)
  exact ⟨x1, fun ha hf => (y ha hf).imp fun j0 hj j hl s' h2 _ => hj j hl _ (c.g2.prefs x s' h2) (setPrefs_state env x s'),
    fun s' h2 _ hf => z _ (c.g2.prefs x s' h2) (setPrefs_state env x s') hf,
    fun j s' h2 _ => v j _ (c.g2.prefs x s' h2) (setPrefs_state env x s')⟩

lemma rl_sumReactants (T P : ℝ) (sym : String) (l : List (String × ℝ)) (t : TPR) :
    RT a n G1 G2 (sumReactants env r T P sym l t) (fun j => sumReactants (off env) (r' j) T P sym l t) := by
  induction l generalizing t with
  | nil => exact RL.pure _
  | cons e l ih =>
    obtain ⟨y, q⟩ := e
    unfold sumReactants
    refine rl_bind_getSub _ fun v _ => ?_
    split
    · exact RL.raise
    · exact (c.sub T P y).bind fun _ => ih _

lemma rl_reacFromReactants (T P : ℝ) (x : Reac) :
    RT a n G1 G2 (reacFromReactants env r T P x) (fun j => reacFromReactants (off env) (r' j) T P x) :=
  (rl_setFlag c.g1 c.g2 true).bind fun _ => (rl_sumReactants c T P _ _ _).bind fun _ => (rl_setFlag c.g1 c.g2 false).bind fun _ =>
    RL.pure _

omit c in
lemma rl_reacPStep (T P : ℝ) (x : Reac) (t : TPR) : RT a n G1 G2 (reacPStep env T P x t) (fun _ => reacPStep (off env) T P x t) := by
  unfold reacPStep; split <;> first | exact RL.lift _ | exact RL.pure _

lemma rl_reacRec (T P : ℝ) (x : Reac) : RT a n G1 G2 (reacRec env r T P x) (fun j => reacRec (off env) (r' j) T P x) := by
  unfold reacRec
  split
  · exact rl_reacFromReactants c T P x
  · split
    · exact RL.pure _
    · split <;> first
      | exact (RL.lift _).bind fun _ => rl_reacPStep T P x _
      | exact (rl_solventPS c T P).bind fun _ => (RL.lift _).bind fun _ => rl_reacPStep T P x _
      | exact (rl_solventPS c T P).bind fun _ => RL.lift _
      | exact rl_reacPStep T P x _

lemma rl_reacSym (T P : ℝ) (x : String) : RT a n G1 G2 (reacSym env r T P x) (fun j => reacSym (off env) (r' j) T P x) := by
  unfold reacSym
  split
  · rename_i h
    have h' : (List.lookup x (off env).db.reacs).isNone = true ∧ x.toList.contains '=' = true := h
    simp only [if_pos h']
    refine RL.bind ?_ fun re => rl_reacRec c T P re
    unfold ofEquation; split <;> first | exact RL.pure _ | exact RL.raise | exact RL.lift _
  · rename_i h
    have h' : ¬ ((List.lookup x (off env).db.reacs).isNone = true ∧ x.toList.contains '=' = true) := h
    simp only [if_neg h']
    exact rl_bind_getReac _ fun re _ => rl_reacRec c T P re

end Walk

/-! ### The fixed solvent -/

/-- The solvent symbol is `w`. -/
def SymIs (w : String) (s : ESt PS EPS) : Prop := s.solventSymbol = w

lemma setPrefs_sym {env : Env PS EPS} {w : String} (hw : (env.db.subs.lookup w).isSome) (x : Subst) (s : ESt PS EPS)
    (h : s.solventSymbol = w) : (setPrefs env x s).2 = { s with solventState := if x.gas then 1 else 0 } := by
  simp only [setPrefs, EM.change]
  rw [if_neg]
  rintro ⟨-, h2⟩
  rw [h] at h2
  cases he : List.lookup w env.db.subs <;> simp [he] at hw h2

lemma fixes_symIs {env : Env PS EPS} {w : String} (hw : (env.db.subs.lookup w).isSome) : Fixes env w (SymIs w : ESt PS EPS → Prop) where
  prefs x s h := by rw [setPrefs_sym hw x s h]; exact h
  state _ _ h := h
  flag _ _ h := h
  sym _ h := h

lemma stable_symIs {env : Env PS EPS} {w : String} (hw : (env.db.subs.lookup w).isSome) : Stable env (SymIs w : ESt PS EPS → Prop) where
  prefs x s h := by rw [setPrefs_sym hw x s h]; exact h
  state _ _ h := h
  flag _ _ h := h
  ps _ _ h := h
  el _ _ h := h

lemma keeps_symIs {env : Env PS EPS} {w : String} (hw : (env.db.subs.lookup w).isSome) (n : Nat) :
    (∀ T P y, U (SymIs w) False ((run env n).sub T P y)) ∧ (∀ T P y, U (SymIs w) False ((run env n).reac T P y)) ∧
      (∀ T P x, U (SymIs w) False ((run env n).direct T P x)) :=
  u_run (stable_symIs hw) (fun _ h => h) (fun _ _ h => h) (fun _ _ _ _ _ _ _ _ h _ => h) n

/-! ### Depth -/

lemma cached_off {K V : Type} [DecidableEq K] {env : Env PS EPS} {get : ESt PS EPS → Cache K V}
    {set : Cache K V → ESt PS EPS → ESt PS EPS} {k : K} {m : EM PS EPS V} : cached (off env) get set k m = m := by
  funext s; simp [cached, off]

lemma rl_propsSolvent_off {env : Env PS EPS} {a : Prop} {n : Nat} {G1 G2 : ESt PS EPS → Prop} {w : String} (h1 : Fixes env w G1)
    (h2 : Fixes env w G2) (T P : ℝ) (x : String) (k : Int) :
    RT a n G1 G2 (getSub env x >>= fun v => propsSolventRec env T P v k) (fun _ => propsSolvent (off env) T P x k) := by
  unfold propsSolvent
  rw [cached_off]
  exact rl_bind_getSub x fun v _ => rl_propsSolventRec h1 h2 T P v k

lemma rl_electro_off {env : Env PS EPS} {a : Prop} {n : Nat} {G1 G2 : ESt PS EPS → Prop} {w : String} (h1 : Fixes env w G1)
    (h2 : Fixes env w G2) (T P : ℝ) (x : String) (k : Int) :
    RT a n G1 G2 (getSub env x >>= fun v => electroRec env T P v k) (fun _ => electro (off env) T P x k) := by
  unfold electro
  rw [cached_off]
  exact rl_bind_getSub x fun v _ => rl_electroRec h1 h2 T P v k

lemma RL.shift {a : Prop} {n : Nat} {G1 G2 : ESt PS EPS → Prop} {α : Type} {m : EM PS EPS α} {m' : Nat → EM PS EPS α}
    (h : RT a n G1 G2 m (fun j => m' (j + 1))) (h0 : ∀ s, G2 s → G2 (m' 0 s).2) : RT a (n + 1) G1 G2 m m' := by
  intro s h1 _
  obtain ⟨x, y, z, v⟩ := h s h1 trivial
  refine ⟨x, fun ha hf => ?_, fun s' h2 _ hf => z s' h2 trivial hf, fun j s' h2 _ => ?_⟩
  · obtain ⟨j0, hj⟩ := y ha hf
    refine ⟨j0 + 1, fun j hl s' h2 _ => ?_⟩
    obtain ⟨i, rfl⟩ : ∃ i, j = i + 1 := ⟨j - 1, by omega⟩
    exact hj i (by omega) s' h2 trivial
  · cases j with
    | zero => exact h0 s' h2
    | succ i => exact v i s' h2 trivial

/-- Every record of the database uses gas models that do not look at the flag. -/
def DbFlagFree (env : Env PS EPS) : Prop := ∀ y v, env.db.subs.lookup y = some v → FlagFree env.mods v

lemma run_off_sub (env : Env PS EPS) (n : Nat) (T P : ℝ) (y : String) :
    (run (off env) (n + 1)).sub T P y = (getSub (off env) y >>= fun v => substRec (off env) (run (off env) n) T P v) := by
  simp only [run, cached_off]
lemma run_off_reac (env : Env PS EPS) (n : Nat) (T P : ℝ) (y : String) :
    (run (off env) (n + 1)).reac T P y = reacSym (off env) (run (off env) n) T P y := by
  simp only [run, cached_off]

/-- Without caches, a result at depth `n` is the result at every larger depth, from every state. -/
lemma mono_run {env : Env PS EPS} {w : String} (hw : (env.db.subs.lookup w).isSome) (hf : DbFlagFree env) (n : Nat) :
    ∀ k ≥ n, Ctx (off env) False n (SymIs w) (SymIs w) w (run (off env) k) (fun j => run (off env) j) := by
  have hw' : ((off env).db.subs.lookup w).isSome := hw
  induction n with
  | zero =>
    intro k _
    obtain ⟨k1, k2, k3⟩ := keeps_symIs (PS := PS) (EPS := EPS) hw' k
    refine ⟨fixes_symIs hw', fixes_symIs hw', ?_, ?_, ?_, ?_, ?_⟩
    · intro T P y i
      have := rl_propsSolvent_off (env := off env) (a := False) (n := 0) (fixes_symIs hw') (fixes_symIs hw') T P y i
      unfold propsSolvent at this ⊢
      simpa only [cached_off] using this
    · intro T P y i
      have := rl_electro_off (env := off env) (a := False) (n := 0) (fixes_symIs hw') (fixes_symIs hw') T P y i
      unfold electro at this ⊢
      simpa only [cached_off] using this
    · exact fun T P y s h _ => ⟨(k1 T P y s h).1, fun h => h.elim, fun s' _ _ h => h.elim,
        fun j s' h _ => ((keeps_symIs hw' j).1 T P y s' h).1⟩
    · exact fun T P y s h _ => ⟨(k2 T P y s h).1, fun h => h.elim, fun s' _ _ h => h.elim,
        fun j s' h _ => ((keeps_symIs hw' j).2.1 T P y s' h).1⟩
    · exact fun T P y _ s h _ => ⟨(k3 T P y s h).1, fun h => h.elim, fun s' _ _ h => h.elim,
        fun j s' h _ => ((keeps_symIs hw' j).2.2 T P y s' h).1⟩
  | succ n ih =>
    intro k hk
    obtain ⟨i, rfl⟩ : ∃ i, k = i + 1 := ⟨k - 1, by omega⟩
    have c := ih i (by omega)
    refine ⟨c.g1, c.g2, ?_, ?_, ?_, ?_, ?_⟩
    · intro T P y i
      have := rl_propsSolvent_off (env := off env) (a := False) (n := n + 1) (fixes_symIs hw') (fixes_symIs hw') T P y i
      unfold propsSolvent at this ⊢
      simpa only [cached_off] using this
    · intro T P y i
      have := rl_electro_off (env := off env) (a := False) (n := n + 1) (fixes_symIs hw') (fixes_symIs hw') T P y i
      unfold electro at this ⊢
      simpa only [cached_off] using this
    · intro T P y
      refine RL.shift ?_ fun s h => h
      simp only [run_off_sub]
      exact rl_bind_getSub (env := off env) y fun v hv => rl_substRec c T P v (Or.inl (hf y v hv))
    · intro T P y
      refine RL.shift ?_ fun s h => h
      simp only [run_off_reac]
      exact rl_reacSym c T P y
    · intro T P x hx
      exact RL.shift (m' := fun j => (run (off env) j).direct T P x) (rl_substRec c T P x hx) fun s h => h

/-! ### Caches -/

/-- Calculations of a family that, once they are not too deep, do not change any more and do not depend on the state. -/
def Settles {α : Type} (G : ESt PS EPS → Prop) (m' : Nat → EM PS EPS α) : Prop :=
  ∀ n k, n ≤ k → ∀ s s', G s → G s' → (m' n s).1.fine → (m' k s').1 = (m' n s).1

/-- `v` is the value the family settles on. -/
def SettlesTo {α : Type} (G : ESt PS EPS → Prop) (m' : Nat → EM PS EPS α) (v : α) : Prop :=
  ∃ j0, ∀ j ≥ j0, ∀ s', G s' → (m' j s').1 = .ok v

lemma rl_cached {K V : Type} [DecidableEq K] {env : Env PS EPS} {n : Nat} {G1 G2 : ESt PS EPS → Prop} {get : ESt PS EPS → Cache K V}
    {set : Cache K V → ESt PS EPS → ESt PS EPS} (hget : ∀ c s, get (set c s) = c) {k : K} {m : EM PS EPS V} {m' : Nat → EM PS EPS V}
    (hm : RT True n G1 G2 m m') (hs : Settles G2 m') (hcoh : ∀ s, G1 s → ∀ v, (get s).find k = some v → SettlesTo G2 m' v)
    (hev : ∀ s, G1 s → G1 (set (Cache.evict env.maxCache (get s)) s))
    (hins : ∀ s v, G1 s → SettlesTo G2 m' v → G1 (set ((get s).insert k v) s)) :
    RT True n G1 G2 (cached env get set k m) m' := by
  intro s h1 _
  unfold Engine.cached
  split
  · simp only [hget]
    have h' := hev s h1
    have hc := hcoh _ h'
    rw [hget] at hc
    obtain ⟨x, y, z, v⟩ := hm _ h' trivial
    split
    · rename_i v' hv
      obtain ⟨j0, hj⟩ := hc v' hv
      refine ⟨h', fun _ _ => ⟨j0, fun j hl s' h2 _ => hj j hl s' h2⟩, fun s' h2 _ hf => ?_, v⟩
      exact ((hj (max j0 n) (le_max_left _ _) s' h2).symm.trans (hs n (max j0 n) (le_max_right _ _) s' s' h2 h2 hf))
    · split
      · rename_i v' t he
        rw [he] at x y z
        obtain ⟨j0, hj⟩ := y trivial trivial
        refine ⟨hins t v' x ⟨j0, fun j hl s' h2 => hj j hl s' h2 trivial⟩, fun _ _ => ⟨j0, hj⟩, z, v⟩
      · exact ⟨x, y, z, v⟩
  · exact hm s h1 trivial

/-- Every entry of the cache is good. -/
def Coh {K V : Type} (good : K → V → Prop) (c : Cache K V) : Prop := ∀ e ∈ c.entries, good e.1 e.2

lemma Coh.evict {K V : Type} [DecidableEq K] {good : K → V → Prop} {c : Cache K V} (h : Coh good c) (max : Nat) :
    Coh good (Cache.evict max c) := fun e he => h e (evict_entries_subset max c e he)

lemma Coh.insert {K V : Type} [DecidableEq K] {good : K → V → Prop} {c : Cache K V} (h : Coh good c) {k : K} {v : V} (hk : good k v) :
    Coh good (c.insert k v) := by
  intro e he
  simp only [Cache.insert, List.mem_cons] at he
  rcases he with rfl | he
  · exact hk
  · exact h e (erase_subset _ _ e he)

lemma Coh.find {K V : Type} [DecidableEq K] {good : K → V → Prop} {c : Cache K V} (h : Coh good c) {k : K} {v : V} (hk : c.find k = some v) :
    good k v := h (k, v) (mem_of_lookup hk)

/-- The solvent symbol is `w` and the four caches hold values the engine without caches gives. -/
structure CohSt (env : Env PS EPS) (w : String) (s : ESt PS EPS) : Prop where
  sym : s.solventSymbol = w
  sub : Coh (fun (k : Key) v => SettlesTo (SymIs w) (fun j => (run (off env) j).sub k.T k.P k.sym) v) s.subC
  reac : Coh (fun (k : Key) v => SettlesTo (SymIs w) (fun j => (run (off env) j).reac k.T k.P k.sym) v) s.reacC
  ps : Coh (fun (k : SKey) v => SettlesTo (SymIs w) (fun _ => propsSolvent (off env) k.T k.P k.sym k.state) v) s.psC
  el : Coh (fun (k : SKey) v => SettlesTo (SymIs w) (fun _ => electro (off env) k.T k.P k.sym k.state) v) s.elC

lemma cohSt_init (env : Env PS EPS) : CohSt env "H2O@" (ESt.init : ESt PS EPS) := by
  refine ⟨rfl, ?_, ?_, ?_, ?_⟩ <;> intro e he <;> simp [ESt.init] at he

section Memo

variable {env : Env PS EPS} {w : String} (hw : (env.db.subs.lookup w).isSome)

include hw

lemma fixes_cohSt : Fixes env w (CohSt env w) where
  prefs x s h := by rw [setPrefs_sym hw x s h.sym]; exact ⟨h.sym, h.sub, h.reac, h.ps, h.el⟩
  state _ _ h := ⟨h.sym, h.sub, h.reac, h.ps, h.el⟩
  flag _ _ h := ⟨h.sym, h.sub, h.reac, h.ps, h.el⟩
  sym _ h := h.sym

lemma settles_propsSolvent (T P : ℝ) (x : String) (k : Int) : Settles (SymIs w) (fun _ => propsSolvent (off env) T P x k) := by
  intro n i _ s s' h h' hf
  have hw' : ((off env).db.subs.lookup w).isSome := hw
  have e := rl_propsSolvent_off (env := off env) (a := False) (n := 0) (fixes_symIs hw') (fixes_symIs hw') T P x k
  have e' : propsSolvent (off env) T P x k = (getSub (off env) x >>= fun v => propsSolventRec (off env) T P v k) := cached_off
  have := (e s' h' trivial).2.2.1 s h trivial hf
  rw [← e'] at this
  exact this

lemma settles_electro (T P : ℝ) (x : String) (k : Int) : Settles (SymIs w) (fun _ => electro (off env) T P x k) := by
  intro n i _ s s' h h' hf
  have hw' : ((off env).db.subs.lookup w).isSome := hw
  have e := rl_electro_off (env := off env) (a := False) (n := 0) (fixes_symIs hw') (fixes_symIs hw') T P x k
  have e' : electro (off env) T P x k = (getSub (off env) x >>= fun v => electroRec (off env) T P v k) := cached_off
  have := (e s' h' trivial).2.2.1 s h trivial hf
  rw [← e'] at this
  exact this

lemma rl_propsSolvent (n : Nat) (T P : ℝ) (x : String) (k : Int) :
    RT True n (CohSt env w) (SymIs w) (propsSolvent env T P x k) (fun _ => propsSolvent (off env) T P x k) :=
  rl_cached (fun _ _ => rfl) (rl_propsSolvent_off (fixes_cohSt hw) (fixes_symIs hw) T P x k) (settles_propsSolvent hw T P x k)
    (fun s h v hv => h.ps.find hv) (fun s h => ⟨h.sym, h.sub, h.reac, h.ps.evict _, h.el⟩)
    (fun s v h hv => ⟨h.sym, h.sub, h.reac, h.ps.insert hv, h.el⟩)

lemma rl_electro (n : Nat) (T P : ℝ) (x : String) (k : Int) :
    RT True n (CohSt env w) (SymIs w) (electro env T P x k) (fun _ => electro (off env) T P x k) :=
  rl_cached (fun _ _ => rfl) (rl_electro_off (fixes_cohSt hw) (fixes_symIs hw) T P x k) (settles_electro hw T P x k)
    (fun s h v hv => h.el.find hv) (fun s h => ⟨h.sym, h.sub, h.reac, h.ps, h.el.evict _⟩)
    (fun s v h hv => ⟨h.sym, h.sub, h.reac, h.ps, h.el.insert hv⟩)

variable (hf : DbFlagFree env)

include hf

lemma settles_sub (T P : ℝ) (x : String) : Settles (SymIs w) (fun j => (run (off env) j).sub T P x) := fun n k hk s s' h h' hfi =>
  ((mono_run hw hf n k hk).sub T P x s' h' trivial).2.2.1 s h trivial hfi
lemma settles_reac (T P : ℝ) (x : String) : Settles (SymIs w) (fun j => (run (off env) j).reac T P x) := fun n k hk s s' h h' hfi =>
  ((mono_run hw hf n k hk).reac T P x s' h' trivial).2.2.1 s h trivial hfi

/-- The engine with caches agrees with the engine without caches. -/
lemma memo_run (n : Nat) : Ctx env True n (CohSt env w) (SymIs w) w (run env n) (fun j => run (off env) j) := by
  have hw' : ((off env).db.subs.lookup w).isSome := hw
  induction n with
  | zero =>
    refine ⟨fixes_cohSt hw, fixes_symIs hw, rl_propsSolvent hw 0, rl_electro hw 0, ?_, ?_, ?_⟩
    · exact fun T P y s h _ => ⟨h, fun _ h => h.elim, fun s' _ _ h => h.elim, fun j s' h _ => ((keeps_symIs hw' j).1 T P y s' h).1⟩
    · exact fun T P y s h _ => ⟨h, fun _ h => h.elim, fun s' _ _ h => h.elim, fun j s' h _ => ((keeps_symIs hw' j).2.1 T P y s' h).1⟩
    · exact fun T P y _ s h _ => ⟨h, fun _ h => h.elim, fun s' _ _ h => h.elim, fun j s' h _ => ((keeps_symIs hw' j).2.2 T P y s' h).1⟩
  | succ n c =>
    refine ⟨c.g1, c.g2, rl_propsSolvent hw _, rl_electro hw _, ?_, ?_, ?_⟩
    · intro T P y
      have hb : RT True (n + 1) (CohSt env w) (SymIs w) (getSub env y >>= fun v => substRec env (run env n) T P v)
          (fun j => (run (off env) j).sub T P y) := by
        refine RL.shift ?_ fun s h => h
        simp only [run_off_sub]
        exact rl_bind_getSub y fun v hv => rl_substRec c T P v (Or.inl (hf y v hv))
      exact rl_cached (fun _ _ => rfl) hb (settles_sub hw hf T P y) (fun s h v hv => h.sub.find hv)
        (fun s h => ⟨h.sym, h.sub.evict _, h.reac, h.ps, h.el⟩) (fun s v h hv => ⟨h.sym, h.sub.insert hv, h.reac, h.ps, h.el⟩)
    · intro T P y
      have hb : RT True (n + 1) (CohSt env w) (SymIs w) (reacSym env (run env n) T P y) (fun j => (run (off env) j).reac T P y) := by
        refine RL.shift ?_ fun s h => h
        simp only [run_off_reac]
        exact rl_reacSym c T P y
      exact rl_cached (fun _ _ => rfl) hb (settles_reac hw hf T P y) (fun s h v hv => h.reac.find hv)
        (fun s h => ⟨h.sym, h.sub, h.reac.evict _, h.ps, h.el⟩) (fun s v h hv => ⟨h.sym, h.sub, h.reac.insert hv, h.ps, h.el⟩)
    · intro T P x hx
      exact RL.shift (m' := fun j => (run (off env) j).direct T P x) (rl_substRec c T P x hx) fun s h => h

end Memo

/-- Queries with a record given by the caller: the record uses gas models that do not look at the flag. -/
def QFlagFree (mods : Models PS EPS) : Query → Prop
  | .subRec _ _ x => FlagFree mods x
  | _ => True

lemma rl_ask {env : Env PS EPS} {a : Prop} {n k : Nat} {G1 G2 : ESt PS EPS → Prop} {w : String}
    (c : Ctx env a n G1 G2 w (run env k) (fun j => run (off env) j)) (q : Query) (hq : QFlagFree env.mods q) :
    RT a n G1 G2 (ask env k q) (fun j => ask (off env) j q) := by
  cases q <;> unfold ask
  · exact (c.sub _ _ _).bind fun _ => RL.pure _
  · exact (c.direct _ _ _ (Or.inl hq)).bind fun _ => RL.pure _
  · exact (c.reac _ _ _).bind fun _ => RL.pure _
  · exact (rl_reacRec c _ _ _).bind fun _ => RL.pure _
  · exact rl_bind_getReac _ fun re _ => (rl_reacFromReactants c _ _ re).bind fun _ => RL.pure _
  · exact (rl_reacFromReactants c _ _ _).bind fun _ => RL.pure _
  · exact (c.ps _ _ _ _).bind fun _ => RL.pure _
  · exact (rl_propsSolventRec c.g1 c.g2 _ _ _ _).bind fun _ => RL.pure _
  · exact (c.el _ _ _ _).bind fun _ => RL.pure _
  · exact (rl_electroRec c.g1 c.g2 _ _ _ _).bind fun _ => RL.pure _

/-- Without caches, a result at depth `n` is the result at every larger depth, from every state with that solvent. -/
lemma ask_mono {env : Env PS EPS} {w : String} (hw : (env.db.subs.lookup w).isSome) (hf : DbFlagFree env) {n k : Nat} (hk : n ≤ k) (q : Query)
    (hq : QFlagFree env.mods q) (s s' : ESt PS EPS) (h : s.solventSymbol = w) (h' : s'.solventSymbol = w)
    (hfi : (ask (off env) n q s).1.fine) : (ask (off env) k q s').1 = (ask (off env) n q s).1 :=
  (rl_ask (mono_run hw hf n k hk) q hq s' h' trivial).2.2.1 s h trivial hfi

/-- The caches are good after any history. -/
lemma cohSt_after {env : Env PS EPS} {w : String} (hw : (env.db.subs.lookup w).isSome) (hf : DbFlagFree env) (n : Nat) (qs : List Query)
    (hqs : ∀ q ∈ qs, QFlagFree env.mods q) (s : ESt PS EPS) (hs : CohSt env w s) : CohSt env w (after env n s qs) := by
  induction qs generalizing s with
  | nil => exact hs
  | cons q qs ih =>
    exact ih (fun q' h => hqs q' (List.mem_cons_of_mem _ h)) _
      ((rl_ask (memo_run hw hf n) q (hqs q List.mem_cons_self) s hs trivial).1)

/-- The answer after any history is the answer of the engine without caches. -/
lemma ask_eq {env : Env PS EPS} {w : String} (hw : (env.db.subs.lookup w).isSome) (hf : DbFlagFree env) {n k : Nat} (hk : n ≤ k) (q : Query)
    (hq : QFlagFree env.mods q) (s s' : ESt PS EPS) (h : CohSt env w s) (h' : s'.solventSymbol = w)
    (hfi : (ask (off env) n q s').1.fine) : (ask env k q s).1 = (ask (off env) n q s').1 := by
  have e := ask_mono hw hf hk q hq s' s' h' h' hfi
  have := (rl_ask (memo_run hw hf k) q hq s h trivial).2.2.1 s' h' trivial (show (ask (off env) k q s').1.fine from e ▸ hfi)
  exact this.trans e

end ThermoFun.Engine

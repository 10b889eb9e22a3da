import Verif.Model.Saturation
import Verif.Props.Aqueous

/-!
# Queries at the saturation pressure

A pressure of 0 asks for the saturation pressure of water, which is handed back in the caller's variable.  Theorems about the engine with the
pressure passed by reference (Model/Saturation.lean): whether an answer depends on the order in which the compiler evaluates the arguments of
a call (C153), and whether it is the answer for the pressure handed back (C154).
-/

namespace ThermoFun.Sat

open Engine

variable {PS EPS : Type} {α β γ : Type}

/-! ### Running a calculation -/

lemma bind_ok {m : SM α} {f : α → SM β} {s : St} {b : β} {s' : St} :
    (m >>= f) s = (.ok b, s') ↔ ∃ a s1, m s = (.ok a, s1) ∧ f a s1 = (.ok b, s') := by
  constructor
  · intro h
    change SM.bind m f s = _ at h
    unfold SM.bind at h
    split at h
    · exact ⟨_, _, ‹_›, h⟩
    all_goals (injection h with h1 _; cases h1)
  · rintro ⟨a, s1, h1, h2⟩
    change SM.bind m f s = _
    unfold SM.bind
    rw [h1]
    exact h2

lemma bind_at {m : SM α} {f : α → SM β} {s s1 : St} {a : α} (h : m s = (.ok a, s1)) : (m >>= f) s = f a s1 := by
  change SM.bind m f s = _
  unfold SM.bind
  rw [h]

lemma pure_ok {a b : α} {s s' : St} : (pure a : SM α) s = (.ok b, s') ↔ a = b ∧ s = s' := by
  constructor
  · intro h
    change (Out.ok a, s) = _ at h
    injection h with h1 h2
    injection h1 with h1
    exact ⟨h1, h2⟩
  · rintro ⟨rfl, rfl⟩; rfl

lemma lift_ok {r : Res α} {b : α} {s s' : St} : SM.lift r s = (.ok b, s') ↔ r = .ok b ∧ s = s' := by
  cases r with
  | ok a =>
    constructor
    · intro h
      change (Out.ok a, s) = _ at h
      injection h with h1 h2
      injection h1 with h1
      exact ⟨by rw [h1], h2⟩
    · rintro ⟨h, rfl⟩; injection h with h; subst h; rfl
  | throw => exact ⟨fun h => (by injection h with h; cases h), fun h => by cases h.1⟩
  | ub => exact ⟨fun h => (by injection h with h; cases h), fun h => by cases h.1⟩

lemma read_ok {f : St → α} {b : α} {s s' : St} : SM.read f s = (.ok b, s') ↔ f s = b ∧ s = s' := by
  constructor
  · intro h
    change (Out.ok (f s), s) = _ at h
    injection h with h1 h2
    injection h1 with h1
    exact ⟨h1, h2⟩
  · rintro ⟨rfl, rfl⟩; rfl

/-! ### Pressures other than 0 -/

/-- At a pressure other than 0 the answers of `m` are answers of `m'`, with the same effect on the engine, and the pressure is left alone. -/
def Carries (m m' : SM α) : Prop :=
  ∀ s a s', s.P ≠ 0 → m s = (.ok a, s') → m' s = (.ok a, s') ∧ s'.P = s.P

lemma Carries.bind {m m' : SM α} {f f' : α → SM β} (hm : Carries m m') (hf : ∀ a, Carries (f a) (f' a)) : Carries (m >>= f) (m' >>= f') := by
  intro s b s' hP h
  obtain ⟨a, s1, h1, h2⟩ := bind_ok.1 h
  obtain ⟨g1, e1⟩ := hm s a s1 hP h1
  obtain ⟨g2, e2⟩ := hf a s1 b s' (by rw [e1]; exact hP) h2
  exact ⟨bind_ok.2 ⟨a, s1, g1, g2⟩, e2.trans e1⟩

lemma Carries.pure (a : α) : Carries (Pure.pure a : SM α) (Pure.pure a) := fun s b s' _ h => ⟨h, by rw [(pure_ok.1 h).2]⟩
lemma Carries.lift (r : Res α) : Carries (SM.lift r) (SM.lift r) := fun s b s' _ h => ⟨h, by rw [(lift_ok.1 h).2]⟩
lemma Carries.read (f : St → α) : Carries (SM.read f) (SM.read f) := fun s b s' _ h => ⟨h, by rw [(read_ok.1 h).2]⟩
lemma Carries.raise : Carries (SM.raise : SM α) SM.raise := fun s b s' _ h => by injection h with h; cases h
lemma Carries.deep : Carries (SM.tooDeep : SM α) SM.tooDeep := fun s b s' _ h => by injection h with h; cases h
lemma Carries.change {f : St → St} (hf : ∀ s, (f s).P = s.P) : Carries (SM.change f) (SM.change f) := fun s b s' _ h => by
  refine ⟨h, ?_⟩
  injection h with h1 h2
  rw [← h2]; exact hf s
lemma Carries.onLocal (p : ℝ) (m : SM α) : Carries (SM.onLocal p m) (SM.onLocal p m) := fun s b s' _ h => by
  refine ⟨h, ?_⟩
  unfold SM.onLocal at h
  injection h with h1 h2
  rw [← h2]

/-- The solvent state a record asks for. -/
def stateOf (db : Db) (y : String) : Int :=
  match db.subs.lookup y with
  | some w => if w.gas then 1 else 0
  | none => 0

/-- A calculation on the solvent: its answers depend on the pressure and the symbol of the solvent, it sets the solvent state to the one
of the record and at a pressure other than 0 nothing else. -/
def Solv (db : Db) (m : SM α) : Prop :=
  ∀ s a s', s.P ≠ 0 → m s = (.ok a, s') →
    s' = { s with solventState := stateOf db s.solventSymbol } ∧ ∀ st, m { s with solventState := st } = (.ok a, s')

lemma writing_ok {r : Res α} {p pe : ℝ} {a : α} {s s' : St} : writing r p pe s = (.ok a, s') ↔ r = .ok a ∧ s' = { s with P := p } := by
  unfold writing
  cases r with
  | ok v =>
    simp only [Prod.mk.injEq, Out.ok.injEq, Res.ok.injEq]
    exact and_congr_right fun _ => eq_comm
  | throw => simp
  | ub => simp

lemma setPrefs_found {e : Eng PS EPS} {x : Subst} {s : St} (h : (e.env.db.subs.lookup s.solventSymbol).isSome) :
    setPrefs e x s = (.ok (), { s with solventState := if x.gas then 1 else 0 }) := by
  unfold setPrefs SM.change
  have : ¬ (x.cls = .AQSOLUTE ∧ (e.env.db.subs.lookup s.solventSymbol).isNone) := by
    rintro ⟨-, h2⟩
    rw [Option.isNone_iff_eq_none] at h2
    rw [h2] at h
    cases h
  simp only
  rw [if_neg this]

/-- The part of `propsSolventRec` after the preferences. -/
noncomputable def psModel (e : Eng PS EPS) (T P : ℝ) (x : Subst) (st : Int) : Res PS × ℝ :=
  if x.isSolvent then
    match x.mT with
    | .WAT => (e.env.mods.watPS x T P st, e.gemsP T P)
    | .WAR => (e.env.mods.warPS x T (atSat T P) st, atSat T P)
    | .WWP => (e.env.mods.wwpPS x T (atSat T P) st, atSat T P)
    | .WZD => (e.env.mods.wzdPS x T P st, P)
    | _ => (.ok e.env.mods.ps0, P)
  else (.ok e.env.mods.ps0, P)

/-- The state a calculation on the solvent uses: the requested one, or that of the record. -/
def useState (x : Subst) (state : Int) : Int := if -1 < state ∧ state < 2 then state else if x.gas then 1 else 0

lemma propsRec_ok {e : Eng PS EPS} {T : ℝ} {x : Subst} {state : Int} {s s' : St} {v : PS}
    (h : (e.env.db.subs.lookup s.solventSymbol).isSome) :
    propsSolventRec e T x state s = (.ok v, s') ↔
      (psModel e T s.P x (useState x state)).1 = .ok v ∧
        s' = { s with solventState := useState x state, P := (psModel e T s.P x (useState x state)).2 } := by
  have hst : ∀ u : St, setState state u = (.ok (), if -1 < state ∧ state < 2 then { u with solventState := state } else u) := fun _ => rfl
  unfold propsSolventRec
  rw [bind_at (setPrefs_found h), bind_at (hst _)]
  rw [bind_at (show SM.read (·.solventState) _ = (.ok (useState x state), _) by
    rw [read_ok]; exact ⟨by unfold useState; split <;> rfl, rfl⟩)]
  have e1 : (if -1 < state ∧ state < 2 then { ({ s with solventState := if x.gas then 1 else 0 } : St) with solventState := state }
      else { s with solventState := if x.gas then 1 else 0 }) = { s with solventState := useState x state } := by
    unfold useState; split <;> rfl
  rw [e1, bind_at (show getP { s with solventState := useState x state } = (.ok s.P, _) from rfl)]
  unfold psModel
  by_cases hs : x.isSolvent = true
  · simp only [hs, if_true]
    cases x.mT <;> simp only [writing_ok, lift_ok, pure_ok, Res.ok.injEq] <;> constructor <;> rintro ⟨h1, h2⟩ <;> simp [h1, h2]
  · simp only [hs, Bool.false_eq_true, if_false, pure_ok, Res.ok.injEq]
    constructor <;> rintro ⟨h1, h2⟩ <;> simp [h1, h2]

/-- The part of `electroRec` after the solvent properties. -/
def esModel (e : Eng PS EPS) (T P : ℝ) (x : Subst) (ps : PS) (st : Int) : Res EPS :=
  if x.isSolvent then
    match x.gen with
    | .WJNR => e.env.mods.wjnr x T P ps st
    | .WJNG => e.env.mods.wjng x T P st
    | .WSV14 => e.env.mods.wsv14 x T P st
    | .WF97 => e.env.mods.wf97 x T P st
    | _ => .ok e.env.mods.eps0
  else .ok e.env.mods.eps0

lemma useState_use (x : Subst) (state : Int) : useState x (useState x state) = useState x state := by
  have h : -1 < useState x state ∧ useState x state < 2 := by
    unfold useState
    split
    · assumption
    · split <;> decide
  rw [useState, if_pos h]

lemma electroRec_ok {e : Eng PS EPS} {T : ℝ} {x : Subst} {state : Int} {s s' : St} {v : EPS}
    (h : (e.env.db.subs.lookup s.solventSymbol).isSome) :
    electroRec e T x state s = (.ok v, s') ↔ ∃ ps,
      (psModel e T s.P x (useState x state)).1 = .ok ps ∧
        esModel e T (psModel e T s.P x (useState x state)).2 x ps (useState x state) = .ok v ∧
        s' = { s with solventState := useState x state, P := (psModel e T s.P x (useState x state)).2 } := by
  have hst : ∀ u : St, setState state u = (.ok (), if -1 < state ∧ state < 2 then { u with solventState := state } else u) := fun _ => rfl
  unfold electroRec
  rw [bind_at (setPrefs_found h), bind_at (hst _)]
  rw [bind_at (show SM.read (·.solventState) _ = (.ok (useState x state), _) by
    rw [read_ok]; exact ⟨by unfold useState; split <;> rfl, rfl⟩)]
  have e1 : (if -1 < state ∧ state < 2 then { ({ s with solventState := if x.gas then 1 else 0 } : St) with solventState := state }
      else { s with solventState := if x.gas then 1 else 0 }) = { s with solventState := useState x state } := by
    unfold useState; split <;> rfl
  rw [e1]
  have key : ∀ ps s1, propsSolventRec e T x (useState x state) { s with solventState := useState x state } = (.ok ps, s1) ↔
      (psModel e T s.P x (useState x state)).1 = .ok ps ∧
        s1 = { s with solventState := useState x state, P := (psModel e T s.P x (useState x state)).2 } := by
    intro ps s1
    rw [propsRec_ok (by exact h), useState_use]
  have fin : ∀ (ps : PS) (u : St), u.solventState = useState x state → ∀ b u',
      (do let st ← SM.read (·.solventState)
          let P ← getP
          if x.isSolvent then
            match x.gen with
            | .WJNR => SM.lift (e.env.mods.wjnr x T P ps st)
            | .WJNG => SM.lift (e.env.mods.wjng x T P st)
            | .WSV14 => SM.lift (e.env.mods.wsv14 x T P st)
            | .WF97 => SM.lift (e.env.mods.wf97 x T P st)
            | _ => pure e.env.mods.eps0
          else pure e.env.mods.eps0 : SM EPS) u = (.ok b, u') ↔ esModel e T u.P x ps (useState x state) = .ok b ∧ u = u' := by
    intro ps u hu b u'
    rw [bind_at (show SM.read (·.solventState) u = (.ok (useState x state), u) by rw [read_ok]; exact ⟨hu, rfl⟩),
      bind_at (show getP u = (.ok u.P, u) from rfl)]
    unfold esModel
    by_cases hs : x.isSolvent = true
    · simp only [hs, if_true]
      cases x.gen <;> simp only [lift_ok, pure_ok, Res.ok.injEq]
    · simp only [hs, Bool.false_eq_true, if_false, pure_ok, Res.ok.injEq]
  rw [bind_ok]
  constructor
  · rintro ⟨ps, s1, h1, h2⟩
    obtain ⟨g1, rfl⟩ := (key ps s1).1 h1
    obtain ⟨g2, rfl⟩ := (fin ps _ rfl v s').1 h2
    exact ⟨ps, g1, g2, rfl⟩
  · rintro ⟨ps, g1, g2, rfl⟩
    exact ⟨ps, _, (key ps _).2 ⟨g1, rfl⟩, (fin ps _ rfl v _).2 ⟨g2, rfl⟩⟩

/-- The solvent code leaves a pressure other than 0 alone. -/
def Keeps (e : Eng PS EPS) : Prop := ∀ T P, P ≠ 0 → e.gemsP T P = P

lemma psModel_keeps {e : Eng PS EPS} (hk : Keeps e) {T P : ℝ} (hP : P ≠ 0) (x : Subst) (st : Int) : (psModel e T P x st).2 = P := by
  have h1 : atSat T P = P := if_neg hP
  unfold psModel
  split
  · split <;> first | rfl | exact hk T P hP | exact h1
  · rfl

lemma getSub_ok {e : Eng PS EPS} {y : String} {x : Subst} {s s' : St} :
    getSub e y s = (.ok x, s') ↔ e.env.db.subs.lookup y = some x ∧ s = s' := by
  unfold getSub
  cases hv : e.env.db.subs.lookup y with
  | some v => simp only [pure_ok, Option.some.injEq]
  | none =>
    simp only [reduceCtorEq, false_and, iff_false]
    intro h; injection h with h; cases h

lemma solventPS_ok {e : Eng PS EPS} {T : ℝ} {s s' : St} {v : PS} :
    solventPS e T s = (.ok v, s') ↔ ∃ w, e.env.db.subs.lookup s.solventSymbol = some w ∧
      (psModel e T s.P w (useState w (-1))).1 = .ok v ∧
        s' = { s with solventState := useState w (-1), P := (psModel e T s.P w (useState w (-1))).2 } := by
  unfold solventPS propsSolvent
  rw [bind_at (show SM.read (·.solventSymbol) s = (.ok s.solventSymbol, s) from rfl), bind_ok]
  constructor
  · rintro ⟨w, s1, h1, h2⟩
    obtain ⟨hw, rfl⟩ := getSub_ok.1 h1
    exact ⟨w, hw, (propsRec_ok (by rw [hw]; rfl)).1 h2⟩
  · rintro ⟨w, hw, h⟩
    exact ⟨w, s, getSub_ok.2 ⟨hw, rfl⟩, (propsRec_ok (by rw [hw]; rfl)).2 h⟩

lemma solventEPS_ok {e : Eng PS EPS} {T : ℝ} {s s' : St} {v : EPS} :
    solventEPS e T s = (.ok v, s') ↔ ∃ w, e.env.db.subs.lookup s.solventSymbol = some w ∧ ∃ ps,
      (psModel e T s.P w (useState w (-1))).1 = .ok ps ∧
        esModel e T (psModel e T s.P w (useState w (-1))).2 w ps (useState w (-1)) = .ok v ∧
        s' = { s with solventState := useState w (-1), P := (psModel e T s.P w (useState w (-1))).2 } := by
  unfold solventEPS electro
  rw [bind_at (show SM.read (·.solventSymbol) s = (.ok s.solventSymbol, s) from rfl), bind_ok]
  constructor
  · rintro ⟨w, s1, h1, h2⟩
    obtain ⟨hw, rfl⟩ := getSub_ok.1 h1
    exact ⟨w, hw, (electroRec_ok (by rw [hw]; rfl)).1 h2⟩
  · rintro ⟨w, hw, h⟩
    exact ⟨w, s, getSub_ok.2 ⟨hw, rfl⟩, (electroRec_ok (by rw [hw]; rfl)).2 h⟩

lemma stateOf_found {db : Db} {y : String} {w : Subst} (h : db.subs.lookup y = some w) : stateOf db y = useState w (-1) := by
  unfold stateOf
  rw [h]
  rfl

lemma solventPS_solv {e : Eng PS EPS} (hk : Keeps e) (T : ℝ) : Solv e.env.db (solventPS e T) := by
  intro s a s' hP h
  obtain ⟨w, hw, h1, h2⟩ := solventPS_ok.1 h
  refine ⟨?_, fun st => solventPS_ok.2 ⟨w, hw, h1, h2⟩⟩
  rw [h2, psModel_keeps hk hP, stateOf_found hw]

lemma solventEPS_solv {e : Eng PS EPS} (hk : Keeps e) (T : ℝ) : Solv e.env.db (solventEPS e T) := by
  intro s a s' hP h
  obtain ⟨w, hw, ps, h1, h2, h3⟩ := solventEPS_ok.1 h
  refine ⟨?_, fun st => solventEPS_ok.2 ⟨w, hw, ps, h1, h2, h3⟩⟩
  rw [h3, psModel_keeps hk hP, stateOf_found hw]

lemma onLocal_ok {p : ℝ} {m : SM α} {s s' : St} {a : α} :
    SM.onLocal p m s = (.ok a, s') ↔ ∃ s1, m { s with P := p } = (.ok a, s1) ∧ s' = { s1 with P := s.P } := by
  unfold SM.onLocal
  cases hm : m { s with P := p } with
  | mk r s1 =>
    simp only [Prod.mk.injEq]
    constructor
    · rintro ⟨h1, h2⟩; exact ⟨s1, ⟨h1, rfl⟩, h2.symm⟩
    · rintro ⟨s2, ⟨h1, rfl⟩, h2⟩; exact ⟨h1, h2.symm⟩

lemma onLocal_solv (e : Eng PS EPS) (p T : ℝ) : Solv e.env.db (SM.onLocal p (solventPS e T)) := by
  intro s a s' hP h
  obtain ⟨s1, h1, h2⟩ := onLocal_ok.1 h
  obtain ⟨w, hw, g1, g2⟩ := solventPS_ok.1 h1
  refine ⟨?_, fun st => onLocal_ok.2 ⟨_, solventPS_ok.2 ⟨w, hw, g1, rfl⟩, ?_⟩⟩
  · rw [h2, g2, stateOf_found hw]
  · rw [h2, g2]

/-- Arguments on the solvent can be evaluated in any order, if all of them have a value. -/
lemma args3_any {db : Db} {b : SM β} {c : SM γ} (hb : Solv db b) (hc : Solv db c) (o o' : Ord3) :
    Carries (args3 o getP b c) (args3 o' getP b c) := by
  intro s r s' hP h
  suffices H : ∃ y z, b s = (.ok y, { s with solventState := stateOf db s.solventSymbol }) ∧
      c s = (.ok z, { s with solventState := stateOf db s.solventSymbol }) ∧ r = (s.P, y, z) ∧
      s' = { s with solventState := stateOf db s.solventSymbol } by
    obtain ⟨y, z, hy, hz, rfl, rfl⟩ := H
    have hy' := (hb s y _ hP hy).2 (stateOf db s.solventSymbol)
    have hz' := (hc s z _ hP hz).2 (stateOf db s.solventSymbol)
    have hp : ∀ u : St, getP u = (.ok u.P, u) := fun _ => rfl
    refine ⟨?_, rfl⟩
    cases o' <;> simp only [args3, bind_at (hp _), bind_at hy, bind_at hy', bind_at hz, bind_at hz'] <;> rfl
  have hp : ∀ u : St, getP u = (.ok u.P, u) := fun _ => rfl
  have twob : ∀ y z u u', b s = (.ok y, u) → c u = (.ok z, u') →
      b s = (.ok y, { s with solventState := stateOf db s.solventSymbol }) ∧ c s = (.ok z, { s with solventState := stateOf db s.solventSymbol }) ∧
        u = { s with solventState := stateOf db s.solventSymbol } ∧ u' = { s with solventState := stateOf db s.solventSymbol } := by
    intro y z u u' h1 h2
    obtain ⟨rfl, -⟩ := hb s y u hP h1
    obtain ⟨g, g2⟩ := hc { s with solventState := stateOf db s.solventSymbol } z u' hP h2
    have := g2 s.solventState
    rw [g] at this
    exact ⟨h1, this, rfl, g⟩
  have twoc : ∀ y z u u', c s = (.ok z, u) → b u = (.ok y, u') →
      b s = (.ok y, { s with solventState := stateOf db s.solventSymbol }) ∧ c s = (.ok z, { s with solventState := stateOf db s.solventSymbol }) ∧
        u = { s with solventState := stateOf db s.solventSymbol } ∧ u' = { s with solventState := stateOf db s.solventSymbol } := by
    intro y z u u' h1 h2
    obtain ⟨rfl, -⟩ := hc s z u hP h1
    obtain ⟨g, g2⟩ := hb { s with solventState := stateOf db s.solventSymbol } y u' hP h2
    have := g2 s.solventState
    rw [g] at this
    exact ⟨this, h1, rfl, g⟩
  cases o <;> simp only [args3, bind_at (hp _), bind_ok, pure_ok] at h
  · obtain ⟨y, u, h1, z, u', h2, h3, h4⟩ := h
    obtain ⟨g1, g2, g3, g4⟩ := twob y z u u' h1 h2
    exact ⟨y, z, g1, g2, h3.symm, h4 ▸ g4⟩
  · obtain ⟨z, u, h1, y, u', h2, h3, h4⟩ := h
    obtain ⟨g1, g2, g3, g4⟩ := twoc y z u u' h1 h2
    exact ⟨y, z, g1, g2, h3.symm, h4 ▸ g4⟩
  · obtain ⟨y, u, h1, z, u', h2, h3, h4⟩ := h
    obtain ⟨g1, g2, g3, g4⟩ := twob y z u u' h1 h2
    exact ⟨y, z, g1, g2, by rw [← h3, g3], h4 ▸ g4⟩
  · obtain ⟨y, u, h1, z, u', h2, h3, h4⟩ := h
    obtain ⟨g1, g2, g3, g4⟩ := twob y z u u' h1 h2
    exact ⟨y, z, g1, g2, by rw [← h3, g4], h4 ▸ g4⟩
  · obtain ⟨z, u, h1, y, u', h2, h3, h4⟩ := h
    obtain ⟨g1, g2, g3, g4⟩ := twoc y z u u' h1 h2
    exact ⟨y, z, g1, g2, by rw [← h3, g3], h4 ▸ g4⟩
  · obtain ⟨z, u, h1, y, u', h2, h3, h4⟩ := h
    obtain ⟨g1, g2, g3, g4⟩ := twoc y z u u' h1 h2
    exact ⟨y, z, g1, g2, by rw [← h3, g4], h4 ▸ g4⟩

lemma args2_any {db : Db} {b : SM β} (hb : Solv db b) (o o' : Bool) : Carries (args2 o getP b) (args2 o' getP b) := by
  intro s r s' hP h
  have hp : ∀ u : St, getP u = (.ok u.P, u) := fun _ => rfl
  suffices H : ∃ y, b s = (.ok y, { s with solventState := stateOf db s.solventSymbol }) ∧ r = (s.P, y) ∧
      s' = { s with solventState := stateOf db s.solventSymbol } by
    obtain ⟨y, hy, rfl, rfl⟩ := H
    refine ⟨?_, rfl⟩
    cases o' <;> simp only [args2, Bool.false_eq_true, if_false, if_true, bind_at (hp _), bind_at hy] <;> rfl
  cases o <;> simp only [args2, Bool.false_eq_true, if_false, if_true, bind_at (hp _), bind_ok, pure_ok] at h
  · obtain ⟨y, u, h1, h3, h4⟩ := h
    obtain ⟨g, -⟩ := hb s y u hP h1
    exact ⟨y, g ▸ h1, h3.symm, h4 ▸ g⟩
  · obtain ⟨y, u, h1, h3, h4⟩ := h
    obtain ⟨g, -⟩ := hb s y u hP h1
    exact ⟨y, g ▸ h1, by rw [← h3, g], h4 ▸ g⟩

/-- The part of `waterStep` after the reading of state and pressure. -/
noncomputable def waterModel (e : Eng PS EPS) (T P : ℝ) (x : Subst) (st : Int) : Res TPS × ℝ :=
  if x.gen = .CON then (.ok x.ref, P)
  else match x.mT with
    | .WAT => (e.env.mods.wat x T P st e.env.db.tripleRef, e.gemsP T P)
    | .WAR => (e.env.mods.war x T (atSat T P) st e.env.db.tripleRef, atSat T P)
    | .WWP => (e.env.mods.wwp x T (atSat T P) st e.env.db.tripleRef, atSat T P)
    | .WZD => (e.env.mods.wzd x T P st, P)
    | _ => (if x.gen = .CPT then e.env.mods.cpt x T P else .ok TPS.default, P)

lemma waterStep_ok {e : Eng PS EPS} {T : ℝ} {x : Subst} {s s' : St} {v : TPS} :
    waterStep e T x s = (.ok v, s') ↔ (waterModel e T s.P x s.solventState).1 = .ok v ∧
      s' = { s with P := (waterModel e T s.P x s.solventState).2 } := by
  unfold waterStep
  rw [bind_at (show SM.read (·.solventState) s = (.ok s.solventState, s) from rfl), bind_at (show getP s = (.ok s.P, s) from rfl)]
  unfold waterModel
  by_cases hg : x.gen = .CON
  · simp only [hg, if_true, pure_ok, Res.ok.injEq]
    constructor <;> rintro ⟨h1, h2⟩ <;> exact ⟨h1, h2.symm⟩
  · simp only [hg, if_false]
    cases x.mT <;> simp only [writing_ok, lift_ok] <;> first
      | (constructor <;> rintro ⟨h1, h2⟩ <;> exact ⟨h1, h2.symm⟩)
      | (by_cases hc : x.gen = .CPT
         · simp only [hc, if_true, lift_ok]; constructor <;> rintro ⟨h1, h2⟩ <;> exact ⟨h1, h2.symm⟩
         · simp only [hc, if_false, pure_ok, Res.ok.injEq]; constructor <;> rintro ⟨h1, h2⟩ <;> exact ⟨h1, h2.symm⟩)
      | skip

lemma waterModel_keeps {e : Eng PS EPS} (hk : Keeps e) {T P : ℝ} (hP : P ≠ 0) (x : Subst) (st : Int) : (waterModel e T P x st).2 = P := by
  have h1 : atSat T P = P := if_neg hP
  unfold waterModel
  split
  · rfl
  · split <;> first | rfl | exact hk T P hP | exact h1

/-- The engine compiled with another order of arguments. -/
abbrev Eng.with (e : Eng PS EPS) (o : Orders) : Eng PS EPS := { e with ord := o }

lemma Carries.getP : Carries Sat.getP Sat.getP := Carries.read _

lemma carries_eos {e : Eng PS EPS} (hk : Keeps e) (o : Orders) (T : ℝ) (x : Subst) : Carries (eosStep e T x) (eosStep (e.with o) T x) := by
  have h1 : Carries (args3 e.ord.hkf Sat.getP (solventPS e T) (solventEPS e T)) (args3 o.hkf Sat.getP (solventPS (e.with o) T) (solventEPS (e.with o) T)) :=
    args3_any (solventPS_solv hk T) (solventEPS_solv hk T) _ _
  have h2 : ∀ w : Subst, Carries (args3 e.ord.ref Sat.getP (SM.onLocal w.refP (solventPS e w.refT)) (solventPS e T))
      (args3 o.ref Sat.getP (SM.onLocal w.refP (solventPS (e.with o) w.refT)) (solventPS (e.with o) T)) := fun w =>
    args3_any (onLocal_solv e _ _) (solventPS_solv hk T) _ _
  have h3 : Carries (solventRec e) (solventRec (e.with o)) := by
    intro s a s' hP h
    refine ⟨h, ?_⟩
    unfold solventRec at h
    rw [bind_at (show SM.read (·.solventSymbol) s = (.ok s.solventSymbol, s) from rfl)] at h
    rw [(getSub_ok.1 h).2]
  unfold eosStep
  cases x.gen
  case CON => exact .pure _
  case CPT => exact .bind .getP fun P => .lift _
  case HKF => exact .bind h1 fun r => .lift _
  case HKFR => exact .bind h1 fun r => .lift _
  case HP98 => exact .bind h3 fun w => .bind (h2 w) fun r => .lift _
  case AN91 => exact .bind h3 fun w => .bind (h2 w) fun r => .lift _
  all_goals exact .pure _

lemma carries_t (e : Eng PS EPS) (o : Orders) (T : ℝ) (x : Subst) (t : TPS) : Carries (tStep e T x t) (tStep (e.with o) T x t) := by
  unfold tStep
  refine .bind .getP fun P => ?_
  split
  · exact .pure _
  · split
    · exact .lift _
    · split
      · exact .lift _
      · exact .pure _
    · exact .pure _

/-- The record does not use the Akinfiev-Diamond model. -/
def NoAki (x : Subst) : Prop := x.mP ≠ .AKI ∨ x.gen = .CON

lemma carries_p (e : Eng PS EPS) (o : Orders) (r r' : Rec) (T : ℝ) (x : Subst) (t : TPS) (hx : NoAki x) :
    Carries (pStep e r T x t) (pStep (e.with o) r' T x t) := by
  unfold pStep
  refine .bind (.read _) fun fl => .bind .getP fun P => ?_
  split
  · exact .pure _
  · rename_i hg
    have := hx.resolve_right hg
    split <;> first | exact absurd ‹_› this | exact .lift _ | exact .pure _

lemma carries_water {e : Eng PS EPS} (hk : Keeps e) (o : Orders) (T : ℝ) (x : Subst) : Carries (waterStep e T x) (waterStep (e.with o) T x) := by
  intro s a s' hP h
  refine ⟨h, ?_⟩
  rw [(waterStep_ok.1 h).2, waterModel_keeps hk hP]

lemma carries_conv (e : Eng PS EPS) (o : Orders) (x : Subst) (t : TPS) : Carries (convStep e x t) (convStep (e.with o) x t) := by
  unfold convStep
  show Carries (if x.isSolvent = true then _ else _) (if x.isSolvent = true then
    (if iequals e.env.waterProperties.toList "STEAM_TABLES".toList = true then
      (match waterTripleData e.env.db.tripleRef with
        | some w => (pure (toSteamTables t w) : SM TPS)
        | none => SM.raise) else pure t) else
    (if iequals e.env.apparentProperties.toList "BERMAN_BROWN".toList = true then pure (toBermanBrown t x e.env.db.elemEntropy) else pure t))
  by_cases hs : x.isSolvent = true
  · simp only [hs, if_true]
    split
    · cases waterTripleData e.env.db.tripleRef with
      | some w => exact .pure _
      | none => exact .raise
    · exact .pure _
  · simp only [hs, Bool.false_eq_true, if_false]
    split <;> exact .pure _

lemma carries_methods {e : Eng PS EPS} (hk : Keeps e) (o : Orders) (r r' : Rec) (T : ℝ) (x : Subst) (hx : NoAki x) :
    Carries (methodsStep e r T x) (methodsStep (e.with o) r' T x) := by
  unfold methodsStep
  refine .bind ?_ fun t => carries_conv e o x t
  split
  · exact .bind (carries_eos hk o T x) fun a => .bind (carries_t e o T x a) fun b => carries_p e o r r' T x b hx
  · exact carries_water hk o T x

/-- Carried over for all recursive calls. -/
structure RecCarries (r r' : Rec) : Prop where
  sub : ∀ T y, Carries (r.sub T y) (r'.sub T y)
  reac : ∀ T y, Carries (r.reac T y) (r'.reac T y)
  direct : ∀ T x, NoAki x → Carries (r.direct T x) (r'.direct T x)

lemma carries_subtract {r r' : Rec} (h : RecCarries r r') (T : ℝ) (own : String) (l : List (String × ℝ)) (t : TPS) :
    Carries (subtractOthers r T own l t) (subtractOthers r' T own l t) := by
  induction l generalizing t with
  | nil => exact .pure _
  | cons y l ih =>
    obtain ⟨y, c⟩ := y
    unfold subtractOthers
    split
    · exact .bind (h.sub T y) fun ty => ih _
    · exact ih _

lemma carries_getReac (e : Eng PS EPS) (o : Orders) (y : String) : Carries (getReac e y) (getReac (e.with o) y) := by
  unfold getReac
  show Carries (match e.env.db.reacs.lookup y with | some v => pure v | none => SM.raise) (match e.env.db.reacs.lookup y with | some v => pure v | none => SM.raise)
  split
  · exact .pure _
  · exact .raise

lemma carries_getSub (e : Eng PS EPS) (o : Orders) (y : String) : Carries (getSub e y) (getSub (e.with o) y) := by
  intro s a s' _ h
  exact ⟨h, by rw [(getSub_ok.1 h).2]⟩

lemma carries_flag (b : Bool) : Carries (setFlag b) (setFlag b) := .change fun _ => rfl

lemma carries_reacDC {e : Eng PS EPS} (o : Orders) {r r' : Rec} (h : RecCarries r r') (T : ℝ) (x : Subst) :
    Carries (reacDC e r T x) (reacDC (e.with o) r' T x) := by
  unfold reacDC
  refine .bind (carries_flag _) fun _ => ?_
  split
  · refine .bind (carries_getReac e o _) fun re => .bind (h.reac _ _) fun tpr => .bind (carries_subtract h _ _ _ _) fun t =>
      .bind (carries_flag _) fun _ => .bind .getP fun P => ?_
    split
    · exact .lift _
    · exact .pure _
  · exact h.direct _ _ (Or.inr rfl)

lemma carries_prefs (e : Eng PS EPS) (o : Orders) (x : Subst) : Carries (setPrefs e x) (setPrefs (e.with o) x) := by
  refine .change fun s => ?_
  simp only
  split
  · split <;> rfl
  · rfl

lemma carries_substRec {e : Eng PS EPS} (hk : Keeps e) (o : Orders) {r r' : Rec} (h : RecCarries r r') (T : ℝ) (x : Subst) (hx : NoAki x) :
    Carries (substRec e r T x) (substRec (e.with o) r' T x) := by
  unfold substRec
  refine .bind (carries_prefs e o x) fun _ => ?_
  split
  · exact .pure _
  · refine .bind ?_ fun t => .pure _
    split
    · exact carries_reacDC o h T x
    · exact carries_methods hk o r r' T x hx

lemma carries_sum {e : Eng PS EPS} (o : Orders) {r r' : Rec} (h : RecCarries r r') (T : ℝ) (sym : String) (l : List (String × ℝ)) (t : TPR) :
    Carries (sumReactants e r T sym l t) (sumReactants (e.with o) r' T sym l t) := by
  induction l generalizing t with
  | nil => exact .pure _
  | cons y l ih =>
    obtain ⟨y, c⟩ := y
    unfold sumReactants
    refine .bind (carries_getSub e o y) fun v => ?_
    split
    · exact .raise
    · exact .bind (h.sub T y) fun ty => ih _

lemma carries_fromR {e : Eng PS EPS} (o : Orders) {r r' : Rec} (h : RecCarries r r') (T : ℝ) (x : Reac) :
    Carries (reacFromReactants e r T x) (reacFromReactants (e.with o) r' T x) := by
  unfold reacFromReactants
  exact .bind (carries_flag _) fun _ => .bind (carries_sum o h _ _ _ _) fun t => .bind (carries_flag _) fun _ => .pure _

lemma carries_reacP (e : Eng PS EPS) (o : Orders) (T : ℝ) (x : Reac) (t : TPR) : Carries (reacPStep e T x t) (reacPStep (e.with o) T x t) := by
  unfold reacPStep
  refine .bind .getP fun P => ?_
  split <;> first | exact .lift _ | exact .pure _

lemma carries_logk (e : Eng PS EPS) (o : Orders) (T : ℝ) (x : Reac) (m : Engine.CorrT) : Carries (logkStep e T x m) (logkStep (e.with o) T x m) := by
  unfold logkStep
  exact .bind .getP fun P => .lift _

lemma carries_reacRec {e : Eng PS EPS} (hk : Keeps e) (o : Orders) {r r' : Rec} (h : RecCarries r r') (T : ℝ) (x : Reac) :
    Carries (reacRec e r T x) (reacRec (e.with o) r' T x) := by
  have h1 : Carries (args2 e.ord.reac Sat.getP (solventPS e T)) (args2 o.reac Sat.getP (solventPS (e.with o) T)) := args2_any (solventPS_solv hk T) _ _
  unfold reacRec
  split
  · exact carries_fromR o h T x
  · split
    · exact .pure _
    · split <;> first
        | exact .bind (carries_logk e o T x _) fun t => carries_reacP e o T x t
        | exact .bind h1 fun p => .bind (.lift _) fun t => carries_reacP e o T x t
        | exact .bind h1 fun p => .lift _
        | exact carries_reacP e o T x _

lemma carries_reacSym {e : Eng PS EPS} (hk : Keeps e) (o : Orders) {r r' : Rec} (h : RecCarries r r') (T : ℝ) (y : String) :
    Carries (reacSym e r T y) (reacSym (e.with o) r' T y) := by
  unfold reacSym
  split
  · refine .bind ?_ fun re => carries_reacRec hk o h T re
    unfold ofEquation
    split
    · exact .pure _
    · exact .raise
    · exact .lift _
  · exact .bind (carries_getReac e o y) fun re => carries_reacRec hk o h T re

lemma carries_run {e : Eng PS EPS} (hk : Keeps e) (hx : ∀ y x, e.env.db.subs.lookup y = some x → NoAki x) (o : Orders) (n : Nat) :
    RecCarries (run e n) (run (e.with o) n) := by
  induction n with
  | zero => exact ⟨fun _ _ => .deep, fun _ _ => .deep, fun _ _ _ => .deep⟩
  | succ n ih =>
    refine ⟨fun T y => ?_, fun T y => carries_reacSym hk o ih T y, fun T x h => carries_substRec hk o ih T x h⟩
    intro s a s' hP h
    obtain ⟨x, s1, h1, h2⟩ := bind_ok.1 h
    obtain ⟨hy, rfl⟩ := getSub_ok.1 h1
    obtain ⟨g1, g2⟩ := carries_substRec hk o ih T x (hx y x hy) s a s' hP h2
    exact ⟨bind_ok.2 ⟨x, s, getSub_ok.2 ⟨hy, rfl⟩, g1⟩, g2⟩

lemma Carries.getP_bind {f f' : ℝ → SM β}
    (h : ∀ s a s', s.P ≠ 0 → f s.P s = (.ok a, s') → f' s.P s = (.ok a, s') ∧ s'.P = s.P) : Carries (Sat.getP >>= f) (Sat.getP >>= f') := by
  intro s a s' hP h1
  rw [bind_at (show Sat.getP s = (.ok s.P, s) from rfl)] at h1
  rw [bind_at (show Sat.getP s = (.ok s.P, s) from rfl)]
  exact h s a s' hP h1

lemma carries_setState (st : Int) : Carries (setState st) (setState st) := .change fun s => by
  split <;> rfl

lemma carries_propsRec {e : Eng PS EPS} (hk : Keeps e) (o : Orders) (T : ℝ) (x : Subst) (state : Int) :
    Carries (propsSolventRec e T x state) (propsSolventRec (e.with o) T x state) := by
  unfold propsSolventRec
  refine .bind (carries_prefs e o x) fun _ => .bind (carries_setState _) fun _ => .bind (.read _) fun st => .getP_bind ?_
  intro s a s' hP h
  have h1 : atSat T s.P = s.P := if_neg hP
  refine ⟨h, ?_⟩
  revert h
  by_cases hs : x.isSolvent = true
  · simp only [hs, if_true]
    cases x.mT <;> simp only [writing_ok, lift_ok, pure_ok] <;> rintro ⟨-, h2⟩ <;> rw [h2] <;> first | rfl | exact hk T _ hP | exact h1
  · simp only [hs, Bool.false_eq_true, if_false, pure_ok]
    rintro ⟨-, h2⟩
    rw [h2]

lemma carries_electroRec {e : Eng PS EPS} (hk : Keeps e) (o : Orders) (T : ℝ) (x : Subst) (state : Int) :
    Carries (electroRec e T x state) (electroRec (e.with o) T x state) := by
  unfold electroRec
  refine .bind (carries_prefs e o x) fun _ => .bind (carries_setState _) fun _ => .bind (.read _) fun st =>
    .bind (carries_propsRec hk o T x st) fun ps => .bind (.read _) fun st => .bind .getP fun P => ?_
  by_cases hs : x.isSolvent = true
  · simp only [hs, if_true]
    cases x.gen <;> first | exact .lift _ | exact .pure _
  · simp only [hs, Bool.false_eq_true, if_false]
    exact .pure _

lemma carries_ask {e : Eng PS EPS} (hk : Keeps e) (hx : ∀ y x, e.env.db.subs.lookup y = some x → NoAki x) (o : Orders) (n : Nat) (q : Query) :
    Carries (ask e n q) (ask (e.with o) n q) := by
  have hr := carries_run hk hx o n
  cases q with
  | sub T y => exact .bind (hr.sub T y) fun _ => .pure _
  | reac T y => exact .bind (hr.reac T y) fun _ => .pure _
  | fromR T y => exact .bind (carries_getReac e o y) fun x => .bind (carries_fromR o hr T x) fun _ => .pure _
  | props T y st => exact .bind (.bind (carries_getSub e o y) fun x => carries_propsRec hk o T x st) fun _ => .pure _
  | electro T y st => exact .bind (.bind (carries_getSub e o y) fun x => carries_electroRec hk o T x st) fun _ => .pure _

lemma query_ok {e : Eng PS EPS} {n : Nat} {q : Query} {P p : ℝ} {a : Answer PS EPS} :
    query e n q P = (.ok a, p) ↔ ∃ s', ask e n q (St.init P) = (.ok a, s') ∧ s'.P = p := by
  unfold query
  cases h : ask e n q (St.init P) with
  | mk r s =>
    simp only [Prod.mk.injEq]
    constructor
    · rintro ⟨h1, h2⟩; exact ⟨s, ⟨h1, rfl⟩, h2⟩
    · rintro ⟨s', ⟨h1, rfl⟩, h2⟩; exact ⟨h1, h2⟩

/-- C153, the proved part: at a pressure other than 0, with no Akinfiev-Diamond record in the database and as far as the gems water code
leaves the pressure alone, an answer of the engine compiled with one order of the arguments is an answer of the engine compiled with any
other, and the caller's variable is left alone.  Missing: pressure 0 (refuted below) and the Akinfiev-Diamond model. -/
theorem C153_partial (e : Eng PS EPS) (hk : ∀ T P, P ≠ 0 → e.gemsP T P = P)
    (hx : ∀ y x, e.env.db.subs.lookup y = some x → x.mP ≠ .AKI) (o : Orders) (n : Nat) (q : Query) (P p : ℝ) (hP : P ≠ 0) (a : Answer PS EPS)
    (h : query e n q P = (.ok a, p)) : query { e with ord := o } n q P = (.ok a, p) ∧ p = P := by
  obtain ⟨s', h1, h2⟩ := query_ok.1 h
  obtain ⟨g1, g2⟩ := carries_ask hk (fun y x h => Or.inl (hx y x h)) o n q _ _ _ hP h1
  exact ⟨query_ok.2 ⟨s', g1, h2⟩, h2.symm.trans g2⟩

/-! ### Pressure 0 -/

lemma psat_pos (T : ℝ) : 0 < psat T := by
  unfold psat WP.satPressure
  simp only [TS.op_val_mulL, TS.val_exp]
  exact mul_pos (by unfold waterCriticalPressure; norm_num) (Real.exp_pos _)

lemma atSat_zero (T : ℝ) : atSat T 0 = psat T := if_pos rfl
lemma atSat_psat (T : ℝ) : atSat T (psat T) = psat T := if_neg (psat_pos T).ne'

/-- The first thing the calculation does with the pressure is to replace 0 by the saturation pressure: it has the same answers, with the same
effect on the engine, for the variable with 0 and for the variable with the saturation pressure. -/
def Lifts (T : ℝ) (m : SM α) : Prop :=
  ∀ s, s.solventSymbol = "H2O@" → s.P = 0 → ∀ a s', m s = (.ok a, s') ↔ m { s with P := psat T } = (.ok a, s')

lemma Lifts.bind {T : ℝ} {m : SM α} (h : Lifts T m) (f : α → SM β) : Lifts T (m >>= f) := by
  intro s hs hP b s'
  simp only [bind_ok]
  constructor
  · rintro ⟨a, s1, h1, h2⟩; exact ⟨a, s1, (h s hs hP a s1).1 h1, h2⟩
  · rintro ⟨a, s1, h1, h2⟩; exact ⟨a, s1, (h s hs hP a s1).2 h1, h2⟩

/-- The calculation neither reads nor writes the pressure. -/
def Blind (m : SM α) : Prop :=
  ∀ s, s.solventSymbol = "H2O@" → ∀ a s', m s = (.ok a, s') →
    s'.solventSymbol = "H2O@" ∧ s'.P = s.P ∧ ∀ P, m { s with P := P } = (.ok a, { s' with P := P })

lemma Blind.lifts {T : ℝ} {m : SM α} {f : α → SM β} (hm : Blind m) (hf : ∀ a, Lifts T (f a)) : Lifts T (m >>= f) := by
  intro s hs hP b s'
  simp only [bind_ok]
  constructor
  · rintro ⟨a, s1, h1, h2⟩
    obtain ⟨g1, g2, g3⟩ := hm s hs a s1 h1
    exact ⟨a, _, g3 (psat T), (hf a s1 g1 (g2.trans hP) b s').1 h2⟩
  · rintro ⟨a, s1, h1, h2⟩
    obtain ⟨g1, g2, g3⟩ := hm { s with P := psat T } hs a s1 h1
    have e0 : ({ ({ s with P := psat T } : St) with P := 0 } : St) = s := by rw [← hP]
    have e1 : ({ ({ s1 with P := 0 } : St) with P := psat T } : St) = s1 := by
      have : s1.P = psat T := g2
      rw [← this]
    have := g3 0
    rw [e0] at this
    refine ⟨a, _, this, (hf a { s1 with P := 0 } g1 rfl b s').2 ?_⟩
    rw [e1]
    exact h2

lemma Blind.bind {m : SM α} {f : α → SM β} (hm : Blind m) (hf : ∀ a, Blind (f a)) : Blind (m >>= f) := by
  intro s hs b s' h
  obtain ⟨a, s1, h1, h2⟩ := bind_ok.1 h
  obtain ⟨g1, g2, g3⟩ := hm s hs a s1 h1
  obtain ⟨k1, k2, k3⟩ := hf a s1 g1 b s' h2
  exact ⟨k1, k2.trans g2, fun P => bind_ok.2 ⟨a, _, g3 P, k3 P⟩⟩

lemma Blind.pure (a : α) : Blind (Pure.pure a : SM α) := by
  intro s hs b s' h
  obtain ⟨rfl, rfl⟩ := pure_ok.1 h
  exact ⟨hs, rfl, fun P => rfl⟩

lemma Blind.lift (r : Res α) : Blind (SM.lift r) := by
  intro s hs b s' h
  obtain ⟨h1, rfl⟩ := lift_ok.1 h
  exact ⟨hs, rfl, fun P => lift_ok.2 ⟨h1, rfl⟩⟩

lemma Blind.raise : Blind (SM.raise : SM α) := fun s _ b s' h => by injection h with h; cases h

lemma Blind.read {f : St → α} (hf : ∀ s P, f { s with P := P } = f s) : Blind (SM.read f) := by
  intro s hs b s' h
  obtain ⟨h1, rfl⟩ := read_ok.1 h
  exact ⟨hs, rfl, fun P => read_ok.2 ⟨(hf s P).trans h1, rfl⟩⟩

/-- A calculation that begins with the pressure but does not use it. -/
lemma Blind.getP_const {m : SM β} (hm : Blind m) {f : ℝ → SM β} (hf : ∀ P, f P = m) : Blind (Sat.getP >>= f) := by
  have : ∀ s, (Sat.getP >>= f) s = m s := fun s => by
    rw [bind_at (show Sat.getP s = (.ok s.P, s) from rfl), hf]
  intro s hs a s' h
  rw [this] at h
  obtain ⟨g1, g2, g3⟩ := hm s hs a s' h
  exact ⟨g1, g2, fun P => by rw [this]; exact g3 P⟩

lemma blind_flag (b : Bool) : Blind (setFlag b) := by
  intro s hs a s' h
  injection h with h1 h2
  subst h2
  exact ⟨hs, rfl, fun P => rfl⟩

lemma blind_getSub (e : Eng PS EPS) (y : String) : Blind (getSub e y) := by
  intro s hs a s' h
  obtain ⟨h1, rfl⟩ := getSub_ok.1 h
  exact ⟨hs, rfl, fun P => getSub_ok.2 ⟨h1, rfl⟩⟩

lemma blind_prefs {e : Eng PS EPS} (hw : (e.env.db.subs.lookup "H2O@").isSome) (x : Subst) : Blind (setPrefs e x) := by
  intro s hs a s' h
  rw [setPrefs_found (by rw [hs]; exact hw)] at h
  injection h with h1 h2
  subst h2
  exact ⟨hs, rfl, fun P => setPrefs_found (s := { s with P := P }) (by show (e.env.db.subs.lookup s.solventSymbol).isSome; rw [hs]; exact hw)⟩

/-- The solvent of the engine: one of the two models that write the saturation pressure into the variable. -/
structure Water (e : Eng PS EPS) (w : Subst) : Prop where
  found : e.env.db.subs.lookup "H2O@" = some w
  solvent : w.isSolvent = true
  model : w.mT = .WAR ∨ w.mT = .WWP

lemma Water.some {e : Eng PS EPS} {w : Subst} (h : Water e w) : (e.env.db.subs.lookup "H2O@").isSome := by rw [h.found]; rfl

lemma psModel_sat {e : Eng PS EPS} {x : Subst} (hx : x.isSolvent = true) (hm : x.mT = .WAR ∨ x.mT = .WWP) (T : ℝ) (st : Int) :
    psModel e T 0 x st = psModel e T (psat T) x st := by
  unfold psModel
  rw [if_pos hx, if_pos hx]
  rcases hm with h | h <;> simp only [h, atSat_zero, atSat_psat]

lemma lifts_propsRec {e : Eng PS EPS} {w : Subst} (hw : Water e w) {x : Subst} (hx : x.isSolvent = true) (hm : x.mT = .WAR ∨ x.mT = .WWP)
    (T : ℝ) (st : Int) : Lifts T (propsSolventRec e T x st) := by
  intro s hs hP a s'
  have hf : (e.env.db.subs.lookup s.solventSymbol).isSome := by rw [hs]; exact hw.some
  rw [propsRec_ok hf, propsRec_ok (s := { s with P := psat T }) hf, hP, psModel_sat hx hm]

lemma lifts_electroRec {e : Eng PS EPS} {w : Subst} (hw : Water e w) {x : Subst} (hx : x.isSolvent = true) (hm : x.mT = .WAR ∨ x.mT = .WWP)
    (T : ℝ) (st : Int) : Lifts T (electroRec e T x st) := by
  intro s hs hP a s'
  have hf : (e.env.db.subs.lookup s.solventSymbol).isSome := by rw [hs]; exact hw.some
  rw [electroRec_ok hf, electroRec_ok (s := { s with P := psat T }) hf, hP, psModel_sat hx hm]

lemma lifts_solventPS {e : Eng PS EPS} {w : Subst} (hw : Water e w) (T : ℝ) : Lifts T (solventPS e T) := by
  intro s hs hP a s'
  have key : ∀ u : St, u.solventSymbol = "H2O@" → (solventPS e T u = (.ok a, s') ↔ propsSolventRec e T w (-1) u = (.ok a, s')) := by
    intro u hu
    unfold solventPS propsSolvent
    rw [bind_at (show SM.read (·.solventSymbol) u = (.ok u.solventSymbol, u) from rfl), bind_at (getSub_ok.2 ⟨hu ▸ hw.found, rfl⟩)]
  rw [key s hs, key { s with P := psat T } hs]
  exact lifts_propsRec hw hw.solvent hw.model T (-1) s hs hP a s'

lemma lifts_solventEPS {e : Eng PS EPS} {w : Subst} (hw : Water e w) (T : ℝ) : Lifts T (solventEPS e T) := by
  intro s hs hP a s'
  have key : ∀ u : St, u.solventSymbol = "H2O@" → (solventEPS e T u = (.ok a, s') ↔ electroRec e T w (-1) u = (.ok a, s')) := by
    intro u hu
    unfold solventEPS electro
    rw [bind_at (show SM.read (·.solventSymbol) u = (.ok u.solventSymbol, u) from rfl), bind_at (getSub_ok.2 ⟨hu ▸ hw.found, rfl⟩)]
  rw [key s hs, key { s with P := psat T } hs]
  exact lifts_electroRec hw hw.solvent hw.model T (-1) s hs hP a s'

lemma blind_local {e : Eng PS EPS} {w : Subst} (hw : Water e w) (p T : ℝ) : Blind (SM.onLocal p (solventPS e T)) := by
  intro s hs a s' h
  obtain ⟨s1, h1, rfl⟩ := onLocal_ok.1 h
  obtain ⟨v, _, _, g⟩ := solventPS_ok.1 h1
  subst g
  refine ⟨hs, rfl, fun P => onLocal_ok.2 ⟨_, h1, rfl⟩⟩

/-- The order evaluates a calculation on the solvent before it reads the pressure. -/
def solventFirst (o : Ord3) : Prop := o ≠ .abc ∧ o ≠ .acb

/-- The order evaluates the last argument before it reads the pressure. -/
def lastFirst (o : Ord3) : Prop := o = .bca ∨ o = .cab ∨ o = .cba

/-- Records whose calculation lifts the pressure: water with one of the two models, and solutes whose model is called with the
solvent properties evaluated before the pressure is read. -/
def Lifting (o : Orders) (x : Subst) : Prop :=
  x.symbol ≠ "H+" ∧ x.isReacDC = false ∧
    (((x.isSolvent = true ∨ x.isVapor = true) ∧ x.gen ≠ .CON ∧ (x.mT = .WAR ∨ x.mT = .WWP)) ∨
      (x.isSolvent = false ∧ x.isVapor = false ∧
        (((x.gen = .HKF ∨ x.gen = .HKFR) ∧ solventFirst o.hkf) ∨ ((x.gen = .HP98 ∨ x.gen = .AN91) ∧ lastFirst o.ref))))

/-- Records whose calculation has nothing to do with the pressure: the hydrogen ion and constant properties. -/
def Constant (x : Subst) : Prop := x.symbol = "H+" ∨ (x.isReacDC = false ∧ x.gen = .CON)

lemma lifts_args_first {T : ℝ} {b : SM β} {c : SM γ} (hb : Lifts T b) (hc : Lifts T c) {o : Ord3} (ho : solventFirst o) :
    Lifts T (args3 o getP b c) := by
  cases o
  · exact absurd rfl ho.1
  · exact absurd rfl ho.2
  · exact hb.bind _
  · exact hb.bind _
  · exact hc.bind _
  · exact hc.bind _

lemma lifts_args_last {T : ℝ} {b : SM β} {c : SM γ} (hb : Blind b) (hc : Lifts T c) {o : Ord3} (ho : lastFirst o) :
    Lifts T (args3 o getP b c) := by
  rcases ho with rfl | rfl | rfl
  · exact hb.lifts fun _ => hc.bind _
  · exact hc.bind _
  · exact hc.bind _

lemma lifts_eos {e : Eng PS EPS} {w : Subst} (hw : Water e w) (T : ℝ) {x : Subst}
    (h : ((x.gen = .HKF ∨ x.gen = .HKFR) ∧ solventFirst e.ord.hkf) ∨ ((x.gen = .HP98 ∨ x.gen = .AN91) ∧ lastFirst e.ord.ref)) :
    Lifts T (eosStep e T x) := by
  have h3 : Blind (solventRec e) := .bind (.read fun _ _ => rfl) fun sy => blind_getSub e sy
  unfold eosStep
  rcases h with ⟨h | h, ho⟩ | ⟨h | h, ho⟩ <;> simp only [h]
  · exact (lifts_args_first (lifts_solventPS hw T) (lifts_solventEPS hw T) ho).bind _
  · exact (lifts_args_first (lifts_solventPS hw T) (lifts_solventEPS hw T) ho).bind _
  · exact h3.lifts fun v => (lifts_args_last (blind_local hw _ _) (lifts_solventPS hw T) ho).bind _
  · exact h3.lifts fun v => (lifts_args_last (blind_local hw _ _) (lifts_solventPS hw T) ho).bind _

lemma lifts_water (e : Eng PS EPS) (T : ℝ) {x : Subst} (hg : x.gen ≠ .CON) (hm : x.mT = .WAR ∨ x.mT = .WWP) : Lifts T (waterStep e T x) := by
  intro s hs hP a s'
  have : ∀ st, waterModel e T 0 x st = waterModel e T (psat T) x st := by
    intro st
    unfold waterModel
    rw [if_neg hg, if_neg hg]
    rcases hm with h | h <;> simp only [h, atSat_zero, atSat_psat]
  rw [waterStep_ok, waterStep_ok (s := { s with P := psat T }), hP, this]

lemma lifts_subst {e : Eng PS EPS} {w : Subst} (hw : Water e w) (r : Rec) (T : ℝ) {x : Subst} (hx : Lifting e.ord x) : Lifts T (substRec e r T x) := by
  obtain ⟨h1, h2, h3⟩ := hx
  unfold substRec
  refine (blind_prefs hw.some x).lifts fun _ => ?_
  rw [if_neg h1]
  refine Lifts.bind ?_ _
  rw [h2, if_neg Bool.false_ne_true]
  unfold methodsStep
  refine Lifts.bind ?_ _
  rcases h3 with ⟨h4, h5, h6⟩ | ⟨h4, h5, h6⟩
  · rw [if_neg (by rintro ⟨h7, h8⟩; rw [h7, h8] at h4; simp at h4)]
    exact lifts_water e T h5 h6
  · rw [if_pos ⟨h4, h5⟩]
    exact (lifts_eos hw T h6).bind _

lemma blind_conv (e : Eng PS EPS) (x : Subst) (t : TPS) : Blind (convStep e x t) := by
  unfold convStep
  split
  · split
    · split
      · exact .pure _
      · exact .raise
    · exact .pure _
  · split <;> exact .pure _

lemma blind_subst {e : Eng PS EPS} {w : Subst} (hw : Water e w) (r : Rec) (T : ℝ) {x : Subst} (hx : Constant x) : Blind (substRec e r T x) := by
  unfold substRec
  refine (blind_prefs hw.some x).bind fun _ => ?_
  by_cases h : x.symbol = "H+"
  · rw [if_pos h]; exact .pure _
  · rw [if_neg h]
    obtain ⟨h1, h2⟩ := hx.resolve_left h
    refine .bind ?_ fun _ => .pure _
    rw [h1, if_neg Bool.false_ne_true]
    unfold methodsStep
    refine .bind ?_ fun _ => blind_conv e x _
    split
    · refine .bind ?_ fun a => .bind ?_ fun b => ?_
      · unfold eosStep; simp only [h2]; exact .pure _
      · unfold tStep; exact .getP_const (.pure a) fun P => by rw [if_pos h2]
      · unfold pStep; exact .bind (.read fun _ _ => rfl) fun fl => .getP_const (.pure b) fun P => by rw [if_pos h2]
    · unfold waterStep
      exact .bind (.read fun _ _ => rfl) fun st => .getP_const (.pure x.ref) fun P => by rw [if_pos h2]

/-- A list of reactants that begins with constant ones, followed by one that lifts the pressure. -/
def Led (e : Eng PS EPS) (l : List (String × ℝ)) : Prop :=
  ∃ l1 y c l2, l = l1 ++ (y, c) :: l2 ∧ (∀ z ∈ l1, ∃ x, e.env.db.subs.lookup z.1 = some x ∧ Constant x) ∧
    ∃ x, e.env.db.subs.lookup y = some x ∧ Lifting e.ord x

lemma lifts_sub {e : Eng PS EPS} {w : Subst} (hw : Water e w) (n : Nat) (T : ℝ) {y : String} {x : Subst} (hy : e.env.db.subs.lookup y = some x)
    (hx : Lifting e.ord x) : Lifts T ((run e (n + 1)).sub T y) := by
  intro s hs hP a s'
  have key : ∀ u : St, (run e (n + 1)).sub T y u = substRec e (run e n) T x u := fun u => bind_at (getSub_ok.2 ⟨hy, rfl⟩)
  rw [key, key]
  exact lifts_subst hw _ T hx s hs hP a s'

lemma blind_sub {e : Eng PS EPS} {w : Subst} (hw : Water e w) (n : Nat) (T : ℝ) {y : String} {x : Subst} (hy : e.env.db.subs.lookup y = some x)
    (hx : Constant x) : Blind ((run e (n + 1)).sub T y) := by
  intro s hs a s' h
  have key : ∀ u : St, (run e (n + 1)).sub T y u = substRec e (run e n) T x u := fun u => bind_at (getSub_ok.2 ⟨hy, rfl⟩)
  rw [key] at h
  simp only [key]
  exact blind_subst hw _ T hx s hs a s' h

lemma lifts_raise (T : ℝ) : Lifts T (SM.raise : SM α) := fun s _ _ a s' =>
  ⟨fun h => by (injection h with h; cases h), fun h => by (injection h with h; cases h)⟩

lemma lifts_sum {e : Eng PS EPS} {w : Subst} (hw : Water e w) (n : Nat) (T : ℝ) (sym : String) {l : List (String × ℝ)} (hl : Led e l) (t : TPR) :
    Lifts T (sumReactants e (run e (n + 1)) T sym l t) := by
  obtain ⟨l1, y, c, l2, rfl, h1, x, hx, hlx⟩ := hl
  induction l1 generalizing t with
  | nil =>
    show Lifts T (sumReactants e _ T sym ((y, c) :: l2) t)
    unfold sumReactants
    refine (blind_getSub e y).lifts fun v => ?_
    split
    · exact lifts_raise T
    · exact (lifts_sub hw n T hx hlx).bind _
  | cons z l1 ih =>
    obtain ⟨z, d⟩ := z
    show Lifts T (sumReactants e _ T sym ((z, d) :: (l1 ++ (y, c) :: l2)) t)
    unfold sumReactants
    refine (blind_getSub e z).lifts fun v => ?_
    split
    · exact lifts_raise T
    · obtain ⟨x', hx', hc⟩ := h1 (z, d) (List.mem_cons_self ..)
      exact (blind_sub hw n T hx' hc).lifts fun _ => ih _ (fun z' hz => h1 z' (List.mem_cons_of_mem _ hz))

lemma lifts_fromR {e : Eng PS EPS} {w : Subst} (hw : Water e w) (n : Nat) (T : ℝ) {x : Reac} (hl : Led e x.reactants) :
    Lifts T (reacFromReactants e (run e (n + 1)) T x) := by
  unfold reacFromReactants
  exact (blind_flag _).lifts fun _ => (lifts_sum hw n T _ hl _).bind _

lemma blind_getReac (e : Eng PS EPS) (y : String) : Blind (getReac e y) := by
  unfold getReac
  split
  · exact .pure _
  · exact .raise

/-- Queries whose calculation turns the pressure 0 into the saturation pressure before it is used: on the solvent itself, on solutes whose
model is called with the solvent properties evaluated before the pressure is read, and on reactions calculated from reactants the first of which that is not constant
is of this kind. -/
inductive Saturable (e : Eng PS EPS) (T : ℝ) : Query → Prop
  | sub {y x} : e.env.db.subs.lookup y = some x → Lifting e.ord x → Saturable e T (.sub T y)
  | fromR {y x} : e.env.db.reacs.lookup y = some x → Led e x.reactants → Saturable e T (.fromR T y)
  | reac {y x} : e.env.db.reacs.lookup y = some x → x.fromReactants = true → Led e x.reactants → Saturable e T (.reac T y)
  | props {y x st} : e.env.db.subs.lookup y = some x → x.isSolvent = true → (x.mT = .WAR ∨ x.mT = .WWP) → Saturable e T (.props T y st)
  | electro {y x st} : e.env.db.subs.lookup y = some x → x.isSolvent = true → (x.mT = .WAR ∨ x.mT = .WWP) → Saturable e T (.electro T y st)

lemma getReac_ok {e : Eng PS EPS} {y : String} {x : Reac} (h : e.env.db.reacs.lookup y = some x) (s : St) : getReac e y s = (.ok x, s) := by
  unfold getReac
  rw [h]
  rfl

lemma Lifts.congr {T : ℝ} {m m' : SM α} (h : Lifts T m') (e : ∀ s, m s = m' s) : Lifts T m := by
  intro s hs hP a s'
  rw [e, e]
  exact h s hs hP a s'

lemma lifts_ask {e : Eng PS EPS} {w : Subst} (hw : Water e w) (n : Nat) {T : ℝ} {q : Query} (hq : Saturable e T q) : Lifts T (ask e (n + 2) q) := by
  cases hq with
  | sub hy hx => exact (lifts_sub hw (n + 1) T hy hx).bind _
  | fromR hy hl => exact Lifts.congr ((lifts_fromR hw (n + 1) T hl).bind _) fun s => bind_at (getReac_ok hy s)
  | reac hy hf hl =>
    refine Lifts.bind (Lifts.congr (lifts_fromR hw n T hl) fun s => ?_) _
    show reacSym e (run e (n + 1)) T _ s = _
    unfold reacSym
    rw [if_neg (by rw [hy]; simp), bind_at (getReac_ok hy s)]
    unfold reacRec
    rw [if_pos hf]
  | @props y x st hy hs hm =>
    refine Lifts.bind (Lifts.congr (lifts_propsRec hw hs hm T st) fun s => ?_) _
    show (getSub e y >>= fun v => propsSolventRec e T v st) s = _
    rw [bind_at (getSub_ok.2 ⟨hy, rfl⟩)]
  | @electro y x st hy hs hm =>
    refine Lifts.bind (Lifts.congr (lifts_electroRec hw hs hm T st) fun s => ?_) _
    show (getSub e y >>= fun v => electroRec e T v st) s = _
    rw [bind_at (getSub_ok.2 ⟨hy, rfl⟩)]

/-- C154, the proved part: for the queries of `Saturable` an answer at pressure 0 is an answer at the saturation pressure and the other way
round; and if nothing else changes the pressure, it is the answer at the pressure handed back, which is the saturation pressure.
Missing: minerals and gases, which are calculated at pressure 0, and reactions in which one of them comes before the water (refuted below); solutes
of which the pressure is read first (refuted below); the Akinfiev-Diamond model and the gems water code. -/
theorem C154_partial (e : Eng PS EPS) (w : Subst) (hw : Water e w) (n : Nat) (T : ℝ) (q : Query) (hq : Saturable e T q) :
    (∀ a p, query e (n + 2) q 0 = (.ok a, p) ↔ query e (n + 2) q (WP.satPressure (TS.temperature T)).val = (.ok a, p)) ∧
    ((∀ T P, P ≠ 0 → e.gemsP T P = P) → (∀ y x, e.env.db.subs.lookup y = some x → x.mP ≠ .AKI) → ∀ a p, query e (n + 2) q 0 = (.ok a, p) →
      p = (WP.satPressure (TS.temperature T)).val ∧ query e (n + 2) q p = (.ok a, p)) := by
  have key : ∀ a p, query e (n + 2) q 0 = (.ok a, p) ↔ query e (n + 2) q (WP.satPressure (TS.temperature T)).val = (.ok a, p) := by
    intro a p
    rw [query_ok, query_ok]
    constructor
    · rintro ⟨s', h1, h2⟩
      exact ⟨s', (lifts_ask hw n hq (St.init 0) rfl rfl a s').1 h1, h2⟩
    · rintro ⟨s', h1, h2⟩
      exact ⟨s', (lifts_ask hw n hq (St.init 0) rfl rfl a s').2 h1, h2⟩
  refine ⟨key, fun hk hx a p h => ?_⟩
  have h1 := (key a p).1 h
  obtain ⟨-, h2⟩ := C153_partial e hk hx e.ord (n + 2) q _ p (psat_pos T).ne' a h1
  exact ⟨h2, by rw [h2] at h1 ⊢; exact h1⟩

/-- C153 at pressure 0, the proved part: two orders for both of which the query belongs to `Saturable` give the same answer. -/
theorem C153_saturation_partial (e : Eng PS EPS) (w : Subst) (hw : Water e w) (hk : ∀ T P, P ≠ 0 → e.gemsP T P = P)
    (hx : ∀ y x, e.env.db.subs.lookup y = some x → x.mP ≠ .AKI) (o : Orders) (n : Nat) (T : ℝ) (q : Query) (hq : Saturable e T q)
    (hq' : Saturable { e with ord := o } T q) (a : Answer PS EPS) (p : ℝ) (h : query e (n + 2) q 0 = (.ok a, p)) :
    query { e with ord := o } (n + 2) q 0 = (.ok a, p) := by
  have h1 := ((C154_partial e w hw n T q hq).1 a p).1 h
  have h2 := (C153_partial e hk hx o (n + 2) q _ p (psat_pos T).ne' a h1).1
  exact ((C154_partial { e with ord := o } w ⟨hw.found, hw.solvent, hw.model⟩ n T q hq').1 a p).2 h2

/-! ### Examples -/

/-- The database of Props/Aqueous.lean with the reactions A = H2O@ (its reactants in the order of `std::map`) and H+ + H2O@ = N. -/
noncomputable def exSatEnv : Env PSolv ESolv :=
  { exAq "BENSON_HELGESON" with
    db := { (exAq "BENSON_HELGESON").db with
      reacs := [("q", fromR "q" [("A", -1), ("H2O@", 1)]), ("u", fromR "u" [("H+", -1), ("H2O@", -1), ("N", 1)])] } }

/-- The engine of the examples. -/
noncomputable def exSat (o : Orders) : Eng PSolv ESolv := ⟨exSatEnv, o, fun _ P => P, fun _ P => P / 1e5⟩

lemma exSat_water (o : Orders) : Water (exSat o) exAqWater := ⟨rfl, rfl, Or.inr rfl⟩
lemma exSat_keeps (o : Orders) : ∀ T P, P ≠ 0 → (exSat o).gemsP T P = P := fun _ _ _ => rfl
lemma exSat_noAki (o : Orders) : ∀ y x, (exSat o).env.db.subs.lookup y = some x → x.mP ≠ .AKI := by
  intro y x h
  have := mem_of_lookup h
  simp only [exSat, exSatEnv, exAq, List.mem_cons, Prod.mk.injEq, List.not_mem_nil, or_false] at this
  rcases this with ⟨-, rfl⟩ | ⟨-, rfl⟩ | ⟨-, rfl⟩ | ⟨-, rfl⟩ | ⟨-, rfl⟩ | ⟨-, rfl⟩ <;> simp [exAqWater, exSolute, exMineral]

lemma conv_none {o : Orders} {x : Subst} {t : TPS} : convStep (exSat o) x t = pure t := by
  have h1 : iequals (exSat o).env.waterProperties.toList "STEAM_TABLES".toList = false := by
    show iequals "GEOCHEMICAL".toList "STEAM_TABLES".toList = false
    decide +kernel
  have h2 : iequals (exSat o).env.apparentProperties.toList "BERMAN_BROWN".toList = false := by
    show iequals "BENSON_HELGESON".toList "BERMAN_BROWN".toList = false
    decide +kernel
  unfold convStep
  rw [h1, h2]
  simp

/-- A record with methods in the examples: the answer is that of the methods. -/
lemma exSat_subst {o : Orders} {r : Rec} {T : ℝ} {x : Subst} {s s' : St} {t : TPS} (hs : s.solventSymbol = "H2O@") (h1 : x.symbol ≠ "H+")
    (h2 : x.isReacDC = false)
    (h : methodsStep (exSat o) r T x { s with solventState := if x.gas then 1 else 0 } = (.ok t, s')) :
    substRec (exSat o) r T x s = (.ok t, s') := by
  unfold substRec
  rw [bind_at (setPrefs_found (by rw [hs]; rfl)), if_neg h1, h2, if_neg Bool.false_ne_true, bind_at h]
  rfl

/-- Solvent properties of the examples. -/
lemma exSat_ps (o : Orders) (T : ℝ) (s : St) (hs : s.solventSymbol = "H2O@") :
    solventPS (exSat o) T s = (.ok (sampleRho T (atSat T s.P)), { s with solventState := 0, P := atSat T s.P }) :=
  solventPS_ok.2 ⟨exAqWater, by rw [hs]; rfl, rfl, rfl⟩

lemma exSat_es (o : Orders) (T : ℝ) (s : St) (hs : s.solventSymbol = "H2O@") :
    solventEPS (exSat o) T s = (.ok (sampleDiel T (atSat T s.P)), { s with solventState := 0, P := atSat T s.P }) :=
  solventEPS_ok.2 ⟨exAqWater, by rw [hs]; rfl, _, rfl, rfl, rfl⟩

open Classical in
/-- The pressure the model of a solute is called with. -/
noncomputable def readAt (o : Ord3) (T P : ℝ) : ℝ := if solventFirst o then atSat T P else P

lemma atSat_idem (T P : ℝ) : atSat T (atSat T P) = atSat T P := by
  unfold atSat
  by_cases h : P = 0
  · rw [if_pos h, if_neg (psat_pos T).ne']
  · rw [if_neg h, if_neg h]

lemma exSat_args (o : Orders) (o3 : Ord3) (T : ℝ) (s : St) (hs : s.solventSymbol = "H2O@") :
    args3 o3 getP (solventPS (exSat o) T) (solventEPS (exSat o) T) s =
      (.ok (readAt o3 T s.P, sampleRho T (atSat T s.P), sampleDiel T (atSat T s.P)), { s with solventState := 0, P := atSat T s.P }) := by
  have hp : ∀ u : St, getP u = (.ok u.P, u) := fun _ => rfl
  have e1 := exSat_ps o T s hs
  have e2 := exSat_es o T s hs
  have e3 := exSat_ps o T { s with solventState := 0, P := atSat T s.P } hs
  have e4 := exSat_es o T { s with solventState := 0, P := atSat T s.P } hs
  simp only [atSat_idem] at e3 e4
  unfold readAt solventFirst
  cases o3 <;> simp only [args3, bind_at (hp _), bind_at e1, bind_at e2, bind_at e3, bind_at e4] <;> simp <;> rfl

/-- The answer for the neutral solute N: G grows with the pressure the model is called with. -/
lemma exSat_N : ∃ C : ℝ, ∀ (o : Orders) (n : Nat) (P : ℝ), ∃ t : TPS,
    query (exSat o) (n + 1) (.sub 280 "N") P = (.ok (.sub t), atSat 280 P) ∧ t.G.val = C + 4.184 * (readAt o.hkf 280 P / 1e5) := by
  let x := exSolute "N" 0 [1, 0, 0, 0, 0, 0, 0] 70 (-10) 5
  let b : ESub :=
    { w := TS.assign TS.default 0, wT := TS.assign TS.default 0, wP := TS.assign TS.default 0, wTT := TS.assign TS.default 0,
      wTP := TS.assign TS.default 0, wPP := TS.assign TS.default 0 }
  obtain ⟨r0, _, v0⟩ := hkfReaktoro_vals 280 0 x.ref b (sampleDiel 280 0) 1 0 0 0 0 0 0 []
  refine ⟨r0.G.val, fun o n P => ?_⟩
  obtain ⟨r, hr, v⟩ := hkfReaktoro_vals 280 (readAt o.hkf 280 P) x.ref b (sampleDiel 280 (atSat 280 P)) 1 0 0 0 0 0 0 []
  refine ⟨r, ?_, ?_⟩
  · have hm : (exSat o).env.mods.hkfr x 280 (readAt o.hkf 280 P) (sampleRho 280 (atSat 280 P)) (sampleDiel 280 (atSat 280 P)) = .ok r := hr
    refine query_ok.2 ⟨{ P := atSat 280 P, solventState := 0, solventSymbol := "H2O@", pcorr := (St.init P).pcorr }, ?_, rfl⟩
    refine bind_ok.2 ⟨r, _, ?_, rfl⟩
    refine bind_ok.2 ⟨x, _, getSub_ok.2 ⟨rfl, rfl⟩, ?_⟩
    refine exSat_subst rfl (by decide) (by simp [Subst.isReacDC, Subst.noMethods, x, exSolute]) ?_
    unfold methodsStep
    refine bind_ok.2 ⟨r, _, ?_, by rw [conv_none]; rfl⟩
    rw [if_pos ⟨rfl, rfl⟩]
    refine bind_ok.2 ⟨r, _, ?_, bind_ok.2 ⟨r, _, rfl, rfl⟩⟩
    show (args3 (exSat o).ord.hkf getP (solventPS (exSat o) 280) (solventEPS (exSat o) 280) >>= _) _ = _
    rw [bind_at (exSat_args o _ 280 _ rfl)]
    exact lift_ok.2 ⟨hm, rfl⟩
  · rw [v.G, v0.G]
    simp only [HKFPar.G, HKFPar.of, b, TS.assign]
    ring

/-- C153 fails at pressure 0: for the neutral solute N at 280 K, an engine that evaluates the arguments from left to right and one that evaluates
them from right to left both answer and hand the saturation pressure back, but with different G. -/
theorem C153_refuted : ∃ (t t' : TPS) (p : ℝ),
    query (exSat .ltr) 2 (.sub 280 "N") 0 = (.ok (.sub t), p) ∧ query (exSat .rtl) 2 (.sub 280 "N") 0 = (.ok (.sub t'), p) ∧ t.G.val ≠ t'.G.val := by
  obtain ⟨C, h⟩ := exSat_N
  obtain ⟨t, h1, h2⟩ := h .ltr 1 0
  obtain ⟨t', h3, h4⟩ := h .rtl 1 0
  refine ⟨t, t', _, h1, h3, ?_⟩
  rw [h2, h4]
  have e1 : readAt Orders.ltr.hkf 280 0 = 0 := if_neg (fun h => h.1 rfl)
  have e2 : readAt Orders.rtl.hkf 280 0 = psat 280 := (if_pos ⟨by decide, by decide⟩).trans (atSat_zero _)
  rw [e1, e2]
  have := psat_pos 280
  intro hc
  linarith

/-- C154 fails for solutes of which the pressure is read first: with the arguments evaluated from left to right, the answer for N at pressure 0 is not the
answer at the pressure handed back. -/
theorem C154_refuted : ∃ (t t' : TPS) (p : ℝ),
    query (exSat .ltr) 2 (.sub 280 "N") 0 = (.ok (.sub t), p) ∧ query (exSat .ltr) 2 (.sub 280 "N") p = (.ok (.sub t'), p) ∧ t.G.val ≠ t'.G.val := by
  obtain ⟨C, h⟩ := exSat_N
  obtain ⟨t, h1, h2⟩ := h .ltr 1 0
  obtain ⟨t', h3, h4⟩ := h .ltr 1 (psat 280)
  rw [atSat_zero] at h1
  rw [atSat_psat] at h3
  refine ⟨t, t', _, h1, h3, ?_⟩
  rw [h2, h4]
  have e1 : ∀ P, readAt Orders.ltr.hkf 280 P = P := fun P => if_neg (fun h => h.1 rfl)
  rw [e1, e1]
  have := psat_pos 280
  intro hc
  linarith

/-- The answer for the reaction A = H2O@: the mineral at the pressure of the variable, then water. -/
lemma exSat_q : ∃ C : ℝ, ∀ (o : Orders) (n : Nat) (P : ℝ), ∃ t : TPR,
    query (exSat o) (n + 1) (.fromR 280 "q") P = (.ok (.reac t), atSat 280 P) ∧ t.G.val = C - 2 * (P / 1e5) + 1.8 * atSat 280 P / 1e5 := by
  let x := exMineral "A" 300 (-1000) 40 2
  have hs : Sound (exAq "BENSON_HELGESON") 298.15 280 x := by
    refine ⟨rfl, ⟨twoIntervals, 0, ⟨rfl, rfl, rfl⟩, twoIntervals_ok, ⟨by decide, Or.inl ?_⟩, ?_, ?_⟩, ?_⟩
    · norm_num [twoIntervals]
    · simp [twoIntervals, CpTable.coefs]
    · intro j hj; omega
    · simp [x, exMineral, asg, exAq]
  obtain ⟨r, hr⟩ := (mineral_ev hs).self_of_nhds
  refine ⟨-r.G.val + 2 + (-(280 ^ 2) / 8 + 298.15 * 230), fun o n P => ?_⟩
  let tA := conMolVol 280 P x.ref x.refP r
  let tW := sampleWater 280 (atSat 280 P)
  refine ⟨addScaled 280 (addScaled 280 zeroTPR tA (-1)) tW 1, ?_, ?_⟩
  · have hA : ∀ s : St, s.solventSymbol = "H2O@" → s.P = P → (run (exSat o) (n + 1)).sub 280 "A" s = (.ok tA, { s with solventState := 0 }) := by
      intro s hsy hP
      refine bind_ok.2 ⟨x, _, getSub_ok.2 ⟨rfl, rfl⟩, ?_⟩
      refine exSat_subst hsy (by decide) (by simp [Subst.isReacDC, Subst.noMethods, x, exMineral]) ?_
      unfold methodsStep
      refine bind_ok.2 ⟨tA, _, ?_, by rw [conv_none]; rfl⟩
      rw [if_pos ⟨rfl, rfl⟩]
      refine bind_ok.2 ⟨r, { s with solventState := 0 }, ?_, bind_ok.2 ⟨r, _, rfl, ?_⟩⟩
      · show (getP >>= fun P => SM.lift (empCpIntegration x.cpData 280)) _ = _
        exact bind_ok.2 ⟨s.P, _, rfl, lift_ok.2 ⟨hr, rfl⟩⟩
      · subst hP
        rfl
    have hW : ∀ s : St, s.solventSymbol = "H2O@" → s.P = P → (run (exSat o) (n + 1)).sub 280 "H2O@" s = (.ok tW, { s with solventState := 0, P := atSat 280 P }) := by
      intro s hsy hP
      refine bind_ok.2 ⟨exAqWater, _, getSub_ok.2 ⟨rfl, rfl⟩, ?_⟩
      refine exSat_subst hsy (by decide) (by simp [Subst.isReacDC, Subst.noMethods, exAqWater]) ?_
      unfold methodsStep
      refine bind_ok.2 ⟨tW, _, ?_, by rw [conv_none]; rfl⟩
      rw [if_neg (by intro h; exact absurd h.1 (by decide))]
      subst hP
      exact waterStep_ok.2 ⟨rfl, rfl⟩
    have hno : ∀ y z, (exSat o).env.db.subs.lookup y = some z → z.noMethods = false := by
      intro y z h
      have := mem_of_lookup h
      simp only [exSat, exSatEnv, exAq, List.mem_cons, Prod.mk.injEq, List.not_mem_nil, or_false] at this
      rcases this with ⟨-, rfl⟩ | ⟨-, rfl⟩ | ⟨-, rfl⟩ | ⟨-, rfl⟩ | ⟨-, rfl⟩ | ⟨-, rfl⟩ <;> simp [Subst.noMethods, exAqWater, exSolute, exMineral]
    refine query_ok.2 ⟨{ P := atSat 280 P, solventState := 0, solventSymbol := "H2O@", pcorr := false }, ?_, rfl⟩
    refine bind_ok.2 ⟨fromR "q" [("A", -1), ("H2O@", 1)], _, getReac_ok rfl _, bind_ok.2 ⟨_, _, ?_, rfl⟩⟩
    unfold reacFromReactants
    refine bind_ok.2 ⟨(), { St.init P with pcorr := true }, rfl, bind_ok.2 ⟨addScaled 280 (addScaled 280 zeroTPR tA (-1)) tW 1,
      { P := atSat 280 P, solventState := 0, solventSymbol := "H2O@", pcorr := true }, ?_, rfl⟩⟩
    show sumReactants (exSat o) _ 280 "q" [("A", -1), ("H2O@", 1)] zeroTPR _ = _
    unfold sumReactants
    refine bind_ok.2 ⟨x, _, getSub_ok.2 ⟨rfl, rfl⟩, ?_⟩
    rw [if_neg (by rw [hno "A" x rfl]; simp), bind_at (hA _ rfl rfl)]
    unfold sumReactants
    refine bind_ok.2 ⟨exAqWater, _, getSub_ok.2 ⟨rfl, rfl⟩, ?_⟩
    rw [if_neg (by rw [hno "H2O@" exAqWater rfl]; simp), bind_at (hW _ rfl rfl)]
    rfl
  · have e : tA.G.val = r.G.val + 2 * (P / 1e5 - 1) := by
      have hV : x.ref.V.has := by simp [x, exMineral, asg, TS.has]
      simp only [tA, conMolVol, if_pos hV, TS.val_addAssign, TS.op_val_mul, TS.op_val_subR, val_pbar]
      simp only [x, exMineral, asg]
      norm_num
    simp only [addScaled, TS.val_addAssign, TS.op_val_mulR, e, tW, sampleWater, TS.val_ofVal, zeroTPR]
    simp only [zeroTS, TS.assign]
    ring

/-- C154 fails for reactions whatever the order of the arguments: the mineral A comes before H2O@ in the map of reactants, so it is calculated at
pressure 0 while water, and the variable, are at the saturation pressure. -/
theorem C154_reaction_refuted (o : Orders) : ∃ (t t' : TPR) (p : ℝ),
    query (exSat o) 2 (.fromR 280 "q") 0 = (.ok (.reac t), p) ∧ query (exSat o) 2 (.fromR 280 "q") p = (.ok (.reac t'), p) ∧ t.G.val ≠ t'.G.val := by
  obtain ⟨C, h⟩ := exSat_q
  obtain ⟨t, h1, h2⟩ := h o 1 0
  obtain ⟨t', h3, h4⟩ := h o 1 (psat 280)
  rw [atSat_zero] at h1 h2
  rw [atSat_psat] at h3 h4
  refine ⟨t, t', _, h1, h3, ?_⟩
  rw [h2, h4]
  have := psat_pos 280
  intro hc
  linarith

/-- N is a query of `C153_partial` and, evaluated from right to left, of `C154_partial`, with an answer. -/
example : Saturable (exSat .rtl) 280 (.sub 280 "N") ∧ (∃ t, query (exSat .rtl) 2 (.sub 280 "N") 0 = (.ok (.sub t), psat 280)) ∧
    ∀ P ≠ 0, ∃ t, query (exSat .ltr) 2 (.sub 280 "N") P = (.ok (.sub t), P) ∧ query (exSat .rtl) 2 (.sub 280 "N") P = (.ok (.sub t), P) := by
  obtain ⟨C, h⟩ := exSat_N
  refine ⟨.sub (x := exSolute "N" 0 [1, 0, 0, 0, 0, 0, 0] 70 (-10) 5) rfl ⟨by decide, by simp [Subst.isReacDC, Subst.noMethods, exSolute],
    Or.inr ⟨rfl, rfl, Or.inl ⟨Or.inr rfl, ⟨by decide, by decide⟩⟩⟩⟩, ?_, fun P hP => ?_⟩
  · obtain ⟨t, h1, -⟩ := h .rtl 1 0
    rw [atSat_zero] at h1
    exact ⟨t, h1⟩
  · obtain ⟨t, h1, -⟩ := h .ltr 1 P
    rw [show atSat 280 P = P from if_neg hP] at h1
    exact ⟨t, h1, (C153_partial (exSat .ltr) (exSat_keeps _) (exSat_noAki _) .rtl 2 _ P P hP _ h1).1⟩

/-- The reaction u, in which only the hydrogen ion comes before water, is a query of `C154_partial` and `C153_saturation_partial` for every order. -/
example (o : Orders) : Saturable (exSat o) 280 (.reac 280 "u") := by
  refine .reac (x := fromR "u" [("H+", -1), ("H2O@", -1), ("N", 1)]) rfl (by simp [Reac.fromReactants, fromR])
    ⟨[("H+", -1)], "H2O@", -1, [("N", 1)], rfl, ?_, exAqWater, rfl, by decide, by simp [Subst.isReacDC, Subst.noMethods, exAqWater], Or.inl ⟨Or.inl rfl, by decide, Or.inr rfl⟩⟩
  intro z hz
  simp only [List.mem_cons, List.not_mem_nil, or_false] at hz
  subst hz
  exact ⟨exSolute "H+" 1 [] 0 0 0, rfl, Or.inl rfl⟩

end ThermoFun.Sat

import Verif.Props.EngineDepth

/-!
# Answers and history

Theorems about /repo/ThermoFun/ThermoEngine.cpp as modelled in Model/Engine.lean: which answers depend on the queries asked before (C45),
and on the order of the species in a reaction (C84).
-/

namespace ThermoFun.Engine

variable {PS EPS : Type}

/-! ### C45 Independence of earlier queries -/

/-- The record uses none of the models of gases: Peng-Robinson, Soave-Redlich-Kwong, Churakov-Gottschalk, Sterner-Pitzer, CORK and the
ideal gas law. -/
def NoGasModel (x : Subst) : Prop := x.mP ∉ [.CORK, .PRSV, .EMP, .SRK, .PR78, .STP, .OFF]

/-- The query is not one for a record handed in from outside that uses a model of gases. -/
def NoGasQuery : Query → Prop
  | .subRec _ _ x => NoGasModel x
  | _ => True

lemma NoGasModel.flagFree {x : Subst} (h : NoGasModel x) (mods : Models PS EPS) : FlagFree mods x := by
  simp only [NoGasModel, List.mem_cons, List.not_mem_nil, or_false, not_or] at h
  constructor <;> intro e <;> simp [e] at h

lemma NoGasQuery.flagFree {q : Query} (h : NoGasQuery q) (mods : Models PS EPS) : QFlagFree mods q := by
  cases q <;> first | exact trivial | exact NoGasModel.flagFree h mods

lemma Ranked.noMemo {env : Env PS EPS} {rk : String → Nat} (h : Ranked env rk) : Ranked { env with memo := false } rk where
  falls y z hz := h.falls y z (by
    cases hz with
    | other v re a b c d e f g => exact .other v re a b c d e f g
    | species v re a b c d e f g i => exact .species v re a b c d e f g i
    | solvent v a b c d e => exact .solvent v a b c d e)
  named := h.named

/-- **C45 (partial)** (full statement: for all databases, and all queries and histories.)  If the default solvent `H2O@` is in the database,
no record uses a model of gases and the definitions by reactions are not circular, then the answer to a query, a value or an error, is the
same after any two histories of queries, failing ones included; it is the answer a new engine without caches gives. -/
theorem C45_history_partial {env : Env PS EPS} (hw : (env.db.subs.lookup "H2O@").isSome)
    (hf : ∀ y v, env.db.subs.lookup y = some v → NoGasModel v) {rk : String → Nat} (hrk : Ranked env rk) {R : Nat} (hR : ∀ y, rk y ≤ R)
    {N N' K K' : Nat} (hN : 2 * R + 4 ≤ N) (hN' : 2 * R + 4 ≤ N') {q : Query}
    (hq : NoGasQuery q) (hq' : QNamed q) {qs qs' : List Query} (hqs : ∀ q ∈ qs, NoGasQuery q) (hqs' : ∀ q ∈ qs', NoGasQuery q) :
    (ask env N q (after env K ESt.init qs)).1 = (ask env N' q (after env K' ESt.init qs')).1 ∧
      (ask env N q (after env K ESt.init qs)).1 = (ask { env with memo := false } (2 * R + 4) q ESt.init).1 := by
  have hfi' : (ask (off env) (2 * R + 4) q ESt.init).1.fine := by
    have := C46_terminates_partial hrk.noMemo hR (K := 0) le_rfl q hq' []
    show (ask { env with memo := false } (2 * R + 4) q ESt.init).1.fine
    cases h : (ask { env with memo := false } (2 * R + 4) q ESt.init).1 with
    | deep => exact absurd h this
    | _ => trivial
  have hf' : DbFlagFree env := fun y v h => (hf y v h).flagFree env.mods
  have e1 := ask_eq hw hf' hN q (hq.flagFree _) _ ESt.init
    (cohSt_after hw hf' K qs (fun q h => (hqs q h).flagFree _) _ (cohSt_init env)) rfl hfi'
  have e2 := ask_eq hw hf' hN' q (hq.flagFree _) _ ESt.init
    (cohSt_after hw hf' K' qs' (fun q h => (hqs' q h).flagFree _) _ (cohSt_init env)) rfl hfi'
  exact ⟨e1.trans e2.symm, e1⟩

/-- A database with water, three records and a reaction, which defines one of the substances. -/
noncomputable def exHist : Env Unit Unit := exEnv [conSub "H2O@" 1, conSub "A" 2, exDC false] [exDCR]

example : (exHist.db.subs.lookup "H2O@").isSome ∧ (∀ y v, exHist.db.subs.lookup y = some v → NoGasModel v) ∧
    Ranked exHist (fun y => if y = "X" then 1 else 0) ∧ NoGasQuery (.sub 300 2e5 "X") ∧ QNamed (.sub 300 2e5 "X") := by
  refine ⟨rfl, ?_, exClosure_ranked false [conSub "H2O@" 1] (by simp [conSub]), trivial, trivial⟩
  intro y v h
  have := mem_of_lookup h
  simp only [exHist, exEnv, exDb, List.map_cons, List.map_nil, List.mem_cons, Prod.mk.injEq, List.not_mem_nil, or_false] at this
  rcases this with ⟨_, rfl⟩ | ⟨_, rfl⟩ | ⟨_, rfl⟩ <;> simp [NoGasModel, conSub, exDC, dcSub]

/-! #### What the engine answers for a gas -/

/-- The answer for the ideal gas `gasSub y g`, with or without the pressure correction. -/
noncomputable def gasT (g T P : ℝ) (b : Bool) : TPS := idealGasLawVol T P true 1e5 (entropyCpEntry T 298.15 TPS.default (refGV g 0)) b

lemma gasT_G (g T P : ℝ) (hP : 0 < P) : (gasT g T P false).G.val = g ∧
    (gasT g T P true).G.val = g + T / (P / 1e5) * 8.31451 * (P / 1e5 - 1) := by
  constructor
  · simp [gasT, idealGasLawVol, entropyCpEntry, entropyCp, refGV, asg, TS.has, hP, Rgas]
  · simp [gasT, idealGasLawVol, entropyCpEntry, entropyCp, refGV, asg, TS.has, hP, applyPressure, pbar, Rgas]
    norm_num

/-- Water, an ideal gas, a reaction of the gas, a reaction with an unknown species, and a record without methods. -/
noncomputable def exGas : Env Unit Unit :=
  exEnv [conSub "H2O@" 1, gasSub "G" 3, { dcSub "N" "" with reacdc := false }] [fromR "r" [("G", 1)], fromR "bad" [("none", 1)]]

/-- The gas on an engine that has not computed it yet. -/
lemma exGas_miss (n : Nat) (T P : ℝ) (s : ESt Unit Unit) (hlen : s.subC.entries.length < 1000000) (hk : s.subC.find ⟨T, P, "G"⟩ = none) :
    (run exGas (n + 1)).sub T P "G" s = (.ok (gasT 3 T P s.pcorr), remember T P "G" (gasT 3 T P s.pcorr) { s with solventState := 1 }) :=
  run_miss (v := gasSub "G" 3) rfl hlen hk (substRec_gas _ _ _ T P "G" 3 (by decide) s)

lemma ask_sub_of {env : Env PS EPS} {n : Nat} {T P : ℝ} {y : String} {s s' : ESt PS EPS} {t : TPS}
    (h : (run env n).sub T P y s = (.ok t, s')) : ask env n (.sub T P y) s = (.ok (.sub t), s') := by
  show (EM.bind _ _ s) = _
  unfold EM.bind
  rw [h]
  rfl

/-- The gas on a new engine. -/
lemma exGas_new (n : Nat) (T P : ℝ) : (ask exGas (n + 1) (.sub T P "G") ESt.init).1 = .ok (.sub (gasT 3 T P false)) :=
  congrArg Prod.fst (ask_sub_of (exGas_miss n T P ESt.init (by simp [ESt.init]) rfl))

/-- After the reaction has been computed, the cache holds the gas with the pressure correction. -/
lemma exGas_reac (n m : Nat) (T P : ℝ) : (ask exGas (m + 1) (.fromR T P "r") ESt.init).1 ≠ .throw ∧
    (ask exGas (n + 1) (.sub T P "G") (after exGas (m + 1) ESt.init [.fromR T P "r"])).1 = .ok (.sub (gasT 3 T P true)) := by
  have h := exGas_miss m T P { (ESt.init : ESt Unit Unit) with pcorr := true } (by simp [ESt.init]) rfl
  have e := fromReactants_run (env := exGas) (x := fromR "r" [("G", 1)]) (s := ESt.init) (.cons h (.nil _)) (by
    intro e he
    simp only [fromR, List.mem_cons, List.not_mem_nil, or_false] at he
    subst he
    exact ⟨gasSub "G" 3, rfl, Or.inl rfl⟩)
  have e1 : ask exGas (m + 1) (.fromR T P "r") =
    (reacFromReactants exGas (run exGas (m + 1)) T P (fromR "r" [("G", 1)]) >>= fun t => pure (.reac t)) := rfl
  have e2 := EM.bind_of_ok (f := fun t => (pure (.reac t) : EM Unit Unit (Answer Unit Unit))) (congrArg Prod.fst e)
  rw [← e1, congrArg Prod.snd e] at e2
  refine ⟨?_, ?_⟩
  · rw [e2]; exact fun h => by cases h
  · show (ask exGas (n + 1) (.sub T P "G") (ask exGas (m + 1) (.fromR T P "r") ESt.init).2).1 = _
    rw [e2]
    refine congrArg Prod.fst (ask_sub_of (run_hit ?_ ?_))
    · exact lt_of_le_of_lt length_insert (by simp [ESt.init])
    · exact find_insert

/-- A reaction that fails leaves the pressure correction switched on. -/
lemma exGas_bad (n m : Nat) (T P : ℝ) :
    (ask exGas (n + 1) (.sub T P "G") (after exGas m ESt.init [.fromR T P "bad"])).1 = .ok (.sub (gasT 3 T P true)) := by
  have e : (ask exGas m (.fromR T P "bad") (ESt.init : ESt Unit Unit)).2 = { (ESt.init : ESt Unit Unit) with pcorr := true } := rfl
  show (ask exGas (n + 1) (.sub T P "G") (ask exGas m (.fromR T P "bad") ESt.init).2).1 = _
  rw [e]
  exact congrArg Prod.fst (ask_sub_of (exGas_miss n T P _ (by simp [ESt.init]) rfl))

/-- **C45** is violated: the Gibbs energy reported for an ideal gas depends on what was asked before.  On a new engine it is that of the
record (3), but V (P - Pr) = R T / 2 more once a reaction of the gas has been asked for, or once a query for some other reaction has
failed. -/
theorem C45_history_refuted : ∃ (env : Env Unit Unit) (q : Query) (t t1 t2 : TPS), (env.db.subs.lookup "H2O@").isSome ∧
    env.memo = true ∧ env.maxCache = 1000000 ∧
    (ask env 1 q ESt.init).1 = .ok (.sub t) ∧
    (ask env 1 q (after env 1 ESt.init [.fromR 300 2e5 "r"])).1 = .ok (.sub t1) ∧
    (ask env 1 q (after env 1 ESt.init [.fromR 300 2e5 "bad"])).1 = .ok (.sub t2) ∧
    t.G.val = 3 ∧ t1.G.val = 3 + 8.31451 * 300 / 2 ∧ t2.G.val = 3 + 8.31451 * 300 / 2 := by
  refine ⟨exGas, .sub 300 2e5 "G", _, _, _, rfl, rfl, rfl, exGas_new 0 300 2e5, (exGas_reac 0 0 300 2e5).2, exGas_bad 0 1 300 2e5, ?_, ?_, ?_⟩
  · rw [(gasT_G 3 300 2e5 (by norm_num)).1]
  · rw [(gasT_G 3 300 2e5 (by norm_num)).2]; norm_num
  · rw [(gasT_G 3 300 2e5 (by norm_num)).2]; norm_num

lemma exGas_none (n m : Nat) (T P : ℝ) : (ask exGas (m + 2) (.sub T P "N") ESt.init).1 = .ok (.sub (refGV 0 1)) ∧
    (ask exGas (n + 1) (.sub T P "G") (after exGas (m + 2) ESt.init [.sub T P "N"])).1 = .ok (.sub (gasT 3 T P true)) := by
  have h1 : substRec exGas (run exGas (m + 1)) T P { dcSub "N" "" with reacdc := false } (ESt.init : ESt Unit Unit) =
      (.ok (refGV 0 1), { (ESt.init : ESt Unit Unit) with pcorr := true }) := by
    have e : substRec exGas (run exGas (m + 1)) T P { dcSub "N" "" with reacdc := false } (ESt.init : ESt Unit Unit) =
      (substRec exGas (run exGas m) T P (conSub "N" 0) >>= fun t => pure (fallback false t { dcSub "N" "" with reacdc := false }))
        { (ESt.init : ESt Unit Unit) with pcorr := true } := rfl
    have e2 : substRec exGas (run exGas m) T P (conSub "N" 0) { (ESt.init : ESt Unit Unit) with pcorr := true } =
      (.ok (refGV 0 1), { (ESt.init : ESt Unit Unit) with pcorr := true, solventState := 0 }) := substRec_con _ _ _ T P "N" 0 (by decide) _
    rw [e]
    refine (EM.bind_of_ok (congrArg Prod.fst e2)).trans ?_
    refine congrArg (fun z => ((pure (fallback false (refGV 0 1) { dcSub "N" "" with reacdc := false }) : EM Unit Unit TPS) z)) (congrArg Prod.snd e2)
  have h2 : (run exGas (m + 2)).sub T P "N" (ESt.init : ESt Unit Unit) = _ :=
    run_miss (v := { dcSub "N" "" with reacdc := false }) rfl (by simp [ESt.init]) rfl h1
  have h3 := ask_sub_of h2
  refine ⟨congrArg Prod.fst h3, ?_⟩
  show (ask exGas (n + 1) (.sub T P "G") (ask exGas (m + 2) (.sub T P "N") ESt.init).2).1 = _
  rw [h3]
  refine congrArg Prod.fst (ask_sub_of (exGas_miss n T P _ ?_ ?_))
  · exact lt_of_le_of_lt length_insert (by simp [ESt.init])
  · exact find_insert_ne (key_ne (by decide)) rfl

/-- A query for a record without any method, which succeeds, does the same. -/
theorem C45_nomethods_refuted : ∃ (env : Env Unit Unit) (q q' : Query) (t0 t t' : TPS), (env.db.subs.lookup "H2O@").isSome ∧
    (ask env 2 q' ESt.init).1 = .ok (.sub t0) ∧ (ask env 2 q ESt.init).1 = .ok (.sub t) ∧
    (ask env 2 q (after env 2 ESt.init [q'])).1 = .ok (.sub t') ∧ t.G.val = 3 ∧ t'.G.val = 3 + 8.31451 * 300 / 2 := by
  refine ⟨exGas, .sub 300 2e5 "G", .sub 300 2e5 "N", _, _, _, rfl, (exGas_none 1 0 300 2e5).1, exGas_new 1 300 2e5, (exGas_none 1 0 300 2e5).2, ?_, ?_⟩
  · rw [(gasT_G 3 300 2e5 (by norm_num)).1]
  · rw [(gasT_G 3 300 2e5 (by norm_num)).2]; norm_num

/-! #### The solvent symbol -/

/-- A reaction with the density model. -/
noncomputable def dmdR (sym : String) : Reac := ⟨sym, [], 298.15, 1e5, .unset, .DMD, .unset, TPR.default, {}⟩

/-- A solvent that is not called `H2O@`, a solute, and a reaction computed from the properties of the solvent. -/
noncomputable def exSolv : Env Unit Unit :=
  { exEnv [{ conSub "W" 1 with cls := .AQSOLVENT }, { conSub "Na+" 1 with cls := .AQSOLUTE }] [dmdR "r"] with
    mods := { exModels with dmd := fun _ _ _ _ => .ok zeroTPR } }

/-- **C45** is violated in another way when the solvent is not called `H2O@`: a reaction that needs the solvent is refused on a new engine
and computed once the properties of some dissolved species have been asked for. -/
theorem C45_solvent_refuted : ∃ (env : Env Unit Unit) (q q' : Query) (t : TPR), (∀ y v, env.db.subs.lookup y = some v → NoGasModel v) ∧
    (ask env 2 q ESt.init).1 = .throw ∧ (ask env 2 q (after env 2 ESt.init [q'])).1 = .ok (.reac t) := by
  refine ⟨exSolv, .reac 300 2e5 "r", .sub 300 2e5 "Na+", zeroTPR, ?_, ?_, ?_⟩
  · intro y v h
    have := mem_of_lookup h
    simp only [exSolv, exEnv, exDb, List.map_cons, List.map_nil, List.mem_cons, Prod.mk.injEq, List.not_mem_nil, or_false] at this
    rcases this with ⟨_, rfl⟩ | ⟨_, rfl⟩ <;> simp [NoGasModel, conSub]
  · rfl
  · rfl

/-! ### C84 The pressure correction inside a reaction -/

/-- When a reaction is computed from its species, starting in `s`, the pressure correction of gases is on each time a species is asked. -/
def CorrectionOn (env : Env PS EPS) (n : Nat) (T P : ℝ) (x : Reac) (s : ESt PS EPS) : Prop :=
  ∀ l y c l' ts s', x.reactants = l ++ (y, c) :: l' → Asked env n T P { s with pcorr := true } l ts s' → s'.pcorr = true

/-- The record has methods of its own, and does not use the Akinfiev-Diamond model, which asks for the solvent. -/
def OwnMethods (x : Subst) : Prop := x.isReacDC = false ∧ x.mP ≠ .AKI

lemma quiet_flag (env : Env PS EPS) (b : Bool) : Quiet env (fun s => s.pcorr = b) where
  prefs x s h := by
    simp only [setPrefs, EM.change]
    split
    · split <;> exact h
    · exact h
  state _ _ h := h
  ps _ _ h := h
  el _ _ h := h

lemma flag_substRec {env : Env PS EPS} {x : Subst} (hx : OwnMethods x) (r : Rec PS EPS) (T P : ℝ) (b : Bool) :
    U (fun s : ESt PS EPS => s.pcorr = b) False (substRec env r T P x) := by
  unfold substRec
  refine (u_setPrefs (quiet_flag env b) x).bind fun _ => ?_
  split
  · exact U.pure _
  · refine U.bind ?_ fun t => U.pure _
    rw [hx.1]
    exact u_methodsStep (quiet_flag env b) T P x fun _ ha => absurd ha hx.2

lemma flag_sub {env : Env PS EPS} {y : String} (hy : ∀ v, env.db.subs.lookup y = some v → OwnMethods v) (n : Nat) (T P : ℝ) (b : Bool) :
    U (fun s : ESt PS EPS => s.pcorr = b) False ((run env n).sub T P y) := by
  cases n with
  | zero => exact fun s h => ⟨h, fun h => h.elim⟩
  | succ n =>
    have hb : U (fun s : ESt PS EPS => s.pcorr = b) False (getSub env y >>= fun v => substRec env (run env n) T P v) :=
      u_bind_getSub y fun v hv => flag_substRec (hy v hv) _ T P b
    exact U.cached env (fun _ _ => rfl) hb (fun _ h => h) (fun s v h _ => (hb s h).1)

/-- **C84 (partial)** (full statement: for all reactions.)  The correction is on for every species when the species have methods of their own
and do not use the Akinfiev-Diamond model. -/
theorem C84_correction_partial {env : Env PS EPS} {x : Reac} (hx : ∀ e ∈ x.reactants, ∀ v, env.db.subs.lookup e.1 = some v → OwnMethods v)
    (n : Nat) (T P : ℝ) (s : ESt PS EPS) : CorrectionOn env n T P x s := by
  intro l y c l' ts s' he ha
  have hl : ∀ e ∈ l, ∀ v, env.db.subs.lookup e.1 = some v → OwnMethods v := fun e h => hx e (by rw [he]; exact List.mem_append_left _ h)
  clear he hx
  generalize hs : { s with pcorr := true } = s0 at ha
  have h0 : s0.pcorr = true := by rw [← hs]
  clear hs
  induction ha with
  | nil => exact h0
  | cons h _ ih =>
    refine ih (fun e h => hl e (List.mem_cons_of_mem _ h)) ?_
    have := (flag_sub (hl _ List.mem_cons_self) n T P true _ h0).1
    rw [h] at this
    exact this

/-- Two species with their own methods, one of them a gas; the list is not empty before the gas. -/
example : (∀ e ∈ (fromR "q" [("A", -1), ("G", 2)]).reactants, ∀ v,
    (exEnv [conSub "A" 2, gasSub "G" 3] []).db.subs.lookup e.1 = some v → OwnMethods v) ∧
    (fromR "q" [("A", -1), ("G", 2)]).reactants = [("A", -1)] ++ ("G", 2) :: [] := by
  refine ⟨?_, rfl⟩
  intro e _ v hv
  have := mem_of_lookup hv
  simp only [exEnv, exDb, List.map_cons, List.map_nil, List.mem_cons, Prod.mk.injEq, List.not_mem_nil, or_false] at this
  rcases this with ⟨_, rfl⟩ | ⟨_, rfl⟩ <;> simp [OwnMethods, conSub, gasSub, Subst.isReacDC, Subst.noMethods]

/-- X, defined by a reaction, and the gas Y react. -/
noncomputable def exOrder : Env Unit Unit := exEnv [conSub "A" 2, exDC false, gasSub "Y" 3] [exDCR]

/-- X and Y, asked one after another on a new engine: X switches the correction off. -/
lemma exOrder_asked (T P : ℝ) : ∃ s1 s2, s1.pcorr = false ∧
    Asked exOrder 2 T P { (ESt.init : ESt Unit Unit) with pcorr := true } [("X", 1)]
      [divAll (subScaled (ofReaction (refR 3)) (refGV 2 1) (-1)) 1] s1 ∧
    Asked exOrder 2 T P { (ESt.init : ESt Unit Unit) with pcorr := true } [("X", 1), ("Y", 1)]
      [divAll (subScaled (ofReaction (refR 3)) (refGV 2 1) (-1)) 1, gasT 3 T P false] s2 := by
  have hr : ∃ s1, s1.subC = (ESt.init : ESt Unit Unit).subC ∧
      (run exOrder 1).reac T P "r" { (setPrefs exOrder (exDC false) { (ESt.init : ESt Unit Unit) with pcorr := true }).2 with pcorr := true } = (.ok (refR 3), s1) := by
    have e := cached_miss (env := exOrder) (get := ESt.reacC) (set := fun c s => { s with reacC := c }) (k := ⟨T, P, "r"⟩)
      (s := { (setPrefs exOrder (exDC false) { (ESt.init : ESt Unit Unit) with pcorr := true }).2 with pcorr := true })
      (m := reacSym exOrder (run exOrder 0) T P "r") (v := refR 3) (fun _ => rfl) (by simp [exOrder, exEnv, ESt.init, setPrefs, EM.change, exDC, dcSub]) rfl rfl rfl
    refine ⟨_, ?_, e⟩
    rfl
  obtain ⟨s1, h1, h2⟩ := hr
  have hA : (run exOrder 1).sub T P "A" s1 = (.ok (refGV 2 1), remember T P "A" (refGV 2 1) { s1 with solventState := 0 }) :=
    run_miss (v := conSub "A" 2) rfl (by rw [h1]; simp [ESt.init]) (by rw [h1]; rfl) (substRec_con _ _ _ T P "A" 2 (by decide) s1)
  have ef : (exDCR.reactants.filter fun e => e.1 ≠ (exDC false).symbol) = [("A", -1)] := by simp [exDCR, exDC, dcSub]
  have e := substRec_dc_run (env := exOrder) (n := 1) (T := T) (P := P) (x := exDC false) (s := { (ESt.init : ESt Unit Unit) with pcorr := true })
    (re := exDCR) (tpr := refR 3) (ts := [refGV 2 1]) (s1 := s1)
    (by show "X" ≠ "H+"; decide) rfl (by show "r" ≠ ""; decide) rfl h2 (by rw [ef]; exact .cons hA (.nil _)) rfl (fun t => rfl)
  rw [ef] at e
  have hmP : ¬ ((exDC false).mP = .CON ∧ (exDCR.mP = .OFF ∨ exDCR.mP = .unset)) := by simp [exDC]
  simp only [if_neg hmP] at e
  have hX : (run exOrder 2).sub T P "X" { (ESt.init : ESt Unit Unit) with pcorr := true } = _ :=
    run_miss (v := exDC false) rfl (by simp [ESt.init]) rfl e
  have hY : (run exOrder 2).sub T P "Y" _ = _ := run_miss (v := gasSub "Y" 3) rfl ?_ ?_ (substRec_gas _ _ _ T P "Y" 3 (by decide)
    (remember T P "X" (divAll (subScaled (ofReaction (refR 3)) (refGV 2 1) (-1)) 1) { remember T P "A" (refGV 2 1) { s1 with solventState := 0 } with pcorr := false }))
  refine ⟨_, _, ?_, .cons hX (.nil _), .cons hX (.cons hY (.nil _))⟩
  · rfl
  · refine lt_of_le_of_lt length_insert ?_
    refine lt_of_le_of_lt (Nat.add_le_add_right length_insert 1) ?_
    simp only
    rw [h1]; simp [ESt.init]
  · refine find_insert_ne (key_ne (by decide)) (find_insert_ne (key_ne (by decide)) ?_)
    simp only
    rw [h1]; rfl

/-- **C84** is violated: when a species that is itself defined by a reaction comes first, it switches the correction off, and the gas after
it is taken without the correction: G of the reaction is 5 + 3 where 5 + 3 + R T / 2 is due. -/
theorem C84_correction_refuted : ∃ (env : Env Unit Unit) (x : Reac) (t : TPR), ¬ CorrectionOn env 2 300 2e5 x ESt.init ∧
    (ask env 2 (.fromRRec 300 2e5 x) ESt.init).1 = .ok (.reac t) ∧ t.G.val = 5 + (gasT 3 300 2e5 false).G.val ∧
    t.G.val ≠ 5 + (gasT 3 300 2e5 true).G.val := by
  obtain ⟨s1, s2, h0, h1, h2⟩ := exOrder_asked 300 2e5
  have e := fromReactants_run (env := exOrder) (x := fromR "q" [("X", 1), ("Y", 1)]) (s := ESt.init) h2 (by
    intro e he
    simp only [fromR, List.mem_cons, List.not_mem_nil, or_false] at he
    rcases he with rfl | rfl
    · exact ⟨exDC false, rfl, Or.inr (by show "r" ≠ "q"; decide)⟩
    · exact ⟨gasSub "Y" 3, rfl, Or.inl rfl⟩)
  have e1 : ask exOrder 2 (.fromRRec 300 2e5 (fromR "q" [("X", 1), ("Y", 1)])) =
    (reacFromReactants exOrder (run exOrder 2) 300 2e5 (fromR "q" [("X", 1), ("Y", 1)]) >>= fun t => pure (.reac t)) := rfl
  refine ⟨exOrder, fromR "q" [("X", 1), ("Y", 1)], _, ?_, (congrArg Prod.fst (by rw [e1, EM.bind_of_ok (congrArg Prod.fst e)])).trans rfl, ?_, ?_⟩
  · intro h
    have := h [("X", 1)] "Y" 1 [] _ _ rfl h1
    rw [h0] at this
    cases this
  · simp [fromR, addScaled, zeroTPR, zeroTS, TS.assign, divAll, subScaled, ofReaction, refR, refGV, asg]
    norm_num
  · rw [(gasT_G 3 300 2e5 (by norm_num)).2]
    simp [fromR, addScaled, zeroTPR, zeroTS, TS.assign, divAll, subScaled, ofReaction, refR, refGV, asg, (gasT_G 3 300 2e5 (by norm_num)).1]
    norm_num

end ThermoFun.Engine

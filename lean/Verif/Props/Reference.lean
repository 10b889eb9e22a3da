import Verif.Props.Landau
import Verif.Props.Minerals
import Verif.Props.Solids
import Verif.Props.Solutes

/-!
# The reference state

Theorems about the engine (Model/Engine.lean) with the numeric models plugged in (Model/EngineReal.lean), and about the models of solutes
(Model/Solutes.lean): at the reference temperature and pressure of its record a substance has the properties recorded there (C155).
-/

namespace ThermoFun

/-- G, H, S and V are the recorded ones. -/
def AsRecorded (ref r : TPS) : Prop := r.G.val = ref.G.val ∧ r.H.val = ref.H.val ∧ r.S.val = ref.S.val ∧ r.V.val = ref.V.val

namespace Engine

/-- A record of a solid with a table of heat capacities, calculated by its own methods, without the Landau model. -/
structure Solid (x : Subst) : Prop where
  notH : x.symbol ≠ "H+"
  own : x.reacdc = false
  solute : x.cls ≠ .AQSOLVENT
  gen : x.gen = .CPT
  noLandau : x.mT ≠ .CHP

variable {base : Models PSolv ESolv} {env : Env PSolv ESolv} {N : Nat}

/-- What the engine calculates for a record with a table of heat capacities, in terms of its three models, after any requests. -/
lemma substRec_steps (hm : env.mods = real base) (hfb : env.fallback = false) (hbb : bermanBrown env = false) {x : Subst} (hH : x.symbol ≠ "H+")
    (ho : x.reacdc = false) (hs : x.cls ≠ .AQSOLVENT) (hg : x.gen = .CPT) {T P : ℝ} {n : Nat} {r r2 r' : TPS} (hr : empCpIntegration x.cpData T = .ok r)
    (s : ESt PSolv ESolv) (e2 : tStep env T P x r (setPrefs env x s).2 = (.ok r2, (setPrefs env x s).2))
    (hp : pStep env (run env n) T P x r2 (setPrefs env x s).2 = (.ok r', (setPrefs env x s).2)) :
    substRec env (run env n) T P x s = (.ok r', (setPrefs env x s).2) := by
  have hown : x.isReacDC = false := by simp [Subst.isReacDC, Subst.noMethods, ho, hg]
  have hsolv : x.isSolvent = false := by simp [Subst.isSolvent, hs]
  have hvap : x.isVapor = false := by simp [Subst.isVapor, hg]
  have e1 : ∀ s : ESt PSolv ESolv, eosStep env T P x s = (.ok r, s) := by
    intro s
    unfold eosStep
    rw [hg]
    simp only [hm, real, EM.lift, hr]
  have e4 : methodsStep env (run env n) T P x (setPrefs env x s).2 = (.ok r', (setPrefs env x s).2) := by
    unfold methodsStep
    rw [if_pos ⟨hsolv, hvap⟩]
    have : (do
        let a ← eosStep env T P x
        let b ← tStep env T P x a
        pStep env (run env n) T P x b : EM PSolv ESolv TPS) (setPrefs env x s).2 = (.ok r', (setPrefs env x s).2) := by
      rw [bind_run (e1 _), bind_run e2, hp]
    rw [bind_run this]
    unfold convStep
    unfold bermanBrown at hbb
    rw [hsolv, hbb]
    rfl
  unfold substRec
  have e5 : setPrefs env x s = (.ok (), (setPrefs env x s).2) := rfl
  rw [bind_run e5, if_neg hH, hown]
  have e6 : (if (false : Bool) then reacDC env (run env n) T P x else methodsStep env (run env n) T P x) = methodsStep env (run env n) T P x := rfl
  rw [e6, bind_run e4, hfb]
  rfl

/-- What the engine answers for a substance with a table of heat capacities, in terms of its three models. -/
lemma answer_steps (hm : env.mods = real base) (h : Regular env N) (hfb : env.fallback = false) (hbb : bermanBrown env = false) {y : String}
    {x : Subst} (hy : env.db.subs.lookup y = some x) (hH : x.symbol ≠ "H+") (ho : x.reacdc = false) (hs : x.cls ≠ .AQSOLVENT) (hg : x.gen = .CPT)
    {T P : ℝ} {r r2 r' : TPS} (hr : empCpIntegration x.cpData T = .ok r) (e2 : ∀ s : ESt PSolv ESolv, tStep env T P x r s = (.ok r2, s))
    (hp : ∀ n (s : ESt PSolv ESolv), pStep env (run env n) T P x r2 s = (.ok r', s)) :
    answer env N (.sub T P y) = .ok (.sub r') := by
  have hN : 4 ≤ N := by obtain ⟨-, R, -, -, hN⟩ := h.ranked; omega
  obtain ⟨n, rfl⟩ : ∃ n, N = n + 1 := ⟨N - 1, by omega⟩
  have hsub : ∀ s : ESt PSolv ESolv, (substRec env (run env n) T P x s).1 = .ok r' := fun s => by
    rw [substRec_steps hm hfb hbb hH ho hs hg hr s (e2 _) (hp n _)]
  refine ((h.sub_coh T P y (s := ESt.init) (cohSt_init env)).2 _).1 ?_
  have hc : ∀ s : ESt PSolv ESolv, ((getSub env y >>= fun v => substRec env (run env n) T P v : EM PSolv ESolv TPS) s).1 = .ok r' := by
    intro s
    have e1 : getSub env y s = (.ok x, s) := by unfold getSub; rw [hy]; rfl
    rw [bind_run e1]
    exact hsub s
  show (cached env ESt.subC (fun c s => { s with subC := c }) _ _ _).1 = _
  unfold cached
  split
  · have hs := hc { (ESt.init : ESt PSolv ESolv) with subC := Cache.evict env.maxCache (ESt.init : ESt PSolv ESolv).subC }
    have hf : (Cache.evict env.maxCache (ESt.init : ESt PSolv ESolv).subC).find ⟨T, P, y⟩ = none := by
      unfold Cache.evict Cache.find ESt.init
      split <;> rfl
    simp only [hf]
    split
    · rename_i v s' ev
      rw [ev] at hs
      exact hs
    · exact hs
  · exact hc _

/-- What the engine answers for a solid, in terms of its two models. -/
lemma answer_solid (hm : env.mods = real base) (h : Regular env N) (hfb : env.fallback = false) (hbb : bermanBrown env = false) {y : String}
    {x : Subst} (hy : env.db.subs.lookup y = some x) (hx : Solid x) {T P : ℝ} {r r' : TPS} (hr : empCpIntegration x.cpData T = .ok r)
    (hp : ∀ n (s : ESt PSolv ESolv), pStep env (run env n) T P x r s = (.ok r', s)) :
    answer env N (.sub T P y) = .ok (.sub r') := by
  have e2 : ∀ s : ESt PSolv ESolv, tStep env T P x r s = (.ok r, s) := by
    intro s
    have := hx.noLandau
    have hg := hx.gen
    unfold tStep
    cases hT : x.mT <;> first | exact absurd hT this | simp only [hg, ne_eq, not_true_eq_false, if_false] <;> rfl
  exact answer_steps hm h hfb hbb hy hx.notH hx.own hx.solute hx.gen hr e2 hp

/-- The record gives what its pressure model needs: a volume, five coefficients (Berman), or a compressibility and an expansivity (Murnaghan). -/
def VolumeModel (x : Subst) : Prop :=
  (x.mP = .CON ∧ x.ref.V.has) ∨ (x.mP = .VBE ∧ x.params.volume.length = 5) ∨
    (x.mP = .CEH ∧ x.params.compressibility.isSome ∧ x.params.expansivity.isSome)

/-- The integration of the heat capacity ends with the recorded G, H, S at the reference temperature, if that lies in the first interval. -/
lemma emp_recorded {x : Subst} {t : CpTable} (ht : t.Ok) (hx : HasTable x t) (hT : 0 < x.refT) (h0 : t.At x.refT 0) :
    ∃ r, empCpIntegration x.cpData x.refT = .ok r ∧ r.G.val = x.ref.G.val ∧ r.H.val = x.ref.H.val ∧ r.S.val = x.ref.S.val ∧ r.V.val = 0 := by
  rw [hx.data]
  obtain ⟨h1, -, g2, g3, g4, g5⟩ := okOr_vals t ht x.refT x.ref TPS.default x.refT 0 h0
  have hst : t.start x.refT 0 = x.refT := by simp [CpTable.start]
  obtain ⟨e1, e2, e3⟩ := emp_self (t.coefs 0) x.refT hT
  refine ⟨_, h1, ?_, ?_, ?_, ?_⟩
  · rw [g3, hst, e3]; simp [CpTable.entry, refTot]
  · rw [g4, hst, e1]; simp [CpTable.entry, refTot]
  · rw [g2, hst, e2]; simp [CpTable.entry, refTot]
  · rw [g5]; simp [CpTable.entry, refTot]

/-- At the reference state the models of the volume leave G, H and S as they are and set the recorded volume. -/
lemma pStep_recorded (hm : env.mods = real base) {x : Subst} (hg : x.gen = .CPT) (hV : VolumeModel x) (r : TPS) :
    ∃ r', (∀ n (s : ESt PSolv ESolv), pStep env (run env n) x.refT x.refP x r s = (.ok r', s)) ∧
      r'.G.val = r.G.val ∧ r'.H.val = r.H.val ∧ r'.S.val = r.S.val ∧ r'.V.val = x.ref.V.val := by
  have e0 : ∀ s : ESt PSolv ESolv, EM.read (·.pcorr) s = (.ok s.pcorr, s) := fun _ => rfl
  rcases hV with ⟨hv, hh⟩ | ⟨hv, hl⟩ | ⟨hv, hk, ha⟩
  · refine ⟨conMolVol x.refT x.refP x.ref x.refP r, fun n s => ?_, ?_⟩
    · unfold pStep
      rw [bind_run (e0 s), if_neg (by simp [hg]), hv]
      simp only [hm, real, EM.lift]
    · simp only [conMolVol, if_pos hh]
      refine ⟨?_, ?_, trivial, trivial⟩
      · simp [val_pbar]
      · simp [val_pbar]
  · obtain ⟨v0, v1, v2, v3, v4, hc⟩ : ∃ v0 v1 v2 v3 v4, x.params.volume = [v0, v1, v2, v3, v4] := by
      rcases hvol : x.params.volume with _ | ⟨a, _ | ⟨b, _ | ⟨c, _ | ⟨d, _ | ⟨e, _ | ⟨f, l⟩⟩⟩⟩⟩⟩ <;> rw [hvol] at hl <;>
        simp at hl
      exact ⟨_, _, _, _, _, rfl⟩
    obtain ⟨r', hr', b1, b2, b3, b4, -⟩ := berman_vals x.refT x.refP x.refT x.refP x.ref r v0 v1 v2 v3 v4
    refine ⟨r', fun n s => ?_, ?_, ?_, ?_, ?_⟩
    · unfold pStep
      rw [bind_run (e0 s), if_neg (by simp [hg]), hv]
      simp only [hm, real, EM.lift, hc, hr']
    · rw [b2]; ring
    · rw [b4]; ring
    · rw [b3]; ring
    · rw [b1]; ring
  · obtain ⟨k, hk⟩ := Option.isSome_iff_exists.1 hk
    obtain ⟨a, ha⟩ := Option.isSome_iff_exists.1 ha
    obtain ⟨m1, m2, m3, m4, -⟩ := murnaghan_vals_missing x.refT x.refP x.refT x.refP x.ref k a r (Or.inl ⟨rfl, rfl⟩)
    refine ⟨murnaghan (TS.temperature x.refT) (pbar x.refP) x.refT x.refP x.ref k a r, fun n s => ?_, ?_, ?_, ?_, ?_⟩
    · unfold pStep
      rw [bind_run (e0 s), if_neg (by simp [hg]), hv]
      simp only [hm, real, EM.lift, withSolid, hk, ha]
    · rw [m2]; ring
    · rw [m3]; ring
    · rw [m4]
    · rw [m1]

/-- **C155, solids, the part that holds.**  A solid with a table of heat capacities and a constant volume, Berman's or Murnaghan's equation of
state, asked for at the reference temperature and pressure of its record, has the recorded G, H, S and V - in every database and every
request before, with the convention of Benson and Helgeson - if the reference temperature lies in the first interval of the table (or below
all of them).  Missing: reference temperatures in a later interval, the Birch-Murnaghan equation of state, the Landau model with a transition volume, and
the solutes of Holland and Powell: all fail (below). -/
theorem C155_solids_partial (hm : env.mods = real base) (h : Regular env N) (hfb : env.fallback = false) (hbb : bermanBrown env = false)
    {y : String} {x : Subst} (hy : env.db.subs.lookup y = some x) (hx : Solid x) {t : CpTable} (ht : t.Ok) (htab : HasTable x t) (hT : 0 < x.refT)
    (h0 : t.At x.refT 0) (hV : VolumeModel x) :
    ∃ r, answer env N (.sub x.refT x.refP y) = .ok (.sub r) ∧ AsRecorded x.ref r := by
  obtain ⟨r, hr, g1, g2, g3, -⟩ := emp_recorded ht htab hT h0
  obtain ⟨r', hp, p1, p2, p3, p4⟩ := pStep_recorded hm hx.gen hV r
  exact ⟨r', answer_solid hm h hfb hbb hy hx hr hp, p1.trans g1, p2.trans g2, p3.trans g3, p4⟩

/-- Mineral "A" of the database of the examples has its recorded properties at 298.15 K and 1 bar. -/
example : ∃ r, answer (exMin "BENSON_HELGESON") 4 (.sub 298.15 1e5 "A") = .ok (.sub r) ∧ AsRecorded (exMineral "A" 10 (-1000) 40 2).ref r :=
  C155_solids_partial (base := noWater) rfl (exMin_regular _) rfl (by show iequals _ _ = false; decide) (y := "A") (x := exMineral "A" 10 (-1000) 40 2)
    rfl ⟨by simp [exMineral], rfl, by simp [exMineral], rfl, by simp [exMineral]⟩ twoIntervals_ok ⟨rfl, rfl, rfl⟩ (by norm_num [exMineral])
    ⟨by decide, Or.inl (by norm_num [twoIntervals, exMineral])⟩ (Or.inl ⟨rfl, by simp [exMineral, asg, TS.has]⟩)

/-- **C155, Birch-Murnaghan solids, the part that holds.**  G, H and S at the reference state are the recorded ones.  Missing: the volume. -/
theorem C155_birch_partial (hm : env.mods = real base) (h : Regular env N) (hfb : env.fallback = false) (hbb : bermanBrown env = false)
    {y : String} {x : Subst} (hy : env.db.subs.lookup y = some x) (hx : Solid x) {t : CpTable} (ht : t.Ok) (htab : HasTable x t) (hT : 0 < x.refT)
    (h0 : t.At x.refT 0) (hV : x.mP = .VBM) (hc : 8 ≤ x.params.birch.length) :
    ∃ r, answer env N (.sub x.refT x.refP y) = .ok (.sub r) ∧ r.G.val = x.ref.G.val ∧ r.H.val = x.ref.H.val ∧ r.S.val = x.ref.S.val := by
  obtain ⟨r, hr, g1, g2, g3, -⟩ := emp_recorded ht htab hT h0
  have e0 : ∀ s : ESt PSolv ESolv, EM.read (·.pcorr) s = (.ok s.pcorr, s) := fun _ => rfl
  refine ⟨r, answer_solid hm h hfb hbb hy hx hr fun n s => ?_, g1, g2, g3⟩
  unfold pStep
  rw [bind_run (e0 s), if_neg (by simp [hx.gen]), hV]
  have : BM.bmEntry x.refT x.refP x.refT x.refP x.ref x.params.birch r = .ok r := by
    unfold BM.bmEntry BM.bmGottschalk
    rw [if_neg (by omega), if_neg]
    simp only [TS.op_val_subR, TS.val_temperature, sub_self, ne_eq, not_true_eq_false, or_false, not_not]
    have e : (TS.mulAssignD (pbar x.refP) 0.1).val = x.refP / 1e5 * 0.1 := by rw [← val_pbar]; rfl
    rw [e]
    ring
  simp only [hm, real, EM.lift, this]

/-- **C155 refuted, the volume of Birch-Murnaghan solids.**  `thermoPropertiesMinBMGottschalk` sets the volume only away from the reference
state: at the reference temperature and pressure every such solid is reported with the volume zero its heat capacity left, whatever volume
is recorded. -/
theorem C155_birch_refuted (hm : env.mods = real base) (h : Regular env N) (hfb : env.fallback = false) (hbb : bermanBrown env = false)
    {y : String} {x : Subst} (hy : env.db.subs.lookup y = some x) (hx : Solid x) {t : CpTable} (ht : t.Ok) (htab : HasTable x t) (hT : 0 < x.refT)
    (h0 : t.At x.refT 0) (hV : x.mP = .VBM) (hc : 8 ≤ x.params.birch.length) (hV0 : x.ref.V.val ≠ 0) :
    ∃ r, answer env N (.sub x.refT x.refP y) = .ok (.sub r) ∧ r.V.val = 0 ∧ ¬ AsRecorded x.ref r := by
  obtain ⟨r, hr, g1, g2, g3, g4⟩ := emp_recorded ht htab hT h0
  have e0 : ∀ s : ESt PSolv ESolv, EM.read (·.pcorr) s = (.ok s.pcorr, s) := fun _ => rfl
  refine ⟨r, answer_solid hm h hfb hbb hy hx hr fun n s => ?_, g4, fun h => hV0 (by rw [← h.2.2.2, g4])⟩
  unfold pStep
  rw [bind_run (e0 s), if_neg (by simp [hx.gen]), hV]
  have : BM.bmEntry x.refT x.refP x.refT x.refP x.ref x.params.birch r = .ok r := by
    unfold BM.bmEntry BM.bmGottschalk
    rw [if_neg (by omega), if_neg]
    simp only [TS.op_val_subR, TS.val_temperature, sub_self, ne_eq, not_true_eq_false, or_false, not_not]
    have e : (TS.mulAssignD (pbar x.refP) 0.1).val = x.refP / 1e5 * 0.1 := by rw [← val_pbar]; rfl
    rw [e]
    ring
  simp only [hm, real, EM.lift, this]

/-- A mineral like "A" with another equation of state, and another table of heat capacities. -/
noncomputable def exSolid (mP : CorrP) (t : CpTable) : Subst :=
  { exMineral "A" 10 (-1000) 40 2 with
    mP := mP
    params := { cpCoeffs := (List.range t.n).map t.c, intervals := (List.range t.n).map fun j => [t.b j, t.b (j + 1)],
                transitions := (List.range (t.n - 1)).map fun j => [t.b (j + 1), t.dS j, t.dH j, t.dV j],
                birch := [2e-5, 0, 0, 0, 1000, 0, 4, 0, 0], volume := [1e-5, 0, 0, -1e-6, 0], compressibility := some 750, expansivity := some 2 } }

/-- A database of that mineral alone. -/
noncomputable def exSolidEnv (x : Subst) : Env PSolv ESolv :=
  ⟨⟨[("H2O@", conSub "H2O@" 1), ("A", x)], [], fun _ => 10, "NEA_HGK"⟩, real noWater, "GEOCHEMICAL", "BENSON_HELGESON", false, true, 1000000⟩

lemma exSolidEnv_regular (mP : CorrP) (t : CpTable) (hg : mP = .CON ∨ mP = .VBE ∨ mP = .CEH ∨ mP = .VBM) : Regular (exSolidEnv (exSolid mP t)) 4 := by
  refine regular_of_own rfl (fun y v h => ?_) le_rfl
  have := mem_of_lookup h
  simp only [exSolidEnv, List.mem_cons, Prod.mk.injEq, List.not_mem_nil, or_false] at this
  rcases this with ⟨-, rfl⟩ | ⟨-, rfl⟩
  · simp [NoGasModel, conSub, Subst.isReacDC, Subst.noMethods]
  · rcases hg with rfl | rfl | rfl | rfl <;> simp [NoGasModel, exSolid, exMineral, Subst.isReacDC, Subst.noMethods]

lemma exSolid_ok (mP : CorrP) (t : CpTable) : Solid (exSolid mP t) ∧ HasTable (exSolid mP t) t :=
  ⟨⟨by simp [exSolid, exMineral], rfl, by simp [exSolid, exMineral], rfl, by simp [exSolid, exMineral]⟩, ⟨rfl, rfl, rfl⟩⟩

lemma exSolid_bb (x : Subst) : bermanBrown (exSolidEnv x) = false := by
  show iequals "BENSON_HELGESON".toList "BERMAN_BROWN".toList = false; decide

/-- The solids of Berman and Murnaghan have the recorded properties, that of Birch and Murnaghan the volume zero. -/
example : (∀ mP, mP = CorrP.VBE ∨ mP = .CEH → ∃ r, answer (exSolidEnv (exSolid mP twoIntervals)) 4 (.sub 298.15 1e5 "A") = .ok (.sub r) ∧
      AsRecorded (exSolid mP twoIntervals).ref r) ∧
    (∃ r, answer (exSolidEnv (exSolid .VBM twoIntervals)) 4 (.sub 298.15 1e5 "A") = .ok (.sub r) ∧ r.G.val = -(1000 + 298.15 * 30)) ∧
    ∃ r, answer (exSolidEnv (exSolid .VBM twoIntervals)) 4 (.sub 298.15 1e5 "A") = .ok (.sub r) ∧ r.V.val = 0 ∧
      (exSolid .VBM twoIntervals).ref.V.val = 2 := by
  have h0 : ∀ mP, twoIntervals.At (exSolid mP twoIntervals).refT 0 := fun mP =>
    ⟨by decide, Or.inl (by norm_num [twoIntervals, exSolid, exMineral])⟩
  have hT : ∀ mP, 0 < (exSolid mP twoIntervals).refT := fun mP => by norm_num [exSolid, exMineral]
  have hV : (exSolid .VBM twoIntervals).ref.V.val = 2 := by simp [exSolid, exMineral, asg]
  refine ⟨?_, ?_, ?_⟩
  · rintro mP (rfl | rfl)
    · exact C155_solids_partial (base := noWater) rfl (exSolidEnv_regular _ _ (by simp)) rfl (exSolid_bb _) (y := "A") (x := exSolid _ twoIntervals)
        rfl (exSolid_ok _ _).1 twoIntervals_ok (exSolid_ok _ _).2 (hT _) (h0 _) (Or.inr (Or.inl ⟨rfl, rfl⟩))
    · exact C155_solids_partial (base := noWater) rfl (exSolidEnv_regular _ _ (by simp)) rfl (exSolid_bb _) (y := "A") (x := exSolid _ twoIntervals)
        rfl (exSolid_ok _ _).1 twoIntervals_ok (exSolid_ok _ _).2 (hT _) (h0 _) (Or.inr (Or.inr ⟨rfl, rfl, rfl⟩))
  · obtain ⟨r, h1, h2, -⟩ := C155_birch_partial (base := noWater) rfl (exSolidEnv_regular _ _ (by simp)) rfl (exSolid_bb _) (y := "A")
      (x := exSolid .VBM twoIntervals) rfl (exSolid_ok _ _).1 twoIntervals_ok (exSolid_ok _ _).2 (hT _) (h0 _) rfl (by simp [exSolid])
    refine ⟨r, h1, h2.trans ?_⟩
    simp only [exSolid, exMineral, asg]
    norm_num
  · obtain ⟨r, h1, h2, -⟩ := C155_birch_refuted (base := noWater) rfl (exSolidEnv_regular _ _ (by simp)) rfl (exSolid_bb _) (y := "A")
      (x := exSolid .VBM twoIntervals) rfl (exSolid_ok _ _).1 twoIntervals_ok (exSolid_ok _ _).2 (hT _) (h0 _) rfl (by simp [exSolid])
      (by rw [hV]; norm_num)
    exact ⟨r, h1, h2, hV⟩

/-- A record of an ideal gas with a table of heat capacities. -/
structure IdealGas (x : Subst) : Prop where
  notH : x.symbol ≠ "H+"
  own : x.reacdc = false
  cls : x.cls = .GASFLUID
  gen : x.gen = .CPT
  noLandau : x.mT ≠ .CHP
  ideal : x.mP = .OFF

/-- **C155, ideal gases, the part that holds.**  An ideal gas asked for at the reference temperature and pressure of its record has the recorded G, H
and S, after any requests, whether the pressure correction is switched on or off.  Its volume is R T / P, whatever volume is recorded; missing:
that they agree (below). -/
theorem C155_ideal_gas_partial (hm : env.mods = real base) (hfb : env.fallback = false) (hbb : bermanBrown env = false) {x : Subst} (hx : IdealGas x)
    {t : CpTable} (ht : t.Ok) (htab : HasTable x t) (hT : 0 < x.refT) (hP : 0 < x.refP) (h0 : t.At x.refT 0) (n : Nat) (s : ESt PSolv ESolv) :
    ∃ r s', ask env (n + 1) (.subRec x.refT x.refP x) s = (.ok (.sub r), s') ∧ r.G.val = x.ref.G.val ∧ r.H.val = x.ref.H.val ∧
      r.S.val = x.ref.S.val ∧ r.V.val = Rgas * x.refT / (x.refP / 1e5) := by
  obtain ⟨r, hr, g1, g2, g3, -⟩ := emp_recorded ht htab hT h0
  have e2 : tStep env x.refT x.refP x r (setPrefs env x s).2 = (.ok r, (setPrefs env x s).2) := by
    have := hx.noLandau
    have hg := hx.gen
    unfold tStep
    cases hT : x.mT <;> first | exact absurd hT this | simp only [hg, ne_eq, not_true_eq_false, if_false] <;> rfl
  have hp : pStep env (run env n) x.refT x.refP x r (setPrefs env x s).2 =
      (.ok (idealGasLawVol x.refT x.refP true x.refP r (setPrefs env x s).2.pcorr), (setPrefs env x s).2) := by
    have e0 : EM.read (·.pcorr) (setPrefs env x s).2 = (.ok (setPrefs env x s).2.pcorr, (setPrefs env x s).2) := rfl
    unfold pStep
    rw [bind_run e0, if_neg (by simp [hx.gen]), hx.ideal]
    simp only [hm, real, EM.lift, hx.cls, decide_true]
  have hans := substRec_steps hm hfb hbb hx.notH hx.own (by rw [hx.cls]; simp) hx.gen hr s e2 hp
  refine ⟨idealGasLawVol x.refT x.refP true x.refP r (setPrefs env x s).2.pcorr, (setPrefs env x s).2, ?_, ?_⟩
  · show (do return Answer.sub (← (run env (n + 1)).direct x.refT x.refP x) : EM PSolv ESolv (Answer PSolv ESolv)) s = _
    rw [bind_run (show (run env (n + 1)).direct x.refT x.refP x s = _ from hans)]
    rfl
  · generalize (setPrefs env x s).2.pcorr = fl
    rw [← g1, ← g2, ← g3]
    cases fl <;> refine ⟨?_, ?_, ?_, ?_⟩ <;> simp [idealGasLawVol, hP, applyPressure, val_pbar]
    · ring
    · ring

/-- **C155 refuted, the volume of ideal gases.**  The recorded volume of an ideal gas is not used: at its own reference state it is reported with
R T / P, so with another volume than recorded wherever the two differ, as for a record without volume. -/
theorem C155_ideal_gas_refuted (hm : env.mods = real base) (hfb : env.fallback = false) (hbb : bermanBrown env = false) {x : Subst} (hx : IdealGas x)
    {t : CpTable} (ht : t.Ok) (htab : HasTable x t) (hT : 0 < x.refT) (hP : 0 < x.refP) (h0 : t.At x.refT 0)
    (hV : x.ref.V.val ≠ Rgas * x.refT / (x.refP / 1e5)) (n : Nat) (s : ESt PSolv ESolv) :
    ∃ r s', ask env (n + 1) (.subRec x.refT x.refP x) s = (.ok (.sub r), s') ∧ ¬ AsRecorded x.ref r := by
  obtain ⟨r, s', h1, -, -, -, h5⟩ := C155_ideal_gas_partial hm hfb hbb hx ht htab hT hP h0 n s
  exact ⟨r, s', h1, fun h => hV (by rw [← h.2.2.2, h5])⟩

/-- A gas with the heat capacities of mineral "A" and a recorded volume of 2 J/bar. -/
noncomputable def exIdeal : Subst := { exSolid .OFF twoIntervals with cls := .GASFLUID }

example (s : ESt PSolv ESolv) : (∃ r s', ask (exSolidEnv exIdeal) 1 (.subRec 298.15 1e5 exIdeal) s = (.ok (.sub r), s') ∧ r.G.val = -(1000 + 298.15 * 30)) ∧
    ∃ r s', ask (exSolidEnv exIdeal) 1 (.subRec 298.15 1e5 exIdeal) s = (.ok (.sub r), s') ∧ ¬ AsRecorded exIdeal.ref r := by
  have hx : IdealGas exIdeal := ⟨by simp [exIdeal, exSolid, exMineral], rfl, rfl, rfl, by simp [exIdeal, exSolid, exMineral], rfl⟩
  have htab : HasTable exIdeal twoIntervals := ⟨rfl, rfl, rfl⟩
  have h0 : twoIntervals.At exIdeal.refT 0 := ⟨by decide, Or.inl (by norm_num [twoIntervals, exIdeal, exSolid, exMineral])⟩
  have hT : 0 < exIdeal.refT := by norm_num [exIdeal, exSolid, exMineral]
  have hP : 0 < exIdeal.refP := by norm_num [exIdeal, exSolid, exMineral]
  constructor
  · obtain ⟨r, s', h1, h2, -⟩ := C155_ideal_gas_partial (base := noWater) (env := exSolidEnv exIdeal) rfl rfl (exSolid_bb _) hx twoIntervals_ok htab hT hP h0 0 s
    refine ⟨r, s', h1, h2.trans ?_⟩
    simp only [exIdeal, exSolid, exMineral, asg]
    norm_num
  · refine C155_ideal_gas_refuted (base := noWater) (env := exSolidEnv exIdeal) rfl rfl (exSolid_bb _) hx twoIntervals_ok htab hT hP h0 ?_ 0 s
    simp only [exIdeal, exSolid, exMineral, asg, Rgas]
    norm_num

/-- Two intervals below and above 250 K, with heat capacities of 40 and 60 J/(mol K), and no transition between them. -/
noncomputable def lowIntervals : CpTable :=
  ⟨2, fun j => 200 + 50 * j, fun j => if j = 0 then [40] else [60], fun _ => 0, fun _ => 0, fun _ => 0⟩

lemma lowIntervals_ok : lowIntervals.Ok := by
  refine ⟨by decide, by norm_num [lowIntervals], ?_, 1, ?_⟩
  · refine strictMono_nat_of_lt_succ fun j => ?_
    simp only [lowIntervals]
    push_cast
    linarith
  · intro j hj
    simp only [lowIntervals]
    split <;> rfl

/-- **C155 refuted, reference temperatures above the first interval.**  `thermoPropertiesEmpCpIntegration` takes the reference properties as
those at the reference temperature, but integrates from there with the coefficients of the first interval to its upper end, even downwards, and
goes on through the later intervals.  A mineral with heat capacities of 40 J/(mol K) up to 250 K and 60 J/(mol K) above has, at its own
reference state of 298.15 K and 1 bar, an enthalpy of 963 J/mol more than recorded. -/
theorem C155_interval_refuted : ∃ (env : Env PSolv ESolv) (x : Subst) (t : CpTable), env.mods = real noWater ∧ Regular env 4 ∧ env.fallback = false ∧
    bermanBrown env = false ∧ env.db.subs.lookup "A" = some x ∧ Solid x ∧ t.Ok ∧ HasTable x t ∧ VolumeModel x ∧
    ∃ r, answer env 4 (.sub x.refT x.refP "A") = .ok (.sub r) ∧ r.H.val = x.ref.H.val + 963 ∧ ¬ AsRecorded x.ref r := by
  refine ⟨exSolidEnv (exSolid .CON lowIntervals), exSolid .CON lowIntervals, lowIntervals, rfl, exSolidEnv_regular _ _ (by simp), rfl, exSolid_bb _, rfl,
    (exSolid_ok _ _).1, lowIntervals_ok, (exSolid_ok _ _).2, Or.inl ⟨rfl, by simp [exSolid, exMineral, asg, TS.has]⟩, ?_⟩
  have hx := exSolid_ok .CON lowIntervals
  have hat : lowIntervals.At 298.15 1 := ⟨by decide, Or.inl (by norm_num [lowIntervals])⟩
  have hT : (exSolid .CON lowIntervals).refT = 298.15 := rfl
  have hP : (exSolid .CON lowIntervals).refP = 1e5 := rfl
  obtain ⟨h1, -, -, -, g4, -⟩ := okOr_vals lowIntervals lowIntervals_ok 298.15 (exSolid .CON lowIntervals).ref TPS.default 298.15 1 hat
  have h1' := h1
  have hd := hx.2.data
  rw [hT] at hd
  rw [← hd] at h1'
  have hh : (exSolid .CON lowIntervals).ref.V.has := by simp [exSolid, exMineral, asg, TS.has]
  have hans := answer_solid (base := noWater) (env := exSolidEnv (exSolid .CON lowIntervals)) (P := 1e5) (y := "A")
    (r' := conMolVol 298.15 1e5 (exSolid .CON lowIntervals).ref 1e5 (okOr (empCpIntegration (lowIntervals.data 298.15 (exSolid .CON lowIntervals).ref TPS.default) 298.15)))
    rfl (exSolidEnv_regular _ _ (by simp)) rfl (exSolid_bb _) rfl hx.1 h1' (by
    intro n s
    have e0 : EM.read (·.pcorr) s = (.ok s.pcorr, s) := rfl
    unfold pStep
    rw [bind_run e0, if_neg (by simp [hx.1.gen])]
    rfl)
  refine ⟨_, hans, ?_⟩
  have key : (conMolVol 298.15 1e5 (exSolid .CON lowIntervals).ref 1e5
      (okOr (empCpIntegration (lowIntervals.data 298.15 (exSolid .CON lowIntervals).ref TPS.default) 298.15))).H.val =
      (exSolid .CON lowIntervals).ref.H.val + 963 := by
    simp only [conMolVol, if_pos hh]
    rw [TS.val_addAssign, g4, emp_val_H]
    simp only [CpTable.entry, CpTable.run, refTot, emp_val_H, TS.op_val_mul, TS.op_val_subR, val_pbar]
    simp [CpTable.start, CpTable.coefs, lowIntervals]
    norm_num
    ring
  exact ⟨key, fun hr => by have := hr.2.1; rw [key] at this; linarith⟩

/-- A record of a mineral with a table of heat capacities and a transition by the Landau model. -/
structure Transition (x : Subst) (l : LandauPar) : Prop where
  notH : x.symbol ≠ "H+"
  own : x.reacdc = false
  solute : x.cls ≠ .AQSOLVENT
  gen : x.gen = .CPT
  method : x.mT = .CHP
  pars : ∃ rest, x.params.landau = l.Tc0 :: l.Smax :: l.Vmax :: rest
  elastic : x.params.compressibility.isSome ∧ x.params.expansivity.isSome

/-- What the engine answers for a mineral with a transition at its reference state: the increments of the Landau model at the reference
pressure, counted from zero pressure, and the recorded volume. -/
lemma answer_landau (hm : env.mods = real base) (h : Regular env N) (hfb : env.fallback = false) (hbb : bermanBrown env = false) {y : String}
    {x : Subst} (hy : env.db.subs.lookup y = some x) {l : LandauPar} (hx : Transition x l) {t : CpTable} (ht : t.Ok) (htab : HasTable x t)
    (hT : 0 < x.refT) (h0 : t.At x.refT 0) (hV : VolumeModel x) (hl : LandauOk l x.refT) (hTc : 0 < l.Tc x.refP) :
    ∃ r k a, x.params.compressibility = some k ∧ x.params.expansivity = some a ∧ answer env N (.sub x.refT x.refP y) = .ok (.sub r) ∧
      r.G.val = x.ref.G.val + (l.Smax * (l.Tc0 + 273.15) * (l.Q2 x.refT - l.Q6 x.refT / 3) - x.refT * l.Smax * l.Q2 x.refT
        + hpG (l.Vmax * l.Q2 x.refT) (a * 1e-5) k x.refT (kbar x.refP) x.refT - 2 / 3 * l.Smax * l.Tc x.refP * (1 - x.refT / l.Tc x.refP) ^ (1.5 : ℝ)) ∧
      r.S.val = x.ref.S.val + (l.Smax * (l.Q2 x.refT - (1 - x.refT / l.Tc x.refP) ^ (0.5 : ℝ))
        - hpE (l.Vmax * l.Q2 x.refT) (a * 1e-5) k x.refT (kbar x.refP) x.refT) ∧
      r.H.val - x.ref.H.val = (r.G.val - x.ref.G.val) + x.refT * (r.S.val - x.ref.S.val) ∧ r.V.val = x.ref.V.val := by
  obtain ⟨r, hr, g1, g2, g3, -⟩ := emp_recorded ht htab hT h0
  obtain ⟨k, hk⟩ := Option.isSome_iff_exists.1 hx.elastic.1
  obtain ⟨a, ha⟩ := Option.isSome_iff_exists.1 hx.elastic.2
  obtain ⟨rest, hpar⟩ := hx.pars
  obtain ⟨r2, hr2⟩ := landau_ok x.refT x.refP x.refT l rest k a r
  obtain ⟨v1, v2, v3, -⟩ := landau_vals x.refT x.refP x.refT l rest k a r hl hTc r2 hr2
  obtain ⟨r', hp, p1, p2, p3, p4⟩ := pStep_recorded hm hx.gen hV r2
  have e2 : ∀ s : ESt PSolv ESolv, tStep env x.refT x.refP x r s = (.ok r2, s) := by
    intro s
    unfold tStep
    rw [hx.method]
    simp only [hm, real, withSolid, hk, ha, hpar, hr2, hx.gen, reduceCtorEq, if_false, EM.lift]
  refine ⟨r', k, a, hk, ha, answer_steps hm h hfb hbb hy hx.notH hx.own hx.solute hx.gen hr e2 hp, ?_, ?_, ?_, p4⟩
  · rw [p1, v1, g1]
  · rw [p3, v2, g3]
  · rw [p1, p2, p3, v1, v2, v3, g1, g2, g3]
    have hw : (1 - x.refT / l.Tc x.refP) ^ (1.5 : ℝ) * l.Tc x.refP = (1 - x.refT / l.Tc x.refP) ^ (0.5 : ℝ) * (l.Tc x.refP - x.refT) := by
      rcases le_or_gt (1 - x.refT / l.Tc x.refP) 0 with hw | hw
      · rw [rpow_half_nonpos hw, rpow_three_half_nonpos hw]; ring
      · rw [show (1.5 : ℝ) = 1 + 0.5 by norm_num, Real.rpow_add hw, Real.rpow_one]
        field_simp
    linear_combination (l.Smax) * hw

/-- **C155, minerals with a transition, the part that holds.**  A mineral with a transition by the Landau model and without transition volume has
the recorded G, H, S and V at its reference state.  Missing: transition volumes, for which it fails (below). -/
theorem C155_landau_partial (hm : env.mods = real base) (h : Regular env N) (hfb : env.fallback = false) (hbb : bermanBrown env = false)
    {y : String} {x : Subst} (hy : env.db.subs.lookup y = some x) {l : LandauPar} (hx : Transition x l) {t : CpTable} (ht : t.Ok) (htab : HasTable x t)
    (hT : 0 < x.refT) (h0 : t.At x.refT 0) (hV : VolumeModel x) (hl : LandauOk l x.refT) (hV0 : l.Vmax = 0) :
    ∃ r, answer env N (.sub x.refT x.refP y) = .ok (.sub r) ∧ AsRecorded x.ref r := by
  have hTc : l.Tc x.refP = l.Tc0 + 273.15 := by simp [LandauPar.Tc, hV0]
  have hpos : 0 < l.Tc0 + 273.15 := lt_trans hl.tr hl.ord
  obtain ⟨r, k, a, -, -, ha, v1, v2, v3, v4⟩ := answer_landau hm h hfb hbb hy hx ht htab hT h0 hV hl (by rw [hTc]; exact hpos)
  have hw : 0 < 1 - x.refT / (l.Tc0 + 273.15) := by
    have : x.refT / (l.Tc0 + 273.15) < 1 := (div_lt_one hpos).2 hl.ord
    linarith
  have e : l.Q6 x.refT = (1 - x.refT / (l.Tc0 + 273.15)) * l.Q2 x.refT := by
    unfold LandauPar.Q6 LandauPar.Q2
    rw [show (1.5 : ℝ) = 1 + 0.5 by norm_num, Real.rpow_add hw, Real.rpow_one]
  have hG : ∀ a0, hpG (l.Vmax * l.Q2 x.refT) a0 k x.refT (kbar x.refP) x.refT = 0 := by intro a0; simp [hpG, hpV, hV0]
  have hE : ∀ a0, hpE (l.Vmax * l.Q2 x.refT) a0 k x.refT (kbar x.refP) x.refT = 0 := by intro a0; simp [hpE, hpV, hV0]
  have e5 : (1 - x.refT / l.Tc x.refP) ^ (0.5 : ℝ) = l.Q2 x.refT := by rw [hTc]; rfl
  have e15 : (1 - x.refT / l.Tc x.refP) ^ (1.5 : ℝ) = l.Q6 x.refT := by rw [hTc]; rfl
  have g1 : r.G.val = x.ref.G.val := by rw [v1, hG, e15, hTc, e]; field_simp; ring
  have g2 : r.S.val = x.ref.S.val := by rw [v2, hE, e5]; ring
  exact ⟨r, ha, g1, by rw [g1, g2] at v3; linarith, g2, v4⟩

/-- A mineral like "A" with the Murnaghan equation of state and a Landau transition. -/
noncomputable def exTransition (l : LandauPar) (k : ℝ) : Subst :=
  { exMineral "A" 10 (-1000) 40 2 with
    mP := .CEH
    mT := .CHP
    params := { cpCoeffs := (List.range twoIntervals.n).map twoIntervals.c,
                intervals := (List.range twoIntervals.n).map fun j => [twoIntervals.b j, twoIntervals.b (j + 1)],
                transitions := (List.range (twoIntervals.n - 1)).map fun j => [twoIntervals.b (j + 1), twoIntervals.dS j, twoIntervals.dH j, twoIntervals.dV j],
                landau := [l.Tc0, l.Smax, l.Vmax], compressibility := some k, expansivity := some 0 } }

lemma exTransition_ok (l : LandauPar) (k : ℝ) : Transition (exTransition l k) l ∧ HasTable (exTransition l k) twoIntervals ∧
    VolumeModel (exTransition l k) ∧ twoIntervals.At (exTransition l k).refT 0 ∧ Regular (exSolidEnv (exTransition l k)) 4 := by
  refine ⟨⟨by simp [exTransition, exMineral], rfl, by simp [exTransition, exMineral], rfl, rfl, ⟨[], rfl⟩, rfl, rfl⟩, ⟨rfl, rfl, rfl⟩,
    Or.inr (Or.inr ⟨rfl, rfl, rfl⟩), ⟨by decide, Or.inl (by norm_num [twoIntervals, exTransition, exMineral])⟩, ?_⟩
  refine regular_of_own rfl (fun y v h => ?_) le_rfl
  have := mem_of_lookup h
  simp only [exSolidEnv, List.mem_cons, Prod.mk.injEq, List.not_mem_nil, or_false] at this
  rcases this with ⟨-, rfl⟩ | ⟨-, rfl⟩
  · simp [NoGasModel, conSub, Subst.isReacDC, Subst.noMethods]
  · simp [NoGasModel, exTransition, exMineral, Subst.isReacDC, Subst.noMethods]

/-- A mineral with the transition of quartz at 574 °C, but without transition volume. -/
example : ∃ r, answer (exSolidEnv (exTransition ⟨574, 4.95, 0⟩ 750)) 4 (.sub 298.15 1e5 "A") = .ok (.sub r) ∧
    AsRecorded (exTransition ⟨574, 4.95, 0⟩ 750).ref r := by
  obtain ⟨h1, h2, h3, h4, h5⟩ := exTransition_ok ⟨574, 4.95, 0⟩ 750
  exact C155_landau_partial (base := noWater) rfl h5 rfl (exSolid_bb _) (y := "A") (x := exTransition ⟨574, 4.95, 0⟩ 750) rfl h1 twoIntervals_ok h2
    (by norm_num [exTransition, exMineral]) h4 h3 ⟨by norm_num, by norm_num [exTransition, exMineral], by norm_num [exTransition, exMineral]⟩ rfl

/-- A transition at 124.4 °C with the entropy of that of quartz and a volume of 0.105 J/bar, which moves it by 0.02 K in a bar. -/
noncomputable def exLandau : LandauPar :=
  ⟨298.15 / (1 - 0.5 ^ 2) - 273.15, 4.95, 4.95 * (298.15 / (1 - 0.50004 ^ 2) - 298.15 / (1 - 0.5 ^ 2))⟩

/-- A bulk modulus of 750 kbar. -/
noncomputable def exBulk : ℝ := 0.004 / ((1 + 1 / 750000) ^ 4 - 1)

lemma exLandau_Tc : exLandau.Tc 1e5 = 298.15 / (1 - 0.50004 ^ 2) := by norm_num [LandauPar.Tc, exLandau]

lemma rpow_sq_half {s : ℝ} (hs : 0 ≤ s) : (s ^ 2) ^ (0.5 : ℝ) = s ∧ (s ^ 2) ^ (1.5 : ℝ) = s ^ 3 := by
  constructor
  · rw [← Real.rpow_natCast, ← Real.rpow_mul hs]; norm_num
  · rw [← Real.rpow_natCast, ← Real.rpow_mul hs, ← Real.rpow_natCast]; norm_num

lemma rpow_four_quarter {q : ℝ} (hq : 0 < q) : (q ^ 4) ^ (0.75 : ℝ) = q ^ 3 ∧ (q ^ 4) ^ (-0.25 : ℝ) = 1 / q := by
  constructor
  · rw [← Real.rpow_natCast, ← Real.rpow_mul hq.le, ← Real.rpow_natCast]; norm_num
  · rw [← Real.rpow_natCast, ← Real.rpow_mul hq.le, one_div, ← Real.rpow_neg_one]; norm_num

/-- **C155 refuted, minerals with a transition volume.**  `thermoPropertiesMinHPLandau` counts its increments from zero pressure, not from the
reference pressure (C36), and the models of the volume count theirs from the reference pressure: at its reference state a mineral with the
transition entropy and the bulk modulus of quartz, ordering at 124 °C and with a transition volume, has a larger Gibbs energy and a smaller
entropy and enthalpy than recorded - by little: 0.004 J/mol, 0.0002 J/(mol K) and 0.05 J/mol. -/
theorem C155_landau_refuted : ∃ (env : Env PSolv ESolv) (x : Subst) (l : LandauPar) (t : CpTable), env.mods = real noWater ∧ Regular env 4 ∧
    env.fallback = false ∧ bermanBrown env = false ∧ env.db.subs.lookup "A" = some x ∧ Transition x l ∧ t.Ok ∧ HasTable x t ∧ t.At x.refT 0 ∧
    VolumeModel x ∧ LandauOk l x.refT ∧ x.refP = 1e5 ∧
    ∃ r, answer env 4 (.sub x.refT x.refP "A") = .ok (.sub r) ∧ x.ref.G.val + 0.004 < r.G.val ∧ r.S.val < x.ref.S.val - 0.00019 ∧
      r.H.val < x.ref.H.val - 0.05 := by
  obtain ⟨h1, h2, h3, h4, h5⟩ := exTransition_ok exLandau exBulk
  have hl : LandauOk exLandau (exTransition exLandau exBulk).refT :=
    ⟨by norm_num [exLandau], by norm_num [exTransition, exMineral], by norm_num [exTransition, exMineral, exLandau]⟩
  have hT : (exTransition exLandau exBulk).refT = 298.15 := rfl
  have hP : (exTransition exLandau exBulk).refP = 1e5 := rfl
  refine ⟨exSolidEnv (exTransition exLandau exBulk), exTransition exLandau exBulk, exLandau, twoIntervals, rfl, h5, rfl, exSolid_bb _, rfl, h1,
    twoIntervals_ok, h2, h4, h3, hl, rfl, ?_⟩
  obtain ⟨r, k, a, hk, ha, hr, v1, v2, v3, -⟩ := answer_landau (base := noWater) (env := exSolidEnv (exTransition exLandau exBulk)) rfl h5 rfl
    (exSolid_bb _) (y := "A") rfl h1 twoIntervals_ok h2 hl.tr h4 h3 hl (by rw [hP, exLandau_Tc]; norm_num)
  obtain rfl : exBulk = k := Option.some.inj hk
  obtain rfl : (0 : ℝ) = a := Option.some.inj ha
  rw [hT, hP, exLandau_Tc] at v1 v2
  rw [hT] at v3
  have hQ : 1 - 298.15 / (exLandau.Tc0 + 273.15) = (0.5 : ℝ) ^ 2 := by norm_num [exLandau]
  have q2 : exLandau.Q2 298.15 = 0.5 := by rw [LandauPar.Q2, hQ, (rpow_sq_half (by norm_num)).1]
  have q6 : exLandau.Q6 298.15 = 0.5 ^ 3 := by rw [LandauPar.Q6, hQ, (rpow_sq_half (by norm_num)).2]
  have hw : 1 - 298.15 / (298.15 / (1 - 0.50004 ^ 2)) = (0.50004 : ℝ) ^ 2 := by norm_num
  have hq : hpq exBulk 298.15 (kbar 1e5) 298.15 = (1 + 1 / 750000 : ℝ) ^ 4 := by norm_num [hpq, hpK, exBulk, kbar]
  have hq' := rpow_four_quarter (q := 1 + 1 / 750000) (by norm_num)
  have hG : hpG (exLandau.Vmax * 0.5) (0 * 1e-5) exBulk 298.15 (kbar 1e5) 298.15 =
      1 / 3 * (exLandau.Vmax * 0.5) * exBulk * ((1 + 1 / 750000) ^ 3 - 1) * 1000 := by
    unfold hpG
    rw [hq, hq'.1]
    simp [hpV, hpK]
  have hE : hpE (exLandau.Vmax * 0.5) (0 * 1e-5) exBulk 298.15 (kbar 1e5) 298.15 =
      (- (exLandau.Vmax * 0.5) * exBulk / 3 * 1.5e-4 * ((1 + 1 / 750000) ^ 3 - 1) + exLandau.Vmax * 0.5 * 0.001 * 1.5e-4 * (1 / (1 + 1 / 750000))) * 1000 := by
    unfold hpE
    rw [hq, hq'.1, hq'.2]
    simp [hpV, kbar]
    norm_num
    ring
  rw [q2, q6, hw, (rpow_sq_half (by norm_num)).2, hG] at v1
  rw [q2, hw, (rpow_sq_half (by norm_num)).1, hE] at v2
  refine ⟨r, hr, ?_, ?_, ?_⟩
  · rw [v1]; norm_num [exLandau, exBulk]
  · rw [v2]; norm_num [exLandau, exBulk]; linarith
  · have : r.H.val = (exTransition exLandau exBulk).ref.H.val + ((r.G.val - (exTransition exLandau exBulk).ref.G.val)
      + 298.15 * (r.S.val - (exTransition exLandau exBulk).ref.S.val)) := by linarith
    rw [this, v1, v2]
    norm_num [exLandau, exBulk]
    linarith

end Engine

/-! ### Solutes -/

/-- **C155, solutes, the part that holds.**  With the water of the reference state in both places, the model of Anderson et al. returns the recorded
G, H, S, V and Cp; that of Holland and Powell S, V and Cp (reference temperatures up to 500 K); and that of Akinfiev and Diamond leaves G, H and
S of the heat capacity integration unchanged at 298.15 K.  Missing: G and H of Holland and Powell's model. -/
theorem C155_solutes_partial (T P : ℝ) (hT : 0 < T) (ref : TPS) (w : Solv) (hw : w.density.val ≠ 0) (ha : w.dAldT.val ≠ 0) :
    (let r := anderson91Entry T P T ref w w
     AsRecorded ref r ∧ r.Cp.val = ref.Cp.val) ∧
    (∀ b rest, T ≤ 500 → ∃ r, hp98Entry T P T ref (b :: rest) w w = .ok r ∧ r.S.val = ref.S.val ∧ r.V.val = ref.V.val ∧ r.Cp.val = ref.Cp.val) ∧
    (∀ x a b rest wt ig, ∃ r, akinfievDiamondEntry 298.15 P (x :: a :: b :: rest) ref wt ig w wt ig w = .ok r ∧
      r.G.val = ref.G.val ∧ r.H.val = ref.H.val ∧ r.S.val = ref.S.val) := by
  have hl : Real.log (w.density.val / 1000 / (w.density.val / 1000)) = 0 := by
    rw [div_self (div_ne_zero hw (by norm_num)), Real.log_one]
  have hT' := hT.ne'
  refine ⟨?_, ?_, ?_⟩
  · obtain ⟨v1, v2, v3, v4, v5, -⟩ := an91_vals T P T ref w w
    dsimp only
    refine ⟨⟨?_, ?_, ?_, v5⟩, ?_⟩
    · rw [v1, hl]; ring
    · rw [v2, hl]; ring
    · rw [v3]; ring
    · rw [v4]; field_simp
  · intro b rest h5
    obtain ⟨r, hr, -, -, v3, v4, v5, -⟩ := hp98_vals T P T ref b rest w w
    have e : hpT' T = T := if_pos h5
    refine ⟨r, hr, ?_, ?_, ?_⟩
    · rw [v3, hl, e, div_self hT']; ring
    · rw [v5, e, div_self hT']; ring
    · rw [v4, e]; field_simp; ring
  · intro x a b rest wt ig
    obtain ⟨r, hr, v1, v2, -, v4, -⟩ := ad_vals 298.15 P x a b rest ref wt ig w wt ig w
    refine ⟨r, hr, ?_, ?_, ?_⟩
    · rw [v1]; ring
    · rw [v4]; ring
    · rw [v2]; ring

/-- **C155 refuted, solutes of Holland and Powell.**  The increments of G and H are taken from zero pressure, not from the reference pressure: at the
reference state they are P (V - K β) with K = (Cp - Tr b)/(Tr dα/dT), not zero, for every solute whose volume is not K β, and every pressure but
zero. -/
theorem C155_hp98_refuted (T P : ℝ) (hT : 0 < T) (hP : 0 < P) (ref : TPS) (w : Solv) (hw : w.density.val ≠ 0) (b : ℝ) (rest : List ℝ)
    (hV : ref.V.val ≠ (ref.Cp.val - T * b) / (T * w.dAldT.val) * (w.Beta.val * 1e5)) :
    ∃ r, hp98Entry T P T ref (b :: rest) w w = .ok r ∧ r.G.val ≠ ref.G.val ∧ r.H.val ≠ ref.H.val := by
  have hl : Real.log (w.density.val / 1000 / (w.density.val / 1000)) = 0 := by
    rw [div_self (div_ne_zero hw (by norm_num)), Real.log_one]
  obtain ⟨r, hr, v1, v2, -⟩ := hp98_vals T P T ref b rest w w
  have key : ∀ K : ℝ, P / 1e5 * ref.V.val + (b * (T * T - T ^ 2 / 2 - T ^ 2 / 2) + K * (w.Alpha.val * (T - T) - w.Beta.val * 1e5 * (P / 1e5) + T / hpT' T * 0)) =
      P / 1e5 * (ref.V.val - K * (w.Beta.val * 1e5)) := fun K => by ring
  have hne : P / 1e5 * (ref.V.val - (ref.Cp.val - T * b) / (T * w.dAldT.val) * (w.Beta.val * 1e5)) ≠ 0 :=
    mul_ne_zero (by positivity) (sub_ne_zero.2 hV)
  refine ⟨r, hr, ?_, ?_⟩
  · rw [v1, hl, add_assoc, key]
    exact fun h => hne (by rw [sub_self, zero_mul, sub_zero] at h; linarith)
  · rw [v2, hl, add_assoc, key]
    exact fun h => hne (by linarith)

/-- A solute of 2 J/bar in the water of the examples, at 300 K and 1 bar. -/
example : (∃ r, hp98Entry 300 1e5 300 exRef [0.1] (exSolv2 300 1e5) (exSolv2 300 1e5) = .ok r ∧ r.G.val ≠ exRef.G.val ∧ r.H.val ≠ exRef.H.val) ∧
    AsRecorded exRef (anderson91Entry 300 1e5 300 exRef (exSolv2 300 1e5) (exSolv2 300 1e5)) := by
  have hw : (exSolv2 300 1e5).density.val ≠ 0 := by simp [exSolv2, exTS]
  have ha : (exSolv2 300 1e5).dAldT.val ≠ 0 := by norm_num [exSolv2, exTS]
  exact ⟨C155_hp98_refuted 300 1e5 (by norm_num) (by norm_num) exRef _ hw 0.1 [] (by norm_num [exSolv2, exTS, exRef]),
    (C155_solutes_partial 300 1e5 (by norm_num) exRef _ hw ha).1.1⟩

end ThermoFun

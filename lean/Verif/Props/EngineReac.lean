import Verif.Props.EngineDispatch
import Verif.Props.LogK

/-!
# Equilibrium constants the engine reports

Theorems about /repo/ThermoFun/ThermoEngine.cpp as modelled in Model/Engine.lean: derivatives carried by the results for reactions (C86),
the pressure correction of a reaction with constant volume (C87).
-/

namespace ThermoFun.Engine

variable {PS EPS : Type}

/-! ### C86 Derivatives of the equilibrium constant from the species -/

lemma addScaled_lnK (T : ℝ) (t : TPR) (y : TPS) (c : ℝ) :
    (addScaled T t y c).lnK.val = -((addScaled T t y c).G.val / (Rgas * T)) ∧
    (addScaled T t y c).lnK.ddt = -((addScaled T t y c).G.ddt / (Rgas * T)) ∧
    (addScaled T t y c).lnK.ddp = -((addScaled T t y c).G.ddp / (Rgas * T)) := by
  have k : (addScaled T t y c).lnK = (addScaled T t y c).G / (-(Rgas * T)) := rfl
  rw [k, TS.op_val_divR, divR_ddt, divR_ddp]
  refine ⟨?_, ?_, ?_⟩ <;> rw [div_neg]

/-- lnK of a sum over at least one species is G / (-R T), with T a plain number. -/
lemma sum_lnK {env : Env PS EPS} {r : Rec PS EPS} {T P : ℝ} {sym : String} {l : List (String × ℝ)} (hl : l ≠ []) {t u : TPR} {s : ESt PS EPS}
    (h : (sumReactants env r T P sym l t s).1 = .ok u) :
    u.lnK.val = -(u.G.val / (Rgas * T)) ∧ u.lnK.ddt = -(u.G.ddt / (Rgas * T)) ∧ u.lnK.ddp = -(u.G.ddp / (Rgas * T)) := by
  induction l generalizing t s with
  | nil => exact absurd rfl hl
  | cons e l ih =>
    obtain ⟨y, c⟩ := e
    unfold sumReactants at h
    obtain ⟨v, -, h⟩ := EM.of_bind_ok h
    by_cases hn : v.noMethods ∧ v.reactionSymbol = sym
    · rw [if_pos hn] at h
      simp [EM.raise] at h
    · rw [if_neg hn] at h
      obtain ⟨ty, -, h⟩ := EM.of_bind_ok h
      cases l with
      | nil =>
        have : addScaled T t ty c = u := by unfold sumReactants at h; injection h
        exact this ▸ addScaled_lnK T t ty c
      | cons e' l' => exact ih (by simp) h

/-- An answer for a reaction computed from its species. -/
lemma fromR_lnK {env : Env PS EPS} {n : Nat} {T P : ℝ} {x : Reac} {s : ESt PS EPS} {t : TPR} (hx : x.reactants ≠ [])
    (h : (ask env n (.fromRRec T P x) s).1 = .ok (.reac t)) :
    t.lnK.val = -(t.G.val / (Rgas * T)) ∧ t.lnK.ddt = -(t.G.ddt / (Rgas * T)) ∧ t.lnK.ddp = -(t.G.ddp / (Rgas * T)) := by
  obtain ⟨u, hu, h2⟩ := EM.of_bind_ok h
  have : u = t := by injection h2 with h2; injection h2
  subst this
  unfold reacFromReactants at hu
  obtain ⟨-, -, hu⟩ := EM.of_bind_ok hu
  obtain ⟨w, hw, hu⟩ := EM.of_bind_ok hu
  obtain ⟨-, -, hu⟩ := EM.of_bind_ok hu
  have : w = u := by injection hu
  exact this ▸ sum_lnK hx hw

/-- **C86** What holds of it: let the answers `f T P` be those for a reaction computed from its species, near `(T0, P0)`.  If the Gibbs energy
carries its pressure derivative, so does ln K.  If it carries its temperature derivative, the one carried by ln K is less than the true
one by exactly G / (R T²).  Missing: the temperature derivative itself, which is wrong, see `C86_ddt_refuted`. -/
theorem C86_derivatives_partial {env : Env PS EPS} {n : Nat} {x : Reac} {s : ℝ → ℝ → ESt PS EPS} {f : ℝ → ℝ → TPR} (hx : x.reactants ≠ [])
    (hf : ∀ T P, (ask env n (.fromRRec T P x) (s T P)).1 = .ok (.reac (f T P))) (T0 P0 : ℝ) (hT : 0 < T0) :
    (HasDerivAt (fun P => (f T0 P).G.val) (f T0 P0).G.ddp P0 → HasDerivAt (fun P => (f T0 P).lnK.val) (f T0 P0).lnK.ddp P0) ∧
    (HasDerivAt (fun T => (f T P0).G.val) (f T0 P0).G.ddt T0 →
      HasDerivAt (fun T => (f T P0).lnK.val) ((f T0 P0).lnK.ddt + (f T0 P0).G.val / (Rgas * T0 ^ 2)) T0) := by
  have hR : Rgas ≠ 0 := by unfold Rgas; norm_num
  have e : ∀ T P, (f T P).lnK.val = -((f T P).G.val / (Rgas * T)) := fun T P => (fromR_lnK hx (hf T P)).1
  constructor
  · intro h
    rw [(fromR_lnK hx (hf T0 P0)).2.2]
    simp only [e]
    exact (h.div_const _).neg
  · intro h
    rw [(fromR_lnK hx (hf T0 P0)).2.1]
    simp only [e]
    have h2 : HasDerivAt (fun T => Rgas * T) Rgas T0 := by simpa using (hasDerivAt_id' T0).const_mul Rgas
    have h3 := (h.div h2 (mul_ne_zero hR hT.ne')).neg
    refine h3.congr_deriv ?_
    field_simp
    ring

/-- The answer for the reaction `-A + 2 B` of Lemmas/EngineEx.lean. -/
noncomputable def exTwoAns (T : ℝ) : TPR := addScaled T (addScaled T zeroTPR (refGV 2 1) (-1)) (refGV 5 1) 2

/-- **C86** is violated: the temperature derivative carried by ln K of a reaction computed from its species is not the derivative of ln K, even
where that carried by the Gibbs energy is right (here G = 8 at all T and P). -/
theorem C86_ddt_refuted : ∃ (env : Env Unit Unit) (x : Reac) (f : ℝ → ℝ → TPR),
    (∀ T P, (ask env 1 (.fromR T P "r") ESt.init).1 = .ok (.reac (f T P))) ∧ env.db.reacs.lookup "r" = some x ∧
    (∀ T P, HasDerivAt (fun T => (f T P).G.val) (f T P).G.ddt T) ∧
    ∀ T P, 0 < T → ¬ HasDerivAt (fun T => (f T P).lnK.val) (f T P).lnK.ddt T := by
  have hG : ∀ T, (exTwoAns T).G.val = 8 ∧ (exTwoAns T).G.ddt = 0 := by
    intro T
    constructor
    · simp [exTwoAns, addScaled, TS.addAssign, refGV, asg, zeroTPR, zeroTS, TS.assign]; norm_num
    · simp [exTwoAns, addScaled, TS.addAssign, mulR_ddt, refGV, asg, zeroTPR, zeroTS, TS.assign]
  have hK : ∀ T, (exTwoAns T).lnK.val = -(8 / (Rgas * T)) ∧ (exTwoAns T).lnK.ddt = 0 := by
    intro T
    have := addScaled_lnK T (addScaled T zeroTPR (refGV 2 1) (-1)) (refGV 5 1) 2
    have h1 := hG T
    unfold exTwoAns at h1 ⊢
    rw [this.1, this.2.1, h1.1, h1.2]
    simp
  refine ⟨exTwo, fromR "r" [("A", -1), ("B", 2)], fun T _ => exTwoAns T, fun T P => exTwo_ask 0 T P, rfl, ?_, ?_⟩
  · intro T P
    simp only [(hG _).1, (hG _).2]
    exact hasDerivAt_const _ _
  · intro T P hT h
    have hR : Rgas ≠ 0 := by unfold Rgas; norm_num
    simp only [(hK _).1, (hK _).2] at h
    have h2 : HasDerivAt (fun T => Rgas * T) Rgas T := by simpa using (hasDerivAt_id' T).const_mul Rgas
    have h3 := (((hasDerivAt_const T (8 : ℝ)).div h2 (mul_ne_zero hR hT.ne')).neg).unique h
    field_simp at h3
    norm_num at h3

/-! ### C87 Pressure correction of a reaction with constant volume -/

/-- The method `Reaction_LogK_fT` is called with. -/
def logKCode : Engine.CorrT → ThermoFun.CorrT
  | .EK0 => .EK0 | .EK1 => .EK1 | .EK2 => .EK2 | .EK3 => .EK3 | .LGK => .LGK | .LGX => .LGX | _ => .other

/-- The engine uses the logK(T) function of Model/LogK.lean, with some coefficients and reference temperature for each reaction. -/
def UsesLogK (mods : Models PS EPS) : Prop :=
  ∃ (A Cp : Reac → List ℝ) (Tr : Reac → ℝ), ∀ x T P m, mods.logk x T P m = logKfTEntry T P x.ref (A x) (Cp x) (Tr x) (logKCode m)

/-- The codes carried out by the logK(T) function. -/
def logKCodes : List CorrT := [.LGX, .LGK, .EK0, .EK1, .EK2, .EK3]

/-- Work of the pressure change, J/mol. -/
noncomputable def work (x : Reac) (P : ℝ) : ℝ := x.ref.V.val * (P / 1e5 - x.refP / 1e5)

lemma logK_V {T P : ℝ} {ref : TPR} {A Cp : List ℝ} {Tr : ℝ} {CE : ThermoFun.CorrT} {r : TPR} (h : logKfTEntry T P ref A Cp Tr CE = .ok r) :
    r.V = ref.V := by
  simp only [logKfTEntry, logKfT] at h
  cases hm : switchT (TS.temperature T) ref.G (fillH (TS.temperature T) ref) (fillS (TS.temperature T) ref) ref.Cp ref.logK A Cp Tr
    (if CE = .EK3 then determineMethod (fillH (TS.temperature T) ref) (fillS (TS.temperature T) ref) ref.Cp else CE) with
  | ok m =>
    rw [hm] at h
    simp only [Res.ok_bind, Res.ok.injEq] at h
    rw [← h]; rfl
  | throw => rw [hm] at h; simp at h
  | ub => rw [hm] at h; simp at h

lemma logK_P {T P P' : ℝ} {ref : TPR} {A Cp : List ℝ} {Tr : ℝ} {CE : ThermoFun.CorrT} {r r' : TPR} (h : logKfTEntry T P ref A Cp Tr CE = .ok r)
    (h' : logKfTEntry T P' ref A Cp Tr CE = .ok r') : r.G = r'.G ∧ r.H = r'.H := by
  simp only [logKfTEntry, logKfT] at h h'
  cases hm : switchT (TS.temperature T) ref.G (fillH (TS.temperature T) ref) (fillS (TS.temperature T) ref) ref.Cp ref.logK A Cp Tr
    (if CE = .EK3 then determineMethod (fillH (TS.temperature T) ref) (fillS (TS.temperature T) ref) ref.Cp else CE) with
  | ok m =>
    rw [hm] at h h'
    simp only [Res.ok_bind, Res.ok.injEq] at h h'
    rw [← h, ← h']
    exact ⟨rfl, rfl⟩
  | throw => rw [hm] at h; simp at h
  | ub => rw [hm] at h; simp at h

/-- A reaction with a logK(T) function and constant volume: the function, then the pressure step. -/
lemma reacRec_logK {env : Env PS EPS} {r : Rec PS EPS} {T P : ℝ} {x : Reac} {s : ESt PS EPS} {t : TPR} (hg : x.gen ≠ .CON) (hm : x.effT ∈ logKCodes)
    (hP : x.mP = .CON ∨ x.mP = .NUL) (h : (reacRec env r T P x s).1 = .ok t) :
    ∃ u, env.mods.logk x T P x.effT = .ok u ∧ t = reacCon T P x u := by
  have lift_ok : ∀ {o : Res TPR} {s : ESt PS EPS} {t : TPR}, (EM.lift o s).1 = .ok t → o = .ok t := by
    intro o s t h
    cases o <;> simp [EM.lift] at h
    exact congrArg _ h
  have hfr : ¬ x.fromReactants = true := by
    rcases hP with hP | hP <;> simp [Reac.fromReactants, hP]
  unfold reacRec at h
  rw [if_neg hfr, if_neg hg] at h
  have hp : ∀ u (s : ESt PS EPS), reacPStep env T P x u s = (.ok (reacCon T P x u), s) := by
    intro u s
    rcases hP with hP | hP <;> (unfold reacPStep; rw [hP]; rfl)
  generalize x.effT = m at hm h ⊢
  simp only [logKCodes, List.mem_cons, List.not_mem_nil, or_false] at hm
  rcases hm with rfl | rfl | rfl | rfl | rfl | rfl <;>
  · simp only at h
    obtain ⟨u, hu, h⟩ := EM.of_bind_ok h
    rw [hp] at h
    exact ⟨u, lift_ok hu, by injection h with h; exact h.symm⟩

/-- **C87** What holds of it: for a reaction with a logK(T) function and constant volume, at T ≠ 0, the reported properties satisfy
G = -R T ln(10) log K, G = H - T S, U = H - P V and A = U - T S, and G and H differ from their values at another pressure P' by
V (P - P') while S does not.
Missing: ln K, which is not corrected and differs from ln(10) log K by V (P - Pr) / (R T), see `C87_lnK_refuted`. -/
theorem C87_constant_volume_partial {env : Env PS EPS} (hlog : UsesLogK env.mods) {x : Reac} (hg : x.gen ≠ .CON) (hm : x.effT ∈ logKCodes)
    (hP : x.mP = .CON ∨ x.mP = .NUL) (n : Nat) (T P : ℝ) (hT : T ≠ 0) (s : ESt PS EPS) {t : TPR}
    (h : (ask env n (.reacRec T P x) s).1 = .ok (.reac t)) :
    t.G.val = -(Rgas * T * (lgToLn * t.logK.val)) ∧ t.G.val = t.H.val - T * t.S.val ∧ t.U.val = t.H.val - P / 1e5 * t.V.val ∧
    t.A.val = t.U.val - T * t.S.val ∧ t.V = x.ref.V ∧
    t.lnK.val = lgToLn * t.logK.val + work x P / (Rgas * T) ∧
    ∀ (P' : ℝ) (s' : ESt PS EPS) (t' : TPR), (ask env n (.reacRec T P' x) s').1 = .ok (.reac t') →
      t.G.val - t'.G.val = x.ref.V.val * (P / 1e5 - P' / 1e5) ∧ t.H.val - t'.H.val = x.ref.V.val * (P / 1e5 - P' / 1e5) ∧
      t.S.val = t'.S.val := by
  have hR : Rgas ≠ 0 := by unfold Rgas; norm_num
  have hL : lgToLn ≠ 0 := by unfold lgToLn; norm_num
  obtain ⟨w, hw, h2⟩ := EM.of_bind_ok h
  have : w = t := by injection h2 with h2; injection h2
  subst this
  obtain ⟨u, hu, rfl⟩ := reacRec_logK hg hm hP hw
  obtain ⟨A, Cp, Tr, hl⟩ := hlog
  rw [hl] at hu
  obtain ⟨k1, k2⟩ := C22_equilibrium T P _ _ _ _ _ u hu
  have hV := logK_V hu
  refine ⟨?_, ?_, rfl |>.trans ?_, ?_, hV, ?_, ?_⟩
  · simp only [reacCon, TS.addAssign, TS.subAssign, TS.op_val_mulR, TS.op_val_divR, k1, k2, hV]
    field_simp
    ring
  · simp only [reacCon, TS.op_val_divR, TS.op_val_sub]
    field_simp
    ring
  · simp only [reacCon, TS.op_val_sub, TS.op_val_mulL]
  · simp only [reacCon, TS.op_val_sub, TS.op_val_mulL]
  · simp only [reacCon, TS.subAssign, TS.op_val_mulR, TS.op_val_divR, k2, work]
    field_simp
    ring
  · intro P' s' t' h'
    obtain ⟨w, hw, h2⟩ := EM.of_bind_ok h'
    have : w = t' := by injection h2 with h2; injection h2
    subst this
    obtain ⟨u', hu', rfl⟩ := reacRec_logK hg hm hP hw
    rw [hl] at hu'
    have hV' := logK_V hu'
    obtain ⟨eG, eH⟩ := logK_P hu hu'
    refine ⟨?_, ?_, ?_⟩ <;>
      simp only [reacCon, TS.addAssign, TS.op_val_mulR, TS.op_val_divR, TS.op_val_sub, hV, hV', eG, eH] <;> ring

/-- A reaction with constant log K = 1 and volume 2 J/bar. -/
noncomputable def exCon : Reac :=
  ⟨"r", [], 298.15, 1e5, .unset, .LGK, .CON, { TPR.default with V := asg 2 }, { logK := [1, 0, 0, 0, 0, 0, 0] }⟩

/-- An engine that uses the logK(T) function. -/
noncomputable def exLog : Env Unit Unit :=
  let e := exEnv [] [exCon]
  { e with mods := { e.mods with logk := fun x T P m => logKfTEntry T P x.ref x.params.logK [] 298.15 (logKCode m) } }

/-- The properties before the pressure step. -/
noncomputable def exConU (T P : ℝ) : TPR :=
  finishLogK (TS.temperature T) (TS.divAssignD (TS.pressure P) 1e5) (asg 2) (mid7 (TS.temperature T) (at' [1, 0, 0, 0, 0, 0, 0])
    (at' (logKToCp [1, 0, 0, 0, 0, 0, 0])))

lemma exLog_ask (n : Nat) (T P : ℝ) : (ask exLog n (.reacRec T P exCon) ESt.init).1 = .ok (.reac (reacCon T P exCon (exConU T P))) := by
  have h : logKfTEntry T P exCon.ref exCon.params.logK [] 298.15 .LGK = .ok (exConU T P) := by
    simp [logKfTEntry, logKfT, switchT, logK7, exCon, exConU, resize, logKToCp]
  have e : reacRec exLog (run exLog n) T P exCon (ESt.init : ESt Unit Unit) =
    (EM.lift (logKfTEntry T P exCon.ref exCon.params.logK [] 298.15 .LGK) >>= fun t => reacPStep exLog T P exCon t) ESt.init := rfl
  rw [h] at e
  exact congrArg Prod.fst (bind_run (m := reacRec exLog (run exLog n) T P exCon) e)

example : UsesLogK exLog.mods ∧ exCon.gen ≠ .CON ∧ exCon.effT ∈ logKCodes ∧ ∃ t, (ask exLog 0 (.reacRec 300 2e5 exCon) ESt.init).1 = .ok (.reac t) :=
  ⟨⟨fun x => x.params.logK, fun _ => [], fun _ => 298.15, fun _ _ _ _ => rfl⟩, by decide, by decide, _, exLog_ask 0 300 2e5⟩

/-- **C87** is violated: at twice the reference pressure the reported ln K of the example is not ln(10) log K; ln K is still that of the
reference pressure. -/
theorem C87_lnK_refuted : ∃ (env : Env Unit Unit) (x : Reac) (t : TPR), UsesLogK env.mods ∧
    (ask env 0 (.reacRec 300 2e5 x) ESt.init).1 = .ok (.reac t) ∧ t.lnK.val = lgToLn ∧ t.logK.val = 1 - 2 / (Rgas * 300) / lgToLn ∧
    t.lnK.val ≠ lgToLn * t.logK.val := by
  have hR : Rgas ≠ 0 := by unfold Rgas; norm_num
  have hL : lgToLn ≠ 0 := by unfold lgToLn; norm_num
  have k1 : (exConU 300 2e5).logK.val = 1 := by
    simp [exConU, finishLogK, mid7, at']
  have k2 : (reacCon 300 2e5 exCon (exConU 300 2e5)).lnK.val = lgToLn := by
    have : (reacCon 300 2e5 exCon (exConU 300 2e5)).lnK = TS.mulR (exConU 300 2e5).logK lgToLn := rfl
    rw [this, TS.val_mulR, k1, mul_one]
  have k3 : (reacCon 300 2e5 exCon (exConU 300 2e5)).logK.val = 1 - 2 / (Rgas * 300) / lgToLn := by
    simp only [reacCon, TS.subAssign, TS.op_val_mulR, TS.op_val_divR, k1, exCon, asg]
    norm_num
  refine ⟨exLog, exCon, _, ⟨fun x => x.params.logK, fun _ => [], fun _ => 298.15, fun _ _ _ _ => rfl⟩, exLog_ask 0 300 2e5, k2, k3, ?_⟩
  rw [k2, k3]
  intro h
  field_simp at h
  have : Rgas = 8.31451 := rfl
  have : lgToLn = 2.302585093 := rfl
  nlinarith

section
variable {a b : TS} (c : ℝ)
lemma zp_add (ha : a.ddp = 0) (hb : b.ddp = 0) : (TS.add a b).ddp = 0 := by simp [TS.add, ha, hb]
lemma zp_addL (ha : a.ddp = 0) : (TS.addL c a).ddp = 0 := by simp [TS.addL, ha]
lemma zp_neg (ha : a.ddp = 0) : (TS.neg a).ddp = 0 := by simp [TS.neg, ha]
lemma zp_mul (ha : a.ddp = 0) (hb : b.ddp = 0) : (TS.mul a b).ddp = 0 := by simp [TS.mul, ha, hb]
lemma zp_mulL (ha : a.ddp = 0) : (TS.mulL c a).ddp = 0 := by unfold TS.mulL; split <;> simp [ha]
lemma zp_divL (ha : a.ddp = 0) : (TS.divL c a).ddp = 0 := by unfold TS.divL; simp only; split <;> simp [ha]
lemma zp_log (ha : a.ddp = 0) : (TS.log a).ddp = 0 := by unfold TS.log; simp only; split <;> simp [ha]
lemma zp_powR (ha : a.ddp = 0) : (TS.powR a c).ddp = 0 := by unfold TS.powR; simp only; split <;> simp [ha]
end

/-- **C86** is violated for the pressure derivative too: with constant volume, the derivative carried by G is 0, not the volume. -/
theorem C86_ddp_refuted : ∃ (env : Env Unit Unit) (x : Reac) (f : ℝ → TPR), UsesLogK env.mods ∧ x.ref.V.val = 2 ∧
    (∀ P, (ask env 0 (.reacRec 300 P x) ESt.init).1 = .ok (.reac (f P))) ∧
    ∀ P, HasDerivAt (fun P => (f P).G.val) (2 / 1e5) P ∧ (f P).G.ddp = 0 := by
  refine ⟨exLog, exCon, fun P => reacCon 300 P exCon (exConU 300 P), ⟨fun x => x.params.logK, fun _ => [], fun _ => 298.15, fun _ _ _ _ => rfl⟩, rfl,
    fun P => exLog_ask 0 300 P, fun P => ⟨?_, ?_⟩⟩
  · have e : ∀ P, (reacCon 300 P exCon (exConU 300 P)).G.val = 2 * (P / 1e5 - 1e5 / 1e5) + -(300 * Rgas) * lgToLn := by
      intro P
      simp only [reacCon, TS.addAssign, TS.op_val_mulR]
      simp [exConU, finishLogK, mid7, at', exCon, asg]
      ring
    simp only [e]
    have := ((((hasDerivAt_id' P).div_const (1e5 : ℝ)).sub_const (1e5 / 1e5)).const_mul 2).add_const (-(300 * Rgas) * lgToLn)
    refine this.congr_deriv ?_
    norm_num
  · have : (reacCon 300 P exCon (exConU 300 P)).G.ddp = (exConU 300 P).G.ddp + ((exConU 300 P).V * (P / 1e5 - exCon.refP / 1e5)).ddp := rfl
    rw [this, mulR_ddp]
    have h1 : (exConU 300 P).V.ddp = 0 := rfl
    have h2 : (exConU 300 P).G.ddp = 0 := by
      unfold exConU finishLogK
      refine zp_mulL _ (zp_mul (zp_neg (zp_mulL _ rfl)) ?_)
      exact zp_add (zp_add (zp_add (zp_add (zp_add (zp_addL _ (zp_mulL _ rfl)) (zp_divL _ rfl)) (zp_mulL _ (zp_log rfl)))
        (zp_divL _ (zp_mul rfl rfl))) (zp_mulL _ (zp_mul rfl rfl))) (zp_divL _ (zp_powR _ rfl))
    rw [h1, h2]; ring

end ThermoFun.Engine

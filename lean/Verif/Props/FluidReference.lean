import Verif.Props.GasReference
import Verif.Props.CorkEntry
import Verif.Props.StpEntry

/-!
# CORK and Sterner-Pitzer fluids at their reference state

Theorems about the engine (Model/Engine.lean) with the CORK (Model/Cork.lean) and Sterner-Pitzer (Model/Stp.lean) fluids plugged in (C155).
-/

namespace ThermoFun.Engine

open ThermoFun.Gas

variable {base : Models PSolv ESolv} {env : Env PSolv ESolv}

/-- A record of a fluid with a table of heat capacities and a correction for pressure of its own. -/
structure FluidRec (x : Subst) (c : CorrP) : Prop where
  notH : x.symbol ≠ "H+"
  own : x.reacdc = false
  cls : x.cls = .GASFLUID
  gen : x.gen = .CPT
  noLandau : x.mT ≠ .CHP
  real : x.mP = c
  crit : 7 ≤ x.params.critical.length

lemma head_interval {x : Subst} {t : CpTable} (htab : HasTable x t) (h0 : t.At x.refT 0) : ∃ rest, x.params.intervals = [t.b 0, t.b 1] :: rest := by
  obtain ⟨j, hj⟩ := Nat.exists_eq_succ_of_ne_zero (show t.n ≠ 0 by have := h0.1; omega)
  rw [htab.2.1, hj, List.range_succ_eq_map]
  exact ⟨_, rfl⟩

/-- What the engine answers for a fluid at its reference state, in terms of the residual properties. -/
lemma fluid_answer (hm : env.mods = real base) (hfb : env.fallback = false) (hbb : bermanBrown env = false) {x : Subst} {c : CorrP} (hx : FluidRec x c)
    {t : CpTable} (ht : t.Ok) (htab : HasTable x t) (hT : 0 < x.refT) (hP : 0 < x.refP) (h0 : t.At x.refT 0) {f : Fug} {hR sR : ℝ} (hphi : 0 < f.phi)
    (n : Nat) (s : ESt PSolv ESolv)
    (hp : ∀ r fl, EM.read (·.pcorr) (setPrefs env x s).2 = (.ok fl, (setPrefs env x s).2) → pStep env (run env n) x.refT x.refP x r (setPrefs env x s).2 =
      (.ok (if fl = true then applyPressure (increment (TS.temperature x.refT) (pbar x.refP) f hR sR r) (TS.temperature x.refT) (pbar x.refP) x.refP
        else increment (TS.temperature x.refT) (pbar x.refP) f hR sR r), (setPrefs env x s).2)) :
    ∃ r s', ask env (n + 1) (.subRec x.refT x.refP x) s = (.ok (.sub r), s') ∧ r.G.val = x.ref.G.val ∧ r.H.val = x.ref.H.val + hR ∧
      r.S.val = x.ref.S.val + sR ∧ r.V.val = f.v := by
  obtain ⟨r, hr, g1, g2, g3, -⟩ := emp_recorded ht htab hT h0
  have e2 : tStep env x.refT x.refP x r (setPrefs env x s).2 = (.ok r, (setPrefs env x s).2) := by
    have := hx.noLandau
    have hg := hx.gen
    unfold tStep
    cases hT : x.mT <;> first | exact absurd hT this | simp only [hg, ne_eq, not_true_eq_false, if_false] <;> rfl
  obtain ⟨v1, v2, v3, v4, -⟩ := increment_vals (T := x.refT) (h := hR) (s := sR) (tps := r) hP.ne' hphi
  have hp' := hp r _ rfl
  obtain ⟨r', hr', w1, w2, w3, w4⟩ : ∃ r', pStep env (run env n) x.refT x.refP x r (setPrefs env x s).2 = (.ok r', (setPrefs env x s).2) ∧
      r'.G.val = r.G.val ∧ r'.H.val = r.H.val + hR ∧ r'.S.val = r.S.val + sR ∧ r'.V.val = f.v := by
    refine ⟨_, hp', ?_⟩
    split_ifs
    · refine ⟨?_, ?_, ?_, ?_⟩
      · rw [← v1]; simp [applyPressure, val_pbar]
      · rw [← v2]; simp [applyPressure, val_pbar]
      · rw [← v3]; simp [applyPressure]
      · rw [← v4]; simp [applyPressure]
    · exact ⟨v1, v2, v3, v4⟩
  have hans := substRec_steps hm hfb hbb hx.notH hx.own (by rw [hx.cls]; simp) hx.gen hr s e2 hr'
  refine ⟨r', (setPrefs env x s).2, ?_, by rw [w1, g1], by rw [w2, g2], by rw [w3, g3], w4⟩
  show (do return Answer.sub (← (run env (n + 1)).direct x.refT x.refP x) : EM PSolv ESolv (Answer PSolv ESolv)) s = _
  rw [bind_run (show (run env (n + 1)).direct x.refT x.refP x s = _ from hans)]
  rfl

/-- **C155 refuted, CORK fluids.**  For every record and after any requests: G at the reference state is the recorded one, but wherever the fugacity coefficient is not 1 there, H and S are not both
the recorded ones. -/
theorem C155_cork_refuted (hm : env.mods = real base) (hfb : env.fallback = false) (hbb : bermanBrown env = false) {x : Subst} (hx : FluidRec x .CORK)
    {t : CpTable} (ht : t.Ok) (htab : HasTable x t) (hT : 0 < x.refT) (hP : 0 < x.refP) (h0 : t.At x.refT 0) {f : Fug} {hR sR : ℝ}
    (hf : Cork.calcFugPure (if x.formula = "H2O" then .H2O else if x.formula = "CO2" then .CO2 else .gas) (t.b 0) x.refT (x.refP / 1e5)
      (fun i => x.params.critical.getD i 0) = some f) (hh : f.h = some hR) (hs : f.s = some sR) (hphi : f.phi ≠ 1) (n : Nat) (s : ESt PSolv ESolv) :
    ∃ r s', ask env (n + 1) (.subRec x.refT x.refP x) s = (.ok (.sub r), s') ∧ r.G.val = x.ref.G.val ∧ ¬ AsRecorded x.ref r := by
  have hR0 : 0 < Rgas := by unfold Rgas; norm_num
  have td := Cork.tied (by positivity) hf
  obtain ⟨rest, hint⟩ := head_interval htab h0
  have hc := hx.crit
  have hf' : Cork.calcFugPure (.of x.formula) (t.b 0) x.refT (x.refP / 1e5) (fun i => x.params.critical.getD i 0) = some f := hf
  have hprops : ∀ r, Cork.corkProps (TS.temperature x.refT) (pbar x.refP) x.formula x.params.intervals x.params.critical r
      = .ok (some (increment (TS.temperature x.refT) (pbar x.refP) f hR sR r)) := by
    intro r
    rw [hint, Cork.corkProps_eq hP.ne', if_neg (by omega), hf']
    dsimp only
    rw [hh, hs]
  obtain ⟨r, s', a1, a2, a3, a4, -⟩ := fluid_answer (f := f) (hR := hR) (sR := sR) hm hfb hbb hx ht htab hT hP h0 td.phi n s (by
    intro r fl hfl
    unfold pStep
    rw [bind_run hfl, if_neg (by simp [hx.gen]), hx.real]
    simp only [hm, Engine.real, EM.lift, Cork.corkEntry, hprops]
    cases fl <;> rfl)
  refine ⟨r, s', a1, a2, fun h => ?_⟩
  have e1 : hR = 0 := by have := h.2.1; linarith
  have e2 : sR = 0 := by have := h.2.2.1; linarith
  have e3 := td.s hR sR hh hs
  rw [e1, e2, zero_sub, eq_comm, div_eq_zero_iff] at e3
  have hg : f.g ≠ 0 := by
    rw [td.g]
    exact mul_ne_zero (by positivity) (Real.log_ne_zero_of_pos_of_ne_one td.phi hphi)
  rcases e3 with e3 | e3
  · exact hg (neg_eq_zero.mp e3)
  · exact hT.ne' e3

/-- **C155 refuted, Sterner-Pitzer fluids.**  The same for H2O and CO2 with the equation of Sterner and Pitzer. -/
theorem C155_stp_refuted (hm : env.mods = real base) (hfb : env.fallback = false) (hbb : bermanBrown env = false) {x : Subst} (hx : FluidRec x .STP)
    {t : CpTable} (ht : t.Ok) (htab : HasTable x t) (hT : 0 < x.refT) (hP : 0 < x.refP) (h0 : t.At x.refT 0) {f : Fug} {m : Stp.Fluid}
    (hform : x.formula = "H2O" ∧ m = .H2O ∨ x.formula = "CO2" ∧ m = .CO2)
    (hf : Stp.calcFugPure m (t.b 0) x.refT (x.refP / 1e5) (fun i => x.params.critical.getD i 0) = .ok (some f)) (hphi : f.phi ≠ 1) (n : Nat) (s : ESt PSolv ESolv) :
    ∃ r s', ask env (n + 1) (.subRec x.refT x.refP x) s = (.ok (.sub r), s') ∧ r.G.val = x.ref.G.val ∧ ¬ AsRecorded x.ref r := by
  have hR0 : 0 < Rgas := by unfold Rgas; norm_num
  have td := Stp.tied hf
  obtain ⟨hR, sR, hh, hs, e3⟩ := td.s
  obtain ⟨rest, hint⟩ := head_interval htab h0
  have hc := hx.crit
  have hof : Stp.Fluid.of x.formula = some m := by
    rcases hform with ⟨h1, rfl⟩ | ⟨h1, rfl⟩ <;> rw [h1] <;> rfl
  have hprops : ∀ r, Stp.stpProps (TS.temperature x.refT) (pbar x.refP) x.formula x.params.intervals x.params.critical r
      = .ok (some (increment (TS.temperature x.refT) (pbar x.refP) f hR sR r)) := by
    intro r
    rw [hint, Stp.stpProps_eq hP.ne' hof (by omega), hf]
    simp only [Res.bind, hh, hs]
  obtain ⟨r, s', a1, a2, a3, a4, -⟩ := fluid_answer (f := f) (hR := hR) (sR := sR) hm hfb hbb hx ht htab hT hP h0 td.phi n s (by
    intro r fl hfl
    unfold pStep
    rw [bind_run hfl, if_neg (by simp [hx.gen]), hx.real]
    simp only [hm, Engine.real, EM.lift, Stp.stpEntry, hprops]
    cases fl <;> rfl)
  refine ⟨r, s', a1, a2, fun h => ?_⟩
  have e1 : hR = 0 := by have := h.2.1; linarith
  have e2 : sR = 0 := by have := h.2.2.1; linarith
  have hg : f.g ≠ 0 := by
    rw [td.g]
    exact mul_ne_zero (by positivity) (Real.log_ne_zero_of_pos_of_ne_one td.phi hphi)
  apply hg
  rw [e1, e2] at e3
  linarith

/-- Carbon dioxide with a reference state of 400 K and 1 kbar, and the CORK equation. -/
noncomputable def exCork : Subst :=
  { exReal with
    formula := "CO2"
    mP := .CORK
    refT := 400
    refP := 1e8
    params :=
      { exReal.params with
        critical := [304.2, 73.8, 0, 0, 0, 0, 0] } }

example (s : ESt PSolv ESolv) : ∃ r s', ask (exSolidEnv exCork) 1 (.subRec 400 1e8 exCork) s = (.ok (.sub r), s') ∧ ¬ AsRecorded exCork.ref r := by
  have hx : FluidRec exCork .CORK :=
    ⟨by simp [exCork, exReal, exIdeal, exSolid, exMineral], rfl, rfl, rfl, by simp [exCork, exReal, exIdeal, exSolid, exMineral], rfl, by simp [exCork]⟩
  have htab : HasTable exCork wide := ⟨rfl, rfl, rfl⟩
  have h0 : wide.At exCork.refT 0 := ⟨by decide, Or.inl (by norm_num [wide, exCork])⟩
  obtain ⟨r0', f', h1', h2', h3'⟩ := Cork.ex_co2_entry
  obtain ⟨f, hR, sR, k1, k2, k3, -⟩ := Cork.C117_values_partial 400 1e8 200 1e5 "CO2" [] [] _ TPS.default r0' (by norm_num) h1'
  have k1' : Cork.calcFugPure .CO2 200 400 (1e8 / 1e5) (fun i => [304.2, 73.8, 0, 0, 0, 0, 0].getD i 0) = some f := k1
  have e : f = f' := Option.some.inj (k1'.symm.trans h2')
  have hb : wide.b 0 = 200 := by norm_num [wide]
  obtain ⟨r, s', a1, -, a2⟩ := C155_cork_refuted (base := noWater) (env := exSolidEnv exCork) (x := exCork) rfl rfl (exSolid_bb _) hx wide_ok htab (by norm_num [exCork]) (by norm_num [exCork]) h0
    (f := f) (hR := hR) (sR := sR) (by rw [hb]; exact k1') k2 k3 (by rw [e]; exact h3'.ne) 0 s
  exact ⟨r, s', a1, a2⟩

/-- Intervals from 273 to 1773 and to 3273 K. -/
noncomputable def hot : CpTable :=
  ⟨2, fun j => 273 + 1500 * j, fun j => if j = 0 then [40] else [60], fun _ => 0, fun _ => 0, fun _ => 0⟩

lemma hot_ok : hot.Ok := by
  refine ⟨by decide, by norm_num [hot], ?_, 1, ?_⟩
  · refine strictMono_nat_of_lt_succ fun j => ?_
    simp only [hot]
    push_cast
    linarith
  · intro j hj
    simp only [hot]
    split <;> rfl

/-- Carbon dioxide with a reference state of 1600 K and 1 bar, and the equation of Sterner and Pitzer. -/
noncomputable def exStp : Subst :=
  { exReal with
    formula := "CO2"
    mP := .STP
    refT := 1600
    params :=
      { exReal.params with
        cpCoeffs := (List.range hot.n).map hot.c
        intervals := (List.range hot.n).map (fun j => [hot.b j, hot.b (j + 1)])
        transitions := (List.range (hot.n - 1)).map (fun j => [hot.b (j + 1), hot.dS j, hot.dH j, hot.dV j])
        critical := [304.2, 73.8, 0, 0, 0, 0, 0] } }

example (s : ESt PSolv ESolv) : ∃ r s', ask (exSolidEnv exStp) 1 (.subRec 1600 1e5 exStp) s = (.ok (.sub r), s') ∧ ¬ AsRecorded exStp.ref r := by
  have hx : FluidRec exStp .STP :=
    ⟨by simp [exStp, exReal, exIdeal, exSolid, exMineral], rfl, rfl, rfl, by simp [exStp, exReal, exIdeal, exSolid, exMineral], rfl, by simp [exStp]⟩
  have htab : HasTable exStp hot := ⟨rfl, rfl, rfl⟩
  have h0 : hot.At exStp.refT 0 := ⟨by decide, Or.inl (by norm_num [hot, exStp])⟩
  obtain ⟨r0, h1, h2⟩ := Stp.ex_entry
  obtain ⟨m, f, -, -, k0, k1, -⟩ := Stp.C121_values_partial 1600 1e5 273 1e5 "CO2" [] [] _ TPS.default r0 (by norm_num) h1
  have hb : hot.b 0 = 273 := by norm_num [hot]
  obtain ⟨r, s', a1, -, a2⟩ := C155_stp_refuted (base := noWater) (env := exSolidEnv exStp) (x := exStp) rfl rfl (exSolid_bb _) hx hot_ok htab (by norm_num [exStp])
    (by norm_num [exStp, exReal, exIdeal, exSolid, exMineral]) h0 (f := f) (m := m) k0 (by rw [hb]; exact k1) (h2 f m k0 k1) 0 s
  exact ⟨r, s', a1, a2⟩

end ThermoFun.Engine

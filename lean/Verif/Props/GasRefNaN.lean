import Verif.Props.GasRefAny

/-!
# Real gases at the critical temperature

Theorems about the gas equations of state (Model/Gas.lean), alone and plugged into the engine (Model/Engine.lean): at the critical temperature the
Peng-Robinson models have no H and S, so nothing carries a derivative (C98), and a record whose reference temperature is the critical one does not
get its recorded properties back (C155).
-/

namespace ThermoFun.Gas

/-- The Peng-Robinson models have no residual H at the critical temperature, whether or not the cubic is solved. -/
lemma critical_none {m : Eos} (hm : m ≠ .SRK) {P : ℝ} {k : Nat → ℝ} (hTc : 0 < k 0) {f : Fug} (hf : fugacityPT m (k 0) P k = some f) : f.h = none := by
  cases m
  · exact (C102_critical_refuted.1 _ _ _ _ _ hTc f hf).1
  · exact absurd rfl hm
  · exact (C102_critical_refuted.1 _ _ _ _ _ hTc f hf).1

/-- **C98** is violated by both Peng-Robinson models at the critical temperature: for every record and pressure in their range, with and without the pressure
applied to gases, the H and S returned are not numbers (0/0, for which the model has no result), whatever the properties of the ideal gas and their derivatives. -/
theorem C98_critical_refuted (m : Eos) (hm : m ≠ .SRK) (P lo Pr : ℝ) (rest : List ℝ) (tail : List (List ℝ)) (crit : List ℝ) (tps : TPS) (applyP : Bool)
    (hTc : 0 < crit.getD 0 0) (hlo : lo ≤ crit.getD 0 0) (hT2 : crit.getD 0 0 < 1e4) (hP : 1e-5 ≤ P / 1e5) (hP2 : P / 1e5 < 1e5) (hl : 7 ≤ crit.length) :
    gasEntry m (crit.getD 0 0) P ((lo :: rest) :: tail) crit Pr tps applyP = .ok none := by
  have hp : (pbar P).val = P / 1e5 := val_pbar P
  have hP0 : P / 1e5 ≠ 0 := by intro h; rw [h] at hP; norm_num at hP
  have key : gasProps m (TS.temperature (crit.getD 0 0)) (pbar P) ((lo :: rest) :: tail) crit tps = .ok none := by
    unfold gasProps
    dsimp only
    rw [if_neg (by omega), TS.val_temperature, hp, if_neg hP0, hp]
    unfold calcFugPure
    rw [if_pos ⟨hlo, hT2, hP, hP2⟩]
    cases hf : fugacityPT m (crit.getD 0 0) (P / 1e5) (fun i => crit.getD i 0) with
    | none => rfl
    | some f =>
      have := critical_none (k := fun i => crit.getD i 0) hm hTc hf
      dsimp only
      rw [this]
  unfold gasEntry
  rw [key]
  cases applyP <;> rfl

/-- Carbon dioxide at its critical temperature and 100 bar. -/
example (tps : TPS) : gasEntry .PR78 300 1e7 [[200, 600]] [300, 74, 0.225, 0, 0, 0, 0] 1e5 tps false = .ok none :=
  C98_critical_refuted .PR78 (by simp) 1e7 200 1e5 [600] [] [300, 74, 0.225, 0, 0, 0, 0] tps false (by norm_num) (by norm_num) (by norm_num) (by norm_num)
    (by norm_num) (by simp)

end ThermoFun.Gas

namespace ThermoFun.Engine

open ThermoFun.Gas

variable {base : Models PSolv ESolv} {env : Env PSolv ESolv}

lemma bind_nan {α β : Type} {m : EM PSolv ESolv α} {f : α → EM PSolv ESolv β} {s s' : ESt PSolv ESolv} (h : m s = (.ub, s')) : (m >>= f) s = (.ub, s') := by
  show EM.bind m f s = _
  unfold EM.bind
  rw [h]

/-- **C155 refuted at the critical temperature.**  A record of a gas with one of the Peng-Robinson models whose reference temperature is its critical
temperature: asked for at its reference state, after any requests, the engine has no H and S for it (0/0, for which the
model gives no answer at all), although they are recorded. -/
theorem C155_critical_refuted (hm : env.mods = real base) {x : Subst} {m : Eos} (hx : RealGas x m) (hpr : m ≠ .SRK)
    {t : CpTable} (ht : t.Ok) (htab : HasTable x t) (h0 : t.At x.refT 0) (hc : x.refT = x.params.critical.getD 0 0) (hT : 0 < x.refT)
    (hlo : t.b 0 ≤ x.refT) (hT2 : x.refT < 1e4) (hP : 1e-5 ≤ x.refP / 1e5) (hP2 : x.refP / 1e5 < 1e5) (n : Nat) (s : ESt PSolv ESolv) :
    ∃ s', ask env (n + 1) (.subRec x.refT x.refP x) s = (.ub, s') := by
  obtain ⟨r, hr, -⟩ := emp_recorded ht htab hT h0
  have e2 : tStep env x.refT x.refP x r (setPrefs env x s).2 = (.ok r, (setPrefs env x s).2) := by
    have := hx.noLandau
    have hg := hx.gen
    unfold tStep
    cases hT : x.mT <;> first | exact absurd hT this | simp only [hg, ne_eq, not_true_eq_false, if_false] <;> rfl
  obtain ⟨rest, hint⟩ : ∃ rest, x.params.intervals = [t.b 0, t.b 1] :: rest := by
    obtain ⟨j, hj⟩ := Nat.exists_eq_succ_of_ne_zero (show t.n ≠ 0 by have := h0.1; omega)
    rw [htab.2.1, hj, List.range_succ_eq_map]
    exact ⟨_, rfl⟩
  have hent : gasEntry m x.refT x.refP x.params.intervals x.params.critical x.refP r (setPrefs env x s).2.pcorr = .ok none := by
    rw [hint, hc]
    exact C98_critical_refuted m hpr _ _ _ _ _ _ _ _ (hc ▸ hT) (hc ▸ hlo) (hc ▸ hT2) hP hP2 hx.crit
  have hp : pStep env (run env n) x.refT x.refP x r (setPrefs env x s).2 = (.ub, (setPrefs env x s).2) := by
    have e0 : EM.read (·.pcorr) (setPrefs env x s).2 = (.ok (setPrefs env x s).2.pcorr, (setPrefs env x s).2) := rfl
    unfold pStep
    rw [bind_run e0, if_neg (by simp [hx.gen]), hx.real]
    cases m <;> simp only [corrOf, hm, Engine.real, EM.lift, hent, orNaN] <;> rfl
  have hown : x.isReacDC = false := by simp [Subst.isReacDC, Subst.noMethods, hx.own, hx.gen]
  have hsolv : x.isSolvent = false := by simp [Subst.isSolvent, hx.cls]
  have hvap : x.isVapor = false := by simp [Subst.isVapor, hx.gen]
  have e1 : ∀ s : ESt PSolv ESolv, eosStep env x.refT x.refP x s = (.ok r, s) := by
    intro s
    unfold eosStep
    rw [hx.gen]
    simp only [hm, real, EM.lift, hr]
  have e4 : methodsStep env (run env n) x.refT x.refP x (setPrefs env x s).2 = (.ub, (setPrefs env x s).2) := by
    unfold methodsStep
    rw [if_pos ⟨hsolv, hvap⟩]
    have : (do
        let a ← eosStep env x.refT x.refP x
        let b ← tStep env x.refT x.refP x a
        pStep env (run env n) x.refT x.refP x b : EM PSolv ESolv TPS) (setPrefs env x s).2 = (.ub, (setPrefs env x s).2) := by
      rw [bind_run (e1 _), bind_run e2, hp]
    exact bind_nan this
  have hans : substRec env (run env n) x.refT x.refP x s = (.ub, (setPrefs env x s).2) := by
    unfold substRec
    have e5 : setPrefs env x s = (.ok (), (setPrefs env x s).2) := rfl
    rw [bind_run e5, if_neg hx.notH, hown]
    have e6 : (if (false : Bool) then reacDC env (run env n) x.refT x.refP x else methodsStep env (run env n) x.refT x.refP x) =
        methodsStep env (run env n) x.refT x.refP x := rfl
    rw [e6]
    exact bind_nan e4
  refine ⟨(setPrefs env x s).2, ?_⟩
  show (do return Answer.sub (← (run env (n + 1)).direct x.refT x.refP x) : EM PSolv ESolv (Answer PSolv ESolv)) s = _
  exact bind_nan (show (run env (n + 1)).direct x.refT x.refP x s = _ from hans)

/-- A gas recorded at its critical temperature, 400 K, and 140 bar. -/
noncomputable def exCritical : Subst := { exLiquid with mP := .PR78, refT := 400 }

example (s : ESt PSolv ESolv) : ∃ s', ask (exSolidEnv exCritical) 1 (.subRec 400 1.4e7 exCritical) s = (.ub, s') := by
  have hx : RealGas exCritical .PR78 :=
    ⟨by simp [exCritical, exLiquid, exIdeal, exSolid, exMineral], rfl, rfl, rfl, by simp [exCritical, exLiquid, exIdeal, exSolid, exMineral], rfl,
      by simp [exCritical, exLiquid]⟩
  have htab : HasTable exCritical wide := ⟨rfl, rfl, rfl⟩
  have h0 : wide.At exCritical.refT 0 := ⟨by decide, Or.inl (by norm_num [wide, exCritical])⟩
  exact C155_critical_refuted (base := noWater) (env := exSolidEnv exCritical) rfl hx (by simp) wide_ok htab h0
    (by simp [exCritical, exLiquid]) (by norm_num [exCritical]) (by norm_num [exCritical, wide]) (by norm_num [exCritical])
    (by norm_num [exCritical, exLiquid]) (by norm_num [exCritical, exLiquid]) 0 s

end ThermoFun.Engine

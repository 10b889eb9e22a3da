import Verif.Props.GasContinuity
import Verif.Props.CarriedS

/-!
C98 for the three gas equations of state (PRSV, SRK, PR78): which derivatives the properties they return carry.
-/

open Filter Topology

namespace ThermoFun.Gas

/-- What a gas model returns, with and without pressure correction. -/
lemma entry_some {m : Eos} {T P lo Pr : ℝ} {rest : List ℝ} {tail : List (List ℝ)} {crit : List ℝ} {tps r : TPS} {ap : Bool} (hP : P ≠ 0)
    (h : gasEntry m T P ((lo :: rest) :: tail) crit Pr tps ap = .ok (some r)) :
    ∃ f hR sR, calcFugPure m lo T (P / 1e5) (fun i => crit.getD i 0) = some f ∧ f.h = some hR ∧ f.s = some sR ∧
      r = if ap then applyPressure (increment (TS.temperature T) (pbar P) f hR sR tps) (TS.temperature T) (pbar P) Pr
        else increment (TS.temperature T) (pbar P) f hR sR tps := by
  unfold gasEntry at h
  rw [gasProps_eq hP] at h
  by_cases hl : crit.length < 7
  · rw [if_pos hl] at h
    simp at h
  rw [if_neg hl] at h
  rcases hf : calcFugPure m lo T (P / 1e5) (fun i => crit.getD i 0) with _ | f
  · rw [hf] at h
    cases ap <;> simp at h
  rcases hh : f.h with _ | hR
  · rw [hf] at h
    simp only [hh] at h
    cases ap <;> simp at h
  rcases hs : f.s with _ | sR
  · rw [hf] at h
    simp only [hh, hs] at h
    cases ap <;> simp at h
  rw [hf] at h
  simp only [hh, hs] at h
  refine ⟨f, hR, sR, rfl, hh, hs, ?_⟩
  cases ap <;> · cases h; rfl

lemma entry_V {m : Eos} {T P lo Pr : ℝ} {rest : List ℝ} {tail : List (List ℝ)} {crit : List ℝ} {tps r : TPS} {ap : Bool} (hP : P ≠ 0)
    (h : gasEntry m T P ((lo :: rest) :: tail) crit Pr tps ap = .ok (some r)) :
    ∃ f, calcFugPure m lo T (P / 1e5) (fun i => crit.getD i 0) = some f ∧ r.V.val = f.v ∧ r.V.ddt = 0 ∧ r.V.ddp = 0 := by
  obtain ⟨f, hR, sR, hf, -, -, e⟩ := entry_some hP h
  refine ⟨f, hf, ?_⟩
  rw [e]
  cases ap <;> exact ⟨rfl, rfl, rfl⟩

/-- The volume that satisfies an equation of state at every pressure is not constant to first order. -/
lemma no_flat {v : ℝ → ℝ} {P a b s u w : ℝ} (hv : HasDerivAt v 0 P) (h1 : b < v P) (hU : 0 < v P + u * b) (hW : 0 < v P + w * b)
    (ev : ∀ᶠ p in 𝓝 P, p / 1e5 = s / (v p - b) - a / ((v p + u * b) * (v p + w * b))) : False := by
  have d1 := ((hasDerivAt_const P s).fun_div (hv.sub_const b) (sub_pos.mpr h1).ne').fun_sub
    ((hasDerivAt_const P a).fun_div ((hv.add_const (u * b)).fun_mul (hv.add_const (w * b))) (mul_pos hU hW).ne')
  have d2 := d1.congr_of_eventuallyEq (f₁ := fun p => p / 1e5) ev
  have := d2.unique ((hasDerivAt_id' P).div_const 1e5)
  norm_num at this

/-- **C98** is violated by the gas equations of state: the volume they return carries zero derivatives, while it changes with pressure.  So it is for each of the three
models, every record and every temperature and pressure in range at which the equation has a single volume, with and without pressure correction. -/
theorem C98_gas_refuted (m : Eos) (T P lo Pr : ℝ) (rest : List ℝ) (tail : List (List ℝ)) (crit : List ℝ) (ap : Bool) (tps r : ℝ → ℝ → TPS)
    (hT : 0 < T) (hlo : lo ≤ T) (hT2 : T < 1e4) (hP : 1e-5 < P / 1e5) (hP2 : P / 1e5 < 1e5) (hTc : 0 < crit.getD 0 0) (hPc : 0 < crit.getD 1 0)
    (hs : match m with
      | .SRK => SrkSingle (parsOf m T fun i => crit.getD i 0).a (parsOf m T fun i => crit.getD i 0).b T (P / 1e5)
      | _ => PrSingle (parsOf m T fun i => crit.getD i 0).a (parsOf m T fun i => crit.getD i 0).b T (P / 1e5))
    (h : ∀ᶠ p in 𝓝 P, gasEntry m T p ((lo :: rest) :: tail) crit Pr (tps T p) ap = .ok (some (r T p))) :
    (r T P).V.ddp = 0 ∧ ¬ HasDerivAt (fun p => (r T p).V.val) 0 P := by
  have hP0 : 0 < P := by
    have : 0 < P / 1e5 := lt_trans (by norm_num) hP
    by_contra hn
    exact absurd (div_nonpos_of_nonpos_of_nonneg (not_lt.mp hn) (by norm_num : (0:ℝ) ≤ 1e5)) (not_le.mpr this)
  have hPb : 0 < P / 1e5 := by positivity
  obtain ⟨ha, hb⟩ := parsOf_pos (m := m) (T := T) (k := fun i => crit.getD i 0) hTc hPc
  have cdiv : ContinuousAt (fun x : ℝ => x / 1e5) P := by fun_prop
  have e1 : ∀ᶠ x in 𝓝 P, x ≠ 0 := isOpen_ne.mem_nhds hP0.ne'
  have e2 : ∀ᶠ x in 𝓝 P, 1e-5 < x / 1e5 := ContinuousAt.eventually_lt continuousAt_const cdiv hP
  have e3 : ∀ᶠ x in 𝓝 P, x / 1e5 < 1e5 := ContinuousAt.eventually_lt cdiv continuousAt_const hP2
  refine ⟨(entry_V hP0.ne' h.self_of_nhds).choose_spec.2.2.2, fun hv => ?_⟩
  have pr : ∀ c Tc Pc, m ≠ .SRK → (∀ x, fugacityPT m T x (fun i => crit.getD i 0) = prPure c T x Tc Pc (parsOf m T fun i => crit.getD i 0)) →
      PrSingle (parsOf m T fun i => crit.getD i 0).a (parsOf m T fun i => crit.getD i 0).b T (P / 1e5) → False := by
    intro c Tc Pc hm hpure hone
    set q := parsOf m T fun i => crit.getD i 0 with hq
    have e4 := PrOne.eventually (a := fun _ => q.a) (b := fun _ => q.b) (t := fun _ => T) (p := fun x => x / 1e5) (x := P)
      continuousAt_const continuousAt_const continuousAt_const cdiv hT.ne' hone.one
    have key : ∀ᶠ x in 𝓝 P, (r T x).V.val = prZ q.a q.b T (x / 1e5) * Rgas * T / (x / 1e5) ∧
        RootOf (1 + Real.sqrt 2) (1 - Real.sqrt 2) q.a q.b T (x / 1e5) (prZ q.a q.b T (x / 1e5)) := by
      filter_upwards [h, e1, e2, e3, e4] with x h0 h1 h2 h3 h4
      have hx : 0 < x / 1e5 := lt_trans (by norm_num) h2
      obtain ⟨f, hf, hfv, -⟩ := entry_V h1 h0
      unfold calcFugPure at hf
      rw [if_pos ⟨hlo, hT2, h2.le, h3⟩, hpure, prPure_one hT hx ha hb h4] at hf
      cases hf
      exact ⟨hfv, pr_rootOf hT hx ha hb h4⟩
    obtain ⟨k1, k2⟩ := key.self_of_nhds
    refine no_flat (v := fun p => (r T p).V.val) (a := q.a) (b := q.b) (s := Rgas * T) (u := 1 + Real.sqrt 2) (w := 1 - Real.sqrt 2) hv ?_ ?_ ?_ ?_
    · rw [k1]; exact k2.vb
    · rw [k1]; exact k2.vU
    · rw [k1]; exact k2.vW
    · filter_upwards [key] with x hx
      rw [hx.1]; exact hx.2.eos
  cases m
  · exact pr _ _ _ (by decide) (fun _ => rfl) hs
  · set q := parsOf .SRK T fun i => crit.getD i 0 with hq
    have e4 := SrkOne.eventually (a := fun _ => q.a) (b := fun _ => q.b) (t := fun _ => T) (p := fun x => x / 1e5) (x := P)
      continuousAt_const continuousAt_const continuousAt_const cdiv hT.ne' (SrkSingle.one hs)
    have key : ∀ᶠ x in 𝓝 P, (r T x).V.val = srkZ q.a q.b T (x / 1e5) * Rgas * T / (x / 1e5) ∧
        RootOf 1 0 q.a q.b T (x / 1e5) (srkZ q.a q.b T (x / 1e5)) := by
      filter_upwards [h, e1, e2, e3, e4] with x h0 h1 h2 h3 h4
      have hx : 0 < x / 1e5 := lt_trans (by norm_num) h2
      obtain ⟨f, hf, hfv, -⟩ := entry_V h1 h0
      have hpure : fugacityPT .SRK T (x / 1e5) (fun i => crit.getD i 0) = srkPure T (x / 1e5) q := rfl
      unfold calcFugPure at hf
      rw [if_pos ⟨hlo, hT2, h2.le, h3⟩, hpure, srkPure_one hT hx ha hb h4] at hf
      cases hf
      exact ⟨hfv, srk_rootOf hT hx ha hb h4⟩
    obtain ⟨k1, k2⟩ := key.self_of_nhds
    refine no_flat (v := fun p => (r T p).V.val) (a := q.a) (b := q.b) (s := Rgas * T) (u := 1) (w := 0) hv ?_ ?_ ?_ ?_
    · rw [k1]; exact k2.vb
    · rw [k1]; exact k2.vU
    · rw [k1]; exact k2.vW
    · filter_upwards [key] with x hx
      rw [hx.1]; exact hx.2.eos
  · exact pr _ _ _ (by decide) (fun _ => rfl) hs

/-- **C98** is violated by the enthalpy of the gas equations of state as well: the residual enthalpy is added as a plain number, so the derivative carried is that of the ideal gas.
Whatever properties come in with H carrying its temperature derivative Cp, the derivative carried by the H that goes out is less than its derivative. -/
theorem C98_gas_heat_refuted (Pr : ℝ) (tps : ℝ → TPS) (hC : HasDerivAt (fun t => (tps t).H.val) (tps 216).H.ddt 216) (hcp : (tps 216).Cp.val = (tps 216).H.ddt) :
    ∃ r : ℝ → TPS, ∃ d, (∀ᶠ t in 𝓝 216, gasEntry .SRK t (exP * 1e5) [[100, 6000]] exAr Pr (tps t) false = .ok (some (r t))) ∧
      HasDerivAt (fun t => (r t).H.val) d 216 ∧ (r 216).H.ddt < d := by
  have := exP_val
  obtain ⟨r, d, ev, hd, hlt⟩ := C104_heat_refuted Pr tps (by rw [hcp]; exact hC)
  refine ⟨r, d, ev, hd, ?_⟩
  obtain ⟨f, hR, sR, -, -, -, e⟩ := entry_some (by norm_num; linarith) ev.self_of_nhds
  rw [if_neg (by decide)] at e
  have e1 : (r 216).H.ddt = (tps 216).H.ddt := by rw [e]; rfl
  have e2 : (r 216).Cp = (tps 216).Cp := by rw [e]; rfl
  rw [e1, ← hcp, ← e2]
  exact hlt

/-- With a constant heat capacity of 20 J/(mol K). -/
example : ∃ r : ℝ → TPS, ∃ d, (∀ᶠ t in 𝓝 216, gasEntry .SRK t (exP * 1e5) [[100, 6000]] exAr 1e5
      { TPS.default with H := (20 : ℝ) * TS.temperature t, Cp := TS.assign TS.default 20 } false = .ok (some (r t))) ∧
    HasDerivAt (fun t => (r t).H.val) d 216 ∧ (r 216).H.ddt < d := by
  refine C98_gas_heat_refuted 1e5 (fun t => { TPS.default with H := (20 : ℝ) * TS.temperature t, Cp := TS.assign TS.default 20 }) ?_ ?_
  · simp only [TS.op_val_mulL, TS.op_ddt_mulL, TS.val_temperature, TS.ddt_temperature]
    exact (hasDerivAt_id' (216 : ℝ)).const_mul 20
  · simp only [TS.op_ddt_mulL, TS.ddt_temperature, mul_one]
    rfl

/-- The derivatives carried by G: the terms cancel as their values do. -/
lemma increment_G {T P : ℝ} {f : Fug} {h s : ℝ} {tps : TPS} (hP : P ≠ 0) (hf : 0 < f.phi) :
    (increment (TS.temperature T) (pbar P) f h s tps).G.ddt = tps.G.ddt ∧ (increment (TS.temperature T) (pbar P) f h s tps).G.ddp = tps.G.ddp := by
  have hb : (pbar P).val ≠ 0 := by rw [val_pbar]; exact div_ne_zero hP (by norm_num)
  have hq : ((f.phi * pbar P) / pbar P : TS).val = f.phi := by
    rw [TS.op_val_div, TS.op_val_mulL, mul_div_cancel_right₀ _ hb]
  have hq0 : ((f.phi * pbar P) / pbar P : TS).val ≠ 0 := by rw [hq]; exact hf.ne'
  have d1 : ((f.phi * pbar P) / pbar P : TS).ddt = 0 := by simp
  have d2 : ((f.phi * pbar P) / pbar P : TS).ddp = 0 := by
    rw [TS.op_ddp_div, TS.op_val_mulL, TS.op_ddp_mulL]
    ring
  have l1 : (TS.log ((f.phi * pbar P) / pbar P)).ddt = 0 := by rw [TS.ddt_log _ hq0, d1, zero_div]
  have l2 : (TS.log ((f.phi * pbar P) / pbar P)).ddp = 0 := by rw [TS.ddp_log _ hq0, d2, zero_div]
  have l0 : (TS.log ((f.phi * pbar P) / pbar P)).val = Real.log f.phi := by rw [TS.val_log, hq]
  unfold increment
  dsimp only
  constructor
  · rw [TS.ddt_subAssign, TS.ddt_addAssign, TS.op_ddt_mul, l1, l0, TS.op_ddt_mulR, TS.op_ddt_mulL]
    ring
  · rw [TS.ddp_subAssign, TS.ddp_addAssign, TS.op_ddp_mul, l2, l0, TS.op_ddp_mulR, TS.op_ddp_mulL]
    ring

/-- **C98** (gas equations of state, without pressure correction): G, Cp, U and A carry their derivatives if those of the model for temperature do.
Missing: V, H and S, whose derivatives are not set (see `C98_gas_refuted` for V, `C98_gas_entropy_refuted` for H and S). -/
theorem C98_gas_partial (m : Eos) (T P lo Pr : ℝ) (rest : List ℝ) (tail : List (List ℝ)) (crit : List ℝ) (tps r : ℝ → ℝ → TPS) (hP : P ≠ 0)
    (hc : CarriesS tps T P)
    (h1 : ∀ᶠ t in 𝓝 T, gasEntry m t P ((lo :: rest) :: tail) crit Pr (tps t P) false = .ok (some (r t P)))
    (h2 : ∀ᶠ p in 𝓝 P, gasEntry m T p ((lo :: rest) :: tail) crit Pr (tps T p) false = .ok (some (r T p))) :
    Carries (fun t p => (r t p).G) T P ∧ Carries (fun t p => (r t p).Cp) T P ∧ Carries (fun t p => (r t p).U) T P ∧
      Carries (fun t p => (r t p).A) T P := by
  have hne : ∀ᶠ p in 𝓝 P, p ≠ 0 := isOpen_ne.mem_nhds hP
  have one : ∀ t p, p ≠ 0 → gasEntry m t p ((lo :: rest) :: tail) crit Pr (tps t p) false = .ok (some (r t p)) →
      (r t p).G.val = (tps t p).G.val ∧ (r t p).G.ddt = (tps t p).G.ddt ∧ (r t p).G.ddp = (tps t p).G.ddp ∧ (r t p).Cp = (tps t p).Cp ∧
        (r t p).U = (tps t p).U ∧ (r t p).A = (tps t p).A := by
    intro t p hp hr
    obtain ⟨f, hR, sR, hf, -, -, e⟩ := entry_some hp hr
    rw [if_neg (by decide)] at e
    have hphi := calcPhi_pos hf
    rw [e]
    exact ⟨(increment_vals hp hphi).1, (increment_G hp hphi).1, (increment_G hp hphi).2, rfl, rfl, rfl⟩
  obtain ⟨-, g1, g2, gc, gu, ga⟩ := one T P hP h1.self_of_nhds
  have e1 := h1.mono fun t ht => one t P hP ht
  have e2 := (h2.and hne).mono fun p hp => one T p hp.2 hp.1
  refine ⟨⟨?_, ?_⟩, ⟨?_, ?_⟩, ⟨?_, ?_⟩, ⟨?_, ?_⟩⟩
  · rw [g1]; exact hc.hG.ddt.congr_of_eventuallyEq (e1.mono fun t ht => ht.1)
  · rw [g2]; exact hc.hG.ddp.congr_of_eventuallyEq (e2.mono fun t ht => ht.1)
  · rw [gc]; exact hc.hCp.ddt.congr_of_eventuallyEq (e1.mono fun t ht => by dsimp only; rw [ht.2.2.2.1])
  · rw [gc]; exact hc.hCp.ddp.congr_of_eventuallyEq (e2.mono fun t ht => by dsimp only; rw [ht.2.2.2.1])
  · rw [gu]; exact hc.hU.ddt.congr_of_eventuallyEq (e1.mono fun t ht => by dsimp only; rw [ht.2.2.2.2.1])
  · rw [gu]; exact hc.hU.ddp.congr_of_eventuallyEq (e2.mono fun t ht => by dsimp only; rw [ht.2.2.2.2.1])
  · rw [ga]; exact hc.hA.ddt.congr_of_eventuallyEq (e1.mono fun t ht => by dsimp only; rw [ht.2.2.2.2.2])
  · rw [ga]; exact hc.hA.ddp.congr_of_eventuallyEq (e2.mono fun t ht => by dsimp only; rw [ht.2.2.2.2.2])

/-- Properties that depend on temperature and pressure. -/
noncomputable def exBase (t p : ℝ) : TPS := { TPS.default with G := TS.temperature t, U := pbar p }

lemma exBase_carries : CarriesS exBase 216 (exP * 1e5) := by
  constructor <;> dsimp only [exBase, TPS.default]
  all_goals first | exact Carries.temp | exact Carries.pres | exact Carries.default

/-- What the Soave-Redlich-Kwong model returns for the gas of `exAr`, on top of them. -/
noncomputable def exOut (t p : ℝ) : TPS :=
  match gasEntry .SRK t p [[100]] exAr 1e5 (exBase t p) false with
  | .ok (some x) => x
  | _ => TPS.default

lemma exOut_P : ∀ᶠ p in 𝓝 (exP * 1e5), gasEntry .SRK 216 p [[100]] exAr 1e5 (exBase 216 p) false = .ok (some (exOut 216 p)) := by
  have := exP_val
  have hPa : exP * 1e5 / 1e5 = exP := mul_div_cancel_right₀ _ (by norm_num)
  have hab : 0 ≤ (srkAB 216 150 50 0).a ∧ 0 < (srkAB 216 150 50 0).b :=
    parsOf_pos (m := .SRK) (T := 216) (k := fun i => exAr.getD i 0) (by norm_num [exAr]) (by norm_num [exAr])
  have cdiv : ContinuousAt (fun x : ℝ => x / 1e5) (exP * 1e5) := by fun_prop
  have e2 : ∀ᶠ x in 𝓝 (exP * 1e5), 1e-5 < x / 1e5 := ContinuousAt.eventually_lt continuousAt_const cdiv (by rw [hPa]; norm_num; linarith)
  have e3 : ∀ᶠ x in 𝓝 (exP * 1e5), x / 1e5 < 1e5 := ContinuousAt.eventually_lt cdiv continuousAt_const (by rw [hPa]; norm_num; linarith)
  have e4 := SrkOne.eventually (a := fun _ => (srkAB 216 150 50 0).a) (b := fun _ => (srkAB 216 150 50 0).b) (t := fun _ => 216) (p := fun x => x / 1e5)
    (x := exP * 1e5) continuousAt_const continuousAt_const continuousAt_const cdiv (by norm_num) (by rw [hPa]; exact exAr_single.one)
  filter_upwards [e2, e3, e4] with x h2 h3 h4
  have hx : 0 < x / 1e5 := lt_trans (by norm_num) h2
  have hc : calcFugPure .SRK 100 216 (x / 1e5) (fun i => exAr.getD i 0) = some (srkProps 216 (x / 1e5) (srkAB 216 150 50 0) (Bx (srkAB 216 150 50 0).b 216 (x / 1e5))
      (srkZ (srkAB 216 150 50 0).a (srkAB 216 150 50 0).b 216 (x / 1e5), srkLnf (Ax (srkAB 216 150 50 0).a 216 (x / 1e5)) (Bx (srkAB 216 150 50 0).b 216 (x / 1e5))
        (srkZ (srkAB 216 150 50 0).a (srkAB 216 150 50 0).b 216 (x / 1e5)))) := by
    rw [exAr_calc h2.le h3 (by norm_num) (by norm_num)]
    exact srkPure_one (by norm_num) hx hab.1 hab.2 h4
  have he := (entry_of (m := .SRK) (T := 216) (P := x) (lo := 100) (Pr := 1e5) (rest := []) (tail := []) (crit := exAr) (tps := exBase 216 x)
    (by simp [exAr]) (by rintro rfl; simp at hx) hc rfl rfl).1
  unfold exOut
  rw [he]

lemma exOut_T : ∀ᶠ t in 𝓝 216, gasEntry .SRK t (exP * 1e5) [[100]] exAr 1e5 (exBase t (exP * 1e5)) false = .ok (some (exOut t (exP * 1e5))) := by
  have := exP_val
  have hPa : exP * 1e5 / 1e5 = exP := mul_div_cancel_right₀ _ (by norm_num)
  obtain ⟨-, -, -, -, f, hh, ss, ev, -⟩ := C172_partial .SRK 216 exP (fun i => exAr.getD i 0) (by norm_num) (by linarith) (by norm_num [exAr]) (by norm_num [exAr])
    (fun h => absurd rfl h) exAr_single
  filter_upwards [ev, lt_mem_nhds (show (100:ℝ) < 216 by norm_num), gt_mem_nhds (show (216:ℝ) < 1e4 by norm_num)] with t ht h1 h2
  have hc : calcFugPure .SRK 100 t (exP * 1e5 / 1e5) (fun i => exAr.getD i 0) = some (f t) := by
    rw [hPa, exAr_calc (by norm_num; linarith) (by norm_num; linarith) (le_of_lt h1) h2]
    exact ht.1
  have he := (entry_of (m := .SRK) (T := t) (P := exP * 1e5) (lo := 100) (Pr := 1e5) (rest := []) (tail := []) (crit := exAr) (tps := exBase t (exP * 1e5))
    (by simp [exAr]) (by norm_num; linarith) hc ht.2.1 ht.2.2).1
  unfold exOut
  rw [he]

example : ((exOut 216 (exP * 1e5)).V.ddp = 0 ∧ ¬ HasDerivAt (fun p => (exOut 216 p).V.val) 0 (exP * 1e5)) ∧
    Carries (fun t p => (exOut t p).G) 216 (exP * 1e5) ∧ Carries (fun t p => (exOut t p).U) 216 (exP * 1e5) := by
  have := exP_val
  have hPa : exP * 1e5 / 1e5 = exP := mul_div_cancel_right₀ _ (by norm_num)
  have hne : exP * 1e5 ≠ 0 := by norm_num; linarith
  refine ⟨C98_gas_refuted .SRK 216 (exP * 1e5) 100 1e5 [] [] exAr false exBase exOut (by norm_num) (by norm_num) (by norm_num) (by rw [hPa]; norm_num; linarith)
    (by rw [hPa]; norm_num; linarith) (by norm_num [exAr]) (by norm_num [exAr]) (by rw [hPa]; exact exAr_single) exOut_P, ?_⟩
  obtain ⟨h1, -, h2, -⟩ := C98_gas_partial .SRK 216 (exP * 1e5) 100 1e5 [] [] exAr exBase exOut hne exBase_carries exOut_T exOut_P
  exact ⟨h1, h2⟩

end ThermoFun.Gas

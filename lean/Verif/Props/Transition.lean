import Verif.Props.Reference

/-!
# Minerals with a transition

Theorems about the Landau model below the transition (Model/Substance.lean, C70) and about the engine (Model/Engine.lean) with the numeric models
plugged in (Model/EngineReal.lean), for the minerals that have a table of heat capacities, a Landau transition and the Murnaghan equation of state
together, as every record with a Landau transition in the databases of the repository has (C169).
-/

open Filter Topology

namespace ThermoFun

/-- The increment of G by the Landau model. -/
noncomputable def LandauPar.dG (l : LandauPar) (Tr k a P T : ℝ) : ℝ :=
  l.Smax * (l.Tc0 + 273.15) * (l.Q2 Tr - l.Q6 Tr / 3) - T * l.Smax * l.Q2 Tr + hpG (l.Vmax * l.Q2 Tr) (a * 1e-5) k Tr (kbar P) T
    - 2 / 3 * l.Smax * l.Tc P * (1 - T / l.Tc P) ^ (1.5 : ℝ)

/-- The increment of S by the Landau model. -/
noncomputable def LandauPar.dS (l : LandauPar) (Tr k a P T : ℝ) : ℝ :=
  l.Smax * (l.Q2 Tr - (1 - T / l.Tc P) ^ (0.5 : ℝ)) - hpE (l.Vmax * l.Q2 Tr) (a * 1e-5) k Tr (kbar P) T

lemma landau_incr (T P Tr : ℝ) (l : LandauPar) (rest : List ℝ) (k a : ℝ) (tps : TPS) (h : LandauOk l Tr) (hTc : 0 < l.Tc P)
    (r : TPS) (hr : landau (TS.temperature T) (pbar P) Tr (l.Tc0 :: l.Smax :: l.Vmax :: rest) k a tps = .ok r) :
    r.G.val = tps.G.val + l.dG Tr k a P T ∧ r.S.val = tps.S.val + l.dS Tr k a P T ∧
      r.H.val = tps.H.val + (l.dG Tr k a P T + T * l.dS Tr k a P T) := by
  obtain ⟨v1, v2, v3, -⟩ := landau_vals T P Tr l rest k a tps h hTc r hr
  refine ⟨v1, v2, ?_⟩
  rw [v3]
  have hw : (1 - T / l.Tc P) ^ (1.5 : ℝ) * l.Tc P = (1 - T / l.Tc P) ^ (0.5 : ℝ) * (l.Tc P - T) := by
    rcases le_or_gt (1 - T / l.Tc P) 0 with hw | hw
    · rw [rpow_half_nonpos hw, rpow_three_half_nonpos hw]; ring
    · rw [show (1.5 : ℝ) = 1 + 0.5 by norm_num, Real.rpow_add hw, Real.rpow_one]
      field_simp
  unfold LandauPar.dG LandauPar.dS
  linear_combination (l.Smax) * hw

/-- The slope of the increment of G in temperature. -/
lemma LandauPar.dG_deriv (l : LandauPar) {Tr k a P T : ℝ} (h : LandauOk l Tr) (hk : 0 < k) (hP : 0 < P) (hTc : 0 < l.Tc P) (hT : 0 < T)
    (hc : 1.5e-4 * (T - Tr) < 1) : HasDerivAt (fun t => l.dG Tr k a P t) (-(l.dS Tr k a P T)) T := by
  obtain ⟨f, hf, hd, -⟩ := C36_consistent Tr l [] k a TPS.default h hk P hP hTc
  have hv := fun t => landau_incr t P Tr l [] k a TPS.default h hTc (f t) (hf t)
  have := (hd T hT hc).1.sub_const TPS.default.G.val
  refine (this.congr_deriv ?_).congr_of_eventuallyEq (Eventually.of_forall fun t => ?_)
  · rw [(hv T).2.1]; ring
  · simp only [(hv t).1]; ring

/-- The slope of the increment of G in pressure below the transition, in J/Pa: the excess volume, compressed. -/
lemma LandauPar.dG_deriv_P (l : LandauPar) {Tr k a P T : ℝ} (h : LandauOk l Tr) (hk : 0 < k) (hP : 0 < P) (hT : 0 < T) (hlt : T < l.Tc P)
    (hc : 1.5e-4 * (T - Tr) < 1) : HasDerivAt (fun p => l.dG Tr k a p T) ((hpV (l.Vmax * l.Q2 Tr) (a * 1e-5) Tr T * hpq k Tr (kbar P) T ^ (-0.25 : ℝ)
      - l.Vmax * ((1 - T / l.Tc P) ^ (0.5 : ℝ) - (1 - T / l.Tc P) ^ (1.5 : ℝ) / 3)) / 1e5) P := by
  have hTc : 0 < l.Tc P := hT.trans hlt
  have hc' : 0 < 1 - 1.5e-4 * (T - Tr) := by linarith
  have hK : 0 < hpK k Tr T := mul_pos hk hc'
  have hp : 0 < kbar P := by unfold kbar; positivity
  have hq : 0 < hpq k Tr (kbar P) T := by unfold hpq; positivity
  have hkb : HasDerivAt kbar (1 / 1e5 / 1000) P := ((hasDerivAt_id' P).div_const _).div_const _
  have hG := ((hpG_deriv_p (V0 := l.Vmax * l.Q2 Tr) (a0 := a * 1e-5) hk.ne' hc'.ne' hq).comp P hkb)
  have hdT : HasDerivAt l.Tc (l.Vmax / l.Smax * (1 / 1e5)) P :=
    ((((hasDerivAt_id' P).div_const 1e5).const_mul (l.Vmax / l.Smax)).const_add l.Tc0).add_const 273.15
  have hw : HasDerivAt (fun p => 1 - T / l.Tc p) (T * (l.Vmax / l.Smax * (1 / 1e5)) / l.Tc P ^ 2) P :=
    (((hasDerivAt_const P T).div hdT hTc.ne').const_sub 1).congr_deriv (by ring)
  have hL := (hdT.mul ((rpow_three_half_deriv (1 - T / l.Tc P)).comp P hw)).const_mul (2 / 3 * l.Smax)
  have hw0 : 0 < 1 - T / l.Tc P := by
    have : T / l.Tc P < 1 := (div_lt_one hTc).2 hlt
    linarith
  have e3 : (1 - T / l.Tc P) ^ (1.5 : ℝ) = (1 - T / l.Tc P) * (1 - T / l.Tc P) ^ (0.5 : ℝ) := by
    rw [show (1.5 : ℝ) = 1 + 0.5 by norm_num, Real.rpow_add hw0, Real.rpow_one]
  have := (hG.const_add (l.Smax * (l.Tc0 + 273.15) * (l.Q2 Tr - l.Q6 Tr / 3) - T * l.Smax * l.Q2 Tr)).sub hL
  refine (this.congr_deriv ?_).congr_of_eventuallyEq (Eventually.of_forall fun p => ?_)
  · simp only [Function.comp]
    rw [e3]
    have hS := h.ent.ne'
    generalize (1 - T / l.Tc P) ^ (0.5 : ℝ) = x
    field_simp
    ring
  · simp only [LandauPar.dG, Function.comp, Pi.mul_apply, Pi.sub_apply]
    ring

/-- The volume by the Landau model below the transition, as the source has it: with dQ from 1 + T/Tc. -/
lemma landau_vol (T P Tr : ℝ) (l : LandauPar) (rest : List ℝ) (k a : ℝ) (tps : TPS) (h : LandauOk l Tr) (hlt : T < l.Tc P) (hT : 0 < T)
    (r : TPS) (hr : landau (TS.temperature T) (pbar P) Tr (l.Tc0 :: l.Smax :: l.Vmax :: rest) k a tps = .ok r) :
    let Q := (1 - T / l.Tc P) ^ (0.25 : ℝ)
    let dQ := -T * l.Vmax / (4 * (1 + T / l.Tc P) ^ (0.75 : ℝ) * l.Tc P ^ (2 : ℝ) * l.Smax)
    r.V.val = hpV (l.Vmax * l.Q2 Tr) (a * 1e-5) Tr T + 2 * l.Smax * (T - l.Tc P) * Q * dQ - l.Smax * Q ^ (2 : ℝ) * l.Vmax / l.Smax
      + l.Tc P * Q ^ (2 : ℝ) * dQ + l.Vmax / l.Smax * Q ^ (3 : ℝ) / 3 := by
  intro Q dQ
  have hTc : 0 < l.Tc P := hT.trans hlt
  have hS : ¬ l.Smax ≤ 0 := not_le.2 h.ent
  have hw0 : 0 ≤ 1 - Tr / (l.Tc0 + 273.15) := by
    have : Tr / (l.Tc0 + 273.15) < 1 := (div_lt_one (lt_trans h.tr h.ord)).2 h.ord
    linarith
  have hQ2 : ((1 - Tr / (l.Tc0 + 273.15)) ^ (0.25 : ℝ)) ^ (2 : ℝ) = l.Q2 Tr := by
    rw [← Real.rpow_mul hw0]; norm_num [LandauPar.Q2]
  simp only [landau, Res.ok.injEq, if_neg hS] at hr
  rw [hQ2] at hr
  set Tcr : TS := TS.addAssignD (if l.Vmax = 0 then TS.assign TS.default l.Tc0 else l.Tc0 + (l.Vmax / l.Smax : ℝ) * pbar P) 273.15 with hTcr
  have hTv : Tcr.val = l.Tc P := by
    rw [hTcr, val_addAssignD]
    by_cases hv : l.Vmax = 0
    · simp [hv, LandauPar.Tc, val_assign]
    · simp [hv, LandauPar.Tc]
  have hsq : ∀ x : ℝ, √x = x ^ (0.5 : ℝ) := fun x => by rw [Real.sqrt_eq_rpow]; norm_num
  clear_value Tcr
  have hw : 0 < 1 - T / l.Tc P := by
    have : T / l.Tc P < 1 := (div_lt_one hTc).2 hlt
    linarith
  have hlt' : (TS.temperature T).val < Tcr.val := by rw [hTv]; exact hlt
  have hQv : (TS.powR ((1 : ℝ) - TS.temperature T / Tcr) 0.25).val = Q := by simp [hTv, Q]
  have hQ0 : Q ≠ 0 := (Real.rpow_pos_of_pos hw _).ne'
  simp only [if_pos hlt'] at hr
  rw [if_neg (by rw [hQv]; exact fun hh => hQ0 hh.1)] at hr
  subst hr
  simp only [TS.op_val_add, TS.op_val_addL, TS.op_val_addR, TS.op_val_neg, TS.op_val_sub, TS.op_val_subL, TS.op_val_subR,
    TS.op_val_mul, TS.op_val_mulL, TS.op_val_mulR, TS.op_val_div, TS.op_val_divL, TS.op_val_divR, TS.val_temperature, val_pbar,
    TS.val_addAssign, TS.val_powR, TS.val_sqrt, hTv, hpV, Q, dQ, hsq]

/-- Without transition volume the model has no volume. -/
lemma landau_vol_zero (T P Tr : ℝ) (l : LandauPar) (rest : List ℝ) (k a : ℝ) (tps : TPS) (h : LandauOk l Tr) (hT : 0 < T) (hV : l.Vmax = 0)
    (r : TPS) (hr : landau (TS.temperature T) (pbar P) Tr (l.Tc0 :: l.Smax :: l.Vmax :: rest) k a tps = .ok r) : r.V.val = 0 := by
  have hTc : l.Tc P = l.Tc0 + 273.15 := by simp [LandauPar.Tc, hV]
  rcases lt_or_ge T (l.Tc P) with hlt | hge
  · have := landau_vol T P Tr l rest k a tps h hlt hT r hr
    simp only [hV, hpV, mul_zero, zero_mul, zero_div, sub_zero, add_zero] at this
    exact this
  · obtain ⟨-, -, -, v, -⟩ := landau_vals T P Tr l rest k a tps h (by rw [hTc]; exact h.tr.trans h.ord) r hr
    rw [(v hge).1]
    simp [hpV, hV]

/-- A transition with the entropy and volume of that of quartz, near its temperature: at 25 °C and 2 bar the order parameter is 0.9. -/
noncomputable def exOrdered : LandauPar := ⟨298.15 / 0.3439 - 273.15 - 0.048, 4.95, 0.1188⟩

lemma exOrdered_Tc : exOrdered.Tc 2e5 = 298.15 / 0.3439 := by norm_num [LandauPar.Tc, exOrdered]

lemma exOrdered_ok : LandauOk exOrdered 298.15 := ⟨by norm_num [exOrdered], by norm_num, by norm_num [exOrdered]⟩

/-- The volume of that mineral is 0.004 J/bar less than the slope of its Gibbs energy. -/
lemma exOrdered_gap (rest : List ℝ) (a : ℝ) (tps : TPS) (r : TPS)
    (hr : landau (TS.temperature 298.15) (pbar 2e5) 298.15 (exOrdered.Tc0 :: exOrdered.Smax :: exOrdered.Vmax :: rest) 750 a tps = .ok r) :
    ∃ s, HasDerivAt (fun p => exOrdered.dG 298.15 750 a p 298.15) (s / 1e5) 2e5 ∧ r.V.val < s - 0.004 := by
  have hlt : (298.15 : ℝ) < exOrdered.Tc 2e5 := by rw [exOrdered_Tc]; norm_num
  refine ⟨_, exOrdered.dG_deriv_P (a := a) exOrdered_ok (by norm_num) (by norm_num) (by norm_num) hlt (by norm_num), ?_⟩
  have hv := landau_vol 298.15 2e5 298.15 exOrdered rest 750 a tps exOrdered_ok hlt (by norm_num) r hr
  dsimp only at hv
  rw [exOrdered_Tc] at hv ⊢
  have hw : 1 - 298.15 / (298.15 / 0.3439) = (0.9 : ℝ) ^ 4 := by norm_num
  have hw' : 1 + 298.15 / (298.15 / 0.3439) = (1.3439 : ℝ) := by norm_num
  have q1 : ((0.9 : ℝ) ^ 4) ^ (0.25 : ℝ) = 0.9 := by
    rw [← Real.rpow_natCast, ← Real.rpow_mul (by norm_num)]; norm_num
  have q2 : ((0.9 : ℝ) ^ 4) ^ (0.5 : ℝ) = 0.9 ^ 2 := by
    rw [← Real.rpow_natCast, ← Real.rpow_mul (by norm_num), ← Real.rpow_natCast]; norm_num
  have q6 : ((0.9 : ℝ) ^ 4) ^ (1.5 : ℝ) = 0.9 ^ 6 := by
    rw [← Real.rpow_natCast, ← Real.rpow_mul (by norm_num), ← Real.rpow_natCast]; norm_num
  rw [hw, hw', q1, Real.rpow_two, Real.rpow_two, show ((0.9 : ℝ) ^ (3 : ℝ)) = 0.9 ^ (3 : ℕ) by rw [← Real.rpow_natCast]; norm_num] at hv
  rw [hw, q2, q6, hv]
  have hV0 : ∀ V, hpV V (a * 1e-5) 298.15 298.15 = V := by intro V; simp [hpV]
  rw [hV0]
  have hc1 : (1 : ℝ) ≤ 1.3439 ^ (0.75 : ℝ) := Real.one_le_rpow (by norm_num) (by norm_num)
  have hc2 : (1.3439 : ℝ) ^ (0.75 : ℝ) ≤ 1.3439 := by
    conv_rhs => rw [← Real.rpow_one (1.3439 : ℝ)]
    exact Real.rpow_le_rpow_of_exponent_le (by norm_num) (by norm_num)
  have hq : hpq 750 298.15 (kbar 2e5) 298.15 = 1 + 0.008 / 750 := by norm_num [hpq, hpK, kbar]
  have hz : 1 - 2e-5 ≤ hpq 750 298.15 (kbar 2e5) 298.15 ^ (-0.25 : ℝ) := by
    rw [hq]
    have : (1 + 0.008 / 750 : ℝ) ^ (-1 : ℝ) ≤ (1 + 0.008 / 750) ^ (-0.25 : ℝ) :=
      Real.rpow_le_rpow_of_exponent_le (by norm_num) (by norm_num)
    refine le_trans ?_ this
    rw [Real.rpow_neg_one]
    norm_num
  have hQ1 : exOrdered.Q2 298.15 ≤ 1 := by
    refine Real.rpow_le_one ?_ ?_ (by norm_num) <;> norm_num [exOrdered]
  have hQ0 : 0 ≤ exOrdered.Q2 298.15 := Real.rpow_nonneg (by norm_num [exOrdered]) _
  generalize hpq 750 298.15 (kbar 2e5) 298.15 ^ (-0.25 : ℝ) = z at hz ⊢
  generalize exOrdered.Q2 298.15 = y at hQ0 hQ1 ⊢
  generalize (1.3439 : ℝ) ^ (0.75 : ℝ) = c at hc1 hc2 ⊢
  have hyz : y * (1 - z) ≤ 2e-5 := by nlinarith
  have hcp : 0 < c := by linarith
  have hd : ∀ A : ℝ, A / (4 * c * (298.15 / 0.3439) ^ 2 * 4.95) = A / (4 * (298.15 / 0.3439) ^ 2 * 4.95) * c⁻¹ := by
    intro A; field_simp
  have hi1 : c⁻¹ ≤ 1 := inv_le_one_of_one_le₀ hc1
  have hi2 : 0 < c⁻¹ := inv_pos.2 hcp
  simp only [exOrdered]
  rw [hd]
  generalize c⁻¹ = i at hi1 hi2 ⊢
  norm_num
  nlinarith

/-- **C70 refuted below the transition.**  Below the transition the volume of `thermoPropertiesMinHPLandau` is not the slope of its Gibbs energy
either: the derivative of the order parameter has 1 + T/Tc for 1 - T/Tc and the wrong sign, the term Tc Q² dQ should be 2 Tc Q⁵ dQ, and the last
term should be Vmax Q⁶/3, not Vmax/Smax Q³/3.  A mineral with the transition entropy and volume of quartz, whose order parameter is 0.9 at
25 °C and 2 bar, is given an excess volume that is too small by more than 0.004 of 0.021 J/bar. -/
theorem C70_ordered_refuted : ∃ (l : LandauPar) (k a T P Tr : ℝ), LandauOk l Tr ∧ 0 < k ∧ 0 < P ∧ 0 < T ∧ T < l.Tc P ∧ 1.5e-4 * (T - Tr) < 1 ∧
    ∀ (rest : List ℝ) (tps : TPS), ∃ (f : ℝ → TPS) (s : ℝ),
      (∀ p, landau (TS.temperature T) (pbar p) Tr (l.Tc0 :: l.Smax :: l.Vmax :: rest) k a tps = .ok (f p)) ∧
      HasDerivAt (fun p => (f p).G.val) (s / 1e5) P ∧ (f P).V.val < s - 0.004 ∧ ¬ HasDerivAt (fun p => (f p).G.val) ((f P).V.val / 1e5) P := by
  refine ⟨exOrdered, 750, 0.65, 298.15, 2e5, 298.15, exOrdered_ok, by norm_num, by norm_num, by norm_num, by rw [exOrdered_Tc]; norm_num, by norm_num, ?_⟩
  intro rest tps
  choose f hf using fun p => landau_ok 298.15 p 298.15 exOrdered rest 750 0.65 tps
  obtain ⟨s, hs, hg⟩ := exOrdered_gap rest 0.65 tps (f 2e5) (hf 2e5)
  have hcT : ContinuousAt exOrdered.Tc 2e5 := by
    have : HasDerivAt exOrdered.Tc (exOrdered.Vmax / exOrdered.Smax * (1 / 1e5)) 2e5 :=
      ((((hasDerivAt_id' (2e5 : ℝ)).div_const 1e5).const_mul (exOrdered.Vmax / exOrdered.Smax)).const_add exOrdered.Tc0).add_const 273.15
    exact this.continuousAt
  have hd : HasDerivAt (fun p => (f p).G.val) (s / 1e5) 2e5 := by
    refine (hs.const_add tps.G.val).congr_of_eventuallyEq ?_
    filter_upwards [hcT.eventually (lt_mem_nhds (show (0 : ℝ) < exOrdered.Tc 2e5 by rw [exOrdered_Tc]; norm_num))] with p hp
    exact (landau_incr 298.15 p 298.15 exOrdered rest 750 0.65 tps exOrdered_ok hp (f p) (hf p)).1
  exact ⟨f, s, hf, hd, hg, fun h => by have := h.unique hd; linarith⟩

namespace Engine

variable {base : Models PSolv ESolv} {env : Env PSolv ESolv} {N : Nat}

/-- What the three models give for a mineral with a transition and the Murnaghan equation of state. -/
noncomputable def transitionTPS (x : Subst) (k a T P : ℝ) : TPS :=
  murnaghan (TS.temperature T) (pbar P) x.refT x.refP x.ref k a
    (okOr (landau (TS.temperature T) (pbar P) x.refT x.params.landau k a (okOr (empCpIntegration x.cpData T))))

/-- A mineral with a transition calculated with the Murnaghan equation of state, whose parameters the record states. -/
structure Murnaghan (x : Subst) (k a : ℝ) : Prop where
  method : x.mP = .CEH
  bulk : x.params.compressibility = some k
  expansivity : x.params.expansivity = some a
  pars : MurnOk x.ref k a

/-- What the engine answers for such a mineral. -/
lemma answer_transition (hm : env.mods = real base) (h : Regular env N) (hfb : env.fallback = false) (hbb : bermanBrown env = false) {y : String}
    {x : Subst} (hy : env.db.subs.lookup y = some x) {l : LandauPar} (hx : Transition x l) {k a : ℝ} (hk : Murnaghan x k a) {T : ℝ}
    (ht : ∃ r, empCpIntegration x.cpData T = .ok r) (P : ℝ) : answer env N (.sub T P y) = .ok (.sub (transitionTPS x k a T P)) := by
  obtain ⟨r, hr⟩ := ht
  obtain ⟨rest, hpar⟩ := hx.pars
  obtain ⟨r2, hr2⟩ := landau_ok T P x.refT l rest k a r
  rw [← hpar] at hr2
  have e0 : ∀ s : ESt PSolv ESolv, EM.read (·.pcorr) s = (.ok s.pcorr, s) := fun _ => rfl
  refine answer_steps hm h hfb hbb hy hx.notH hx.own hx.solute hx.gen hr (r2 := r2) (fun s => ?_) fun n s => ?_
  · unfold tStep
    rw [hx.method]
    simp only [hm, real, withSolid, hk.bulk, hk.expansivity, hr2, hx.gen, reduceCtorEq, if_false, EM.lift]
  · unfold pStep transitionTPS
    rw [bind_run (e0 s), if_neg (by simp [hx.gen]), hk.method, hr, okOr, hr2, okOr]
    simp only [hm, real, EM.lift, withSolid, hk.bulk, hk.expansivity]

/-- Its values. -/
lemma transition_vals {x : Subst} {l : LandauPar} (hx : Transition x l) {k a : ℝ} (hk : Murnaghan x k a) (hl : LandauOk l x.refT) {T P : ℝ}
    (hT : 0 < T) (hTc : 0 < l.Tc P) (hP : 0 < P) (hc : 1.5e-4 * (T - x.refT) < 1) (hne : P ≠ x.refP ∨ T ≠ x.refT) :
    let e := okOr (empCpIntegration x.cpData T)
    let r := transitionTPS x k a T P
    let V0 := x.ref.V.val
    r.G.val = e.G.val + l.dG x.refT k a P T + hpG V0 (a * 1e-5) k x.refT (kbar P) T ∧
    r.S.val = e.S.val + l.dS x.refT k a P T - hpE V0 (a * 1e-5) k x.refT (kbar P) T ∧
    r.H.val = e.H.val + (l.dG x.refT k a P T + T * l.dS x.refT k a P T)
      + (hpG V0 (a * 1e-5) k x.refT (kbar P) T - T * hpE V0 (a * 1e-5) k x.refT (kbar P) T) ∧
    (∃ v, landau (TS.temperature T) (pbar P) x.refT x.params.landau k a e = .ok v ∧
      r.V.val = v.V.val + hpV V0 (a * 1e-5) x.refT T * hpq k x.refT (kbar P) T ^ (-0.25 : ℝ) ∧
      r.Cp.val = v.Cp.val + ((murnaghan (TS.temperature T) (pbar P) x.refT x.refP x.ref k a TPS.default).Cp.val - TPS.default.Cp.val)) := by
  intro e r V0
  obtain ⟨rest, hpar⟩ := hx.pars
  obtain ⟨v, hv⟩ := landau_ok T P x.refT l rest k a e
  obtain ⟨g1, g2, g3⟩ := landau_incr T P x.refT l rest k a e hl hTc v hv
  rw [← hpar] at hv
  have hr : r = murnaghan (TS.temperature T) (pbar P) x.refT x.refP x.ref k a v := by
    show murnaghan _ _ _ _ _ _ _ (okOr (landau _ _ _ _ _ _ e)) = _
    rw [hv]
    rfl
  obtain ⟨m1, m2, m3, m4, m5, -⟩ := murnaghan_vals T P x.refT x.refP x.ref k a v hk.pars hne
  obtain ⟨-, -, -, -, n5, -⟩ := murnaghan_vals T P x.refT x.refP x.ref k a TPS.default hk.pars hne
  have hk0 : 0 < k := lt_trans (by norm_num) hk.pars.bulk
  have hc' : 0 < 1 - 1.5e-4 * (T - x.refT) := by linarith
  have hK : 0 < hpK k x.refT T := mul_pos hk0 hc'
  have hp : 0 < kbar P := by unfold kbar; positivity
  have hq : 0 < hpq k x.refT (kbar P) T := by unfold hpq; positivity
  rw [hr]
  refine ⟨?_, ?_, ?_, v, hv, ?_, ?_⟩
  · rw [m1, g1]
  · rw [m2, g2]
  · rw [m3, g3]
  · rw [m4, hpq_compl hK hq]
  · rw [m5, n5]; ring

/-- **C169, the part that holds.**  A mineral with a table of heat capacities, a Landau transition and the Murnaghan equation of state, whose data
hang together, is answered near `T0` at all pressures; in the answers dG/dT = -S and G = H - T S up to the entropy of the elements, below, at and
above the transition; and if the transition has no volume, dG/dP = V too, and dH/dT = Cp but at the transition.  Missing: volume and heat capacity
with a transition volume, for which both fail (below; C70), and the reference point itself, where G has no slopes (`C169_reference_refuted`). -/
theorem C169_transition_partial (hm : env.mods = real base) (h : Regular env N) (hfb : env.fallback = false) (hbb : bermanBrown env = false) {y : String}
    {x : Subst} (hy : env.db.subs.lookup y = some x) {l : LandauPar} (hx : Transition x l) {k a : ℝ} (hk : Murnaghan x k a) (hl : LandauOk l x.refT)
    {T0 P : ℝ} (hs : Sound env x.refT T0 x) (hT : 0 < T0) (hP : 0 < P) (hTc : 0 < l.Tc P) (hc : 1.5e-4 * (T0 - x.refT) < 1)
    (hne : P ≠ x.refP ∨ T0 ≠ x.refT) :
    ∃ f : ℝ → ℝ → TPS, (∀ᶠ T in 𝓝 T0, ∀ P, answer env N (.sub T P y) = .ok (.sub (f T P))) ∧
      HasDerivAt (fun T => (f T P).G.val) (-(f T0 P).S.val) T0 ∧
      (f T0 P).G.val = (f T0 P).H.val - T0 * (f T0 P).S.val + x.refT * env.db.elemEntropy x.formula ∧
      (l.Vmax = 0 → HasDerivAt (fun P => (f T0 P).G.val) ((f T0 P).V.val / 1e5) P ∧
        (T0 ≠ l.Tc P → HasDerivAt (fun T => (f T P).H.val) (f T0 P).Cp.val T0)) := by
  obtain ⟨t, i, h1, h2, h3, h4, h5⟩ := hs.table
  obtain ⟨d1, d2, d3⟩ := C29_reported_partial t h2 x.refT hl.tr x.ref TPS.default T0 hT i h3 h4
  have g := run_gibbs h2 (Tr := x.refT) hl.tr hT x.ref (inside_ev t T0 i h3).self_of_nhds h5
  rw [← h1.data] at d1 d2 d3 g
  have hk0 : 0 < k := lt_trans (by norm_num) hk.pars.bulk
  have hc' : 0 < 1 - 1.5e-4 * (T0 - x.refT) := by linarith
  have hK : 0 < hpK k x.refT T0 := mul_pos hk0 hc'
  have hp : 0 < kbar P := by unfold kbar; positivity
  have hq : 0 < hpq k x.refT (kbar P) T0 := by unfold hpq; positivity
  have ev : ∀ᶠ T in 𝓝 T0, 0 < T ∧ 1.5e-4 * (T - x.refT) < 1 ∧ (P ≠ x.refP ∨ T ≠ x.refT) := by
    have c1 : ∀ᶠ T in 𝓝 T0, 1.5e-4 * (T - x.refT) < 1 := by
      have : ContinuousAt (fun T : ℝ => 1.5e-4 * (T - x.refT)) T0 := by fun_prop
      exact this.eventually (gt_mem_nhds hc)
    rcases hne with hh | hh
    · filter_upwards [lt_mem_nhds hT, c1] with T a b using ⟨a, b, Or.inl hh⟩
    · filter_upwards [lt_mem_nhds hT, c1, isOpen_ne.mem_nhds hh] with T a b c using ⟨a, b, Or.inr c⟩
  have hv := fun T (q : 0 < T ∧ 1.5e-4 * (T - x.refT) < 1 ∧ (P ≠ x.refP ∨ T ≠ x.refT)) =>
    transition_vals hx hk hl (T := T) q.1 hTc hP q.2.1 q.2.2
  obtain ⟨v1, v2, v3, v, hvl, v4, v5⟩ := hv T0 ⟨hT, hc, hne⟩
  refine ⟨transitionTPS x k a, ?_, ?_, ?_, fun hV0 => ⟨?_, fun hT0 => ?_⟩⟩
  · filter_upwards [mineral_ev hs] with T hT P
    exact answer_transition hm h hfb hbb hy hx hk hT P
  · have hd := (d3.add (l.dG_deriv (a := a) hl hk0 hP hTc hT hc)).add
      (hpG_deriv (V0 := x.ref.V.val) (a0 := a * 1e-5) hT hk0.ne' hc'.ne' hq)
    refine (hd.congr_deriv ?_).congr_of_eventuallyEq ?_
    · rw [v2]; ring
    · filter_upwards [ev] with T hT
      rw [(hv T hT).1]; rfl
  · have := hs.gibbs
    rw [v1, v2, v3]
    linarith
  · have hTc' : ∀ p, l.Tc p = l.Tc P := by intro p; simp [LandauPar.Tc, hV0]
    have hdG : ∀ p, l.dG x.refT k a p T0 = l.dG x.refT k a P T0 := by
      intro p; simp only [LandauPar.dG, hTc' p, hV0, zero_mul]; simp [hpG, hpV]
    have hkb : HasDerivAt kbar (1 / 1e5 / 1000) P := ((hasDerivAt_id' P).div_const _).div_const _
    have hd := ((hpG_deriv_p (V0 := x.ref.V.val) (a0 := a * 1e-5) hk0.ne' hc'.ne' hq).comp P hkb).const_add
      ((okOr (empCpIntegration x.cpData T0)).G.val + l.dG x.refT k a P T0)
    obtain ⟨rest, hpar⟩ := hx.pars
    have hz := landau_vol_zero T0 P x.refT l rest k a _ hl hT hV0 v (by rw [← hpar]; exact hvl)
    refine (hd.congr_deriv ?_).congr_of_eventuallyEq ?_
    · rw [v4, hz]; ring
    · have evP : ∀ᶠ p in 𝓝 P, 0 < p ∧ (p ≠ x.refP ∨ T0 ≠ x.refT) := by
        rcases hne with hh | hh
        · filter_upwards [lt_mem_nhds hP, isOpen_ne.mem_nhds hh] with p a c using ⟨a, Or.inl c⟩
        · filter_upwards [lt_mem_nhds hP] with p a using ⟨a, Or.inr hh⟩
      filter_upwards [evP] with p hp
      rw [(transition_vals hx hk hl hT (by rw [hTc' p]; exact hTc) hp.1 hc hp.2).1, hdG]
      rfl
  · obtain ⟨rest, hpar⟩ := hx.pars
    obtain ⟨-, -, -, w1, w2, -⟩ := landau_vals T0 P x.refT l rest k a _ hl hTc v (by rw [← hpar]; exact hvl)
    have hE0 : ∀ T, hpE (l.Vmax * l.Q2 x.refT) (a * 1e-5) k x.refT (kbar P) T = 0 := by intro T; simp [hpE, hpV, hV0]
    have hdS : HasDerivAt (fun T => l.dS x.refT k a P T) ((v.Cp.val - (okOr (empCpIntegration x.cpData T0)).Cp.val) / T0) T0 := by
      rcases lt_or_gt_of_ne hT0 with hlt | hgt
      · have hw : 0 < 1 - T0 / l.Tc P := by
          have : T0 / l.Tc P < 1 := (div_lt_one hTc).2 hlt
          linarith
        have hwd : HasDerivAt (fun t => 1 - t / l.Tc P) (-(1 / l.Tc P)) T0 := ((hasDerivAt_id' T0).div_const _).const_sub 1
        have hr := ((hwd.sqrt hw.ne').const_sub (l.Q2 x.refT)).const_mul l.Smax
        refine (hr.congr_deriv ?_).congr_of_eventuallyEq (Eventually.of_forall fun T => ?_)
        · rw [w2 hlt]
          have e1 : √(1 - T0 / l.Tc P) = √(l.Tc P - T0) / √(l.Tc P) := by
            rw [← Real.sqrt_div (by linarith), sub_div, div_self hTc.ne']
          have e2 : √(l.Tc P) * √(l.Tc P) = l.Tc P := Real.mul_self_sqrt hTc.le
          have s1 : 0 < √(l.Tc P) := Real.sqrt_pos.2 hTc
          have s2 : 0 < √(l.Tc P - T0) := Real.sqrt_pos.2 (by linarith)
          rw [e1]
          generalize √(l.Tc P) = b at *
          generalize √(l.Tc P - T0) = c at *
          rw [← e2]
          field_simp
          ring
        · simp only [LandauPar.dS, hE0, sub_zero, Real.sqrt_eq_rpow]
          norm_num
      · rw [(w1 hgt.le).2, sub_self, zero_div]
        refine (hasDerivAt_const T0 (l.Smax * l.Q2 x.refT)).congr_of_eventuallyEq ?_
        filter_upwards [lt_mem_nhds hgt] with T hT
        have : 1 ≤ T / l.Tc P := (one_le_div hTc).2 hT.le
        simp only [LandauPar.dS, hE0, rpow_half_nonpos (show 1 - T / l.Tc P ≤ 0 by linarith), sub_zero]
    have hM := (C35_consistent_partial x.refT x.refP x.ref TPS.default k a hk.pars T0 P hT hP hc hne).2.2.2.1
    have hMS : HasDerivAt (fun T => hpE x.ref.V.val (a * 1e-5) k x.refT (kbar P) T)
        (-((murnaghan (TS.temperature T0) (pbar P) x.refT x.refP x.ref k a TPS.default).Cp.val - TPS.default.Cp.val) / T0) T0 := by
      refine ((hM.sub_const TPS.default.S.val).neg.congr_deriv (by ring)).congr_of_eventuallyEq ?_
      filter_upwards [ev] with T hT
      simp only [Pi.neg_apply, (murnaghan_vals T P x.refT x.refP x.ref k a TPS.default hk.pars hT.2.2).2.1]
      ring
    have hG1 := l.dG_deriv (a := a) hl hk0 hP hTc hT hc
    have hG2 := hpG_deriv (V0 := x.ref.V.val) (a0 := a * 1e-5) hT hk0.ne' hc'.ne' hq
    have hd := (d1.add (hG1.add ((hasDerivAt_id' T0).mul hdS))).add (hG2.sub ((hasDerivAt_id' T0).mul hMS))
    refine (hd.congr_deriv ?_).congr_of_eventuallyEq ?_
    · rw [v5]; field_simp; ring
    · filter_upwards [ev] with T hT
      rw [(hv T hT).2.2.1]; rfl

/-- Mineral "A" of the examples with a Landau transition and the elastic constants of quartz. -/
noncomputable def exQuartz (l : LandauPar) : Subst :=
  { exTransition l 750 with params := { (exTransition l 750).params with expansivity := some 0.65 } }

lemma exQuartz_ok (l : LandauPar) {T0 : ℝ} (h1 : 200 < T0) (h2 : T0 < 800) : Transition (exQuartz l) l ∧ Murnaghan (exQuartz l) 750 0.65 ∧
    Sound (exSolidEnv (exQuartz l)) 298.15 T0 (exQuartz l) ∧ Regular (exSolidEnv (exQuartz l)) 4 := by
  refine ⟨⟨by simp [exQuartz, exTransition, exMineral], rfl, by simp [exQuartz, exTransition, exMineral], rfl, rfl, ⟨[], rfl⟩, rfl, rfl⟩,
    ⟨rfl, rfl, rfl, ⟨?_, ?_, by norm_num⟩⟩, ⟨rfl, ⟨twoIntervals, 0, ⟨rfl, rfl, rfl⟩, twoIntervals_ok, ⟨by decide, Or.inl ?_⟩, ?_, ?_⟩, ?_⟩, ?_⟩
  · norm_num [exQuartz, exTransition, exMineral, asg]
  · rw [abs_of_pos (by norm_num)]; norm_num
  · norm_num [twoIntervals]; exact ⟨h1, h2⟩
  · simp [twoIntervals, CpTable.coefs]
  · intro j hj; omega
  · simp [exQuartz, exTransition, exMineral, asg, exSolidEnv]
  · refine regular_of_own rfl (fun y v h => ?_) le_rfl
    have := mem_of_lookup h
    simp only [exSolidEnv, List.mem_cons, Prod.mk.injEq, List.not_mem_nil, or_false] at this
    rcases this with ⟨-, rfl⟩ | ⟨-, rfl⟩
    · simp [NoGasModel, conSub, Subst.isReacDC, Subst.noMethods]
    · simp [NoGasModel, exQuartz, exTransition, exMineral, Subst.isReacDC, Subst.noMethods]

/-- A mineral with the transition of quartz but without transition volume, at 500 K and 1 kbar. -/
example : ∃ f : ℝ → ℝ → TPS, (∀ᶠ T in 𝓝 500, ∀ P, answer (exSolidEnv (exQuartz ⟨574, 4.95, 0⟩)) 4 (.sub T P "A") = .ok (.sub (f T P))) ∧
    HasDerivAt (fun T => (f T 1e8).G.val) (-(f 500 1e8).S.val) 500 ∧ HasDerivAt (fun P => (f 500 P).G.val) ((f 500 1e8).V.val / 1e5) 1e8 ∧
    HasDerivAt (fun T => (f T 1e8).H.val) (f 500 1e8).Cp.val 500 := by
  obtain ⟨h1, h2, h3, h4⟩ := exQuartz_ok ⟨574, 4.95, 0⟩ (T0 := 500) (by norm_num) (by norm_num)
  have hT : (exQuartz ⟨574, 4.95, 0⟩).refT = 298.15 := rfl
  obtain ⟨f, a, b, -, c⟩ := C169_transition_partial (base := noWater) rfl h4 rfl (exSolid_bb _) (y := "A") (x := exQuartz ⟨574, 4.95, 0⟩) rfl h1 h2
    ⟨by norm_num, by rw [hT]; norm_num, by rw [hT]; norm_num⟩ (T0 := 500) (P := 1e8) h3 (by norm_num) (by norm_num) (by norm_num [LandauPar.Tc])
    (by rw [hT]; norm_num) (Or.inr (by rw [hT]; norm_num))
  exact ⟨f, a, b, (c rfl).1, (c rfl).2 (by norm_num [LandauPar.Tc])⟩

/-- **C169 refuted, the volume of minerals with a transition volume.**  The volume that `thermoPropertiesMinHPLandau` leaves (C70) reaches the caller: the
Murnaghan model adds its own to it.  Through the engine, a mineral with the transition entropy and volume and the elastic constants of quartz is
reported at 25 °C and 2 bar with a volume that is not the pressure derivative of the Gibbs energy reported with it, but smaller by more than
0.004 J/bar. -/
theorem C169_transition_refuted : ∃ (env : Env PSolv ESolv) (x : Subst) (l : LandauPar) (k a T P : ℝ), env.mods = real noWater ∧ Regular env 4 ∧
    env.fallback = false ∧ bermanBrown env = false ∧ env.db.subs.lookup "A" = some x ∧ Transition x l ∧ Murnaghan x k a ∧ LandauOk l x.refT ∧
    Sound env x.refT T x ∧ 0 < T ∧ 0 < P ∧ 0 < l.Tc P ∧ 1.5e-4 * (T - x.refT) < 1 ∧ P ≠ x.refP ∧
    ∃ (f : ℝ → TPS) (s : ℝ), (∀ p, answer env 4 (.sub T p "A") = .ok (.sub (f p))) ∧
      HasDerivAt (fun p => (f p).G.val) (s / 1e5) P ∧ (f P).V.val < s - 0.004 ∧ ¬ HasDerivAt (fun p => (f p).G.val) ((f P).V.val / 1e5) P := by
  obtain ⟨h1, h2, h3, h4⟩ := exQuartz_ok exOrdered (T0 := 298.15) (by norm_num) (by norm_num)
  have hT : (exQuartz exOrdered).refT = 298.15 := rfl
  have hP : (exQuartz exOrdered).refP = 1e5 := rfl
  have hTc : 0 < exOrdered.Tc 2e5 := by rw [exOrdered_Tc]; norm_num
  refine ⟨exSolidEnv (exQuartz exOrdered), exQuartz exOrdered, exOrdered, 750, 0.65, 298.15, 2e5, rfl, h4, rfl, exSolid_bb _, rfl, h1, h2, exOrdered_ok, h3,
    by norm_num, by norm_num, hTc, by rw [hT]; norm_num, by rw [hP]; norm_num, ?_⟩
  have hc : 1.5e-4 * (298.15 - (exQuartz exOrdered).refT) < 1 := by rw [hT]; norm_num
  obtain ⟨-, -, -, v, hv, v4, -⟩ := transition_vals h1 h2 exOrdered_ok (T := 298.15) (P := 2e5) (by norm_num) hTc (by norm_num) hc
    (Or.inl (by rw [hP]; norm_num))
  rw [hT] at hv v4
  obtain ⟨s, hs, hg⟩ := exOrdered_gap [] 0.65 _ v hv
  have hq : 0 < hpq 750 298.15 (kbar 2e5) 298.15 := by norm_num [hpq, hpK, kbar]
  have hkb : HasDerivAt kbar (1 / 1e5 / 1000) 2e5 := ((hasDerivAt_id' _).div_const _).div_const _
  have hM := (hpG_deriv_p (V0 := (exQuartz exOrdered).ref.V.val) (a0 := 0.65 * 1e-5) (p := kbar 2e5) (k0 := 750) (Tst := 298.15) (T := 298.15)
    (by norm_num) (by norm_num) hq).comp (2e5 : ℝ) hkb
  have hcT : ContinuousAt exOrdered.Tc 2e5 := by
    have : HasDerivAt exOrdered.Tc (exOrdered.Vmax / exOrdered.Smax * (1 / 1e5)) 2e5 :=
      ((((hasDerivAt_id' (2e5 : ℝ)).div_const 1e5).const_mul (exOrdered.Vmax / exOrdered.Smax)).const_add exOrdered.Tc0).add_const 273.15
    exact this.continuousAt
  have hd : HasDerivAt (fun p => (transitionTPS (exQuartz exOrdered) 750 0.65 298.15 p).G.val)
      ((s + hpV (exQuartz exOrdered).ref.V.val (0.65 * 1e-5) 298.15 298.15 * hpq 750 298.15 (kbar 2e5) 298.15 ^ (-0.25 : ℝ)) / 1e5) 2e5 := by
    have := (hs.const_add (okOr (empCpIntegration (exQuartz exOrdered).cpData 298.15)).G.val).add hM
    refine (this.congr_deriv (by ring)).congr_of_eventuallyEq ?_
    filter_upwards [hcT.eventually (lt_mem_nhds hTc), lt_mem_nhds (show (1e5 : ℝ) < 2e5 by norm_num)] with p hp hp1
    rw [(transition_vals h1 h2 exOrdered_ok (T := 298.15) (by norm_num) hp (by linarith) hc (Or.inl (by rw [hP]; exact hp1.ne'))).1]
    rfl
  have hlt : (transitionTPS (exQuartz exOrdered) 750 0.65 298.15 2e5).V.val <
      (s + hpV (exQuartz exOrdered).ref.V.val (0.65 * 1e-5) 298.15 298.15 * hpq 750 298.15 (kbar 2e5) 298.15 ^ (-0.25 : ℝ)) - 0.004 := by
    rw [v4]; linarith
  refine ⟨_, _, fun p => ?_, hd, hlt, fun hh => ?_⟩
  · exact answer_transition (base := noWater) rfl h4 rfl (exSolid_bb _) rfl h1 h2 (mineral_ev h3).self_of_nhds p
  · have := hh.unique hd
    linarith

end Engine

end ThermoFun

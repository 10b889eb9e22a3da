import Verif.Props.Transition

/-!
# Minerals with a transition at their reference point

Theorems about the engine (Model/Engine.lean) with the numeric models plugged in (Model/EngineReal.lean): a mineral with a Landau transition and the
Murnaghan equation of state has no derivatives of G at the reference point of its record (C169).
-/

open Filter Topology

namespace ThermoFun

/-- The integral of the volume from zero pressure to a positive one is not zero. -/
lemma hpG_ne {ref : TPS} {k a T P : ℝ} (h : MurnOk ref k a) (hP : 0 < P) : hpG ref.V.val (a * 1e-5) k T (kbar P) T ≠ 0 := by
  have hk : 0 < k := lt_trans (by norm_num) h.bulk
  have hK : hpK k T T = k := by simp [hpK]
  have hp : 0 < kbar P := by unfold kbar; positivity
  have hq1 : 1 < hpq k T (kbar P) T := by
    have : 0 < 4 * kbar P / k := by positivity
    simp only [hpq, hK]; linarith
  have hV : ref.V.val ≠ 0 := by
    intro h0
    have := h.vol
    rw [h0] at this
    norm_num at this
  have hx : 1 < hpq k T (kbar P) T ^ (0.75 : ℝ) := Real.one_lt_rpow hq1 (by norm_num)
  have hx' : hpq k T (kbar P) T ^ (0.75 : ℝ) - 1 ≠ 0 := by linarith
  simp only [hpG, hK, hpV, sub_self, mul_zero, add_zero, sub_zero, mul_one]
  positivity

namespace Engine

variable {base : Models PSolv ESolv} {env : Env PSolv ESolv} {N : Nat}

/-- At the reference point the Murnaghan equation adds nothing to G. -/
lemma transition_at {x : Subst} {l : LandauPar} (hx : Transition x l) {k a : ℝ} (hl : LandauOk l x.refT) (hTc : 0 < l.Tc x.refP) :
    (transitionTPS x k a x.refT x.refP).G.val = (okOr (empCpIntegration x.cpData x.refT)).G.val + l.dG x.refT k a x.refP x.refT := by
  obtain ⟨rest, hpar⟩ := hx.pars
  obtain ⟨v, hv⟩ := landau_ok x.refT x.refP x.refT l rest k a (okOr (empCpIntegration x.cpData x.refT))
  obtain ⟨g1, -, -⟩ := landau_incr x.refT x.refP x.refT l rest k a _ hl hTc v hv
  rw [← hpar] at hv
  unfold transitionTPS
  rw [hv, okOr, (murnaghan_vals_missing x.refT x.refP x.refT x.refP x.ref k a v (Or.inl ⟨rfl, rfl⟩)).2.1, g1]
  simp

/-- **C169 refuted at the reference point.**  For every mineral with a table of heat capacities, a Landau transition above its reference temperature and the
Murnaghan equation of state, whose data hang together: at the reference temperature G has a limit for pressures that go to the reference pressure, but at that
pressure another value is answered, less by the integral of the volume from zero pressure.  So there G has no slope in pressure at all, let alone V. -/
theorem C169_reference_refuted (hm : env.mods = real base) (h : Regular env N) (hfb : env.fallback = false) (hbb : bermanBrown env = false) {y : String}
    {x : Subst} (hy : env.db.subs.lookup y = some x) {l : LandauPar} (hx : Transition x l) {k a : ℝ} (hk : Murnaghan x k a) (hl : LandauOk l x.refT)
    (hs : Sound env x.refT x.refT x) (hP : 0 < x.refP) (hlt : x.refT < l.Tc x.refP) :
    ∃ f : ℝ → TPS, (∀ P, answer env N (.sub x.refT P y) = .ok (.sub (f P))) ∧
      Tendsto (fun P => (f P).G.val) (𝓝[≠] x.refP) (𝓝 ((f x.refP).G.val + hpG x.ref.V.val (a * 1e-5) k x.refT (kbar x.refP) x.refT)) ∧
      ¬ ContinuousAt (fun P => (f P).G.val) x.refP ∧ ∀ d, ¬ HasDerivAt (fun P => (f P).G.val) d x.refP := by
  have hk0 : 0 < k := lt_trans (by norm_num) hk.pars.bulk
  have hTc : 0 < l.Tc x.refP := hl.tr.trans hlt
  have hc : 1.5e-4 * (x.refT - x.refT) < 1 := by norm_num
  have hc' : (1 - 1.5e-4 * (x.refT - x.refT) : ℝ) ≠ 0 := by norm_num
  have hp : 0 < kbar x.refP := by unfold kbar; positivity
  have hq : 0 < hpq k x.refT (kbar x.refP) x.refT := by
    have hK : hpK k x.refT x.refT = k := by simp [hpK]
    simp only [hpq, hK]; positivity
  set e := okOr (empCpIntegration x.cpData x.refT) with he
  set g : ℝ → ℝ := fun P => e.G.val + l.dG x.refT k a P x.refT + hpG x.ref.V.val (a * 1e-5) k x.refT (kbar P) x.refT with hg
  have hkb : HasDerivAt kbar (1 / 1e5 / 1000) x.refP := ((hasDerivAt_id' _).div_const _).div_const _
  have hM := (hpG_deriv_p (V0 := x.ref.V.val) (a0 := a * 1e-5) hk0.ne' hc' hq).comp x.refP hkb
  have hcont : ContinuousAt g x.refP := (continuousAt_const.add (l.dG_deriv_P (a := a) hl hk0 hP hl.tr hlt hc).continuousAt).add hM.continuousAt
  have hcT : ContinuousAt l.Tc x.refP := by
    have : HasDerivAt l.Tc (l.Vmax / l.Smax * (1 / 1e5)) x.refP :=
      ((((hasDerivAt_id' _).div_const 1e5).const_mul (l.Vmax / l.Smax)).const_add l.Tc0).add_const 273.15
    exact this.continuousAt
  have off : ∀ᶠ P in 𝓝[≠] x.refP, (transitionTPS x k a x.refT P).G.val = g P := by
    filter_upwards [self_mem_nhdsWithin, (lt_mem_nhds hP).filter_mono nhdsWithin_le_nhds,
      (hcT.eventually (lt_mem_nhds hTc)).filter_mono nhdsWithin_le_nhds] with P h1 h2 h3
    exact (transition_vals hx hk hl hl.tr h3 h2 hc (Or.inl h1)).1
  have lim : Tendsto (fun P => (transitionTPS x k a x.refT P).G.val) (𝓝[≠] x.refP)
      (𝓝 ((transitionTPS x k a x.refT x.refP).G.val + hpG x.ref.V.val (a * 1e-5) k x.refT (kbar x.refP) x.refT)) := by
    rw [transition_at hx hl hTc]
    exact (hcont.tendsto.mono_left nhdsWithin_le_nhds).congr' (off.mono fun P h => h.symm)
  have key : ¬ ContinuousAt (fun P => (transitionTPS x k a x.refT P).G.val) x.refP := by
    intro hh
    have := tendsto_nhds_unique (hh.tendsto.mono_left nhdsWithin_le_nhds) lim
    exact hpG_ne (T := x.refT) hk.pars hP (by linarith)
  exact ⟨transitionTPS x k a x.refT, fun P => answer_transition hm h hfb hbb hy hx hk (mineral_ev hs).self_of_nhds P, lim, key, fun d hd => key hd.continuousAt⟩

/-- The mineral with the transition and the elastic constants of quartz, at 25 °C and 1 bar. -/
example : ∃ f : ℝ → TPS, (∀ P, answer (exSolidEnv (exQuartz exOrdered)) 4 (.sub 298.15 P "A") = .ok (.sub (f P))) ∧
    ∀ d, ¬ HasDerivAt (fun P => (f P).G.val) d 1e5 := by
  obtain ⟨h1, h2, h3, h4⟩ := exQuartz_ok exOrdered (T0 := 298.15) (by norm_num) (by norm_num)
  obtain ⟨f, a, -, -, b⟩ := C169_reference_refuted (base := noWater) rfl h4 rfl (exSolid_bb _) (y := "A") (x := exQuartz exOrdered) rfl h1 h2 exOrdered_ok h3
    (by show (0 : ℝ) < 1e5; norm_num) (by show (298.15 : ℝ) < exOrdered.Tc 1e5; norm_num [LandauPar.Tc, exOrdered])
  exact ⟨f, a, b⟩

/-- **C169 refuted at the reference point, in temperature.**  For the same minerals, whether they are above or below their transition: at the reference
pressure G has a limit for temperatures that go to the reference temperature, and there another value is answered.  So G has no slope in temperature at the
reference point either, let alone -S. -/
theorem C169_reference_temperature_refuted (hm : env.mods = real base) (h : Regular env N) (hfb : env.fallback = false) (hbb : bermanBrown env = false)
    {y : String} {x : Subst} (hy : env.db.subs.lookup y = some x) {l : LandauPar} (hx : Transition x l) {k a : ℝ} (hk : Murnaghan x k a)
    (hl : LandauOk l x.refT) (hs : Sound env x.refT x.refT x) (hP : 0 < x.refP) (hTc : 0 < l.Tc x.refP) :
    ∃ f : ℝ → TPS, (∀ᶠ T in 𝓝 x.refT, answer env N (.sub T x.refP y) = .ok (.sub (f T))) ∧
      Tendsto (fun T => (f T).G.val) (𝓝[≠] x.refT) (𝓝 ((f x.refT).G.val + hpG x.ref.V.val (a * 1e-5) k x.refT (kbar x.refP) x.refT)) ∧
      ¬ ContinuousAt (fun T => (f T).G.val) x.refT ∧ ∀ d, ¬ HasDerivAt (fun T => (f T).G.val) d x.refT := by
  obtain ⟨t, i, h1, h2, h3, h4, -⟩ := hs.table
  obtain ⟨-, -, d3⟩ := C29_reported_partial t h2 x.refT hl.tr x.ref TPS.default x.refT hl.tr i h3 h4
  rw [← h1.data] at d3
  have hk0 : 0 < k := lt_trans (by norm_num) hk.pars.bulk
  have hc : 1.5e-4 * (x.refT - x.refT) < 1 := by norm_num
  have hc' : (1 - 1.5e-4 * (x.refT - x.refT) : ℝ) ≠ 0 := by norm_num
  have hp : 0 < kbar x.refP := by unfold kbar; positivity
  have hq : 0 < hpq k x.refT (kbar x.refP) x.refT := by
    have hK : hpK k x.refT x.refT = k := by simp [hpK]
    simp only [hpq, hK]; positivity
  have hcont := (((d3.add (l.dG_deriv (a := a) hl hk0 hP hTc hl.tr hc)).add
    (hpG_deriv (V0 := x.ref.V.val) (a0 := a * 1e-5) hl.tr hk0.ne' hc' hq))).continuousAt
  have c1 : ∀ᶠ T in 𝓝 x.refT, 1.5e-4 * (T - x.refT) < 1 := by
    have : ContinuousAt (fun T : ℝ => 1.5e-4 * (T - x.refT)) x.refT := by fun_prop
    exact this.eventually (gt_mem_nhds hc)
  have lim : Tendsto (fun T => (transitionTPS x k a T x.refP).G.val) (𝓝[≠] x.refT)
      (𝓝 ((transitionTPS x k a x.refT x.refP).G.val + hpG x.ref.V.val (a * 1e-5) k x.refT (kbar x.refP) x.refT)) := by
    rw [transition_at hx hl hTc]
    refine (hcont.tendsto.mono_left nhdsWithin_le_nhds).congr' ?_
    filter_upwards [self_mem_nhdsWithin, (lt_mem_nhds hl.tr).filter_mono nhdsWithin_le_nhds, c1.filter_mono nhdsWithin_le_nhds] with T a1 a2 a3
    rw [(transition_vals hx hk hl a2 hTc hP a3 (Or.inr a1)).1]
    rfl
  have key : ¬ ContinuousAt (fun T => (transitionTPS x k a T x.refP).G.val) x.refT := by
    intro hh
    have := tendsto_nhds_unique (hh.tendsto.mono_left nhdsWithin_le_nhds) lim
    exact hpG_ne (T := x.refT) hk.pars hP (by linarith)
  refine ⟨fun T => transitionTPS x k a T x.refP, ?_, lim, key, fun d hd => key hd.continuousAt⟩
  filter_upwards [mineral_ev hs] with T hT
  exact answer_transition hm h hfb hbb hy hx hk hT _

/-- The same mineral. -/
example : ∃ f : ℝ → TPS, (∀ᶠ T in 𝓝 298.15, answer (exSolidEnv (exQuartz exOrdered)) 4 (.sub T 1e5 "A") = .ok (.sub (f T))) ∧
    ∀ d, ¬ HasDerivAt (fun T => (f T).G.val) d 298.15 := by
  obtain ⟨h1, h2, h3, h4⟩ := exQuartz_ok exOrdered (T0 := 298.15) (by norm_num) (by norm_num)
  obtain ⟨f, a, -, -, b⟩ := C169_reference_temperature_refuted (base := noWater) rfl h4 rfl (exSolid_bb _) (y := "A") (x := exQuartz exOrdered) rfl h1 h2
    exOrdered_ok h3 (by show (0 : ℝ) < 1e5; norm_num) (by show (0 : ℝ) < exOrdered.Tc 1e5; norm_num [LandauPar.Tc, exOrdered])
  exact ⟨f, a, b⟩

end Engine

end ThermoFun

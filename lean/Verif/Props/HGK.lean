import Verif.Props.WaterState
import Verif.Lemmas.Solve
import Verif.Lemmas.HGKLow

/-!
Properties C94 and C95, and C39 for it: the Haar–Gallagher–Kell Helmholtz function of water.
-/

namespace ThermoFun

open HGK
open Filter Topology

/-- The states at which the Haar–Gallagher–Kell function is defined: positive temperature and density, the hard-sphere volume below one
(the argument of the logarithm is positive), and the density away from the centres of the local terms of part 4, where the formulas divide
by zero. -/
structure HGKDomain (T D : ℝ) : Prop where
  hT : 0 < T
  hD : 0 < D
  y : (yy (T / 647.27) (D / 317.763)).f < 1
  r0 : D / 317.763 ≠ 1.0038928
  r3 : D / 317.763 ≠ 4.8778492

lemma HGKDomain.ri {T D : ℝ} (h : HGKDomain T D) : ∀ i < 4, D / 317.763 ≠ WP.el ri i := by
  have r0 : WP.el HGK.ri 0 = 1.0038928 := by norm_num [WP.el, HGK.ri]
  have r1 : WP.el HGK.ri 1 = 1.0038928 := by norm_num [WP.el, HGK.ri]
  have r2 : WP.el HGK.ri 2 = 1.0038928 := by norm_num [WP.el, HGK.ri]
  have r3 : WP.el HGK.ri 3 = 4.8778492 := by norm_num [WP.el, HGK.ri]
  intro i hi
  interval_cases i
  · rw [r0]; exact h.r0
  · rw [r1]; exact h.r0
  · rw [r2]; exact h.r0
  · rw [r3]; exact h.r3

lemma HGKDomain.jet {T D : ℝ} (h : HGKDomain T D) : Jet helmholtzFix T D := helmholtz_jet h.hT h.hD h.y h.ri

lemma HGKDomain.grad {T D : ℝ} (h : HGKDomain T D) : HelmGrad helmholtzFix T D :=
  ⟨h.jet.f, h.jet.fT, h.jet.fD, h.jet.fTD, h.jet.fDD⟩

/-- Water at 647.27 K and 1000 log 2 = 693 kg/m³. -/
lemma hgk_sample : HGKDomain 647.27 (1000 * Real.log 2) := by
  obtain ⟨d1, d2⟩ := dS_bounds
  have e : 1000 * Real.log 2 / 317.763 = dS := by simp only [dS, z0]; ring
  have t : (647.27 : ℝ) / 647.27 = 1 := by norm_num
  refine ⟨by norm_num, by have := Real.log_pos (one_lt_two (α := ℝ)); positivity, ?_, ?_, ?_⟩
  · rw [e, t, yy_S.1]; linarith [xS_bounds.2.2.2.1]
  · rw [e]; exact (by linarith : (1.0038928 : ℝ) < dS).ne'
  · rw [e]; exact (by linarith : dS < (4.8778492 : ℝ)).ne

/-! ### C94 -/

/-- **C94, the part that holds**: of the fields of the Haar–Gallagher–Kell state, those of the first and second order are the partial
derivatives of the Helmholtz function, and of the third order fDDD and fTTD.  Missing: fTDD and fTTT, which are wrong (`C94_refuted`). -/
theorem C94_partial (T D : ℝ) (h : HGKDomain T D) :
    Grad (fun T D => (helmholtz T D).f) (helmholtz T D).fT (helmholtz T D).fD T D ∧
    Grad (fun T D => (helmholtz T D).fT) (helmholtz T D).fTT (helmholtz T D).fTD T D ∧
    Grad (fun T D => (helmholtz T D).fD) (helmholtz T D).fTD (helmholtz T D).fDD T D ∧
    HasDerivAt (fun D => (helmholtz T D).fTT) (helmholtz T D).fTTD D ∧
    HasDerivAt (fun T => (helmholtz T D).fTD) (helmholtz T D).fTTD T ∧
    HasDerivAt (fun D => (helmholtz T D).fDD) (helmholtz T D).fDDD D := by
  have hj := h.jet
  have a := agree T D
  refine ⟨?_, ?_, ?_, ?_, ?_, ?_⟩
  · simp only [(agree _ _).f, a.fT, a.fD]; exact hj.f
  · simp only [(agree _ _).fT, a.fTT, a.fTD]; exact hj.fT
  · simp only [(agree _ _).fD, a.fTD, a.fDD]; exact hj.fD
  · simp only [(agree _ _).fTT, a.fTTD]; exact hj.fTT.dy
  · simp only [(agree _ _).fTD, a.fTTD]; exact hj.fTD.dx
  · simp only [(agree _ _).fDD, a.fDDD]; exact hj.fDD.dy

/-- The hypothesis of `C94_partial`. -/
example : HGKDomain 647.27 (1000 * Real.log 2) := hgk_sample

lemma hgk_gap : (helmholtzFix 647.27 (1000 * Real.log 2)).fTDD < (helmholtz 647.27 (1000 * Real.log 2)).fTDD ∧
    (helmholtzFix 647.27 (1000 * Real.log 2)).fTTT < (helmholtz 647.27 (1000 * Real.log 2)).fTTT := by
  have e : 1000 * Real.log 2 / 317.763 = dS := by simp only [dS, z0]; ring
  have t : (647.27 : ℝ) / 647.27 = 1 := by norm_num
  obtain ⟨g1, g2⟩ := reduced_gap
  constructor <;> simp only [helmholtz, helmholtzFix, dimensioned, e, t] <;> refine mul_lt_mul_of_pos_right ?_ (by norm_num) <;> linarith

/-- **C94 fails for the Haar–Gallagher–Kell function**: at 647.27 K and 693 kg/m³ the field fTDD is not the derivative of fTD by the density,
nor that of fDD by the temperature, and fTTT is not the derivative of fTT by the temperature. -/
theorem C94_refuted : ∃ T D : ℝ, HGKDomain T D ∧
    ¬ HasDerivAt (fun D => (helmholtz T D).fTD) (helmholtz T D).fTDD D ∧
    ¬ HasDerivAt (fun T => (helmholtz T D).fDD) (helmholtz T D).fTDD T ∧
    ¬ HasDerivAt (fun T => (helmholtz T D).fTT) (helmholtz T D).fTTT T := by
  refine ⟨647.27, 1000 * Real.log 2, hgk_sample, fun h => ?_, fun h => ?_, fun h => ?_⟩
  · simp only [(agree _ _).fTD] at h
    exact hgk_gap.1.ne (hgk_sample.jet.fTD.dy.unique h)
  · simp only [(agree _ _).fDD] at h
    exact hgk_gap.1.ne (hgk_sample.jet.fDD.dx.unique h)
  · simp only [(agree _ _).fTT] at h
    exact hgk_gap.2.ne (hgk_sample.jet.fTT.dx.unique h)

/-! ### C39 for the Haar–Gallagher–Kell function -/

/-- Around every state with dP/dD ≠ 0 the pressure equation has a continuous solution. -/
lemma hgk_solves {T D0 : ℝ} (h : HGKDomain T D0) (h0 : 2 * D0 * (helmholtz T D0).fD + D0 * D0 * (helmholtz T D0).fDD ≠ 0) :
    ∃ D : ℝ → ℝ → ℝ, D T (D0 ^ 2 * (helmholtz T D0).fD) = D0 ∧ SolvesP helmholtz D T (D0 ^ 2 * (helmholtz T D0).fD) := by
  have hj := h.jet
  have cy : ContinuousAt (fun q : ℝ × ℝ => (yy (q.1 / 647.27) (q.2 / 317.763)).f) (T, D0) := by
    have hd : D0 / 317.763 ≠ 0 := by have := h.hD; positivity
    have ht : T / 647.27 ≠ 0 := by have := h.hT; positivity
    have h1 : ContinuousAt (fun q : ℝ × ℝ => q.1 / 647.27) (T, D0) := by fun_prop
    have h2 : ContinuousAt (fun q : ℝ × ℝ => q.2 / 317.763) (T, D0) := by fun_prop
    exact h2.mul (((continuousAt_const.add (continuousAt_const.mul (h1.log ht))).add (continuousAt_const.mul (h1.zpow₀ (-3) (Or.inl ht)))).add
      (continuousAt_const.mul (h1.zpow₀ (-5) (Or.inl ht))))
  have hev : ∀ᶠ q : ℝ × ℝ in 𝓝 (T, D0), HGKDomain q.1 q.2 := by
    have c1 : ContinuousAt (fun q : ℝ × ℝ => q.1) (T, D0) := continuousAt_fst
    have c2 : ContinuousAt (fun q : ℝ × ℝ => q.2) (T, D0) := continuousAt_snd
    have c3 : ContinuousAt (fun q : ℝ × ℝ => q.2 / 317.763) (T, D0) := by fun_prop
    filter_upwards [c1.eventually_const_lt h.hT, c2.eventually_const_lt h.hD, c3.eventually_ne h.r0, c3.eventually_ne h.r3, cy.eventually_lt_const h.y]
      with q a b c d e
    exact ⟨a, b, e, c, d⟩
  have cD : ContinuousAt (fun q : ℝ × ℝ => (helmholtzFix q.1 q.2).fD) (T, D0) := hj.fD.continuousAt
  have cTD : ContinuousAt (fun q : ℝ × ℝ => (helmholtzFix q.1 q.2).fTD) (T, D0) := hj.fTD.continuousAt
  have cDD : ContinuousAt (fun q : ℝ × ℝ => (helmholtzFix q.1 q.2).fDD) (T, D0) := hj.fDD.continuousAt
  have c2 : ContinuousAt (fun q : ℝ × ℝ => q.2) (T, D0) := continuousAt_snd
  rw [(agree _ _).fD, (agree _ _).fDD] at h0
  obtain ⟨v, hv, hv0, hv1, hv2⟩ := Grad.solve (g := fun T D => D ^ 2 * (helmholtzFix T D).fD) (a := fun T D => D * D * (helmholtzFix T D).fTD)
    (b := fun T D => 2 * D * (helmholtzFix T D).fD + D * D * (helmholtzFix T D).fDD) (x := T) (y := D0)
    (hev.mono fun q hq => pressure_grad hq.grad) ((c2.mul c2).mul cTD)
    (((c2.const_mul 2).mul cD).add ((c2.mul c2).mul cDD)) h0
  simp only [(agree _ _).fD]
  exact ⟨v, hv0, hv, by simp only [(agree _ _).fD]; exact hv1⟩

/-- What of C39 holds for the Haar–Gallagher–Kell function: all but the derivatives of dD/dT and the derivative of dD/dP by the temperature. -/
structure WaterConsistent1 (w : ℝ → ℝ → WState) (T P : ℝ) : Prop where
  rho : Grad (fun t p => (w t p).density) (w T P).densityT (w T P).densityP T P
  rhoPP : HasDerivAt (fun p => (w T p).densityP) (w T P).densityPP P
  gibbs : Grad (fun t p => (w t p).gibbs) (-(w T P).entropy) (w T P).volume T P
  entropy : Grad (fun t p => (w t p).entropy) ((w T P).cp / T) ((w T P).densityT / (w T P).density ^ 2) T P
  enthalpy : HasDerivAt (fun t => (w t P).enthalpy) (w T P).cp T
  G : (w T P).gibbs = (w T P).enthalpy - T * (w T P).entropy
  H : (w T P).enthalpy = (w T P).internalEnergy + P / (w T P).density
  U : (w T P).internalEnergy = (w T P).helmholtz + T * (w T P).entropy
  mayer : (w T P).cp - (w T P).cv = T * (w T P).pressureT ^ 2 / ((w T P).density ^ 2 * (w T P).pressureD)

section
variable {D : ℝ → ℝ → ℝ} {T P : ℝ}

lemma hgk_fix (h : HGKDomain T (D T P)) (hs : SolvesP helmholtz D T P) (h0 : (waterThermoState T P (D T P) (helmholtz T (D T P))).pressureD ≠ 0)
    (h1 : (waterThermoState T P (D T P) (helmholtz T (D T P))).densityT ≠ 0) :
    WaterConsistent (fun t p => waterThermoState t p (D t p) (helmholtzFix t (D t p))) T P := by
  have hs' : SolvesP helmholtzFix D T P := ⟨hs.cont, by have := hs.eq; simp only [(agree _ _).fD] at this; exact this⟩
  refine C39_partial helmholtzFix D T P h.hT.ne' h.grad hs' h.hD.ne' ?_ ?_
  · simpa only [waterThermoState, (agree _ _).fD, (agree _ _).fDD] using h0
  · simpa only [waterThermoState, (agree _ _).fD, (agree _ _).fDD, (agree _ _).fTD] using h1

end

/-- **C39 for the Haar–Gallagher–Kell function, the part that holds**: around every state (T, D0) of the domain with dP/dD ≠ 0 and dD/dT ≠ 0
there is a continuous density D(T, P) that solves the pressure equation, and for every such density the water state is consistent up to the
first derivatives of the density.  Missing: densityTT and densityTP, which are wrong (`C39_hgk_refuted`). -/
theorem C39_hgk_partial (T D0 : ℝ) (h : HGKDomain T D0) :
    let P := D0 ^ 2 * (helmholtz T D0).fD
    let s := waterThermoState T P D0 (helmholtz T D0)
    s.pressureD ≠ 0 → s.densityT ≠ 0 → (∃ D : ℝ → ℝ → ℝ, D T P = D0 ∧ SolvesP helmholtz D T P) ∧
      ∀ D : ℝ → ℝ → ℝ, D T P = D0 → SolvesP helmholtz D T P →
        WaterConsistent1 (fun t p => waterThermoState t p (D t p) (helmholtz t (D t p))) T P := by
  intro P s h0 h1
  refine ⟨hgk_solves h h0, fun D hD hs => ?_⟩
  have c := hgk_fix (D := D) (T := T) (P := P) (by rw [hD]; exact h) hs (by rw [hD]; exact h0) (by rw [hD]; exact h1)
  have a := fun t p => agree t (D t p)
  obtain ⟨c1, c2, c3, c4, c5, c6, c7, c8, c9, c10⟩ := c
  constructor <;> simp only [waterThermoState, (agree _ _).f, (agree _ _).fT, (agree _ _).fD, (agree _ _).fTT, (agree _ _).fTD, (agree _ _).fDD,
    (agree _ _).fTTD, (agree _ _).fDDD]
  · exact c1
  · exact c3.dy
  · exact c4
  · exact c5
  · exact c6
  · exact c10

/-- The sample state has dP/dD > 0 and dP/dT > 0. -/
lemma hgk_sample_pressure : 0 < 2 * (1000 * Real.log 2) * (helmholtz 647.27 (1000 * Real.log 2)).fD +
      1000 * Real.log 2 * (1000 * Real.log 2) * (helmholtz 647.27 (1000 * Real.log 2)).fDD ∧
    0 < 1000 * Real.log 2 * (1000 * Real.log 2) * (helmholtz 647.27 (1000 * Real.log 2)).fTD := by
  have e : 1000 * Real.log 2 / 317.763 = dS := by simp only [dS, z0]; ring
  have e' : 1000 * Real.log 2 = 317.763 * dS := by rw [← e]; ring
  have t : (647.27 : ℝ) / 647.27 = 1 := by norm_num
  have hd : 0 < dS := by linarith [dS_bounds.1]
  simp only [helmholtz, dimensioned, e, t]
  rw [e']
  constructor
  · have := reduced_PD
    nlinarith
  · have := reduced_TD
    positivity

/-- The hypotheses of `C39_hgk_partial`. -/
example : HGKDomain 647.27 (1000 * Real.log 2) ∧
    (waterThermoState 647.27 ((1000 * Real.log 2) ^ 2 * (helmholtz 647.27 (1000 * Real.log 2)).fD) (1000 * Real.log 2)
      (helmholtz 647.27 (1000 * Real.log 2))).pressureD ≠ 0 ∧
    (waterThermoState 647.27 ((1000 * Real.log 2) ^ 2 * (helmholtz 647.27 (1000 * Real.log 2)).fD) (1000 * Real.log 2)
      (helmholtz 647.27 (1000 * Real.log 2))).densityT ≠ 0 :=
  ⟨hgk_sample, hgk_sample_pressure.1.ne', div_ne_zero (neg_ne_zero.mpr hgk_sample_pressure.2.ne') hgk_sample_pressure.1.ne'⟩

/-- **C39 fails for the Haar–Gallagher–Kell function**: at 647.27 K and 693 kg/m³ dP/dD and dD/dT are not zero and a density solution exists, and
for every one densityTP is neither the derivative of densityP by the temperature nor that of densityT by the pressure, and densityTT is not the
derivative of densityT by the temperature. -/
theorem C39_hgk_refuted : ∃ T D0 : ℝ, HGKDomain T D0 ∧
    let P := D0 ^ 2 * (helmholtz T D0).fD
    let s := waterThermoState T P D0 (helmholtz T D0)
    s.pressureD ≠ 0 ∧ s.densityT ≠ 0 ∧ (∃ D : ℝ → ℝ → ℝ, D T P = D0 ∧ SolvesP helmholtz D T P) ∧
    ∀ D : ℝ → ℝ → ℝ, D T P = D0 → SolvesP helmholtz D T P →
      let w := fun t p => waterThermoState t p (D t p) (helmholtz t (D t p))
      ¬ HasDerivAt (fun t => (w t P).densityP) (w T P).densityTP T ∧
      ¬ HasDerivAt (fun p => (w T p).densityT) (w T P).densityTP P ∧
      ¬ HasDerivAt (fun t => (w t P).densityT) (w T P).densityTT T := by
  refine ⟨647.27, 1000 * Real.log 2, hgk_sample, ?_⟩
  intro P s
  obtain ⟨p1, p2⟩ := hgk_sample_pressure
  have h0 : s.pressureD ≠ 0 := p1.ne'
  have h1 : s.densityT ≠ 0 := div_ne_zero (neg_ne_zero.mpr p2.ne') p1.ne'
  refine ⟨h0, h1, hgk_solves hgk_sample h0, fun D hD hs => ?_⟩
  intro w
  have c := hgk_fix (D := D) (T := 647.27) (P := P) (by rw [hD]; exact hgk_sample) hs (by rw [hD]; exact h0) (by rw [hD]; exact h1)
  have g := hgk_gap.1
  have a := agree 647.27 (1000 * Real.log 2)
  set F := helmholtz 647.27 (1000 * Real.log 2) with hF
  set F' := helmholtzFix 647.27 (1000 * Real.log 2) with hF'
  have hpos : 0 < 1000 * Real.log 2 := by have := Real.log_pos (one_lt_two (α := ℝ)); positivity
  set d := 1000 * Real.log 2 with hd
  have eTP : (w 647.27 P).densityTP ≠ (waterThermoState 647.27 P (D 647.27 P) (helmholtzFix 647.27 (D 647.27 P))).densityTP := by
    simp only [w, hD, waterThermoState, ← hF, ← hF']
    rw [← a.fD, ← a.fDD, ← a.fTD, ← a.fDDD]
    intro e
    have hq := p1
    set q := 2 * d * F.fD + d * d * F.fDD
    have : (1 / q * (1 / q)) * (d * d) * (F.fTDD - F'.fTDD) = 0 := by linarith
    have : 0 < (1 / q * (1 / q)) * (d * d) * (F.fTDD - F'.fTDD) := by
      have : 0 < F.fTDD - F'.fTDD := by linarith
      positivity
    linarith
  have eTT : (w 647.27 P).densityTT ≠ (waterThermoState 647.27 P (D 647.27 P) (helmholtzFix 647.27 (D 647.27 P))).densityTT := by
    simp only [w, hD, waterThermoState, ← hF, ← hF']
    rw [← a.fD, ← a.fDD, ← a.fTD, ← a.fDDD, ← a.fTTD]
    intro e
    have hq := p1
    have hp := p2
    set q := 2 * d * F.fD + d * d * F.fDD
    set p := d * d * F.fTD
    have : (p / q) * (1 / q) * (d * d) * (F.fTDD - F'.fTDD) = 0 := by
      rw [neg_div] at e
      linarith
    have : 0 < (p / q) * (1 / q) * (d * d) * (F.fTDD - F'.fTDD) := by
      have : 0 < F.fTDD - F'.fTDD := by linarith
      positivity
    linarith
  refine ⟨fun h => eTP ?_, fun h => eTP ?_, fun h => eTT ?_⟩
  · refine h.unique ?_
    have := c.rhoP.dx
    simp only [w, waterThermoState, (agree _ _).fD, (agree _ _).fDD] at this ⊢
    exact this
  · refine h.unique ?_
    have := c.rhoT.dy
    simp only [w, waterThermoState, (agree _ _).fD, (agree _ _).fDD, (agree _ _).fTD] at this ⊢
    exact this
  · refine h.unique ?_
    have := c.rhoT.dx
    simp only [w, waterThermoState, (agree _ _).fD, (agree _ _).fDD, (agree _ _).fTD] at this ⊢
    exact this

/-! ### C95 -/

/-- **C95 for the Haar–Gallagher–Kell function**: at every temperature, as the density tends to zero, P/(D R T) tends to 1, dP/dD to R T and
dP/dT/(D R) to 1, with the gas constant R = 69595.89 · 4.2923415 / 647.27 = 461.526 J/(kg K) of the equation. -/
theorem C95_hgk (T : ℝ) (hT : 0 < T) :
    let R : ℝ := 69595.89 * 4.2923415 / 647.27
    Tendsto (fun D => D ^ 2 * (helmholtz T D).fD / (D * R * T)) (𝓝[>] 0) (𝓝 1) ∧
    Tendsto (fun D => (waterThermoState T (D ^ 2 * (helmholtz T D).fD) D (helmholtz T D)).pressureD) (𝓝[>] 0) (𝓝 (R * T)) ∧
    Tendsto (fun D => (waterThermoState T (D ^ 2 * (helmholtz T D).fD) D (helmholtz T D)).pressureT / (D * R)) (𝓝[>] 0) (𝓝 1) := by
  intro R
  have hR : R ≠ 0 := by norm_num [R]
  have hl := reduced_lim (t := T / 647.27) (by positivity)
  have hs : Tendsto (fun D : ℝ => D / 317.763) (𝓝[>] 0) (𝓝[>] 0) := by
    refine tendsto_nhdsWithin_iff.mpr ⟨?_, ?_⟩
    · simpa using WP.tendsto_id0.div_const 317.763
    · filter_upwards [self_mem_nhdsWithin] with D hD
      exact div_pos (show (0 : ℝ) < D from hD) (by norm_num : (0 : ℝ) < 317.763)
  have h1 := hl.fD.comp hs
  have h2 := hl.fDD.comp hs
  have h3 := hl.fTD.comp hs
  refine ⟨?_, ?_, ?_⟩
  · have := h1.mul_const (69595.89 / (R * T))
    have e : A20 * (T / 647.27) * (69595.89 / (R * T)) = 1 := by simp only [A20, R]; field_simp
    rw [e] at this
    refine this.congr' ?_
    filter_upwards [self_mem_nhdsWithin] with D hD
    have hD' : (D : ℝ) ≠ 0 := (show (0 : ℝ) < D from hD).ne'
    simp only [Function.comp, helmholtz, dimensioned]
    field_simp
  · have := ((h1.const_mul 2).add h2).mul_const 69595.89
    have e : (2 * (A20 * (T / 647.27)) + -(A20 * (T / 647.27))) * 69595.89 = R * T := by simp only [A20, R]; ring
    rw [e] at this
    refine this.congr' ?_
    filter_upwards [self_mem_nhdsWithin] with D hD
    have hD' : (D : ℝ) ≠ 0 := (show (0 : ℝ) < D from hD).ne'
    simp only [Function.comp, waterThermoState, helmholtz, dimensioned]
    field_simp
  · have := h3.mul_const (69595.89 / 647.27 / R)
    have e : A20 * (69595.89 / 647.27 / R) = 1 := by norm_num [A20, R]
    rw [e] at this
    refine this.congr' ?_
    filter_upwards [self_mem_nhdsWithin] with D hD
    have hD' : (D : ℝ) ≠ 0 := (show (0 : ℝ) < D from hD).ne'
    simp only [Function.comp, waterThermoState, helmholtz, dimensioned]
    field_simp

/-- The hypothesis of `C95_hgk`. -/
example : (0 : ℝ) < 373.15 := by norm_num

end ThermoFun

import Verif.Lemmas.CorkGas
import Verif.Props.GasT

/-!
Gases other than H2O and CO2 in the CORK model: the corresponding-states equation.
-/

namespace ThermoFun.Cork

open Topology Filter
open Gas (Fug EntropyOK HeatOK)

lemma calc_in {m : Kind} {lo T P : ℝ} {k : Nat → ℝ} (h1 : lo ≤ T) (h2 : T < 1e4) (h3 : 1e-5 ≤ P) (h4 : P < 1e5) :
    calcFugPure m lo T P k = fugacityPT m T P k := by
  unfold calcFugPure
  rw [if_pos ⟨h1, h2, h3, h4⟩]

lemma calc_T {m : Kind} {lo T P : ℝ} {k : Nat → ℝ} (h1 : lo < T) (h2 : T < 1e4) (h3 : 1e-5 ≤ P) (h4 : P < 1e5) :
    ∀ᶠ t in 𝓝 T, calcFugPure m lo t P k = fugacityPT m t P k := by
  filter_upwards [lt_mem_nhds h1, gt_mem_nhds h2] with t ht1 ht2
  exact calc_in ht1.le ht2 h3 h4

lemma calc_P {m : Kind} {lo T P : ℝ} {k : Nat → ℝ} (h1 : lo ≤ T) (h2 : T < 1e4) (h3 : 1e-5 < P) (h4 : P < 1e5) :
    ∀ᶠ p in 𝓝 P, calcFugPure m lo T p k = fugacityPT m T p k := by
  filter_upwards [lt_mem_nhds h3, gt_mem_nhds h4] with t ht1 ht2
  exact calc_in h1 h2 ht1.le ht2

/-- **C113** (fugacity and volume): for a gas other than H2O and CO2, inside the range of temperatures and pressures in which the model is used, the
residual Gibbs energy is RT ln φ and its derivative with respect to pressure is the volume minus that of the ideal gas. -/
theorem C113_volume (lo T P : ℝ) (k : Nat → ℝ) (h0 : 0 < T) (h1 : lo ≤ T) (h2 : T < 1e4) (h3 : 1e-5 < P) (h4 : P < 1e5) (hPc : 0 < k 1)
    (hTc : 0 < k 0) :
    ∃ f : ℝ → Fug, (∀ᶠ p in 𝓝 P, calcFugPure .gas lo T p k = some (f p) ∧ 0 < (f p).phi ∧ (f p).g = Rgas * T * Real.log (f p).phi) ∧
      HasDerivAt (fun p => (f p).g) ((f P).v - Rgas * T / P) P := by
  have hR := RRpos
  have hP : 0 < P := by linarith [show (0 : ℝ) < 1e-5 by norm_num]
  have hb : 0 < bC (k 0) (k 1 / 1000) := by unfold bC; positivity
  refine ⟨fun p => fugacityCorresponding T (p / 1000) (k 0) (k 1), ?_, ?_⟩
  · filter_upwards [calc_P (m := .gas) (k := k) h1 h2 h3 h4, lt_mem_nhds hP] with p hp hp0
    have hK : 0 < p / 1000 := by positivity
    exact ⟨hp, (corr_g h0 hK).2.1, (corr_g h0 hK).1⟩
  · have hK : 0 < P / 1000 := by positivity
    have d := ((gc_K (a := aC (k 0) (k 1 / 1000) T) (c := cC (k 0) (k 1 / 1000) T) (d := dC (k 0) (k 1 / 1000) T) hR hb h0 hK).comp P
      ((hasDerivAt_id' P).div_const 1000)).const_mul 1000
    refine (d.congr_of_eventuallyEq ?_).congr_deriv ?_
    · filter_upwards [lt_mem_nhds hP] with p hp0
      exact (corr_g h0 (by positivity : 0 < p / 1000)).2.2
    · rw [corr_v, Rgas_RR]
      field_simp
      ring

/-- **C113** (temperature): the residual entropy is minus the temperature derivative of the residual Gibbs energy, H = G + TS, and the residual heat
capacity is the temperature derivative of the residual enthalpy. -/
theorem C113_temperature (lo T P : ℝ) (k : Nat → ℝ) (h0 : 0 < T) (h1 : lo < T) (h2 : T < 1e4) (h3 : 1e-5 ≤ P) (h4 : P < 1e5) (hPc : 0 < k 1)
    (hTc : 0 < k 0) :
    EntropyOK (fun t => calcFugPure .gas lo t P k) T ∧ HeatOK (fun t => calcFugPure .gas lo t P k) T := by
  have hR := RRpos
  have hP : 0 < P := by linarith [show (0 : ℝ) < 1e-5 by norm_num]
  have hb : 0 < bC (k 0) (k 1 / 1000) := by unfold bC; positivity
  have hK : 0 < P / 1000 := by positivity
  have ev : ∀ᶠ t in 𝓝 T, calcFugPure .gas lo t P k = some (fugacityCorresponding t (P / 1000) (k 0) (k 1)) := calc_T h1 h2 h3 h4
  constructor
  · obtain ⟨h, e1, e2⟩ := corr_s (T := T) (K := P / 1000) (tc := k 0) (pc := k 1)
    refine ⟨fun t => fugacityCorresponding t (P / 1000) (k 0) (k 1), h, _, ev, e1, e2, ?_, ?_⟩
    · have d := (gc_T hR hb h0 hK (aC_d (k 0) (k 1 / 1000) T) (cC_d (k 0) (k 1 / 1000) T) (dC_d (k 0) (k 1 / 1000) T)).const_mul 1000
      refine (d.congr_of_eventuallyEq ?_).congr_deriv ?_
      · filter_upwards [lt_mem_nhds h0] with t ht
        exact (corr_g ht hK).2.2
      · rw [corr_h h0 hK hTc hPc] at e1
        rw [(corr_g h0 hK).2.2, ← Option.some.inj e1]
        ring
    · field_simp; ring
  · refine ⟨fun t => fugacityCorresponding t (P / 1000) (k 0) (k 1), fun t => 1000 * hc RR (bC (k 0) (k 1 / 1000)) (aC (k 0) (k 1 / 1000) t)
      (daC (k 0) (k 1 / 1000)) (cC (k 0) (k 1 / 1000) t) (dcC (k 1 / 1000)) (dC (k 0) (k 1 / 1000) t) (ddC (k 1 / 1000)) t (P / 1000), ?_, ?_⟩
    · filter_upwards [ev, lt_mem_nhds h0] with t ht ht0
      exact ⟨ht, corr_h ht0 hK hTc hPc⟩
    · rw [corr_cp h0 hK hTc hPc]
      exact (hc_T hR hb h0 hK (aC_d (k 0) (k 1 / 1000) T) (cC_d (k 0) (k 1 / 1000) T) (dC_d (k 0) (k 1 / 1000) T)).const_mul 1000

/-- **C113** (ideal limit): the fugacity coefficient tends to 1 as the pressure goes to 0. -/
theorem C113_limit (T : ℝ) (k : Nat → ℝ) (h0 : 0 < T) (hPc : 0 < k 1) (hTc : 0 < k 0) :
    ∃ f : ℝ → Fug, (∀ p, fugacityPT .gas T p k = some (f p)) ∧ Tendsto (fun p => (f p).phi) (𝓝[>] 0) (𝓝 1) := by
  have hR := RRpos
  refine ⟨fun p => fugacityCorresponding T (p / 1000) (k 0) (k 1), fun p => rfl, ?_⟩
  have hb : 0 < bC (k 0) (k 1 / 1000) := by unfold bC; positivity
  have hg : ContinuousAt (fun p : ℝ => Real.exp (1000 * gc RR (bC (k 0) (k 1 / 1000)) (aC (k 0) (k 1 / 1000) T) (cC (k 0) (k 1 / 1000) T)
      (dC (k 0) (k 1 / 1000) T) T (p / 1000) / (Rgas * T))) 0 := by
    unfold gc
    have n1 : RR * T + bC (k 0) (k 1 / 1000) * (0 / 1000) ≠ 0 := by rw [zero_div, mul_zero, add_zero]; positivity
    have n2 : RR * T + 2 * bC (k 0) (k 1 / 1000) * (0 / 1000) ≠ 0 := by rw [zero_div, mul_zero, add_zero]; positivity
    fun_prop (disch := assumption)
  have e0 : Real.exp (1000 * gc RR (bC (k 0) (k 1 / 1000)) (aC (k 0) (k 1 / 1000) T) (cC (k 0) (k 1 / 1000) T)
      (dC (k 0) (k 1 / 1000) T) T (0 / 1000) / (Rgas * T)) = 1 := by
    unfold gc; simp
  have := hg.tendsto
  rw [e0] at this
  refine (this.mono_left nhdsWithin_le_nhds).congr' ?_
  filter_upwards [self_mem_nhdsWithin] with p hp
  have hp : 0 < p := hp
  obtain ⟨g1, g2, g3⟩ := corr_g (tc := k 0) (pc := k 1) h0 (by positivity : 0 < p / 1000)
  have hRg : 0 < Rgas := Gas.Rpos
  rw [← g3, g1, mul_div_cancel_left₀ _ (by positivity), Real.exp_log g2]

/-- The critical temperature and pressure of methane. -/
noncomputable def exCH4 : Nat → ℝ := fun i => if i = 0 then 190.6 else if i = 1 then 46 else 0

/-- Methane at 400 K and 5000 bar meets the hypotheses of the three theorems. -/
example : (0 : ℝ) < 400 ∧ (298.15 : ℝ) < 400 ∧ (400 : ℝ) < 1e4 ∧ (1e-5 : ℝ) < 5000 ∧ (5000 : ℝ) < 1e5 ∧ 0 < exCH4 1 ∧ 0 < exCH4 0 := by
  unfold exCH4; norm_num

/-- The residual volume is not 0 there: the fugacity coefficient is not that of the ideal gas. -/
example : (fugacityCorresponding 1 1 1 1000).v ≠ RR * 1 / 1 := by
  unfold fugacityCorresponding RR
  norm_num

end ThermoFun.Cork

import Verif.Props.FluidReference
import Verif.Props.GasRefAny
import Verif.Props.GasContinuity

/-!
C172 for CORK and Sterner-Pitzer fluids at the lower temperature limit of a record, below which they are taken to be ideal gases.
-/

open Filter Topology

namespace ThermoFun.Gas

/-- Residual enthalpy and entropy of a model, as functions of temperature, exist near a temperature and are continuous there. -/
def HeatContinuous (fug : ℝ → Fug → Prop) (T : ℝ) : Prop :=
  ∃ (f : ℝ → Fug) (h s : ℝ → ℝ), (∀ᶠ t in 𝓝 T, fug t (f t) ∧ (f t).h = some (h t) ∧ (f t).s = some (s t)) ∧ ContinuousAt h T ∧ ContinuousAt s T

lemma not_heat {fug : ℝ → Fug → Prop} {T g : ℝ} (hg : g ≠ 0) (hb : ∀ t f, t < T → fug t f → f.h = some 0 ∧ f.s = some 0)
    (hT : ∀ f h s, fug T f → f.h = some h → f.s = some s → h - T * s = g) : ¬ HeatContinuous fug T := by
  rintro ⟨f, h, s, ev, ch, cs⟩
  have ev' : ∀ᶠ t in 𝓝[<] T, h t = 0 ∧ s t = 0 := by
    filter_upwards [ev.filter_mono nhdsWithin_le_nhds, self_mem_nhdsWithin] with t ht hl
    obtain ⟨h1, h2⟩ := hb t _ hl ht.1
    exact ⟨Option.some.inj (ht.2.1.symm.trans h1), Option.some.inj (ht.2.2.symm.trans h2)⟩
  have e1 : h T = 0 := tendsto_nhds_unique (ch.tendsto.mono_left nhdsWithin_le_nhds)
    ((tendsto_const_nhds (x := (0 : ℝ))).congr' (ev'.mono fun t ht => ht.1.symm) : Tendsto h (𝓝[<] T) (𝓝 0))
  have e2 : s T = 0 := tendsto_nhds_unique (cs.tendsto.mono_left nhdsWithin_le_nhds)
    ((tendsto_const_nhds (x := (0 : ℝ))).congr' (ev'.mono fun t ht => ht.2.symm) : Tendsto s (𝓝[<] T) (𝓝 0))
  obtain ⟨h1, h2, h3⟩ := ev.self_of_nhds
  have := hT _ _ _ h1 h2 h3
  rw [e1, e2] at this
  exact hg (by linarith)

/-- **C172** fails for CORK fluids at the lower temperature limit of every record: below it the residual enthalpy and entropy are zero, and wherever the fugacity coefficient at the limit is
not 1, they do not both tend to the values there. -/
theorem C172_cork_limit_refuted (m : Cork.Kind) (lo P : ℝ) (k : Nat → ℝ) (hlo : 0 < lo) (hP : 0 < P) (f : Fug) (hf : Cork.calcFugPure m lo lo P k = some f) (hphi : f.phi ≠ 1) :
    ¬ HeatContinuous (fun t f => Cork.calcFugPure m lo t P k = some f) lo := by
  have td := Cork.tied hP hf
  have hg : f.g ≠ 0 := by
    rw [td.g]
    exact mul_ne_zero (mul_pos Rpos hlo).ne' (Real.log_ne_zero_of_pos_of_ne_one td.phi hphi)
  refine not_heat hg (fun t f ht h => ?_) fun f' h s hf' hh hs => ?_
  · unfold Cork.calcFugPure at h
    rw [if_neg fun e => absurd e.1 (not_le.mpr ht)] at h
    rw [← Option.some.inj h]
    exact ⟨rfl, rfl⟩
  · obtain rfl : f' = f := Option.some.inj (hf'.symm.trans hf)
    rw [td.s h s hh hs, mul_div_cancel₀ _ hlo.ne', sub_sub_cancel]

/-- **C172** fails for Sterner-Pitzer fluids in the same way. -/
theorem C172_stp_limit_refuted (m : Stp.Fluid) (lo P : ℝ) (k : Nat → ℝ) (hlo : 0 < lo) (f : Fug) (hf : Stp.calcFugPure m lo lo P k = .ok (some f)) (hphi : f.phi ≠ 1) :
    ¬ HeatContinuous (fun t f => Stp.calcFugPure m lo t P k = .ok (some f)) lo := by
  have td := Stp.tied hf
  have hg : f.g ≠ 0 := by
    rw [td.g]
    exact mul_ne_zero (mul_pos Rpos hlo).ne' (Real.log_ne_zero_of_pos_of_ne_one td.phi hphi)
  refine not_heat hg (fun t f ht h => ?_) fun f' h s hf' hh hs => ?_
  · unfold Stp.calcFugPure at h
    rw [if_neg fun e => absurd e.1 (not_le.mpr ht)] at h
    cases h
    exact ⟨rfl, rfl⟩
  · have : f' = f := by
      have := hf'.symm.trans hf
      injection this with this
      exact Option.some.inj this
    subst this
    obtain ⟨h', s', h1, h2, h3⟩ := td.s
    rw [hh] at h1
    rw [hs] at h2
    rw [Option.some.inj h1, Option.some.inj h2, h3]
    ring

/-- **C172** fails for the three cubic gas models as well, also where the equation has several volumes: at the lower temperature limit of every record H and S do not both tend to their values
there, wherever the fugacity coefficient is not 1 (nor e¹⁰⁰⁰, which stands for the lack of a root above the volume of the molecules). -/
theorem C172_heat_limit_refuted (m : Eos) (lo P : ℝ) (k : Nat → ℝ) (hlo : 0 < lo) (hP : 0 < P) (hTc : 0 < k 0) (hPc : 0 < k 1) (f : Fug)
    (hf : calcFugPure m lo lo P k = some f) (hphi : f.phi ≠ 1) (hphi' : f.phi ≠ Real.exp 1000) :
    ¬ HeatContinuous (fun t f => calcFugPure m lo t P k = some f) lo := by
  have hg : Rgas * lo * Real.log f.phi ≠ 0 :=
    mul_ne_zero (mul_pos Rpos hlo).ne' (Real.log_ne_zero_of_pos_of_ne_one (calcPhi_pos hf) hphi)
  refine not_heat hg (fun t f ht h => ?_) fun f' h s hf' hh hs => ?_
  · unfold calcFugPure at h
    rw [if_neg fun e => absurd e.1 (not_le.mpr ht)] at h
    rw [← Option.some.inj h]
    exact ⟨rfl, rfl⟩
  · obtain rfl : f' = f := Option.some.inj (hf'.symm.trans hf)
    unfold calcFugPure at hf
    split_ifs at hf
    · exact residual_tied hlo hP hTc hPc hf hh hs hphi'
    · exact absurd (by rw [← Option.some.inj hf]) hphi

/-- The liquid of `exLiquid`, with a record that begins at 324 K, below the critical temperature. -/
example : ¬ HeatContinuous (fun t f => calcFugPure .SRK 324 t 140 (Engine.critOf Engine.exLiquid) = some f) 324 := by
  obtain ⟨f, hR, sR, h1, -, -, h4⟩ := Engine.exLiquid_phi
  have h5 : f.phi < Real.exp 1000 := h4.trans (by rw [Real.one_lt_exp_iff]; norm_num)
  refine C172_heat_limit_refuted .SRK 324 140 _ (by norm_num) (by norm_num) (by norm_num [Engine.critOf, Engine.exLiquid]) (by norm_num [Engine.critOf, Engine.exLiquid]) f ?_ h4.ne h5.ne
  rw [← h1]
  unfold calcFugPure
  rw [if_pos (by norm_num), if_pos (by norm_num)]

/-- Carbon dioxide at 1 kbar with a record that begins at 400 K. -/
example : ¬ HeatContinuous (fun t f => Cork.calcFugPure .CO2 400 t 1000 (fun i => [304.2, 73.8, 0, 0, 0, 0, 0].getD i 0) = some f) 400 := by
  obtain ⟨r0', f', h1', h2', h3'⟩ := Cork.ex_co2_entry
  refine C172_cork_limit_refuted .CO2 400 1000 _ (by norm_num) (by norm_num) f' ?_ h3'.ne
  rw [← h2']
  have e : (1e8 : ℝ) / 1e5 = 1000 := by norm_num
  rw [e]
  unfold Cork.calcFugPure
  rw [if_pos (by norm_num), if_pos (by norm_num)]

/-- Carbon dioxide at 1 bar with a record that begins at 1600 K. -/
example : ¬ HeatContinuous (fun t f => Stp.calcFugPure .CO2 1600 t 1 (fun i => [304.2, 73.8, 0, 0, 0, 0, 0].getD i 0) = .ok (some f)) 1600 := by
  obtain ⟨r0, h1, h2⟩ := Stp.ex_entry
  obtain ⟨m, f, -, -, k0, k1, -⟩ := Stp.C121_values_partial 1600 1e5 273 1e5 "CO2" [] [] _ TPS.default r0 (by norm_num) h1
  have hm : m = .CO2 := by
    rcases k0 with ⟨h, -⟩ | ⟨-, h⟩
    · exact absurd h (by decide)
    · exact h
  have hphi := h2 f m k0 k1
  subst hm
  refine C172_stp_limit_refuted .CO2 1600 1 _ (by norm_num) f ?_ hphi
  rw [← k1]
  have e : (1e5 : ℝ) / 1e5 = 1 := by norm_num
  rw [e]
  unfold Stp.calcFugPure
  rw [if_pos (by norm_num), if_pos (by norm_num)]

end ThermoFun.Gas

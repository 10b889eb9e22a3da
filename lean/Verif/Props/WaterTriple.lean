import Verif.Model.WaterState

/-!
C79: at the triple point of water (273.16 K), where the specific entropy and internal energy of both equations of state are zero by
convention, the molar properties returned are the recorded triple-point values; enthalpy and Gibbs energy up to the same P V term.
-/

namespace ThermoFun

/-- What the triple-point convention asks of a function giving molar properties from T, the state and the recorded data. -/
def TripleReference (molar : ℝ → WState → Triple → Molar) : Prop :=
  ∀ (wt : WState) (wtr : Triple), wt.entropy = 0 → wt.internalEnergy = 0 →
    let m := molar 273.16 wt wtr
    m.S = wtr.Str ∧ m.U = wtr.Utr ∧ m.A = wtr.Atr ∧
    m.H = wtr.Htr + 0.018015268 * wt.enthalpy ∧ m.G = wtr.Gtr + 0.018015268 * wt.enthalpy

/-- C79 for Wagner-Pruss: the recorded data are returned. -/
theorem C79_partial : TripleReference molarWP95 := by
  intro wt wtr hS hU
  refine ⟨?_, ?_, ?_, ?_, ?_⟩ <;> simp only [molarWP95, molarWater, waterMolarMass, hS, hU] <;> ring

/-- A state meeting the hypotheses, with a nonzero enthalpy. -/
noncomputable def tripleState : WState :=
  { temperature := 273.16, volume := 0.001, entropy := 0, helmholtz := 0, internalEnergy := 0, enthalpy := 0.611, gibbs := 0.611,
    cv := 4217, cp := 4219, density := 999.8, densityT := -0.06, densityP := 5e-7, densityTT := 0, densityTP := 0, densityPP := 0,
    pressure := 611, pressureT := 0, pressureD := 0, pressureTT := 0, pressureTD := 0, pressureDD := 0 }

example (wtr : Triple) : (molarWP95 273.16 tripleState wtr).A = wtr.Atr := (C79_partial tripleState wtr rfl rfl).2.2.1

/-- C79 refuted for Haar-Gallagher-Kell: the triple-point temperature used is 273.15 K, so the Helmholtz energy is off by a hundredth of
the recorded entropy. -/
theorem C79_refuted : ¬ TripleReference molarHGK := by
  intro h
  have := (h tripleState ⟨1, 0, 0, 0, 0⟩ rfl rfl).2.2.1
  norm_num [molarHGK, molarWater, tripleState, waterMolarMass] at this

/-- The size of the deviation for Haar-Gallagher-Kell, for all data. -/
theorem C79_deviation_partial (wt : WState) (wtr : Triple) (hS : wt.entropy = 0) (hU : wt.internalEnergy = 0) :
    let m := molarHGK 273.16 wt wtr
    m.S = wtr.Str ∧ m.U = wtr.Utr ∧ m.A = wtr.Atr - 0.01 * wtr.Str ∧
    m.H = wtr.Htr + 0.018015268 * wt.enthalpy ∧ m.G = wtr.Gtr + 0.018015268 * wt.enthalpy - 0.01 * wtr.Str := by
  refine ⟨?_, ?_, ?_, ?_, ?_⟩ <;> simp only [molarHGK, molarWater, waterMolarMass, hS, hU] <;> ring

example (wtr : Triple) : (molarHGK 273.16 tripleState wtr).A = wtr.Atr - 0.01 * wtr.Str :=
  (C79_deviation_partial tripleState wtr rfl rfl).2.2.1

end ThermoFun

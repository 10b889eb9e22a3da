import Verif.Props.Aqueous
import Verif.Props.WagnerPruss
import Verif.Props.WaterDensity
import Verif.Props.WaterElectro
import Verif.Lemmas.WagnerPrussVal

/-!
# Aqueous reactions with the Wagner-Pruss equation and the Johnson-Norton dielectric constant

C138: the water models of the Reaktoro part provide what C137 asks of the solvent, if the density solves the equation of state.
-/

namespace ThermoFun.Engine

open Filter Topology

/-- The values of water as a species: those of `Molar`, as reported. -/
noncomputable def molarTPS (m : Molar) : TPS :=
  { TPS.default with S := .ofVal m.S, H := .ofVal m.H, U := .ofVal m.U, G := .ofVal m.G, A := .ofVal m.A, V := .ofVal m.V, Cp := .ofVal m.Cp, Cv := .ofVal m.Cv }

/-- Consistent water states give smooth solvent properties. -/
lemma solventProps_smooth {w : ℝ → ℝ → WState} {T P : ℝ} (h : WaterConsistent w T P) (h0 : (w T P).density ≠ 0) :
    DensitySmooth (fun t p => solventProps (w t p)) T P ∧ SolvSmooth (fun t p => (solventProps (w t p)).toSolv) T P := by
  refine ⟨⟨?_, ?_, ?_, ?_, ?_⟩, ⟨?_, ?_, ?_⟩⟩ <;> simp only [solventProps, TS.val_ofVal]
  · exact h.rho.dx
  · exact h.rho.dy
  · exact h.rhoT.dx
  · exact h.rhoT.dy
  · exact h.rhoP.dy
  · exact h.rho.dx.congr_deriv (by field_simp)
  · exact h.rho.dy.congr_deriv (by field_simp)
  · exact (h.rhoT.dx.neg.div h.rho.dx h0).congr_deriv (by simp only [Pi.neg_apply]; field_simp; ring)

lemma electroProps_smooth {e : ℝ → ℝ → WElectro} {T P : ℝ} (h : ElectroConsistent e T P) : DielSmooth (fun t p => electroProps (e t p)) T P := by
  refine ⟨?_, ?_, ?_⟩ <;> simp only [electroProps, TS.val_ofVal]
  · exact h.Z.dx
  · exact h.Y.dx
  · exact h.Z.dy

/-- The state of water built from the Wagner-Pruss equation at the density `D`. -/
noncomputable def wpState (D : ℝ → ℝ → ℝ) (T P : ℝ) : WState := waterThermoState T P (D T P) (WP.helmholtz T (D T P))

/-- The engine's water is computed by Wagner-Pruss and Johnson-Norton at the density `D`. -/
structure WaterBy (env : Env PSolv ESolv) (w : Subst) (D : ℝ → ℝ → ℝ) (tr : Triple) : Prop where
  solvent : Solvent env w
  notH : w.symbol ≠ "H+"
  own : w.reacdc = false
  mT : w.mT = .WWP
  gen : w.gen = .WJNR
  geochemical : iequals env.waterProperties.toList "STEAM_TABLES".toList = false
  ps : ∀ T P, env.mods.wwpPS w T P 0 = .ok (solventProps (wpState D T P))
  es : ∀ T P p, env.mods.wjnr w T P p 0 = .ok (electroProps (johnsonNorton T (wpState D T P)))
  sub : ∀ T P, env.mods.wwp w T P 0 env.db.tripleRef = .ok (molarTPS (molarWP95 T (wpState D T P) tr))

/-- **C138, the part that holds.**  Around every state (T0, D0) of water with dP/dD ≠ 0, dD/dT ≠ 0, away from the critical density and the isolated
temperatures of C80, there is one continuous density D(T, P); an engine whose water is computed from it provides what `C137_aqueous_partial` asks of
the solvent and of water as a species, with the constant Ttr Str + Gtr - Htr of the triple point data.  Missing: the density is the root of the equation
of state; the search of the program ends before it (C78). -/
theorem C138_wp95_partial (T0 D0 : ℝ) (hT : 0 < T0) (hD : 0 < D0) (hc : D0 ≠ 322) :
    let P0 := D0 ^ 2 * (WP.helmholtz T0 D0).fD
    let s := waterThermoState T0 P0 D0 (WP.helmholtz T0 D0)
    s.pressureD ≠ 0 → s.densityT ≠ 0 → (∀ i ∈ Finset.range 5, jnK i (T0 / 298.15) ≠ 0) → (johnsonNorton T0 s).epsilon ≠ 0 →
    ∃ D : ℝ → ℝ → ℝ, D T0 P0 = D0 ∧ SolvesP WP.helmholtz D T0 P0 ∧ ∀ (env : Env PSolv ESolv) (w : Subst) (tr : Triple), WaterBy env w D tr →
      SmoothSolvent env w T0 P0 (fun T P => solventProps (wpState D T P)) (fun T P => electroProps (johnsonNorton T (wpState D T P))) ∧
      CoherentWater env w T0 P0 (273.16 * tr.Str + tr.Gtr - tr.Htr) (fun T P => molarTPS (molarWP95 T (wpState D T P) tr)) ∧
      (solventProps (wpState D T0 P0)).density.val = D0 := by
  intro P0 s h0 h1 hk hε
  obtain ⟨D, hD0, hs, hw⟩ := C39_wp95_partial T0 D0 hT hD hc h0 h1
  have hD0 : D T0 P0 = D0 := hD0
  have es : wpState D T0 P0 = s := by unfold wpState; rw [hD0]
  have hρ : (wpState D T0 P0).density = D0 := by rw [es]; rfl
  have hne : (wpState D T0 P0).density ≠ 0 := by rw [hρ]; exact hD.ne'
  have hw : WaterConsistent (wpState D) T0 P0 := hw
  have hP : (wpState D T0 P0).densityP ≠ 0 := by
    rw [es]
    show 1 / s.pressureD ≠ 0
    exact one_div_ne_zero h0
  have he := C80_partial (wpState D) T0 P0 hT.ne' ⟨hw.rho, hw.rhoT, hw.rhoP⟩ hne hP hk (by rw [es]; exact hε)
  obtain ⟨d1, d2⟩ := solventProps_smooth hw hne
  refine ⟨D, hD0, hs, fun env w tr hW => ⟨?_, ?_, ?_⟩⟩
  · have ep : ∀ T P, psOf env w T P = .ok (solventProps (wpState D T P)) := fun T P => by rw [psOf, hW.mT]; exact hW.ps T P
    have ee : ∀ T P p, esOf env w T P p = .ok (electroProps (johnsonNorton T (wpState D T P))) := fun T P p => by rw [esOf, hW.gen]; exact hW.es T P p
    exact ⟨hW.solvent, Eventually.of_forall fun T => ⟨ep T P0, ee T P0 _⟩, Eventually.of_forall fun P => ⟨ep T0 P, ee T0 P _⟩, d1, d2,
      electroProps_smooth he, by simp only [solventProps, TS.val_ofVal, hρ]; exact hD⟩
  · have ew : ∀ T P, waterOf env w T P = .ok (molarTPS (molarWP95 T (wpState D T P) tr)) := fun T P => by
      rw [waterOf, hW.mT, if_neg (by rw [hW.gen]; decide)]; exact hW.sub T P
    obtain ⟨m1, m2, -⟩ := (C75_molar WP.helmholtz D tr 273.16).1 T0 P0 hw
    refine ⟨hW.solvent, hW.notH, ?_, hW.geochemical, Eventually.of_forall fun T => ew T P0, Eventually.of_forall fun P => ew T0 P, m1.dx, m2, ?_, m1.dy⟩
    · simp [Subst.isReacDC, Subst.noMethods, hW.own, hW.gen]
    · simp only [molarTPS, TS.val_ofVal, molarWP95, molarWater]
      ring
  · simp only [solventProps, TS.val_ofVal, hρ]

/-- The dielectric constant of liquid water at 298.15 K lies between 78 and 79. -/
lemma liquid_epsilon {D : ℝ} (h1 : 997.047039017 < D) (h2 : D < 997.047039018) (P : ℝ) :
    78 < (johnsonNorton 298.15 (waterThermoState 298.15 P D (WP.helmholtz 298.15 D))).epsilon ∧
    (johnsonNorton 298.15 (waterThermoState 298.15 P D (WP.helmholtz 298.15 D))).epsilon < 79 := by
  have e : (johnsonNorton 298.15 (waterThermoState 298.15 P D (WP.helmholtz 298.15 D))).epsilon =
      1 + 14.70333593 * (D / 1000) + (212.8462733 - 115.4445173 + 19.55210915) * (D / 1000) ^ 2 + (-83.30347980 + 32.13240048 - 6.694098645) * (D / 1000) ^ 3 +
      (-37.86202045 + 68.87359646 - 27.29401652) * (D / 1000) ^ 4 := by
    simp only [johnsonNorton, bornFunctions, waterThermoState, Finset.sum_range_succ, Finset.sum_range_zero, jnK, jnA]
    norm_num
  rw [e]
  have k1 : 0.997047 < D / 1000 := by rw [lt_div_iff₀ (by norm_num)]; linarith
  have k2 : D / 1000 < 0.997048 := by rw [div_lt_iff₀ (by norm_num)]; linarith
  generalize D / 1000 = r at k1 k2
  have p2 : r ^ 2 < 0.997048 ^ 2 := by gcongr
  have p3 : r ^ 3 < 0.997048 ^ 3 := by gcongr
  have p4 : r ^ 4 < 0.997048 ^ 4 := by gcongr
  have q2 : 0.997047 ^ 2 < r ^ 2 := by gcongr
  have q3 : 0.997047 ^ 3 < r ^ 3 := by gcongr
  have q4 : 0.997047 ^ 4 < r ^ 4 := by gcongr
  norm_num at p2 p3 p4 q2 q3 q4 ⊢
  constructor <;> linarith

/-- The hypotheses of `C138_wp95_partial` are met by liquid water at 298.15 K and 1 bar. -/
example : ∃ D0 : ℝ, 997.047039017 < D0 ∧ D0 < 997.047039018 ∧
    let P0 := D0 ^ 2 * (WP.helmholtz 298.15 D0).fD
    let s := waterThermoState 298.15 P0 D0 (WP.helmholtz 298.15 D0)
    P0 = 100000 ∧ s.pressureD ≠ 0 ∧ s.densityT ≠ 0 ∧ (∀ i ∈ Finset.range 5, jnK i (298.15 / 298.15) ≠ 0) ∧ (johnsonNorton 298.15 s).epsilon ≠ 0 := by
  obtain ⟨D, h1, h2, h3⟩ := WP.liquid_exists
  refine ⟨D, h1, h2, ?_⟩
  intro P0 s
  obtain ⟨a1, a2, a3, a4⟩ := WP.liquid_slopes h1 h2 P0
  have n1 : s.pressureD ≠ 0 := fun h => by rw [show (waterThermoState 298.15 P0 D (WP.helmholtz 298.15 D)).pressureD = 0 from h] at a1; norm_num at a1
  refine ⟨h3, n1, ?_, ?_, ?_⟩
  · have n2 : s.pressureT ≠ 0 := fun h => by rw [show (waterThermoState 298.15 P0 D (WP.helmholtz 298.15 D)).pressureT = 0 from h] at a3; norm_num at a3
    exact div_ne_zero (neg_ne_zero.mpr n2) n1
  · intro i hi
    have : i = 0 ∨ i = 1 ∨ i = 2 ∨ i = 3 ∨ i = 4 := by rw [Finset.mem_range] at hi; omega
    rcases this with rfl | rfl | rfl | rfl | rfl <;> norm_num [jnK, jnA]
  · have := (liquid_epsilon h1 h2 P0).1
    exact fun h => by rw [show (johnsonNorton 298.15 (waterThermoState 298.15 P0 D (WP.helmholtz 298.15 D))).epsilon = 0 from h] at this; norm_num at this

/-- An engine whose water is computed from a density `D`. -/
noncomputable def byEnv (D : ℝ → ℝ → ℝ) (tr : Triple) : Env PSolv ESolv :=
  { exAq "BENSON_HELGESON" with
    mods := real { noWater with
      wwpPS := fun _ T P _ => .ok (solventProps (wpState D T P))
      wwp := fun _ T P _ _ => .ok (molarTPS (molarWP95 T (wpState D T P) tr))
      wjnr := fun _ T P _ _ => .ok (electroProps (johnsonNorton T (wpState D T P))) } }

/-- There are engines as `C138_wp95_partial` asks for. -/
example (D : ℝ → ℝ → ℝ) (tr : Triple) : WaterBy (byEnv D tr) exAqWater D tr :=
  ⟨⟨rfl, rfl, rfl⟩, by decide, rfl, rfl, rfl, show iequals "GEOCHEMICAL".toList "STEAM_TABLES".toList = false by decide, fun _ _ => rfl, fun _ _ _ => rfl, fun _ _ => rfl⟩

end ThermoFun.Engine

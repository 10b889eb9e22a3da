import Verif.Model.WaterState
import Verif.Lemmas.Grad
import Verif.Props.HKF

/-!
Properties C39, C75 and C76: the state of water derived from a Helmholtz function, the molar properties and the density iteration.
-/

set_option linter.unusedSimpArgs false

namespace ThermoFun

/-! ### C39 -/

/-- The record `F` holds a Helmholtz function with its partial derivatives up to the third order, at (T, D). -/
structure HelmGrad (F : ℝ → ℝ → Helm) (T D : ℝ) : Prop where
  f : Grad (fun T D => (F T D).f) (F T D).fT (F T D).fD T D
  fT : Grad (fun T D => (F T D).fT) (F T D).fTT (F T D).fTD T D
  fD : Grad (fun T D => (F T D).fD) (F T D).fTD (F T D).fDD T D
  fTD : Grad (fun T D => (F T D).fTD) (F T D).fTTD (F T D).fTDD T D
  fDD : Grad (fun T D => (F T D).fDD) (F T D).fTDD (F T D).fDDD T D

/-- `D` is a density that depends continuously on (T, P) and solves the pressure equation D² ∂f/∂D = P near (T, P). -/
structure SolvesP (F : ℝ → ℝ → Helm) (D : ℝ → ℝ → ℝ) (T P : ℝ) : Prop where
  cont : ContinuousAt (fun q : ℝ × ℝ => D q.1 q.2) (T, P)
  eq : ∀ᶠ q : ℝ × ℝ in nhds (T, P), D q.1 q.2 ^ 2 * (F q.1 (D q.1 q.2)).fD = q.2

/-- What C39 demands of a family of water states at (T, P). -/
structure WaterConsistent (w : ℝ → ℝ → WState) (T P : ℝ) : Prop where
  rho : Grad (fun t p => (w t p).density) (w T P).densityT (w T P).densityP T P
  rhoT : Grad (fun t p => (w t p).densityT) (w T P).densityTT (w T P).densityTP T P
  rhoP : Grad (fun t p => (w t p).densityP) (w T P).densityTP (w T P).densityPP T P
  gibbs : Grad (fun t p => (w t p).gibbs) (-(w T P).entropy) (w T P).volume T P
  entropy : Grad (fun t p => (w t p).entropy) ((w T P).cp / T) ((w T P).densityT / (w T P).density ^ 2) T P
  enthalpy : HasDerivAt (fun t => (w t P).enthalpy) (w T P).cp T
  G : (w T P).gibbs = (w T P).enthalpy - T * (w T P).entropy
  H : (w T P).enthalpy = (w T P).internalEnergy + P / (w T P).density
  U : (w T P).internalEnergy = (w T P).helmholtz + T * (w T P).entropy
  mayer : (w T P).cp - (w T P).cv = T * (w T P).pressureT ^ 2 / ((w T P).density ^ 2 * (w T P).pressureD)

section
variable {F : ℝ → ℝ → Helm} {D : ℝ → ℝ → ℝ} {T P : ℝ}

lemma pressure_grad {d : ℝ} (hF : HelmGrad F T d) :
    Grad (fun T D => D ^ 2 * (F T D).fD) (d * d * (F T d).fTD) (2 * d * (F T d).fD + d * d * (F T d).fDD) T d := by
  refine ((Grad.right (hasDerivAt_pow 2 d)).mul hF.fD).congr ?_ ?_ <;> push_cast <;> ring

lemma density_grad (hF : HelmGrad F T (D T P)) (hs : SolvesP F D T P)
    (hD : 2 * D T P * (F T (D T P)).fD + D T P * D T P * (F T (D T P)).fDD ≠ 0) :
    Grad D (-(D T P * D T P * (F T (D T P)).fTD) / (2 * D T P * (F T (D T P)).fD + D T P * D T P * (F T (D T P)).fDD))
      (1 / (2 * D T P * (F T (D T P)).fD + D T P * D T P * (F T (D T P)).fDD)) T P :=
  Grad.implicit hs.cont (pressure_grad hF) hD hs.eq

end

/-- **C39, the part that holds.**  For every smooth Helmholtz function and every continuous solution of the pressure equation with
dP/dD ≠ 0, away from a maximum of density (densityT ≠ 0): the reported density derivatives up to the second order are the partial
derivatives of the density, dG = -S dT + V dP, dS/dT = Cp/T, dH/dT = Cp, and the energy relations hold.
Missing: states with densityT = 0, see `C39_refuted`. -/
theorem C39_partial (F : ℝ → ℝ → Helm) (D : ℝ → ℝ → ℝ) (T P : ℝ) (hT : T ≠ 0) (hF : HelmGrad F T (D T P)) (hs : SolvesP F D T P)
    (h0 : D T P ≠ 0) :
    let w := fun t p => waterThermoState t p (D t p) (F t (D t p))
    (w T P).pressureD ≠ 0 → (w T P).densityT ≠ 0 → WaterConsistent w T P := by
  intro w hD hT0
  have hD' : 2 * D T P * (F T (D T P)).fD + D T P * D T P * (F T (D T P)).fDD ≠ 0 := hD
  have gD := density_grad hF hs hD'
  have hsub : ∀ {k : ℝ → ℝ → ℝ} {a b : ℝ}, Grad k a b T (D T P) → Grad (fun t p => k t (D t p))
      (a + b * (-(D T P * D T P * (F T (D T P)).fTD) / (2 * D T P * (F T (D T P)).fD + D T P * D T P * (F T (D T P)).fDD)))
      (b * (1 / (2 * D T P * (F T (D T P)).fD + D T P * D T P * (F T (D T P)).fDD))) T P := fun hk =>
    (Grad.subst (u := fun t _ => t) (v := D) hk Grad.fstG gD).congr (by ring) (by ring)
  have gfD := hsub hF.fD
  have gfTD := hsub hF.fTD
  have gfDD := hsub hF.fDD
  have gfT := hsub hF.fT
  have gf := hsub hF.f
  have hP : D T P ^ 2 * (F T (D T P)).fD = P := hs.eq.self_of_nhds
  have hT0' : D T P * D T P * (F T (D T P)).fTD ≠ 0 := by
    intro h
    apply hT0
    simp only [w, waterThermoState, h, neg_zero, zero_div]
  have hTD : (F T (D T P)).fTD ≠ 0 := fun h => hT0' (by rw [h, mul_zero])
  set F0 := F T (D T P) with hF0
  set d := D T P with hd
  -- dP/dT and dP/dD along the solution
  have gpT := (gD.mul gD).mul gfTD
  have gpD := ((gD.const_mul 2).mul gfD).add ((gD.mul gD).mul gfDD)
  have gRT := gpT.neg.div gpD hD'
  have gRP := (Grad.const (x := T) (y := P) 1).div gpD hD'
  have gG := (gf.add ((Grad.fstG (x := T) (y := P)).mul gfT.neg)).add ((Grad.sndG (x := T) (y := P)).div gD h0)
  have gG2 := gG.sub ((Grad.fstG (x := T) (y := P)).mul gfT.neg)
  simp only [← hd, ← hF0] at gpT gpD gRT gRP gG gG2
  refine ⟨gD, ?_, ?_, ?_, ?_, ?_, rfl, rfl, rfl, ?_⟩
  · refine gRT.congr ?_ ?_ <;> simp only [w, waterThermoState, ← hd, ← hF0]
    · generalize hq : 2 * d * F0.fD + d * d * F0.fDD = q at hD' ⊢
      field_simp
      ring
    · generalize hq : 2 * d * F0.fD + d * d * F0.fDD = q at hD' ⊢
      field_simp
      ring
  · refine gRP.congr ?_ ?_ <;> simp only [w, waterThermoState, ← hd, ← hF0]
    · generalize hq : 2 * d * F0.fD + d * d * F0.fDD = q at hD' ⊢
      field_simp; ring
    · generalize hq : 2 * d * F0.fD + d * d * F0.fDD = q at hD' ⊢
      field_simp; ring
  · refine gG2.congr ?_ ?_ <;> simp only [w, waterThermoState, ← hd, ← hF0] <;> rw [← hP]
    · generalize hq : 2 * d * F0.fD + d * d * F0.fDD = q at hD' ⊢
      field_simp; ring
    · generalize hq : 2 * d * F0.fD + d * d * F0.fDD = q at hD' ⊢
      field_simp; ring
  · refine gfT.neg.congr ?_ ?_ <;> simp only [w, waterThermoState, ← hd, ← hF0]
    · generalize hq : 2 * d * F0.fD + d * d * F0.fDD = q at hD' ⊢
      field_simp; try ring
    · generalize hq : 2 * d * F0.fD + d * d * F0.fDD = q at hD' ⊢
      field_simp; try ring
  · refine gG.dx.congr_deriv ?_
    simp only [w, waterThermoState, ← hd, ← hF0]
    rw [← hP]
    generalize hq : 2 * d * F0.fD + d * d * F0.fDD = q at hD' ⊢
    field_simp; ring
  · simp only [w, waterThermoState, ← hd, ← hF0]
    generalize hq : 2 * d * F0.fD + d * d * F0.fDD = q at hD' ⊢
    field_simp; ring

/-- A substance with a density maximum at 277 K: p = D + (T - 277)². -/
noncomputable def sampleHelm (T D : ℝ) : Helm :=
  ⟨Real.log D - (T - 277) ^ 2 / D, -(2 * (T - 277)) / D, 1 / D + (T - 277) ^ 2 / D ^ 2, -2 / D, 2 * (T - 277) / D ^ 2,
    -1 / D ^ 2 - 2 * (T - 277) ^ 2 / D ^ 3, 0, 2 / D ^ 2, -4 * (T - 277) / D ^ 3, 2 / D ^ 3 + 6 * (T - 277) ^ 2 / D ^ 4⟩

lemma sampleHelm_grad {T D : ℝ} (hD : D ≠ 0) : HelmGrad sampleHelm T D := by
  have hs : Grad (fun T _ => T - 277) 1 0 T D := (Grad.fstG.sub (Grad.const 277)).congr (by ring) (by ring)
  have hs2 : Grad (fun T _ => (T - 277) ^ 2) (2 * (T - 277)) 0 T D :=
    (Grad.comp (g := fun T _ => T - 277) (hasDerivAt_pow 2 (T - 277)) hs).congr (by simp) (by simp)
  have hp : ∀ n : ℕ, Grad (fun _ D => D ^ n) 0 (n * D ^ (n - 1)) T D := fun n => Grad.right (hasDerivAt_pow n D)
  constructor <;> simp only [sampleHelm]
  · refine ((Grad.right (Real.hasDerivAt_log hD)).sub (hs2.div Grad.sndG hD)).congr ?_ ?_ <;> field_simp <;> ring
  · refine (((hs.const_mul 2).neg).div Grad.sndG hD).congr ?_ ?_ <;> field_simp <;> ring
  · refine (((Grad.const 1).div Grad.sndG hD).add (hs2.div (hp 2) (by positivity))).congr ?_ ?_ <;> simp <;> field_simp <;> ring
  · refine ((hs.const_mul 2).div (hp 2) (by positivity)).congr ?_ ?_ <;> simp <;> field_simp <;> ring
  · refine (((Grad.const (-1)).div (hp 2) (by positivity)).sub ((hs2.const_mul 2).div (hp 3) (by positivity))).congr ?_ ?_
      <;> simp <;> field_simp <;> ring

lemma sampleHelm_solves {T P : ℝ} (h : P - (T - 277) ^ 2 ≠ 0) : SolvesP sampleHelm (fun t p => p - (t - 277) ^ 2) T P := by
  have hc : ContinuousAt (fun q : ℝ × ℝ => q.2 - (q.1 - 277) ^ 2) (T, P) := by fun_prop
  refine ⟨hc, (hc.eventually_ne h).mono fun q hq => ?_⟩
  simp only [sampleHelm]
  field_simp
  ring

/-- The hypotheses of `C39_partial`, at 300 K and 1e5 Pa. -/
example : let D := fun t p : ℝ => p - (t - 277) ^ 2
    HelmGrad sampleHelm 300 (D 300 1e5) ∧ SolvesP sampleHelm D 300 1e5 ∧ D 300 1e5 ≠ 0 ∧
    (waterThermoState 300 1e5 (D 300 1e5) (sampleHelm 300 (D 300 1e5))).pressureD ≠ 0 ∧
    (waterThermoState 300 1e5 (D 300 1e5) (sampleHelm 300 (D 300 1e5))).densityT ≠ 0 := by
  refine ⟨sampleHelm_grad (by norm_num), sampleHelm_solves (by norm_num), by norm_num, ?_, ?_⟩ <;>
    norm_num [waterThermoState, sampleHelm]

/-- **C39 fails at a density maximum**: the formula of densityTT divides by densityT.  Where densityT = 0 (water at 277 K) the second
temperature derivative of density is not reported (the C++ code computes 0 · ∞, not a number; with x/0 = 0 the formula gives 0, while the
derivative here is -2). -/
theorem C39_refuted : ∃ (F : ℝ → ℝ → Helm) (D : ℝ → ℝ → ℝ) (T P : ℝ), HelmGrad F T (D T P) ∧ SolvesP F D T P ∧ D T P ≠ 0 ∧
    (waterThermoState T P (D T P) (F T (D T P))).pressureD ≠ 0 ∧ (waterThermoState T P (D T P) (F T (D T P))).densityT = 0 ∧
    HasDerivAt (fun t => (waterThermoState t P (D t P) (F t (D t P))).densityT) (-2) T ∧
    (waterThermoState T P (D T P) (F T (D T P))).densityTT ≠ -2 := by
  refine ⟨sampleHelm, fun t p => p - (t - 277) ^ 2, 277, 1e5, sampleHelm_grad (by norm_num), sampleHelm_solves (by norm_num),
    by norm_num, ?_, ?_, ?_, ?_⟩
  · norm_num [waterThermoState, sampleHelm]
  · norm_num [waterThermoState, sampleHelm]
  · have h0 : ∀ᶠ t in nhds (277 : ℝ), (1e5 : ℝ) - (t - 277) ^ 2 ≠ 0 := by
      have hc : ContinuousAt (fun t : ℝ => (1e5 : ℝ) - (t - 277) ^ 2) 277 := by fun_prop
      exact hc.eventually_ne (by norm_num)
    have hd : HasDerivAt (fun t : ℝ => -(2 * (t - 277))) (-2) 277 := by
      have := (((hasDerivAt_id' (277 : ℝ)).sub_const 277).const_mul 2).neg
      exact this.congr_deriv (by norm_num)
    refine hd.congr_of_eventuallyEq (h0.mono fun t ht => ?_)
    simp only [waterThermoState, sampleHelm]
    have hq : 2 * (1e5 - (t - 277) ^ 2) * (1 / (1e5 - (t - 277) ^ 2) + (t - 277) ^ 2 / (1e5 - (t - 277) ^ 2) ^ 2) +
      (1e5 - (t - 277) ^ 2) * (1e5 - (t - 277) ^ 2) * (-1 / (1e5 - (t - 277) ^ 2) ^ 2 - 2 * (t - 277) ^ 2 /
        (1e5 - (t - 277) ^ 2) ^ 3) = (1 : ℝ) := by
      field_simp; ring
    rw [hq]
    field_simp
  · norm_num [waterThermoState, sampleHelm]

end ThermoFun

import Verif.Props.GFunction

/-!
Property C72, the gems implementation of the solvent g function.
-/

set_option linter.unusedSimpArgs false

namespace ThermoFun

/-- The solvent properties given to the model are a density with its expansivity, compressibility and the derivative of the
expansivity, at (T, P). -/
structure SolvSmooth (ps : ℝ → ℝ → Solv) (T P : ℝ) : Prop where
  dT : HasDerivAt (fun t => (ps t P).density.val) (-(ps T P).density.val * (ps T P).Alpha.val) T
  dP : HasDerivAt (fun p => (ps T p).density.val) ((ps T P).density.val * (ps T P).Beta.val) P
  dA : HasDerivAt (fun t => (ps t P).Alpha.val) (ps T P).dAldT.val T

/-- The derivatives of the g function the gems implementation sets. -/
structure GFirst (F : ℝ → ℝ → FunG) (T P : ℝ) : Prop where
  gT : HasDerivAt (fun t => (F t P).g.val) (F T P).gT.val T
  gP : HasDerivAt (fun p => (F T p).g.val) (F T P).gP.val P
  gTT : HasDerivAt (fun t => (F t P).gT.val) (F T P).gTT.val T

lemma GFirst.congr {F F' : ℝ → ℝ → FunG} {T P : ℝ} (h : GFirst F T P) (hT : ∀ᶠ t in nhds T, F' t P = F t P)
    (hP : ∀ᶠ p in nhds P, F' T p = F T p) : GFirst F' T P := by
  have h0 : F' T P = F T P := hT.self_of_nhds
  refine ⟨?_, ?_, ?_⟩ <;> rw [h0]
  · exact h.gT.congr_of_eventuallyEq (hT.mono fun t ht => by simp only [ht])
  · exact h.gP.congr_of_eventuallyEq (hP.mono fun t ht => by simp only [ht])
  · exact h.gTT.congr_of_eventuallyEq (hT.mono fun t ht => by simp only [ht])

/-- The temperature in °C, as the entry point makes it. -/
noncomputable def tC (t : ℝ) : TS := TS.subAssignD (TS.temperature t) 273.15
@[simp] lemma val_tC (t : ℝ) : (tC t).val = t - 273.15 := rfl

/-- Values in region I below 1000 kg/m³. -/
lemma gShok2I_vals (t : ℝ) {ps : Solv} (h1 : ps.density.val < 1000) :
    let F := gShok2I (tC t) ps
    let a := ga (t - 273.15)
    let b := gb (t - 273.15)
    let a' := gaT (t - 273.15)
    let b' := gbT (t - 273.15)
    let ρ := ps.density.val
    let ρT := -ps.density.val * ps.Alpha.val
    let d := 1 - ρ / 1000
    F.g.val = g0 a b ρ ∧
    F.gT.val = g1 a a' b b' ρ ρT ∧
    F.gP.val = g1 a 0 b 0 ρ (ρ * ps.Beta.val) ∧
    F.gTT.val = g0 a b ρ * (gq a a' b b' ρ ρT * gq a a' b b' ρ ρT + (2 * -6.557892e-06 / a - a' * a' / a ^ 2
      + 2 * 1.268348e-05 * Real.log d - b' * ρT / 1000 / d - (-ρT * ps.Alpha.val + -ρ * ps.dAldT.val) / 1000 * b / d - ρT / 1000 * b' / d
      - ρT / 1000 * b * (ρT / 1000) / d ^ 2)) := by
  have hd : 0 < 1 - ps.density.val / 1000 := by linarith
  have ea : -0.2037662e+01 + 0.5747000e-02 * (t - 273.15) + -0.6557892e-05 * (t - 273.15) ^ 2 = ga (t - 273.15) := by
    simp only [ga]; ring
  have eb : 0.6107361e+01 + -0.1074377e-01 * (t - 273.15) + 0.1268348e-04 * (t - 273.15) ^ 2 = gb (t - 273.15) := by
    simp only [gb]; ring
  have ea' : 0.5747000e-02 + 2 * -0.6557892e-05 * (t - 273.15) = gaT (t - 273.15) := by simp only [gaT]
  have eb' : -0.1074377e-01 + 2 * 0.1268348e-04 * (t - 273.15) = gbT (t - 273.15) := by simp only [gbT]
  have e2 : (1 - ps.density.val / 1000) ^ (gb (t - 273.15) - 2)
      = (1 - ps.density.val / 1000) ^ gb (t - 273.15) / (1 - ps.density.val / 1000) ^ 2 := by
    rw [Real.rpow_sub hd]; norm_num
  have ha := ga_ne (t - 273.15)
  simp only [gShok2I, TS.op_val_add, TS.op_val_addL, TS.op_val_addR, TS.op_val_neg, TS.op_val_sub, TS.op_val_subL, TS.op_val_subR,
    TS.op_val_mul, TS.op_val_mulL, TS.op_val_mulR, TS.op_val_div, TS.op_val_divL, TS.op_val_divR, TS.val_powR, val_pow, TS.val_log,
    val_tC, val_assign, Real.rpow_ofNat, abs_of_pos hd, ea, eb, ea', eb', g0, g1, gq, Real.rpow_sub_one hd.ne', e2]
  clear e2 ea eb ea' eb'
  generalize Real.log (1 - ps.density.val / 1000) = l
  generalize (1 - ps.density.val / 1000) ^ gb (t - 273.15) = e at *
  generalize ga (t - 273.15) = a at *
  generalize gb (t - 273.15) = b at *
  generalize gaT (t - 273.15) = a' at *
  generalize gbT (t - 273.15) = b' at *
  generalize ps.Alpha.val = α at *
  generalize ps.Beta.val = β at *
  generalize ps.dAldT.val = αT at *
  generalize ps.density.val = ρ at *
  obtain ⟨d, hd'⟩ : ∃ d, d = 1 - ρ / 1000 := ⟨_, rfl⟩
  rw [← hd'] at hd ⊢
  obtain rfl : ρ = 1000 * (1 - d) := by rw [hd']; ring
  have hd0 := hd.ne'
  refine ⟨?_, ?_, ?_, ?_⟩
  · first | trivial | ring
  all_goals (field_simp; ring)

lemma gShok2I_smooth {ps : ℝ → ℝ → Solv} {T P : ℝ} (hs : SolvSmooth ps T P) (h1 : (ps T P).density.val < 1000) :
    GFirst (fun t p => gShok2I (tC t) (ps t p)) T P := by
  have eT : ∀ᶠ t in nhds T, (ps t P).density.val < 1000 := hs.dT.continuousAt.eventually_lt_const h1
  have eP : ∀ᶠ p in nhds P, (ps T p).density.val < 1000 := hs.dP.continuousAt.eventually_lt_const h1
  obtain ⟨k1, k2, k3, k4⟩ := gShok2I_vals T h1
  have hc := fun c : ℝ => hasDerivAt_const P c
  refine ⟨?_, ?_, ?_⟩
  · rw [k2]
    exact (g0_deriv (ga_deriv T) (gb_deriv T) hs.dT h1 (ga_ne _)).congr_of_eventuallyEq (eT.mono fun t ht => (gShok2I_vals t ht).1)
  · rw [k3]
    exact (g0_deriv (hc (ga (T - 273.15))) (hc (gb (T - 273.15))) hs.dP h1 (ga_ne _)).congr_of_eventuallyEq
      (eP.mono fun t ht => (gShok2I_vals T ht).1)
  · rw [k4]
    have hρT : HasDerivAt (fun t => -(ps t P).density.val * (ps t P).Alpha.val)
        (-(-(ps T P).density.val * (ps T P).Alpha.val) * (ps T P).Alpha.val + -(ps T P).density.val * (ps T P).dAldT.val) T :=
      hs.dT.neg.mul hs.dA
    exact (g1_deriv (ga_deriv T) (gb_deriv T) hs.dT (gaT_deriv T) (gbT_deriv T) hρT h1 (ga_ne _)).congr_of_eventuallyEq
      (eT.mono fun t ht => (gShok2I_vals t ht).2.1)

/-- Values of the correction. -/
lemma gShok2II_vals (t p : ℝ) (f : FunG) (hx : 0 < gx t) :
    let F := gShok2II (tC t) (pbar p) f
    let c := 0.3666666e+02
    let d := -0.1504956e-09
    let e := 0.5017997e-13
    F.g.val = f.g.val - gft c (gx t) * gfp d e (gy p) ∧
    F.gT.val = f.gT.val - gfp d e (gy p) * gftT c (gx t) ∧
    F.gP.val = f.gP.val - gft c (gx t) * gfpP d e (gy p) ∧
    F.gTT.val = f.gTT.val - gfp d e (gy p) * gftTT c (gx t) := by
  have ex : (t - 273.15 - 155) / 300 = gx t := rfl
  have ey : 1000 - p / 1e5 = gy p := rfl
  have e1 : gx t ^ (3.8 : ℝ) = gx t ^ (4.8 : ℝ) / gx t := by
    rw [← Real.rpow_sub_one hx.ne']; norm_num
  have e2 : gx t ^ (2.8 : ℝ) = gx t ^ (4.8 : ℝ) / gx t ^ 2 := by
    rw [show (2.8 : ℝ) = 4.8 - 2 by norm_num, Real.rpow_sub hx]; norm_num
  simp only [gShok2II, TS.op_val_add, TS.op_val_addL, TS.op_val_addR, TS.op_val_neg, TS.op_val_sub, TS.op_val_subL, TS.op_val_subR,
    TS.op_val_mul, TS.op_val_mulL, TS.op_val_mulR, TS.op_val_div, TS.op_val_divL, TS.op_val_divR, TS.val_powR, TS.val_subAssign,
    val_tC, val_pbar, Real.rpow_ofNat, ex, ey, gft, gftT, gftTT, gfp, gfpP, e1, e2]
  generalize gx t ^ (4.8 : ℝ) = u
  have := hx.ne'
  refine ⟨?_, ?_, ?_, ?_⟩
  · first | trivial | ring
  all_goals (field_simp; try ring)

/-- The part of `Corrected` the gems implementation sets. -/
structure CorrectedFirst (F : FunG) (f : FunG) (c d e t p : ℝ) : Prop where
  g : F.g.val = f.g.val - cft c t * cfp d e p
  gT : F.gT.val = f.gT.val - cfp d e p * cftT c t
  gP : F.gP.val = f.gP.val - cft c t * cfpP d e p
  gTT : F.gTT.val = f.gTT.val - cfp d e p * cftTT c t

lemma gShok2_vals (t p : ℝ) (ps : Solv) :
    CorrectedFirst (gShok2 (tC t) (pbar p) ps) (gShok2I (tC t) ps) 0.3666666e+02 (-0.1504956e-09) 0.5017997e-13 t p := by
  have hv : inRegionII (tC t).val (pbar p).val ↔ inRegionII (t - 273.15) (p / 1e5) := by rw [val_tC, val_pbar]
  by_cases hr : inRegionII (t - 273.15) (p / 1e5)
  · have hr' := (inRegionII_iff _ _).1 hr
    have hx := (gx_pos t).2 hr'.1
    have hy := (gy_pos p).2 hr'.2
    obtain ⟨k1, k2, k3, k4⟩ := gShok2II_vals t p (gShok2I (tC t) ps) hx
    constructor <;> simp only [gShok2, if_pos (hv.2 hr), k1, k2, k3, k4, cft, cftT, cftTT, cfp, cfpP, if_pos hx, if_pos hy]
  · have hn : ¬ 0 < gx t ∨ ¬ 0 < gy p := by
      rw [gx_pos, gy_pos]; rw [inRegionII_iff] at hr; exact not_and_or.1 hr
    rcases hn with hn | hn
    · constructor <;> simp only [gShok2, if_neg (fun h => hr (hv.1 h)), cft, cftT, cftTT, if_neg hn, zero_mul, mul_zero, sub_zero]
    · constructor <;> simp only [gShok2, if_neg (fun h => hr (hv.1 h)), cfp, cfpP, if_neg hn, zero_mul, mul_zero, sub_zero]

/-- **C72 for the gems implementation, the part that holds.**  Below 1000 kg/m³ (also at 155 °C and at 1000 bar, where the equation
changes) the reported first derivatives and the second derivative by temperature are derivatives of the reported g function.  Missing:
densities above 1000 kg/m³, where it fails, see `C72_gems_refuted`, and the other second derivatives, which are not set. -/
theorem C72_gems_partial (ps : ℝ → ℝ → Solv) (T P : ℝ) (hs : SolvSmooth ps T P) (h1 : (ps T P).density.val < 1000) :
    GFirst (fun t p => gShok2 (tC t) (pbar p) (ps t p)) T P := by
  have hf := gShok2I_smooth hs h1
  have hv := fun t p => gShok2_vals t p (ps t p)
  have h0 := hv T P
  refine ⟨?_, ?_, ?_⟩
  · simp only [(hv _ _).g, (hv _ _).gT]
    refine (hf.gT.sub ((cft_deriv _ T).mul_const _)).congr_deriv ?_
    ring
  · simp only [(hv _ _).g, (hv _ _).gP]
    exact hf.gP.sub ((cfp_deriv _ _ P).const_mul _)
  · simp only [(hv _ _).gT, (hv _ _).gTT]
    exact hf.gTT.sub ((cftT_deriv _ T).const_mul _)

lemma sampleSolv_smooth {T P : ℝ} (h : 1300 - T + P / 1e6 ≠ 0) : SolvSmooth (fun t p => (sampleRho t p).toSolv) T P := by
  constructor <;> simp only [sampleRho, TS.val_ofVal]
  · exact (((hasDerivAt_id' T).const_sub 1300).add_const _).congr_deriv (by rw [neg_mul, mul_one_div_cancel h])
  · exact (((hasDerivAt_id' P).div_const 1e6).const_add _).congr_deriv (by rw [mul_div_cancel₀ _ h]; norm_num)
  · exact ((hasDerivAt_const T (1 : ℝ)).div (((hasDerivAt_id' T).const_sub 1300).add_const _) h).congr_deriv (by ring)

/-- The hypotheses of `C72_gems_partial` in region II (500 K), on its boundary (155 °C) and outside it (400 K). -/
example : ∀ T ∈ ({500, 428.15, 400} : Set ℝ), SolvSmooth (fun t p => (sampleRho t p).toSolv) T 1e6 ∧
    (sampleRho T 1e6).density.val < 1000 := by
  intro T hT
  simp only [Set.mem_insert_iff, Set.mem_singleton_iff] at hT
  rcases hT with rfl | rfl | rfl <;>
    exact ⟨sampleSolv_smooth (by norm_num), by simp only [sampleRho, TS.val_ofVal]; norm_num⟩

/-- **C72 does not hold for the gems implementation.**  Above 1000 kg/m³ (and outside region II) the reported pressure derivative has the
wrong sign, for every smooth density: the true derivative is its negative. -/
theorem C72_gems_wrong_sign (ps : ℝ → ℝ → Solv) (T P : ℝ) (hs : SolvSmooth ps T P) (h1 : 1000 < (ps T P).density.val)
    (hb : T - 273.15 < 155) :
    HasDerivAt (fun p => (gShok2 (tC T) (pbar p) (ps T p)).g.val) (-(gShok2 (tC T) (pbar P) (ps T P)).gP.val) P := by
  have hr : ∀ p, ¬ inRegionII (tC T).val (pbar p).val := fun p => by
    rw [val_tC, inRegionII_iff]; rintro ⟨h, _⟩; linarith
  have ea : -0.2037662e+01 + 0.5747000e-02 * (T - 273.15) + -0.6557892e-05 * (T - 273.15) ^ 2 = ga (T - 273.15) := by
    simp only [ga]; ring
  have eb : 0.6107361e+01 + -0.1074377e-01 * (T - 273.15) + 0.1268348e-04 * (T - 273.15) ^ 2 = gb (T - 273.15) := by
    simp only [gb]; ring
  have eP : ∀ᶠ p in nhds P, 1000 < (ps T p).density.val := hs.dP.continuousAt.eventually_const_lt h1
  have hd : 0 < (ps T P).density.val / 1000 - 1 := by linarith
  have habs : ∀ x : ℝ, 1000 < x → |1 - x / 1000| = x / 1000 - 1 := fun x hx => by rw [abs_of_neg (by linarith)]; ring
  have hg : ∀ p, gShok2 (tC T) (pbar p) (ps T p) = gShok2I (tC T) (ps T p) := fun p => by simp only [gShok2, if_neg (hr p)]
  simp only [hg]
  simp only [gShok2I, TS.op_val_add, TS.op_val_addL, TS.op_val_addR, TS.op_val_neg, TS.op_val_sub,
    TS.op_val_subL, TS.op_val_subR, TS.op_val_mul, TS.op_val_mulL, TS.op_val_mulR, TS.op_val_div, TS.op_val_divL, TS.op_val_divR,
    TS.val_powR, val_tC, Real.rpow_ofNat, ea, eb, habs _ h1]
  have h := (((hs.dP.div_const 1000).sub_const 1).rpow_const (p := gb (T - 273.15)) (Or.inl hd.ne')).const_mul (ga (T - 273.15))
  refine (h.congr_deriv ?_).congr_of_eventuallyEq (eP.mono fun p hp => ?_)
  · ring
  · simp only [habs _ hp]

/-- **C72 does not hold for the gems implementation**: at 273 K and 10 bar, 1028 kg/m³, the reported pressure derivative is wrong. -/
theorem C72_gems_refuted :
    ∃ (ps : ℝ → ℝ → Solv) (T P : ℝ), SolvSmooth ps T P ∧ 0 < (ps T P).density.val ∧ (ps T P).density.val ≠ 1000 ∧
      ¬ GFirst (fun t p => gShok2 (tC t) (pbar p) (ps t p)) T P := by
  have hs : SolvSmooth (fun t p => (sampleRho t p).toSolv) 273 1e6 := sampleSolv_smooth (by norm_num)
  refine ⟨fun t p => (sampleRho t p).toSolv, 273, 1e6, hs, ?_, ?_, fun h => ?_⟩
  · simp only [sampleRho, TS.val_ofVal]; norm_num
  · simp only [sampleRho, TS.val_ofVal]; norm_num
  · have hw := C72_gems_wrong_sign _ 273 1e6 hs (by simp only [sampleRho, TS.val_ofVal]; norm_num) (by norm_num)
    have hu := h.gP.unique hw
    have hz : (gShok2 (tC 273) (pbar 1e6) (sampleRho 273 1e6).toSolv).gP.val = 0 := by linarith
    have hr : ¬ inRegionII (tC 273).val (pbar 1e6).val := by
      rw [val_tC, inRegionII_iff]; rintro ⟨h, _⟩; norm_num at h
    simp only [gShok2, if_neg hr] at hz
    simp only [gShok2I, TS.op_val_add, TS.op_val_addL, TS.op_val_addR, TS.op_val_neg, TS.op_val_sub,
      TS.op_val_subL, TS.op_val_subR, TS.op_val_mul, TS.op_val_mulL, TS.op_val_mulR, TS.op_val_div, TS.op_val_divL, TS.op_val_divR,
      TS.val_powR, val_tC, Real.rpow_ofNat, sampleRho, TS.val_ofVal, mul_eq_zero, neg_eq_zero] at hz
    have hpos : (0 : ℝ) < |1 - (1300 - 273 + 1e6 / 1e6) / 1000| := by norm_num
    rcases hz with ((hz | hz) | hz) | hz
    · norm_num at hz
    · norm_num at hz
    · exact (Real.rpow_pos_of_pos hpos _).ne' hz
    · norm_num at hz

end ThermoFun

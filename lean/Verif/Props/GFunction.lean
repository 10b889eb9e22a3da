import Verif.Props.Born

/-!
Property C72: the derivatives of the solvent g function.
-/

set_option linter.unusedSimpArgs false

namespace ThermoFun

/-! ### The analytic core: a (1 - ρ/1000)^b -/

/-- a (1 - ρ/1000)^b. -/
noncomputable def g0 (a b ρ : ℝ) : ℝ := a * (1 - ρ / 1000) ^ b
/-- The logarithmic derivative of `g0` along a direction with derivatives a', b', ρ'. -/
noncomputable def gq (a a' b b' ρ ρ' : ℝ) : ℝ := a' / a + b' * Real.log (1 - ρ / 1000) - ρ' / 1000 * b / (1 - ρ / 1000)
/-- The derivative of `g0`. -/
noncomputable def g1 (a a' b b' ρ ρ' : ℝ) : ℝ := g0 a b ρ * gq a a' b b' ρ ρ'

section
variable {a b ρ : ℝ → ℝ} {x a' b' ρ' : ℝ}

lemma g0_deriv (ha : HasDerivAt a a' x) (hb : HasDerivAt b b' x) (hρ : HasDerivAt ρ ρ' x) (h1 : ρ x < 1000) (ha0 : a x ≠ 0) :
    HasDerivAt (fun y => g0 (a y) (b y) (ρ y)) (g1 (a x) a' (b x) b' (ρ x) ρ') x := by
  have hD : 0 < 1 - ρ x / 1000 := by linarith
  have h := ha.mul (((hρ.div_const 1000).const_sub 1).rpow hb hD)
  refine h.congr_deriv ?_
  simp only [g1, g0, gq, Real.rpow_sub_one hD.ne']
  generalize (1 - ρ x / 1000) ^ b x = e
  generalize Real.log (1 - ρ x / 1000) = l
  generalize 1 - ρ x / 1000 = d at *
  have := hD.ne'
  field_simp
  ring

/-- The derivative of a first derivative along a second direction. -/
lemma g1_deriv {aT bT ρT : ℝ → ℝ} {aT' bT' ρT' : ℝ} (ha : HasDerivAt a a' x) (hb : HasDerivAt b b' x) (hρ : HasDerivAt ρ ρ' x)
    (haT : HasDerivAt aT aT' x) (hbT : HasDerivAt bT bT' x) (hρT : HasDerivAt ρT ρT' x) (h1 : ρ x < 1000) (ha0 : a x ≠ 0) :
    HasDerivAt (fun y => g1 (a y) (aT y) (b y) (bT y) (ρ y) (ρT y))
      (g0 (a x) (b x) (ρ x) * (gq (a x) a' (b x) b' (ρ x) ρ' * gq (a x) (aT x) (b x) (bT x) (ρ x) (ρT x)
        + (aT' / a x - aT x * a' / a x ^ 2 + bT' * Real.log (1 - ρ x / 1000) - bT x * ρ' / 1000 / (1 - ρ x / 1000)
          - ρT' / 1000 * b x / (1 - ρ x / 1000) - ρT x / 1000 * b' / (1 - ρ x / 1000)
          - ρT x / 1000 * b x * (ρ' / 1000) / (1 - ρ x / 1000) ^ 2))) x := by
  have hD : 0 < 1 - ρ x / 1000 := by linarith
  have hd := (hρ.div_const 1000).const_sub 1
  have hq : HasDerivAt (fun y => gq (a y) (aT y) (b y) (bT y) (ρ y) (ρT y)) _ x :=
    ((haT.div ha ha0).add (hbT.mul (hd.log hD.ne'))).sub (((hρT.div_const 1000).mul hb).div hd hD.ne')
  have h := (g0_deriv ha hb hρ h1 ha0).mul hq
  refine h.congr_deriv ?_
  simp only [g1, Pi.mul_apply]
  generalize g0 (a x) (b x) (ρ x) = e
  simp only [gq]
  generalize Real.log (1 - ρ x / 1000) = l
  generalize 1 - ρ x / 1000 = d at *
  have := hD.ne'
  field_simp
  ring

end

/-- The coefficient a of the g function, temperature in °C. -/
noncomputable def ga (t : ℝ) : ℝ := -2.037662 + 5.747000e-03 * t + -6.557892e-06 * t * t
/-- The coefficient b of the g function. -/
noncomputable def gb (t : ℝ) : ℝ := 6.107361 + -1.074377e-02 * t + 1.268348e-05 * t * t
/-- da/dT. -/
noncomputable def gaT (t : ℝ) : ℝ := 5.747000e-03 + 2 * -6.557892e-06 * t
/-- db/dT. -/
noncomputable def gbT (t : ℝ) : ℝ := -1.074377e-02 + 2 * 1.268348e-05 * t

lemma ga_deriv (T : ℝ) : HasDerivAt (fun t => ga (t - 273.15)) (gaT (T - 273.15)) T := by
  have hid := (hasDerivAt_id' T).sub_const 273.15
  exact (((hid.const_mul 5.747000e-03).const_add (-2.037662)).add ((hid.const_mul (-6.557892e-06)).mul hid)).congr_deriv
    (by simp only [gaT]; ring)
lemma gb_deriv (T : ℝ) : HasDerivAt (fun t => gb (t - 273.15)) (gbT (T - 273.15)) T := by
  have hid := (hasDerivAt_id' T).sub_const 273.15
  exact (((hid.const_mul (-1.074377e-02)).const_add 6.107361).add ((hid.const_mul 1.268348e-05).mul hid)).congr_deriv
    (by simp only [gbT]; ring)
lemma gaT_deriv (T : ℝ) : HasDerivAt (fun t => gaT (t - 273.15)) (2 * -6.557892e-06) T :=
  ((((hasDerivAt_id' T).sub_const 273.15).const_mul (2 * -6.557892e-06)).const_add _).congr_deriv (by ring)
lemma gbT_deriv (T : ℝ) : HasDerivAt (fun t => gbT (t - 273.15)) (2 * 1.268348e-05) T :=
  ((((hasDerivAt_id' T).sub_const 273.15).const_mul (2 * 1.268348e-05)).const_add _).congr_deriv (by ring)

/-- The temperature part of the region II correction, `x` = (t - 155)/300 with `t` in °C. -/
noncomputable def gft (c x : ℝ) : ℝ := x ^ (4.8 : ℝ) + c * x ^ 16
/-- Its derivative by the temperature. -/
noncomputable def gftT (c x : ℝ) : ℝ := (4.8 * x ^ (4.8 : ℝ) + 16 * c * x ^ 16) / (300 * x)
/-- Its second derivative by the temperature. -/
noncomputable def gftTT (c x : ℝ) : ℝ := (18.24 * x ^ (4.8 : ℝ) + 240 * c * x ^ 16) / (300 * x) ^ 2
/-- The pressure part, `y` = 1000 - p with `p` in bar. -/
noncomputable def gfp (c d y : ℝ) : ℝ := c * y ^ 3 + d * y ^ 4
/-- Its derivative by the pressure in Pa. -/
noncomputable def gfpP (c d y : ℝ) : ℝ := -(3 * c * y ^ 2 + 4 * d * y ^ 3) / 1e5
/-- Its second derivative by the pressure in Pa. -/
noncomputable def gfpPP (c d y : ℝ) : ℝ := (6 * c * y + 12 * d * y ^ 2) / 1e10

/-- (t - 155)/300 with `t` in K. -/
noncomputable def gx (t : ℝ) : ℝ := (t - 273.15 - 155) / 300
/-- 1000 - p with `p` in Pa. -/
noncomputable def gy (p : ℝ) : ℝ := 1000 - p / 1e5

lemma gx_deriv (T : ℝ) : HasDerivAt gx (1 / 300) T := (((hasDerivAt_id' T).sub_const _).sub_const _).div_const _
lemma gy_deriv (P : ℝ) : HasDerivAt gy (-1 / 1e5) P :=
  (((hasDerivAt_id' P).div_const _).const_sub _).congr_deriv (by ring)

lemma gft_deriv (c : ℝ) {T : ℝ} (hx : 0 < gx T) : HasDerivAt (fun t => gft c (gx t)) (gftT c (gx T)) T := by
  have h := ((gx_deriv T).rpow_const (p := 4.8) (Or.inl hx.ne')).add (((gx_deriv T).pow 16).const_mul c)
  refine (h.congr_deriv ?_).congr_of_eventuallyEq (Filter.Eventually.of_forall fun t => rfl)
  rw [Real.rpow_sub_one hx.ne']
  simp only [gftT]
  have := hx.ne'
  generalize gx T ^ (4.8 : ℝ) = e
  push_cast
  field_simp

lemma gftT_deriv (c : ℝ) {T : ℝ} (hx : 0 < gx T) : HasDerivAt (fun t => gftT c (gx t)) (gftTT c (gx T)) T := by
  have h := ((((gx_deriv T).rpow_const (p := 4.8) (Or.inl hx.ne')).const_mul 4.8).add (((gx_deriv T).pow 16).const_mul (16 * c))).div
    ((gx_deriv T).const_mul 300) (mul_ne_zero (by norm_num) hx.ne')
  refine (h.congr_deriv ?_).congr_of_eventuallyEq (Filter.Eventually.of_forall fun t => rfl)
  rw [Real.rpow_sub_one hx.ne']
  simp only [gftTT, Pi.add_apply, Pi.pow_apply]
  have := hx.ne'
  generalize gx T ^ (4.8 : ℝ) = e
  push_cast
  field_simp
  ring

lemma gfp_deriv (c d P : ℝ) : HasDerivAt (fun p => gfp c d (gy p)) (gfpP c d (gy P)) P := by
  have h := (((gy_deriv P).pow 3).const_mul c).add (((gy_deriv P).pow 4).const_mul d)
  refine (h.congr_deriv ?_).congr_of_eventuallyEq (Filter.Eventually.of_forall fun t => rfl)
  simp only [gfpP]; push_cast; ring

lemma gfpP_deriv (c d P : ℝ) : HasDerivAt (fun p => gfpP c d (gy p)) (gfpPP c d (gy P)) P := by
  have h := ((((gy_deriv P).pow 2).const_mul (3 * c)).add (((gy_deriv P).pow 3).const_mul (4 * d))).neg.div_const 1e5
  refine (h.congr_deriv ?_).congr_of_eventuallyEq (Filter.Eventually.of_forall fun t => rfl)
  simp only [gfpPP]; push_cast; ring

/-! ### What `functionG` computes -/

/-- The solvent density given to the model has, at (T, P), the partial derivatives it says it has. -/
structure DensitySmooth (ps : ℝ → ℝ → PSolv) (T P : ℝ) : Prop where
  dT : HasDerivAt (fun t => (ps t P).density.val) (ps T P).densityT.val T
  dP : HasDerivAt (fun p => (ps T p).density.val) (ps T P).densityP.val P
  dTT : HasDerivAt (fun t => (ps t P).densityT.val) (ps T P).densityTT.val T
  dTP : HasDerivAt (fun p => (ps T p).densityT.val) (ps T P).densityTP.val P
  dPP : HasDerivAt (fun p => (ps T p).densityP.val) (ps T P).densityPP.val P

lemma val_pow (a b : TS) : (TS.pow a b).val = a.val ^ b.val := by simp only [TS.pow]; split <;> rfl

/-- First-order values in region I. -/
lemma functionGI_1 (t : ℝ) {ps : PSolv} (hρ0 : ps.density.val ≠ 0) :
    let F := functionGI (TS.temperature t) ps
    F.g.val = g0 (ga (t - 273.15)) (gb (t - 273.15)) ps.density.val ∧
    F.gT.val = g1 (ga (t - 273.15)) (gaT (t - 273.15)) (gb (t - 273.15)) (gbT (t - 273.15)) ps.density.val ps.densityT.val ∧
    F.gP.val = g1 (ga (t - 273.15)) 0 (gb (t - 273.15)) 0 ps.density.val ps.densityP.val := by
  simp only [functionGI, TS.op_val_add, TS.op_val_addL, TS.op_val_addR, TS.op_val_neg, TS.op_val_sub, TS.op_val_subL, TS.op_val_subR,
    TS.op_val_mul, TS.op_val_mulL, TS.op_val_mulR, TS.op_val_div, TS.op_val_divL, TS.op_val_divR, TS.val_powR, val_pow, TS.val_log,
    TS.val_temperature, g0, g1, gq, ga, gb, gaT, gbT]
  generalize (ps.density.val) = ρ at *
  generalize t - 273.15 = c at *
  have e1 : ρ / 1000 * (-ps.densityT.val / ρ) = -(ps.densityT.val / 1000) := by field_simp
  have e2 : ∀ k : ℝ, k * (ρ / 1000) * (ps.densityP.val / ρ) = k * (ps.densityP.val / 1000) := fun k => by field_simp
  simp only [e1, e2]
  refine ⟨?_, ?_, ?_⟩ <;> first | trivial | ring

/-- Second-order values in region I. -/
lemma functionGI_2 {t : ℝ} {ps : PSolv} (hρ : ps.density.val < 1000) (hρ0 : ps.density.val ≠ 0)
    (ha : ga (t - 273.15) ≠ 0) (hb : gb (t - 273.15) ≠ 0) (hT0 : ps.densityT.val ≠ 0) (hP0 : ps.densityP.val ≠ 0) :
    let F := functionGI (TS.temperature t) ps
    let a := ga (t - 273.15)
    let b := gb (t - 273.15)
    let a' := gaT (t - 273.15)
    let b' := gbT (t - 273.15)
    let ρ := ps.density.val
    let ρT := ps.densityT.val
    let ρP := ps.densityP.val
    let d := 1 - ρ / 1000
    F.gTT.val = g0 a b ρ * (gq a a' b b' ρ ρT * gq a a' b b' ρ ρT + (2 * -6.557892e-06 / a - a' * a' / a ^ 2
      + 2 * 1.268348e-05 * Real.log d - b' * ρT / 1000 / d - ps.densityTT.val / 1000 * b / d - ρT / 1000 * b' / d
      - ρT / 1000 * b * (ρT / 1000) / d ^ 2)) ∧
    F.gTP.val = g0 a b ρ * (gq a 0 b 0 ρ ρP * gq a a' b b' ρ ρT + (0 / a - a' * 0 / a ^ 2
      + 0 * Real.log d - b' * ρP / 1000 / d - ps.densityTP.val / 1000 * b / d - ρT / 1000 * 0 / d
      - ρT / 1000 * b * (ρP / 1000) / d ^ 2)) ∧
    F.gPP.val = g0 a b ρ * (gq a 0 b 0 ρ ρP * gq a 0 b 0 ρ ρP + (0 / a - 0 * 0 / a ^ 2
      + 0 * Real.log d - 0 * ρP / 1000 / d - ps.densityPP.val / 1000 * b / d - ρP / 1000 * 0 / d
      - ρP / 1000 * b * (ρP / 1000) / d ^ 2)) := by
  have hd : 1 - ps.density.val / 1000 ≠ 0 := by intro h; apply hρ.ne; linarith
  have hg : (1 - ps.density.val / 1000) ^ gb (t - 273.15) ≠ 0 := (Real.rpow_pos_of_pos (by linarith) _).ne'
  have ea : -2.037662 + 5.747000e-03 * (t - 273.15) + -6.557892e-06 * (t - 273.15) * (t - 273.15) = ga (t - 273.15) := rfl
  have eb : 6.107361 + -1.074377e-02 * (t - 273.15) + 1.268348e-05 * (t - 273.15) * (t - 273.15) = gb (t - 273.15) := rfl
  have ea' : 5.747000e-03 + 2 * -6.557892e-06 * (t - 273.15) = gaT (t - 273.15) := rfl
  have eb' : -1.074377e-02 + 2 * 1.268348e-05 * (t - 273.15) = gbT (t - 273.15) := rfl
  simp only [functionGI, TS.op_val_add, TS.op_val_addL, TS.op_val_addR, TS.op_val_neg, TS.op_val_sub, TS.op_val_subL, TS.op_val_subR,
    TS.op_val_mul, TS.op_val_mulL, TS.op_val_mulR, TS.op_val_div, TS.op_val_divL, TS.op_val_divR, TS.val_powR, val_pow, TS.val_log,
    TS.val_temperature, Real.rpow_ofNat, ea, eb, ea', eb', g0, gq]
  generalize Real.log (1 - ps.density.val / 1000) = l
  generalize (1 - ps.density.val / 1000) ^ gb (t - 273.15) = e at *
  clear ea eb ea' eb'
  generalize ga (t - 273.15) = a at *
  generalize gb (t - 273.15) = b at *
  generalize gaT (t - 273.15) = a' at *
  generalize gbT (t - 273.15) = b' at *
  generalize ps.densityT.val = ρT at *
  generalize ps.densityP.val = ρP at *
  generalize ps.densityTT.val = ρTT at *
  generalize ps.densityTP.val = ρTP at *
  generalize ps.densityPP.val = ρPP at *
  generalize ps.density.val = ρ at *
  obtain ⟨d, hd'⟩ : ∃ d, d = 1 - ρ / 1000 := ⟨_, rfl⟩
  rw [← hd'] at hd ⊢
  obtain rfl : ρ = 1000 * (1 - d) := by rw [hd']; ring
  have hd1 : 1 - d ≠ 0 := by intro h; apply hρ0; rw [h]; ring
  refine ⟨?_, ?_, ?_⟩ <;> (field_simp; ring)

lemma ga_ne (t : ℝ) : ga t ≠ 0 := by
  have : ga t < 0 := by simp only [ga]; nlinarith [sq_nonneg (t - 438)]
  exact this.ne
lemma gb_ne (t : ℝ) : gb t ≠ 0 := by
  have : 0 < gb t := by simp only [gb]; nlinarith [sq_nonneg (t - 423)]
  exact this.ne'

lemma GSmooth.congr {F F' : ℝ → ℝ → FunG} {T P : ℝ} (h : GSmooth F T P) (hT : ∀ᶠ t in nhds T, F' t P = F t P)
    (hP : ∀ᶠ p in nhds P, F' T p = F T p) : GSmooth F' T P := by
  have h0 : F' T P = F T P := hT.self_of_nhds
  refine ⟨?_, ?_, ?_, ?_, ?_⟩ <;> rw [h0]
  · exact h.gT.congr_of_eventuallyEq (hT.mono fun t ht => by simp only [ht])
  · exact h.gP.congr_of_eventuallyEq (hP.mono fun t ht => by simp only [ht])
  · exact h.gTT.congr_of_eventuallyEq (hT.mono fun t ht => by simp only [ht])
  · exact h.gTP.congr_of_eventuallyEq (hP.mono fun t ht => by simp only [ht])
  · exact h.gPP.congr_of_eventuallyEq (hP.mono fun t ht => by simp only [ht])

lemma GI_smooth {ps : ℝ → ℝ → PSolv} {T P : ℝ} (hs : DensitySmooth ps T P) (h0 : (ps T P).density.val ≠ 0)
    (h1 : (ps T P).density.val < 1000) (hT0 : (ps T P).densityT.val ≠ 0) (hP0 : (ps T P).densityP.val ≠ 0) :
    GSmooth (fun t p => functionGI (TS.temperature t) (ps t p)) T P := by
  have eT : ∀ᶠ t in nhds T, (ps t P).density.val ≠ 0 := hs.dT.continuousAt.eventually_ne h0
  have eP : ∀ᶠ p in nhds P, (ps T p).density.val ≠ 0 := hs.dP.continuousAt.eventually_ne h0
  obtain ⟨k1, k2, k3⟩ := functionGI_1 T h0
  obtain ⟨k4, k5, k6⟩ := functionGI_2 (t := T) h1 h0 (ga_ne _) (gb_ne _) hT0 hP0
  have hc := fun c : ℝ => hasDerivAt_const P c
  refine ⟨?_, ?_, ?_, ?_, ?_⟩
  · rw [k2]
    refine (g0_deriv (ga_deriv T) (gb_deriv T) hs.dT h1 (ga_ne _)).congr_of_eventuallyEq (eT.mono fun t ht => ?_)
    exact (functionGI_1 t ht).1
  · rw [k3]
    refine (g0_deriv (hc (ga (T - 273.15))) (hc (gb (T - 273.15))) hs.dP h1 (ga_ne _)).congr_of_eventuallyEq (eP.mono fun t ht => ?_)
    exact (functionGI_1 T ht).1
  · rw [k4]
    refine (g1_deriv (ga_deriv T) (gb_deriv T) hs.dT (gaT_deriv T) (gbT_deriv T) hs.dTT h1 (ga_ne _)).congr_of_eventuallyEq
      (eT.mono fun t ht => ?_)
    exact (functionGI_1 t ht).2.1
  · rw [k5]
    refine (g1_deriv (hc (ga (T - 273.15))) (hc (gb (T - 273.15))) hs.dP (hc (gaT (T - 273.15))) (hc (gbT (T - 273.15))) hs.dTP h1
      (ga_ne _)).congr_of_eventuallyEq (eP.mono fun t ht => ?_)
    exact (functionGI_1 T ht).2.1
  · rw [k6]
    refine (g1_deriv (hc (ga (T - 273.15))) (hc (gb (T - 273.15))) hs.dP (hc 0) (hc 0) hs.dPP h1
      (ga_ne _)).congr_of_eventuallyEq (eP.mono fun t ht => ?_)
    exact (functionGI_1 T ht).2.2

/-- Values of the correction. -/
lemma functionGII_vals (t p : ℝ) (f : FunG) (hy : gy p ≠ 0) :
    let F := functionGII (TS.temperature t) (pbar p) f
    let c := 3.666660e+01
    let d := -1.504956e-10
    let e := 5.017990e-14
    F.g.val = f.g.val - gft c (gx t) * gfp d e (gy p) ∧
    F.gT.val = f.gT.val - gfp d e (gy p) * gftT c (gx t) ∧
    F.gP.val = f.gP.val - gft c (gx t) * gfpP d e (gy p) ∧
    F.gTT.val = f.gTT.val - gfp d e (gy p) * gftTT c (gx t) ∧
    F.gTP.val = f.gTP.val - gftT c (gx t) * gfpP d e (gy p) ∧
    F.gPP.val = f.gPP.val - gft c (gx t) * gfpPP d e (gy p) := by
  have ex : (t - 273.15 - 155) / 300 = gx t := rfl
  have ey : 1000 - p / 1e5 = gy p := rfl
  simp only [functionGII, TS.op_val_add, TS.op_val_addL, TS.op_val_addR, TS.op_val_neg, TS.op_val_sub, TS.op_val_subL, TS.op_val_subR,
    TS.op_val_mul, TS.op_val_mulL, TS.op_val_mulR, TS.op_val_div, TS.op_val_divL, TS.op_val_divR, TS.val_powR, TS.val_subAssign,
    TS.val_temperature, val_pbar, Real.rpow_ofNat, ex, ey, gft, gftT, gftTT, gfp, gfpP, gfpPP]
  generalize gx t ^ (4.8 : ℝ) = u
  have e1 : ∀ c d : ℝ, -(3 * c * gy p ^ 3 + 4 * d * gy p ^ 4) / (gy p * 1e5) = -(3 * c * gy p ^ 2 + 4 * d * gy p ^ 3) / 1e5 := by
    intro c d; field_simp
  have e2 : ∀ c d : ℝ, (6 * c * gy p ^ 3 + 12 * d * gy p ^ 4) / (gy p * 1e5) ^ 2 = (6 * c * gy p + 12 * d * gy p ^ 2) / 1e10 := by
    intro c d; field_simp; ring
  simp only [e1, e2]
  refine ⟨?_, ?_, ?_, ?_, ?_, ?_⟩ <;> first | trivial | ring

/-! ### The correction on the boundaries of region II -/

/-- The temperature part of the correction, which is zero up to 155 °C. -/
noncomputable def cft (c t : ℝ) : ℝ := if 0 < gx t then gft c (gx t) else 0
/-- Its derivative by the temperature. -/
noncomputable def cftT (c t : ℝ) : ℝ := if 0 < gx t then gftT c (gx t) else 0
/-- Its second derivative by the temperature. -/
noncomputable def cftTT (c t : ℝ) : ℝ := if 0 < gx t then gftTT c (gx t) else 0
/-- The pressure part of the correction, which is zero from 1000 bar on. -/
noncomputable def cfp (c d p : ℝ) : ℝ := if 0 < gy p then gfp c d (gy p) else 0
/-- Its derivative by the pressure. -/
noncomputable def cfpP (c d p : ℝ) : ℝ := if 0 < gy p then gfpP c d (gy p) else 0
/-- Its second derivative by the pressure. -/
noncomputable def cfpPP (c d p : ℝ) : ℝ := if 0 < gy p then gfpPP c d (gy p) else 0

/-- A function made of zero where `u` is not positive and of `f` where it is has a derivative, if `f` has and both vanish where `u` does. -/
lemma glue_deriv {u f f' : ℝ → ℝ} {x : ℝ} (hu : ContinuousAt u x) (h0 : u x = 0 → f x = 0 ∧ f' x = 0)
    (hf : 0 ≤ u x → HasDerivAt f (f' x) x) :
    HasDerivAt (fun t => if 0 < u t then f t else 0) (if 0 < u x then f' x else 0) x := by
  rcases lt_trichotomy (u x) 0 with h | h | h
  · rw [if_neg h.not_gt]
    refine (hasDerivAt_const x (0 : ℝ)).congr_of_eventuallyEq ?_
    filter_upwards [hu.eventually_lt_const h] with t ht
    rw [if_neg ht.not_gt]
  · rw [if_neg h.not_gt]
    have hd := hf h.ge
    rw [(h0 h).2] at hd
    have h1 : HasDerivWithinAt (fun t => if 0 < u t then f t else 0) 0 {t | 0 < u t} x := by
      refine hd.hasDerivWithinAt.congr (fun t ht => if_pos ht) ?_
      rw [if_neg h.not_gt, (h0 h).1]
    have h2 : HasDerivWithinAt (fun t => if 0 < u t then f t else 0) 0 {t | 0 < u t}ᶜ x := by
      refine (hasDerivWithinAt_const x _ (0 : ℝ)).congr (fun t ht => if_neg ht) ?_
      rw [if_neg h.not_gt]
    have := h1.union h2
    rwa [Set.union_compl_self, hasDerivWithinAt_univ] at this
  · rw [if_pos h]
    refine (hf h.le).congr_of_eventuallyEq ?_
    filter_upwards [hu.eventually_const_lt h] with t ht
    rw [if_pos ht]

/-- The same for continuity. -/
lemma glue_cont {X : Type*} [TopologicalSpace X] {u f : X → ℝ} {x : X} (hu : ContinuousAt u x) (h0 : u x = 0 → f x = 0)
    (hf : 0 ≤ u x → ContinuousAt f x) : ContinuousAt (fun t => if 0 < u t then f t else 0) x := by
  rcases lt_trichotomy (u x) 0 with h | h | h
  · refine (continuousAt_const (y := (0 : ℝ))).congr ?_
    filter_upwards [hu.eventually_lt_const h] with t ht
    rw [if_neg ht.not_gt]
  · have h1 : ContinuousWithinAt (fun t => if 0 < u t then f t else 0) {t | 0 < u t} x := by
      refine (hf h.ge).continuousWithinAt.congr (fun t ht => if_pos ht) ?_
      rw [if_neg h.not_gt, h0 h]
    have h2 : ContinuousWithinAt (fun t => if 0 < u t then f t else 0) {t | 0 < u t}ᶜ x := by
      refine (continuousWithinAt_const (b := (0 : ℝ))).congr (fun t ht => if_neg ht) ?_
      rw [if_neg h.not_gt]
    have := h1.union h2
    rwa [Set.union_compl_self, continuousWithinAt_univ] at this
  · refine (hf h.le).congr ?_
    filter_upwards [hu.eventually_const_lt h] with t ht
    rw [if_pos ht]

lemma rp1 (x : ℝ) (hx : 0 ≤ x) : x ^ (4.8 : ℝ) = x ^ (3.8 : ℝ) * x := by
  rcases hx.eq_or_lt with rfl | h
  · rw [mul_zero, Real.zero_rpow (by norm_num)]
  · rw [show (4.8 : ℝ) = 3.8 + 1 by norm_num, Real.rpow_add h, Real.rpow_one]
lemma rp2 (x : ℝ) (hx : 0 ≤ x) : x ^ (3.8 : ℝ) = x ^ (2.8 : ℝ) * x := by
  rcases hx.eq_or_lt with rfl | h
  · rw [mul_zero, Real.zero_rpow (by norm_num)]
  · rw [show (3.8 : ℝ) = 2.8 + 1 by norm_num, Real.rpow_add h, Real.rpow_one]

lemma gftT_eq (c : ℝ) {x : ℝ} (hx : 0 ≤ x) : gftT c x = (4.8 * x ^ (3.8 : ℝ) + 16 * c * x ^ 15) / 300 := by
  rw [gftT, rp1 x hx]
  rcases hx.eq_or_lt with rfl | h
  · rw [Real.zero_rpow (by norm_num)]; norm_num
  · field_simp
lemma gftTT_eq (c : ℝ) {x : ℝ} (hx : 0 ≤ x) : gftTT c x = (18.24 * x ^ (2.8 : ℝ) + 240 * c * x ^ 14) / 90000 := by
  rw [gftTT, rp1 x hx, rp2 x hx]
  rcases hx.eq_or_lt with rfl | h
  · rw [Real.zero_rpow (by norm_num)]; norm_num
  · field_simp
    ring

lemma gx_cont (T : ℝ) : ContinuousAt gx T := (gx_deriv T).continuousAt
lemma gy_cont (P : ℝ) : ContinuousAt gy P := (gy_deriv P).continuousAt

lemma cft_deriv (c T : ℝ) : HasDerivAt (cft c) (cftT c T) T := by
  refine glue_deriv (u := gx) (f := fun t => gft c (gx t)) (f' := fun t => gftT c (gx t)) (gx_cont T) (fun h => ?_) (fun h => ?_)
  · simp only [h, gft, gftT_eq c le_rfl]
    rw [Real.zero_rpow (by norm_num), Real.zero_rpow (by norm_num)]; norm_num
  · have h1 := ((gx_deriv T).rpow_const (p := 4.8) (Or.inr (by norm_num))).add (((gx_deriv T).pow 16).const_mul c)
    refine (h1.congr_deriv ?_).congr_of_eventuallyEq (Filter.Eventually.of_forall fun t => rfl)
    rw [gftT_eq c h, show (4.8 : ℝ) - 1 = 3.8 by norm_num]
    push_cast; ring

lemma cftT_deriv (c T : ℝ) : HasDerivAt (cftT c) (cftTT c T) T := by
  have hc : (cftT c) = fun t => if 0 < gx t then (4.8 * gx t ^ (3.8 : ℝ) + 16 * c * gx t ^ 15) / 300 else 0 := by
    funext t
    by_cases h : 0 < gx t
    · simp only [cftT, if_pos h, gftT_eq c h.le]
    · simp only [cftT, if_neg h]
  rw [hc]
  refine glue_deriv (u := gx) (f := fun t => (4.8 * gx t ^ (3.8 : ℝ) + 16 * c * gx t ^ 15) / 300) (f' := fun t => gftTT c (gx t)) (gx_cont T) (fun h => ?_) (fun h => ?_)
  · simp only [h, gftTT_eq c le_rfl]
    rw [Real.zero_rpow (by norm_num), Real.zero_rpow (by norm_num)]; norm_num
  · have h1 := ((((gx_deriv T).rpow_const (p := 3.8) (Or.inr (by norm_num))).const_mul 4.8).add (((gx_deriv T).pow 15).const_mul (16 * c))).div_const 300
    refine (h1.congr_deriv ?_).congr_of_eventuallyEq (Filter.Eventually.of_forall fun t => rfl)
    rw [gftTT_eq c h, show (3.8 : ℝ) - 1 = 2.8 by norm_num]
    push_cast; ring

lemma cfp_deriv (c d P : ℝ) : HasDerivAt (cfp c d) (cfpP c d P) P :=
  glue_deriv (u := gy) (f := fun t => gfp c d (gy t)) (f' := fun t => gfpP c d (gy t)) (gy_cont P)
    (fun h => by simp [h, gfp, gfpP]) (fun _ => gfp_deriv c d P)
lemma cfpP_deriv (c d P : ℝ) : HasDerivAt (cfpP c d) (cfpPP c d P) P :=
  glue_deriv (u := gy) (f := fun t => gfpP c d (gy t)) (f' := fun t => gfpPP c d (gy t)) (gy_cont P)
    (fun h => by simp [h, gfpP, gfpPP]) (fun _ => gfpP_deriv c d P)

lemma cftTT_cont (c T : ℝ) : ContinuousAt (cftTT c) T := by
  have hc : (cftTT c) = fun t => if 0 < gx t then (18.24 * gx t ^ (2.8 : ℝ) + 240 * c * gx t ^ 14) / 90000 else 0 := by
    funext t
    by_cases h : 0 < gx t
    · simp only [cftTT, if_pos h, gftTT_eq c h.le]
    · simp only [cftTT, if_neg h]
  rw [hc]
  refine glue_cont (u := gx) (gx_cont T) (fun h => ?_) (fun h => ?_)
  · rw [h, Real.zero_rpow (by norm_num)]; norm_num
  · exact (((((gx_cont T).rpow_const (Or.inr (by norm_num))).const_mul _).add (((gx_cont T).pow 14).const_mul _))).div_const _
lemma cfpPP_cont (c d P : ℝ) : ContinuousAt (cfpPP c d) P := by
  refine glue_cont (u := gy) (gy_cont P) (fun h => by simp [h, gfpPP]) (fun _ => ?_)
  have := gy_cont P
  simp only [gfpPP]
  fun_prop

lemma gx_pos (t : ℝ) : 0 < gx t ↔ 155 < t - 273.15 := by simp only [gx]; constructor <;> intro h <;> linarith
lemma gy_pos (p : ℝ) : 0 < gy p ↔ p / 1e5 < 1000 := by simp only [gy]; constructor <;> intro h <;> linarith

/-- A g function with the correction in every region, written with functions that vanish outside region II. -/
structure Corrected (F : FunG) (f : FunG) (c d e t p : ℝ) : Prop where
  g : F.g.val = f.g.val - cft c t * cfp d e p
  gT : F.gT.val = f.gT.val - cfp d e p * cftT c t
  gP : F.gP.val = f.gP.val - cft c t * cfpP d e p
  gTT : F.gTT.val = f.gTT.val - cfp d e p * cftTT c t
  gTP : F.gTP.val = f.gTP.val - cftT c t * cfpP d e p
  gPP : F.gPP.val = f.gPP.val - cft c t * cfpPP d e p

/-! ### C72 -/

lemma inRegionII_iff (c p : ℝ) : inRegionII c p ↔ 155 < c ∧ p < 1000 := by
  unfold inRegionII
  constructor
  · rintro (⟨h1, h2, h3⟩ | ⟨h1, h2, h3⟩ | ⟨h1, h2⟩) <;> constructor <;> linarith
  · rintro ⟨h1, h2⟩
    rcases lt_or_ge c 355 with h3 | h3
    · exact Or.inl ⟨h1, h3, h2⟩
    · rcases lt_or_ge p 500 with h4 | h4
      · exact Or.inr (Or.inr ⟨h3, h4⟩)
      · exact Or.inr (Or.inl ⟨h3, h4, h2⟩)

lemma region_val (t p : ℝ) : inRegionII (TS.temperature t - (273.15 : ℝ)).val (pbar p).val ↔ inRegionII (t - 273.15) (p / 1e5) := by
  rw [TS.op_val_subR, TS.val_temperature, val_pbar]

lemma functionG_vals (t p : ℝ) {ps : PSolv} (h : ps.density.val ≤ 1000) :
    Corrected (functionG (TS.temperature t) (pbar p) ps) (functionGI (TS.temperature t) ps) 3.666660e+01 (-1.504956e-10) 5.017990e-14 t p := by
  by_cases hr : inRegionII (t - 273.15) (p / 1e5)
  · have hr' := (inRegionII_iff _ _).1 hr
    have hx := (gx_pos t).2 hr'.1
    have hy := (gy_pos p).2 hr'.2
    obtain ⟨k1, k2, k3, k4, k5, k6⟩ := functionGII_vals t p (functionGI (TS.temperature t) ps) hy.ne'
    constructor <;>
      simp only [functionG, if_neg (not_lt.mpr h), if_pos ((region_val _ _).2 hr), k1, k2, k3, k4, k5, k6, cft, cftT, cftTT, cfp, cfpP,
        cfpPP, if_pos hx, if_pos hy]
  · have hn : ¬ 0 < gx t ∨ ¬ 0 < gy p := by
      rw [gx_pos, gy_pos]; rw [inRegionII_iff] at hr; exact not_and_or.1 hr
    rcases hn with hn | hn
    · constructor <;>
        simp only [functionG, if_neg (not_lt.mpr h), if_neg (fun h => hr ((region_val _ _).1 h)), cft, cftT, cftTT, if_neg hn, zero_mul,
          mul_zero, sub_zero]
    · constructor <;>
        simp only [functionG, if_neg (not_lt.mpr h), if_neg (fun h => hr ((region_val _ _).1 h)), cfp, cfpP, cfpPP, if_neg hn, zero_mul,
          mul_zero, sub_zero]

/-- The correction keeps the derivatives exact, on the boundaries of region II as well. -/
lemma Corrected.smooth {F f : ℝ → ℝ → FunG} {c d e T P : ℝ} (hT : ∀ᶠ t in nhds T, Corrected (F t P) (f t P) c d e t P)
    (hP : ∀ᶠ p in nhds P, Corrected (F T p) (f T p) c d e T p) (hf : GSmooth f T P) : GSmooth F T P := by
  have h0 := hT.self_of_nhds
  refine ⟨?_, ?_, ?_, ?_, ?_⟩
  · rw [h0.gT]
    refine ((hf.gT.sub ((cft_deriv c T).mul_const _)).congr_deriv ?_).congr_of_eventuallyEq (hT.mono fun t ht => ht.g)
    ring
  · rw [h0.gP]
    exact (hf.gP.sub ((cfp_deriv d e P).const_mul _)).congr_of_eventuallyEq (hP.mono fun t ht => ht.g)
  · rw [h0.gTT]
    exact (hf.gTT.sub ((cftT_deriv c T).const_mul _)).congr_of_eventuallyEq (hT.mono fun t ht => ht.gT)
  · rw [h0.gTP]
    refine ((hf.gTP.sub ((cfp_deriv d e P).mul_const _)).congr_deriv ?_).congr_of_eventuallyEq (hP.mono fun t ht => ht.gT)
    ring
  · rw [h0.gPP]
    exact (hf.gPP.sub ((cfpP_deriv d e P).const_mul _)).congr_of_eventuallyEq (hP.mono fun t ht => ht.gP)

/-- **C72 for the reaktoro implementation.**  For every smooth solvent density, at every point with non-vanishing expansivity and
compressibility where the density is not 1000 kg/m³ (also at 155 °C and at 1000 bar, where the equation changes), the five reported
derivatives of the g function are its derivatives. -/
theorem C72_reaktoro (ps : ℝ → ℝ → PSolv) (T P : ℝ) (hs : DensitySmooth ps T P) (h0 : 0 < (ps T P).density.val)
    (h1 : (ps T P).density.val ≠ 1000) (hT0 : (ps T P).densityT.val ≠ 0) (hP0 : (ps T P).densityP.val ≠ 0) :
    GSmooth (fun t p => functionG (TS.temperature t) (pbar p) (ps t p)) T P := by
  rcases lt_or_gt_of_ne h1 with h1 | h1
  · have eT : ∀ᶠ t in nhds T, (ps t P).density.val < 1000 := hs.dT.continuousAt.eventually_lt_const h1
    have eP : ∀ᶠ p in nhds P, (ps T p).density.val < 1000 := hs.dP.continuousAt.eventually_lt_const h1
    exact Corrected.smooth (eT.mono fun t ht => functionG_vals t P ht.le) (eP.mono fun p hp => functionG_vals T p hp.le)
      (GI_smooth hs h0.ne' h1 hT0 hP0)
  · have eT : ∀ᶠ t in nhds T, 1000 < (ps t P).density.val := hs.dT.continuousAt.eventually_const_lt h1
    have eP : ∀ᶠ p in nhds P, 1000 < (ps T p).density.val := hs.dP.continuousAt.eventually_const_lt h1
    have hz : GSmooth (fun _ _ => (⟨TS.assign .default 0, TS.assign .default 0, TS.assign .default 0, TS.assign .default 0,
        TS.assign .default 0, TS.assign .default 0⟩ : FunG)) T P := by
      constructor <;> simpa only [val_assign] using hasDerivAt_const _ _
    refine hz.congr ?_ ?_
    · filter_upwards [eT] with t ht
      simp only [functionG, if_pos (show (ps t P).density.val > 1000 from ht)]
    · filter_upwards [eP] with t ht
      simp only [functionG, if_pos (show (ps T t).density.val > 1000 from ht)]

/-- A density that varies with T and P. -/
noncomputable def sampleRho : ℝ → ℝ → PSolv := fun t p =>
  { density := .ofVal (1300 - t + p / 1e6), Alpha := .ofVal (1 / (1300 - t + p / 1e6)), Beta := .ofVal (1e-6 / (1300 - t + p / 1e6)),
    dAldT := .ofVal (1 / (1300 - t + p / 1e6) ^ 2), densityT := .ofVal (-1), densityP := .ofVal 1e-6, densityTT := .ofVal 0,
    densityTP := .ofVal 0, densityPP := .ofVal 0 }

lemma sampleRho_smooth (T P : ℝ) : DensitySmooth sampleRho T P := by
  constructor <;> simp only [sampleRho, TS.val_ofVal]
  · exact ((hasDerivAt_id' T).const_sub 1300).add_const _
  · exact (((hasDerivAt_id' P).div_const 1e6).const_add _).congr_deriv (by norm_num)
  · exact hasDerivAt_const _ _
  · exact hasDerivAt_const _ _
  · exact hasDerivAt_const _ _

/-- The hypotheses of `C72_reaktoro` in region II (500 K, 10 bar), on its boundary (155 °C), outside it (400 K) and above 1000 kg/m³
(273 K). -/
example : ∀ T ∈ ({500, 428.15, 400, 273} : Set ℝ), DensitySmooth sampleRho T 1e6 ∧ 0 < (sampleRho T 1e6).density.val ∧
    (sampleRho T 1e6).density.val ≠ 1000 ∧ (sampleRho T 1e6).densityT.val ≠ 0 ∧ (sampleRho T 1e6).densityP.val ≠ 0 := by
  intro T hT
  refine ⟨sampleRho_smooth _ _, ?_⟩
  simp only [Set.mem_insert_iff, Set.mem_singleton_iff] at hT
  rcases hT with rfl | rfl | rfl | rfl <;> simp only [sampleRho, TS.val_ofVal] <;> norm_num

end ThermoFun

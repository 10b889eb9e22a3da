import Mathlib.Analysis.SpecialFunctions.Log.NegMulLog
import Verif.Props.HKFEntry
import Verif.Props.GemsBorn

/-!
Property C158: the properties of a dissolved species do not jump where its model changes its equation.
-/

set_option linter.unusedSimpArgs false

namespace ThermoFun

open Filter Topology

/-- What the reaktoro implementation reads of the solvent is continuous at `x` (T in K, P in Pa). -/
structure SolventCont (ps : ℝ × ℝ → PSolv) (x : ℝ × ℝ) : Prop where
  d : ContinuousAt (fun y => (ps y).density.val) x
  dT : ContinuousAt (fun y => (ps y).densityT.val) x
  dP : ContinuousAt (fun y => (ps y).densityP.val) x
  dTT : ContinuousAt (fun y => (ps y).densityTT.val) x

/-- What the gems implementation reads of the solvent is continuous at `x`. -/
structure ExpansionCont (ps : ℝ × ℝ → Solv) (x : ℝ × ℝ) : Prop where
  d : ContinuousAt (fun y => (ps y).density.val) x
  a : ContinuousAt (fun y => (ps y).Alpha.val) x
  b : ContinuousAt (fun y => (ps y).Beta.val) x
  aT : ContinuousAt (fun y => (ps y).dAldT.val) x

/-- The Born functions of the solvent are continuous at `x`. -/
structure DielCont (es : ℝ × ℝ → ESolv) (x : ℝ × ℝ) : Prop where
  Z : ContinuousAt (fun y => (es y).bornZ.val) x
  Y : ContinuousAt (fun y => (es y).bornY.val) x
  X : ContinuousAt (fun y => (es y).bornX.val) x
  Q : ContinuousAt (fun y => (es y).bornQ.val) x

/-- The eight properties are continuous at `x`, jointly in temperature and pressure. -/
structure PropsCont (f : ℝ × ℝ → TPS) (x : ℝ × ℝ) : Prop where
  G : ContinuousAt (fun y => (f y).G.val) x
  H : ContinuousAt (fun y => (f y).H.val) x
  S : ContinuousAt (fun y => (f y).S.val) x
  Cp : ContinuousAt (fun y => (f y).Cp.val) x
  Cv : ContinuousAt (fun y => (f y).Cv.val) x
  V : ContinuousAt (fun y => (f y).V.val) x
  U : ContinuousAt (fun y => (f y).U.val) x
  A : ContinuousAt (fun y => (f y).A.val) x

/-- The g function and the derivatives of it the models use are continuous at `x`. -/
structure GCont (F : ℝ × ℝ → FunG) (x : ℝ × ℝ) : Prop where
  g : ContinuousAt (fun y => (F y).g.val) x
  gT : ContinuousAt (fun y => (F y).gT.val) x
  gP : ContinuousAt (fun y => (F y).gP.val) x
  gTT : ContinuousAt (fun y => (F y).gTT.val) x

/-- The Born coefficient and its derivatives are continuous at `x`. -/
structure BornCont (E : ℝ × ℝ → ESub) (x : ℝ × ℝ) : Prop where
  w : ContinuousAt (fun y => (E y).w.val) x
  wT : ContinuousAt (fun y => (E y).wT.val) x
  wP : ContinuousAt (fun y => (E y).wP.val) x
  wTT : ContinuousAt (fun y => (E y).wTT.val) x

lemma GCont.congr {F F' : ℝ × ℝ → FunG} {x : ℝ × ℝ} (h : GCont F x) (he : ∀ᶠ y in 𝓝 x, F' y = F y) : GCont F' x :=
  ⟨h.g.congr (he.mono fun y hy => by simp only [hy]), h.gT.congr (he.mono fun y hy => by simp only [hy]),
    h.gP.congr (he.mono fun y hy => by simp only [hy]), h.gTT.congr (he.mono fun y hy => by simp only [hy])⟩

/-! ### The g function -/

/-- The value of `g1` with the second derivatives, as in `functionGI_2` and `gShok2I_vals`. -/
noncomputable def g2 (a a' b b' ρ ρT ρTT : ℝ) : ℝ :=
  g0 a b ρ * (gq a a' b b' ρ ρT * gq a a' b b' ρ ρT + (2 * -6.557892e-06 / a - a' * a' / a ^ 2
    + 2 * 1.268348e-05 * Real.log (1 - ρ / 1000) - b' * ρT / 1000 / (1 - ρ / 1000) - ρTT / 1000 * b / (1 - ρ / 1000)
    - ρT / 1000 * b' / (1 - ρ / 1000) - ρT / 1000 * b * (ρT / 1000) / (1 - ρ / 1000) ^ 2))

section
variable {x : ℝ × ℝ} {a a' b b' ρ ρT ρTT : ℝ × ℝ → ℝ}

lemma g0_cont (ha : ContinuousAt a x) (hb : ContinuousAt b x) (hρ : ContinuousAt ρ x) (h1 : ρ x < 1000) :
    ContinuousAt (fun y => g0 (a y) (b y) (ρ y)) x := by
  have hD : 0 < 1 - ρ x / 1000 := by linarith
  exact ha.mul ((continuousAt_const.sub (hρ.div_const _)).rpow hb (Or.inl hD.ne'))

lemma gq_cont (ha : ContinuousAt a x) (ha' : ContinuousAt a' x) (hb : ContinuousAt b x) (hb' : ContinuousAt b' x) (hρ : ContinuousAt ρ x)
    (hρT : ContinuousAt ρT x) (h1 : ρ x < 1000) (h0 : a x ≠ 0) : ContinuousAt (fun y => gq (a y) (a' y) (b y) (b' y) (ρ y) (ρT y)) x := by
  have hD : 1 - ρ x / 1000 ≠ 0 := by intro h; linarith
  have hd : ContinuousAt (fun y => 1 - ρ y / 1000) x := continuousAt_const.sub (hρ.div_const _)
  exact ((ha'.div ha h0).add (hb'.mul (hd.log hD))).sub (((hρT.div_const _).mul hb).div hd hD)

lemma g2_cont (ha : ContinuousAt a x) (ha' : ContinuousAt a' x) (hb : ContinuousAt b x) (hb' : ContinuousAt b' x) (hρ : ContinuousAt ρ x)
    (hρT : ContinuousAt ρT x) (hρTT : ContinuousAt ρTT x) (h1 : ρ x < 1000) (h0 : a x ≠ 0) :
    ContinuousAt (fun y => g2 (a y) (a' y) (b y) (b' y) (ρ y) (ρT y) (ρTT y)) x := by
  have hD : 1 - ρ x / 1000 ≠ 0 := by intro h; linarith
  have hd : ContinuousAt (fun y => 1 - ρ y / 1000) x := continuousAt_const.sub (hρ.div_const _)
  have hq := gq_cont ha ha' hb hb' hρ hρT h1 h0
  refine (g0_cont ha hb hρ h1).mul ((hq.mul hq).add ?_)
  exact (((((continuousAt_const.div ha h0).sub ((ha'.mul ha').div (ha.pow 2) (pow_ne_zero _ h0))).add
    ((hd.log hD).const_mul _)).sub (((hb'.mul hρT).div_const _).div hd hD)).sub (((hρTT.div_const _).mul hb).div hd hD)).sub
    (((hρT.div_const _).mul hb').div hd hD) |>.sub ((((hρT.div_const _).mul hb).mul (hρT.div_const _)).div (hd.pow 2) (pow_ne_zero _ hD))

end

lemma comp1 {f : ℝ → ℝ} {x : ℝ × ℝ} (h : ContinuousAt f x.1) : ContinuousAt (fun y : ℝ × ℝ => f y.1) x :=
  ContinuousAt.comp (f := Prod.fst) h continuousAt_fst
lemma comp2 {f : ℝ → ℝ} {x : ℝ × ℝ} (h : ContinuousAt f x.2) : ContinuousAt (fun y : ℝ × ℝ => f y.2) x :=
  ContinuousAt.comp (f := Prod.snd) h continuousAt_snd

lemma ga_cont (x : ℝ × ℝ) : ContinuousAt (fun y : ℝ × ℝ => ga (y.1 - 273.15)) x := comp1 (f := fun t => ga (t - 273.15)) (ga_deriv x.1).continuousAt
lemma gb_cont (x : ℝ × ℝ) : ContinuousAt (fun y : ℝ × ℝ => gb (y.1 - 273.15)) x := comp1 (f := fun t => gb (t - 273.15)) (gb_deriv x.1).continuousAt
lemma gaT_cont (x : ℝ × ℝ) : ContinuousAt (fun y : ℝ × ℝ => gaT (y.1 - 273.15)) x :=
  comp1 (f := fun t => gaT (t - 273.15)) (gaT_deriv x.1).continuousAt
lemma gbT_cont (x : ℝ × ℝ) : ContinuousAt (fun y : ℝ × ℝ => gbT (y.1 - 273.15)) x :=
  comp1 (f := fun t => gbT (t - 273.15)) (gbT_deriv x.1).continuousAt

/-- The correction is continuous everywhere. -/
lemma corrected_cont {F f : ℝ × ℝ → FunG} {c d e : ℝ} {x : ℝ × ℝ}
    (h : ∀ᶠ y in 𝓝 x, CorrectedFirst (F y) (f y) c d e y.1 y.2) (hf : GCont f x) : GCont F x := by
  have c1 := comp1 (cft_deriv c x.1).continuousAt
  have c2 := comp1 (cftT_deriv c x.1).continuousAt
  have c3 := comp1 (cftTT_cont c x.1)
  have d1 := comp2 (cfp_deriv d e x.2).continuousAt
  have d2 := comp2 (cfpP_deriv d e x.2).continuousAt
  exact ⟨(hf.g.sub (c1.mul d1)).congr (h.mono fun y hy => hy.g.symm), (hf.gT.sub (d1.mul c2)).congr (h.mono fun y hy => hy.gT.symm),
    (hf.gP.sub (c1.mul d2)).congr (h.mono fun y hy => hy.gP.symm), (hf.gTT.sub (d1.mul c3)).congr (h.mono fun y hy => hy.gTT.symm)⟩

lemma functionG_cont {ps : ℝ × ℝ → PSolv} {x : ℝ × ℝ} (hs : SolventCont ps x) (h0 : (ps x).density.val ≠ 0)
    (h1 : (ps x).density.val ≠ 1000) (hT0 : (ps x).densityT.val ≠ 0) (hP0 : (ps x).densityP.val ≠ 0) :
    GCont (fun y => functionG (TS.temperature y.1) (pbar y.2) (ps y)) x := by
  rcases lt_or_gt_of_ne h1 with h1 | h1
  · have e1 : ∀ᶠ y in 𝓝 x, (ps y).density.val < 1000 := hs.d.eventually_lt_const h1
    have e0 : ∀ᶠ y in 𝓝 x, (ps y).density.val ≠ 0 := hs.d.eventually_ne h0
    have eT := hs.dT.eventually_ne hT0
    have eP := hs.dP.eventually_ne hP0
    refine corrected_cont (f := fun y => functionGI (TS.temperature y.1) (ps y)) (c := 3.666660e+01) (d := -1.504956e-10) (e := 5.017990e-14) (e1.mono fun y hy => ?_) ⟨?_, ?_, ?_, ?_⟩
    · have h := functionG_vals y.1 y.2 hy.le
      exact ⟨h.g, h.gT, h.gP, h.gTT⟩
    · exact (g0_cont (ga_cont x) (gb_cont x) hs.d h1).congr (e0.mono fun y hy => (functionGI_1 y.1 hy).1.symm)
    · refine ((g0_cont (ga_cont x) (gb_cont x) hs.d h1).mul
        (gq_cont (ga_cont x) (gaT_cont x) (gb_cont x) (gbT_cont x) hs.d hs.dT h1 (ga_ne _))).congr (e0.mono fun y hy => ?_)
      exact (functionGI_1 y.1 hy).2.1.symm
    · refine ((g0_cont (ga_cont x) (gb_cont x) hs.d h1).mul
        (gq_cont (ga_cont x) (a' := fun _ => 0) continuousAt_const (gb_cont x) (b' := fun _ => 0) continuousAt_const hs.d hs.dP h1 (ga_ne _))).congr (e0.mono fun y hy => ?_)
      exact (functionGI_1 y.1 hy).2.2.symm
    · refine (g2_cont (ga_cont x) (gaT_cont x) (gb_cont x) (gbT_cont x) hs.d hs.dT hs.dTT h1 (ga_ne _)).congr ?_
      filter_upwards [e1, e0, eT, eP] with y y1 y0 yT yP
      exact ((functionGI_2 (t := y.1) y1 y0 (ga_ne _) (gb_ne _) yT yP).1).symm
  · have e1 : ∀ᶠ y in 𝓝 x, 1000 < (ps y).density.val := hs.d.eventually_const_lt h1
    refine GCont.congr (F := fun _ => ⟨TS.assign .default 0, TS.assign .default 0, TS.assign .default 0, TS.assign .default 0,
      TS.assign .default 0, TS.assign .default 0⟩) ⟨continuousAt_const, continuousAt_const, continuousAt_const, continuousAt_const⟩
      (e1.mono fun y hy => ?_)
    simp only [functionG, if_pos (show (ps y).density.val > 1000 from hy)]

/-- The g function of region I and its derivatives go to zero when the density goes to 1000 kg/m³ from below: each is the bounded factor
a d^(b-3) times an expression that is continuous and zero at d = 0. -/
lemma bounded_factor {x : ℝ × ℝ} {ρ k : ℝ × ℝ → ℝ} (hk : ContinuousAt k x) (h0 : k x = 0) :
    Tendsto (fun y => if ρ y < 1000 ∧ 0 < ρ y then ga (y.1 - 273.15) * (1 - ρ y / 1000) ^ (gb (y.1 - 273.15) - 3) * k y else 0) (𝓝 x) (𝓝 0) := by
  have ha : ∀ᶠ y in 𝓝 x, |ga (y.1 - 273.15)| < |ga (x.1 - 273.15)| + 1 := (ga_cont x).abs.eventually_lt_const (by linarith)
  have hk' : Tendsto (fun y => (|ga (x.1 - 273.15)| + 1) * |k y|) (𝓝 x) (𝓝 0) := by
    have := (hk.abs.const_mul (|ga (x.1 - 273.15)| + 1)).tendsto
    simpa only [h0, abs_zero, mul_zero] using this
  refine squeeze_zero_norm' (ha.mono fun y hy => ?_) hk'
  rw [Real.norm_eq_abs]
  split
  · rename_i h
    have hd : 0 ≤ 1 - ρ y / 1000 := by linarith [h.1]
    have hd1 : 1 - ρ y / 1000 ≤ 1 := by linarith [h.2]
    have hb : 0 ≤ gb (y.1 - 273.15) - 3 := by simp only [gb]; nlinarith [sq_nonneg (y.1 - 273.15 - 423)]
    have p0 : 0 ≤ (1 - ρ y / 1000) ^ (gb (y.1 - 273.15) - 3) := Real.rpow_nonneg hd _
    have p1 : (1 - ρ y / 1000) ^ (gb (y.1 - 273.15) - 3) ≤ 1 := Real.rpow_le_one hd hd1 hb
    rw [abs_mul, abs_mul, abs_of_nonneg p0]
    refine mul_le_mul_of_nonneg_right ?_ (abs_nonneg _)
    calc _ ≤ |ga (y.1 - 273.15)| * 1 := mul_le_mul_of_nonneg_left p1 (abs_nonneg _)
      _ ≤ _ := by rw [mul_one]; exact hy.le
  · rw [abs_zero]; positivity

lemma rp3 {d b : ℝ} (hd : 0 < d) : d ^ b = d ^ (b - 3) * d ^ 3 := by
  rw [← Real.rpow_natCast, ← Real.rpow_add hd]; norm_num

/-- d times the logarithmic derivative, without a quotient by d. -/
noncomputable def dq (a a' b b' d ρT : ℝ) : ℝ := d * (a' / a) + b' * (d * Real.log d) - ρT / 1000 * b

lemma dq_eq {a a' b b' ρ ρT : ℝ} (hd : 1 - ρ / 1000 ≠ 0) : gq a a' b b' ρ ρT = dq a a' b b' (1 - ρ / 1000) ρT / (1 - ρ / 1000) := by
  rw [eq_div_iff hd]
  simp only [gq, dq]
  generalize Real.log (1 - ρ / 1000) = l
  generalize a' / a = v
  generalize 1 - ρ / 1000 = d at *
  field_simp

lemma g0_near {a b ρ : ℝ} (hρ : ρ < 1000) : g0 a b ρ = a * (1 - ρ / 1000) ^ (b - 3) * (1 - ρ / 1000) ^ 3 := by
  rw [g0, rp3 (by linarith)]; ring

lemma g1_near {a a' b b' ρ ρT : ℝ} (hρ : ρ < 1000) : g1 a a' b b' ρ ρT =
    a * (1 - ρ / 1000) ^ (b - 3) * ((1 - ρ / 1000) ^ 2 * dq a a' b b' (1 - ρ / 1000) ρT) := by
  have hd : 1 - ρ / 1000 ≠ 0 := by intro h; linarith
  rw [g1, g0_near hρ, dq_eq hd]; field_simp

lemma g2_near {a a' b b' ρ ρT ρTT : ℝ} (hρ : ρ < 1000) : g2 a a' b b' ρ ρT ρTT =
    a * (1 - ρ / 1000) ^ (b - 3) * ((1 - ρ / 1000) * (dq a a' b b' (1 - ρ / 1000) ρT ^ 2 + (1 - ρ / 1000) * ((1 - ρ / 1000) *
      (2 * -6.557892e-06 / a - a' * a' / a ^ 2) + 2 * 1.268348e-05 * ((1 - ρ / 1000) * Real.log (1 - ρ / 1000)) - b' * ρT / 1000 - ρTT / 1000 * b
      - ρT / 1000 * b') - ρT / 1000 * b * (ρT / 1000))) := by
  have hd : 1 - ρ / 1000 ≠ 0 := by intro h; linarith
  rw [g2, g0_near hρ, dq_eq hd]
  generalize dq a a' b b' (1 - ρ / 1000) ρT = q
  generalize Real.log (1 - ρ / 1000) = l
  generalize (1 - ρ / 1000) ^ (b - 3) = u
  generalize 1 - ρ / 1000 = d at *
  generalize 2 * -6.557892e-06 / a - a' * a' / a ^ 2 = v
  field_simp
  ring

/-- The g function as it would be if it were zero at 1000 kg/m³, where the program divides by zero. -/
noncomputable def gExt (F : ℝ × ℝ → FunG) (ρ : ℝ × ℝ → ℝ) : ℝ × ℝ → FunG := fun y =>
  if ρ y = 1000 then ⟨.ofVal 0, .ofVal 0, .ofVal 0, .ofVal 0, .ofVal 0, .ofVal 0⟩ else F y

lemma functionG_zero {ps : ℝ × ℝ → PSolv} {x : ℝ × ℝ} (hs : SolventCont ps x) (h1 : (ps x).density.val = 1000)
    (hb : x.1 - 273.15 < 155 ∨ 1000 < x.2 / 1e5) (hT0 : (ps x).densityT.val ≠ 0) (hP0 : (ps x).densityP.val ≠ 0) :
    GCont (gExt (fun y => functionG (TS.temperature y.1) (pbar y.2) (ps y)) (fun y => (ps y).density.val)) x := by
  have e0 : ∀ᶠ y in 𝓝 x, 0 < (ps y).density.val := hs.d.eventually_const_lt (show (0 : ℝ) < (ps x).density.val by rw [h1]; norm_num)
  have eT := hs.dT.eventually_ne hT0
  have eP := hs.dP.eventually_ne hP0
  have eb : ∀ᶠ y in 𝓝 x, ¬ inRegionII (y.1 - 273.15) (y.2 / 1e5) := by
    simp only [inRegionII_iff, not_and_or, not_lt]
    rcases hb with hb | hb
    · have c : ContinuousAt (fun y : ℝ × ℝ => y.1 - 273.15) x := by fun_prop
      exact (c.eventually_lt_const hb).mono fun y hy => Or.inl hy.le
    · have c : ContinuousAt (fun y : ℝ × ℝ => y.2 / 1e5) x := by fun_prop
      exact (c.eventually_const_lt hb).mono fun y hy => Or.inr hy.le
  have d : ContinuousAt (fun y => 1 - (ps y).density.val / 1000) x := continuousAt_const.sub (hs.d.div_const _)
  have d0 : 1 - (ps x).density.val / 1000 = 0 := by rw [h1]; norm_num
  have dl : ContinuousAt (fun y => (1 - (ps y).density.val / 1000) * Real.log (1 - (ps y).density.val / 1000)) x :=
    ContinuousAt.comp (f := fun y => 1 - (ps y).density.val / 1000) (g := fun u => u * Real.log u) Real.continuous_mul_log.continuousAt d
  have hq : ∀ {a' b' ρT : ℝ × ℝ → ℝ}, ContinuousAt a' x → ContinuousAt b' x → ContinuousAt ρT x → ContinuousAt
      (fun y => dq (ga (y.1 - 273.15)) (a' y) (gb (y.1 - 273.15)) (b' y) (1 - (ps y).density.val / 1000) (ρT y)) x := fun h1 h2 h3 =>
    ((d.mul (h1.div (ga_cont x) (ga_ne _))).add (h2.mul dl)).sub ((h3.div_const _).mul (gb_cont x))
  have main : ∀ {h k : ℝ × ℝ → ℝ} (φ : FunG → ℝ), φ ⟨.ofVal 0, .ofVal 0, .ofVal 0, .ofVal 0, .ofVal 0, .ofVal 0⟩ = 0 →
      φ ⟨TS.assign .default 0, TS.assign .default 0, TS.assign .default 0, TS.assign .default 0, TS.assign .default 0, TS.assign .default 0⟩ = 0 →
      (∀ᶠ y in 𝓝 x, (ps y).density.val < 1000 → φ (functionGI (TS.temperature y.1) (ps y)) = h y) →
      (∀ y, (ps y).density.val < 1000 → h y = ga (y.1 - 273.15) * (1 - (ps y).density.val / 1000) ^ (gb (y.1 - 273.15) - 3) * k y) →
      ContinuousAt k x → k x = 0 →
      ContinuousAt (fun y => φ (gExt (fun y => functionG (TS.temperature y.1) (pbar y.2) (ps y)) (fun y => (ps y).density.val) y)) x := by
    intro h k φ z1 z2 hφ hh hk hk0
    have ev : φ (gExt (fun y => functionG (TS.temperature y.1) (pbar y.2) (ps y)) (fun y => (ps y).density.val) x) = 0 := by
      simp only [gExt, if_pos h1, z1]
    rw [ContinuousAt, ev]
    refine (bounded_factor (ρ := fun y => (ps y).density.val) hk hk0).congr' ?_
    filter_upwards [e0, eb, hφ] with y y0 yb yφ
    rcases lt_trichotomy (ps y).density.val 1000 with hl | hl | hl
    · rw [if_pos ⟨hl, y0⟩, ← hh y hl, ← yφ hl]
      simp only [gExt, if_neg hl.ne, functionG, if_neg (not_lt.mpr hl.le), if_neg (fun h => yb ((region_val _ _).1 h))]
    · rw [if_neg (fun h => h.1.ne hl)]
      simp only [gExt, if_pos hl, z1]
    · rw [if_neg (fun h => h.1.not_gt hl)]
      simp only [gExt, if_neg hl.ne', functionG, if_pos hl, z2]
  refine ⟨?_, ?_, ?_, ?_⟩
  · refine main (fun F => F.g.val) rfl rfl (e0.mono fun y y0 _ => (functionGI_1 y.1 y0.ne').1) (fun y hy => g0_near hy) (d.pow 3) ?_
    simp only [Pi.pow_apply, d0]; norm_num
  · refine main (fun F => F.gT.val) rfl rfl (e0.mono fun y y0 _ => (functionGI_1 y.1 y0.ne').2.1) (fun y hy => g1_near hy)
      ((d.pow 2).mul (hq (gaT_cont x) (gbT_cont x) hs.dT)) ?_
    simp only [Pi.mul_apply, Pi.pow_apply, d0]; norm_num
  · refine main (fun F => F.gP.val) rfl rfl (e0.mono fun y y0 _ => (functionGI_1 y.1 y0.ne').2.2) (fun y hy => g1_near hy)
      ((d.pow 2).mul (hq (a' := fun _ => 0) (b' := fun _ => 0) continuousAt_const continuousAt_const hs.dP)) ?_
    simp only [Pi.mul_apply, Pi.pow_apply, d0]; norm_num
  · refine main (h := fun y => g2 (ga (y.1 - 273.15)) (gaT (y.1 - 273.15)) (gb (y.1 - 273.15)) (gbT (y.1 - 273.15)) (ps y).density.val
      (ps y).densityT.val (ps y).densityTT.val) (fun F => F.gTT.val) rfl rfl ?_ (fun y hy => g2_near hy) ?_ ?_
    · filter_upwards [e0, eT, eP] with y y0 yT yP hl
      exact (functionGI_2 (t := y.1) hl y0.ne' (ga_ne _) (gb_ne _) yT yP).1
    · have hr : ContinuousAt (fun y => (ps y).densityT.val / 1000) x := hs.dT.div_const _
      have ha := ga_cont x
      have ha' := gaT_cont x
      have hbc := gb_cont x
      have hb' := gbT_cont x
      exact d.mul ((((hq ha' hb' hs.dT).pow 2).add (d.mul (((((d.mul ((continuousAt_const.div ha (ga_ne _)).sub ((ha'.mul ha').div (ha.pow 2)
        (pow_ne_zero _ (ga_ne _))))).add (dl.const_mul _)).sub ((hb'.mul hs.dT).div_const _)).sub ((hs.dTT.div_const _).mul hbc)).sub
        (hr.mul hb')))).sub ((hr.mul hbc).mul hr))
    · simp only [d0]; ring

lemma gShok2_cont {ps : ℝ × ℝ → Solv} {x : ℝ × ℝ} (hs : ExpansionCont ps x) (h1 : (ps x).density.val < 1000) :
    GCont (fun y => gShok2 (tC y.1) (pbar y.2) (ps y)) x := by
  have e1 : ∀ᶠ y in 𝓝 x, (ps y).density.val < 1000 := hs.d.eventually_lt_const h1
  have hρT : ContinuousAt (fun y => -(ps y).density.val * (ps y).Alpha.val) x := hs.d.neg.mul hs.a
  refine corrected_cont (f := fun y => gShok2I (tC y.1) (ps y)) (Eventually.of_forall fun y => gShok2_vals y.1 y.2 (ps y)) ⟨?_, ?_, ?_, ?_⟩
  · exact (g0_cont (ga_cont x) (gb_cont x) hs.d h1).congr (e1.mono fun y hy => (gShok2I_vals y.1 hy).1.symm)
  · refine ((g0_cont (ga_cont x) (gb_cont x) hs.d h1).mul
      (gq_cont (ga_cont x) (gaT_cont x) (gb_cont x) (gbT_cont x) hs.d hρT h1 (ga_ne _))).congr (e1.mono fun y hy => ?_)
    exact (gShok2I_vals y.1 hy).2.1.symm
  · refine ((g0_cont (ga_cont x) (gb_cont x) hs.d h1).mul
      (gq_cont (ga_cont x) (a' := fun _ => 0) continuousAt_const (gb_cont x) (b' := fun _ => 0) continuousAt_const hs.d (hs.d.mul hs.b) h1 (ga_ne _))).congr (e1.mono fun y hy => ?_)
    exact (gShok2I_vals y.1 hy).2.2.1.symm
  · refine (g2_cont (ga_cont x) (gaT_cont x) (gb_cont x) (gbT_cont x) hs.d hρT ((hρT.neg.mul hs.a).add (hs.d.neg.mul hs.aT)) h1
      (ga_ne _)).congr (e1.mono fun y hy => ?_)
    exact (gShok2I_vals y.1 hy).2.2.2.symm

/-! ### The Born coefficient -/

lemma bW_cont {η k n z R : ℝ} {x : ℝ × ℝ} {g : ℝ × ℝ → ℝ} (hg : ContinuousAt g x) (h1 : R + n * g x ≠ 0) (h2 : k + g x ≠ 0) :
    ContinuousAt (fun y => bW η k n z R (g y)) x ∧ ContinuousAt (fun y => bW1 η k n z R (g y)) x ∧
    ContinuousAt (fun y => bW2 η k n z R (g y)) x := by
  have c1 : ContinuousAt (fun y => R + n * g y) x := continuousAt_const.add (hg.const_mul _)
  have c2 : ContinuousAt (fun y => k + g y) x := continuousAt_const.add hg
  exact ⟨((continuousAt_const.div c1 h1).sub (continuousAt_const.div c2 h2)).const_mul _,
    ((continuousAt_const.div (c1.pow 2) (pow_ne_zero _ h1)).sub (continuousAt_const.div (c2.pow 2) (pow_ne_zero _ h2))).const_mul _,
    ((continuousAt_const.div (c1.pow 3) (pow_ne_zero _ h1)).sub (continuousAt_const.div (c2.pow 3) (pow_ne_zero _ h2))).const_mul _⟩

lemma bornReaktoro_cont (z : ℤ) (isH : Bool) {hkf : List ℝ} {wref : ℝ} (hw : hkf[6]? = some wref) {F : ℝ × ℝ → FunG} {x : ℝ × ℝ}
    (hF : GCont F x) (hr : z ≠ 0 → refRadius z wref + |(z : ℝ)| * (F x).g.val ≠ 0) (hg : 3.082 + (F x).g.val ≠ 0) :
    ∃ E : ℝ × ℝ → ESub, (∀ y, bornReaktoro (F y) z isH hkf = .ok (E y)) ∧ BornCont E x := by
  by_cases hc : z = 0 ∨ isH = true
  · refine ⟨fun _ => ⟨TS.assign .default wref, TS.assign .default 0, TS.assign .default 0, TS.assign .default 0,
      TS.assign .default 0, TS.assign .default 0⟩, fun y => ?_, ⟨continuousAt_const, continuousAt_const, continuousAt_const, continuousAt_const⟩⟩
    simp only [bornReaktoro, hw, if_pos hc]
  · push Not at hc
    obtain ⟨hz, hh⟩ := hc
    obtain rfl : isH = false := by simpa using hh
    choose E hE h1 h2 h3 h4 h5 h6 using fun y => bornReaktoro_vals hz hw (F y)
    obtain ⟨b0, b1, b2⟩ := bW_cont (η := 1.66027e+05) (z := (z : ℝ)) hF.g (hr hz) hg
    refine ⟨E, hE, ⟨?_, ?_, ?_, ?_⟩⟩
    · simpa only [h1] using b0
    · simp only [h2]; exact b1.mul hF.gT
    · simp only [h3]; exact b1.mul hF.gP
    · simp only [h4]; exact (b1.mul hF.gTT).add ((b2.mul hF.gT).mul hF.gT)

lemma omeg92_cont (z : ℤ) {hkf : List ℝ} {wref : ℝ} (hw : hkf[6]? = some wref) {F : ℝ × ℝ → FunG} {x : ℝ × ℝ}
    (hF : GCont F x) (hr : z ≠ 0 → refRadius z wref + |(z : ℝ)| * (F x).g.val ≠ 0) (hg : 3.082 + (F x).g.val ≠ 0) :
    ∃ E : ℝ × ℝ → ESub, (∀ y, omeg92 (F y) z hkf = .ok (E y)) ∧ BornCont E x := by
  by_cases hz : z = 0
  · refine ⟨fun _ => ⟨TS.assign .default wref, TS.assign .default 0, TS.assign .default 0, TS.assign .default 0,
      .default, .default⟩, fun y => ?_, ⟨continuousAt_const, continuousAt_const, continuousAt_const, continuousAt_const⟩⟩
    simp only [omeg92, hw, if_pos hz]
  · choose E hE h1 h2 h3 h4 h5 h6 using fun y => omeg92_vals hz hw (F y)
    obtain ⟨b0, b1, b2⟩ := bW_cont (η := 1.66027e+05) (z := (z : ℝ)) hF.g (hr hz) hg
    refine ⟨E, hE, ⟨?_, ?_, ?_, ?_⟩⟩
    · simpa only [h1] using b0
    · simp only [h2]; exact b1.mul hF.gT
    · simp only [h3]; exact b1.mul hF.gP
    · simp only [h4]; exact (b1.mul hF.gTT).add ((b2.mul hF.gT).mul hF.gT)

/-! ### The properties -/

lemma hkf_cont {q : HKFPar} {f : ℝ × ℝ → TPS} {E : ℝ × ℝ → ESub} {e : ℝ × ℝ → ESolv} {x : ℝ × ℝ}
    (hf : ∀ y, HKFVals q (f y) y.1 y.2 (E y) (e y)) (hT : 228 < x.1) (hP : 0 ≤ x.2) (hE : BornCont E x) (he : DielCont e x) :
    PropsCont f x := by
  have t : ContinuousAt (fun y : ℝ × ℝ => y.1) x := continuousAt_fst
  have p : ContinuousAt (fun y : ℝ × ℝ => y.2 / 1e5) x := continuousAt_snd.div_const _
  have hp : 0 ≤ x.2 / 1e5 := by positivity
  have t0 : x.1 - 228 ≠ 0 := by intro h; linarith
  have p0 : 2600 + x.2 / 1e5 ≠ 0 := by intro h; linarith
  have td : ContinuousAt (fun y : ℝ × ℝ => y.1 - 228) x := t.sub continuousAt_const
  have pd : ContinuousAt (fun y : ℝ × ℝ => 2600 + y.2 / 1e5) x := continuousAt_const.add p
  have lp : ContinuousAt (fun y : ℝ × ℝ => HKFPar.lp (y.2 / 1e5)) x :=
    (pd.div_const _).log (div_ne_zero p0 (by norm_num))
  have lt : ContinuousAt (fun y : ℝ × ℝ => HKFPar.lt y.1) x :=
    ((((continuousAt_const.div t (by intro h; linarith)).mul td).div_const _)).log
      (div_ne_zero (mul_ne_zero (div_ne_zero (by norm_num) (by intro h; linarith)) t0) (by norm_num))
  have lr : ContinuousAt (fun y : ℝ × ℝ => Real.log (y.1 / 298.15)) x := (t.div_const _).log (div_ne_zero (by intro h; linarith) (by norm_num))
  have i1 : ContinuousAt (fun y : ℝ × ℝ => 1 / (y.1 - 228)) x := continuousAt_const.div td t0
  have i2 : ContinuousAt (fun y : ℝ × ℝ => 1 / (y.1 - 228) ^ 2) x := continuousAt_const.div (td.pow 2) (pow_ne_zero _ t0)
  have ap : ContinuousAt (fun y : ℝ × ℝ => q.a3 * (y.2 / 1e5 - 1) + q.a4 * HKFPar.lp (y.2 / 1e5)) x :=
    ((p.sub continuousAt_const).const_mul _).add (lp.const_mul _)
  have z1 : ContinuousAt (fun y => (e y).bornZ.val + 1) x := he.Z.add continuousAt_const
  have G : ContinuousAt (fun y => (f y).G.val) x := by
    simp only [(hf _).G, HKFPar.G]
    refine ContinuousAt.mul ?_ continuousAt_const
    exact (((((((((continuousAt_const.sub ((t.sub continuousAt_const).const_mul _))).sub
      ((((t.mul lr).sub t).add continuousAt_const).const_mul _)).add ((p.sub continuousAt_const).const_mul _)).add (lp.const_mul _)).sub
      (((((i1.sub continuousAt_const).mul (continuousAt_const.sub t)).div_const _).sub ((t.div_const _).mul lt)).const_mul _)).add
      (i1.mul ap)).sub (hE.w.mul z1)).add continuousAt_const).add ((t.sub continuousAt_const).const_mul _)
  have H : ContinuousAt (fun y => (f y).H.val) x := by
    simp only [(hf _).H, HKFPar.H]
    refine ContinuousAt.mul ?_ continuousAt_const
    exact (((((((((continuousAt_const.add ((t.sub continuousAt_const).const_mul _)).sub ((i1.sub continuousAt_const).const_mul _)).add
      ((p.sub continuousAt_const).const_mul _)).add (lp.const_mul _)).add
      ((((t.const_mul _).sub continuousAt_const).div (td.pow 2) (pow_ne_zero _ t0)).mul ap)).sub (hE.w.mul z1)).add
      ((hE.w.mul t).mul he.Y)).add ((t.mul z1).mul hE.wT)).add continuousAt_const).sub continuousAt_const
  have S : ContinuousAt (fun y => (f y).S.val) x := by
    simp only [(hf _).S, HKFPar.S]
    refine ContinuousAt.mul ?_ continuousAt_const
    exact (((((continuousAt_const.add (lr.const_mul _)).sub (((i1.sub continuousAt_const).add (lt.div_const _)).const_mul _)).add
      (i2.mul ap)).add (hE.w.mul he.Y)).add (z1.mul hE.wT)).sub continuousAt_const
  have C : ContinuousAt (fun y : ℝ × ℝ => q.Cp y.1 (y.2 / 1e5) (E y).w.val (E y).wT.val (E y).wTT.val (e y).bornZ.val (e y).bornY.val
      (e y).bornX.val * 4.184) x := by
    simp only [HKFPar.Cp]
    refine ContinuousAt.mul ?_ continuousAt_const
    exact ((((continuousAt_const.add (continuousAt_const.div (td.pow 2) (pow_ne_zero _ t0))).sub
      (((t.const_mul _).div (td.pow 3) (pow_ne_zero _ t0)).mul ap)).add ((hE.w.mul t).mul he.X)).add
      (((t.const_mul _).mul he.Y).mul hE.wT)).add ((t.mul z1).mul hE.wTT)
  have V : ContinuousAt (fun y => (f y).V.val) x := by
    simp only [(hf _).V, HKFPar.V]
    refine ContinuousAt.mul ?_ continuousAt_const
    exact ((((continuousAt_const.add (continuousAt_const.div pd p0)).add
      ((continuousAt_const.add (continuousAt_const.div pd p0)).div td t0)).sub (hE.w.mul (he.Q.mul continuousAt_const)))).sub
      (z1.mul (hE.wP.mul continuousAt_const))
  have U : ContinuousAt (fun y => (f y).U.val) x := by
    simp only [(hf _).U]
    exact H.sub ((p.const_mul _).mul V)
  refine ⟨G, H, S, ?_, ?_, V, U, ?_⟩
  · simpa only [(hf _).Cp] using C
  · simpa only [(hf _).Cv] using C
  · simp only [(hf _).A]
    exact U.sub (t.mul S)

/-- **C158 for the reaktoro implementation.**  For every species of any charge with seven parameters and every solvent whose density, with
its derivatives, and Born functions are continuous at the point, the eight properties are continuous there, in temperature and pressure
together: also at 155 °C and at 1000 bar, where the g function changes its equation, and where the density passes 1000 kg/m³, where it is
cut off.  Missing: at exactly 1000 kg/m³ the program divides by zero, so there the statement is about the surrounding points; the
expansivity must not be zero (4 °C at 1 bar), since the program divides by it; the Born functions of the solvent must be continuous, see
`C158_refuted`. -/
theorem C158_reaktoro_partial (z : ℤ) (isH : Bool) (a1 a2 a3 a4 c1 c2 wr : ℝ) (rest : List ℝ) (ref : TPS)
    (ps : ℝ × ℝ → PSolv) (e : ℝ × ℝ → ESolv) (x : ℝ × ℝ) (hT : 228 < x.1) (hP : 0 ≤ x.2)
    (hs : SolventCont ps x) (he : DielCont e x) (h0 : (ps x).density.val ≠ 0)
    (h1 : (ps x).density.val = 1000 → x.1 - 273.15 < 155 ∨ 1000 < x.2 / 1e5)
    (hT0 : (ps x).densityT.val ≠ 0) (hP0 : (ps x).densityP.val ≠ 0)
    (hr : z ≠ 0 → (ps x).density.val ≠ 1000 →
      refRadius z wr + |(z : ℝ)| * (functionG (TS.temperature x.1) (pbar x.2) (ps x)).g.val ≠ 0)
    (hr0 : z ≠ 0 → refRadius z wr ≠ 0)
    (hg : (ps x).density.val ≠ 1000 → 3.082 + (functionG (TS.temperature x.1) (pbar x.2) (ps x)).g.val ≠ 0) :
    let s : HKFSub := ⟨z, isH, a1 :: a2 :: a3 :: a4 :: c1 :: c2 :: wr :: rest, ref⟩
    ∃ f : ℝ × ℝ → TPS, (∀ y, (ps y).density.val ≠ 1000 → hkfReaktoroEntry y.1 y.2 s (ps y) (e y) = .ok (f y)) ∧ PropsCont f x := by
  intro s
  set F := gExt (fun y => functionG (TS.temperature y.1) (pbar y.2) (ps y)) (fun y => (ps y).density.val) with hF
  have hFy : ∀ y, (ps y).density.val ≠ 1000 → F y = functionG (TS.temperature y.1) (pbar y.2) (ps y) := fun y hy => by
    simp only [hF, gExt, if_neg hy]
  have hFx : (ps x).density.val = 1000 → (F x).g.val = 0 := fun hx => by simp only [hF, gExt, if_pos hx]; rfl
  have hc : GCont F x := by
    by_cases hx : (ps x).density.val = 1000
    · exact functionG_zero hs hx (h1 hx) hT0 hP0
    · exact (functionG_cont hs h0 hx hT0 hP0).congr ((hs.d.eventually_ne hx).mono fun y hy => hFy y hy)
  obtain ⟨E, hE, hB⟩ := bornReaktoro_cont z isH (hkf := s.hkf) (wref := wr) rfl hc (fun hz => by
    by_cases hx : (ps x).density.val = 1000
    · rw [hFx hx, mul_zero, add_zero]; exact hr0 hz
    · rw [hFy x hx]; exact hr hz hx) (by
    by_cases hx : (ps x).density.val = 1000
    · rw [hFx hx]; norm_num
    · rw [hFy x hx]; exact hg hx)
  choose f hf hv using fun y : ℝ × ℝ => hkfReaktoro_vals y.1 y.2 ref (E y) (e y) a1 a2 a3 a4 c1 c2 wr rest
  refine ⟨f, fun y hy => ?_, hkf_cont hv hT hP hB he⟩
  have h := hE y
  rw [hFy y hy] at h
  simp only [hkfReaktoroEntry]
  rw [h]
  exact hf y

/-- **C158 for the gems implementation**, below 1000 kg/m³.  Missing: higher densities; the Born functions must be continuous, see
`C158_refuted`. -/
theorem C158_gems_partial (z : ℤ) (isH : Bool) (a1 a2 a3 a4 c1 c2 wr : ℝ) (rest : List ℝ) (ref : TPS)
    (ps : ℝ × ℝ → PSolv) (e : ℝ × ℝ → ESolv) (x : ℝ × ℝ) (hT : 228 < x.1) (hP : 0 ≤ x.2)
    (hs : ExpansionCont (fun y => (ps y).toSolv) x) (he : DielCont e x) (h1 : (ps x).density.val < 1000)
    (hr : z ≠ 0 → refRadius z wr + |(z : ℝ)| * (gShok2 (tC x.1) (pbar x.2) (ps x).toSolv).g.val ≠ 0)
    (hg : 3.082 + (gShok2 (tC x.1) (pbar x.2) (ps x).toSolv).g.val ≠ 0) :
    let s : HKFSub := ⟨z, isH, a1 :: a2 :: a3 :: a4 :: c1 :: c2 :: wr :: rest, ref⟩
    ∃ f : ℝ × ℝ → TPS, (∀ y, hkfGemsEntry y.1 y.2 s (ps y) (e y) = .ok (f y)) ∧ PropsCont f x := by
  intro s
  obtain ⟨E, hE, hB⟩ := omeg92_cont z (hkf := s.hkf) (wref := wr) rfl (gShok2_cont hs h1) hr hg
  choose f hf hv using fun y : ℝ × ℝ => hkfGems_vals y.1 y.2 ref (E y) (e y) a1 a2 a3 a4 c1 c2 wr rest
  refine ⟨f, fun y => ?_, hkf_cont hv hT hP hB he⟩
  have h := hE y
  simp only [tC] at h
  simp only [hkfGemsEntry]
  rw [h]
  exact hf y

/-! ### Examples and the counterexample -/

lemma sample_cont (x : ℝ × ℝ) : SolventCont (fun y => sampleRho y.1 y.2) x := by
  constructor <;> simp only [sampleRho, TS.val_ofVal] <;> fun_prop

lemma sample_expansion {x : ℝ × ℝ} (h : 1300 - x.1 + x.2 / 1e6 ≠ 0) : ExpansionCont (fun y => (sampleRho y.1 y.2).toSolv) x := by
  have c : ContinuousAt (fun y : ℝ × ℝ => 1300 - y.1 + y.2 / 1e6) x := by fun_prop
  constructor <;> simp only [sampleRho, TS.val_ofVal]
  · exact c
  · exact continuousAt_const.div c h
  · exact continuousAt_const.div c h
  · exact continuousAt_const.div (c.pow 2) (pow_ne_zero _ h)

/-- The g function at 155 °C and 1000 bar, the corner of region II, is between -1.31 and 0. -/
lemma corner_g {c d e : ℝ} {F f : FunG} (h : CorrectedFirst F f c d e 428.15 1e8) (hf : f.g.val = g0 (ga (428.15 - 273.15)) (gb (428.15 - 273.15)) 971.85) :
    -1.31 < F.g.val ∧ F.g.val < 0 := by
  have hx : ¬ 0 < gx 428.15 := by simp only [gx]; norm_num
  have hb : 0 < gb (428.15 - 273.15) := by simp only [gb]; norm_num
  have ha : ga (428.15 - 273.15) < 0 ∧ -1.31 < ga (428.15 - 273.15) := by simp only [ga]; norm_num
  rw [h.g, hf, cft, if_neg hx, zero_mul, sub_zero, g0]
  have p1 : 0 < (1 - 971.85 / 1000 : ℝ) ^ gb (428.15 - 273.15) := Real.rpow_pos_of_pos (by norm_num) _
  have p2 : (1 - 971.85 / 1000 : ℝ) ^ gb (428.15 - 273.15) < 1 := Real.rpow_lt_one (by norm_num) (by norm_num) hb
  generalize (1 - 971.85 / 1000 : ℝ) ^ gb (428.15 - 273.15) = u at p1 p2
  constructor <;> nlinarith [ha.1, ha.2]

/-- The hypotheses of `C158_reaktoro_partial` and `C158_gems_partial` at 155 °C and 1000 bar, for an ion of charge 1 with reference
coefficient 0. -/
example : let x : ℝ × ℝ := (428.15, 1e8)
    SolventCont (fun y => sampleRho y.1 y.2) x ∧ ExpansionCont (fun y => (sampleRho y.1 y.2).toSolv) x ∧ (sampleRho x.1 x.2).density.val < 1000 ∧
    (refRadius 1 0 + |((1 : ℤ) : ℝ)| * (functionG (TS.temperature x.1) (pbar x.2) (sampleRho x.1 x.2)).g.val ≠ 0 ∧
      3.082 + (functionG (TS.temperature x.1) (pbar x.2) (sampleRho x.1 x.2)).g.val ≠ 0) ∧
    (refRadius 1 0 + |((1 : ℤ) : ℝ)| * (gShok2 (tC x.1) (pbar x.2) (sampleRho x.1 x.2).toSolv).g.val ≠ 0 ∧
      3.082 + (gShok2 (tC x.1) (pbar x.2) (sampleRho x.1 x.2).toSolv).g.val ≠ 0) := by
  intro x
  have hd : (sampleRho x.1 x.2).density.val = 971.85 := by simp only [sampleRho, TS.val_ofVal, x]; norm_num
  have h1 : (sampleRho x.1 x.2).density.val < 1000 := by rw [hd]; norm_num
  have hR : refRadius 1 0 = 3.082 := by simp only [refRadius]; norm_num
  have k1 := functionG_vals x.1 x.2 h1.le
  obtain ⟨l1, l2⟩ := corner_g ⟨k1.g, k1.gT, k1.gP, k1.gTT⟩ (by
    rw [(functionGI_1 x.1 (by rw [hd]; norm_num)).1, hd])
  obtain ⟨m1, m2⟩ := corner_g (gShok2_vals x.1 x.2 (sampleRho x.1 x.2).toSolv) (by rw [(gShok2I_vals x.1 h1).1, hd])
  refine ⟨sample_cont _, sample_expansion (by simp only [x]; norm_num), h1, ⟨?_, ?_⟩, ⟨?_, ?_⟩⟩
  · rw [hR, Int.cast_one, abs_one, one_mul]; intro h; linarith
  · intro h; linarith
  · rw [hR, Int.cast_one, abs_one, one_mul]; intro h; linarith
  · intro h; linarith

/-- The hypotheses of `C158_reaktoro_partial` where the density passes 1000 kg/m³: 301 K and 10 bar. -/
example : let x : ℝ × ℝ := (301, 1e6)
    SolventCont (fun y => sampleRho y.1 y.2) x ∧ (sampleRho x.1 x.2).density.val = 1000 ∧ x.1 - 273.15 < 155 ∧
    (sampleRho x.1 x.2).densityT.val ≠ 0 ∧ (sampleRho x.1 x.2).densityP.val ≠ 0 ∧ refRadius 1 0 ≠ 0 := by
  refine ⟨sample_cont _, ?_, ?_, ?_, ?_, ?_⟩ <;> simp only [sampleRho, TS.val_ofVal, refRadius] <;> norm_num

/-- What the solute model gets from the gems water code: the Born functions of `Born92`, at a density `D` (g/cm³) with the compressibility
and expansivity `b`, `a`, `a'`. -/
noncomputable def gemsDiel (T p D b a a' : ℝ) : ESolv :=
  let B := Gems.born92 T (p / 1e5) D b a a'
  ⟨.ofVal B.Z, .ofVal B.Y, .ofVal (B.Q / 1e5), .ofVal B.X⟩

/-- **The Gibbs energy of every neutral species with a Born coefficient jumps at 5000.001 bar** when the dielectric properties of water come
from the gems code: `Born92` sets the dielectric constant and the Born functions to zero beyond that pressure (and beyond 1000.001 °C) instead
of reporting that the conditions are outside the model.  So it is at every temperature and for every density of water, at which the
dielectric constant is not zero; the jump is the Born coefficient over the dielectric constant. -/
theorem C158_refuted (isH : Bool) (a1 a2 a3 a4 c1 c2 wr : ℝ) (rest : List ℝ) (ref : TPS) (hw : wr ≠ 0) (T : ℝ) (hT : 228 < T)
    (hT1 : T ≤ 1273.15) (ps : ℝ → PSolv) (D b a a' : ℝ → ℝ)
    (he : (Gems.jn91 T (D 5000.001e5) (b 5000.001e5) (a 5000.001e5) (a' 5000.001e5)).eps ≠ 0) (f : ℝ → TPS)
    (hf : ∀ p, hkfGemsEntry T p ⟨0, isH, a1 :: a2 :: a3 :: a4 :: c1 :: c2 :: wr :: rest, ref⟩ (ps p) (gemsDiel T p (D p) (b p) (a p) (a' p)) =
      .ok (f p)) :
    ¬ ContinuousAt (fun p => (f p).G.val) 5000.001e5 := by
  set P0 : ℝ := 5000.001e5 with hP0
  intro hc
  set q := HKFPar.of ref a1 a2 a3 a4 c1 c2 wr (-0.1278034682e-1) (-0.5798650444e-4) with hq
  set Z : ℝ → ℝ := fun p => (Gems.born92 T (p / 1e5) (D p) (b p) (a p) (a' p)).Z with hZ
  have hG : ∀ p, (f p).G.val = q.G T (p / 1e5) wr (Z p) * 4.184 := by
    intro p
    have h := hf p
    simp only [hkfGemsEntry, omeg92, List.getElem?_cons_succ, List.getElem?_cons_zero, if_true] at h
    obtain ⟨r, hr, hv⟩ := hkfGems_vals T p ref ⟨TS.assign .default wr, TS.assign .default 0, TS.assign .default 0, TS.assign .default 0,
      .default, .default⟩ (gemsDiel T p (D p) (b p) (a p) (a' p)) a1 a2 a3 a4 c1 c2 wr rest
    have e : Res.ok r = Res.ok (f p) := hr.symm.trans h
    injection e with e
    rw [← e]
    exact hv.G
  have hp : (0 : ℝ) < 2600 + P0 / 1e5 := by rw [hP0]; norm_num
  have hrest : ContinuousAt (fun p : ℝ => q.G T (p / 1e5) wr 0) P0 := by
    have p : ContinuousAt (fun y : ℝ => y / 1e5) P0 := continuousAt_id.div_const _
    have lp : ContinuousAt (fun y : ℝ => HKFPar.lp (y / 1e5)) P0 :=
      ((continuousAt_const.add p).div_const _).log (div_ne_zero hp.ne' (by norm_num))
    simp only [HKFPar.G]
    fun_prop
  have hZc : ContinuousAt Z P0 := by
    have h := ((hrest.sub (hc.div_const 4.184)).div_const wr)
    refine h.congr (Eventually.of_forall fun p => ?_)
    simp only [Pi.sub_apply, hG]
    have : q.G T (p / 1e5) wr 0 - q.G T (p / 1e5) wr (Z p) = wr * Z p := by simp only [HKFPar.G]; ring
    rw [mul_div_assoc, div_self (by norm_num), mul_one, this, mul_div_cancel_left₀ _ hw]
  have h0 : Z P0 = -1 / (Gems.jn91 T (D P0) (b P0) (a P0) (a' P0)).eps := by
    simp only [hZ, Gems.born92]
    rw [if_neg]
    · rfl
    · rw [hP0]; push Not; constructor <;> norm_num <;> linarith
  have h1 : ∀ p ∈ Set.Ioi P0, Z p = 0 := by
    intro p hp
    simp only [hZ, Gems.born92]
    rw [if_pos]
    right
    have : P0 / 1e5 < p / 1e5 := div_lt_div_of_pos_right hp (by norm_num)
    have e : P0 / 1e5 = 5000.0 + 1.0e-3 := by rw [hP0]; norm_num
    rw [e] at this; exact this
  have t1 : Tendsto Z (𝓝[>] P0) (𝓝 (Z P0)) := hZc.tendsto.mono_left nhdsWithin_le_nhds
  have t2 : Tendsto Z (𝓝[>] P0) (𝓝 0) :=
    tendsto_const_nhds.congr' (by filter_upwards [self_mem_nhdsWithin] with p hp; exact (h1 p hp).symm)
  have := tendsto_nhds_unique t1 t2
  rw [h0] at this
  exact div_ne_zero (by norm_num) he this

/-- The hypotheses of `C158_refuted`: water of 1.13 g/cm³ at 25 °C has a dielectric constant, and the model gives a result. -/
example : (Gems.jn91 298.15 1.13 4e-5 2e-4 0).eps ≠ 0 ∧ ∃ f : ℝ → TPS, ∀ p,
    hkfGemsEntry 298.15 p ⟨0, false, [1, 2, 3, 4, 5, 6, -0.2], ⟨.ofVal 0, .ofVal 0, .ofVal 0, .ofVal 0, .ofVal 0, .ofVal 0, .ofVal 0, .ofVal 0⟩⟩
      (sampleRho 298.15 p) (gemsDiel 298.15 p 1.13 4e-5 2e-4 0) = .ok (f p) := by
  constructor
  · rw [Gems.jn_eps]
    simp only [Gems.jnC, Gems.jnTref, WP.el, Gems.jnA]
    norm_num
  · exact ⟨_, fun p => rfl⟩

end ThermoFun

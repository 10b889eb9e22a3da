import Verif.Model.Density
import Verif.Lemmas.TSOps

/-!
Properties C26, C27 and C69 for the density models of reactions.
-/

set_option linter.unusedSimpArgs false

namespace ThermoFun

/-- A solvent whose reported expansivity, compressibility and dα/dT belong to its density: at (T,P) ρ > 0, α = -(1/ρ)∂ρ/∂T,
β = (1/ρ)∂ρ/∂P and dAldT = ∂α/∂T. -/
structure SmoothSolvent (wp : ℝ → ℝ → Solv) (T P : ℝ) : Prop where
  pos : 0 < (wp T P).density.val
  expansion : HasDerivAt (fun t => (wp t P).density.val) (-((wp T P).Alpha.val * (wp T P).density.val)) T
  compression : HasDerivAt (fun p => (wp T p).density.val) ((wp T P).Beta.val * (wp T P).density.val) P
  expansionT : HasDerivAt (fun t => (wp t P).Alpha.val) (wp T P).dAldT.val T

/-- What thermodynamics requires of reaction properties as functions of temperature (K) and pressure (Pa), volumes in J/bar. -/
structure ConsistentTP (f : ℝ → ℝ → TPR) (T P : ℝ) : Prop where
  /-- G = H - T S -/
  gibbs : (f T P).G.val = (f T P).H.val - T * (f T P).S.val
  /-- ∂G/∂T = -S -/
  entropy : HasDerivAt (fun t => (f t P).G.val) (-(f T P).S.val) T
  /-- ∂H/∂T = Cp -/
  heatCapacity : HasDerivAt (fun t => (f t P).H.val) (f T P).Cp.val T
  /-- ∂S/∂T = Cp/T -/
  entropySlope : HasDerivAt (fun t => (f t P).S.val) ((f T P).Cp.val / T) T
  /-- ∂G/∂P = V -/
  volume : HasDerivAt (fun p => (f T p).G.val) ((f T P).V.val / 1e5) P

lemma ln10_pos : 0 < TS.ln10 := by norm_num [TS.ln10]

/-- ln ρ along T and P. -/
lemma SmoothSolvent.logT {wp : ℝ → ℝ → Solv} {T P : ℝ} (h : SmoothSolvent wp T P) :
    HasDerivAt (fun t => Real.log ((wp t P).density.val / 1000)) (-(wp T P).Alpha.val) T := by
  have := (h.expansion.div_const 1000).log (by have := h.pos; positivity)
  refine this.congr_deriv ?_
  have := h.pos.ne'
  field_simp

lemma SmoothSolvent.logP {wp : ℝ → ℝ → Solv} {T P : ℝ} (h : SmoothSolvent wp T P) :
    HasDerivAt (fun p => Real.log ((wp T p).density.val / 1000)) ((wp T P).Beta.val) P := by
  have := (h.compression.div_const 1000).log (by have := h.pos; positivity)
  refine this.congr_deriv ?_
  have := h.pos.ne'
  field_simp

/-! ### Dolejš-Manning -/

lemma dm10_vals (T P : ℝ) (coef : List ℝ) (hc : 5 ≤ coef.length) (wp : Solv) :
    ∃ r, dm10 (TS.temperature T) (TS.divAssignD (TS.pressure P) 1e5) coef wp = .ok r ∧
      (let a := at' coef 0; let b := at' coef 1; let c := at' coef 2; let d := at' coef 3; let e := at' coef 4
       let L := Real.log (wp.density.val / 1000); let al := wp.Alpha.val
       r.lnK.val = -1 / Rgas * (a / T + b + c * Real.log T + d * T + e * L) * lnToLg * lgToLn ∧
       r.H.val = a - c * T - d * T ^ 2 + e * T ^ 2 * al ∧
       r.S.val = -b - c * (1 + Real.log T) - 2 * d * T - e * L + e * T * al ∧
       r.G.val = r.H.val - T * r.S.val ∧
       r.Cp.val = -c - 2 * d * T + 2 * e * T * al + e * T ^ 2 * wp.dAldT.val ∧
       r.V.val = e * T * (wp.Beta.val * 1e5) ∧
       r.U.val = r.H.val - P / 1e5 * r.V.val ∧ r.A.val = r.U.val - T * r.S.val ∧ ¬ r.logK.has) := by
  match coef, hc with
  | a :: b :: c :: d :: e :: l, _ =>
    refine ⟨_, rfl, ?_⟩
    simp [at', TPR.default]

/-- **C26, Dolejš-Manning.** -/
theorem C26_DolejsManning (wp : ℝ → ℝ → Solv) (coef : List ℝ) (hc : 5 ≤ coef.length) :
    ∃ f : ℝ → ℝ → TPR,
      (∀ T P, dm10 (TS.temperature T) (TS.divAssignD (TS.pressure P) 1e5) coef (wp T P) = .ok (f T P)) ∧
      ∀ T P, 0 < T → SmoothSolvent wp T P → ConsistentTP f T P ∧
        |(f T P).G.val + Rgas * T * (f T P).lnK.val| ≤ 3e-9 * |(f T P).G.val| := by
  choose f hf h1 h2 h3 h4 h5 h6 h7 h8 h9 using fun T P => dm10_vals T P coef hc (wp T P)
  refine ⟨f, hf, fun T P hT hw => ⟨?_, ?_⟩⟩
  · have hid := hasDerivAt_id' T
    have hL := hw.logT
    have hlog := Real.hasDerivAt_log hT.ne'
    have hal := hw.expansionT
    have hTT : HasDerivAt (fun t : ℝ => t ^ 2) (2 * T) T := by simpa using hasDerivAt_pow 2 T
    have hH : HasDerivAt (fun t => (f t P).H.val) (f T P).Cp.val T := by
      simp only [h2]
      have := (((hid.const_mul (at' coef 2)).const_sub (at' coef 0)).sub (hTT.const_mul (at' coef 3))).add
        ((hTT.const_mul (at' coef 4)).mul hal)
      refine this.congr_deriv ?_
      rw [h5]; ring
    have hS : HasDerivAt (fun t => (f t P).S.val) ((f T P).Cp.val / T) T := by
      simp only [h3]
      have := (((((hlog.const_add 1).const_mul (at' coef 2)).const_sub (-(at' coef 1))).sub (hid.const_mul (2 * at' coef 3))).sub
        (hL.const_mul (at' coef 4))).add ((hid.const_mul (at' coef 4)).mul hal)
      refine this.congr_deriv ?_
      rw [h5]; field_simp; ring
    refine ⟨h4 T P, ?_, hH, hS, ?_⟩
    · simp only [h4]
      refine (hH.sub (hid.mul hS)).congr_deriv ?_
      field_simp; ring
    · have e : ∀ p, (f T p).G.val = at' coef 0 + at' coef 1 * T + at' coef 2 * T * Real.log T + at' coef 3 * T ^ 2
          + at' coef 4 * T * Real.log ((wp T p).density.val / 1000) := by
        intro p; rw [h4, h2, h3]; ring
      simp only [e]
      refine ((hw.logP.const_mul (at' coef 4 * T)).const_add _).congr_deriv ?_
      rw [h6]; norm_num; ring
  · have e : Rgas * T * (f T P).lnK.val = -((f T P).G.val * (lnToLg * lgToLn)) := by
      rw [h4, h2, h3, h1]
      have : Rgas ≠ 0 := by norm_num [Rgas]
      field_simp; ring
    rw [e, show (f T P).G.val + -((f T P).G.val * (lnToLg * lgToLn)) = (f T P).G.val * (1 - lnToLg * lgToLn) by ring, abs_mul,
      mul_comm]
    refine mul_le_mul_of_nonneg_right ?_ (abs_nonneg _)
    rw [abs_le]; constructor <;> norm_num [lnToLg, lgToLn]

/-- Five coefficients and a solvent of constant density 1000·exp(-0.001 (T-300) + 1e-9 (P-1e5)) meet the hypotheses. -/
example : ∃ (wp : ℝ → ℝ → Solv), 5 ≤ ([1, 2, 3, 4, 5] : List ℝ).length ∧ ∀ T P, SmoothSolvent wp T P := by
  refine ⟨fun T P => ⟨TS.mk5 (Real.exp (-0.001 * T + 1e-9 * P)) 0 0 0 .calculated, TS.mk5 0.001 0 0 0 .calculated,
    TS.mk5 1e-9 0 0 0 .calculated, TS.mk5 0 0 0 0 .calculated⟩, by simp, fun T P => ⟨?_, ?_, ?_, ?_⟩⟩
  · simp [Real.exp_pos]
  · simp only [TS.val_mk5]
    have := (((hasDerivAt_id' T).const_mul (-0.001)).add_const (1e-9 * P)).exp
    exact this.congr_deriv (by ring)
  · simp only [TS.val_mk5]
    have := (((hasDerivAt_id' P).const_mul (1e-9)).const_add (-0.001 * T)).exp
    exact this.congr_deriv (by ring)
  · exact hasDerivAt_const _ _

/-! ### Frantz-Marshall -/

lemma fm_vals (T P : ℝ) (coef : List ℝ) (hc : 7 ≤ coef.length) (wp : Solv) :
    ∃ r, fm (TS.temperature T) (TS.divAssignD (TS.pressure P) 1e5) coef wp = .ok r ∧
      (let a := at' coef 0; let b := at' coef 1; let c := at' coef 2; let d := at' coef 3; let e := at' coef 4
       let f := at' coef 5; let g := at' coef 6
       let L := Real.log (wp.density.val / 1000); let al := wp.Alpha.val; let l := TS.ln10
       let J := a + b / T + c / T ^ 2 + d / T ^ 3 + (e + f / T + g / T ^ 2) * (L / l)
       let D := -b / T ^ 2 - 2 * c / T ^ 3 - 3 * d / T ^ 4 + (-f / T ^ 2 - 2 * g / T ^ 3) * (L / l)
         - (e + f / T + g / T ^ 2) * (al / l)
       let D2 := 2 * b / T ^ 3 + 6 * c / T ^ 4 + 12 * d / T ^ 5 + (2 * f / T ^ 3 + 6 * g / T ^ 4) * (L / l)
         - 2 * (-f / T ^ 2 - 2 * g / T ^ 3) * (al / l) - (e + f / T + g / T ^ 2) * (wp.dAldT.val / l)
       r.lnK.val = J * lgToLn ∧ r.G.val = -Rgas * T * l * J ∧ r.H.val = r.G.val + r.S.val * T ∧
       (wp.density.val ≠ 0 → r.S.val = Rgas * l * (J + D * T)) ∧
       (wp.density.val ≠ 0 → r.Cp.val = Rgas * l * T * (2 * D + D2 * T)) ∧
       (wp.density.val ≠ 0 → r.V.val = -Rgas * T * (e + f / T + g / T ^ 2) * (wp.Beta.val * 1e5)) ∧
       r.U.val = r.H.val - P / 1e5 * r.V.val ∧ r.A.val = r.U.val - T * r.S.val ∧ ¬ r.logK.has) := by
  match coef, hc with
  | a :: b :: c :: d :: e :: f :: g :: l, _ =>
    refine ⟨_, rfl, ?_⟩
    have hl := ln10_pos.ne'
    simp only [TS.op_val_add, TS.op_val_addL, TS.op_val_addR, TS.op_val_neg, TS.op_val_sub, TS.op_val_subL, TS.op_val_subR,
      TS.op_val_mul, TS.op_val_mulL, TS.op_val_mulR, TS.op_val_div, TS.op_val_divL, TS.op_val_divR, TS.val_log10, TS.val_temperature,
      TS.val_powR, Real.rpow_ofNat, TS.val_divAssignD, TS.val_pressure, TPR.default, TS.has_default, not_false_eq_true, and_true,
      at', List.getD_cons_zero, List.getD_cons_succ, true_and]
    refine ⟨?_, ?_, ?_⟩
    · intro h; field_simp; ring
    · intro h; field_simp; ring
    · intro h; field_simp

/-- **C26, Frantz-Marshall.** -/
theorem C26_FrantzMarshall (wp : ℝ → ℝ → Solv) (k : DensityCoef) (hc : 7 ≤ k.FM.length) :
    ∃ f : ℝ → ℝ → TPR,
      (∀ T P, densityEntry .FrantzMarshall T P k (wp T P) = .ok (f T P)) ∧
      ∀ T P, 0 < T → (∀ᶠ t in nhds T, SmoothSolvent wp t P) → ConsistentTP f T P ∧
        |(f T P).G.val + Rgas * T * (f T P).lnK.val| ≤ 3e-9 * |(f T P).G.val| := by
  choose f hf h1 h2 h3 h4 h5 h6 h7 h8 h9 using fun T P => fm_vals T P k.FM hc (wp T P)
  refine ⟨f, fun T P => hf T P, fun T P hT hev => ?_⟩
  have hw := hev.self_of_nhds
  have hl := ln10_pos.ne'
  have hne := hw.pos.ne'
  have hTne := hT.ne'
  have hid := hasDerivAt_id' T
  have hL := hw.logT
  have hal := hw.expansionT
  have hp : ∀ n : Nat, HasDerivAt (fun t : ℝ => t ^ n) (n * T ^ (n - 1)) T := fun n => hasDerivAt_pow n T
  have hinv : ∀ (x : ℝ) (n : Nat), HasDerivAt (fun t : ℝ => x / t ^ n) (-(x * (n * T ^ (n - 1))) / (T ^ n) ^ 2) T := by
    intro x n
    have := (hasDerivAt_const T x).div (hp n) (pow_ne_zero n hTne)
    exact this.congr_deriv (by ring)
  have hinv1 : ∀ (x : ℝ), HasDerivAt (fun t : ℝ => x / t) (-x / T ^ 2) T := by
    intro x
    have := (hasDerivAt_const T x).div hid hTne
    exact this.congr_deriv (by ring)
  generalize at' k.FM 0 = a at *; generalize at' k.FM 1 = b at *; generalize at' k.FM 2 = c at *
  generalize at' k.FM 3 = d at *; generalize at' k.FM 4 = e at *; generalize at' k.FM 5 = m at *; generalize at' k.FM 6 = g at *
  have hG : HasDerivAt (fun t => (f t P).G.val) (-(f T P).S.val) T := by
    simp only [h2]
    have hJ := ((((hinv1 b).const_add a).add (hinv c 2)).add (hinv d 3)).add
      (((((hinv1 m).const_add e).add (hinv g 2))).mul (hL.div_const TS.ln10))
    refine (((hid.const_mul (-Rgas)).mul_const TS.ln10).mul hJ).congr_deriv ?_
    rw [h4 T P hne]
    norm_num
    generalize Real.log ((wp T P).density.val / 1000) = L
    field_simp
    ring
  have hS : HasDerivAt (fun t => (f t P).S.val) ((f T P).Cp.val / T) T := by
    have hJ := ((((hinv1 b).const_add a).add (hinv c 2)).add (hinv d 3)).add
      (((((hinv1 m).const_add e).add (hinv g 2))).mul (hL.div_const TS.ln10))
    have hD := ((((hinv (-b) 2).sub (hinv (2 * c) 3)).sub (hinv (3 * d) 4)).add
      (((hinv (-m) 2).sub (hinv (2 * g) 3)).mul (hL.div_const TS.ln10))).sub
      ((((hinv1 m).const_add e).add (hinv g 2)).mul (hal.div_const TS.ln10))
    have := ((hJ.add (hD.mul hid)).const_mul (Rgas * TS.ln10))
    refine (this.congr_deriv ?_).congr_of_eventuallyEq ?_
    · rw [h5 T P hne]
      simp only [Pi.add_apply, Pi.mul_apply, Pi.sub_apply]
      norm_num
      generalize Real.log ((wp T P).density.val / 1000) = L
      field_simp
      ring
    · filter_upwards [hev] with t ht
      rw [h4 t P ht.pos.ne']
      rfl
  have hH : HasDerivAt (fun t => (f t P).H.val) (f T P).Cp.val T := by
    simp only [h3]
    refine (hG.add (hS.mul hid)).congr_deriv ?_
    field_simp; ring
  refine ⟨⟨?_, hG, hH, hS, ?_⟩, ?_⟩
  · rw [h3]; ring
  · simp only [h2]
    have := ((((hw.logP.div_const TS.ln10).const_mul (e + m / T + g / T ^ 2)).const_add
      (a + b / T + c / T ^ 2 + d / T ^ 3)).const_mul (-Rgas * T * TS.ln10))
    refine this.congr_deriv ?_
    rw [h6 T P hne]
    field_simp
  · have hG0 := h2 T P
    have hK := h1 T P
    generalize a + b / T + c / T ^ 2 + d / T ^ 3 + (e + m / T + g / T ^ 2) * (Real.log ((wp T P).density.val / 1000) / TS.ln10) = J at *
    rw [hK, hG0, show -Rgas * T * TS.ln10 * J + Rgas * T * (J * lgToLn) = (-Rgas * T * TS.ln10 * J) * (1 - lgToLn / TS.ln10) by
      field_simp; ring, abs_mul, mul_comm]
    refine mul_le_mul_of_nonneg_right ?_ (abs_nonneg _)
    rw [abs_le]; constructor <;> norm_num [lgToLn, TS.ln10]

/-! ### Ryzhenko-Bryzgalin -/

lemma rb_vals (T P : ℝ) (hT : 0 < T) (coef : List ℝ) (hc : 3 ≤ coef.length) (wp : Solv) (hne : wp.density.val ≠ 0) (k : RBConst)
    (hk : k = rbConst) (r : TPR) (hr : rb (TS.temperature T) (TS.divAssignD (TS.pressure P) 1e5) coef wp = .ok r) :
      (let L := Real.log (wp.density.val / 1000); let al := wp.Alpha.val; let l := TS.ln10
       let A := at' coef 1; let B := at' coef 2
       let J := A + B / T
       let I := k.a * T + k.b + k.c / T + k.d / T ^ 2 + (k.e * T + k.f + k.g / T) * (L / l) + pKw298 k * 298.15
       let D := k.a - k.c / T ^ 2 - 2 * k.d / T ^ 3 + (k.e - k.g / T ^ 2) * (L / l) - (k.e * T + k.f + k.g / T) * (al / l)
       let D2 := 2 * k.c / T ^ 3 + 6 * k.d / T ^ 4 + 2 * k.g / T ^ 3 * (L / l) - 2 * (k.e - k.g / T ^ 2) * (al / l)
         - (k.e * T + k.f + k.g / T) * (wp.dAldT.val / l)
       r.lnK.val = r.logK.val * lgToLn ∧ r.G.val = Rgas * l * (at' coef 0 * 298.15 - J * I / k.zz) ∧
       r.G.val = - (Rgas * T * l * r.logK.val) ∧
       r.H.val = r.G.val + r.S.val * T ∧
       r.S.val = Rgas * l / k.zz * (D * J - B / T ^ 2 * I) ∧
       r.Cp.val = Rgas * l / k.zz * T * (D2 * J - 2 * D * (B / T ^ 2) + 2 * B / T ^ 3 * I) ∧
       r.V.val = -(Rgas / k.zz) * (k.e * T + k.f + k.g / T) * wp.Beta.val * J * 1e5 ∧
       r.U.val = r.H.val - P / 1e5 * (r.V.val / 1e5) ∧ r.A.val = r.U.val - T * r.S.val) := by
  have hz : k.zz ≠ 0 := by subst hk; norm_num [rbConst]
  match coef, hc with
  | p0 :: A :: B :: l, _ =>
    simp only [rb] at hr
    injection hr with hr
    subst hr
    have hl := ln10_pos.ne'
    have hTn := hT.ne'
    subst hk
    simp only [TS.op_val_add, TS.op_val_addL, TS.op_val_addR, TS.op_val_neg, TS.op_val_sub, TS.op_val_subL, TS.op_val_subR,
      TS.op_val_mul, TS.op_val_mulL, TS.op_val_mulR, TS.op_val_div, TS.op_val_divL, TS.op_val_divR, TS.val_log10, TS.val_temperature,
      TS.val_powR, Real.rpow_ofNat, TS.val_divAssignD, TS.val_pressure, TPR.default,
      at', List.getD_cons_zero, List.getD_cons_succ, true_and, and_true]
    generalize pKw298 rbConst = w
    generalize rbConst = k at *
    generalize Real.log (wp.density.val / 1000) = L
    generalize (298.15 : ℝ) = t0
    refine ⟨?_, ?_, ?_, ?_, ?_, ?_⟩
    · field_simp; ring
    · field_simp
    · field_simp; ring
    · field_simp; ring
    · field_simp
    · norm_num

/-- **C26, Ryzhenko-Bryzgalin.** -/
theorem C26_RyzhenkoBryzgalin (wp : ℝ → ℝ → Solv) (k : DensityCoef) (hc : 3 ≤ k.RB.length) :
    ∃ f : ℝ → ℝ → TPR,
      (∀ T P, densityEntry .RyzhenkoBryzgalin T P k (wp T P) = .ok (f T P)) ∧
      ∀ T P, 0 < T → (∀ᶠ t in nhds T, SmoothSolvent wp t P) → (∀ᶠ p in nhds P, SmoothSolvent wp T p) → ConsistentTP f T P ∧
        (f T P).lnK.val = (f T P).logK.val * lgToLn ∧
        |(f T P).G.val + Rgas * T * (f T P).lnK.val| ≤ 3e-9 * |(f T P).G.val| := by
  have hdef : ∀ T P, ∃ r, densityEntry .RyzhenkoBryzgalin T P k (wp T P) = .ok r := by
    intro T P
    match hk : k.RB, hc with
    | p0 :: A :: B :: l, _ => exact ⟨_, by simp only [densityEntry, hk, rb]; rfl⟩
  choose f hf using hdef
  refine ⟨f, hf, fun T P hT hevT hevP => ?_⟩
  have hw := hevT.self_of_nhds
  have hposT : ∀ᶠ t in nhds T, 0 < t := lt_mem_nhds hT
  have key := fun T P hT hn => rb_vals T P hT k.RB hc (wp T P) hn rbConst rfl (f T P) (hf T P)
  have hl := ln10_pos.ne'
  have hne := hw.pos.ne'
  have hTne := hT.ne'
  have hid := hasDerivAt_id' T
  have hL := hw.logT
  have hal := hw.expansionT
  have hz : rbConst.zz ≠ 0 := by norm_num [rbConst]
  have hp : ∀ n : Nat, HasDerivAt (fun t : ℝ => t ^ n) (n * T ^ (n - 1)) T := fun n => hasDerivAt_pow n T
  have hinv : ∀ (x : ℝ) (n : Nat), HasDerivAt (fun t : ℝ => x / t ^ n) (-(x * (n * T ^ (n - 1))) / (T ^ n) ^ 2) T := by
    intro x n
    have := (hasDerivAt_const T x).div (hp n) (pow_ne_zero n hTne)
    exact this.congr_deriv (by ring)
  have hinv1 : ∀ (x : ℝ), HasDerivAt (fun t : ℝ => x / t) (-x / T ^ 2) T := by
    intro x
    have := (hasDerivAt_const T x).div hid hTne
    exact this.congr_deriv (by ring)
  generalize pKw298 rbConst = w at *
  generalize rbConst = c at *
  generalize at' k.RB 0 = p0 at *; generalize at' k.RB 1 = A at *; generalize at' k.RB 2 = B at *
  have hJ := (hinv1 B).const_add A
  have hI := (((((hid.const_mul c.a).add_const c.b).add (hinv1 c.c)).add (hinv c.d 2)).add
    ((((hid.const_mul c.e).add_const c.f).add (hinv1 c.g)).mul (hL.div_const TS.ln10))).add_const (w * 298.15)
  obtain ⟨k1, k2, k3, k4, k5, k6, k7, k8, k9⟩ := key T P hT hne
  have hG : HasDerivAt (fun t => (f t P).G.val) (-(f T P).S.val) T := by
    refine (((((hJ.mul hI).div_const c.zz).const_sub (p0 * 298.15)).const_mul (Rgas * TS.ln10)).congr_deriv ?_).congr_of_eventuallyEq ?_
    · rw [k5]
      simp only [Pi.add_apply, Pi.mul_apply, Pi.sub_apply]
      norm_num
      generalize Real.log ((wp T P).density.val / 1000) = L
      field_simp
      ring
    · filter_upwards [hevT, hposT] with t ht htp
      rw [(key t P htp ht.pos.ne').2.1]
      rfl
  have hS : HasDerivAt (fun t => (f t P).S.val) ((f T P).Cp.val / T) T := by
    have hD := ((((hinv c.c 2).const_sub c.a).sub (hinv (2 * c.d) 3)).add
      (((hinv c.g 2).const_sub c.e).mul (hL.div_const TS.ln10))).sub
      ((((hid.const_mul c.e).add_const c.f).add (hinv1 c.g)).mul (hal.div_const TS.ln10))
    refine ((((hD.mul hJ).sub ((hinv B 2).mul hI)).const_mul (Rgas * TS.ln10 / c.zz)).congr_deriv ?_).congr_of_eventuallyEq ?_
    · rw [k6]
      simp only [Pi.add_apply, Pi.mul_apply, Pi.sub_apply]
      norm_num
      generalize Real.log ((wp T P).density.val / 1000) = L
      field_simp
      ring
    · filter_upwards [hevT, hposT] with t ht htp
      rw [(key t P htp ht.pos.ne').2.2.2.2.1]
      rfl
  have hH : HasDerivAt (fun t => (f t P).H.val) (f T P).Cp.val T := by
    refine ((hG.add (hS.mul hid)).congr_deriv ?_).congr_of_eventuallyEq ?_
    · field_simp; ring
    · filter_upwards [hevT, hposT] with t ht htp
      rw [(key t P htp ht.pos.ne').2.2.2.1]
      rfl
  refine ⟨⟨?_, hG, hH, hS, ?_⟩, k1, ?_⟩
  · rw [k4]; ring
  · have hIP := ((hw.logP.div_const TS.ln10).const_mul (c.e * T + c.f + c.g / T)).const_add
      (c.a * T + c.b + c.c / T + c.d / T ^ 2)
    refine (((((hIP.add_const (w * 298.15)).const_mul (A + B / T)).div_const c.zz).const_sub (p0 * 298.15)).const_mul
      (Rgas * TS.ln10) |>.congr_deriv ?_).congr_of_eventuallyEq ?_
    · rw [k7]
      norm_num
      field_simp
    · filter_upwards [hevP] with q hq
      rw [(key T q hT hq.pos.ne').2.1]
  · rw [k1, k3, show -(Rgas * T * TS.ln10 * (f T P).logK.val) + Rgas * T * ((f T P).logK.val * lgToLn)
        = (-(Rgas * T * TS.ln10 * (f T P).logK.val)) * (1 - lgToLn / TS.ln10) by field_simp; ring, abs_mul, mul_comm]
    refine mul_le_mul_of_nonneg_right ?_ (abs_nonneg _)
    rw [abs_le]; constructor <;> norm_num [lgToLn, TS.ln10]

/-- The solvent of the example above and three coefficients meet the hypotheses. -/
example : ∃ (wp : ℝ → ℝ → Solv) (k : DensityCoef), 3 ≤ k.RB.length ∧ 7 ≤ k.FM.length ∧
    ∀ T P, (∀ᶠ t in nhds T, SmoothSolvent wp t P) ∧ (∀ᶠ p in nhds P, SmoothSolvent wp T p) := by
  obtain ⟨wp, _, h⟩ : ∃ (wp : ℝ → ℝ → Solv), True ∧ ∀ T P, SmoothSolvent wp T P := by
    refine ⟨fun T P => ⟨TS.mk5 (Real.exp (-0.001 * T + 1e-9 * P)) 0 0 0 .calculated, TS.mk5 0.001 0 0 0 .calculated,
      TS.mk5 1e-9 0 0 0 .calculated, TS.mk5 0 0 0 0 .calculated⟩, trivial, fun T P => ⟨by simp [Real.exp_pos], ?_, ?_, hasDerivAt_const _ _⟩⟩
    · simp only [TS.val_mk5]
      exact (((hasDerivAt_id' T).const_mul (-0.001)).add_const (1e-9 * P)).exp.congr_deriv (by ring)
    · simp only [TS.val_mk5]
      exact (((hasDerivAt_id' P).const_mul (1e-9)).const_add (-0.001 * T)).exp.congr_deriv (by ring)
  exact ⟨wp, ⟨[], [1, 2, 3, 4, 5, 6, 7], [1, 2, 3]⟩, by simp, by simp, fun T P =>
    ⟨Filter.Eventually.of_forall fun t => h t P, Filter.Eventually.of_forall fun p => h T p⟩⟩

/-! ### The declared model is the one computed (C27) -/

/-- The textbook Gibbs energy (J/mol) of each model, at T (K) for solvent density `ρ` in kg/m³: Dolejš and Manning (2010),
Marshall and Franck (1981), Ryzhenko (1981) with Marshall and Franck's self-dissociation of water. -/
noncomputable def declaredGibbs (m : DensityModel) (k : DensityCoef) (T ρ : ℝ) : ℝ :=
  let lg := Real.log (ρ / 1000) / TS.ln10
  match m with
  | .DolejsManning10 => at' k.DM10 0 + at' k.DM10 1 * T + at' k.DM10 2 * T * Real.log T + at' k.DM10 3 * T ^ 2
      + at' k.DM10 4 * T * Real.log (ρ / 1000)
  | .FrantzMarshall => -(Rgas * T * TS.ln10 * (at' k.FM 0 + at' k.FM 1 / T + at' k.FM 2 / T ^ 2 + at' k.FM 3 / T ^ 3
      + (at' k.FM 4 + at' k.FM 5 / T + at' k.FM 6 / T ^ 2) * lg))
  | .RyzhenkoBryzgalin =>
    let pKw := fun t l => -(-4.098 - 3245.2 / t + 2.2362e5 / t ^ 2 - 3.984e7 / t ^ 3 + (13.957 - 1262.3 / t + 8.5641e5 / t ^ 2) * l)
    Rgas * T * TS.ln10 * (at' k.RB 0 * (298.15 / T) + (at' k.RB 1 + at' k.RB 2 / T) *
      ((pKw T lg - pKw 298.15 (Real.log 0.997061 / TS.ln10) * (298.15 / T)) / 1.0107))

/-- **C27, the part that holds.**  Frantz-Marshall and Ryzhenko-Bryzgalin compute the declared formula from the declared
coefficients.  Missing: the Dolejš-Manning model. -/
theorem C27_declared_partial (m : DensityModel) (hm : m ≠ .DolejsManning10) (k : DensityCoef) (hF : 7 ≤ k.FM.length)
    (hR : 3 ≤ k.RB.length) (T P : ℝ) (hT : 0 < T) (wp : Solv) (hw : 0 < wp.density.val) :
    ∃ r, densityEntry m T P k wp = .ok r ∧ r.G.val = declaredGibbs m k T wp.density.val := by
  cases m with
  | DolejsManning10 => exact absurd rfl hm
  | FrantzMarshall =>
    obtain ⟨r, hr, _, h2, _⟩ := fm_vals T P k.FM hF wp
    refine ⟨r, hr, ?_⟩
    rw [h2]; simp only [declaredGibbs]; ring
  | RyzhenkoBryzgalin =>
    obtain ⟨r, hr⟩ : ∃ r, rb (TS.temperature T) (TS.divAssignD (TS.pressure P) 1e5) k.RB wp = .ok r := by
      match hk : k.RB, hR with
      | p0 :: A :: B :: l, _ => exact ⟨_, by simp only [rb]; rfl⟩
    refine ⟨r, hr, ?_⟩
    have hl := ln10_pos.ne'
    have h := (rb_vals T P hT k.RB hR wp hw.ne' rbConst rfl r hr).2.1
    rw [h]
    simp only [declaredGibbs, pKw298, rbConst, Real.rpow_ofNat]
    generalize Real.log 0.997061 = x
    generalize Real.log (wp.density.val / 1000) = L
    generalize at' k.RB 0 = p0; generalize at' k.RB 1 = A; generalize at' k.RB 2 = B
    have hTn := hT.ne'
    generalize TS.ln10 = l at *
    field_simp
    ring

/-- A reaction with all three coefficient sets, water at 1000 kg/m³. -/
example : ∃ (m : DensityModel) (k : DensityCoef) (wp : Solv), m ≠ .DolejsManning10 ∧ 7 ≤ k.FM.length ∧ 3 ≤ k.RB.length ∧
    0 < wp.density.val := by
  exact ⟨.RyzhenkoBryzgalin, ⟨[], [1, 2, 3, 4, 5, 6, 7], [14, 1, 2]⟩, ⟨TS.mk5 1000 0 0 0 .calculated, TS.default, TS.default, TS.default⟩,
    by simp, by simp, by simp, by simp⟩

/-- **C27 refuted for Dolejš-Manning.**  A reaction that declares the Dolejš-Manning model and has coefficients for both models gets
the Frantz-Marshall value; one that has Dolejš-Manning coefficients only is read past the end of an empty vector. -/
theorem C27_DolejsManning_refuted :
    (∃ (k : DensityCoef) (T P : ℝ) (wp : Solv), 5 ≤ k.DM10.length ∧ 7 ≤ k.FM.length ∧ 0 < T ∧ 0 < wp.density.val ∧
      ∃ r, densityEntry .DolejsManning10 T P k wp = .ok r ∧ r.G.val = declaredGibbs .FrantzMarshall k T wp.density.val ∧
        r.G.val ≠ declaredGibbs .DolejsManning10 k T wp.density.val) ∧
    (∀ (c r : List ℝ) (T P : ℝ) (wp : Solv), densityEntry .DolejsManning10 T P ⟨c, [], r⟩ wp = .ub) := by
  refine ⟨⟨⟨[5, 0, 0, 0, 0], [0, 0, 0, 0, 0, 0, 0], []⟩, 300, 1e5, ⟨TS.mk5 1000 0 0 0 .calculated, TS.default, TS.default, TS.default⟩,
    by simp, by simp, by norm_num, by simp, ?_⟩, fun _ _ _ _ _ => rfl⟩
  obtain ⟨r, hr, _, h2, _⟩ := fm_vals 300 1e5 [0, 0, 0, 0, 0, 0, 0] (by simp)
    ⟨TS.mk5 1000 0 0 0 .calculated, TS.default, TS.default, TS.default⟩
  refine ⟨r, hr, ?_, ?_⟩
  · rw [h2]; simp [declaredGibbs, at']
  · rw [h2]; simp [declaredGibbs, at']

/-- **C27 refuted for log K.**  Whenever Frantz-Marshall (and so also the Dolejš-Manning entry) reports ln K, log10 K is left without a
value: its status stays "not defined" and its value 0 whatever ln K is. -/
theorem C27_logK_refuted (k : DensityCoef) (hF : 7 ≤ k.FM.length) (T P : ℝ) (wp : Solv) :
    ∃ r, densityEntry .FrantzMarshall T P k wp = .ok r ∧ densityEntry .DolejsManning10 T P k wp = .ok r ∧ ¬ r.logK.has := by
  obtain ⟨r, hr, _, _, _, _, _, _, _, _, h⟩ := fm_vals T P k.FM hF wp
  exact ⟨r, hr, hr, h⟩

/-- Seven coefficients suffice. -/
example : ∃ k : DensityCoef, 7 ≤ k.FM.length := ⟨⟨[], [1, 2, 3, 4, 5, 6, 7], []⟩, by simp⟩

/-- **C69 for the density models.**  Frantz-Marshall and the Dolejš-Manning formula: U = H - P V, A = U - T S (P in bar, V in J/bar).
Missing: Ryzhenko-Bryzgalin. -/
theorem C69_density_partial (T P : ℝ) (wp : Solv) (r : TPR) :
    (∀ k : DensityCoef, densityEntry .FrantzMarshall T P k wp = .ok r →
      r.U.val = r.H.val - P / 1e5 * r.V.val ∧ r.A.val = r.U.val - T * r.S.val) ∧
    (∀ c, dm10 (TS.temperature T) (TS.divAssignD (TS.pressure P) 1e5) c wp = .ok r →
      r.U.val = r.H.val - P / 1e5 * r.V.val ∧ r.A.val = r.U.val - T * r.S.val) := by
  constructor
  · intro k h
    by_cases hc : 7 ≤ k.FM.length
    · obtain ⟨r', hr, _, _, _, _, _, _, h7, h8, _⟩ := fm_vals T P k.FM hc wp
      simp only [densityEntry] at h
      rw [hr] at h; injection h with h; subst h
      exact ⟨h7, h8⟩
    · exfalso
      simp only [densityEntry, fm] at h
      split at h
      · rename_i heq
        rw [heq] at hc; simp at hc
      · exact absurd h (by simp)
  · intro c h
    by_cases hc : 5 ≤ c.length
    · obtain ⟨r', hr, _, _, _, _, _, _, h7, h8, _⟩ := dm10_vals T P c hc wp
      rw [hr] at h; injection h with h; subst h
      exact ⟨h7, h8⟩
    · exfalso
      simp only [dm10] at h
      split at h
      · simp at hc
      · exact absurd h (by simp)

/-- A reaction with seven coefficients has such a result. -/
example : ∃ r, densityEntry .FrantzMarshall 300 1e5 ⟨[], [1, 2, 3, 4, 5, 6, 7], []⟩
    ⟨TS.mk5 1000 0 0 0 .calculated, TS.mk5 1 0 0 0 .calculated, TS.mk5 1 0 0 0 .calculated, TS.mk5 1 0 0 0 .calculated⟩ = .ok r :=
  ⟨_, rfl⟩

/-- **C69 refuted for Ryzhenko-Bryzgalin.**  The reported volume is in J/bar but the internal energy is computed with the volume in
J/Pa and the pressure in bar: U differs from H - P V by P V (1 - 1e-5), which is not zero unless P V is. -/
theorem C69_RyzhenkoBryzgalin_refuted :
    (∀ (k : DensityCoef) (T P : ℝ) (wp : Solv) (r : TPR), 0 < T → 0 < wp.density.val →
      densityEntry .RyzhenkoBryzgalin T P k wp = .ok r →
      r.U.val - (r.H.val - P / 1e5 * r.V.val) = (1 - 1e-5) * (P / 1e5 * r.V.val)) ∧
    ∃ (k : DensityCoef) (T P : ℝ) (wp : Solv) (r : TPR), 0 < T ∧ 0 < wp.density.val ∧ 3 ≤ k.RB.length ∧
      densityEntry .RyzhenkoBryzgalin T P k wp = .ok r ∧ r.U.val ≠ r.H.val - P / 1e5 * r.V.val := by
  have hlen : ∀ (k : DensityCoef) (T P : ℝ) (wp : Solv) (r : TPR), densityEntry .RyzhenkoBryzgalin T P k wp = .ok r → 3 ≤ k.RB.length := by
    intro k T P wp r h
    by_contra hc
    simp only [densityEntry, rb] at h
    split at h
    · rename_i heq
      rw [heq] at hc; simp at hc
    · exact absurd h (by simp)
  have gen : ∀ (k : DensityCoef) (T P : ℝ) (wp : Solv) (r : TPR), 0 < T → 0 < wp.density.val →
      densityEntry .RyzhenkoBryzgalin T P k wp = .ok r →
      r.U.val - (r.H.val - P / 1e5 * r.V.val) = (1 - 1e-5) * (P / 1e5 * r.V.val) := by
    intro k T P wp r hT hw h
    obtain ⟨_, _, _, _, _, _, _, h8, _⟩ := rb_vals T P hT k.RB (hlen _ _ _ _ _ h) wp hw.ne' rbConst rfl r h
    rw [h8]; norm_num; ring
  refine ⟨gen, ⟨[], [], [14, 1, 0]⟩, 1, 1e5, ⟨TS.mk5 1000 0 0 0 .calculated, TS.mk5 1 0 0 0 .calculated,
    TS.mk5 1 0 0 0 .calculated, TS.mk5 1 0 0 0 .calculated⟩, ?_⟩
  obtain ⟨r, hr⟩ : ∃ r, densityEntry .RyzhenkoBryzgalin 1 1e5 ⟨[], [], [14, 1, 0]⟩ ⟨TS.mk5 1000 0 0 0 .calculated,
    TS.mk5 1 0 0 0 .calculated, TS.mk5 1 0 0 0 .calculated, TS.mk5 1 0 0 0 .calculated⟩ = .ok r := ⟨_, rfl⟩
  refine ⟨r, by norm_num, by simp, by simp, hr, ?_⟩
  have h := gen _ _ _ _ _ (by norm_num) (by simp) hr
  have hV := (rb_vals 1 1e5 (by norm_num) [14, 1, 0] (by simp) _ (by simp) rbConst rfl r hr).2.2.2.2.2.2.1
  intro e
  rw [e, sub_self] at h
  have : r.V.val = 0 := by linarith
  rw [hV] at this
  norm_num [rbConst, at', Rgas] at this

end ThermoFun

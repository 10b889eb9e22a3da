import Verif.Model.HKF
import Verif.Props.SubstanceP

/-!
Property C37: the Helgeson-Kirkham-Flowers model, both implementations.
-/

set_option linter.unusedSimpArgs false

namespace ThermoFun

@[simp] lemma val_mulAssignD (x : TS) (d : ℝ) : (TS.mulAssignD x d).val = x.val * d := rfl
@[simp] lemma val_subAssignD (x : TS) (d : ℝ) : (TS.subAssignD x d).val = x.val - d := rfl

/-! ### The analytic core -/

/-- Parameters of a species: reference properties (cal), the seven HKF parameters and the reference Born functions. -/
structure HKFPar where
  (Gf Hf Sr a1 a2 a3 a4 c1 c2 wr zr yr : ℝ)

namespace HKFPar
variable (q : HKFPar)

/-- log((2600 + p)/2601). -/
noncomputable def lp (p : ℝ) : ℝ := Real.log ((2600 + p) / (2600 + 1))
/-- log of the temperature ratio in the c2 terms. -/
noncomputable def lt (t : ℝ) : ℝ := Real.log (298.15 / t * (t - 228) / (298.15 - 228))

/-- Gibbs energy (cal/mol). -/
noncomputable def G (t p w Z : ℝ) : ℝ :=
  q.Gf - q.Sr * (t - 298.15) - q.c1 * (t * Real.log (t / 298.15) - t + 298.15) + q.a1 * (p - 1) + q.a2 * lp p
    - q.c2 * ((1 / (t - 228) - 1 / (298.15 - 228)) * (228 - t) / 228 - t / (228 * 228) * lt t)
    + 1 / (t - 228) * (q.a3 * (p - 1) + q.a4 * lp p)
    - w * (Z + 1) + q.wr * (q.zr + 1) + q.wr * q.yr * (t - 298.15)
/-- Enthalpy (cal/mol). -/
noncomputable def H (t p w wT Z Y : ℝ) : ℝ :=
  q.Hf + q.c1 * (t - 298.15) - q.c2 * (1 / (t - 228) - 1 / (298.15 - 228)) + q.a1 * (p - 1) + q.a2 * lp p
    + (2 * t - 228) / (t - 228) ^ 2 * (q.a3 * (p - 1) + q.a4 * lp p)
    - w * (Z + 1) + w * t * Y + t * (Z + 1) * wT + q.wr * (q.zr + 1) - q.wr * 298.15 * q.yr
/-- Entropy (cal/mol/K). -/
noncomputable def S (t p w wT Z Y : ℝ) : ℝ :=
  q.Sr + q.c1 * Real.log (t / 298.15) - q.c2 / 228 * (1 / (t - 228) - 1 / (298.15 - 228) + lt t / 228)
    + 1 / (t - 228) ^ 2 * (q.a3 * (p - 1) + q.a4 * lp p) + w * Y + (Z + 1) * wT - q.wr * q.yr
/-- Heat capacity (cal/mol/K). -/
noncomputable def Cp (t p w wT wTT Z Y X : ℝ) : ℝ :=
  q.c1 + q.c2 / (t - 228) ^ 2 - 2 * t / (t - 228) ^ 3 * (q.a3 * (p - 1) + q.a4 * lp p)
    + w * t * X + 2 * t * Y * wT + t * (Z + 1) * wTT
/-- Volume (cal/mol/bar). -/
noncomputable def V (t p w wP Z Q : ℝ) : ℝ :=
  q.a1 + q.a2 / (2600 + p) + (q.a3 + q.a4 / (2600 + p)) / (t - 228) - w * Q - (Z + 1) * wP

end HKFPar

open HKFPar in
lemma lt_deriv {T : ℝ} (hT : 228 < T) : HasDerivAt lt (228 / (T * (T - 228))) T := by
  have h0 : T ≠ 0 := by linarith
  have h1 : T - 228 ≠ 0 := by linarith
  have hid := hasDerivAt_id' T
  have h := ((((hasDerivAt_const T (298.15 : ℝ)).div hid h0).mul (hid.sub_const 228)).div_const (298.15 - 228)).log
    (by simp only [Pi.mul_apply, Pi.div_apply]; apply div_ne_zero (mul_ne_zero (div_ne_zero (by norm_num) h0) h1) (by norm_num))
  refine h.congr_deriv ?_
  simp only [Pi.mul_apply, Pi.div_apply]
  field_simp
  ring

open HKFPar in
lemma lp_deriv {p : ℝ} (hp : -2600 < p) : HasDerivAt lp (1 / (2600 + p)) p := by
  have h0 : 2600 + p ≠ 0 := by linarith
  have h := ((hasDerivAt_id' p).const_add 2600).div_const (2600 + 1) |>.log (div_ne_zero h0 (by norm_num))
  refine h.congr_deriv ?_
  field_simp

lemma ltr_deriv {T : ℝ} (hT : 228 < T) : HasDerivAt (fun t : ℝ => Real.log (t / 298.15)) (1 / T) T := by
  have h0 : T ≠ 0 := by linarith
  refine (((hasDerivAt_id' T).div_const 298.15).log (div_ne_zero h0 (by norm_num))).congr_deriv ?_
  field_simp

section
variable (q : HKFPar) {T p : ℝ} {w wT Z Y : ℝ → ℝ} {wTT X : ℝ}

lemma hkfG_T (hT : 228 < T) (hw : HasDerivAt w (wT T) T) (hZ : HasDerivAt Z (Y T) T) :
    HasDerivAt (fun t => q.G t p (w t) (Z t)) (-q.S T p (w T) (wT T) (Z T) (Y T)) T := by
  have h0 : T ≠ 0 := by linarith
  have h1 : T - 228 ≠ 0 := by linarith
  have hid := hasDerivAt_id' T
  have hu : HasDerivAt (fun t : ℝ => 1 / (t - 228)) (-1 / (T - 228) ^ 2) T := by
    refine ((hasDerivAt_const T (1 : ℝ)).div (hid.sub_const 228) h1).congr_deriv ?_
    ring
  have h := (((((((((hid.sub_const 298.15).const_mul q.Sr).const_sub q.Gf).sub
    ((((hid.mul (ltr_deriv hT)).sub hid).add_const 298.15).const_mul q.c1)).add_const (q.a1 * (p - 1))).add_const (q.a2 * HKFPar.lp p)).sub
    (((((hu.sub_const (1 / (298.15 - 228))).mul (hid.const_sub 228)).div_const 228).sub
      ((hid.div_const (228 * 228)).mul (lt_deriv hT))).const_mul q.c2)).add
    (hu.mul_const (q.a3 * (p - 1) + q.a4 * HKFPar.lp p))).sub (hw.mul (hZ.add_const 1))).add_const (q.wr * (q.zr + 1)) |>.add
    ((hid.sub_const 298.15).const_mul (q.wr * q.yr))
  refine (h.congr_deriv ?_).congr_of_eventuallyEq (Filter.Eventually.of_forall fun t => ?_)
  · simp only [HKFPar.S]
    generalize Real.log (T / 298.15) = l1
    generalize HKFPar.lt T = l2
    generalize HKFPar.lp p = l3
    field_simp
    ring
  · simp only [HKFPar.G, Pi.add_apply, Pi.mul_apply, Pi.sub_apply, Pi.div_apply]

lemma hkfH_T (hT : 228 < T) (hw : HasDerivAt w (wT T) T) (hwT : HasDerivAt wT wTT T) (hZ : HasDerivAt Z (Y T) T)
    (hY : HasDerivAt Y X T) :
    HasDerivAt (fun t => q.H t p (w t) (wT t) (Z t) (Y t)) (q.Cp T p (w T) (wT T) wTT (Z T) (Y T) X) T := by
  have h0 : T ≠ 0 := by linarith
  have h1 : T - 228 ≠ 0 := by linarith
  have hid := hasDerivAt_id' T
  have hu : HasDerivAt (fun t : ℝ => 1 / (t - 228)) (-1 / (T - 228) ^ 2) T := by
    refine ((hasDerivAt_const T (1 : ℝ)).div (hid.sub_const 228) h1).congr_deriv ?_
    ring
  have hv : HasDerivAt (fun t : ℝ => (2 * t - 228) / (t - 228) ^ 2) (-2 * T / (T - 228) ^ 3) T := by
    refine (((hid.const_mul 2).sub_const 228).div ((hid.sub_const 228).pow 2) (pow_ne_zero 2 h1)).congr_deriv ?_
    push_cast
    simp only [Pi.pow_apply]
    field_simp
    ring
  have h := ((((((((hid.sub_const 298.15).const_mul q.c1).const_add q.Hf).sub
    ((hu.sub_const (1 / (298.15 - 228))).const_mul q.c2)).add_const (q.a1 * (p - 1))).add_const (q.a2 * HKFPar.lp p)).add
    (hv.mul_const (q.a3 * (p - 1) + q.a4 * HKFPar.lp p))).sub (hw.mul (hZ.add_const 1))).add ((hw.mul hid).mul hY) |>.add
    ((hid.mul (hZ.add_const 1)).mul hwT) |>.add_const (q.wr * (q.zr + 1)) |>.sub_const (q.wr * 298.15 * q.yr)
  refine (h.congr_deriv ?_).congr_of_eventuallyEq (Filter.Eventually.of_forall fun t => ?_)
  · simp only [HKFPar.Cp, Pi.mul_apply]
    generalize HKFPar.lp p = l3
    field_simp
    ring
  · simp only [HKFPar.H, Pi.add_apply, Pi.mul_apply, Pi.sub_apply, Pi.div_apply]

lemma hkfS_T (hT : 228 < T) (hw : HasDerivAt w (wT T) T) (hwT : HasDerivAt wT wTT T) (hZ : HasDerivAt Z (Y T) T)
    (hY : HasDerivAt Y X T) :
    HasDerivAt (fun t => q.S t p (w t) (wT t) (Z t) (Y t)) (q.Cp T p (w T) (wT T) wTT (Z T) (Y T) X / T) T := by
  have h0 : T ≠ 0 := by linarith
  have h1 : T - 228 ≠ 0 := by linarith
  have hid := hasDerivAt_id' T
  have hu : HasDerivAt (fun t : ℝ => 1 / (t - 228)) (-1 / (T - 228) ^ 2) T := by
    refine ((hasDerivAt_const T (1 : ℝ)).div (hid.sub_const 228) h1).congr_deriv ?_
    ring
  have hv : HasDerivAt (fun t : ℝ => 1 / (t - 228) ^ 2) (-2 / (T - 228) ^ 3) T := by
    refine ((hasDerivAt_const T (1 : ℝ)).div ((hid.sub_const 228).pow 2) (pow_ne_zero 2 h1)).congr_deriv ?_
    push_cast
    simp only [Pi.pow_apply]
    field_simp
    ring
  have h := ((((((ltr_deriv hT).const_mul q.c1).const_add q.Sr).sub
    (((hu.sub_const (1 / (298.15 - 228))).add ((lt_deriv hT).div_const 228)).const_mul (q.c2 / 228))).add
    (hv.mul_const (q.a3 * (p - 1) + q.a4 * HKFPar.lp p))).add (hw.mul hY)).add ((hZ.add_const 1).mul hwT) |>.sub_const (q.wr * q.yr)
  refine (h.congr_deriv ?_).congr_of_eventuallyEq (Filter.Eventually.of_forall fun t => ?_)
  · simp only [HKFPar.Cp]
    generalize HKFPar.lp p = l3
    field_simp
    ring
  · simp only [HKFPar.S, Pi.add_apply, Pi.mul_apply, Pi.sub_apply, Pi.div_apply]

lemma hkfG_P (hp : -2600 < p) {w Z : ℝ → ℝ} {wP Q : ℝ} (hw : HasDerivAt w wP p) (hZ : HasDerivAt Z Q p) :
    HasDerivAt (fun p => q.G T p (w p) (Z p)) (q.V T p (w p) wP (Z p) Q) p := by
  have hid := hasDerivAt_id' p
  have h := (((((hid.sub_const 1).const_mul q.a1).const_add
      (q.Gf - q.Sr * (T - 298.15) - q.c1 * (T * Real.log (T / 298.15) - T + 298.15))).add ((lp_deriv hp).const_mul q.a2)).sub_const
      (q.c2 * ((1 / (T - 228) - 1 / (298.15 - 228)) * (228 - T) / 228 - T / (228 * 228) * HKFPar.lt T))).add
      ((((hid.sub_const 1).const_mul q.a3).add ((lp_deriv hp).const_mul q.a4)).const_mul (1 / (T - 228))) |>.sub
      (hw.mul (hZ.add_const 1)) |>.add_const (q.wr * (q.zr + 1)) |>.add_const (q.wr * q.yr * (T - 298.15))
  refine (h.congr_deriv ?_).congr_of_eventuallyEq (Filter.Eventually.of_forall fun t => ?_)
  · simp only [HKFPar.V]
    ring
  · simp only [HKFPar.G, Pi.add_apply, Pi.mul_apply, Pi.sub_apply, Pi.div_apply]

end

/-! ### What the two programs compute -/

/-- The parameters as read from a record by the implementation with the reference Born functions `zr`, `yr`. -/
noncomputable def HKFPar.of (ref : TPS) (a1 a2 a3 a4 c1 c2 wr zr yr : ℝ) : HKFPar :=
  ⟨ref.G.val / 4.184, ref.H.val / 4.184, ref.S.val / 4.184, a1, a2, a3, a4, c1, c2, wr, zr, yr⟩

/-- The values both implementations return. -/
structure HKFVals (q : HKFPar) (r : TPS) (t P : ℝ) (a : ESub) (e : ESolv) : Prop where
  G : r.G.val = q.G t (P / 1e5) a.w.val e.bornZ.val * 4.184
  H : r.H.val = q.H t (P / 1e5) a.w.val a.wT.val e.bornZ.val e.bornY.val * 4.184
  S : r.S.val = q.S t (P / 1e5) a.w.val a.wT.val e.bornZ.val e.bornY.val * 4.184
  Cp : r.Cp.val = q.Cp t (P / 1e5) a.w.val a.wT.val a.wTT.val e.bornZ.val e.bornY.val e.bornX.val * 4.184
  Cv : r.Cv.val = q.Cp t (P / 1e5) a.w.val a.wT.val a.wTT.val e.bornZ.val e.bornY.val e.bornX.val * 4.184
  V : r.V.val = q.V t (P / 1e5) a.w.val (a.wP.val * 1e5) e.bornZ.val (e.bornQ.val * 1e5) * 4.184004
  U : r.U.val = r.H.val - 41.84 * (P / 1e5) * r.V.val
  A : r.A.val = r.U.val - t * r.S.val

lemma hkfReaktoro_vals (t P : ℝ) (ref : TPS) (a : ESub) (e : ESolv) (a1 a2 a3 a4 c1 c2 wr : ℝ) (rest : List ℝ) :
    ∃ r, hkfReaktoro (TS.temperature t) (pbar P) (a1 :: a2 :: a3 :: a4 :: c1 :: c2 :: wr :: rest) ref a e = .ok r ∧
      HKFVals (HKFPar.of ref a1 a2 a3 a4 c1 c2 wr (-1.278055636e-02) (-5.795424563e-05)) r t P a e := by
  refine ⟨_, rfl, ?_, ?_, ?_, ?_, ?_, ?_, ?_, ?_⟩ <;>
  simp only [val_mulAssignD, TS.op_val_add, TS.op_val_addL, TS.op_val_addR, TS.op_val_neg, TS.op_val_sub, TS.op_val_subL,
    TS.op_val_subR, TS.op_val_mul, TS.op_val_mulL, TS.op_val_mulR, TS.op_val_div, TS.op_val_divL, TS.op_val_divR, TS.val_temperature,
    val_pbar, TS.val_powR, TS.val_log, Real.rpow_ofNat, HKFPar.of, HKFPar.G, HKFPar.H, HKFPar.S, HKFPar.Cp, HKFPar.V, HKFPar.lp,
    HKFPar.lt, HKF.calJ, HKF.psi, HKF.theta, HKF.Tr, HKF.Pr, HKF.Zr, HKF.Yr] <;> ring

lemma hkfGems_vals (t P : ℝ) (ref : TPS) (a : ESub) (e : ESolv) (a1 a2 a3 a4 c1 c2 wr : ℝ) (rest : List ℝ) :
    ∃ r, hkfGems (TS.subAssignD (TS.temperature t) 273.15) (pbar P) (a1 :: a2 :: a3 :: a4 :: c1 :: c2 :: wr :: rest) ref a e = .ok r ∧
      HKFVals (HKFPar.of ref a1 a2 a3 a4 c1 c2 wr (-0.1278034682e-1) (-0.5798650444e-4)) r t P a e := by
  refine ⟨_, rfl, ?_, ?_, ?_, ?_, ?_, ?_, ?_, ?_⟩ <;>
  simp only [val_mulAssignD, TS.op_val_add, TS.op_val_addL, TS.op_val_addR, TS.op_val_neg, TS.op_val_sub, TS.op_val_subL,
    TS.op_val_subR, TS.op_val_mul, TS.op_val_mulL, TS.op_val_mulR, TS.op_val_div, TS.op_val_divL, TS.op_val_divR, TS.val_temperature,
    one_div, inv_pow, val_pbar, val_subAssignD, TS.val_powR, TS.val_log, Real.rpow_ofNat, HKFPar.of, HKFPar.G, HKFPar.H, HKFPar.S, HKFPar.Cp, HKFPar.V,
    HKFPar.lp, HKFPar.lt, HKF.calJ, HKF.psi, HKF.theta, HKF.Tr, HKF.Pr, HKF.ZPrTr, HKF.YPrTr, sub_add_cancel,
    show ∀ t : ℝ, 298.15 * (t - 228) / t / (298.15 - 228) = 298.15 / t * (t - 228) / (298.15 - 228) from fun t => by ring,
    show ∀ t : ℝ, 298.15 * (t - 228) / (t * (298.15 - 228)) = 298.15 / t * (t - 228) / (298.15 - 228) from fun t => by
      rw [div_mul_eq_mul_div, div_div]] <;> ring

/-! ### C37 -/

/-- The electrostatic properties given to the model are a Born coefficient and a Born function with their partial derivatives at (T, P). -/
structure BornSmooth (a : ℝ → ℝ → ESub) (e : ℝ → ℝ → ESolv) (T P : ℝ) : Prop where
  wT : HasDerivAt (fun t => (a t P).w.val) (a T P).wT.val T
  wTT : HasDerivAt (fun t => (a t P).wT.val) (a T P).wTT.val T
  wP : HasDerivAt (fun p => (a T p).w.val) (a T P).wP.val P
  Y : HasDerivAt (fun t => (e t P).bornZ.val) (e T P).bornY.val T
  X : HasDerivAt (fun t => (e t P).bornY.val) (e T P).bornX.val T
  Q : HasDerivAt (fun p => (e T p).bornZ.val) (e T P).bornQ.val P

/-- Consistency of a model at (T, P); T in K, P in Pa, V in J/bar, `κ` the ratio of dG/dP and V. -/
structure HKFConsistent (κ : ℝ) (f : ℝ → ℝ → TPS) (T P : ℝ) : Prop where
  dGdT : HasDerivAt (fun t => (f t P).G.val) (-(f T P).S.val) T
  dHdT : HasDerivAt (fun t => (f t P).H.val) (f T P).Cp.val T
  dSdT : HasDerivAt (fun t => (f t P).S.val) ((f T P).Cp.val / T) T
  dGdP : HasDerivAt (fun p => (f T p).G.val) (κ * (f T P).V.val / 1e5) P
  A : (f T P).A.val = (f T P).U.val - T * (f T P).S.val

lemma hkf_core {q : HKFPar} {f : ℝ → ℝ → TPS} {a : ℝ → ℝ → ESub} {e : ℝ → ℝ → ESolv}
    (hf : ∀ t p, HKFVals q (f t p) t p (a t p) (e t p)) {T P : ℝ} (hT : 228 < T) (hP : 0 ≤ P) (hb : BornSmooth a e T P) :
    HKFConsistent (4.184 / 4.184004) f T P := by
  have hp : -2600 < P / 1e5 := by
    have : 0 ≤ P / 1e5 := by positivity
    linarith
  have hscale : HasDerivAt (fun p : ℝ => p / 1e5) (1 / 1e5) P := (hasDerivAt_id' P).div_const _
  refine ⟨?_, ?_, ?_, ?_, (hf T P).A⟩
  · simp only [(hf _ _).G, (hf _ _).S]
    exact ((hkfG_T q (p := P / 1e5) (wT := fun t => (a t P).wT.val) (Y := fun t => (e t P).bornY.val) hT hb.wT hb.Y).mul_const 4.184).congr_deriv (by ring)
  · simp only [(hf _ _).H, (hf _ _).Cp]
    exact (hkfH_T q (p := P / 1e5) hT hb.wT hb.wTT hb.Y hb.X).mul_const 4.184
  · simp only [(hf _ _).S, (hf _ _).Cp]
    exact ((hkfS_T q (p := P / 1e5) hT hb.wT hb.wTT hb.Y hb.X).mul_const 4.184).congr_deriv (by ring)
  · simp only [(hf _ _).G, (hf _ _).V]
    have hc : P / 1e5 * 1e5 = P := by ring
    have hw : HasDerivAt (fun x : ℝ => (a T (x * 1e5)).w.val) ((a T P).wP.val * 1e5) (P / 1e5) := by
      have h := HasDerivAt.comp (P / 1e5) (h₂ := fun p => (a T p).w.val) (h := fun x : ℝ => x * 1e5) (h₂' := (a T P).wP.val)
        (by rw [hc]; exact hb.wP) ((hasDerivAt_id' (P / 1e5)).mul_const 1e5)
      exact h.congr_deriv (by ring)
    have hZ : HasDerivAt (fun x : ℝ => (e T (x * 1e5)).bornZ.val) ((e T P).bornQ.val * 1e5) (P / 1e5) := by
      have h := HasDerivAt.comp (P / 1e5) (h₂ := fun p => (e T p).bornZ.val) (h := fun x : ℝ => x * 1e5) (h₂' := (e T P).bornQ.val)
        (by rw [hc]; exact hb.Q) ((hasDerivAt_id' (P / 1e5)).mul_const 1e5)
      exact h.congr_deriv (by ring)
    have h := ((hkfG_P q (T := T) hp hw hZ).comp P hscale).mul_const 4.184
    refine (h.congr_deriv ?_).congr_of_eventuallyEq (Filter.Eventually.of_forall fun p => ?_)
    · simp only [hc]; ring
    · have hc' : p / 1e5 * 1e5 = p := by ring
      simp only [Function.comp, hc']

/-- **C37, the part that holds.**  For every species with seven HKF parameters, every smooth Born coefficient and dielectric function and
every T > 228 K, P ≥ 0, both implementations return properties with dG/dT = -S, dH/dT = Cp, dS/dT = Cp/T, A = U - T S, and dG/dP = κ V
with κ = 4.184/4.184004.  Missing: κ = 1 and U = H - P V, see `C37_refuted`. -/
theorem C37_partial (ref : TPS) (a1 a2 a3 a4 c1 c2 wr : ℝ) (rest : List ℝ) (a : ℝ → ℝ → ESub) (e : ℝ → ℝ → ESolv) (T P : ℝ)
    (hT : 228 < T) (hP : 0 ≤ P) (hb : BornSmooth a e T P) :
    let par := a1 :: a2 :: a3 :: a4 :: c1 :: c2 :: wr :: rest
    (∃ f, (∀ t p, hkfReaktoro (TS.temperature t) (pbar p) par ref (a t p) (e t p) = .ok (f t p)) ∧
      HKFConsistent (4.184 / 4.184004) f T P) ∧
    (∃ f, (∀ t p, hkfGems (TS.subAssignD (TS.temperature t) 273.15) (pbar p) par ref (a t p) (e t p) = .ok (f t p)) ∧
      HKFConsistent (4.184 / 4.184004) f T P) := by
  constructor
  · choose f hf hv using fun t p => hkfReaktoro_vals t p ref (a t p) (e t p) a1 a2 a3 a4 c1 c2 wr rest
    exact ⟨f, hf, hkf_core hv hT hP hb⟩
  · choose f hf hv using fun t p => hkfGems_vals t p ref (a t p) (e t p) a1 a2 a3 a4 c1 c2 wr rest
    exact ⟨f, hf, hkf_core hv hT hP hb⟩

/-- A Born coefficient and function that vary with T and P meet the hypotheses of `C37_partial`. -/
example : BornSmooth
    (fun t p => ⟨.ofVal (1e5 + 3 * t ^ 2 + 2 * p), .ofVal (6 * t), .ofVal 2, .ofVal 6, .default, .default⟩)
    (fun t p => ⟨.ofVal (-1 / 80 - t * p), .ofVal (-p), .ofVal (-t), .ofVal 0⟩) 300 1e5 := by
  constructor <;> simp only [TS.val_ofVal]
  · exact (((((hasDerivAt_id' (300 : ℝ)).pow 2).const_mul 3).const_add 1e5).add_const _).congr_deriv (by norm_num)
  · exact ((hasDerivAt_id' (300 : ℝ)).const_mul 6).congr_deriv (by norm_num)
  · exact (((hasDerivAt_id' (1e5 : ℝ)).const_mul 2).const_add _).congr_deriv (by norm_num)
  · exact (((hasDerivAt_id' (300 : ℝ)).mul_const 1e5).const_sub _).congr_deriv (by norm_num)
  · exact hasDerivAt_const _ _
  · exact (((hasDerivAt_id' (1e5 : ℝ)).const_mul 300).const_sub _).congr_deriv (by norm_num)

/-- **C37 does not hold.**  A species with a1 = 1 and all else zero at 300 K and 2 bar: dG/dP is not V (the factor 41.84004 cm³·bar/cal
used for V and the factor 4.184 J/cal used for G disagree), and U is not H - P V (U is formed from H in cal and V in cm³). -/
theorem C37_refuted :
    ∃ (par : List ℝ) (ref : TPS) (a : ESub) (e : ESolv) (T P : ℝ),
      BornSmooth (fun _ _ => a) (fun _ _ => e) T P ∧
      (∃ f : ℝ → ℝ → TPS, (∀ t p, hkfReaktoro (TS.temperature t) (pbar p) par ref a e = .ok (f t p)) ∧
        ¬ HasDerivAt (fun p => (f T p).G.val) ((f T P).V.val / 1e5) P ∧
        (f T P).U.val ≠ (f T P).H.val - P / 1e5 * (f T P).V.val) ∧
      (∃ f : ℝ → ℝ → TPS, (∀ t p, hkfGems (TS.subAssignD (TS.temperature t) 273.15) (pbar p) par ref a e = .ok (f t p)) ∧
        ¬ HasDerivAt (fun p => (f T p).G.val) ((f T P).V.val / 1e5) P ∧
        (f T P).U.val ≠ (f T P).H.val - P / 1e5 * (f T P).V.val) := by
  have hb : BornSmooth (fun _ _ => (⟨.default, .default, .default, .default, .default, .default⟩ : ESub))
      (fun _ _ => (⟨.default, .default, .default, .default⟩ : ESolv)) 300 2e5 := by
    constructor <;> simpa using hasDerivAt_const _ _
  have key : ∀ (q : HKFPar) (f : ℝ → ℝ → TPS), q.a1 = 1 → q.a2 = 0 → q.a3 = 0 → q.a4 = 0 →
      (∀ t p, HKFVals q (f t p) t p ⟨.default, .default, .default, .default, .default, .default⟩
        ⟨.default, .default, .default, .default⟩) →
      ¬ HasDerivAt (fun p => (f 300 p).G.val) ((f 300 2e5).V.val / 1e5) 2e5 ∧
        (f 300 2e5).U.val ≠ (f 300 2e5).H.val - 2e5 / 1e5 * (f 300 2e5).V.val := by
    intro q f h1 h2 h3 h4 hv
    have hV : (f 300 2e5).V.val = 4.184004 := by
      rw [(hv _ _).V]
      simp [HKFPar.V, h1, h2, h3, h4]
    constructor
    · intro h
      have h' := h.unique (hkf_core hv (by norm_num) (by norm_num) hb).dGdP
      rw [hV] at h'
      norm_num at h'
    · rw [(hv _ _).U, hV]
      norm_num
  refine ⟨[1, 0, 0, 0, 0, 0, 0], TPS.default, _, _, 300, 2e5, hb, ?_, ?_⟩
  · choose f hf hv using fun t p => hkfReaktoro_vals t p TPS.default ⟨.default, .default, .default, .default, .default, .default⟩
      ⟨.default, .default, .default, .default⟩ 1 0 0 0 0 0 0 []
    exact ⟨f, hf, key _ f rfl rfl rfl rfl hv⟩
  · choose f hf hv using fun t p => hkfGems_vals t p TPS.default ⟨.default, .default, .default, .default, .default, .default⟩
      ⟨.default, .default, .default, .default⟩ 1 0 0 0 0 0 0 []
    exact ⟨f, hf, key _ f rfl rfl rfl rfl hv⟩

end ThermoFun

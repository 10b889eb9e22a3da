import Verif.Props.HKF

/-!
Property C38: the derivatives of the Born coefficient of a solute.
-/

set_option linter.unusedSimpArgs false

namespace ThermoFun

/-- The g function given to the models has, at (T, P), the partial derivatives it says it has. -/
structure GSmooth (F : ℝ → ℝ → FunG) (T P : ℝ) : Prop where
  gT : HasDerivAt (fun t => (F t P).g.val) (F T P).gT.val T
  gP : HasDerivAt (fun p => (F T p).g.val) (F T P).gP.val P
  gTT : HasDerivAt (fun t => (F t P).gT.val) (F T P).gTT.val T
  gTP : HasDerivAt (fun p => (F T p).gT.val) (F T P).gTP.val P
  gPP : HasDerivAt (fun p => (F T p).gP.val) (F T P).gPP.val P

/-- First derivatives, and the second one by temperature, of the reported Born coefficient. -/
structure BornFirst (E : ℝ → ℝ → ESub) (T P : ℝ) : Prop where
  wT : HasDerivAt (fun t => (E t P).w.val) (E T P).wT.val T
  wP : HasDerivAt (fun p => (E T p).w.val) (E T P).wP.val P
  wTT : HasDerivAt (fun t => (E t P).wT.val) (E T P).wTT.val T

/-- All derivatives of the reported Born coefficient. -/
structure BornAll (E : ℝ → ℝ → ESub) (T P : ℝ) : Prop extends BornFirst E T P where
  wTP : HasDerivAt (fun p => (E T p).wT.val) (E T P).wTP.val P
  wPP : HasDerivAt (fun p => (E T p).wP.val) (E T P).wPP.val P

section core
variable (eta k n z R : ℝ)

/-- The Born coefficient as a function of g. -/
noncomputable def bW (g : ℝ) : ℝ := eta * (n ^ 2 / (R + n * g) - z / (k + g))
/-- Its first derivative. -/
noncomputable def bW1 (g : ℝ) : ℝ := -eta * (n ^ 3 / (R + n * g) ^ 2 - z / (k + g) ^ 2)
/-- Its second derivative. -/
noncomputable def bW2 (g : ℝ) : ℝ := 2 * eta * (n ^ 4 / (R + n * g) ^ 3 - z / (k + g) ^ 3)

variable {eta k n z R}

lemma bW_deriv {g : ℝ} (h1 : R + n * g ≠ 0) (h2 : k + g ≠ 0) : HasDerivAt (bW eta k n z R) (bW1 eta k n z R g) g := by
  have hid := hasDerivAt_id' g
  have h := (((hasDerivAt_const g (n ^ 2)).div ((hid.const_mul n).const_add R) h1).sub
    ((hasDerivAt_const g z).div (hid.const_add k) h2)).const_mul eta
  refine h.congr_deriv ?_
  simp only [bW1]
  ring

lemma bW1_deriv {g : ℝ} (h1 : R + n * g ≠ 0) (h2 : k + g ≠ 0) : HasDerivAt (bW1 eta k n z R) (bW2 eta k n z R g) g := by
  have hid := hasDerivAt_id' g
  have h := (((hasDerivAt_const g (n ^ 3)).div (((hid.const_mul n).const_add R).pow 2) (pow_ne_zero 2 h1)).sub
    ((hasDerivAt_const g z).div ((hid.const_add k).pow 2) (pow_ne_zero 2 h2))).const_mul (-eta)
  refine h.congr_deriv ?_
  simp only [bW2, Pi.pow_apply]
  push_cast
  field_simp
  ring

/-- The chain rule for the first derivatives. -/
lemma bW_comp {f : ℝ → ℝ} {x f' : ℝ} (h1 : R + n * f x ≠ 0) (h2 : k + f x ≠ 0) (hf : HasDerivAt f f' x) :
    HasDerivAt (fun y => bW eta k n z R (f y)) (bW1 eta k n z R (f x) * f') x :=
  (bW_deriv h1 h2).comp x hf

/-- The chain rule for the second derivatives. -/
lemma bW1_mul {f h : ℝ → ℝ} {x f' h' : ℝ} (h1 : R + n * f x ≠ 0) (h2 : k + f x ≠ 0) (hf : HasDerivAt f f' x) (hh : HasDerivAt h h' x) :
    HasDerivAt (fun y => bW1 eta k n z R (f y) * h y) (bW1 eta k n z R (f x) * h' + bW2 eta k n z R (f x) * f' * h x) x :=
  (((bW1_deriv h1 h2).comp x hf).mul hh).congr_deriv (by simp only [Function.comp]; ring)

end core

/-- The effective radius at the reference state, z²/(w/η + z/3.082). -/
noncomputable def refRadius (z : ℤ) (wref : ℝ) : ℝ := (z : ℝ) ^ 2 / (wref / 1.66027e+05 + z / 3.082)

lemma bornReaktoro_vals {z : ℤ} (hz : z ≠ 0) {hkf : List ℝ} {wref : ℝ} (hw : hkf[6]? = some wref) (g : FunG) :
    ∃ e, bornReaktoro g z false hkf = .ok e ∧
      let W1 := bW1 1.66027e+05 3.082 |(z : ℝ)| z (refRadius z wref) g.g.val
      let W2 := bW2 1.66027e+05 3.082 |(z : ℝ)| z (refRadius z wref) g.g.val
      e.w.val = bW 1.66027e+05 3.082 |(z : ℝ)| z (refRadius z wref) g.g.val ∧
      e.wT.val = W1 * g.gT.val ∧ e.wP.val = W1 * g.gP.val ∧
      e.wTT.val = W1 * g.gTT.val + W2 * g.gT.val * g.gT.val ∧
      e.wTP.val = W1 * g.gTP.val + W2 * g.gP.val * g.gT.val ∧
      e.wPP.val = W1 * g.gPP.val + W2 * g.gP.val * g.gP.val := by
  have h2 : (z : ℝ) * z = |(z : ℝ)| ^ 2 := by rw [sq_abs]; ring
  have h3 : |(z : ℝ) * z * z| = |(z : ℝ)| ^ 3 := by rw [abs_mul, abs_mul]; ring
  have h4 : (z : ℝ) * z * z * z = |(z : ℝ)| ^ 4 := by
    rw [show |(z : ℝ)| ^ 4 = (|(z : ℝ)| ^ 2) ^ 2 by ring, sq_abs]; ring
  unfold bornReaktoro
  simp only [hw, hz, false_or, Bool.false_eq_true, if_false]
  refine ⟨_, rfl, ?_⟩
  simp only [TS.op_val_add, TS.op_val_addL, TS.op_val_addR, TS.op_val_neg, TS.op_val_sub, TS.op_val_subL, TS.op_val_subR,
    TS.op_val_mul, TS.op_val_mulL, TS.op_val_mulR, TS.op_val_div, TS.op_val_divL, TS.op_val_divR, TS.val_powR, Real.rpow_ofNat,
    h3, h4, bW, bW1, bW2, refRadius, HKF.eta]
  rw [show (z : ℝ) ^ 2 = z * z by ring, h2]
  generalize |(z : ℝ)| = n
  generalize n ^ 2 / (wref / 1.66027e+05 + (z : ℝ) / 3.082) = R
  refine ⟨?_, ?_, ?_, ?_, ?_, ?_⟩ <;> ring

lemma omeg92_vals {z : ℤ} (hz : z ≠ 0) {hkf : List ℝ} {wref : ℝ} (hw : hkf[6]? = some wref) (g : FunG) :
    ∃ e, omeg92 g z hkf = .ok e ∧
      let W1 := bW1 1.66027e+05 3.082 |(z : ℝ)| z (refRadius z wref) g.g.val
      let W2 := bW2 1.66027e+05 3.082 |(z : ℝ)| z (refRadius z wref) g.g.val
      e.w.val = bW 1.66027e+05 3.082 |(z : ℝ)| z (refRadius z wref) g.g.val ∧
      e.wT.val = W1 * g.gT.val ∧ e.wP.val = W1 * g.gP.val ∧
      e.wTT.val = W1 * g.gTT.val + W2 * g.gT.val * g.gT.val ∧ e.wTP.val = 0 ∧ e.wPP.val = 0 := by
  have h3 : |(z : ℝ) ^ 3| = |(z : ℝ)| ^ 3 := abs_pow _ _
  have h4 : |(z : ℝ) ^ 4| = |(z : ℝ)| ^ 4 := abs_pow _ _
  have h2 : (z : ℝ) ^ 2 = |(z : ℝ)| ^ 2 := by rw [sq_abs]
  unfold omeg92
  simp only [hw, hz, if_false]
  refine ⟨_, rfl, ?_⟩
  simp only [TS.op_val_add, TS.op_val_addL, TS.op_val_addR, TS.op_val_neg, TS.op_val_sub, TS.op_val_subL, TS.op_val_subR,
    TS.op_val_mul, TS.op_val_mulL, TS.op_val_mulR, TS.op_val_div, TS.op_val_divL, TS.op_val_divR, TS.val_powR, Real.rpow_ofNat,
    val_assign, TS.val_default, add_zero, h3, h4, h2, bW, bW1, bW2, refRadius, HKF.eta]
  generalize |(z : ℝ)| = n
  generalize n ^ 2 / (wref / 1.66027e+05 + (z : ℝ) / 3.082) = R
  refine ⟨?_, ?_, ?_, ?_, trivial, trivial⟩
  all_goals first | trivial | ring

lemma constant_first (c : ESub) (h : c.wT.val = 0 ∧ c.wP.val = 0 ∧ c.wTT.val = 0 ∧ c.wTP.val = 0 ∧ c.wPP.val = 0) (T P : ℝ) :
    BornAll (fun _ _ => c) T P := by
  obtain ⟨h1, h2, h3, h4, h5⟩ := h
  constructor
  · constructor
    · simpa only [h1] using hasDerivAt_const T c.w.val
    · simpa only [h2] using hasDerivAt_const P c.w.val
    · simpa only [h3] using hasDerivAt_const T c.wT.val
  · simpa only [h4] using hasDerivAt_const P c.wT.val
  · simpa only [h5] using hasDerivAt_const P c.wP.val

/-- **C38 for the reaktoro implementation.**  For every charge and every smooth g function, where neither the effective radius nor
3.082 + g vanishes, all reported derivatives of the Born coefficient are its derivatives; a neutral species, and H+, has the constant
coefficient of its record. -/
theorem C38_reaktoro (z : ℤ) (isH : Bool) (hkf : List ℝ) (wref : ℝ) (hw : hkf[6]? = some wref) (F : ℝ → ℝ → FunG) (T P : ℝ)
    (hF : GSmooth F T P) (hr : z ≠ 0 → refRadius z wref + |(z : ℝ)| * (F T P).g.val ≠ 0) (hg : 3.082 + (F T P).g.val ≠ 0) :
    ∃ E : ℝ → ℝ → ESub, (∀ t p, bornReaktoro (F t p) z isH hkf = .ok (E t p)) ∧ BornAll E T P ∧
      (z = 0 ∨ isH = true → ∀ t p, (E t p).w.val = wref) := by
  by_cases hc : z = 0 ∨ isH = true
  · refine ⟨fun _ _ => ⟨TS.assign .default wref, TS.assign .default 0, TS.assign .default 0, TS.assign .default 0,
      TS.assign .default 0, TS.assign .default 0⟩, fun t p => ?_, constant_first _ ⟨rfl, rfl, rfl, rfl, rfl⟩ T P, fun _ _ _ => rfl⟩
    simp only [bornReaktoro, hw, if_pos hc]
  · push Not at hc
    obtain ⟨hz, hh⟩ := hc
    obtain rfl : isH = false := by simpa using hh
    choose E hE h1 h2 h3 h4 h5 h6 using fun t p => bornReaktoro_vals hz hw (F t p)
    refine ⟨E, hE, ⟨⟨?_, ?_, ?_⟩, ?_, ?_⟩, by simp [hz]⟩
    · simp only [h1, h2]
      exact bW_comp (f := fun t => (F t P).g.val) (hr hz) hg hF.gT
    · simp only [h1, h3]
      exact bW_comp (f := fun p => (F T p).g.val) (hr hz) hg hF.gP
    · simp only [h2, h4]
      exact bW1_mul (f := fun t => (F t P).g.val) (hr hz) hg hF.gT hF.gTT
    · simp only [h2, h5]
      exact bW1_mul (f := fun p => (F T p).g.val) (hr hz) hg hF.gP hF.gTP
    · simp only [h3, h6]
      exact bW1_mul (f := fun p => (F T p).g.val) (hr hz) hg hF.gP hF.gPP

/-- **C38 for the gems implementation, the part that holds**: the first derivatives and the second by temperature.  Missing: the mixed
derivative and the second by pressure, which are never set, see `C38_gems_refuted`. -/
theorem C38_gems_partial (z : ℤ) (hkf : List ℝ) (wref : ℝ) (hw : hkf[6]? = some wref) (F : ℝ → ℝ → FunG) (T P : ℝ)
    (hF : GSmooth F T P) (hr : z ≠ 0 → refRadius z wref + |(z : ℝ)| * (F T P).g.val ≠ 0) (hg : 3.082 + (F T P).g.val ≠ 0) :
    ∃ E : ℝ → ℝ → ESub, (∀ t p, omeg92 (F t p) z hkf = .ok (E t p)) ∧ BornFirst E T P ∧
      (z = 0 → ∀ t p, (E t p).w.val = wref) := by
  by_cases hz : z = 0
  · refine ⟨fun _ _ => ⟨TS.assign .default wref, TS.assign .default 0, TS.assign .default 0, TS.assign .default 0,
      .default, .default⟩, fun t p => ?_, (constant_first _ ⟨rfl, rfl, rfl, rfl, rfl⟩ T P).toBornFirst, fun _ _ _ => rfl⟩
    simp only [omeg92, hw, if_pos hz]
  · choose E hE h1 h2 h3 h4 h5 h6 using fun t p => omeg92_vals hz hw (F t p)
    refine ⟨E, hE, ⟨?_, ?_, ?_⟩, by simp [hz]⟩
    · simp only [h1, h2]
      exact bW_comp (f := fun t => (F t P).g.val) (hr hz) hg hF.gT
    · simp only [h1, h3]
      exact bW_comp (f := fun p => (F T p).g.val) (hr hz) hg hF.gP
    · simp only [h2, h4]
      exact bW1_mul (f := fun t => (F t P).g.val) (hr hz) hg hF.gT hF.gTT

/-- A g function that varies with T and P. -/
noncomputable def sampleG : ℝ → ℝ → FunG := fun t p =>
  ⟨.ofVal (t * p), .ofVal p, .ofVal t, .ofVal 0, .ofVal 1, .ofVal 0⟩

lemma sampleG_smooth (T P : ℝ) : GSmooth sampleG T P := by
  constructor <;> simp only [sampleG, TS.val_ofVal]
  · exact ((hasDerivAt_id' T).mul_const P).congr_deriv (by ring)
  · exact ((hasDerivAt_id' P).const_mul T).congr_deriv (by ring)
  · exact hasDerivAt_const _ _
  · exact hasDerivAt_id' P
  · exact hasDerivAt_const _ _

/-- The hypotheses of `C38_reaktoro` and `C38_gems_partial` for an anion of charge -1 at g = 0. -/
example : GSmooth sampleG 0 0 ∧ ((-1 : ℤ) ≠ 0 → refRadius (-1) 1.4e5 + |((-1 : ℤ) : ℝ)| * (sampleG 0 0).g.val ≠ 0) ∧
    3.082 + (sampleG 0 0).g.val ≠ 0 := by
  refine ⟨sampleG_smooth _ _, fun _ => ?_, ?_⟩
  · simp only [sampleG, TS.val_ofVal, refRadius]; norm_num
  · simp only [sampleG, TS.val_ofVal]; norm_num

/-- **C38 does not hold for the gems implementation**: the mixed derivative of a cation's Born coefficient is left at zero. -/
theorem C38_gems_refuted :
    ∃ (z : ℤ) (hkf : List ℝ) (wref : ℝ) (F : ℝ → ℝ → FunG) (T P : ℝ), hkf[6]? = some wref ∧ GSmooth F T P ∧
      refRadius z wref + |(z : ℝ)| * (F T P).g.val ≠ 0 ∧ 3.082 + (F T P).g.val ≠ 0 ∧
      ∀ E : ℝ → ℝ → ESub, (∀ t p, omeg92 (F t p) z hkf = .ok (E t p)) → ¬ BornAll E T P := by
  have hw : ([0, 0, 0, 0, 0, 0, 1.66027e+05] : List ℝ)[6]? = some (1.66027e+05 : ℝ) := rfl
  refine ⟨1, [0, 0, 0, 0, 0, 0, 1.66027e+05], 1.66027e+05, sampleG, 0, 0, hw, sampleG_smooth _ _, ?_, ?_, ?_⟩
  · simp only [sampleG, TS.val_ofVal, refRadius]; norm_num
  · simp only [sampleG, TS.val_ofVal]; norm_num
  · intro E hE hB
    choose E' hE' h1 h2 h3 h4 h5 h6 using fun t p => omeg92_vals (one_ne_zero (α := ℤ)) hw (sampleG t p)
    have hEE : E = E' := by
      funext t p
      have := (hE t p).symm.trans (hE' t p)
      simpa using this
    subst hEE
    have hd := hB.wTP
    simp only [h2, h5] at hd
    have hg0 : refRadius 1 1.66027e+05 + |((1 : ℤ) : ℝ)| * (sampleG 0 0).g.val ≠ 0 := by
      simp only [sampleG, TS.val_ofVal, refRadius]; norm_num
    have hd' := bW1_mul (eta := 1.66027e+05) (k := 3.082) (n := |((1 : ℤ) : ℝ)|) (z := ((1 : ℤ) : ℝ)) (R := refRadius 1 1.66027e+05)
      (f := fun p => (sampleG 0 p).g.val) (h := fun p => (sampleG 0 p).gT.val) (x := 0) hg0
      (by simp only [sampleG, TS.val_ofVal]; norm_num) (sampleG_smooth 0 0).gP (sampleG_smooth 0 0).gTP
    have := hd.unique hd'
    simp only [sampleG, TS.val_ofVal, refRadius, bW1, bW2] at this
    norm_num at this

end ThermoFun

import Verif.Model.WaterElectro
import Verif.Lemmas.Grad
import Verif.Props.WaterState
import Verif.Props.HKFEntry
import Mathlib.Tactic.IntervalCases

/-!
C80: the dielectric constant of the Johnson-Norton model, its reported derivatives and the Born functions.
-/

set_option linter.unusedSimpArgs false

namespace ThermoFun

open scoped BigOperators

/-! ### Specification -/

/-- The reported density derivatives are the derivatives of the reported density. -/
structure DensityJet (w : ℝ → ℝ → WState) (T P : ℝ) : Prop where
  rho : Grad (fun t p => (w t p).density) (w T P).densityT (w T P).densityP T P
  rhoT : Grad (fun t p => (w t p).densityT) (w T P).densityTT (w T P).densityTP T P
  rhoP : Grad (fun t p => (w t p).densityP) (w T P).densityTP (w T P).densityPP T P

/-- The derivatives of the dielectric constant are right and the Born functions are its derivatives:
Z = -1/ε, Y = ∂Z/∂T, Q = ∂Z/∂P, X = ∂Y/∂T, U = ∂Y/∂P = ∂Q/∂T, N = ∂Q/∂P. -/
structure ElectroConsistent (e : ℝ → ℝ → WElectro) (T P : ℝ) : Prop where
  eps : Grad (fun t p => (e t p).epsilon) (e T P).epsilonT (e T P).epsilonP T P
  epsT : Grad (fun t p => (e t p).epsilonT) (e T P).epsilonTT (e T P).epsilonTP T P
  epsP : Grad (fun t p => (e t p).epsilonP) (e T P).epsilonTP (e T P).epsilonPP T P
  Zdef : (e T P).bornZ = -1 / (e T P).epsilon
  Z : Grad (fun t p => (e t p).bornZ) (e T P).bornY (e T P).bornQ T P
  Y : Grad (fun t p => (e t p).bornY) (e T P).bornX (e T P).bornU T P
  Q : Grad (fun t p => (e t p).bornQ) (e T P).bornU (e T P).bornN T P

/-! ### The Born functions of any dielectric constant -/

/-- The Born functions are right for every dielectric constant with right derivatives, where it does not vanish. -/
lemma bornFunctions_grad {e eT eP eTT eTP ePP : ℝ → ℝ → ℝ} {T P : ℝ} (h0 : e T P ≠ 0)
    (he : Grad e (eT T P) (eP T P) T P) (heT : Grad eT (eTT T P) (eTP T P) T P) (heP : Grad eP (eTP T P) (ePP T P) T P) :
    ElectroConsistent (fun t p => bornFunctions (e t p) (eT t p) (eP t p) (eTT t p) (eTP t p) (ePP t p)) T P := by
  have h2 : e T P * e T P ≠ 0 := mul_ne_zero h0 h0
  refine ⟨he, heT, heP, by norm_num [bornFunctions], ?_, ?_, ?_⟩
  · refine (((Grad.const (-1.0)).div he h0).congr ?_ ?_) <;> simp only [bornFunctions] <;> norm_num <;> field_simp
  · refine ((heT.div (he.mul he) h2).congr ?_ ?_) <;> simp only [bornFunctions] <;> norm_num <;> field_simp <;> ring
  · refine ((heP.div (he.mul he) h2).congr ?_ ?_) <;> simp only [bornFunctions] <;> norm_num <;> field_simp <;> ring

/-! ### One term of the sum -/

lemma hasDerivAt_pow' (n : ℕ) {x : ℝ} (hx : x ≠ 0) : HasDerivAt (fun x : ℝ => x ^ n) (n * x ^ n / x) x := by
  refine (hasDerivAt_pow n x).congr_deriv ?_
  cases n with
  | zero => simp
  | succ m => push_cast; rw [pow_succ]; field_simp

section
variable {K K1 : ℝ → ℝ} {k2 : ℝ} {R RT RP : ℝ → ℝ → ℝ} {rTT rTP rPP : ℝ} {T P : ℝ} (n : ℕ)

lemma rn_grad (hR : Grad R (RT T P) (RP T P) T P) (h0 : R T P ≠ 0) :
    Grad (fun t p => (R t p / 1000) ^ n) ((R T P / 1000) ^ n * n * (RT T P / R T P)) ((R T P / 1000) ^ n * n * (RP T P / R T P)) T P := by
  have h1 : Grad (fun t p => R t p / 1000) (RT T P / 1000) (RP T P / 1000) T P :=
    ((hR.mul_const (1 / 1000)).congr (by ring) (by ring)).congr_fun fun _ _ => by ring
  have h00 : R T P / 1000 ≠ 0 := by simpa using h0
  refine (Grad.comp (g := fun t p => R t p / 1000) (hasDerivAt_pow' n h00) h1).congr ?_ ?_ <;> field_simp

lemma term_grad (hK : HasDerivAt K (K1 T) T) (hR : Grad R (RT T P) (RP T P) T P) (h0 : R T P ≠ 0) :
    Grad (fun t p => K t * (R t p / 1000) ^ n) ((R T P / 1000) ^ n * (K1 T - n * (-RT T P / R T P) * K T))
      ((R T P / 1000) ^ n * K T * n * (RP T P / R T P)) T P := by
  refine ((Grad.left hK).mul (rn_grad n hR h0)).congr ?_ ?_ <;> ring

lemma termT_grad (hK : HasDerivAt K (K1 T) T) (hK1 : HasDerivAt K1 k2 T) (hR : Grad R (RT T P) (RP T P) T P)
    (hRT : Grad RT rTT rTP T P) (h0 : R T P ≠ 0) :
    Grad (fun t p => (R t p / 1000) ^ n * (K1 t - n * (-RT t p / R t p) * K t))
      ((R T P / 1000) ^ n * (k2 - n * (-RT T P / R T P * K1 T + K T * (-rTT / R T P + -RT T P / R T P * (-RT T P / R T P)))
        - n * (-RT T P / R T P) * (K1 T - n * (-RT T P / R T P) * K T)))
      ((R T P / 1000) ^ n * n * (RP T P / R T P * (K1 T - n * (-RT T P / R T P) * K T)
        + K T * (rTP / R T P + -RT T P / R T P * (RP T P / R T P)))) T P := by
  have ha : Grad (fun t p => -RT t p / R t p) _ _ T P := hRT.neg.div hR h0
  have hb := ((Grad.left (y := P) hK1).sub ((ha.const_mul (n : ℝ)).mul (Grad.left hK)))
  refine ((rn_grad n hR h0).mul hb).congr ?_ ?_ <;> generalize (R T P / 1000) ^ n = r <;> field_simp <;> ring

lemma termP_grad (hK : HasDerivAt K (K1 T) T) (hR : Grad R (RT T P) (RP T P) T P)
    (hRP : Grad RP rTP rPP T P) (h0 : R T P ≠ 0) :
    Grad (fun t p => (R t p / 1000) ^ n * K t * n * (RP t p / R t p))
      ((R T P / 1000) ^ n * n * (RP T P / R T P * (K1 T - n * (-RT T P / R T P) * K T)
        + K T * (rTP / R T P + -RT T P / R T P * (RP T P / R T P))))
      ((R T P / 1000) ^ n * K T * n * (n * (RP T P / R T P) * (RP T P / R T P)
        + (rPP / R T P - RP T P / R T P * (RP T P / R T P)))) T P := by
  have hb := ((rn_grad n hR h0).mul (Grad.left hK)).mul_const (n : ℝ)
  refine (hb.mul (hRP.div hR h0)).congr ?_ ?_ <;> generalize (R T P / 1000) ^ n = r <;> field_simp <;> ring

end

/-! ### The temperature functions -/

lemma jnK_deriv (i : ℕ) {t : ℝ} (ht : t ≠ 0) : HasDerivAt (jnK i) (jnKt i t) t := by
  have hi : HasDerivAt (fun x : ℝ => x⁻¹) (-(t ^ 2)⁻¹) t := hasDerivAt_inv ht
  have hi2 : HasDerivAt (fun x : ℝ => x⁻¹ * x⁻¹) _ t := hi.mul hi
  match i with
  | 0 => exact hasDerivAt_const t 1
  | 1 =>
    have := hi.const_mul (jnA 1)
    exact (this.congr_deriv (by simp only [jnKt]; field_simp)).congr_of_eventuallyEq (.of_forall fun x => by
      simp only [jnK]; ring)
  | 2 =>
    have := ((hi.const_mul (jnA 2)).add_const (jnA 3)).fun_add ((hasDerivAt_id' t).const_mul (jnA 4))
    exact (this.congr_deriv (by simp only [jnKt]; field_simp)).congr_of_eventuallyEq (.of_forall fun x => by
      simp only [jnK]; ring)
  | 3 =>
    have := ((hi.const_mul (jnA 5)).fun_add ((hasDerivAt_id' t).const_mul (jnA 6))).fun_add ((hasDerivAt_pow 2 t).const_mul (jnA 7))
    exact (this.congr_deriv (by simp only [jnKt]; push_cast; field_simp; try ring)).congr_of_eventuallyEq (.of_forall fun x => by
      simp only [jnK]; ring)
  | n + 4 =>
    have := ((hi2.const_mul (jnA 8)).fun_add (hi.const_mul (jnA 9))).add_const (jnA 10)
    exact (this.congr_deriv (by simp only [jnKt]; field_simp; try ring)).congr_of_eventuallyEq (.of_forall fun x => by
      simp only [jnK]; ring)

lemma jnKt_deriv (i : ℕ) {t : ℝ} (ht : t ≠ 0) : HasDerivAt (jnKt i) (jnKtt i t) t := by
  have hi : HasDerivAt (fun x : ℝ => x⁻¹) (-(t ^ 2)⁻¹) t := hasDerivAt_inv ht
  have hi2 : HasDerivAt (fun x : ℝ => x⁻¹ * x⁻¹) _ t := hi.mul hi
  have hi3 : HasDerivAt (fun x : ℝ => x⁻¹ * x⁻¹ * x⁻¹) _ t := hi2.mul hi
  match i with
  | 0 => exact hasDerivAt_const t 0
  | 1 =>
    have := hi2.const_mul (-jnA 1)
    exact (this.congr_deriv (by simp only [jnKtt]; field_simp; try ring)).congr_of_eventuallyEq (.of_forall fun x => by
      simp only [jnKt]; ring)
  | 2 =>
    have := (hi2.const_mul (-jnA 2)).add_const (jnA 4)
    exact (this.congr_deriv (by simp only [jnKtt]; field_simp; try ring)).congr_of_eventuallyEq (.of_forall fun x => by
      simp only [jnKt]; ring)
  | 3 =>
    have := ((hi2.const_mul (-jnA 5)).add_const (jnA 6)).fun_add ((hasDerivAt_id' t).const_mul (2 * jnA 7))
    exact (this.congr_deriv (by simp only [jnKtt]; field_simp; try ring)).congr_of_eventuallyEq (.of_forall fun x => by
      simp only [jnKt]; ring)
  | n + 4 =>
    have := (hi3.const_mul (-2 * jnA 8)).fun_sub (hi2.const_mul (jnA 9))
    exact (this.congr_deriv (by simp only [jnKtt]; field_simp; try ring)).congr_of_eventuallyEq (.of_forall fun x => by
      simp only [jnKt]; ring)

lemma scaled {f : ℝ → ℝ} {f' T c : ℝ} (h : HasDerivAt f f' (T / c)) : HasDerivAt (fun T => f (T / c)) (f' / c) T := by
  have := HasDerivAt.comp T (h₂ := f) (h := fun T => T / c) h ((hasDerivAt_id' T).div_const c)
  exact this.congr_deriv (by ring)

/-! ### C80 -/

/-- **C80, the part that holds.**  Along every family of water states with right density derivatives the reported derivatives of the
Johnson-Norton dielectric constant are its derivatives, and the Born functions are those of its definition, provided the
compressibility and the four temperature polynomials do not vanish.  Missing: the isolated temperatures where one of the polynomials
vanishes, see `C80_refuted`. -/
theorem C80_partial (w : ℝ → ℝ → WState) (T P : ℝ) (hT : T ≠ 0) (hw : DensityJet w T P) (hρ : (w T P).density ≠ 0)
    (hβ : (w T P).densityP ≠ 0) (hk : ∀ i ∈ Finset.range 5, jnK i (T / 298.15) ≠ 0) (hε : (johnsonNorton T (w T P)).epsilon ≠ 0) :
    ElectroConsistent (fun t p => johnsonNorton t (w t p)) T P := by
  have hT' : T / 298.15 ≠ 0 := div_ne_zero hT (by norm_num)
  have hK (i : ℕ) : HasDerivAt (fun T => jnK i (T / 298.15)) (jnKt i (T / 298.15) / 298.15) T := scaled (jnK_deriv i hT')
  have hK1 (i : ℕ) : HasDerivAt (fun T => jnKt i (T / 298.15) / 298.15) (jnKtt i (T / 298.15) / 298.15 / 298.15) T :=
    (scaled (jnKt_deriv i hT')).div_const _
  refine bornFunctions_grad hε ?_ ?_ ?_
  · exact Grad.sum _ fun i _ => term_grad i (K := fun T => jnK i (T / 298.15)) (R := fun t p => (w t p).density) (RT := fun t p => (w t p).densityT) (RP := fun t p => (w t p).densityP)
       (K1 := fun T => jnKt i (T / 298.15) / 298.15) (hK i) hw.rho hρ
  · refine Grad.sum _ fun i hi => (termT_grad i (K1 := fun T => jnKt i (T / 298.15) / 298.15) (R := fun t p => (w t p).density) (RT := fun t p => (w t p).densityT) (RP := fun t p => (w t p).densityP)
      (hK i) (hK1 i) hw.rho hw.rhoT hρ).congr ?_ ?_
    · ring
    · have h := hk i hi
      beta_reduce
      generalize ((w T P).density / 1000) ^ i = r
      generalize jnK i (T / 298.15) = k at h ⊢
      field_simp
  · refine Grad.sum _ fun i hi => (termP_grad i (R := fun t p => (w t p).density) (RT := fun t p => (w t p).densityT) (RP := fun t p => (w t p).densityP)
      (K1 := fun T => jnKt i (T / 298.15) / 298.15) (hK i) hw.rho hw.rhoP hρ).congr ?_ ?_
    · have h := hk i hi
      beta_reduce
      generalize ((w T P).density / 1000) ^ i = r
      generalize jnK i (T / 298.15) = k at h ⊢
      field_simp
    · generalize ((w T P).density / 1000) ^ i = r
      field_simp

/-- A water with constant expansion and compressibility coefficients per volume. -/
noncomputable def linearWater (t p : ℝ) : WState :=
  { temperature := t, volume := 0, entropy := 0, helmholtz := 0, internalEnergy := 0, enthalpy := 0, gibbs := 0,
    cv := 0, cp := 0, density := 1000 - (t - 298.15) + (p - 1), densityT := -1, densityP := 1, densityTT := 0, densityTP := 0,
    densityPP := 0, pressure := p, pressureT := 0, pressureD := 0, pressureTT := 0, pressureTD := 0, pressureDD := 0 }

lemma linearWater_jet (T P : ℝ) : DensityJet linearWater T P := by
  refine ⟨?_, Grad.const _, Grad.const _⟩
  refine (((Grad.const 1000).sub (Grad.fstG.sub (Grad.const 298.15))).add (Grad.sndG.sub (Grad.const 1))).congr ?_ ?_ <;>
    norm_num [linearWater]

example : ElectroConsistent (fun t p => johnsonNorton t (linearWater t p)) 298.15 1 := by
  refine C80_partial _ _ _ (by norm_num) (linearWater_jet _ _) (by norm_num [linearWater]) (by norm_num [linearWater]) ?_ ?_
  · intro i hi
    have : i < 5 := Finset.mem_range.mp hi
    interval_cases i <;> norm_num [jnK, jnA]
  · norm_num [johnsonNorton, bornFunctions, Finset.sum_range_succ, linearWater, jnK, jnA]

/-- A zero of the fourth temperature polynomial, near 511 K. -/
noncomputable def jnRoot : ℝ :=
  (-0.6887359646e+02 - Real.sqrt (0.6887359646e+02 ^ 2 - 4 * (-0.3786202045e+02) * (-0.2729401652e+02))) / (2 * (-0.2729401652e+02))

lemma jnRoot_pos : 0 < jnRoot := by
  unfold jnRoot
  have := Real.sqrt_nonneg (0.6887359646e+02 ^ 2 - 4 * (-0.3786202045e+02) * (-0.2729401652e+02))
  apply div_pos_of_neg_of_neg <;> norm_num at * <;> linarith

lemma jnRoot_eq : jnA 8 + jnA 9 * jnRoot + jnA 10 * jnRoot ^ 2 = 0 := by
  have hs := Real.sq_sqrt (show (0 : ℝ) ≤ 0.6887359646e+02 ^ 2 - 4 * (-0.3786202045e+02) * (-0.2729401652e+02) by norm_num)
  unfold jnRoot jnA
  generalize Real.sqrt (0.6887359646e+02 ^ 2 - 4 * (-0.3786202045e+02) * (-0.2729401652e+02)) = s at *
  norm_num at hs ⊢
  linarith

lemma jnRoot_bounds : 1.7 < jnRoot ∧ jnRoot < 1.73 := by
  have h1 : (24.6 : ℝ) < Real.sqrt (0.6887359646e+02 ^ 2 - 4 * (-0.3786202045e+02) * (-0.2729401652e+02)) :=
    Real.lt_sqrt_of_sq_lt (by norm_num)
  have h2 : Real.sqrt (0.6887359646e+02 ^ 2 - 4 * (-0.3786202045e+02) * (-0.2729401652e+02)) < (24.9 : ℝ) :=
    (Real.sqrt_lt' (by norm_num)).mpr (by norm_num)
  unfold jnRoot
  generalize Real.sqrt (0.6887359646e+02 ^ 2 - 4 * (-0.3786202045e+02) * (-0.2729401652e+02)) = s at *
  constructor
  · rw [lt_div_iff_of_neg (by norm_num)]; norm_num at *; linarith
  · rw [div_lt_iff_of_neg (by norm_num)]; norm_num at *; linarith

lemma jnK4_root : jnK 4 jnRoot = 0 := by
  have h := jnRoot_eq
  have h0 := jnRoot_pos.ne'
  simp only [jnK]
  field_simp
  linarith

lemma jnKt4_root : jnKt 4 jnRoot ≠ 0 := by
  have h := jnRoot_eq
  have h0 := jnRoot_pos.ne'
  intro hk
  simp only [jnKt] at hk
  field_simp at hk
  norm_num [jnA] at h hk
  have : jnRoot = 2 * 37.86202045 / 68.87359646 := by linarith
  rw [this] at h
  norm_num at h

/-- **C80 refuted**: where the fourth temperature polynomial vanishes the quotient k'/k drops its term from the mixed derivative of the
dielectric constant (in the code the quotient is infinite and the derivative not a number). -/
theorem C80_refuted : ¬ ∀ (w : ℝ → ℝ → WState) (T P : ℝ), 0 < T → DensityJet w T P → 0 < (w T P).density → 0 < (w T P).densityP →
    Grad (fun t p => (johnsonNorton t (w t p)).epsilonT) (johnsonNorton T (w T P)).epsilonTT (johnsonNorton T (w T P)).epsilonTP T P := by
  intro H
  obtain ⟨T, hTdef⟩ : ∃ T, T = jnRoot * 298.15 := ⟨_, rfl⟩
  have hT0 : 0 < T := by rw [hTdef]; exact mul_pos jnRoot_pos (by norm_num)
  have hq : T / 298.15 = jnRoot := by rw [hTdef]; field_simp
  set w : ℝ → ℝ → WState := linearWater with hw
  obtain ⟨P, hP⟩ : ∃ P, P = T := ⟨_, rfl⟩
  have hρ : (w T P).density = 1297.15 := by simp only [hw, linearWater, hP]; ring
  have hρ0 : (w T P).density ≠ 0 := by rw [hρ]; norm_num
  have hT' : T / 298.15 ≠ 0 := by rw [hq]; exact jnRoot_pos.ne'
  have hK (i : ℕ) : HasDerivAt (fun T => jnK i (T / 298.15)) (jnKt i (T / 298.15) / 298.15) T := scaled (jnK_deriv i hT')
  have hK1 (i : ℕ) : HasDerivAt (fun T => jnKt i (T / 298.15) / 298.15) (jnKtt i (T / 298.15) / 298.15 / 298.15) T :=
    (scaled (jnKt_deriv i hT')).div_const _
  have h1 := H w T P hT0 (linearWater_jet _ _) (by rw [hρ]; norm_num) (by norm_num [hw, linearWater])
  have h2 : Grad (fun t p => (johnsonNorton t (w t p)).epsilonT) _ _ T P :=
    Grad.sum (Finset.range 5) fun i _ =>
      termT_grad i (K1 := fun T => jnKt i (T / 298.15) / 298.15) (R := fun t p => (w t p).density) (RT := fun t p => (w t p).densityT) (RP := fun t p => (w t p).densityP)
        (hK i) (hK1 i) (linearWater_jet T P).rho (linearWater_jet T P).rhoT hρ0
  have h := h1.dy.unique h2.dy
  obtain ⟨hl, hu⟩ := jnRoot_bounds
  have h0 := jnRoot_pos
  have hk0 : jnK 0 jnRoot ≠ 0 := one_ne_zero
  have hk1 : jnK 1 jnRoot ≠ 0 := div_ne_zero (by norm_num [jnA]) h0.ne'
  have hk2 : jnK 2 jnRoot ≠ 0 := by
    intro h
    simp only [jnK, jnA] at h
    field_simp at h
    norm_num at h hl hu
    nlinarith [h]
  have hk3 : jnK 3 jnRoot ≠ 0 := by
    intro h
    simp only [jnK, jnA] at h
    field_simp at h
    norm_num at h hl hu
    nlinarith [h, mul_pos h0 h0, mul_pos (mul_pos h0 h0) h0]
  have hk4 := jnK4_root
  have hk4' := jnKt4_root
  have hR : (w T P).density = 1297.15 := hρ
  have hRT : (w T P).densityT = -1 := rfl
  have hRP : (w T P).densityP = 1 := rfl
  have hRTP : (w T P).densityTP = 0 := rfl
  have hRTP' : (linearWater T P).densityTP = 0 := rfl
  simp only [johnsonNorton, bornFunctions, hq, hR, hRT, hRP, hRTP, hRTP'] at h
  simp only [Finset.sum_range_succ, Finset.sum_range_zero, hk4] at h
  generalize jnK 0 jnRoot = k0 at *
  generalize jnK 1 jnRoot = k1 at *
  generalize jnK 2 jnRoot = k2 at *
  generalize jnK 3 jnRoot = k3 at *
  generalize jnKt 4 jnRoot = l4 at *
  apply hk4'
  push_cast at h
  norm_num at h
  field_simp at h
  linarith

end ThermoFun
